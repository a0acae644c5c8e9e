import Verif.Model.Session
/-!
# Frame reasoning about set-up code: a reflexive and transitive relation between the sessions before and after
-/

namespace MysqlCdc

/-- Every run of `p` relates the session before and after by `R`. -/
def SRel {α : Type} (R : Sess → Sess → Prop) (p : S α) : Prop := ∀ s, R s (p s).2

structure Preorder' (R : Sess → Sess → Prop) : Prop where
  refl : ∀ s, R s s
  trans : ∀ {a b c}, R a b → R b c → R a c

theorem S.bind_eq {α β : Type} (p : S α) (f : α → S β) (s : Sess) : (p >>= f) s =
    match p s with
    | (.ok a, s) => f a s
    | (.err e, s) => (.err e, s)
    | (.panic, s) => (.panic, s)
    | (.hang, s) => (.hang, s) := rfl

theorem S.pure_eq {α : Type} (a : α) (s : Sess) : (pure a : S α) s = (.ok a, s) := rfl

section
variable {R : Sess → Sess → Prop} (hR : Preorder' R)
include hR

theorem SRel.bind {α β : Type} {p : S α} {f : α → S β} (hp : SRel R p) (hf : ∀ a, SRel R (f a)) : SRel R (p >>= f) := by
  intro s
  rw [S.bind_eq]
  have h := hp s
  revert h
  rcases p s with ⟨r, s'⟩
  intro h
  cases r with
  | ok a => exact hR.trans h (hf a s')
  | err e => exact h
  | panic => exact h
  | hang => exact h

theorem SRel.pure {α : Type} (a : α) : SRel R (pure a : S α) := fun s => hR.refl s
theorem SRel.lift {α : Type} (r : Res α) : SRel R (S.lift r) := fun s => hR.refl s
theorem SRel.fail {α : Type} (e : Err) : SRel R (S.fail e : S α) := fun s => hR.refl s
theorem SRel.client : SRel R S.client := fun s => hR.refl s

end

/-- Relations that reads keep. -/
structure ReadFrame (R : Sess → Sess → Prop) : Prop extends Preorder' R where
  read : SRel R S.readPacket

/-- Relations that reads and writes keep. -/
structure Frame (R : Sess → Sess → Prop) : Prop extends ReadFrame R where
  write : ∀ packet n, SRel R (S.writePacket packet n)

/-- Relations that the changes to the client keep too. -/
structure FullFrame (R : Sess → Sess → Prop) : Prop extends Frame R where
  reset : SRel R resetOnReconnect
  adjust : SRel R adjustStartingPosition

section
variable {R : Sess → Sess → Prop} (hR : ReadFrame R)
include hR

theorem ReadFrame.skipMetadata : SRel R (skipMetadata : S Unit) := by
  intro s
  induction hk : s.chan.input.length using Nat.strongRecOn generalizing s with
  | _ k ih =>
    rw [MysqlCdc.skipMetadata]
    have h := hR.read s
    revert h
    rcases S.readPacket s with ⟨r, s'⟩
    intro h
    cases r with
    | ok a =>
      obtain ⟨packet, n⟩ := a
      cases packet with
      | nil => exact h
      | cons b bs =>
        simp only
        split
        · exact h
        · split
          · rename_i hlt
            exact hR.trans h (ih _ (hk ▸ hlt) s' rfl)
          · exact h
    | err e => exact h
    | panic => exact h
    | hang => exact h

theorem ReadFrame.readRows : SRel R readRows := by
  intro s
  induction hk : s.chan.input.length using Nat.strongRecOn generalizing s with
  | _ k ih =>
    rw [MysqlCdc.readRows]
    have h := hR.read s
    revert h
    rcases S.readPacket s with ⟨r, s'⟩
    intro h
    cases r with
    | ok a =>
      obtain ⟨packet, n⟩ := a
      simp only
      cases checkErrorPacket packet "Query result set error." with
      | ok u =>
        cases packet with
        | nil => exact h
        | cons b bs =>
          simp only
          split
          · exact h
          · cases parseResultSetRow.run (b :: bs) with
            | ok row =>
              simp only
              split
              · rename_i hlt
                have h2 := hR.trans h (ih _ (hk ▸ hlt) s' rfl)
                revert h2
                rcases MysqlCdc.readRows s' with ⟨r, s''⟩
                intro h2
                cases r <;> exact h2
              · exact h
            | err e => exact h
            | panic => exact h
            | hang => exact h
      | err e => exact h
      | panic => exact h
      | hang => exact h
    | err e => exact h
    | panic => exact h
    | hang => exact h

theorem ReadFrame.readResultSet : SRel R readResultSet := by
  have hP := hR.toPreorder'
  refine .bind hP hR.read fun _ => .bind hP (.lift hP _) fun _ => .bind hP hR.skipMetadata fun _ => hR.readRows

end

section
variable {R : Sess → Sess → Prop} (hR : Frame R)
include hR

theorem Frame.authenticateSha256 (m : Mode) (c : Crypto) (packet : Bytes) (scramble : RStr) (n : Nat) (ssl : Bool) :
    SRel R (authenticateSha256 m c packet scramble n ssl) := by
  have hP := hR.toPreorder'
  refine .bind hP (.lift hP _) fun done => ?_
  cases done
  · refine .bind hP (.client hP) fun self => ?_
    cases ssl
    · exact .bind hP (hR.write _ _) fun _ => .bind hP hR.read fun _ => .bind hP (.lift hP _) fun _ => .bind hP (.lift hP _) fun _ =>
        .bind hP (.lift hP _) fun _ => .bind hP (hR.write _ _) fun _ => .bind hP hR.read fun _ => .lift hP _
    · exact .bind hP (hR.write _ _) fun _ => .bind hP hR.read fun _ => .lift hP _
  · exact .pure hP _

theorem Frame.handleAuthPluginSwitch (m : Mode) (c : Crypto) (switch : AuthPluginSwitchPacket) (n : Nat) (ssl : Bool) :
    SRel R (handleAuthPluginSwitch m c switch n ssl) := by
  have hP := hR.toPreorder'
  refine .bind hP (.lift hP _) fun _ => .bind hP (.client hP) fun _ => .bind hP (.lift hP _) fun _ => .bind hP (hR.write _ _) fun _ =>
    .bind hP hR.read fun _ => .bind hP (.lift hP _) fun _ => ?_
  split
  · exact .bind hP (.lift hP _) fun _ => hR.authenticateSha256 m c _ _ _ _
  · exact .pure hP _

theorem Frame.negotiateSsl (m : Mode) (h : HandshakePacket) (n : Nat) : SRel R (negotiateSsl m h n) := by
  have hP := hR.toPreorder'
  refine .bind hP (.client hP) fun self => ?_
  split
  · dsimp only
    split
    · exact .fail hP _
    · split
      · exact .bind hP (hR.write _ _) fun _ => .bind hP (.lift hP _) fun _ => .lift hP _
      · exact .pure hP _
  · exact .pure hP _

theorem Frame.authenticate (m : Mode) (c : Crypto) (h : HandshakePacket) (p : AuthPlugin) (n : Nat) :
    SRel R (authenticate m c h p n) := by
  have hP := hR.toPreorder'
  refine .bind hP (hR.negotiateSsl m h n) fun _ => .bind hP (.client hP) fun _ => .bind hP (.lift hP _) fun _ =>
    .bind hP (hR.write _ _) fun _ => .bind hP hR.read fun _ => .bind hP (.lift hP _) fun _ => .bind hP (.lift hP _) fun _ => ?_
  split
  · exact .pure hP _
  · split
    · exact .bind hP (.lift hP _) fun _ => .bind hP (.lift hP _) fun _ => hR.handleAuthPluginSwitch m c _ _ _
    · exact .bind hP (.lift hP _) fun _ => hR.authenticateSha256 m c _ _ _ _

theorem Frame.connect (m : Mode) (c : Crypto) : SRel R (connect m c) := by
  have hP := hR.toPreorder'
  exact .bind hP hR.read fun _ => .bind hP (.lift hP _) fun _ => .bind hP (.lift hP _) fun _ => .bind hP (.lift hP _) fun _ =>
    .bind hP (.lift hP _) fun _ => .bind hP (hR.authenticate m c _ _ _) fun _ => .pure hP _

theorem Frame.setMasterHeartbeat : SRel R setMasterHeartbeat := by
  have hP := hR.toPreorder'
  exact .bind hP (.client hP) fun _ => .bind hP (hR.write _ _) fun _ => .bind hP hR.read fun _ => .lift hP _

theorem Frame.setMasterBinlogChecksum : SRel R setMasterBinlogChecksum := by
  have hP := hR.toPreorder'
  exact .bind hP (hR.write _ _) fun _ => .bind hP hR.read fun _ => .bind hP (.lift hP _) fun _ => .bind hP (hR.write _ _) fun _ =>
    .bind hP hR.readResultSet fun _ => .bind hP (.lift hP _) fun _ => .lift hP _

theorem Frame.replicateMysql (m : Mode) (id : Nat) : SRel R (replicateMysql m id) := by
  have hP := hR.toPreorder'
  refine .bind hP (.client hP) fun self => ?_
  dsimp only
  split
  · split
    · exact .bind hP (.lift hP _) fun _ => hR.write _ _
    · exact .fail hP _
  · exact hR.write _ _

theorem Frame.simpleQuery (sql : RStr) (msg : String) : SRel R (simpleQuery sql msg) := by
  have hP := hR.toPreorder'
  exact .bind hP (hR.write _ _) fun _ => .bind hP hR.read fun _ => .lift hP _

theorem Frame.replicateMariadb (id : Nat) : SRel R (replicateMariadb id) := by
  have hP := hR.toPreorder'
  refine .bind hP (hR.simpleQuery _ _) fun _ => .bind hP (.client hP) fun self => ?_
  dsimp only
  split
  · split
    · refine .bind hP ?_ fun _ => hR.write _ _
      exact .bind hP (hR.simpleQuery _ _) fun _ => .bind hP (hR.simpleQuery _ _) fun _ => .bind hP (hR.simpleQuery _ _) fun _ =>
        .bind hP (hR.write _ _) fun _ => .bind hP hR.read fun _ => .lift hP _
    · exact .fail hP _
  · exact hR.write _ _

end

/-- Reading and writing leave the client alone. -/
theorem frame_client : Frame fun s s' => s'.client = s.client where
  refl _ := rfl
  trans h1 h2 := h2.trans h1
  read _ := rfl
  write _ _ _ := rfl

theorem Frame.and {R R' : Sess → Sess → Prop} (h : Frame R) (h' : Frame R') : Frame fun a b => R a b ∧ R' a b where
  refl s := ⟨h.refl s, h'.refl s⟩
  trans h1 h2 := ⟨h.trans h1.1 h2.1, h'.trans h1.2 h2.2⟩
  read s := ⟨h.read s, h'.read s⟩
  write p n s := ⟨h.write p n s, h'.write p n s⟩

theorem Frame.adjustStartingPosition {R : Sess → Sess → Prop} (hR : Frame R)
    (position : ∀ s f p, R s { s with client := s.client.setPosition f p }) : SRel R adjustStartingPosition := by
  have hP := hR.toPreorder'
  have hC := hR.and frame_client
  intro s
  unfold MysqlCdc.adjustStartingPosition
  rw [S.bind_eq]
  simp only [S.client]
  split
  · exact hR.refl s
  · split
    · exact hR.refl s
    · have h0 : SRel _ (S.writePacket (queryCommand "show master status".toList) 0 >>= fun _ => MysqlCdc.readResultSet) :=
        .bind hC.toPreorder' (hC.write _ _) fun _ => hC.readResultSet
      -- the rest changes the client it has looked at
      suffices H : ∀ (rows : List (List RStr)) (s' : Sess), s'.client = s.client → R s' ((do
          if rows.length ≠ 1 then S.fail (.str "Could not read master binlog position.")
          else
            let filename ← S.lift (cellAt rows 0 0)
            S.setClient (s.client.setPosition filename s.client.options.binlog.position)
            let text ← S.lift (cellAt rows 0 1)
            let position ← S.lift (parseUnsigned 32 text)
            S.setClient (s.client.setPosition filename position) : S Unit) s').2 by
        have h1 := h0 s
        rw [S.bind_eq] at h1 ⊢
        rcases hw : S.writePacket (queryCommand "show master status".toList) 0 s with ⟨r, s1⟩
        rw [hw] at h1
        cases r with
        | ok u =>
          simp only at h1 ⊢
          rw [S.bind_eq]
          rcases hr : MysqlCdc.readResultSet s1 with ⟨r, s2⟩
          rw [hr] at h1
          cases r with
          | ok rows => exact hR.trans h1.1 (H rows s2 h1.2)
          | err e => exact h1.1
          | panic => exact h1.1
          | hang => exact h1.1
        | err e => exact h1.1
        | panic => exact h1.1
        | hang => exact h1.1
      intro rows s' hs'
      split
      · exact hR.refl s'
      · have h2 : ∀ f p, R s' { s' with client := s.client.setPosition f p } := by
          intro f p
          rw [← hs']
          exact position s' f p
        simp only [S.bind_eq, S.lift, S.setClient]
        cases cellAt rows 0 0 with
        | ok f =>
          simp only
          cases cellAt rows 0 1 with
          | ok t =>
            simp only
            cases parseUnsigned 32 t with
            | ok p => exact h2 f p
            | err e => exact h2 f _
            | panic => exact h2 f _
            | hang => exact h2 f _
          | err e => exact h2 f _
          | panic => exact h2 f _
          | hang => exact h2 f _
        | err e => exact hR.refl s'
        | panic => exact hR.refl s'
        | hang => exact hR.refl s'

section
variable {R : Sess → Sess → Prop} (hR : FullFrame R)
include hR

theorem FullFrame.setUp (m : Mode) (c : Crypto) : SRel R (setUp m c) := by
  have hP := hR.toPreorder'
  have hF := hR.toFrame
  refine .bind hP (hF.connect m c) fun p => .bind hP hR.reset fun _ => .bind hP hR.adjust fun _ =>
    .bind hP hF.setMasterHeartbeat fun _ => .bind hP hF.setMasterBinlogChecksum fun _ => .bind hP (.client hP) fun self => ?_
  cases p
  · exact .bind hP (hF.replicateMariadb _) fun _ => .pure hP _
  · exact .bind hP (hF.replicateMysql m _) fun _ => .pure hP _

end

/-- A relation between clients that set-up keeps holds of `replicate`. -/
theorem replicate_rel {Q : Client → Client → Prop} (m : Mode) (c : Crypto) (self : Client) (net : Except IoKind Channel)
    (hrefl : ∀ a, Q a a) (hF : FullFrame fun s s' => Q s.client s'.client) : Q self (self.replicate m c net).2 := by
  unfold Client.replicate
  cases Channel.open self.options net with
  | ok chan =>
    have h := hF.setUp m c { client := self, chan := chan }
    revert h
    simp only
    rcases setUp m c { client := self, chan := chan } with ⟨r, s⟩
    intro h
    cases r <;> exact h
  | err e => exact hrefl _
  | panic => exact hrefl _
  | hang => exact hrefl _

/-- What `replicate` may do to the client: forget the pending GTIDs and adjust the position. -/
theorem replicate_client (m : Mode) (c : Crypto) (self : Client) (net : Except IoKind Channel) :
    let after := (self.replicate m c net).2
    (∃ f p, after.options = { self.options with binlog := { self.options.binlog with filename := f, position := p } }) ∧
      (after.mysqlGtid = none ∨ after.mysqlGtid = self.mysqlGtid) ∧
      (after.mariaGtid = none ∨ after.mariaGtid = self.mariaGtid) := by
  let Q (a b : Client) : Prop :=
    (∃ f p, b.options = { a.options with binlog := { a.options.binlog with filename := f, position := p } }) ∧
      (b.mysqlGtid = none ∨ b.mysqlGtid = a.mysqlGtid) ∧ (b.mariaGtid = none ∨ b.mariaGtid = a.mariaGtid)
  have hrefl : ∀ a, Q a a := fun a => ⟨⟨_, _, rfl⟩, Or.inr rfl, Or.inr rfl⟩
  have hF : Frame fun s s' => Q s.client s'.client :=
    { refl := fun s => hrefl _
      trans := by
        rintro a b c ⟨⟨f, p, h1⟩, h2, h3⟩ ⟨⟨f', p', h4⟩, h5, h6⟩
        refine ⟨⟨f', p', by rw [h4, h1]⟩, ?_, ?_⟩
        · rcases h5 with h5 | h5
          · exact Or.inl h5
          · rw [h5]; exact h2
        · rcases h6 with h6 | h6
          · exact Or.inl h6
          · rw [h6]; exact h3
      read := fun s => hrefl _
      write := fun _ _ s => hrefl _ }
  exact replicate_rel m c self net hrefl
    { hF with
      reset := fun s => ⟨⟨_, _, rfl⟩, Or.inl rfl, Or.inl rfl⟩
      adjust := hF.adjustStartingPosition fun s f p => ⟨⟨f, p, rfl⟩, Or.inr rfl, Or.inr rfl⟩ }

/-- With a known position `replicate` leaves the options alone. -/
theorem replicate_keeps_options (m : Mode) (c : Crypto) (self : Client) (net : Except IoKind Channel)
    (h : self.options.binlog.startingStrategy ≠ .fromEnd ∨ self.options.binlog.filename ≠ []) :
    (self.replicate m c net).2.options = self.options := by
  let Q (a b : Client) : Prop :=
    (a.options.binlog.startingStrategy ≠ .fromEnd ∨ a.options.binlog.filename ≠ []) → b.options = a.options
  have hF : FullFrame fun s s' => Q s.client s'.client :=
    { refl := fun s _ => rfl
      trans := fun {a b c} h1 h2 h => by rw [h2 (by rw [h1 h]; exact h), h1 h]
      read := fun s _ => rfl
      write := fun _ _ s _ => rfl
      reset := fun s _ => rfl
      adjust := by
        intro s h
        unfold adjustStartingPosition
        rw [S.bind_eq]
        simp only [S.client]
        split
        · rfl
        · rename_i h1
          rw [if_pos (by
            rcases h with h | h
            · exact absurd h h1
            · exact h)]
          rfl }
  exact replicate_rel m c self net (fun a _ => rfl) hF h

end MysqlCdc
