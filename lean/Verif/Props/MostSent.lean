import Verif.Props.Causality
import Verif.Spec.MostSent
/-!
# C145: how many packets the client sends to set up replication
-/

namespace MysqlCdc

open Spec

namespace SendsAtMost

/-- What does not return does not return behind something. -/
theorem never_bind {α β : Type} {p : S α} {f : α → S β} (hf : ∀ a s b, (f a s).1 ≠ .ok b) (s : Sess) (b : β) : ((p >>= f) s).1 ≠ .ok b := by
  rw [S.bind_eq]
  rcases p s with ⟨r, s'⟩
  cases r with
  | ok a => exact hf a s' b
  | err e => simp
  | panic => simp
  | hang => simp

/-- Negotiating encryption sends something only if it does not return. -/
theorem ssl_returns (m : Mode) (h : HandshakePacket) (n : Nat) (s : Sess) (x : Bool × Nat) (hx : (negotiateSsl m h n s).1 = .ok x) :
    (negotiateSsl m h n s).2.chan.trace = s.chan.trace ∧ (s.client.options.sslMode = .disabled ∨ s.client.options.sslMode = .ifAvailable) := by
  revert hx
  unfold negotiateSsl
  rw [S.bind_eq]
  simp only [S.client]
  by_cases h1 : s.client.options.sslMode = .disabled
  · rw [if_neg (by simp [h1])]
    exact fun _ => ⟨rfl, .inl h1⟩
  · rw [if_pos (by simp [h1])]
    split
    · intro hx; cases hx
    · next h2 =>
      split
      · intro hx
        exfalso
        exact never_bind (fun _ => never_bind fun _ _ _ h => by cases h) s x hx
      · next h3 =>
        intro _
        refine ⟨rfl, .inr ?_⟩
        revert h1 h2 h3
        cases s.client.options.sslMode <;> simp [SslMode.code]

/-- Where the first part sends nothing if it returns. -/
theorem bindQuiet {α β : Type} {j k : Nat} {p : S α} {f : α → S β} {s : Sess} (hp : sentCount (p s).2.chan.trace ≤ sentCount s.chan.trace + j)
    (hq : ∀ a, (p s).1 = .ok a → (p s).2.chan.trace = s.chan.trace) (hf : ∀ a, SendsAtMost k (f a)) (hj : j ≤ k) :
    sentCount ((p >>= f) s).2.chan.trace ≤ sentCount s.chan.trace + k := by
  rw [S.bind_eq]
  revert hp hq
  rcases p s with ⟨r, s'⟩
  intro hp hq
  cases r with
  | ok a => have := hf a s'; rw [hq a rfl] at this; exact this
  | err e => simp only at hp ⊢; omega
  | panic => simp only at hp ⊢; omega
  | hang => simp only at hp ⊢; omega

theorem authenticate4 (m : Mode) (c : Crypto) (h : HandshakePacket) (p : AuthPlugin) (n : Nat) : SendsAtMost 4 (MysqlCdc.authenticate m c h p n) := by
  intro s
  refine bindQuiet (ssl m h n s) (fun a ha => (ssl_returns m h n s a ha).1) (fun _ => ?_) (by omega)
  refine .bind (j := 0) (k := 4) .client fun _ => .bind (j := 0) (k := 4) (.lift _) fun _ =>
    .bind (j := 1) (k := 3) (.write _ _) fun _ => .bind (j := 0) (k := 3) .read fun _ =>
    .bind (j := 0) (k := 3) (.lift _) fun _ => .bind (j := 0) (k := 3) (.lift _) fun _ => .ite ((pure _).mono (by omega)) (.ite ?_ ?_)
  · exact .bind (j := 0) (k := 3) (.lift _) fun _ => .bind (j := 0) (k := 3) (.lift _) fun _ => switch m c _ _ _
  · exact (bind (j := 0) (k := 2) (.lift _) fun _ => sha256 m c _ _ _ _).mono (by omega)

theorem connect4 (m : Mode) (c : Crypto) : SendsAtMost 4 (MysqlCdc.connect m c) :=
  .bind (j := 0) (k := 4) .read fun _ => .bind (j := 0) (k := 4) (.lift _) fun _ => .bind (j := 0) (k := 4) (.lift _) fun _ =>
    .bind (j := 0) (k := 4) (.lift _) fun _ => .bind (j := 0) (k := 4) (.lift _) fun _ => .bind (j := 4) (k := 0) (authenticate4 m c _ _ _) fun _ => .pure _

end SendsAtMost

/-- Sends at most `k` packets if the client is as `P` says. -/
def SendsFrom {α : Type} (P : Client → Prop) (k : Nat) (p : S α) : Prop := ∀ s, P s.client → sentCount (p s).2.chan.trace ≤ sentCount s.chan.trace + k

namespace SendsFrom

variable {P : Client → Prop}

theorem bind {α β : Type} {j k : Nat} {p : S α} {f : α → S β} (hp : SendsFrom P j p) (hc : ∀ s, P s.client → ∀ a, (p s).1 = .ok a → P (p s).2.client)
    (hf : ∀ a, SendsFrom P k (f a)) : SendsFrom P (j + k) (p >>= f) := by
  intro s hs
  rw [S.bind_eq]
  have h := hp s hs
  have h' := hc s hs
  revert h h'
  rcases p s with ⟨r, s'⟩
  intro h h'
  simp only at h h'
  cases r with
  | ok a => have := hf a s' (h' a rfl); simp only; omega
  | err e => simp only; omega
  | panic => simp only; omega
  | hang => simp only; omega

/-- Of a part that leaves the client alone. -/
theorem step {α β : Type} {j k : Nat} {p : S α} {f : α → S β} (hp : SendsAtMost j p) (hc : ∀ s, (p s).2.client = s.client)
    (hf : ∀ a, SendsFrom P k (f a)) : SendsFrom P (j + k) (p >>= f) :=
  bind (fun s _ => hp s) (fun s hs _ _ => by rw [hc s]; exact hs) hf

theorem client {β : Type} {k : Nat} {f : Client → S β} (hf : ∀ c, P c → SendsFrom P k (f c)) : SendsFrom P k (S.client >>= f) :=
  fun s hs => hf s.client hs s hs

/-- Asking a MariaDB for the log. -/
theorem mariadb (id : Nat) (o : BinlogOptions)
    (hP : ∀ c, P c → c.options.binlog.startingStrategy = o.startingStrategy ∧ c.options.binlog.gtidList = o.gtidList) :
    SendsFrom P (if o.startingStrategy = .fromGtid then if o.gtidList = none then 1 else 6 else 2) (replicateMariadb id) := by
  have h : SendsFrom P (1 + (if o.startingStrategy = .fromGtid then if o.gtidList = none then 0 else 5 else 1)) (replicateMariadb id) := by
    refine step (SendsAtMost.query _ _) (frame_client.simpleQuery _ _) fun _ => client fun c hc => ?_
    obtain ⟨h1, h2⟩ := hP c hc
    dsimp only
    rw [h1, h2]
    split
    · cases o.gtidList with
      | none => exact fun s _ => SendsAtMost.fail _ s
      | some list =>
        rw [if_neg (by simp)]
        refine fun s _ => SendsAtMost.bind (j := 4) (k := 1) ?_ (fun _ => .write _ _) s
        exact .bind (j := 1) (k := 3) (.query _ _) fun _ => .bind (j := 1) (k := 2) (.query _ _) fun _ => .bind (j := 1) (k := 1) (.query _ _) fun _ =>
          .bind (.write _ _) fun _ => .bind .read fun _ => .lift _
    · exact fun s _ => SendsAtMost.write _ _ s
  intro s hs
  have := h s hs
  revert this
  split
  · split <;> intro this <;> omega
  · intro this; omega

end SendsFrom

/-- Sends at most one packet and does not return, if the client is as `P` says. -/
def StopsFrom {α : Type} (P : Client → Prop) (p : S α) : Prop :=
  ∀ s, P s.client → sentCount (p s).2.chan.trace ≤ sentCount s.chan.trace + 1 ∧ ∀ a, (p s).1 ≠ .ok a

namespace StopsFrom

variable {P : Client → Prop}

/-- What comes behind does not matter. -/
theorem first {α β : Type} {p : S α} {f : α → S β} (hp : StopsFrom P p) : StopsFrom P (p >>= f) := by
  intro s hs
  have h := hp s hs
  rw [S.bind_eq]
  revert h
  rcases p s with ⟨r, s'⟩
  rintro ⟨h1, h2⟩
  cases r with
  | ok a => exact absurd rfl (h2 a)
  | err e => exact ⟨h1, by simp⟩
  | panic => exact ⟨h1, by simp⟩
  | hang => exact ⟨h1, by simp⟩

theorem later {α β : Type} {p : S α} {f : α → S β} (hp : SendsAtMost 0 p) (hc : ∀ s, (p s).2.client = s.client) (hf : ∀ a, StopsFrom P (f a)) :
    StopsFrom P (p >>= f) := by
  intro s hs
  have h := hp s
  have hc := hc s
  rw [S.bind_eq]
  revert h hc
  rcases p s with ⟨r, s'⟩
  intro h hc
  simp only at h hc
  cases r with
  | ok a =>
    have := hf a s' (by rw [hc]; exact hs)
    exact ⟨by simp only; omega, this.2⟩
  | err e => exact ⟨by simp only; omega, by simp⟩
  | panic => exact ⟨by simp only; omega, by simp⟩
  | hang => exact ⟨by simp only; omega, by simp⟩

theorem connect (m : Mode) (c : Crypto) (hP : ∀ c, P c → ¬(c.options.sslMode = .disabled ∨ c.options.sslMode = .ifAvailable)) :
    StopsFrom P (MysqlCdc.connect m c) := by
  refine later .read (frame_client.read) fun _ => later (.lift _) (fun _ => rfl) fun _ => later (.lift _) (fun _ => rfl) fun _ =>
    later (.lift _) (fun _ => rfl) fun _ => later (.lift _) (fun _ => rfl) fun _ => first (first ?_)
  exact fun s hs => ⟨SendsAtMost.ssl m _ _ s, fun a ha => hP _ hs (SendsAtMost.ssl_returns m _ _ s a ha).2⟩

end StopsFrom

/-- **C145.** Whatever the server sends, whatever the connection does with what is written, and whatever became of the client before: setting up replication
sends no more packets than its options allow for. -/
theorem C145_at_most (m : Mode) (c : Crypto) (s : Sess) : sentCount (setUp m c s).2.chan.trace ≤ sentCount s.chan.trace + mostSent s.client.options := by
  unfold mostSent
  split
  case isFalse hs =>
    exact (StopsFrom.first (StopsFrom.connect (P := fun x => x = s.client) m c fun x hx => hx ▸ hs) s rfl).1
  case isTrue hs =>
    clear hs
    rw [Nat.add_assoc, Nat.add_assoc]
    generalize ho : s.client.options.binlog = o
    -- what all clients have in common from here on
    let P : Client → Prop := fun x => x.options.binlog.startingStrategy = o.startingStrategy ∧ x.options.binlog.gtidList = o.gtidList
    have tail : ∀ provider : DatabaseProvider, SendsFrom P (3 + (if o.startingStrategy = .fromGtid then if o.gtidList = none then 1 else 6 else 2)) (do
        setMasterHeartbeat
        let checksum ← setMasterBinlogChecksum
        let self ← S.client
        let serverId := if self.options.blocking then self.options.serverId else 0
        match provider with
        | .mariaDB => replicateMariadb serverId
        | .mySQL => replicateMysql m serverId
        return checksum : S ChecksumType) := by
      intro provider
      rw [show 3 + (if o.startingStrategy = .fromGtid then if o.gtidList = none then 1 else 6 else 2) =
        1 + (2 + (if o.startingStrategy = .fromGtid then if o.gtidList = none then 1 else 6 else 2)) by omega]
      refine .step ?_ frame_client.setMasterHeartbeat fun _ => .step ?_ frame_client.setMasterBinlogChecksum fun _ => .client fun self hself => ?_
      · exact .bind (j := 0) (k := 1) .client fun _ => .bind (.write _ _) fun _ => .bind .read fun _ => .lift _
      · exact .bind (j := 1) (k := 1) (.write _ _) fun _ => .bind (j := 0) (k := 1) .read fun _ => .bind (j := 0) (k := 1) (.lift _) fun _ =>
          .bind (j := 1) (k := 0) (.write _ _) fun _ => .bind .result fun _ => .bind (.lift _) fun _ => .lift _
      · cases provider with
        | mariaDB =>
          exact .bind (k := 0) (SendsFrom.mariadb _ o fun _ h => h) (fun s' hs' _ _ => by rw [frame_client.replicateMariadb _ s']; exact hs')
            fun _ s' _ => SendsAtMost.pure _ s'
        | mySQL =>
          intro s' _
          refine Nat.le_trans (SendsAtMost.bind (j := 1) (k := 0) (SendsAtMost.mysql m _) (fun _ => .pure _) s') (Nat.add_le_add_left ?_ _)
          split
          · split <;> omega
          · omega
    -- behind the log-in
    have behind : ∀ (provider : DatabaseProvider) (s2 : Sess), s2.client.options.binlog = o →
        sentCount ((do
          adjustStartingPosition
          setMasterHeartbeat
          let checksum ← setMasterBinlogChecksum
          let self ← S.client
          let serverId := if self.options.blocking then self.options.serverId else 0
          match provider with
          | .mariaDB => replicateMariadb serverId
          | .mySQL => replicateMysql m serverId
          return checksum : S ChecksumType) s2).2.chan.trace ≤ sentCount s2.chan.trace + (3 + ((if o.startingStrategy = .fromEnd ∧ o.filename = [] then 1 else 0) +
            (if o.startingStrategy = .fromGtid then if o.gtidList = none then 1 else 6 else 2))) := by
      intro provider s2 h2
      have hadj : SendsFrom (fun x => x.options.binlog = o) (if o.startingStrategy = .fromEnd ∧ o.filename = [] then 1 else 0) adjustStartingPosition := by
        split
        · exact fun s' _ => SendsAtMost.adjust s'
        · next hne =>
          refine SendsFrom.client fun x hx => ?_
          rw [hx]
          split
          · exact fun s' _ => SendsAtMost.pure _ s'
          · next h3 =>
            rw [if_pos fun h4 => hne ⟨not_not.1 h3, h4⟩]
            exact fun s' _ => SendsAtMost.pure _ s'
      have hkeep : P (adjustStartingPosition s2).2.client := by
        have hF : Frame fun a b : Sess => ∃ f p, b.client = a.client.setPosition f p :=
          { refl := fun s => ⟨s.client.options.binlog.filename, s.client.options.binlog.position, rfl⟩
            trans := by
              rintro a b c ⟨f, p, h1⟩ ⟨f', p', h2⟩
              exact ⟨f', p', by rw [h2, h1]; rfl⟩
            read := fun s => ⟨s.client.options.binlog.filename, s.client.options.binlog.position, rfl⟩
            write := fun _ _ s => ⟨s.client.options.binlog.filename, s.client.options.binlog.position, rfl⟩ }
        obtain ⟨f, p, h⟩ := hF.adjustStartingPosition (fun s f p => ⟨f, p, rfl⟩) s2
        rw [h]
        exact ⟨by rw [← h2]; rfl, by rw [← h2]; rfl⟩
      have h3 := hadj s2 h2
      rw [S.bind_eq]
      revert h3 hkeep
      rcases adjustStartingPosition s2 with ⟨r, s3⟩
      intro hkeep h3
      simp only at hkeep h3
      cases r with
      | ok _ => exact Nat.le_trans (tail provider s3 hkeep) (by omega)
      | err e => simp only; omega
      | panic => simp only; omega
      | hang => simp only; omega
    have h1 := SendsAtMost.connect4 m c s
    have hc := frame_client.connect m c s
    unfold setUp
    rw [S.bind_eq]
    revert h1 hc
    rcases connect m c s with ⟨r, s1⟩
    intro h1 hc
    simp only at h1 hc
    cases r with
    | ok provider =>
      have := behind provider { s1 with client := { s1.client with transaction := false, mariaGtid := none, mysqlGtid := none } } (by rw [hc, ← ho])
      refine Nat.le_trans this ?_
      simp only
      omega
    | err e => simp only; omega
    | panic => simp only; omega
    | hang => simp only; omega

/-- **C145.** Whoever is at the other end and however they choose what to send by what they have been sent: so many rounds, and one, settle everything (cf.
`C133_any_peer`). -/
theorem C145_rounds (m : Mode) (c : Crypto) (s : Sess) (peer : Peer) :
    let wrote := fun x => (setUp m c (Sess.sent s x)).2.chan.output
    ∃ n script, n ≤ mostSent s.client.options + 1 ∧ script = peer.rounds wrote n ∧ peer.sends (wrote script) = script ∧
      (∀ k, peer.rounds wrote k <+: script) ∧ ∀ other, peer.sends (wrote other) = other → script <+: other := by
  intro wrote
  have least : ∀ other, peer.sends (wrote other) = other → ∀ k, peer.rounds wrote k <+: other := by
    intro other ho k
    induction k with
    | zero => exact List.nil_prefix
    | succ k ih =>
      rw [← ho]
      exact peer.grows _ _ (C133_writes_grow m c s ih).1
  have rises : ∀ k, peer.rounds wrote k <+: peer.rounds wrote (k + 1) := by
    intro k
    induction k with
    | zero => exact List.nil_prefix
    | succ k ih => exact peer.grows _ _ (C133_writes_grow m c s ih).1
  have hrest : ∃ k, k ≤ mostSent s.client.options ∧ wrote (peer.rounds wrote k) = wrote (peer.rounds wrote (k + 1)) := by
    by_contra hno
    have hcount : ∀ k, k ≤ mostSent s.client.options + 1 → sentCount s.chan.trace + k ≤ sentCount (setUp m c (Sess.sent s (peer.rounds wrote k))).2.chan.trace := by
      intro k hk
      induction k with
      | zero =>
        obtain ⟨t, ht, -⟩ := (causal_setUp m c).grows (Sess.sent s (peer.rounds wrote 0))
        rw [ht, sentCount_append]
        exact Nat.le_add_right _ _
      | succ k ih =>
        have hne : wrote (peer.rounds wrote k) ≠ wrote (peer.rounds wrote (k + 1)) := fun h => hno ⟨k, by omega, h⟩
        have ih := ih (by omega)
        obtain ⟨more, -, hf⟩ := sent_foreseen m c s (rises k)
        cases hf with
        | same h => exact absurd (by show _ = (setUp m c (Sess.sent s (peer.rounds wrote (k + 1)))).2.chan.output; rw [h]; rfl) hne
        | waits _ _ _ ho _ => exact absurd ho.symm hne
        | goesOn _ _ n q t ht hw =>
          obtain ⟨j, p, hm⟩ := hw fun h => hne h.symm
          have := sentCount_pos hm
          rw [ht, sentCount_append, sentCount]
          omega
    have h1 := hcount (mostSent s.client.options + 1) (Nat.le_refl _)
    have h2 := C145_at_most m c (Sess.sent s (peer.rounds wrote (mostSent s.client.options + 1)))
    have h3 : (Sess.sent s (peer.rounds wrote (mostSent s.client.options + 1))).chan.trace = s.chan.trace := rfl
    have h4 : (Sess.sent s (peer.rounds wrote (mostSent s.client.options + 1))).client.options = s.client.options := rfl
    rw [h3, h4] at h2
    omega
  obtain ⟨k, hk, he⟩ := hrest
  have hfix : peer.sends (wrote (peer.rounds wrote (k + 1))) = peer.rounds wrote (k + 1) := by
    rw [← he]
    rfl
  exact ⟨k + 1, _, by omega, rfl, hfix, least _ hfix, fun other ho => least other ho _⟩

/-! ## At least -/

/-- Sends at least `k` packets if it returns and the client is as `P` says. -/
def SendsAtLeast {α : Type} (P : Client → Prop) (k : Nat) (p : S α) : Prop :=
  ∀ s, P s.client → ∀ a, (p s).1 = .ok a → sentCount s.chan.trace + k ≤ sentCount (p s).2.chan.trace

namespace SendsAtLeast

variable {P : Client → Prop}

theorem bind {α β : Type} {Q : Client → Prop} {j k : Nat} {p : S α} {f : α → S β} (hp : SendsAtLeast P j p)
    (hc : ∀ s, P s.client → ∀ a, (p s).1 = .ok a → Q (p s).2.client) (hf : ∀ a, SendsAtLeast Q k (f a)) : SendsAtLeast P (j + k) (p >>= f) := by
  intro s hs b hb
  have h := hp s hs
  have h' := hc s hs
  rw [S.bind_eq] at hb ⊢
  revert h h' hb
  rcases p s with ⟨r, s'⟩
  intro hb h h'
  cases r with
  | ok a =>
    have h1 := h a rfl
    have h2 := hf a s' (h' a rfl) b hb
    exact Nat.le_trans (by simp only at h1; omega) h2
  | err e => cases hb
  | panic => cases hb
  | hang => cases hb

/-- Of steps that leave the client alone. -/
theorem step {α β : Type} {j k : Nat} {p : S α} {f : α → S β} (hp : SendsAtLeast P j p) (hc : ∀ s, (p s).2.client = s.client)
    (hf : ∀ a, SendsAtLeast P k (f a)) : SendsAtLeast P (j + k) (p >>= f) :=
  bind hp (fun s hs _ _ => by rw [hc s]; exact hs) hf

theorem grows {α : Type} {p : S α} (h : SRel (fun s s' => sentCount s.chan.trace ≤ sentCount s'.chan.trace) p) : SendsAtLeast P 0 p := fun s _ _ _ => h s

theorem frame : Frame fun s s' : Sess => sentCount s.chan.trace ≤ sentCount s'.chan.trace where
  refl _ := Nat.le_refl _
  trans h h' := Nat.le_trans h h'
  read s := by
    show _ ≤ sentCount (s.chan.readPacket).2.trace
    rcases hr : s.chan.readPacket with ⟨r, ch⟩
    cases r with
    | ok x => obtain ⟨-, -, rest, -, rfl⟩ := readPacket_inv hr; rw [sentCount_append]; exact Nat.le_refl _
    | err e => obtain ⟨-, rfl⟩ := readPacket_fail hr (by simp); exact Nat.le_refl _
    | panic => obtain ⟨-, rfl⟩ := readPacket_fail hr (by simp); exact Nat.le_refl _
    | hang => obtain ⟨-, rfl⟩ := readPacket_fail hr (by simp); exact Nat.le_refl _
  write p n s := by
    show _ ≤ sentCount (s.chan.writePacket p n).2.trace
    obtain ⟨out, ws, hw⟩ := writePacket_frame s.chan p n
    rw [hw, sentCount_append]
    exact Nat.le_add_right _ _

theorem write (p : Bytes) (n : Nat) : SendsAtLeast P 1 (S.writePacket p n) := by
  intro s _ _ _
  show _ ≤ sentCount (s.chan.writePacket p n).2.trace
  obtain ⟨out, ws, hw⟩ := writePacket_frame s.chan p n
  rw [hw, sentCount_append]
  exact Nat.le_refl _

theorem lift {α : Type} (r : Res α) : SendsAtLeast P 0 (S.lift r) := grows (.lift frame.toPreorder' r)
theorem fail {α : Type} (k : Nat) (e : Err) : SendsAtLeast P k (S.fail e : S α) := fun _ _ _ h => by cases h

/-- A packet is sent before the rest. -/
theorem writeThen {β : Type} {p : Bytes} {n : Nat} {f : Unit → S β} (hf : ∀ a, SRel (fun s s' => sentCount s.chan.trace ≤ sentCount s'.chan.trace) (f a)) :
    SendsAtLeast P 1 (S.writePacket p n >>= f) := step (k := 0) (write _ _) (fun _ => rfl) fun a => grows (hf a)

theorem client {β : Type} {k : Nat} {f : Client → S β} (hf : ∀ c, P c → SendsAtLeast P k (f c)) : SendsAtLeast P k (S.client >>= f) :=
  fun s hs => hf s.client hs s hs

theorem connect (m : Mode) (c : Crypto) : SendsAtLeast P 1 (MysqlCdc.connect m c) := by
  have hP := frame.toPreorder'
  have h0 : ∀ {α β : Type} {p : S α} {f : α → S β}, SRel (fun s s' => sentCount s.chan.trace ≤ sentCount s'.chan.trace) p →
      (∀ s, (p s).2.client = s.client) → (∀ a, SendsAtLeast P 1 (f a)) → SendsAtLeast P 1 (p >>= f) :=
    fun hp hc hf => by have := step (grows hp) hc hf; rwa [Nat.zero_add] at this
  refine h0 frame.read frame_client.read fun _ => h0 (.lift hP _) (fun _ => rfl) fun _ => h0 (.lift hP _) (fun _ => rfl) fun _ =>
    h0 (.lift hP _) (fun _ => rfl) fun _ => h0 (.lift hP _) (fun _ => rfl) fun _ =>
    step (k := 0) ?_ (frame_client.authenticate m c _ _ _) fun _ => grows (.pure hP _)
  refine h0 (frame.negotiateSsl m _ _) (frame_client.negotiateSsl m _ _) fun _ => client fun _ _ => h0 (.lift hP _) (fun _ => rfl) fun _ => writeThen fun _ => ?_
  refine .bind hP frame.read fun _ => .bind hP (.lift hP _) fun _ => .bind hP (.lift hP _) fun _ => ?_
  split
  · exact .pure hP _
  · split
    · exact .bind hP (.lift hP _) fun _ => .bind hP (.lift hP _) fun _ => frame.handleAuthPluginSwitch m c _ _ _
    · exact .bind hP (.lift hP _) fun _ => frame.authenticateSha256 m c _ _ _ _

theorem mariadb (id : Nat) : SendsAtLeast P 1 (replicateMariadb id) := by
  have hP := frame.toPreorder'
  refine step (k := 0) (p := simpleQuery _ _) ?_ (frame_client.simpleQuery _ _) fun _ => grows (.bind hP (.client hP) fun self => ?_)
  · exact writeThen fun _ => .bind hP frame.read fun _ => .lift hP _
  · dsimp only
    split
    · cases self.options.binlog.gtidList with
      | none => exact fun s => Nat.le_refl _
      | some list =>
        exact .bind hP (.bind hP (frame.simpleQuery _ _) fun _ => .bind hP (frame.simpleQuery _ _) fun _ => .bind hP (frame.simpleQuery _ _) fun _ =>
          .bind hP (frame.write _ _) fun _ => .bind hP frame.read fun _ => .lift hP _) fun _ => frame.write _ _
    · exact frame.write _ _

theorem mysql (m : Mode) (id : Nat) : SendsAtLeast P 1 (replicateMysql m id) := by
  refine client fun self _ => ?_
  dsimp only
  split
  · cases self.options.binlog.gtidSet with
    | none => exact fail _ _
    | some set => exact step (j := 0) (k := 1) (lift _) (fun _ => rfl) fun _ => write _ _
  · exact write _ _

end SendsAtLeast

/-- **C145.** When replication has been set up, at least so many packets have been sent. -/
theorem C145_at_least (m : Mode) (c : Crypto) (s : Sess) (checksum : ChecksumType) (h : (setUp m c s).1 = .ok checksum) :
    sentCount s.chan.trace + leastSent s.client.options ≤ sentCount (setUp m c s).2.chan.trace := by
  have hP := SendsAtLeast.frame.toPreorder'
  generalize ho : s.client.options = o
  refine Nat.le_trans (Nat.add_le_add_left ?_ _) (SendsAtLeast.bind (P := fun x => x.options = o) (Q := fun x => x.options = o) (j := 1)
    (k := 0 + ((if o.binlog.startingStrategy = .fromEnd ∧ o.binlog.filename = [] then 1 else 0) + (1 + (2 + (0 + (1 + 0))))))
    (SendsAtLeast.connect m c) (fun s' hs' _ _ => by rw [frame_client.connect m c s']; exact hs') (fun provider => ?_) s ho checksum h)
  · unfold leastSent; omega
  · refine .bind (Q := fun x => x.options = o) (fun _ _ _ _ => Nat.le_refl _) (fun _ hs' _ _ => hs') fun _ =>
      .bind (Q := fun _ => True) ?_ (fun _ _ _ _ => trivial) fun _ => .step ?_ frame_client.setMasterHeartbeat fun _ =>
      .step ?_ frame_client.setMasterBinlogChecksum fun _ => .step (fun _ _ _ _ => Nat.le_refl _) (fun _ => rfl) fun self => ?_
    · split
      · next hend =>
        refine SendsAtLeast.client fun x hx => ?_
        rw [hx, if_neg (by simp [hend.1]), if_neg (by simp [hend.2])]
        refine SendsAtLeast.writeThen fun _ => .bind hP SendsAtLeast.frame.readResultSet fun _ => ?_
        split
        · exact fun _ => Nat.le_refl _
        · exact .bind hP (.lift hP _) fun _ => .bind hP (fun _ => Nat.le_refl _) fun _ => .bind hP (.lift hP _) fun _ => .bind hP (.lift hP _) fun _ =>
            fun _ => Nat.le_refl _
      · exact .grows (SendsAtLeast.frame.adjustStartingPosition fun _ _ _ => Nat.le_refl _)
    · exact .client fun _ _ => .writeThen fun _ => .bind hP SendsAtLeast.frame.read fun _ => .lift hP _
    · refine .step (j := 1) (k := 1) (.write _ _) (fun _ => rfl) fun _ => .step (j := 0) (k := 1) (.grows SendsAtLeast.frame.read) frame_client.read fun _ =>
        .step (j := 0) (k := 1) (.lift _) (fun _ => rfl) fun _ => .writeThen fun _ => .bind hP SendsAtLeast.frame.readResultSet fun _ =>
          .bind hP (.lift hP _) fun _ => .lift hP _
    · cases provider with
      | mariaDB => exact .step (SendsAtLeast.mariadb _) (frame_client.replicateMariadb _) fun _ _ _ _ _ => Nat.le_refl _
      | mySQL => exact .step (SendsAtLeast.mysql m _) (frame_client.replicateMysql m _) fun _ _ _ _ _ => Nat.le_refl _

/-! ## The numbers are reached -/

/-- A MariaDB that makes the log-in as long as it can: it wants another plugin, then the full password, and gives a key. `caps` says whether it
offers encryption. -/
def exLongLogin (caps : Nat) : List (Bytes × Nat) :=
  [(exHello "5.5.5-10.5.8-MariaDB" "mysql_native_password" caps, 0),
    ([0xFE] ++ (utf8Bytes "caching_sha2_password".toList ++ [0]) ++ (utf8Bytes "abcdefghijklmnopqrst".toList ++ [0]), 2), ([1, 4], 4), ([1, 107, 101, 121], 6), (exOk, 8)]

/-- All that the client sends to this server, which accepts everything. -/
def exSends (m : Mode) (client : Client) (status : List (Bytes × Nat)) (caps : Nat := 0xf7ff) : Nat :=
  sentCount (setUp m exCrypto ⟨client, exChannel (exLongLogin caps ++ status ++ exConfigured ++ List.replicate 5 (exOk, 1))⟩).2.chan.trace

/-- **C145.** No smaller numbers would do: with each kind of options there is a server to which the client sends as many packets. -/
theorem C145_reached (m : Mode) :
    (exSends m (exUser (.fromMariadbGtid ⟨[⟨0, 1, 270⟩]⟩)) [] = 13 ∧ mostSent (exUser (.fromMariadbGtid ⟨[⟨0, 1, 270⟩]⟩)).options = 13) ∧
    (exSends m (exUser (.fromMysqlGtid ⟨[]⟩)) [] = 8 ∧ mostSent (exUser (.fromMysqlGtid ⟨[]⟩)).options = 8) ∧
    (exSends m (exUser .fromEnd) (exResult ["bin.1", "4"]) = 10 ∧ mostSent (exUser .fromEnd).options = 10) ∧
    (exSends m (exUser .fromStart) [] = 9 ∧ mostSent (exUser .fromStart).options = 9) ∧
    (exSends m (let u := exUser .fromStart; { u with options := { u.options with sslMode := .require } }) [] 0xffff = 1 ∧
      mostSent (let u := exUser .fromStart; { u with options := { u.options with sslMode := .require } }).options = 1) := by
  revert m
  rintro ⟨_ | _⟩ <;> decide +kernel

/-- **C145.** The fewest are reached, too. -/
theorem C145_least_reached (m : Mode) :
    (let s : Sess := ⟨exUser .fromStart, exChannel (exLogin "8.0.30" ++ exConfigured)⟩;
      (setUp m exCrypto s).1 = .ok .crc32 ∧ sentCount (setUp m exCrypto s).2.chan.trace = 5 ∧ leastSent s.client.options = 5) ∧
    (let s : Sess := ⟨exUser .fromEnd, exChannel (exLogin "8.0.30" ++ exResult ["bin.1", "4"] ++ exConfigured)⟩;
      (setUp m exCrypto s).1 = .ok .crc32 ∧ sentCount (setUp m exCrypto s).2.chan.trace = 6 ∧ leastSent s.client.options = 6) := by
  revert m
  rintro ⟨_ | _⟩ <;> decide +kernel

/-- **C145.** The most of all: 13 packets. -/
theorem C145_at_most_13 (m : Mode) (c : Crypto) (s : Sess) : sentCount (setUp m c s).2.chan.trace ≤ sentCount s.chan.trace + 13 := by
  refine Nat.le_trans (C145_at_most m c s) (Nat.add_le_add_left ?_ _)
  unfold mostSent
  by_cases h1 : s.client.options.binlog.startingStrategy = .fromGtid
  · rw [h1]
    simp only [reduceCtorEq, false_and, if_false, if_true]
    split
    · split <;> omega
    · omega
  · rw [if_neg h1]
    split
    · split <;> omega
    · omega

end MysqlCdc
