import Verif.Props.Connect
import Verif.Props.LiveStream
/-!
# C59, C69: a server error stops the set-up
-/

namespace MysqlCdc

open Spec

/-- Error packets are found only among column definitions. -/
def Good (t : List Packet) : Prop := ∀ pre n q post, t = pre ++ Packet.received n (0xFF :: q) :: post → InColumns pre

theorem Good.nil : Good [] := fun pre n q post h => by simp at h

theorem Good.snoc {t : List Packet} {x : Packet} (h : Good t) (hx : ∀ n q, x = .received n (0xFF :: q) → InColumns t) :
    Good (t ++ [x]) := by
  intro pre n q post he
  rcases List.eq_nil_or_concat post with rfl | ⟨post', y, rfl⟩
  · have h1 := congrArg List.getLast? he
    simp only [List.getLast?_append, List.getLast?_singleton, Option.some_or, Option.some.injEq] at h1
    have h2 := congrArg List.dropLast he
    rw [List.dropLast_concat, List.dropLast_concat] at h2
    exact h2 ▸ hx n q h1
  · rw [List.concat_eq_append] at he
    refine h pre n q post' ?_
    have := congrArg List.dropLast he
    rwa [List.dropLast_concat, ← List.cons_append, ← List.append_assoc, List.dropLast_concat] at this

/-- The trace since `base` has `Q`. -/
def Since (base : List Packet) (Q : List Packet → Prop) (s : Sess) : Prop := ∃ t, s.chan.trace = base ++ t ∧ Q t

/-- After a failure: as before, or the last packet is the error, and what it says is what is reported. -/
def Stopped (b : Option Err) (t : List Packet) : Prop :=
  Good t ∨ ∃ e, b = some e ∧ ∃ pre n q, t = pre ++ [.received n (0xFF :: q)] ∧ Good pre ∧ Reports e q

theorem Since.mono {base : List Packet} {Q Q' : List Packet → Prop} {s : Sess} (h : Since base Q s) (hQ : ∀ t, Q t → Q' t) :
    Since base Q' s := h.elim fun t ht => ⟨t, ht.1, hQ t ht.2⟩

section
variable {base : List Packet}

theorem readHolds {Q : List Packet → Prop} {E : Option Err → Sess → Prop} (hE : ∀ b s, Since base Q s → E b s) :
    Holds (Since base Q) S.readPacket (fun r => Since base fun t => ∃ t', t = t' ++ [.received r.2 r.1] ∧ Q t') E := by
  rintro s ⟨t, h1, h2⟩
  unfold S.readPacket
  rcases hr : s.chan.readPacket with ⟨r, ch⟩
  cases r with
  | ok x => obtain ⟨-, -, rest, -, rfl⟩ := readPacket_inv hr; exact ⟨t ++ [.received _ _], by simp [h1], t, rfl, h2⟩
  | err e => obtain ⟨-, rfl⟩ := readPacket_fail hr (by simp); exact hE _ _ ⟨t, h1, h2⟩
  | panic => obtain ⟨-, rfl⟩ := readPacket_fail hr (by simp); exact hE _ _ ⟨t, h1, h2⟩
  | hang => obtain ⟨-, rfl⟩ := readPacket_fail hr (by simp); exact hE _ _ ⟨t, h1, h2⟩

theorem writeHolds {Q : List Packet → Prop} {E : Option Err → Sess → Prop} (p : Bytes) (k : Nat)
    (hE : ∀ b s, (Since base fun t => ∃ t', t = t' ++ [.sent k p] ∧ Q t') s → E b s) :
    Holds (Since base Q) (S.writePacket p k) (fun _ => Since base fun t => ∃ t', t = t' ++ [.sent k p] ∧ Q t') E := by
  rintro s ⟨t, h1, h2⟩
  unfold S.writePacket
  obtain ⟨out, ws, hw⟩ := writePacket_frame s.chan p k
  rcases hr : s.chan.writePacket p k with ⟨r, ch⟩
  rw [hr] at hw
  simp only at hw
  subst hw
  have : ∃ t', s.chan.trace ++ [Packet.sent k p] = base ++ t' ∧ ∃ t'', t' = t'' ++ [Packet.sent k p] ∧ Q t'' :=
    ⟨_, by rw [h1, List.append_assoc], t, rfl, h2⟩
  cases r
  · exact this
  · exact hE _ _ this
  · exact hE _ _ this
  · exact hE _ _ this

/-- The end of the trace is a packet just received. -/
def Received (r : Bytes × Nat) (t : List Packet) : Prop := ∃ t', t = t' ++ [.received r.2 r.1] ∧ Good t'

theorem read59 : Holds (Since base Good) S.readPacket (fun r => Since base (Received r)) (fun b => Since base (Stopped b)) :=
  readHolds fun _ _ h => h.mono fun _ => .inl

theorem write59 (p : Bytes) (k : Nat) : Holds (Since base Good) (S.writePacket p k)
    (fun _ => Since base fun t => ∃ t', t = t' ++ [.sent k p] ∧ Good t') (fun b => Since base (Stopped b)) :=
  writeHolds p k fun _ _ h => h.mono fun t ⟨t', ht, hg⟩ => .inl (ht ▸ hg.snoc fun n q hx => by simp at hx)

theorem Good.of_sent {t : List Packet} {p : Bytes} {k : Nat} (h : ∃ t', t = t' ++ [.sent k p] ∧ Good t') : Good t := by
  obtain ⟨t', rfl, hg⟩ := h
  exact hg.snoc fun n q hx => by simp at hx

theorem checkErrorPacket_error (q : Bytes) (message : String) :
    ∃ e, checkErrorPacket (0xFF :: q) message = .err e ∧ Reports e q := by
  unfold checkErrorPacket
  simp only
  rw [if_pos (by decide)]
  rcases parseErrorPacket_returns q with ⟨e, h⟩ | ⟨e, h⟩ <;> rw [h] <;> refine ⟨_, rfl, fun p hp => ?_⟩ <;>
    rw [C54_error_decoded p q hp] at h <;> cases h
  exact ⟨_, rfl⟩

theorem checkErrorPacket_other {packet : Bytes} (h : ∀ q, packet ≠ 0xFF :: q) (message : String) :
    packet = [] ∧ checkErrorPacket packet message = .panic ∨ packet ≠ [] ∧ checkErrorPacket packet message = .ok () := by
  cases packet with
  | nil => exact .inl ⟨rfl, rfl⟩
  | cons b q =>
    refine .inr ⟨by simp, ?_⟩
    unfold checkErrorPacket
    simp only
    rw [if_neg fun hb => h q (by rw [hb]; rfl)]

/-- The packet just received, when it is no error packet. -/
def Passed (r : Bytes × Nat) (t : List Packet) : Prop := Received r t ∧ ∀ q, r.1 ≠ 0xFF :: q

theorem Passed.good {r : Bytes × Nat} {t : List Packet} (h : Passed r t) : Good t := by
  obtain ⟨⟨t', rfl, hg⟩, hq⟩ := h
  exact hg.snoc fun n q hx => absurd (Packet.received.inj hx).2 (hq q)

theorem check59 (r : Bytes × Nat) (message : String) : Holds (Since base (Received r)) (S.lift (checkErrorPacket r.1 message))
    (fun _ => Since base (Passed r)) (fun b => Since base (Stopped b)) := by
  rintro s ⟨t, h1, h2⟩
  unfold S.lift
  by_cases hq : ∃ q, r.1 = 0xFF :: q
  · obtain ⟨q, hq⟩ := hq
    obtain ⟨e, he, hrep⟩ := checkErrorPacket_error q message
    rw [hq, he]
    obtain ⟨t', ht, hg⟩ := h2
    exact ⟨t, h1, .inr ⟨e, rfl, t', r.2, q, by rw [ht, hq], hg, hrep⟩⟩
  · have hq' : ∀ q, r.1 ≠ 0xFF :: q := fun q h => hq ⟨q, h⟩
    have hp : Passed r t := ⟨h2, hq'⟩
    rcases checkErrorPacket_other hq' message with ⟨-, he⟩ | ⟨-, he⟩ <;> rw [he]
    · exact ⟨t, h1, .inl hp.good⟩
    · exact ⟨t, h1, hp⟩

theorem lift59 {α : Type} (r : Res α) :
    Holds (Since base Good) (S.lift r) (fun a s => r = .ok a ∧ Since base Good s) (fun b => Since base (Stopped b)) :=
  Holds.lift r fun _ _ h => h.mono fun _ => .inl

theorem write59' (p : Bytes) (k : Nat) : Holds (Since base Good) (S.writePacket p k) (fun _ => Since base Good)
    (fun b => Since base (Stopped b)) := (write59 p k).post fun _ _ h => h.mono fun _ => Good.of_sent

/-- `(read; check; f)` -/
theorem readCheckBind59 {α : Type} {R : α → Sess → Prop} {f : Bytes × Nat → S α} (message : String)
    (hf : ∀ r, Holds (Since base Good) (f r) R (fun b => Since base (Stopped b))) :
    Holds (Since base Good) (do let r ← S.readPacket; S.lift (checkErrorPacket r.1 message); f r) R
      (fun b => Since base (Stopped b)) :=
  .bind read59 fun r => .bind ((check59 r message).post fun _ _ h => h.mono fun _ => Passed.good) fun _ => hf r

theorem readCheck59 (message : String) : Holds (Since base Good)
    (do let (packet, _) ← S.readPacket
        S.lift (checkErrorPacket packet message)) (fun _ => Since base Good) (fun b => Since base (Stopped b)) :=
  .bind read59 fun r => (check59 r message).post fun _ _ h => h.mono fun _ => Passed.good

theorem sha59 (m : Mode) (c : Crypto) (packet : Bytes) (scramble : RStr) (k : Nat) (ssl : Bool) :
    Holds (Since base Good) (authenticateSha256 m c packet scramble k ssl) (fun _ => Since base Good)
      (fun b => Since base (Stopped b)) := by
  refine .bind (lift59 _) fun done => .assume fun _ => ?_
  cases done
  · refine .clientBind fun self => ?_
    cases ssl
    · exact .bind (write59' _ _) fun _ => readCheckBind59 _ fun r => .bind (lift59 _) fun _ => .assume fun _ =>
        .bind (lift59 _) fun _ => .assume fun _ => .bind (write59' _ _) fun _ => readCheck59 _
    · exact .bind (write59' _ _) fun _ => readCheck59 _
  · exact .ret fun _ h => h

theorem switch59 (m : Mode) (c : Crypto) (switch : AuthPluginSwitchPacket) (k : Nat) (ssl : Bool) :
    Holds (Since base Good) (handleAuthPluginSwitch m c switch k ssl) (fun _ => Since base Good)
      (fun b => Since base (Stopped b)) := by
  refine .bind (lift59 _) fun _ => .assume fun _ => .clientBind fun self => .bind (lift59 _) fun _ => .assume fun _ =>
    .bind (write59' _ _) fun _ => readCheckBind59 _ fun r => .ite (fun _ => ?_) fun _ => .ret fun _ h => h
  exact .bind (lift59 _) fun _ => .assume fun _ => sha59 _ _ _ _ _ _

theorem ssl59 (m : Mode) (handshake : HandshakePacket) (k : Nat) :
    Holds (Since base Good) (negotiateSsl m handshake k) (fun _ => Since base Good) (fun b => Since base (Stopped b)) := by
  refine .clientBind fun self => .ite (fun _ => ?_) fun _ => .ret fun _ h => h
  refine .ite (fun _ => .fail _ fun _ h => h.mono fun _ => .inl) fun _ => .ite (fun _ => ?_) fun _ => .ret fun _ h => h
  exact .bind (write59' _ _) fun _ => .bind (lift59 _) fun _ => .assume fun _ => fun s hs => hs.mono fun _ => .inl

theorem connect59 (m : Mode) (c : Crypto) :
    Holds (Since base Good) (connect m c) (fun _ => Since base Good) (fun b => Since base (Stopped b)) := by
  refine readCheckBind59 _ fun r => .bind (lift59 _) fun _ => .assume fun _ => .bind (lift59 _) fun _ => .assume fun _ =>
    .bind (lift59 _) fun _ => .assume fun _ => .bind (Q := fun _ => Since base Good) ?_ fun _ => .ret fun _ h => h
  refine .bind (ssl59 _ _ _) fun x => .clientBind fun self => .bind (lift59 _) fun _ => .assume fun _ =>
    .bind (write59' _ _) fun _ => readCheckBind59 _ fun r => .bind (lift59 _) fun b => .assume fun _ =>
    .ite (fun _ => .ret fun _ h => h) fun _ => .ite (fun _ => ?_) fun _ => ?_
  · exact .bind (lift59 _) fun _ => .assume fun _ => .bind (lift59 _) fun _ => .assume fun _ => switch59 _ _ _ _ _
  · exact .bind (lift59 _) fun _ => .assume fun _ => sha59 _ _ _ _ _ _

/-- Among column definitions. -/
def Columns (t : List Packet) : Prop := Good t ∧ InColumns t

theorem Spec.InColumns.next {t : List Packet} {p : Bytes} (h : InColumns t) (n : Nat) (hp : p.head? ≠ some 0xFE) :
    InColumns (t ++ [.received n p]) := by
  obtain ⟨before, k, request, first, rest, rfl, hr⟩ := h
  refine ⟨before, k, request, first, rest ++ [(n, p)], by simp, fun x hx => ?_⟩
  rcases List.mem_append.1 hx with hx | hx
  · exact hr x hx
  · simp only [List.mem_singleton] at hx
    subst hx
    exact hp

theorem skip59 : Holds (Since base Columns) (skipMetadata : S Unit) (fun _ => Since base Good) (fun b => Since base (Stopped b)) := by
  intro s
  induction hk : s.chan.input.length using Nat.strongRecOn generalizing s with
  | _ k ih =>
    intro hs
    rw [skipMetadata]
    have h := readHolds (E := fun _ => Since base Columns) (fun _ _ h => h) s hs
    revert h
    rcases S.readPacket s with ⟨r, s'⟩
    cases r with
    | ok a =>
      obtain ⟨packet, n⟩ := a
      rintro ⟨t, h1, t', rfl, hg, hc⟩
      have hgood : Since base Good s' := ⟨_, h1, hg.snoc fun _ _ _ => hc⟩
      cases packet with
      | nil => exact hgood.mono fun _ => .inl
      | cons b bs =>
        simp only
        split
        · exact hgood
        · rename_i hb
          split
          · rename_i hlt
            exact ih _ (hk ▸ hlt) s' rfl ⟨_, h1, hg.snoc fun _ _ _ => hc, hc.next n (by simpa using fun h => hb (by rw [h]; rfl))⟩
          · exact hgood.mono fun _ => .inl
    | err e => exact fun h => h.mono fun _ h => .inl h.1
    | panic => exact fun h => h.mono fun _ h => .inl h.1
    | hang => exact fun h => h.mono fun _ h => .inl h.1

theorem rows59 : Holds (Since base Good) readRows (fun _ => Since base Good) (fun b => Since base (Stopped b)) := by
  intro s
  induction hk : s.chan.input.length using Nat.strongRecOn generalizing s with
  | _ k ih =>
    intro hs
    rw [readRows]
    have h := read59 s hs
    revert h
    rcases S.readPacket s with ⟨r, s'⟩
    cases r with
    | ok a =>
      intro h
      have hc := check59 a "Query result set error." s' h
      obtain ⟨packet, n⟩ := a
      unfold S.lift at hc
      simp only at hc ⊢
      cases he : checkErrorPacket packet "Query result set error." with
      | ok u =>
        rw [he] at hc
        have hgood : Since base Good s' := hc.mono fun _ => Passed.good
        simp only
        cases packet with
        | nil => exact hgood.mono fun _ => .inl
        | cons b bs =>
          simp only
          split
          · exact hgood
          · cases parseResultSetRow.run (b :: bs) with
            | ok row =>
              simp only
              split
              · rename_i hlt
                have h2 := ih _ (hk ▸ hlt) s' rfl hgood
                revert h2
                rcases readRows s' with ⟨r, s''⟩
                cases r <;> exact fun h => h
              · exact hgood.mono fun _ => .inl
            | err e => exact hgood.mono fun _ => .inl
            | panic => exact hgood.mono fun _ => .inl
            | hang => exact hgood.mono fun _ => .inl
      | err e => rw [he] at hc; exact hc
      | panic => rw [he] at hc; exact hc
      | hang => rw [he] at hc; exact hc
    | err e => exact fun h => h
    | panic => exact fun h => h
    | hang => exact fun h => h

/-- A query with a result set. -/
theorem result59 (p : Bytes) (k : Nat) {α : Type} {f : List (List RStr) → S α} {R : α → Sess → Prop}
    (hf : ∀ rows, Holds (Since base Good) (f rows) R (fun b => Since base (Stopped b))) :
    Holds (Since base Good) (do S.writePacket p k; let rows ← readResultSet; f rows) R (fun b => Since base (Stopped b)) := by
  refine .bind (write59 p k) fun _ => .bind (Q := fun _ => Since base Good) ?_ hf
  -- the first packet of the answer
  refine .bind (Q := fun r => Since base fun t => Received r t ∧ InColumns t) ?_ fun r => ?_
  · refine (readHolds (Q := fun t => ∃ t', t = t' ++ [.sent k p] ∧ Good t')
      fun _ _ h => h.mono (Q' := Stopped _) fun _ h => .inl (Good.of_sent h)).post fun r s h => h.mono ?_
    rintro t ⟨t', rfl, hs⟩
    obtain ⟨before, rfl, -⟩ := id hs
    exact ⟨⟨_, rfl, Good.of_sent hs⟩, before, k, p, (r.2, r.1), [], by simp, by simp⟩
  · refine .bind (Q := fun _ => Since base Columns) ?_ fun _ => .bind skip59 fun _ => rows59
    rintro s ⟨t, h1, h2, h3⟩
    have := check59 (base := base) r "Reading result set error." s ⟨t, h1, h2⟩
    unfold S.lift at this ⊢
    cases he : checkErrorPacket r.1 "Reading result set error." with
    | ok u =>
      rw [he] at this
      obtain ⟨t2, h4, h5⟩ := this
      have : t2 = t := List.append_cancel_left (h4.symm.trans h1)
      exact ⟨t, h1, this ▸ h5.good, h3⟩
    | err e => rw [he] at this; exact this
    | panic => rw [he] at this; exact this
    | hang => rw [he] at this; exact this

theorem setClient59 (client : Client) : Holds (Since base Good) (S.setClient client) (fun _ => Since base Good)
    (fun b => Since base (Stopped b)) := fun _ h => h

theorem adjust59 : Holds (Since base Good) adjustStartingPosition (fun _ => Since base Good) (fun b => Since base (Stopped b)) := by
  refine .clientBind fun self => .ite (fun _ => .ret fun _ h => h) fun _ => .ite (fun _ => .ret fun _ h => h) fun _ =>
    result59 _ _ fun rows => .ite (fun _ => .fail _ fun _ h => h.mono fun _ => .inl) fun _ => ?_
  exact .bind (lift59 _) fun _ => .assume fun _ => .bind (setClient59 _) fun _ => .bind (lift59 _) fun _ => .assume fun _ =>
    .bind (lift59 _) fun _ => .assume fun _ => setClient59 _

theorem query59 (sql : RStr) (message : String) : Holds (Since base Good) (simpleQuery sql message) (fun _ => Since base Good)
    (fun b => Since base (Stopped b)) := .bind (write59' _ _) fun _ => readCheck59 _

theorem mariadb59 (id : Nat) : Holds (Since base Good) (replicateMariadb id) (fun _ => Since base Good)
    (fun b => Since base (Stopped b)) := by
  refine .bind (query59 _ _) fun _ => .clientBind fun self => .ite (fun _ => ?_) fun _ => write59' _ _
  cases self.options.binlog.gtidList with
  | some list =>
    refine .bind (Q := fun _ => Since base Good) ?_ fun _ => write59' _ _
    exact .bind (query59 _ _) fun _ => .bind (query59 _ _) fun _ => .bind (query59 _ _) fun _ => .bind (write59' _ _) fun _ =>
      readCheck59 _
  | none => exact .fail _ fun _ h => h.mono fun _ => .inl

theorem mysql59 (m : Mode) (id : Nat) : Holds (Since base Good) (replicateMysql m id) (fun _ => Since base Good)
    (fun b => Since base (Stopped b)) := by
  refine .clientBind fun self => .ite (fun _ => ?_) fun _ => write59' _ _
  cases self.options.binlog.gtidSet with
  | some set => exact .bind (lift59 _) fun _ => .assume fun _ => write59' _ _
  | none => exact .fail _ fun _ h => h.mono fun _ => .inl

theorem setUp59 (m : Mode) (c : Crypto) : Holds (Since base Good) (setUp m c) (fun _ => Since base Good)
    (fun b => Since base (Stopped b)) := by
  refine .bind (connect59 m c) fun provider => .bind (Q := fun _ => Since base Good) (fun s h => h) fun _ => .bind adjust59 fun _ =>
    .bind (.clientBind fun self => .bind (write59' _ _) fun _ => readCheck59 _) fun _ => ?_
  refine .bind (Q := fun _ => Since base Good) ?_ fun checksum => .clientBind fun self => ?_
  · refine .bind (write59' _ _) fun _ => readCheckBind59 _ fun r => result59 _ _ fun rows => .bind (lift59 _) fun _ =>
      .assume fun _ => (lift59 _).post fun _ _ h => h.2
  · cases provider
    · exact .bind (mariadb59 _) fun _ => .ret fun _ h => h
    · exact .bind (mysql59 _ _) fun _ => .ret fun _ h => h

end

/-- What the client has seen and done since `s`, in packets. -/
def PacketsOf (s s' : Sess) (t : List Packet) : Prop := s'.chan.trace = s.chan.trace ++ t

/-- C69, except for its exception: an error packet received at any point of set-up other than among the column definitions of a result set is the
last packet of the whole exchange, and set-up returns an error, with the server's code, message and SQL state. -/
theorem C69_error_anywhere_partial (m : Mode) (c : Crypto) (s : Sess) (pre post : List Packet) (n : Nat) (q : Bytes)
    (h : PacketsOf s (setUp m c s).2 (pre ++ .received n (0xFF :: q) :: post)) (hc : ¬ InColumns pre) :
    post = [] ∧ ∃ e, (setUp m c s).1 = .err e ∧ Reports e q := by
  have h1 := setUp59 (base := s.chan.trace) m c s ⟨[], by simp, Good.nil⟩
  unfold PacketsOf at h
  have absurdGood : ∀ {s'}, s'.chan.trace = s.chan.trace ++ (pre ++ .received n (0xFF :: q) :: post) → ¬ Since s.chan.trace Good s' := by
    rintro s' h2 ⟨t, h3, hg⟩
    exact hc (hg pre n q post (List.append_cancel_left (h3.symm.trans h2)))
  have absurdStopped : ∀ {s'}, s'.chan.trace = s.chan.trace ++ (pre ++ .received n (0xFF :: q) :: post) →
      ¬ Since s.chan.trace (Stopped none) s' := by
    rintro s' h2 ⟨t, h3, hg | ⟨e, hg, -⟩⟩
    · exact absurdGood h2 ⟨t, h3, hg⟩
    · cases hg
  revert h1 h
  rcases setUp m c s with ⟨r, s'⟩
  cases r with
  | ok a => exact fun h1 h2 => absurd h2 (absurdGood h1)
  | err e =>
    rintro h2 ⟨t, h3, h4⟩
    rcases h4 with h4 | ⟨e', he', pre', n', q', rfl, h4, hrep⟩
    · exact absurd ⟨t, h3, h4⟩ (absurdGood h2)
    · have he : pre' ++ [Packet.received n' (0xFF :: q')] = pre ++ .received n (0xFF :: q) :: post :=
        List.append_cancel_left (h3.symm.trans h2)
      injection he' with he'
      subst he'
      rcases List.eq_nil_or_concat post with rfl | ⟨post', y, rfl⟩
      · have hlast := congrArg List.getLast? he
        simp only [List.getLast?_append, List.getLast?_singleton, Option.some_or, Option.some.injEq, Packet.received.injEq,
          List.cons.injEq, true_and] at hlast
        exact ⟨rfl, e, rfl, hlast.2 ▸ hrep⟩
      · exfalso
        rw [List.concat_eq_append] at he
        refine hc (h4 pre n q post' ?_)
        have := congrArg List.dropLast he
        rwa [List.dropLast_concat, ← List.cons_append, ← List.append_assoc, List.dropLast_concat] at this
  | panic => exact fun h1 h2 => absurd h2 (absurdStopped h1)
  | hang => exact fun h1 h2 => absurd h2 (absurdStopped h1)

theorem not_inColumns_sent (t : List Packet) (k : Nat) (p : Bytes) : ¬ InColumns (t ++ [.sent k p]) := by
  rintro ⟨before, n, request, first, rest, h, -⟩
  have := congrArg List.getLast? h
  rcases List.eq_nil_or_concat rest with rfl | ⟨rest', y, rfl⟩
  · simp at this
  · rw [List.concat_eq_append, List.map_cons, List.map_append, List.map_singleton, ← List.cons_append, ← List.cons_append,
      ← List.append_assoc, List.getLast?_concat, List.getLast?_concat] at this
    simp at this

theorem not_inColumns_nil : ¬ InColumns [] := by
  rintro ⟨before, n, request, first, rest, h, -⟩
  simp at h

/-- C59. When the server answers any packet sent in set-up with an error packet, set-up returns an error and that packet is the
last of the whole exchange: no further packet, in particular no dump request, is sent. The error shows the server's code, message and
SQL state. -/
theorem C59_error_answer_stops (m : Mode) (c : Crypto) (s : Sess) (pre post : List Packet) (k n : Nat) (p q : Bytes)
    (h : PacketsOf s (setUp m c s).2 (pre ++ .sent k p :: .received n (0xFF :: q) :: post)) :
    post = [] ∧ ∃ e, (setUp m c s).1 = .err e ∧ Reports e q :=
  C69_error_anywhere_partial m c s (pre ++ [.sent k p]) post n q (by simpa using h) (not_inColumns_sent _ _ _)

/-- C59. The same for an error packet instead of the greeting. -/
theorem C59_error_greeting_stops (m : Mode) (c : Crypto) (s : Sess) (post : List Packet) (n : Nat) (q : Bytes)
    (h : PacketsOf s (setUp m c s).2 (.received n (0xFF :: q) :: post)) :
    post = [] ∧ ∃ e, (setUp m c s).1 = .err e ∧ Reports e q :=
  C69_error_anywhere_partial m c s [] post n q h not_inColumns_nil

/-- C59, for the whole of `replicate`: no stream of events is returned. -/
theorem C59_replicate_errs (m : Mode) (c : Crypto) (self : Client) (net : Except IoKind Channel) (chan : Channel)
    (ho : Channel.open self.options net = .ok chan) (pre post : List Packet) (k n : Nat) (p q : Bytes)
    (h : PacketsOf ⟨self, chan⟩ (setUp m c ⟨self, chan⟩).2 (pre ++ .sent k p :: .received n (0xFF :: q) :: post)) :
    ∃ e, (self.replicate m c net).1 = .err e ∧ Reports e q := by
  obtain ⟨-, e, he, hrep⟩ := C59_error_answer_stops m c _ pre post k n p q h
  refine ⟨e, ?_, hrep⟩
  unfold Client.replicate
  rw [ho]
  simp only
  revert he
  rcases setUp m c ⟨self, chan⟩ with ⟨r, s⟩
  rintro rfl
  rfl

/-- An account that may not replicate: the answer to the second command is an error. -/
def exDenied : Bytes := [0xFF, 0x15, 4] ++ utf8Bytes "#28000denied".toList

example (m : Mode) :
    let s : Sess := ⟨exUser BinlogOptions.fromStart, exChannel (exLogin "8.0.30" ++ [(exOk, 1), (exDenied, 1)])⟩
    ∃ pre, PacketsOf s (setUp m exCrypto s).2 (pre ++ [.sent 0 (queryCommand "SET @master_binlog_checksum= @@global.binlog_checksum".toList),
      .received 1 exDenied]) ∧ (sentOf pre).length = 2 := by
  refine ⟨((setUp m exCrypto ⟨exUser BinlogOptions.fromStart, exChannel (exLogin "8.0.30" ++ [(exOk, 1), (exDenied, 1)])⟩).2.chan.trace).take 5, ?_⟩
  unfold PacketsOf
  revert m
  rintro ⟨_ | _⟩ <;> decide +kernel

/-- An error among the rows of the checksum query. -/
example (m : Mode) :
    let s : Sess := ⟨exUser BinlogOptions.fromStart,
      exChannel (exLogin "8.0.30" ++ [(exOk, 1), (exOk, 1), ([1], 1), ([3, 100, 101, 102], 2), (exEof, 3), (exDenied, 4)])⟩
    (setUp m exCrypto s).2.chan.trace.length = 12 ∧ (setUp m exCrypto s).2.chan.trace.getLast? = some (.received 4 exDenied) := by
  revert m
  rintro ⟨_ | _⟩ <;> decide +kernel

/-! ## C69 -/

/-- C69 does not hold of the code: the loop over the column definitions throws away every packet that is not an EOF packet, also an
error packet. Here the server reports an error in place of a column definition, and set-up goes on and asks for the log. -/
theorem C69_false (m : Mode) : ∃ (c : Crypto) (s : Sess) (pre post : List Packet) (n : Nat) (q : Bytes),
    PacketsOf s (setUp m c s).2 (pre ++ .received n (0xFF :: q) :: post) ∧ (setUp m c s).1 = .ok .crc32 ∧
      ∃ k p, Packet.sent k p ∈ post ∧ IsDump p := by
  let s : Sess := ⟨exUser BinlogOptions.fromStart,
    exChannel (exLogin "8.0.30" ++ [(exOk, 1), (exOk, 1), ([1], 1), (exDenied, 2), (exEof, 3), (exCell "CRC32", 4), (exEof, 5)])⟩
  refine ⟨exCrypto, s, (setUp m exCrypto s).2.chan.trace.take 9, (setUp m exCrypto s).2.chan.trace.drop 10, 2, exDenied.drop 1, ?_,
    ?_, 0, dumpBinlogCommand 65535 [] 4, ?_, .inl rfl⟩
  · unfold PacketsOf
    revert m
    rintro ⟨_ | _⟩ <;> decide +kernel
  · revert m
    rintro ⟨_ | _⟩ <;> decide +kernel
  · revert m
    rintro ⟨_ | _⟩ <;> decide +kernel

/-! ## C70 -/

/-- The code ends. -/
def Ends {α : Type} (p : S α) : Prop := ∀ s, (p s).1 ≠ .hang

theorem Ends.bind {α β : Type} {p : S α} {f : α → S β} (hp : Ends p) (hf : ∀ a, Ends (f a)) : Ends (p >>= f) := by
  intro s
  rw [S.bind_eq]
  have h := hp s
  revert h
  rcases p s with ⟨r, s'⟩
  cases r with
  | ok a => exact fun _ => hf a s'
  | err e => simp
  | panic => simp
  | hang => exact fun h => absurd rfl h

theorem Ends.pure {α : Type} (a : α) : Ends (pure a : S α) := fun s => by simp [S.pure_eq]
theorem Ends.lift {α : Type} {r : Res α} (h : r ≠ .hang) : Ends (S.lift r) := fun _ => h
theorem Ends.fail {α : Type} (e : Err) : Ends (S.fail e : S α) := fun _ => by simp [S.fail, S.lift]
theorem Ends.client : Ends S.client := fun _ => by simp [S.client]
theorem Ends.setClient (c : Client) : Ends (S.setClient c) := fun _ => by simp [S.setClient]

theorem Ends.read : Ends S.readPacket := by
  intro s
  show (s.chan.readPacket).1 ≠ .hang
  rcases hr : s.chan.readPacket with ⟨r, ch⟩
  cases r with
  | ok x => simp
  | err e => simp
  | panic => simp
  | hang => simpa using (readPacket_fail hr (by simp)).1

theorem Ends.write (p : Bytes) (k : Nat) : Ends (S.writePacket p k) := by
  intro s
  show (s.chan.writePacket p k).1 ≠ .hang
  have hall : ∀ (ch : Channel) (bs : Bytes), (ch.writeAll bs).1 ≠ .hang := by
    intro ch bs
    obtain ⟨_, _, -, -, h | ⟨e, h⟩⟩ := writeAll_cases ch bs
    · simp [h.1]
    · simp [h]
  have hone : ∀ (ch : Channel) (bs : Bytes), (ch.write bs).1 ≠ .hang := by
    intro ch bs
    rcases write_cases ch bs with ⟨n, h, -⟩ | ⟨n, h, -⟩ <;> simp [h]
  unfold Channel.writePacket
  simp only
  split
  · simp
  · have h1 := hall { s.chan with trace := s.chan.trace ++ [.sent k p] } (leBytes 3 (p.length % 2 ^ 32))
    revert h1
    rcases Channel.writeAll { s.chan with trace := s.chan.trace ++ [.sent k p] } (leBytes 3 (p.length % 2 ^ 32)) with ⟨r, ch⟩
    cases r with
    | ok u =>
      intro _
      simp only
      have h2 := hall ch (leBytes 1 k)
      revert h2
      rcases ch.writeAll (leBytes 1 k) with ⟨r, ch⟩
      cases r with
      | ok u =>
        intro _
        simp only
        have h3 := hone ch p
        revert h3
        rcases ch.write p with ⟨r, ch⟩
        cases r <;> simp
      | err e => simp
      | panic => simp
      | hang => exact fun h => h
    | err e => simp
    | panic => simp
    | hang => exact fun h => h

theorem check_ends (packet : Bytes) (message : String) : checkErrorPacket packet message ≠ .hang := by
  by_cases h : ∃ q, packet = 0xFF :: q
  · obtain ⟨q, rfl⟩ := h
    obtain ⟨e, he, -⟩ := checkErrorPacket_error q message
    simp [he]
  · rcases checkErrorPacket_other (fun q hq => h ⟨q, hq⟩) message with ⟨-, he⟩ | ⟨-, he⟩ <;> simp [he]

theorem addU_ends (m : Mode) (bits a b : Nat) : addU m bits a b ≠ .hang := by
  unfold addU
  split
  · simp
  · split <;> simp

theorem xor_ends (a b : Bytes) : xorBytes a b ≠ .hang := by
  unfold xorBytes
  split <;> simp

theorem encrypt_ends (c : Crypto) (password scramble : RStr) (plugin : AuthPlugin) :
    encryptPassword c password scramble plugin ≠ .hang := by
  cases plugin <;> exact xor_ends _ _

theorem Res.bind_ends {α β : Type} {x : Res α} {f : α → Res β} (hx : x ≠ .hang) (hf : ∀ a, f a ≠ .hang) : (x >>= f) ≠ .hang := by
  cases x with
  | ok a => exact hf a
  | err e => simp
  | panic => simp
  | hang => exact fun _ => hx rfl

theorem Ends.readCheck (message : String) :
    Ends (do let (packet, _) ← S.readPacket
             S.lift (checkErrorPacket packet message)) := .bind .read fun _ => .lift (check_ends _ _)

theorem Ends.sha (m : Mode) (c : Crypto) (packet : Bytes) (scramble : RStr) (k : Nat) (ssl : Bool) :
    Ends (authenticateSha256 m c packet scramble k ssl) := by
  have hb : ∀ i, byteAt packet i ≠ .hang := fun i => by unfold byteAt; split <;> simp
  refine .bind (.lift ?_) fun done => ?_
  · refine Res.bind_ends (hb 0) fun b => ?_
    split
    · exact Res.bind_ends (hb 1) fun b => by simp
    · simp
  · cases done
    · refine .bind .client fun self => ?_
      cases ssl
      · refine .bind (.write _ _) fun _ => .bind .read fun _ => .bind (.lift (check_ends _ _)) fun _ => .bind (.lift ?_) fun _ =>
          .bind (.lift (addU_ends _ _ _ _)) fun _ => .bind (.write _ _) fun _ => .readCheck _
        exact Res.bind_ends (xor_ends _ _) fun a => by split <;> simp
      · exact .bind (.write _ _) fun _ => .readCheck _
    · exact .pure _

theorem plugin_ends (name : RStr) : getAuthPlugin name ≠ .hang := by
  unfold getAuthPlugin
  split
  · simp
  · split <;> simp

theorem Ends.switch (m : Mode) (c : Crypto) (switch : AuthPluginSwitchPacket) (k : Nat) (ssl : Bool) :
    Ends (handleAuthPluginSwitch m c switch k ssl) := by
  refine .bind (.lift (plugin_ends _)) fun _ => .bind .client fun self => .bind (.lift (encrypt_ends _ _ _ _)) fun _ =>
    .bind (.write _ _) fun _ => .bind .read fun _ => .bind (.lift (check_ends _ _)) fun _ => ?_
  split
  · exact .bind (.lift (addU_ends _ _ _ _)) fun _ => .sha _ _ _ _ _ _
  · exact .pure _

theorem noHang_nullTerm : NoHang readNullTermString := by
  have h : NoHang (P.readUntil 0) := fun buf pos => by unfold P.readUntil; simp
  exact h.bind fun _ => (Step.lift (fromUtf8_ne_hang _)).noHang

theorem handshake_ends (packet : Bytes) : parseHandshake.run packet ≠ .hang := by
  refine P.run_ne_hang ?_ packet
  refine Step.u8.noHang.bind fun _ => noHang_nullTerm.bind fun _ => (Step.uLE 4).noHang.bind fun _ => noHang_nullTerm.bind fun _ =>
    (Step.readVec 2).noHang.bind fun _ => Step.u8.noHang.bind fun _ => (Step.uLE 2).noHang.bind fun _ =>
    (Step.readVec 2).noHang.bind fun _ => Step.u8.noHang.bind fun _ => (Step.readString 6).noHang.bind fun _ =>
    (Step.readVec 4).noHang.bind fun _ => ?_
  have hend : ∀ (k : RStr → HandshakePacket) (b : Prop) [Decidable b],
      NoHang (if b then readNullTermString >>= fun x => pure (k x) else pure [] >>= fun x => pure (k x) : P HandshakePacket) := by
    intro k b _
    split
    · exact noHang_nullTerm.bind fun _ => (Step.pure _).noHang
    · exact (Step.pure _).noHang.bind fun _ => (Step.pure _).noHang
  dsimp only
  split
  · exact noHang_nullTerm.bind fun _ => (Step.pure _).noHang.bind fun _ => hend _ _
  · exact (Step.pure _).noHang.bind fun _ => hend _ _

theorem Ends.connect (m : Mode) (c : Crypto) : Ends (connect m c) := by
  refine .bind .read fun r => .bind (.lift (check_ends _ _)) fun _ => .bind (.lift (handshake_ends _)) fun handshake =>
    .bind (.lift (plugin_ends _)) fun plugin => .bind (.lift (addU_ends _ _ _ _)) fun k => .bind ?_ fun _ => .pure _
  refine .bind (.bind .client fun self => ?_) fun x => .bind .client fun self => .bind (.lift ?_) fun _ => .bind (.write _ _) fun _ =>
    .bind .read fun r => .bind (.lift (check_ends _ _)) fun _ => .bind (.lift ?_) fun b => ?_
  · split
    · dsimp only
      split
      · exact .fail _
      · split
        · exact .bind (.write _ _) fun _ => .bind (.lift (addU_ends _ _ _ _)) fun _ => .lift (by simp)
        · exact .pure _
    · exact .pure _
  · exact Res.bind_ends (encrypt_ends _ _ _ _) fun _ => by simp
  · unfold byteAt
    split <;> simp
  · split
    · exact .pure _
    · split
      · refine .bind (.lift (P.run_ne_hang ?_ _)) fun _ => .bind (.lift (addU_ends _ _ _ _)) fun _ => .switch _ _ _ _ _
        exact noHang_nullTerm.bind fun _ => noHang_nullTerm.bind fun _ => (Step.pure _).noHang
      · exact .bind (.lift (addU_ends _ _ _ _)) fun _ => .sha _ _ _ _ _ _

/-- Reading a packet takes at least its header from the connection. -/
theorem readPacket_shorter {s s' : Sess} {x : Bytes × Nat} (h : S.readPacket s = (.ok x, s')) :
    s'.chan.input.length < s.chan.input.length := by
  obtain ⟨p, n⟩ := x
  unfold S.readPacket at h
  rcases hr : s.chan.readPacket with ⟨r, ch⟩
  rw [hr] at h
  simp only [Prod.mk.injEq] at h
  obtain ⟨rfl, rfl⟩ := h
  obtain ⟨-, -, rest, h1, rfl⟩ := readPacket_inv hr
  simp only [h1, List.length_append, frame_length]
  omega

theorem Ends.skip : Ends (skipMetadata : S Unit) := by
  intro s
  induction hk : s.chan.input.length using Nat.strongRecOn generalizing s with
  | _ k ih =>
    rw [skipMetadata]
    have h := Ends.read s
    rcases hr : S.readPacket s with ⟨r, s'⟩
    rw [hr] at h
    cases r with
    | ok a =>
      have hlt := readPacket_shorter hr
      obtain ⟨packet, n⟩ := a
      cases packet with
      | nil => simp
      | cons b bs =>
        simp only
        rw [if_pos hlt]
        split
        · simp
        · exact ih _ (hk ▸ hlt) s' rfl
    | err e => simp
    | panic => simp
    | hang => exact absurd rfl h

theorem Ends.rows : Ends readRows := by
  intro s
  induction hk : s.chan.input.length using Nat.strongRecOn generalizing s with
  | _ k ih =>
    rw [readRows]
    have h := Ends.read s
    rcases hr : S.readPacket s with ⟨r, s'⟩
    rw [hr] at h
    cases r with
    | ok a =>
      have hlt := readPacket_shorter hr
      obtain ⟨packet, n⟩ := a
      simp only
      cases he : checkErrorPacket packet "Query result set error." with
      | ok u =>
        cases packet with
        | nil => simp
        | cons b bs =>
          simp only
          split
          · simp
          · have hrow : parseResultSetRow.run (b :: bs) ≠ .hang := P.run_ne_hang (Step.whileData Step.readLenEncStr).noHang _
            cases hp : parseResultSetRow.run (b :: bs) with
            | ok row =>
              simp only
              have h2 := ih _ (hk ▸ hlt) s' rfl
              revert h2
              rcases readRows s' with ⟨r, s''⟩
              cases r <;> simp
            | err e => simp
            | panic => simp
            | hang => exact absurd hp hrow
      | err e => simp
      | panic => simp
      | hang => exact absurd he (check_ends _ _)
    | err e => simp
    | panic => simp
    | hang => exact absurd rfl h

theorem Ends.resultSet : Ends readResultSet :=
  .bind .read fun _ => .bind (.lift (check_ends _ _)) fun _ => .bind .skip fun _ => .rows

theorem cellAt_ends (rows : List (List RStr)) (i j : Nat) : cellAt rows i j ≠ .hang := by
  unfold cellAt
  split
  · simp
  · split <;> simp

theorem Ends.query (sql : RStr) (message : String) : Ends (simpleQuery sql message) := .bind (.write _ _) fun _ => .readCheck _

theorem dumpIntervals_ends (m : Mode) (ivs : List Interval) : dumpIntervals m ivs ≠ .hang := by
  induction ivs with
  | nil => simp [dumpIntervals]
  | cons iv ivs ih => exact Res.bind_ends (addU_ends _ _ _ _) fun _ => Res.bind_ends ih fun _ => by simp

theorem dumpUuidSets_ends (m : Mode) (sets : List UuidSet) : dumpUuidSets m sets ≠ .hang := by
  induction sets with
  | nil => simp [dumpUuidSets]
  | cons u sets ih => exact Res.bind_ends (dumpIntervals_ends _ _) fun _ => Res.bind_ends ih fun _ => by simp

theorem parseUnsigned_ends (bits : Nat) (s : RStr) : parseUnsigned bits s ≠ .hang := by
  unfold parseUnsigned
  split
  · simp
  · simp
  · split <;> simp
  · split <;> simp

/-- C70, except for panics: whatever the server sends, set-up comes to an end as soon as the server's answers end (a silent server
ends them after the read timeout). -/
theorem C70_set_up_ends_partial (m : Mode) (c : Crypto) (s : Sess) : (setUp m c s).1 ≠ .hang := by
  refine Ends.bind (.connect m c) (fun provider => .bind (fun s => by simp [resetOnReconnect]) fun _ => .bind ?_ fun _ =>
    .bind (.bind .client fun self => .query _ _) fun _ => .bind ?_ fun checksum => .bind .client fun self => ?_) s
  · refine .bind .client fun self => ?_
    split
    · exact .pure _
    · split
      · exact .pure _
      · refine .bind (.write _ _) fun _ => .bind .resultSet fun rows => ?_
        split
        · exact .fail _
        · exact .bind (.lift (cellAt_ends _ _ _)) fun _ => .bind (.setClient _) fun _ => .bind (.lift (cellAt_ends _ _ _)) fun _ =>
            .bind (.lift (parseUnsigned_ends _ _)) fun _ => .setClient _
  · refine .bind (.write _ _) fun _ => .bind .read fun _ => .bind (.lift (check_ends _ _)) fun _ => .bind (.write _ _) fun _ =>
      .bind .resultSet fun rows => .bind (.lift (cellAt_ends _ _ _)) fun cell => .lift ?_
    unfold ChecksumType.fromName
    split
    · simp
    · split <;> simp
  · cases provider
    · refine .bind (.bind (.query _ _) fun _ => .bind .client fun self => ?_) fun _ => .pure _
      dsimp only
      split
      · split
        · exact .bind (.bind (.query _ _) fun _ => .bind (.query _ _) fun _ => .bind (.query _ _) fun _ => .bind (.write _ _) fun _ =>
            .readCheck _) fun _ => .write _ _
        · exact .fail _
      · exact .write _ _
    · refine .bind (.bind .client fun self => ?_) fun _ => .pure _
      dsimp only
      split
      · split
        · exact .bind (.lift (Res.bind_ends (dumpUuidSets_ends _ _) fun _ => by simp)) fun _ => .write _ _
        · exact .fail _
      · exact .write _ _

/-- C70 does not hold of the code: an empty packet crashes it (`packet[0]`), at any step. -/
theorem C70_empty_packet_panics (m : Mode) (c : Crypto) (s : Sess) (n : Nat) (rest : Bytes) (hn : n < 2 ^ 8)
    (h : s.chan.input = frame [] n ++ rest) : (setUp m c s).1 = .panic := by
  have hr := readPacket_frame s.chan [] rest n (by decide) hn h
  unfold setUp
  rw [S.bind_eq]
  unfold connect
  rw [S.bind_eq]
  unfold S.readPacket
  rw [hr]
  rfl

/-- C70 does not hold: a result set without a row crashes it (`result_set[0]`); so does an answer `[1]` to the password
(`packet[1]`). -/
theorem C70_false (m : Mode) :
    (setUp m exCrypto ⟨exUser BinlogOptions.fromStart,
      exChannel (exLogin "8.0.30" ++ [(exOk, 1), (exOk, 1), ([1], 1), ([3, 100, 101, 102], 2), (exEof, 3), (exEof, 4)])⟩).1 = .panic ∧
    (setUp m exCrypto ⟨exUser BinlogOptions.fromStart,
      exChannel [(exHello "8.0.30" "mysql_native_password" 0xf7ff, 0), ([1], 2)]⟩).1 = .panic := by
  revert m
  rintro ⟨_ | _⟩ <;> decide +kernel

end MysqlCdc
