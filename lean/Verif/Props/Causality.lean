import Verif.Spec.Causality
import Verif.Lemmas.Hoare
import Verif.Lemmas.ExampleServer
/-!
# C133: what the client does depends on what it has been sent so far
-/

namespace MysqlCdc

open Spec

/-! ## Writing -/

theorem write_andThen (ch : Channel) (more : Bytes) (e : IoKind) (l : List (Bytes × IoKind)) (bs : Bytes) :
    (Channel.andThen ch more e l).write bs = ((ch.write bs).1, Channel.andThen (ch.write bs).2 more e l) := by
  obtain ⟨i, k, o, ws, t, tr, la⟩ := ch
  rcases ws with _ | ⟨_ | _, ws⟩ <;> rfl

theorem writeAll_andThen (more : Bytes) (e : IoKind) (l : List (Bytes × IoKind)) (bs : Bytes) :
    ∀ ch : Channel, (Channel.andThen ch more e l).writeAll bs = ((ch.writeAll bs).1, Channel.andThen (ch.writeAll bs).2 more e l) := by
  induction hk : bs.length using Nat.strongRecOn generalizing bs with
  | _ k ih =>
    intro ch
    rw [Channel.writeAll.eq_def, Channel.writeAll.eq_def ch]
    split
    · rfl
    · rw [write_andThen]
      rcases hw : ch.write bs with ⟨r, ch'⟩
      cases r with
      | ok n =>
        simp only
        split
        · rename_i h
          refine ih _ ?_ _ rfl ch'
          have := List.length_pos_iff.2 h.2
          rw [List.length_drop]
          omega
        · rfl
      | err e => rfl
      | panic => rfl
      | hang => rfl

theorem writePacket_andThen (ch : Channel) (more : Bytes) (e : IoKind) (l : List (Bytes × IoKind)) (p : Bytes) (n : Nat) :
    (Channel.andThen ch more e l).writePacket p n = ((ch.writePacket p n).1, Channel.andThen (ch.writePacket p n).2 more e l) := by
  unfold Channel.writePacket
  simp only
  split
  · rfl
  · have h1 := writeAll_andThen more e l (leBytes 3 (p.length % 2 ^ 32)) { ch with trace := ch.trace ++ [.sent n p] }
    rw [show { Channel.andThen ch more e l with trace := (Channel.andThen ch more e l).trace ++ [.sent n p] } =
      Channel.andThen { ch with trace := ch.trace ++ [.sent n p] } more e l from rfl, h1]
    rcases Channel.writeAll { ch with trace := ch.trace ++ [.sent n p] } (leBytes 3 (p.length % 2 ^ 32)) with ⟨r, c1⟩
    cases r with
    | ok u =>
      simp only
      rw [writeAll_andThen]
      rcases c1.writeAll (leBytes 1 n) with ⟨r, c2⟩
      cases r with
      | ok u =>
        simp only
        rw [write_andThen]
        rcases c2.write p with ⟨r, c3⟩
        cases r <;> rfl
      | err e => rfl
      | panic => rfl
      | hang => rfl
    | err e => rfl
    | panic => rfl
    | hang => rfl

/-! ## What is written stays written -/

theorem write_output (ch : Channel) (bs : Bytes) : ch.output <+: (ch.write bs).2.output := by
  unfold Channel.write
  split
  · exact List.prefix_append _ _
  · exact List.prefix_append _ _
  · exact List.prefix_rfl

theorem writeAll_output (bs : Bytes) : ∀ ch : Channel, ch.output <+: (ch.writeAll bs).2.output := by
  induction hk : bs.length using Nat.strongRecOn generalizing bs with
  | _ k ih =>
    intro ch
    rw [Channel.writeAll.eq_def]
    split
    · exact List.prefix_rfl
    · have h := write_output ch bs
      revert h
      rcases ch.write bs with ⟨r, ch'⟩
      intro h
      cases r with
      | ok n =>
        simp only
        split
        · rename_i h'
          refine h.trans (ih _ ?_ _ rfl ch')
          have := List.length_pos_iff.2 h'.2
          rw [List.length_drop]
          omega
        · exact h
      | err e => exact h
      | panic => exact h
      | hang => exact h

theorem writePacket_output (ch : Channel) (p : Bytes) (n : Nat) : ch.output <+: (ch.writePacket p n).2.output := by
  unfold Channel.writePacket
  simp only
  split
  · exact List.prefix_rfl
  · have h1 := writeAll_output (leBytes 3 (p.length % 2 ^ 32)) { ch with trace := ch.trace ++ [.sent n p] }
    revert h1
    rcases Channel.writeAll { ch with trace := ch.trace ++ [.sent n p] } (leBytes 3 (p.length % 2 ^ 32)) with ⟨r, c1⟩
    intro h1
    cases r with
    | ok u =>
      have h2 := writeAll_output (leBytes 1 n) c1
      revert h2
      simp only
      rcases c1.writeAll (leBytes 1 n) with ⟨r, c2⟩
      intro h2
      cases r with
      | ok u =>
        have h3 := write_output c2 p
        revert h3
        simp only
        rcases c2.write p with ⟨r, c3⟩
        intro h3
        cases r <;> exact h1.trans (h2.trans h3)
      | err e => exact h1.trans h2
      | panic => exact h1.trans h2
      | hang => exact h1.trans h2
    | err e => exact h1
    | panic => exact h1
    | hang => exact h1

/-- Trace and output only grow, the output only with packets sent. -/
def WritesOn (s s' : Sess) : Prop := ∃ t, s'.chan.trace = s.chan.trace ++ t ∧ s.chan.output <+: s'.chan.output ∧
  (s'.chan.output ≠ s.chan.output → ∃ k p, Packet.sent k p ∈ t)

theorem WritesOn.still {s s' : Sess} (ht : s'.chan.trace = s.chan.trace) (ho : s'.chan.output = s.chan.output) : WritesOn s s' :=
  ⟨[], by rw [ht, List.append_nil], by rw [ho]; exact List.prefix_rfl, fun h => absurd ho h⟩

theorem frame_goesOn : Frame WritesOn where
  refl _ := .still rfl rfl
  trans := by
    rintro a b c ⟨t, h1, h2, h3⟩ ⟨t', h1', h2', h3'⟩
    refine ⟨t ++ t', by rw [h1', h1, List.append_assoc], h2.trans h2', fun hne => ?_⟩
    by_cases hb : b.chan.output = a.chan.output
    · obtain ⟨k, p, hm⟩ := h3' (by rw [hb]; exact hne)
      exact ⟨k, p, List.mem_append_right _ hm⟩
    · obtain ⟨k, p, hm⟩ := h3 hb
      exact ⟨k, p, List.mem_append_left _ hm⟩
  read s := by
    show WritesOn s { s with chan := (s.chan.readPacket).2 }
    rcases hr : s.chan.readPacket with ⟨r, ch⟩
    cases r with
    | ok x => obtain ⟨-, -, rest, -, rfl⟩ := readPacket_inv hr; exact ⟨[.received x.2 x.1], rfl, List.prefix_rfl, fun h => absurd rfl h⟩
    | err e => obtain ⟨-, rfl⟩ := readPacket_fail hr (by simp); exact .still rfl rfl
    | panic => obtain ⟨-, rfl⟩ := readPacket_fail hr (by simp); exact .still rfl rfl
    | hang => obtain ⟨-, rfl⟩ := readPacket_fail hr (by simp); exact .still rfl rfl
  write p n s := by
    refine ⟨[.sent n p], ?_, writePacket_output _ _ _, fun _ => ⟨n, p, List.mem_singleton.2 rfl⟩⟩
    show (s.chan.writePacket p n).2.trace = _
    obtain ⟨out, ws, hw⟩ := writePacket_frame s.chan p n
    rw [hw]

theorem fullFrame_goesOn : FullFrame WritesOn where
  toFrame := frame_goesOn
  reset _ := .still rfl rfl
  adjust := frame_goesOn.adjustStartingPosition fun _ _ _ => .still rfl rfl

/-! ## Code that depends on what it has read -/

structure Causal {α : Type} (p : S α) : Prop where
  grows : SRel WritesOn p
  foreseen : ∀ s more e l, Foreseen more e l (p s) (p (Sess.andThen s more e l))

namespace Causal

theorem of {α : Type} {p : S α} (h : ∀ s more e l, p (Sess.andThen s more e l) = ((p s).1, Sess.andThen (p s).2 more e l)) (hg : SRel WritesOn p) :
    Causal p := ⟨hg, fun s more e l => .same (h s more e l)⟩

theorem lift {α : Type} (r : Res α) : Causal (S.lift r) := of (fun _ _ _ _ => rfl) fun _ => frame_goesOn.refl _
theorem pure {α : Type} (a : α) : Causal (pure a : S α) := of (fun _ _ _ _ => rfl) fun _ => frame_goesOn.refl _
theorem fail {α : Type} (e : Err) : Causal (S.fail e : S α) := of (fun _ _ _ _ => rfl) fun _ => frame_goesOn.refl _
theorem client : Causal S.client := of (fun _ _ _ _ => rfl) fun _ => frame_goesOn.refl _
theorem setClient (c : Client) : Causal (S.setClient c) := of (fun _ _ _ _ => rfl) fun _ => .still rfl rfl
theorem reset : Causal resetOnReconnect := of (fun _ _ _ _ => rfl) fun _ => .still rfl rfl

theorem write (p : Bytes) (n : Nat) : Causal (S.writePacket p n) := of (fun s more e l => by
  show (((Channel.andThen s.chan more e l).writePacket p n).1, { Sess.andThen s more e l with chan := ((Channel.andThen s.chan more e l).writePacket p n).2 }) = _
  rw [writePacket_andThen]
  rfl) (frame_goesOn.write p n)

theorem read_whole {ch : Channel} {p : Bytes} {n : Nat} {ch' : Channel} (h : ch.readPacket = (.ok (p, n), ch')) (more : Bytes) (e : IoKind)
    (l : List (Bytes × IoKind)) : (Channel.andThen ch more e l).readPacket = (.ok (p, n), Channel.andThen ch' more e l) := by
  obtain ⟨h1, h2, rest, h3, rfl⟩ := readPacket_inv h
  rw [readPacket_frame (Channel.andThen ch more e l) p (rest ++ more) n h1 h2 (by show ch.input ++ more = _; rw [h3, List.append_assoc])]
  rfl

theorem read_foreseen (s : Sess) (more : Bytes) (e : IoKind) (l : List (Bytes × IoKind)) :
    Foreseen more e l (S.readPacket s) (S.readPacket (Sess.andThen s more e l)) := by
  unfold S.readPacket
  rcases hr : s.chan.readPacket with ⟨r, ch⟩
  have fails : (∀ x, r ≠ .ok x) → Foreseen more e l (r, { s with chan := ch })
      (((Sess.andThen s more e l).chan.readPacket).1, { Sess.andThen s more e l with chan := ((Sess.andThen s more e l).chan.readPacket).2 }) := by
    intro hne
    obtain ⟨rfl, rfl⟩ := readPacket_fail hr hne
    rcases hr2 : (Sess.andThen s more e l).chan.readPacket with ⟨r2, ch2⟩
    have fails2 : (∀ x, r2 ≠ .ok x) → Foreseen more e l (.err (.io s.chan.ending), { s with chan := { s.chan with input := [] } })
        (r2, { Sess.andThen s more e l with chan := ch2 }) := by
      intro hne2
      obtain ⟨rfl, rfl⟩ := readPacket_fail hr2 hne2
      exact .waits rfl rfl rfl rfl rfl
    cases r2 with
    | ok x =>
      obtain ⟨-, -, rest, -, rfl⟩ := readPacket_inv hr2
      exact .goesOn rfl List.prefix_rfl x.2 x.1 [] rfl fun h => absurd rfl h
    | err e => exact fails2 (by simp)
    | panic => exact fails2 (by simp)
    | hang => exact fails2 (by simp)
  cases r with
  | ok x =>
    refine .same ?_
    rw [show (Sess.andThen s more e l).chan = Channel.andThen s.chan more e l from rfl, read_whole (p := x.1) (n := x.2) hr]
    rfl
  | err e => exact fails (by simp)
  | panic => exact fails (by simp)
  | hang => exact fails (by simp)

theorem read : Causal S.readPacket := ⟨frame_goesOn.read, read_foreseen⟩

/-- What comes after an outcome. -/
def after {α β : Type} (f : α → S β) : Res α × Sess → Res β × Sess
  | (.ok a, s) => f a s
  | (.err e, s) => (.err e, s)
  | (.panic, s) => (.panic, s)
  | (.hang, s) => (.hang, s)

theorem bind_after {α β : Type} (p : S α) (f : α → S β) (s : Sess) : (p >>= f) s = after f (p s) := rfl

/-- One step of `bind`. -/
theorem bind_foreseen {α β : Type} {more : Bytes} {e : IoKind} {l : List (Bytes × IoKind)} {x x2 : Res α × Sess} {f : α → S β}
    (h : Foreseen more e l x x2) (hg : ∀ a, SRel WritesOn (f a))
    (hf : ∀ a s, x = (.ok a, s) → Foreseen more e l (f a s) (f a (Sess.andThen s more e l))) :
    Foreseen more e l (after f x) (after f x2) := by
  obtain ⟨r, s1⟩ := x
  obtain ⟨r2, s2⟩ := x2
  cases h with
  | same h =>
    obtain ⟨h1, h2⟩ := Prod.mk.inj h
    simp only at h1 h2
    subst h1 h2
    cases r2 with
    | ok a => exact hf a s1 rfl
    | err e => exact .same rfl
    | panic => exact .same rfl
    | hang => exact .same rfl
  | waits h h2 hc ho ht =>
    simp only at h h2
    subst h h2
    exact .waits rfl rfl hc ho ht
  | goesOn h ho n q t ht hw =>
    simp only at h
    subst h
    have key : ∀ s3, WritesOn s2 s3 → ∀ r3 : Res β, Foreseen more e l ((.err (.io s1.chan.ending) : Res β), s1) (r3, s3) := by
      intro s3 h3 r3
      obtain ⟨t', ht', ho', hw'⟩ := h3
      refine .goesOn rfl (ho.trans ho') n q (t ++ t') ?_ fun hne => ?_
      · show s3.chan.trace = _
        rw [ht', (ht : s2.chan.trace = _)]
        simp
      · by_cases hb : s2.chan.output = s1.chan.output
        · obtain ⟨k, p, hm⟩ := hw' (by rw [hb]; exact hne)
          exact ⟨k, p, List.mem_append_right _ hm⟩
        · obtain ⟨k, p, hm⟩ := hw hb
          exact ⟨k, p, List.mem_append_left _ hm⟩
    cases r2 with
    | ok a => exact key _ (hg a s2) _
    | err e => exact key _ (frame_goesOn.refl _) _
    | panic => exact key _ (frame_goesOn.refl _) _
    | hang => exact key _ (frame_goesOn.refl _) _

theorem bind {α β : Type} {p : S α} {f : α → S β} (hp : Causal p) (hf : ∀ a, Causal (f a)) : Causal (p >>= f) := by
  refine ⟨.bind frame_goesOn.toPreorder' hp.grows fun a => (hf a).grows, fun s more e l => ?_⟩
  rw [Causal.bind_after, Causal.bind_after]
  exact bind_foreseen (hp.foreseen s more e l) (fun a => (hf a).grows) fun a s _ => (hf a).foreseen s more e l

theorem ite {α : Type} {c : Prop} [Decidable c] {p q : S α} (hp : Causal p) (hq : Causal q) : Causal (if c then p else q) := by
  split
  · exact hp
  · exact hq

end Causal

/-! ## The loops, without their guards -/

theorem read_shorter {s s' : Sess} {x : Bytes × Nat} (h : S.readPacket s = (.ok x, s')) : s'.chan.input.length < s.chan.input.length := by
  unfold S.readPacket at h
  rcases hr : s.chan.readPacket with ⟨r, ch⟩
  rw [hr] at h
  obtain ⟨rfl, rfl⟩ := Prod.mk.inj h
  obtain ⟨-, -, rest, h3, rfl⟩ := readPacket_inv (p := x.1) (n := x.2) hr
  show rest.length < _
  rw [h3]
  simp only [frame, List.length_append, le_length]
  omega

def skipS : S Unit := skipMetadata

def rowsS : S (List (List RStr)) := readRows

theorem skipS_eq (s : Sess) : skipS s =
    (S.readPacket >>= fun x => match x.1 with
      | [] => S.lift .panic
      | b :: _ => if b = RESP_EOF then pure () else skipS : S Unit) s := by
  rw [show skipS s = skipMetadata s from rfl, skipMetadata.eq_def, S.bind_eq]
  rcases hr : S.readPacket s with ⟨r, s'⟩
  cases r with
  | ok x =>
    obtain ⟨p, n⟩ := x
    cases p with
    | nil => rfl
    | cons b bs =>
      simp only
      rw [if_pos (read_shorter hr)]
      by_cases h : b = RESP_EOF
      · rw [if_pos h, if_pos h]
        rfl
      · rw [if_neg h, if_neg h]
        rfl
  | err e => rfl
  | panic => rfl
  | hang => rfl

theorem rowsS_eq (s : Sess) : rowsS s =
    (S.readPacket >>= fun x => S.lift (checkErrorPacket x.1 "Query result set error.") >>= fun _ => match x.1 with
      | [] => S.lift .panic
      | b :: bs => if b = RESP_EOF then pure [] else S.lift (parseResultSetRow.run (b :: bs)) >>= fun row => rowsS >>= fun rows => pure (row :: rows) :
        S (List (List RStr))) s := by
  rw [show rowsS s = readRows s from rfl, readRows.eq_def, S.bind_eq]
  rcases hr : S.readPacket s with ⟨r, s'⟩
  cases r with
  | ok x =>
    obtain ⟨p, n⟩ := x
    simp only
    rw [S.bind_eq, S.lift]
    cases checkErrorPacket p "Query result set error." with
    | ok u =>
      cases p with
      | nil => rfl
      | cons b bs =>
        simp only
        by_cases h : b = RESP_EOF
        · rw [if_pos h, if_pos h]
          rfl
        · rw [if_neg h, if_neg h, S.bind_eq]
          cases parseResultSetRow.run (b :: bs) with
          | ok row =>
            simp only
            rw [if_pos (read_shorter hr)]
            show _ = (rowsS >>= fun rows => pure (row :: rows) : S (List (List RStr))) s'
            rw [S.bind_eq, show rowsS s' = readRows s' from rfl]
            rcases readRows s' with ⟨r, s''⟩
            cases r <;> rfl
          | err e => rfl
          | panic => rfl
          | hang => rfl
    | err e => rfl
    | panic => rfl
    | hang => rfl
  | err e => rfl
  | panic => rfl
  | hang => rfl

theorem causal_skip : Causal skipS := by
  refine ⟨frame_goesOn.skipMetadata, fun s more e l => ?_⟩
  induction hk : s.chan.input.length using Nat.strongRecOn generalizing s with
  | _ k ih =>
    rw [skipS_eq, skipS_eq, Causal.bind_after, Causal.bind_after]
    refine Causal.bind_foreseen (Causal.read_foreseen s more e l) (fun x => ?_) fun x s' hr => ?_
    · cases x.1 with
      | nil => exact fun _ => frame_goesOn.refl _
      | cons b bs =>
        simp only
        split
        · exact fun _ => frame_goesOn.refl _
        · exact frame_goesOn.skipMetadata
    · cases x.1 with
      | nil => exact .same rfl
      | cons b bs =>
        simp only
        split
        · exact .same rfl
        · exact ih _ (hk ▸ read_shorter hr) s' rfl

theorem causal_rows : Causal rowsS := by
  refine ⟨frame_goesOn.readRows, fun s more e l => ?_⟩
  have hP := frame_goesOn.toPreorder'
  induction hk : s.chan.input.length using Nat.strongRecOn generalizing s with
  | _ k ih =>
    rw [rowsS_eq, rowsS_eq, Causal.bind_after, Causal.bind_after]
    refine Causal.bind_foreseen (Causal.read_foreseen s more e l) (fun x => .bind hP (.lift hP _) fun _ => ?_) fun x s' hr => ?_
    · cases x.1 with
      | nil => exact fun _ => hP.refl _
      | cons b bs =>
        simp only
        split
        · exact fun _ => hP.refl _
        · exact .bind hP (.lift hP _) fun _ => .bind hP (p := rowsS) frame_goesOn.readRows fun _ => .pure hP _
    · rw [Causal.bind_after, Causal.bind_after]
      refine Causal.bind_foreseen ((Causal.lift _).foreseen s' more e l) (fun _ => ?_) fun _ s'' hl => ?_
      · cases x.1 with
        | nil => exact fun _ => hP.refl _
        | cons b bs =>
          simp only
          split
          · exact fun _ => hP.refl _
          · exact .bind hP (.lift hP _) fun _ => .bind hP (p := rowsS) frame_goesOn.readRows fun _ => .pure hP _
      · obtain ⟨-, rfl⟩ := Prod.mk.inj hl
        cases x.1 with
        | nil => exact .same rfl
        | cons b bs =>
          simp only
          split
          · exact .same rfl
          · rw [Causal.bind_after, Causal.bind_after]
            refine Causal.bind_foreseen ((Causal.lift _).foreseen s' more e l) (fun _ => .bind hP (p := rowsS) frame_goesOn.readRows fun _ => .pure hP _) fun row s'' hl => ?_
            obtain ⟨-, rfl⟩ := Prod.mk.inj hl
            rw [Causal.bind_after, Causal.bind_after]
            exact Causal.bind_foreseen (ih _ (hk ▸ read_shorter hr) s' rfl) (fun _ => .pure hP _) fun _ _ _ => .same rfl

theorem causal_result : Causal readResultSet :=
  .bind .read fun _ => .bind (.lift _) fun _ => .bind causal_skip fun _ => causal_rows

/-! ## Setting up replication -/

theorem causal_sha256 (m : Mode) (c : Crypto) (packet : Bytes) (scramble : RStr) (n : Nat) (ssl : Bool) :
    Causal (authenticateSha256 m c packet scramble n ssl) := by
  refine .bind (.lift _) fun done => ?_
  cases done
  · refine .bind .client fun self => ?_
    cases ssl
    · exact .bind (.write _ _) fun _ => .bind .read fun _ => .bind (.lift _) fun _ => .bind (.lift _) fun _ => .bind (.lift _) fun _ =>
        .bind (.write _ _) fun _ => .bind .read fun _ => .lift _
    · exact .bind (.write _ _) fun _ => .bind .read fun _ => .lift _
  · exact .pure _

theorem causal_switch (m : Mode) (c : Crypto) (switch : AuthPluginSwitchPacket) (n : Nat) (ssl : Bool) :
    Causal (handleAuthPluginSwitch m c switch n ssl) := by
  refine .bind (.lift _) fun _ => .bind .client fun _ => .bind (.lift _) fun _ => .bind (.write _ _) fun _ => .bind .read fun _ =>
    .bind (.lift _) fun _ => .ite ?_ (.pure _)
  exact .bind (.lift _) fun _ => causal_sha256 m c _ _ _ _

theorem causal_ssl (m : Mode) (h : HandshakePacket) (n : Nat) : Causal (negotiateSsl m h n) := by
  refine .bind .client fun _ => .ite ?_ (.pure _)
  refine .ite (.fail _) (.ite ?_ (.pure _))
  exact .bind (.write _ _) fun _ => .bind (.lift _) fun _ => .lift _

theorem causal_authenticate (m : Mode) (c : Crypto) (h : HandshakePacket) (p : AuthPlugin) (n : Nat) : Causal (authenticate m c h p n) := by
  refine .bind (causal_ssl m h n) fun _ => .bind .client fun _ => .bind (.lift _) fun _ => .bind (.write _ _) fun _ => .bind .read fun _ =>
    .bind (.lift _) fun _ => .bind (.lift _) fun _ => .ite (.pure _) (.ite ?_ ?_)
  · exact .bind (.lift _) fun _ => .bind (.lift _) fun _ => causal_switch m c _ _ _
  · exact .bind (.lift _) fun _ => causal_sha256 m c _ _ _ _

theorem causal_connect (m : Mode) (c : Crypto) : Causal (connect m c) :=
  .bind .read fun _ => .bind (.lift _) fun _ => .bind (.lift _) fun _ => .bind (.lift _) fun _ => .bind (.lift _) fun _ =>
    .bind (causal_authenticate m c _ _ _) fun _ => .pure _

theorem causal_adjust : Causal adjustStartingPosition := by
  refine .bind .client fun _ => .ite (.pure _) (.ite (.pure _) ?_)
  refine .bind (.write _ _) fun _ => .bind causal_result fun _ => .ite (.fail _) ?_
  exact .bind (.lift _) fun _ => .bind (.setClient _) fun _ => .bind (.lift _) fun _ => .bind (.lift _) fun _ => .setClient _

theorem causal_query (sql : RStr) (message : String) : Causal (simpleQuery sql message) :=
  .bind (.write _ _) fun _ => .bind .read fun _ => .lift _

theorem causal_mariadb (id : Nat) : Causal (replicateMariadb id) := by
  refine .bind (causal_query _ _) fun _ => .bind .client fun self => .ite ?_ (.write _ _)
  cases self.options.binlog.gtidList with
  | none => exact .fail _
  | some list =>
    refine .bind ?_ fun _ => .write _ _
    exact .bind (causal_query _ _) fun _ => .bind (causal_query _ _) fun _ => .bind (causal_query _ _) fun _ => .bind (.write _ _) fun _ =>
      .bind .read fun _ => .lift _

theorem causal_mysql (m : Mode) (id : Nat) : Causal (replicateMysql m id) := by
  refine .bind .client fun self => .ite ?_ (.write _ _)
  cases self.options.binlog.gtidSet with
  | none => exact .fail _
  | some set => exact .bind (.lift _) fun _ => .write _ _

theorem causal_setUp (m : Mode) (c : Crypto) : Causal (setUp m c) := by
  refine .bind (causal_connect m c) fun provider => .bind .reset fun _ => .bind causal_adjust fun _ => .bind ?_ fun _ => .bind ?_ fun _ =>
    .bind .client fun _ => ?_
  · exact .bind .client fun _ => .bind (.write _ _) fun _ => .bind .read fun _ => .lift _
  · exact .bind (.write _ _) fun _ => .bind .read fun _ => .bind (.lift _) fun _ => .bind (.write _ _) fun _ => .bind causal_result fun _ =>
      .bind (.lift _) fun _ => .lift _
  · cases provider with
    | mariaDB => exact .bind (causal_mariadb _) fun _ => .pure _
    | mySQL => exact .bind (causal_mysql m _) fun _ => .pure _

/-- **C133.** What setting up replication comes to, what is written and which packets are exchanged depend only on what has been received: with more to
come from the other side it is the same, and the rest is left to be read; or else the client was waiting for a packet when reading failed, and then it still
waits, or reads it and goes on from there. -/
theorem C133_depends_on_received (m : Mode) (c : Crypto) (s : Sess) (more : Bytes) (ending : IoKind) (later : List (Bytes × IoKind)) :
    Foreseen more ending later (setUp m c s) (setUp m c (Sess.andThen s more ending later)) := (causal_setUp m c).foreseen s more ending later

/-! ## How much is sent -/

/-- At most `k` packets are sent. -/
def SendsAtMost {α : Type} (k : Nat) (p : S α) : Prop := ∀ s, sentCount (p s).2.chan.trace ≤ sentCount s.chan.trace + k

theorem sentCount_append (a b : List Packet) : sentCount (a ++ b) = sentCount a + sentCount b := by
  induction a with
  | nil => simp [sentCount]
  | cons p a ih =>
    cases p with
    | sent n q => rw [List.cons_append, sentCount, sentCount, ih]; omega
    | received n q => rw [List.cons_append, sentCount, sentCount, ih]

theorem sentCount_pos {k : Nat} {p : Bytes} {t : List Packet} (h : Packet.sent k p ∈ t) : 0 < sentCount t := by
  obtain ⟨a, b, rfl⟩ := List.append_of_mem h
  rw [sentCount_append, sentCount]
  omega

namespace SendsAtMost

theorem bind {α β : Type} {j k : Nat} {p : S α} {f : α → S β} (hp : SendsAtMost j p) (hf : ∀ a, SendsAtMost k (f a)) : SendsAtMost (j + k) (p >>= f) := by
  intro s
  rw [S.bind_eq]
  have h := hp s
  revert h
  rcases p s with ⟨r, s'⟩
  intro h
  simp only at h
  cases r with
  | ok a => have := hf a s'; simp only; omega
  | err e => simp only; omega
  | panic => simp only; omega
  | hang => simp only; omega

theorem mono {α : Type} {j k : Nat} {p : S α} (h : SendsAtMost j p) (hjk : j ≤ k) : SendsAtMost k p := fun s => Nat.le_trans (h s) (by omega)

theorem zero {α : Type} {p : S α} (h : ∀ s, (p s).2.chan.trace = s.chan.trace) : SendsAtMost 0 p := fun s => by rw [h s]; omega

theorem lift {α : Type} (r : Res α) : SendsAtMost 0 (S.lift r) := zero fun _ => rfl
theorem pure {α : Type} (a : α) : SendsAtMost 0 (pure a : S α) := zero fun _ => rfl
theorem fail {α : Type} (e : Err) : SendsAtMost 0 (S.fail e : S α) := zero fun _ => rfl
theorem client : SendsAtMost 0 S.client := zero fun _ => rfl
theorem setClient (c : Client) : SendsAtMost 0 (S.setClient c) := zero fun _ => rfl
theorem reset : SendsAtMost 0 resetOnReconnect := zero fun _ => rfl

theorem write (p : Bytes) (n : Nat) : SendsAtMost 1 (S.writePacket p n) := by
  intro s
  show sentCount (s.chan.writePacket p n).2.trace ≤ _
  obtain ⟨out, ws, hw⟩ := writePacket_frame s.chan p n
  rw [hw, sentCount_append]
  rfl

theorem ite {α : Type} {k : Nat} {c : Prop} [Decidable c] {p q : S α} (hp : SendsAtMost k p) (hq : SendsAtMost k q) :
    SendsAtMost k (if c then p else q) := by
  split
  · exact hp
  · exact hq

/-- Nothing sent. -/
theorem quiet_frame : ReadFrame fun s s' => sentCount s'.chan.trace ≤ sentCount s.chan.trace where
  refl _ := Nat.le_refl _
  trans h h' := Nat.le_trans h' h
  read s := by
    show sentCount (s.chan.readPacket).2.trace ≤ _
    rcases hr : s.chan.readPacket with ⟨r, ch⟩
    cases r with
    | ok x => obtain ⟨-, -, rest, -, rfl⟩ := readPacket_inv hr; rw [sentCount_append]; exact Nat.le_refl _
    | err e => obtain ⟨-, rfl⟩ := readPacket_fail hr (by simp); exact Nat.le_refl _
    | panic => obtain ⟨-, rfl⟩ := readPacket_fail hr (by simp); exact Nat.le_refl _
    | hang => obtain ⟨-, rfl⟩ := readPacket_fail hr (by simp); exact Nat.le_refl _

theorem read : SendsAtMost 0 S.readPacket := fun s => quiet_frame.read s
theorem result : SendsAtMost 0 readResultSet := fun s => quiet_frame.readResultSet s

theorem sha256 (m : Mode) (c : Crypto) (packet : Bytes) (scramble : RStr) (n : Nat) (ssl : Bool) :
    SendsAtMost 2 (authenticateSha256 m c packet scramble n ssl) := by
  refine (bind (k := 2) (lift _) fun done => ?_).mono (by omega)
  cases done
  · refine (bind (k := 2) client fun self => ?_).mono (by omega)
    cases ssl
    · exact .bind (.write _ _) fun _ => .bind .read fun _ => .bind (.lift _) fun _ => .bind (.lift _) fun _ => .bind (.lift _) fun _ =>
        .bind (.write _ _) fun _ => .bind .read fun _ => .lift _
    · exact (bind (.write _ _) fun _ => .bind .read fun _ => .lift _).mono (by omega)
  · exact (pure _).mono (by omega)

theorem switch (m : Mode) (c : Crypto) (switch : AuthPluginSwitchPacket) (n : Nat) (ssl : Bool) :
    SendsAtMost 3 (handleAuthPluginSwitch m c switch n ssl) := by
  refine (bind (k := 3) (lift _) fun _ => .bind (j := 0) (k := 3) .client fun _ => .bind (j := 0) (k := 3) (.lift _) fun _ =>
    .bind (j := 1) (k := 2) (.write _ _) fun _ => .bind (j := 0) (k := 2) .read fun _ => .bind (j := 0) (k := 2) (.lift _) fun _ =>
    .ite ?_ ((pure _).mono (by omega))).mono (by omega)
  exact .bind (j := 0) (k := 2) (.lift _) fun _ => sha256 m c _ _ _ _

theorem ssl (m : Mode) (h : HandshakePacket) (n : Nat) : SendsAtMost 1 (negotiateSsl m h n) := by
  refine .bind (j := 0) (k := 1) .client fun _ => .ite ?_ ((pure _).mono (by omega))
  refine .ite ((fail _).mono (by omega)) (.ite ?_ ((pure _).mono (by omega)))
  exact .bind (.write _ _) fun _ => .bind (.lift _) fun _ => .lift _

theorem authenticate (m : Mode) (c : Crypto) (h : HandshakePacket) (p : AuthPlugin) (n : Nat) : SendsAtMost 5 (authenticate m c h p n) := by
  refine .bind (j := 1) (k := 4) (ssl m h n) fun _ => .bind (j := 0) (k := 4) .client fun _ => .bind (j := 0) (k := 4) (.lift _) fun _ =>
    .bind (j := 1) (k := 3) (.write _ _) fun _ => .bind (j := 0) (k := 3) .read fun _ =>
    .bind (j := 0) (k := 3) (.lift _) fun _ => .bind (j := 0) (k := 3) (.lift _) fun _ => .ite ((pure _).mono (by omega)) (.ite ?_ ?_)
  · exact .bind (j := 0) (k := 3) (.lift _) fun _ => .bind (j := 0) (k := 3) (.lift _) fun _ => switch m c _ _ _
  · exact (bind (j := 0) (k := 2) (.lift _) fun _ => sha256 m c _ _ _ _).mono (by omega)

theorem connect (m : Mode) (c : Crypto) : SendsAtMost 5 (connect m c) :=
  .bind (j := 0) (k := 5) .read fun _ => .bind (j := 0) (k := 5) (.lift _) fun _ => .bind (j := 0) (k := 5) (.lift _) fun _ =>
    .bind (j := 0) (k := 5) (.lift _) fun _ => .bind (j := 0) (k := 5) (.lift _) fun _ => .bind (j := 5) (k := 0) (authenticate m c _ _ _) fun _ => .pure _

theorem adjust : SendsAtMost 1 adjustStartingPosition := by
  refine .bind (j := 0) (k := 1) .client fun _ => .ite ((pure _).mono (by omega)) (.ite ((pure _).mono (by omega)) ?_)
  refine .bind (j := 1) (k := 0) (.write _ _) fun _ => .bind (j := 0) (k := 0) result fun _ => .ite (.fail _) ?_
  exact .bind (j := 0) (.lift _) fun _ => .bind (.setClient _) fun _ => .bind (.lift _) fun _ => .bind (.lift _) fun _ => .setClient _

theorem query (sql : RStr) (message : String) : SendsAtMost 1 (simpleQuery sql message) :=
  .bind (.write _ _) fun _ => .bind .read fun _ => .lift _

theorem mariadb (id : Nat) : SendsAtMost 6 (replicateMariadb id) := by
  refine .bind (j := 1) (k := 5) (query _ _) fun _ => .bind (j := 0) (k := 5) .client fun self => .ite ?_ ((write _ _).mono (by omega))
  cases self.options.binlog.gtidList with
  | none => exact (fail _).mono (by omega)
  | some list =>
    refine .bind (j := 4) (k := 1) ?_ fun _ => .write _ _
    exact .bind (j := 1) (k := 3) (query _ _) fun _ => .bind (j := 1) (k := 2) (query _ _) fun _ => .bind (j := 1) (k := 1) (query _ _) fun _ =>
      .bind (.write _ _) fun _ => .bind .read fun _ => .lift _

theorem mysql (m : Mode) (id : Nat) : SendsAtMost 1 (replicateMysql m id) := by
  refine .bind (j := 0) (k := 1) .client fun self => .ite ?_ (.write _ _)
  cases self.options.binlog.gtidSet with
  | none => exact (fail _).mono (by omega)
  | some set => exact .bind (j := 0) (k := 1) (.lift _) fun _ => .write _ _

theorem setUp (m : Mode) (c : Crypto) : SendsAtMost 15 (setUp m c) := by
  refine .bind (j := 5) (k := 10) (connect m c) fun provider => .bind (j := 0) (k := 10) .reset fun _ => .bind (j := 1) (k := 9) adjust fun _ =>
    .bind (j := 1) (k := 8) ?_ fun _ => .bind (j := 2) (k := 6) ?_ fun _ => .bind (j := 0) (k := 6) .client fun _ => ?_
  · exact .bind (j := 0) (k := 1) .client fun _ => .bind (.write _ _) fun _ => .bind .read fun _ => .lift _
  · exact .bind (j := 1) (k := 1) (.write _ _) fun _ => .bind (j := 0) (k := 1) .read fun _ => .bind (j := 0) (k := 1) (.lift _) fun _ =>
      .bind (j := 1) (k := 0) (.write _ _) fun _ => .bind result fun _ => .bind (.lift _) fun _ => .lift _
  · cases provider with
    | mariaDB => exact .bind (j := 6) (k := 0) (mariadb _) fun _ => .pure _
    | mySQL => exact (bind (j := 1) (k := 0) (mysql m _) fun _ => .pure _).mono (by omega)

end SendsAtMost

/-- **C133.** Whatever the server sends, the client sends at most 15 packets while it sets up replication (no conversation comes to so many). -/
theorem C133_at_most_15 (m : Mode) (c : Crypto) (s : Sess) : sentCount (setUp m c s).2.chan.trace ≤ sentCount s.chan.trace + 15 :=
  SendsAtMost.setUp m c s

/-! ## Somebody who answers -/

/-- The session in which the other side sends `x` and no more. -/
def Spec.Sess.sent (s : Sess) (x : Bytes) : Sess := { s with chan := { s.chan with input := x } }

theorem sent_foreseen (m : Mode) (c : Crypto) (s : Sess) {x y : Bytes} (h : x <+: y) :
    ∃ more, y = x ++ more ∧ Foreseen more s.chan.ending s.chan.later (setUp m c (Sess.sent s x)) (setUp m c (Sess.sent s y)) := by
  obtain ⟨more, rfl⟩ := h
  exact ⟨more, rfl, C133_depends_on_received m c (Sess.sent s x) more s.chan.ending s.chan.later⟩

/-- **C133.** The more it is sent, the more the client writes, and never anything else. -/
theorem C133_writes_grow (m : Mode) (c : Crypto) (s : Sess) {x y : Bytes} (h : x <+: y) :
    (setUp m c (Sess.sent s x)).2.chan.output <+: (setUp m c (Sess.sent s y)).2.chan.output ∧
      (setUp m c (Sess.sent s x)).2.chan.trace <+: (setUp m c (Sess.sent s y)).2.chan.trace := by
  obtain ⟨more, -, hf⟩ := sent_foreseen m c s h
  cases hf with
  | same h => rw [h]; exact ⟨List.prefix_rfl, List.prefix_rfl⟩
  | waits _ _ _ ho ht => rw [ho, ht]; exact ⟨List.prefix_rfl, List.prefix_rfl⟩
  | goesOn _ ho n q t ht _ => rw [ht]; exact ⟨ho, List.prefix_append _ _⟩

/-- **C133.** Whoever is at the other end and however they choose what to send by what they have been sent: after at most 16 rounds everything has been
said. Then there is a script, which is exactly what they send in answer to what the client writes when it is sent this script; and it is the shortest one.
So the theorems about scripts are about all who answer. -/
theorem C133_any_peer (m : Mode) (c : Crypto) (s : Sess) (peer : Peer) :
    let wrote := fun x => (setUp m c (Sess.sent s x)).2.chan.output
    ∃ n script, n ≤ 16 ∧ script = peer.rounds wrote n ∧ peer.sends (wrote script) = script ∧
      (∀ k, peer.rounds wrote k <+: script) ∧ ∀ other, peer.sends (wrote other) = other → script <+: other := by
  intro wrote
  have least : ∀ other, peer.sends (wrote other) = other → ∀ k, peer.rounds wrote k <+: other := by
    intro other ho k
    induction k with
    | zero => exact List.nil_prefix
    | succ k ih =>
      rw [← ho]
      exact peer.grows _ _ (C133_writes_grow m c s ih).1
  have rises : ∀ k, peer.rounds wrote k <+: peer.rounds wrote (k + 1) := by
    intro k
    induction k with
    | zero => exact List.nil_prefix
    | succ k ih => exact peer.grows _ _ (C133_writes_grow m c s ih).1
  have hrest : ∃ k, k ≤ 15 ∧ wrote (peer.rounds wrote k) = wrote (peer.rounds wrote (k + 1)) := by
    by_contra hno
    have hcount : ∀ k, k ≤ 16 → sentCount s.chan.trace + k ≤ sentCount (setUp m c (Sess.sent s (peer.rounds wrote k))).2.chan.trace := by
      intro k hk
      induction k with
      | zero =>
        obtain ⟨t, ht, -⟩ := (causal_setUp m c).grows (Sess.sent s (peer.rounds wrote 0))
        rw [ht, sentCount_append]
        exact Nat.le_add_right _ _
      | succ k ih =>
        have hne : wrote (peer.rounds wrote k) ≠ wrote (peer.rounds wrote (k + 1)) := fun h => hno ⟨k, by omega, h⟩
        have ih := ih (by omega)
        obtain ⟨more, -, hf⟩ := sent_foreseen m c s (rises k)
        cases hf with
        | same h => exact absurd (by show _ = (setUp m c (Sess.sent s (peer.rounds wrote (k + 1)))).2.chan.output; rw [h]; rfl) hne
        | waits _ _ _ ho _ => exact absurd ho.symm hne
        | goesOn _ _ n q t ht hw =>
          obtain ⟨j, p, hm⟩ := hw fun h => hne h.symm
          have := sentCount_pos hm
          rw [ht, sentCount_append, sentCount]
          omega
    have h1 := hcount 16 (by omega)
    have h2 := C133_at_most_15 m c (Sess.sent s (peer.rounds wrote 16))
    have h3 : (Sess.sent s (peer.rounds wrote 16)).chan.trace = s.chan.trace := rfl
    rw [h3] at h2
    omega
  obtain ⟨k, hk, he⟩ := hrest
  have hfix : peer.sends (wrote (peer.rounds wrote (k + 1))) = peer.rounds wrote (k + 1) := by
    rw [← he]
    rfl
  exact ⟨k + 1, _, by omega, rfl, hfix, least _ hfix, fun other ho => least other ho _⟩

/-- **C133**, the stream of events: when a whole packet has come, what `next` gives is the same whatever comes behind it; and nothing is written. -/
theorem C133_next (m : Mode) (st : BinlogEvents) (p : Bytes) (n : Nat) (rest : Bytes) (hp : p.length < 2 ^ 24) (hn : n < 2 ^ 8)
    (hi : st.channel.input = frame p n ++ rest) (more : Bytes) (ending : IoKind) (later : List (Bytes × IoKind)) :
    ({ st with channel := Channel.andThen st.channel more ending later } : BinlogEvents).next m =
      ((st.next m).1, { (st.next m).2 with channel := Channel.andThen (st.next m).2.channel more ending later }) ∧
      (st.next m).2.channel.output = st.channel.output := by
  have h := readPacket_frame st.channel p rest n hp hn hi
  have h2 := Causal.read_whole h more ending later
  obtain ⟨ch, parser⟩ := st
  simp only at h h2
  unfold BinlogEvents.next
  simp only [h, h2]
  cases p with
  | nil => exact ⟨rfl, rfl⟩
  | cons b bs =>
    simp only
    have hread : ∀ ch', BinlogEvents.readEvent m ⟨ch', parser⟩ (b :: bs) =
        ((BinlogEvents.readEvent m ⟨ch, parser⟩ (b :: bs)).1, { (BinlogEvents.readEvent m ⟨ch, parser⟩ (b :: bs)).2 with channel := ch' }) := by
      intro ch'
      unfold BinlogEvents.readEvent
      cases parseHeader.run ((b :: bs).drop 1) with
      | ok header =>
        simp only
        rcases parseEvent m parser header ((b :: bs).drop (1 + EVENT_HEADER_SIZE)) with ⟨r, parser'⟩
        cases r <;> rfl
      | err e => rfl
      | panic => rfl
      | hang => rfl
    rw [hread { ch with input := rest, trace := ch.trace ++ [.received n (b :: bs)] }, hread (Channel.andThen _ more ending later)]
    split
    · exact ⟨rfl, rfl⟩
    · split
      · exact ⟨rfl, rfl⟩
      · split <;> exact ⟨rfl, rfl⟩

/-! ## Examples -/

/-- A MySQL server that greets, and says the rest once it has been answered. -/
def exPeer : Peer where
  sends bytes := if bytes = [] then frames ((exLogin "8.0.30").take 1) else frames (exLogin "8.0.30" ++ exConfigured)
  grows a b h := by
    have hp : frames ((exLogin "8.0.30").take 1) <+: frames (exLogin "8.0.30" ++ exConfigured) := by
      exact ⟨frames ((exLogin "8.0.30" ++ exConfigured).drop 1), by with_unfolding_all rfl⟩
    by_cases ha : a = []
    · by_cases hb : b = []
      · rw [if_pos ha, if_pos hb]; exact List.prefix_rfl
      · rw [if_pos ha, if_neg hb]; exact hp
    · rw [if_neg ha, if_neg fun hb => ha (by rw [hb] at h; exact List.prefix_nil.1 h)]; exact List.prefix_rfl

/-- With it the client waits after the greeting, and after the second round has set up replication. -/
example (m : Mode) :
    let s : Sess := ⟨exUser BinlogOptions.fromStart, exChannel []⟩
    let wrote := fun x => (setUp m exCrypto (Sess.sent s x)).2.chan.output
    (setUp m exCrypto (Sess.sent s (exPeer.rounds wrote 1))).1 = .err (.io .unexpectedEof) ∧
      (setUp m exCrypto (Sess.sent s (exPeer.rounds wrote 2))).1 = .ok .crc32 ∧ exPeer.rounds wrote 3 = exPeer.rounds wrote 2 := by
  revert m
  rintro ⟨_ | _⟩ <;> decide +kernel

/-- All three ways to go on with more to come occur: waiting for the rest of a packet, going on with it, and leaving it. -/
example (m : Mode) :
    let s : Sess := ⟨exUser BinlogOptions.fromStart, exChannel []⟩
    let all := frames (exLogin "8.0.30" ++ exConfigured)
    (setUp m exCrypto (Sess.sent s (all.take 3))).1 = .err (.io .unexpectedEof) ∧ (setUp m exCrypto (Sess.sent s (all.take 5))).2.chan.output = [] ∧
      (setUp m exCrypto (Sess.sent s (all.take 120))).2.chan.output ≠ [] ∧ (setUp m exCrypto (Sess.sent s all)).1 = .ok .crc32 ∧
      (setUp m exCrypto (Sess.sent s (all ++ [1, 2, 3]))).2.chan.input = [1, 2, 3] := by
  revert m
  rintro ⟨_ | _⟩ <;> decide +kernel

/-- A stream with a whole packet, as `C133_next` wants one. -/
example (m : Mode) : ((BinlogEvents.new { exChannel [] with input := frame [0xFE] 7 ++ [9] } .none).next m).1 = .ok none := by
  revert m
  rintro ⟨_ | _⟩ <;> decide +kernel

end MysqlCdc
