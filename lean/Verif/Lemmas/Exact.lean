import Verif.Lemmas.Decoded
import Verif.Lemmas.TableMap
/-!
# Exactly which bytes a parser accepts

`Exact p R`: `p` yields `v` exactly when the bytes at the cursor start with some `enc` such that `R v enc`, and it stops right
behind them. `ExactEnd p R`: `p` yields `v` exactly when `R` holds of `v` and everything from the cursor to the end.
-/

namespace MysqlCdc

open Spec

def Exact {α : Type} (p : P α) (R : α → Bytes → Prop) : Prop :=
  ∀ buf pos v q, p buf pos = .ok (v, q) ↔ ∃ enc, R v enc ∧ enc <+: buf.drop pos ∧ q = pos + enc.length

def ExactEnd {α : Type} (p : P α) (R : α → Bytes → Prop) : Prop :=
  ∀ buf pos v, (∃ q, p buf pos = .ok (v, q)) ↔ R v (buf.drop pos)

theorem ExactEnd.run {α : Type} {p : P α} {R : α → Bytes → Prop} (h : ExactEnd p R) (v : α) (bs : Bytes) :
    p.run bs = .ok v ↔ R v bs := by
  have := h bs 0 v
  rw [List.drop_zero] at this
  rw [← this]
  unfold P.run
  constructor
  · intro hr
    split at hr
    · next a q hp => simp at hr; subst hr; exact ⟨q, hp⟩
    all_goals simp at hr
  · rintro ⟨q, hq⟩
    rw [hq]

theorem Exact.cast {α : Type} {p : P α} {R S : α → Bytes → Prop} (h : Exact p R) (hs : ∀ v e, R v e ↔ S v e) : Exact p S := by
  intro buf pos v q
  rw [h buf pos v q]
  simp only [hs]

theorem ExactEnd.cast {α : Type} {p : P α} {R S : α → Bytes → Prop} (h : ExactEnd p R) (hs : ∀ v e, R v e ↔ S v e) :
    ExactEnd p S := by
  intro buf pos v
  rw [h buf pos v, hs]

theorem Exact.ret {α : Type} (a : α) : Exact (Pure.pure a : P α) (fun v e => v = a ∧ e = []) := by
  intro buf pos v q
  simp only [P.ret_apply, Res.ok.injEq, Prod.mk.injEq]
  constructor
  · rintro ⟨rfl, rfl⟩; exact ⟨[], ⟨rfl, rfl⟩, List.nil_prefix, rfl⟩
  · rintro ⟨e, ⟨rfl, rfl⟩, _, rfl⟩; exact ⟨rfl, rfl⟩

theorem Exact.lift {α : Type} (r : Res α) : Exact (P.lift r) (fun v e => r = .ok v ∧ e = []) := by
  intro buf pos v q
  cases r with
  | ok a =>
    simp only [P.lift, Res.ok.injEq, Prod.mk.injEq]
    constructor
    · rintro ⟨rfl, rfl⟩; exact ⟨[], ⟨rfl, rfl⟩, List.nil_prefix, rfl⟩
    · rintro ⟨e, ⟨rfl, rfl⟩, _, rfl⟩; exact ⟨rfl, rfl⟩
  | _ => simp [P.lift]

theorem Exact.fail {α : Type} (e : Err) : Exact (P.fail e : P α) (fun _ _ => False) := by
  intro buf pos v q
  simp [P.fail]

theorem Exact.panic {α : Type} : Exact (P.panic : P α) (fun _ _ => False) := by
  intro buf pos v q
  simp [P.panic]

theorem Exact.bindOf {α β : Type} {p : P α} {f : α → P β} {R : α → Bytes → Prop} {S : α → β → Bytes → Prop} (h1 : Exact p R)
    (h2 : ∀ a e, R a e → Exact (f a) (S a)) :
    Exact (p >>= f) (fun b e => ∃ a e1 e2, R a e1 ∧ S a b e2 ∧ e = e1 ++ e2) := by
  intro buf pos v q
  constructor
  · intro h
    obtain ⟨⟨a, q1⟩, hp, hf⟩ := bind_inv h
    obtain ⟨e1, r1, ⟨t1, p1⟩, rfl⟩ := (h1 _ _ _ _).1 hp
    obtain ⟨e2, r2, ⟨t2, p2⟩, rfl⟩ := (h2 a e1 r1 _ _ _ _).1 hf
    refine ⟨e1 ++ e2, ⟨a, e1, e2, r1, r2, rfl⟩, ⟨t2, ?_⟩, by simp [Nat.add_assoc]⟩
    rw [← List.drop_drop, ← p1, List.drop_left] at p2
    rw [List.append_assoc, p2, p1]
  · rintro ⟨e, ⟨a, e1, e2, r1, r2, rfl⟩, ⟨t, hp⟩, rfl⟩
    have g1 := (h1 buf pos a (pos + e1.length)).2 ⟨e1, r1, ⟨e2 ++ t, by rw [← hp, List.append_assoc]⟩, rfl⟩
    have g2 := (h2 a e1 r1 buf (pos + e1.length) v (pos + e1.length + e2.length)).2 ⟨e2, r2, ⟨t, by
      rw [← List.drop_drop, ← hp, List.append_assoc, List.drop_left]⟩, rfl⟩
    rw [P.seq_apply, g1]
    simp only [Res.bind, g2, List.length_append, Nat.add_assoc]

theorem Exact.bind {α β : Type} {p : P α} {f : α → P β} {R : α → Bytes → Prop} {S : α → β → Bytes → Prop} (h1 : Exact p R)
    (h2 : ∀ a, Exact (f a) (S a)) :
    Exact (p >>= f) (fun b e => ∃ a e1 e2, R a e1 ∧ S a b e2 ∧ e = e1 ++ e2) := h1.bindOf fun a _ _ => h2 a

theorem Exact.bindEndOf {α β : Type} {p : P α} {f : α → P β} {R : α → Bytes → Prop} {S : α → β → Bytes → Prop} (h1 : Exact p R)
    (h2 : ∀ a e, R a e → ExactEnd (f a) (S a)) :
    ExactEnd (p >>= f) (fun b t => ∃ a e1 t1, R a e1 ∧ S a b t1 ∧ t = e1 ++ t1) := by
  intro buf pos v
  constructor
  · rintro ⟨q, h⟩
    obtain ⟨⟨a, q1⟩, hp, hf⟩ := bind_inv h
    obtain ⟨e1, r1, ⟨t1, p1⟩, rfl⟩ := (h1 _ _ _ _).1 hp
    have := (h2 a e1 r1 buf (pos + e1.length) v).1 ⟨q, hf⟩
    rw [← List.drop_drop, ← p1, List.drop_left] at this
    exact ⟨a, e1, t1, r1, this, p1.symm⟩
  · rintro ⟨a, e1, t1, r1, r2, hd⟩
    have g1 := (h1 buf pos a (pos + e1.length)).2 ⟨e1, r1, ⟨t1, hd.symm⟩, rfl⟩
    obtain ⟨q, g2⟩ := (h2 a e1 r1 buf (pos + e1.length) v).2 (by rw [← List.drop_drop, hd, List.drop_left]; exact r2)
    exact ⟨q, by rw [P.seq_apply, g1]; exact g2⟩

theorem Exact.bindEnd {α β : Type} {p : P α} {f : α → P β} {R : α → Bytes → Prop} {S : α → β → Bytes → Prop} (h1 : Exact p R)
    (h2 : ∀ a, ExactEnd (f a) (S a)) :
    ExactEnd (p >>= f) (fun b t => ∃ a e1 t1, R a e1 ∧ S a b t1 ∧ t = e1 ++ t1) := h1.bindEndOf fun a _ _ => h2 a

theorem Exact.toEnd {α : Type} {p : P α} {R : α → Bytes → Prop} (h : Exact p R) :
    ExactEnd p (fun v t => ∃ e x, R v e ∧ t = e ++ x) := by
  intro buf pos v
  constructor
  · rintro ⟨q, hq⟩
    obtain ⟨e, r, ⟨t, ht⟩, _⟩ := (h _ _ _ _).1 hq
    exact ⟨e, t, r, ht.symm⟩
  · rintro ⟨e, x, r, hd⟩
    exact ⟨_, (h buf pos v _).2 ⟨e, r, ⟨x, hd.symm⟩, rfl⟩⟩

theorem Exact.map {α β : Type} {p : P α} {R : α → Bytes → Prop} (h : Exact p R) (f : α → β) :
    Exact (p >>= fun a => Pure.pure (f a)) (fun b e => ∃ a, R a e ∧ b = f a) :=
  (h.bind fun a => Exact.ret (f a)).cast fun v e => by
    constructor
    · rintro ⟨a, e1, e2, r, ⟨rfl, rfl⟩, rfl⟩; exact ⟨a, by simpa using r, rfl⟩
    · rintro ⟨a, r, rfl⟩; exact ⟨a, e, [], r, ⟨rfl, rfl⟩, by simp⟩

theorem ExactEnd.map {α β : Type} {p : P α} {R : α → Bytes → Prop} (h : ExactEnd p R) (f : α → β) :
    ExactEnd (p >>= fun a => Pure.pure (f a)) (fun b t => ∃ a, R a t ∧ b = f a) := by
  intro buf pos v
  constructor
  · rintro ⟨q, hq⟩
    obtain ⟨⟨a, q1⟩, hp, hf⟩ := bind_inv hq
    simp only [P.ret_apply, Res.ok.injEq, Prod.mk.injEq] at hf
    exact ⟨a, (h _ _ _).1 ⟨q1, hp⟩, hf.1.symm⟩
  · rintro ⟨a, r, rfl⟩
    obtain ⟨q, hq⟩ := (h _ _ _).2 r
    exact ⟨q, by rw [P.seq_apply, hq]; rfl⟩

theorem ExactEnd.ite {α : Type} {c : Prop} [Decidable c] {p q : P α} {R S : α → Bytes → Prop} (h1 : c → ExactEnd p R)
    (h2 : ¬c → ExactEnd q S) : ExactEnd (if c then p else q) (fun v t => c ∧ R v t ∨ ¬c ∧ S v t) := by
  by_cases hc : c
  · rw [if_pos hc]; exact (h1 hc).cast fun v e => by simp [hc]
  · rw [if_neg hc]; exact (h2 hc).cast fun v e => by simp [hc]

theorem Exact.ite {α : Type} {c : Prop} [Decidable c] {p q : P α} {R S : α → Bytes → Prop} (h1 : c → Exact p R)
    (h2 : ¬c → Exact q S) : Exact (if c then p else q) (fun v t => c ∧ R v t ∨ ¬c ∧ S v t) := by
  by_cases hc : c
  · rw [if_pos hc]; exact (h1 hc).cast fun v e => by simp [hc]
  · rw [if_neg hc]; exact (h2 hc).cast fun v e => by simp [hc]

/-- A relative seek forwards: possible even beyond the end, where nothing is left. -/
theorem ExactEnd.seek {α : Type} {p : P α} {R : α → Bytes → Prop} (h : ExactEnd p R) (k : Nat) :
    ExactEnd (P.seekCur k >>= fun _ => p) (fun v t => R v (t.drop k)) := by
  intro buf pos v
  have hs : P.seekCur k buf pos = .ok ((), pos + k) := by
    unfold P.seekCur
    rw [if_pos (by omega)]
    congr 2
  rw [P.seq_apply, hs]
  simp only [Res.bind]
  rw [h buf (pos + k) v, List.drop_drop]

theorem Exact.readExact (n : Nat) : Exact (P.readExact n) (fun v e => v.length = n ∧ e = v) := by
  intro buf pos v q
  constructor
  · intro h
    obtain ⟨h1, h2⟩ := readExact_inv h
    simp only [Prod.mk.injEq] at h1
    obtain ⟨rfl, rfl⟩ := h1
    have hl : ((buf.drop pos).take n).length = n := by rw [List.length_take]; omega
    exact ⟨_, ⟨hl, rfl⟩, List.take_prefix _ _, by rw [hl]⟩
  · rintro ⟨e, ⟨rfl, rfl⟩, ⟨t, ht⟩, rfl⟩
    unfold P.readExact
    rw [← ht, if_pos (by simp)]
    simp

theorem Exact.readVec (n : Nat) : Exact (P.readVec n) (fun v e => n < 2 ^ 63 ∧ v.length = n ∧ e = v) := by
  refine ((Exact.lift (allocZeroed n)).bind fun _ => Exact.readExact n).cast fun v e => ?_
  constructor
  · rintro ⟨_, e1, e2, ⟨h1, rfl⟩, ⟨h2, rfl⟩, rfl⟩
    refine ⟨?_, h2, rfl⟩
    unfold allocZeroed at h1
    split at h1
    · assumption
    · simp at h1
  · rintro ⟨h1, h2, rfl⟩
    exact ⟨(), [], e, ⟨allocZeroed_ok h1, rfl⟩, ⟨h2, rfl⟩, rfl⟩

theorem Exact.uLE (k : Nat) : Exact (P.uLE k) (fun n e => n < 256 ^ k ∧ e = le k n) := by
  refine ((Exact.readExact k).map leVal).cast fun n e => ?_
  constructor
  · rintro ⟨a, ⟨rfl, rfl⟩, rfl⟩
    exact ⟨leVal_lt e, (le_leVal e).symm⟩
  · rintro ⟨h, rfl⟩
    exact ⟨le k n, ⟨le_length k n, rfl⟩, (leVal_le_of_lt h).symm⟩

theorem Exact.u8 : Exact P.u8 (fun n e => n < 2 ^ 8 ∧ e = le 1 n) := Exact.uLE 1

theorem Exact.uBE (k : Nat) : Exact (P.uBE k) (fun n e => n < 256 ^ k ∧ e = be k n) := by
  refine ((Exact.readExact k).map beVal).cast fun n e => ?_
  constructor
  · rintro ⟨a, ⟨rfl, rfl⟩, rfl⟩
    have h1 := leVal_lt e.reverse
    have h2 := le_leVal e.reverse
    rw [List.length_reverse] at h1 h2
    exact ⟨h1, by unfold be beVal; rw [h2, List.reverse_reverse]⟩
  · rintro ⟨h, rfl⟩
    exact ⟨be k n, ⟨be_length k n, rfl⟩, (beVal_be_of_lt h).symm⟩

/-- A parser known to succeed on certain bytes, and only on those, is exact. -/
theorem Exact.mk' {α : Type} {p : P α} {R : α → Bytes → Prop}
    (h1 : ∀ v e, R v e → Parses p e v) (h2 : ∀ buf pos r, p buf pos = .ok r → ∃ enc, R r.1 enc ∧ enc <+: buf.drop pos ∧
      r.2 = pos + enc.length) (h3 : ∀ v, R v [] → ∀ buf pos, p buf pos = .ok (v, pos)) : Exact p R := by
  intro buf pos v q
  constructor
  · exact h2 buf pos (v, q)
  · rintro ⟨e, r, ⟨t, ht⟩, rfl⟩
    by_cases hp : pos ≤ buf.length
    · have := h1 v e r (buf.take pos) t
      rw [ht, List.take_append_drop, List.length_take, Nat.min_eq_left hp] at this
      exact this
    · rw [List.drop_eq_nil_of_le (by omega)] at ht
      obtain ⟨rfl, rfl⟩ := List.append_eq_nil_iff.1 ht
      exact h3 v r buf pos

theorem Exact.lenEncNum : Exact readLenEncNum LenEnc :=
  Exact.mk' (fun _ _ h => readLenEncNum_parses h) (fun _ _ _ h => readLenEncNum_inv h)
    fun _ h => absurd rfl (LenEnc_ne_nil h)

theorem fromUtf8_iff {bs : Bytes} {s : RStr} : fromUtf8 bs = .ok s ↔ bs = utf8Bytes s := by
  unfold fromUtf8
  rw [← utf8Decode_eq_some_iff]
  split <;> simp_all

theorem Exact.readString (n : Nat) :
    Exact (readString n) (fun s e => n < 2 ^ 63 ∧ (utf8Bytes s).length = n ∧ e = utf8Bytes s) := by
  refine ((Exact.readVec n).bind fun v => Exact.lift (fromUtf8 v)).cast fun s e => ?_
  constructor
  · rintro ⟨a, e1, e2, ⟨h1, h2, rfl⟩, ⟨h3, rfl⟩, rfl⟩
    rw [fromUtf8_iff] at h3
    subst h3
    exact ⟨h1, h2, by simp⟩
  · rintro ⟨h1, h2, rfl⟩
    exact ⟨utf8Bytes s, _, [], ⟨h1, h2, rfl⟩, ⟨fromUtf8_iff.2 rfl, rfl⟩, by simp⟩

theorem Exact.lenEncStr : Exact readLenEncStr Text := by
  refine (Exact.lenEncNum.bind fun n => Exact.readString n).cast fun s e => ?_
  constructor
  · rintro ⟨a, e1, e2, h1, ⟨h2, h3, rfl⟩, rfl⟩
    subst h3
    exact ⟨h2, e1, h1, rfl⟩
  · rintro ⟨h1, l, h2, rfl⟩
    exact ⟨_, l, _, h2, ⟨h1, rfl, rfl⟩, rfl⟩

theorem ExactEnd.rest : ExactEnd P.rest (fun v t => v = t) := by
  intro buf pos v
  simp [P.rest, eq_comm]

theorem ExactEnd.toString : ExactEnd readToString (fun s t => t = utf8Bytes s) := by
  intro buf pos v
  unfold readToString
  rw [P.seq_apply]
  simp only [P.rest, Res.bind]
  rw [← utf8Decode_eq_some_iff]
  cases utf8Decode (buf.drop pos) <;> simp [P.fail]

theorem Exact.times {α : Type} {p : P α} {R : α → Bytes → Prop} (h : Exact p R) (n : Nat) :
    Exact (P.times n p) (fun vs e => vs.length = n ∧ Each R vs e) := by
  induction n with
  | zero =>
    refine (Exact.ret []).cast fun vs e => ?_
    constructor
    · rintro ⟨rfl, rfl⟩; exact ⟨rfl, .nil⟩
    · rintro ⟨h1, h2⟩
      obtain rfl := List.eq_nil_of_length_eq_zero h1
      cases h2
      exact ⟨rfl, rfl⟩
  | succ n ih =>
    refine (h.bind fun a => ih.map fun as => a :: as).cast fun vs e => ?_
    constructor
    · rintro ⟨a, e1, e2, r1, ⟨as, ⟨rfl, hs⟩, rfl⟩, rfl⟩
      exact ⟨rfl, .cons r1 hs⟩
    · rintro ⟨h1, h2⟩
      cases h2 with
      | nil => simp at h1
      | cons r hs => exact ⟨_, _, _, r, ⟨_, ⟨by simpa using h1, hs⟩, rfl⟩, rfl⟩

theorem Exact.forEach {α β : Type} {f : α → P β} {R : α → β → Bytes → Prop} (h : ∀ a, Exact (f a) (R a)) (xs : List α) :
    Exact (P.forEach xs f) (fun vs e => ∃ ps : List (α × β), xs = ps.map (·.1) ∧ vs = ps.map (·.2) ∧
      Each (fun p e => R p.1 p.2 e) ps e) := by
  induction xs with
  | nil =>
    refine (Exact.ret []).cast fun vs e => ?_
    constructor
    · rintro ⟨rfl, rfl⟩; exact ⟨[], rfl, rfl, .nil⟩
    · rintro ⟨ps, h1, rfl, h2⟩
      obtain rfl := List.map_eq_nil_iff.1 h1.symm
      cases h2
      exact ⟨rfl, rfl⟩
  | cons x xs ih =>
    refine ((h x).bind fun b => ih.map fun bs => b :: bs).cast fun vs e => ?_
    constructor
    · rintro ⟨b, e1, e2, r1, ⟨_, ⟨ps, rfl, rfl, hs⟩, rfl⟩, rfl⟩
      exact ⟨(x, b) :: ps, rfl, rfl, .cons r1 hs⟩
    · rintro ⟨ps, h1, rfl, h2⟩
      cases h2 with
      | nil => simp at h1
      | cons r hs =>
        simp only [List.map_cons, List.cons.injEq] at h1
        obtain ⟨rfl, rfl⟩ := h1
        exact ⟨_, _, _, r, ⟨_, ⟨_, rfl, rfl, hs⟩, rfl⟩, rfl⟩

theorem ExactEnd.whileData {α : Type} {p : P α} {R : α → Bytes → Prop} (h : Exact p R) (hne : ∀ v, ¬R v []) :
    ExactEnd (P.whileData p) (Each R) := by
  intro buf pos v
  constructor
  · rintro ⟨q, hq⟩
    induction hn : buf.length - pos using Nat.strongRecOn generalizing pos v q with
    | _ n ih =>
      subst hn
      rw [P.whileData] at hq
      split at hq
      · rename_i hlt
        cases hp : p buf pos with
        | ok x =>
          obtain ⟨a, q1⟩ := x
          rw [hp] at hq
          obtain ⟨e, r, ⟨t, ht⟩, rfl⟩ := (h _ _ _ _).1 hp
          simp only at hq
          split at hq
          · rename_i hprog
            cases hw : P.whileData p buf (pos + e.length) with
            | ok y =>
              obtain ⟨as, q2⟩ := y
              rw [hw] at hq
              simp only [Res.ok.injEq, Prod.mk.injEq] at hq
              obtain ⟨rfl, rfl⟩ := hq
              have := ih _ (by omega) _ _ _ hw rfl
              rw [← List.drop_drop, ← ht, List.drop_left] at this
              rw [← ht]
              exact .cons r this
            | _ => rw [hw] at hq; simp at hq
          · simp at hq
        | _ => rw [hp] at hq; simp at hq
      · simp only [Res.ok.injEq, Prod.mk.injEq] at hq
        obtain ⟨rfl, rfl⟩ := hq
        rw [List.drop_eq_nil_of_le (by omega)]
        exact .nil
  · intro hs
    generalize ht : buf.drop pos = t at hs
    induction hs generalizing pos with
    | nil =>
      have := List.drop_eq_nil_iff.1 ht
      rw [P.whileData, if_neg (by omega)]
      exact ⟨_, rfl⟩
    | @cons a as e es r hs ih =>
      have hne' : e ≠ [] := fun he => hne a (he ▸ r)
      have hpos := List.length_pos_iff.2 hne'
      have hlt : pos < buf.length := by
        have := congrArg List.length ht
        simp only [List.length_drop, List.length_append] at this
        omega
      have hp := (h buf pos a (pos + e.length)).2 ⟨e, r, ⟨es, ht.symm⟩, rfl⟩
      obtain ⟨q, hq⟩ := ih (pos + e.length) (by rw [← List.drop_drop, ht, List.drop_left])
      rw [P.whileData, if_pos hlt, hp]
      simp only [show pos < pos + e.length by omega, if_true, hq]
      exact ⟨_, rfl⟩

theorem ExactEnd.hasData {α : Type} {f : Bool → P α} {R : Bool → α → Bytes → Prop} (h : ∀ b, ExactEnd (f b) (R b)) :
    ExactEnd (P.hasData >>= f) (fun v t => R (!t.isEmpty) v t) := by
  intro buf pos v
  rw [P.seq_apply, hasData_apply]
  simp only [Res.bind]
  rw [h]
  have : decide (pos < buf.length) = !(buf.drop pos).isEmpty := by
    by_cases hp : pos < buf.length
    · have : buf.drop pos ≠ [] := by simp; omega
      cases hd : buf.drop pos <;> simp_all
    · rw [List.drop_eq_nil_of_le (by omega)]; simp [hp]
  rw [this]

/-! ## Bitmaps -/

theorem bitmap_alloc {n : Nat} {f : P (List Bool)} {buf : Bytes} {pos : Nat} {r : List Bool × Nat}
    (h : (P.lift (allocZeroed n) >>= fun _ => f) buf pos = .ok r) : n < 2 ^ 63 := by
  apply Classical.byContradiction
  intro hc
  rw [show allocZeroed n = .panic by simp [allocZeroed, hc]] at h
  simp [P.lift] at h

theorem Exact.bitmapLE (n : Nat) :
    Exact (readBitmapLittleEndian n) (fun bits e => n < 2 ^ 63 ∧ bits.length = n ∧ BitmapLE bits e) := by
  refine Exact.mk' ?_ ?_ ?_
  · rintro v e ⟨h1, rfl, h3⟩; exact readBitmapLittleEndian_parses h3 h1
  · intro buf pos r h
    have hn : n < 2 ^ 63 := bitmap_alloc h
    obtain ⟨h1, ⟨e, h2, h3⟩, h4⟩ := readBitmap_inv h
    exact ⟨e, ⟨hn, h1, h2⟩, h3, by rw [h4, h2.1, h1]⟩
  · rintro v ⟨_, rfl, h3, _⟩ buf pos
    have : v.length = 0 := by simp [bytesFor] at h3; omega
    obtain rfl := List.eq_nil_of_length_eq_zero this
    rfl

theorem bitmapLoop_length {set : Nat → UInt8 → List Bool → Res (List Bool)} {is : List Nat} {res : List Bool} {buf : Bytes}
    {pos : Nat} {r : List Bool × Nat} (h : bitmapLoop set is res buf pos = .ok r) : r.2 = pos + is.length ∧
      (is ≠ [] → pos + is.length ≤ buf.length) := by
  induction is generalizing res pos with
  | nil => simp [bitmapLoop] at h; subst h; simp
  | cons i is ih =>
    unfold bitmapLoop at h
    obtain ⟨x, h1, h'⟩ := bind_inv h
    obtain ⟨b, hd, rfl⟩ := u8_inv h1
    obtain ⟨y, h2, h''⟩ := bind_inv h'
    have h2' := (Exact.lift (set i (UInt8.ofNat b.toNat) res) buf (pos + 1) y.1 y.2).1 h2
    obtain ⟨e, ⟨_, rfl⟩, _, hy⟩ := h2'
    have := ih h''
    simp only [List.length_nil, Nat.add_zero] at hy
    rw [hy] at this
    have hlen : pos < buf.length := by
      have := congrArg List.length hd
      simp at this
      omega
    refine ⟨by rw [this.1]; simp; omega, fun _ => ?_⟩
    by_cases hi : is = []
    · subst hi; simp; omega
    · have := this.2 hi; simp; omega

/-- A bitmap reader that reads every byte string of the right length is exact. -/
theorem Exact.bitmap {p : Nat → P (List Bool)} {R : List Bool → Bytes → Prop} {n : Nat}
    (hp : ∀ bits e, R bits e → bits.length < 2 ^ 63 → Parses (p bits.length) e bits)
    (hex : ∀ e : Bytes, e.length = bytesFor n → ∃ bits : List Bool, bits.length = n ∧ R bits e)
    (hR : ∀ bits e, R bits e → e.length = bytesFor bits.length)
    {set : Nat → UInt8 → List Bool → Res (List Bool)}
    (hd : p n = (P.lift (allocZeroed n) >>= fun _ =>
      bitmapLoop set (List.range ((n + 7) / 8)) (List.replicate n false))) :
    Exact (p n) (fun bits e => n < 2 ^ 63 ∧ bits.length = n ∧ R bits e) := by
  refine Exact.mk' ?_ ?_ ?_
  · rintro v e ⟨h1, rfl, h3⟩; exact hp v e h3 h1
  · intro buf pos r h
    have hn : n < 2 ^ 63 := bitmap_alloc (hd ▸ h)
    have hlen : r.2 = pos + bytesFor n ∧ (n ≠ 0 → pos + bytesFor n ≤ buf.length) := by
      rw [hd, allocZeroed_ok hn, lift_ok_bind] at h
      have := bitmapLoop_length h
      rw [List.length_range] at this
      refine ⟨this.1, fun h0 => this.2 ?_⟩
      simp [List.range_eq_nil]
      omega
    by_cases h0 : n = 0
    · subst h0
      rw [hd] at h
      have : (r.1, r.2) = (([] : List Bool), pos) := by
        have : (P.lift (allocZeroed 0) >>= fun _ => bitmapLoop set (List.range ((0 + 7) / 8)) (List.replicate 0 false)) buf pos
          = .ok ([], pos) := rfl
        rw [this] at h
        simp at h
        rw [← h]
      obtain ⟨bits, hb, hr⟩ := hex [] (by simp [bytesFor])
      obtain rfl := List.eq_nil_of_length_eq_zero hb
      simp only [Prod.mk.injEq] at this
      exact ⟨[], ⟨hn, by rw [this.1]; rfl, this.1 ▸ hr⟩, List.nil_prefix, this.2⟩
    · have hl := hlen.2 h0
      let enc := (buf.drop pos).take (bytesFor n)
      have hel : enc.length = bytesFor n := by simp [enc]; omega
      obtain ⟨bits, hb, hr⟩ := hex enc hel
      have hpp := hp bits enc hr (by omega) (buf.take pos) (buf.drop (pos + bytesFor n))
      have hsplit : buf.take pos ++ (enc ++ buf.drop (pos + bytesFor n)) = buf := by
        simp only [enc]
        rw [← List.drop_drop, List.take_append_drop, List.take_append_drop]
      rw [hsplit, hb, show (buf.take pos).length = pos by simp; omega, h] at hpp
      simp only [Res.ok.injEq] at hpp
      subst hpp
      exact ⟨enc, ⟨hn, hb, hr⟩, List.take_prefix _ _, rfl⟩
  · rintro v ⟨h1, rfl, h3⟩ buf pos
    have := hR v [] h3
    have : v.length = 0 := by simp [bytesFor] at this; omega
    obtain rfl := List.eq_nil_of_length_eq_zero this
    rw [hd]
    rfl

theorem bits_of (n : Nat) (f : Nat → Bool) : ∃ bits : List Bool, bits.length = n ∧
    ∀ i b, bits[i]? = some b → b = f i ∧ i < n := by
  refine ⟨(List.range n).map f, by simp, fun i b h => ?_⟩
  rw [List.getElem?_map] at h
  obtain ⟨j, hj, rfl⟩ := Option.map_eq_some_iff.1 h
  obtain ⟨h1, h2⟩ := List.getElem?_eq_some_iff.1 hj
  simp at h1 h2
  subst h2
  exact ⟨rfl, h1⟩

theorem Exact.bitmapMsb (n : Nat) :
    Exact (readBitmapReverted n) (fun bits e => n < 2 ^ 63 ∧ bits.length = n ∧ BitmapMsb bits e) := by
  refine Exact.bitmap (fun _ _ h hl => readBitmapReverted_parses h hl) ?_ (fun _ _ h => h.1) rfl
  intro e he
  obtain ⟨bits, h1, h2⟩ := bits_of n (fun i => bitOf (e.getD (i / 8) 0) (7 - i % 8))
  refine ⟨bits, h1, by rw [h1, he], fun i b hb => ?_⟩
  obtain ⟨rfl, hi⟩ := h2 i b hb
  have : i / 8 < e.length := by rw [he]; unfold bytesFor; omega
  exact ⟨e[i / 8], by simp [this], by simp [List.getD, this]⟩

theorem Exact.bitmapBE (n : Nat) :
    Exact (readBitmapBigEndian n) (fun bits e => n < 2 ^ 63 ∧ bits.length = n ∧ BitmapBE bits e) := by
  refine Exact.bitmap (fun _ _ h hl => readBitmapBigEndian_parses h hl) ?_ (fun _ _ h => h.1) rfl
  intro e he
  obtain ⟨bits, h1, h2⟩ := bits_of n (fun i => bitOf (e.getD (e.length - 1 - i / 8) 0) (i % 8))
  refine ⟨bits, h1, by rw [h1, he], fun i b hb => ?_⟩
  obtain ⟨rfl, hi⟩ := h2 i b hb
  have : e.length - 1 - i / 8 < e.length := by rw [he]; unfold bytesFor; omega
  exact ⟨e[e.length - 1 - i / 8], by simp [this], by simp [List.getD, this]⟩

end MysqlCdc
