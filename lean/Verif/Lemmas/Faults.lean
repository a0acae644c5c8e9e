import Verif.Lemmas.ExactRowEvents
import Verif.Lemmas.Safe
import Verif.Lemmas.Progress
import Verif.Spec.Faults
/-!
# Exactly which bytes make a parser crash, loop or fail

`Faults f p K`: `p` fails in the way `f` exactly when `K` holds of everything from the cursor to the end.
-/

namespace MysqlCdc

open Spec

inductive Fault where
  | crash
  | loop
  | error (e : Err)

def Fault.as {α : Type} : Fault → Res α
  | .crash => .panic
  | .loop => .hang
  | .error e => .err e

theorem Fault.as_ne_ok {α : Type} (f : Fault) (a : α) : (f.as : Res α) ≠ .ok a := by cases f <;> simp [Fault.as]

theorem Fault.panic_as {α : Type} {f : Fault} : (.panic : Res α) = f.as ↔ f = .crash := by cases f <;> simp [Fault.as]
theorem Fault.hang_as {α : Type} {f : Fault} : (.hang : Res α) = f.as ↔ f = .loop := by cases f <;> simp [Fault.as]
theorem Fault.err_as {α : Type} {f : Fault} {e : Err} : (.err e : Res α) = f.as ↔ f = .error e := by
  cases f with
  | error e' => simp [Fault.as, eq_comm]
  | _ => simp [Fault.as]

def Faults {α : Type} (f : Fault) (p : P α) (K : Bytes → Prop) : Prop := ∀ buf pos, p buf pos = f.as ↔ K (buf.drop pos)

theorem Faults.cast {α : Type} {f : Fault} {p : P α} {K L : Bytes → Prop} (h : Faults f p K) (hs : ∀ t, K t ↔ L t) : Faults f p L := by
  intro buf pos
  rw [h buf pos, hs]

theorem Faults.never {α : Type} {f : Fault} {p : P α} (h : ∀ buf pos, p buf pos ≠ f.as) : Faults f p (fun _ => False) := by
  intro buf pos
  simp [h buf pos]

theorem Faults.ret {α : Type} (f : Fault) (a : α) : Faults f (Pure.pure a : P α) (fun _ => False) :=
  Faults.never fun _ _ h => f.as_ne_ok _ h.symm

theorem Faults.fail {α : Type} (f : Fault) (e : Err) (hf : f ≠ .error e := by simp) : Faults f (P.fail e : P α) (fun _ => False) :=
  Faults.never fun _ _ h => hf (Fault.err_as.1 h)

theorem Faults.panic {α : Type} : Faults .crash (P.panic : P α) (fun _ => True) := by
  intro buf pos
  simp [P.panic, Fault.as]

theorem Faults.lift {α : Type} (f : Fault) (r : Res α) : Faults f (P.lift r) (fun _ => r = f.as) := by
  intro buf pos
  cases f <;> cases r <;> simp [P.lift, Fault.as]

theorem Faults.safe {α : Type} {p : P α} {Q : Bytes → α → Prop} (h : ∀ buf, Safe buf p (Q buf)) : Faults .crash p (fun _ => False) :=
  Faults.never fun buf pos he => (h buf pos).1 he

theorem Faults.noHang {α : Type} {p : P α} (h : NoHang p) : Faults .loop p (fun _ => False) :=
  Faults.never fun buf pos he => h buf pos he

theorem Faults.bindOf {α β : Type} {f : Fault} {p : P α} {g : α → P β} {R : α → Bytes → Prop} {K1 : Bytes → Prop}
    {K2 : α → Bytes → Prop} (h1 : Exact p R) (hf : Faults f p K1) (h2 : ∀ a e, R a e → Faults f (g a) (K2 a)) :
    Faults f (p >>= g) (fun t => K1 t ∨ ∃ a e t1, R a e ∧ K2 a t1 ∧ t = e ++ t1) := by
  intro buf pos
  have inv : ∀ a e t1, R a e → buf.drop pos = e ++ t1 → p buf pos = .ok (a, pos + e.length) := fun a e t1 r hd =>
    (h1 buf pos a _).2 ⟨e, r, ⟨t1, hd.symm⟩, rfl⟩
  beta_reduce
  rw [P.seq_apply, ← hf buf pos]
  cases hp : p buf pos with
  | ok x =>
    obtain ⟨a, q⟩ := x
    obtain ⟨e, r, ⟨t, ht⟩, rfl⟩ := (h1 _ _ _ _).1 hp
    simp only [Res.bind]
    rw [h2 a e r buf (pos + e.length), ← List.drop_drop, ← ht, List.drop_left]
    constructor
    · intro hk; exact .inr ⟨a, e, t, r, hk, rfl⟩
    · rintro (h | ⟨a', e', t', r', hk, he⟩)
      · exact absurd h.symm (f.as_ne_ok _)
      · have hd := inv a' e' t' r' (by rw [← ht]; exact he)
        rw [hp] at hd
        simp only [Res.ok.injEq, Prod.mk.injEq, Nat.add_left_cancel_iff] at hd
        obtain ⟨rfl, hl⟩ := hd
        obtain ⟨rfl, rfl⟩ := List.append_inj he hl
        exact hk
  | err e =>
    simp only [Res.bind]
    constructor
    · intro h; exact .inl (Fault.err_as.2 (Fault.err_as.1 h))
    · rintro (h | ⟨a', e', t', r', hk, he⟩)
      · exact Fault.err_as.2 (Fault.err_as.1 h)
      · rw [inv a' e' t' r' he] at hp; cases hp
  | panic =>
    simp only [Res.bind]
    constructor
    · intro h; exact .inl (Fault.panic_as.2 (Fault.panic_as.1 h))
    · rintro (h | ⟨a', e', t', r', hk, he⟩)
      · exact Fault.panic_as.2 (Fault.panic_as.1 h)
      · rw [inv a' e' t' r' he] at hp; cases hp
  | hang =>
    simp only [Res.bind]
    constructor
    · intro h; exact .inl (Fault.hang_as.2 (Fault.hang_as.1 h))
    · rintro (h | ⟨a', e', t', r', hk, he⟩)
      · exact Fault.hang_as.2 (Fault.hang_as.1 h)
      · rw [inv a' e' t' r' he] at hp; cases hp

theorem Faults.bind {α β : Type} {f : Fault} {p : P α} {g : α → P β} {R : α → Bytes → Prop} {K1 : Bytes → Prop}
    {K2 : α → Bytes → Prop} (h1 : Exact p R) (hf : Faults f p K1) (h2 : ∀ a, Faults f (g a) (K2 a)) :
    Faults f (p >>= g) (fun t => K1 t ∨ ∃ a e t1, R a e ∧ K2 a t1 ∧ t = e ++ t1) := Faults.bindOf h1 hf fun a _ _ => h2 a

/-- After a step that does not fail in this way. -/
theorem Faults.thenOf {α β : Type} {f : Fault} {p : P α} {g : α → P β} {R : α → Bytes → Prop}
    {K2 : α → Bytes → Prop} (h1 : Exact p R) (hf : Faults f p (fun _ => False)) (h2 : ∀ a e, R a e → Faults f (g a) (K2 a)) :
    Faults f (p >>= g) (fun t => ∃ a e t1, R a e ∧ K2 a t1 ∧ t = e ++ t1) :=
  (Faults.bindOf h1 hf h2).cast fun t => by simp

theorem Faults.then {α β : Type} {f : Fault} {p : P α} {g : α → P β} {R : α → Bytes → Prop}
    {K2 : α → Bytes → Prop} (h1 : Exact p R) (hf : Faults f p (fun _ => False)) (h2 : ∀ a, Faults f (g a) (K2 a)) :
    Faults f (p >>= g) (fun t => ∃ a e t1, R a e ∧ K2 a t1 ∧ t = e ++ t1) := Faults.thenOf h1 hf fun a _ _ => h2 a

theorem Faults.map {α β : Type} {f : Fault} {p : P α} {K : Bytes → Prop} (h : Faults f p K) (g : α → β) :
    Faults f (p >>= fun a => Pure.pure (g a)) K := by
  intro buf pos
  rw [← h buf pos, P.seq_apply]
  cases hp : p buf pos with
  | ok x =>
    simp only [Res.bind, P.ret_apply]
    exact ⟨fun h => absurd h.symm (f.as_ne_ok _), fun h => absurd h.symm (f.as_ne_ok _)⟩
  | err e => simp only [Res.bind, Fault.err_as]
  | panic => cases f <;> simp [Res.bind, Fault.as]
  | hang => cases f <;> simp [Res.bind, Fault.as]

theorem Faults.ite {α : Type} {f : Fault} {c : Prop} [Decidable c] {p q : P α} {K L : Bytes → Prop} (h1 : c → Faults f p K)
    (h2 : ¬c → Faults f q L) : Faults f (if c then p else q) (fun t => c ∧ K t ∨ ¬c ∧ L t) := by
  by_cases hc : c
  · rw [if_pos hc]; exact (h1 hc).cast fun t => by simp [hc]
  · rw [if_neg hc]; exact (h2 hc).cast fun t => by simp [hc]

theorem Faults.seek {α : Type} {f : Fault} {p : P α} {K : Bytes → Prop} (h : Faults f p K) (k : Nat) :
    Faults f (P.seekCur k >>= fun _ => p) (fun t => K (t.drop k)) := by
  intro buf pos
  have hs : P.seekCur k buf pos = .ok ((), pos + k) := by
    unfold P.seekCur
    rw [if_pos (by omega)]
    congr 2
  rw [P.seq_apply, hs]
  simp only [Res.bind]
  rw [h buf (pos + k), List.drop_drop]

/-- Skipped bytes must be there when something is read after them. -/
theorem Faults.skip {α : Type} {f : Fault} {p : P α} {K : Bytes → Prop} (h : Faults f p K) (hne : ¬K []) (k : Nat) :
    Faults f (P.seekCur k >>= fun _ => p) (fun t => ∃ s t1, s.length = k ∧ K t1 ∧ t = s ++ t1) :=
  (h.seek k).cast fun t => by
    constructor
    · intro hr
      refine ⟨t.take k, t.drop k, ?_, hr, (List.take_append_drop k t).symm⟩
      have : t.drop k ≠ [] := fun h => hne (h ▸ hr)
      have := mt List.drop_eq_nil_iff.2 this
      simp only [List.length_take]; omega
    · rintro ⟨s, t1, rfl, hr, rfl⟩
      rwa [List.drop_left]

theorem Faults.hasData {α : Type} {f : Fault} {g : Bool → P α} {K : Bool → Bytes → Prop} (h : ∀ b, Faults f (g b) (K b)) :
    Faults f (P.hasData >>= g) (fun t => K (!t.isEmpty) t) := by
  intro buf pos
  rw [P.seq_apply, hasData_apply]
  simp only [Res.bind]
  rw [h]
  have : decide (pos < buf.length) = !(buf.drop pos).isEmpty := by
    by_cases hp : pos < buf.length
    · have : buf.drop pos ≠ [] := by simp; omega
      cases hd : buf.drop pos <;> simp_all
    · rw [List.drop_eq_nil_of_le (by omega)]; simp [hp]
  rw [this]

theorem Faults.run {α : Type} {f : Fault} {p : P α} {K : Bytes → Prop} (h : Faults f p K) (bs : Bytes) : p.run bs = f.as ↔ K bs := by
  have := h bs 0
  rw [List.drop_zero] at this
  rw [← this]
  unfold P.run
  cases p bs 0 with
  | ok x => exact ⟨fun h => absurd h.symm (f.as_ne_ok _), fun h => absurd h.symm (f.as_ne_ok _)⟩
  | err e => simp only [Fault.err_as]
  | panic => cases f <;> simp [Fault.as]
  | hang => cases f <;> simp [Fault.as]

theorem Faults.times {α : Type} {f : Fault} {p : P α} {R : α → Bytes → Prop} {K : Bytes → Prop} (h1 : Exact p R) (h : Faults f p K)
    (n : Nat) : Faults f (P.times n p) (fun t => ∃ vs e t1, vs.length < n ∧ Each R vs e ∧ K t1 ∧ t = e ++ t1) := by
  induction n with
  | zero => exact (Faults.ret f []).cast fun t => by simp
  | succ n ih =>
    refine (Faults.bind h1 h fun a => ih.map fun as => a :: as).cast fun t => ?_
    constructor
    · rintro (hk | ⟨a, e, _, r, ⟨vs, e', t1, hl, he, hk, rfl⟩, rfl⟩)
      · exact ⟨[], [], t, by simp, .nil, hk, rfl⟩
      · exact ⟨a :: vs, e ++ e', t1, by simpa using hl, .cons r he, hk, by simp⟩
    · rintro ⟨vs, e, t1, hl, he, hk, rfl⟩
      cases he with
      | nil => exact .inl hk
      | @cons a vs e es r he => exact .inr ⟨a, e, es ++ t1, r, ⟨vs, es, t1, by simpa using hl, he, hk, rfl⟩, by simp⟩

theorem Faults.whileData {α : Type} {f : Fault} {p : P α} {R : α → Bytes → Prop} {K : Bytes → Prop} (h1 : Exact p R) (h : Faults f p K) :
    Faults f (P.whileData p) (AfterSome (fun v e => e ≠ [] ∧ R v e) (fun t => t ≠ [] ∧ (K t ∨ f = .loop ∧ ∃ a, R a []))) := by
  intro buf pos
  induction hn : buf.length - pos using Nat.strongRecOn generalizing pos with
  | _ n ih =>
    subst hn
    rw [P.whileData]
    split
    · rename_i hlt
      have hne : buf.drop pos ≠ [] := by simp; omega
      have inv : ∀ a e t1, R a e → buf.drop pos = e ++ t1 → p buf pos = .ok (a, pos + e.length) := fun a e t1 r hd =>
        (h1 buf pos a _).2 ⟨e, r, ⟨t1, hd.symm⟩, rfl⟩
      cases hp : p buf pos with
      | ok x =>
        obtain ⟨a, q⟩ := x
        obtain ⟨e, r, ⟨t, ht⟩, rfl⟩ := (h1 _ _ _ _).1 hp
        have hK : ¬K (buf.drop pos) := fun hk => f.as_ne_ok _ (((h buf pos).2 hk).symm.trans hp)
        have step : ∀ a' e' t', R a' e' → buf.drop pos = e' ++ t' → a' = a ∧ e' = e ∧ t' = t := by
          intro a' e' t' r' hd
          have hd' := inv a' e' t' r' hd
          rw [hp] at hd'
          simp only [Res.ok.injEq, Prod.mk.injEq, Nat.add_left_cancel_iff] at hd'
          obtain ⟨rfl, hl⟩ := hd'
          obtain ⟨rfl, rfl⟩ := List.append_inj (ht.trans hd) hl
          exact ⟨rfl, rfl, rfl⟩
        simp only
        split
        · rename_i hprog
          have hene : e ≠ [] := by rintro rfl; simp at hprog
          have := ih _ (by omega) (pos + e.length) rfl
          rw [← List.drop_drop, ← ht, List.drop_left] at this
          have key : P.whileData p buf (pos + e.length) = f.as ↔ AfterSome (fun v e => e ≠ [] ∧ R v e)
              (fun t => t ≠ [] ∧ (K t ∨ f = .loop ∧ ∃ a, R a [])) (buf.drop pos) := by
            rw [this]
            constructor
            · rintro ⟨vs, es, t1, hs, hk, rfl⟩
              exact ⟨a :: vs, e ++ es, t1, .cons ⟨hene, r⟩ hs, hk, by rw [← ht]; simp⟩
            · rintro ⟨vs, es, t1, hs, ⟨hne1, hk⟩, he⟩
              cases hs with
              | nil =>
                simp only [List.nil_append] at he
                rcases hk with hk | ⟨_, a', r'⟩
                · exact absurd (he ▸ hk) hK
                · exact absurd (step a' [] _ r' rfl).2.1.symm hene
              | @cons a' vs e' es' r' hs =>
                obtain ⟨rfl, rfl, h3⟩ := step a' e' (es' ++ t1) r'.2 (by rw [he]; simp)
                exact ⟨vs, es', t1, hs, ⟨hne1, hk⟩, h3.symm⟩
          rw [← key]
          cases P.whileData p buf (pos + e.length) <;> cases f <;> simp [Fault.as]
        · rename_i hprog
          obtain rfl : e = [] := List.eq_nil_of_length_eq_zero (by omega)
          constructor
          · intro hh
            have : f = .loop := Fault.hang_as.1 hh
            exact ⟨[], [], buf.drop pos, .nil, ⟨hne, .inr ⟨this, a, r⟩⟩, rfl⟩
          · rintro ⟨vs, es, t1, hs, ⟨hne1, hk⟩, he⟩
            cases hs with
            | nil =>
              simp only [List.nil_append] at he
              rcases hk with hk | ⟨rfl, _⟩
              · exact absurd (he ▸ hk) hK
              · rfl
            | @cons a' vs e' es' r' hs =>
              exact absurd (step a' e' (es' ++ t1) r'.2 (by rw [he]; simp)).2.1 r'.1
      | err e =>
        simp only
        constructor
        · intro hh
          exact ⟨[], [], buf.drop pos, .nil, ⟨hne, .inl ((h buf pos).1 (by rw [hp]; exact Fault.err_as.2 (Fault.err_as.1 hh)))⟩, rfl⟩
        · rintro ⟨vs, es, t1, hs, ⟨hne1, hk⟩, he⟩
          cases hs with
          | nil =>
            simp only [List.nil_append] at he
            rcases hk with hk | ⟨_, a', r'⟩
            · have := (h buf pos).2 (he ▸ hk)
              rw [hp] at this
              exact Fault.err_as.2 (Fault.err_as.1 this)
            · rw [inv a' [] _ r' rfl] at hp; cases hp
          | @cons a' vs e' es' r' hs =>
            rw [inv a' e' (es' ++ t1) r'.2 (by rw [he]; simp)] at hp; cases hp
      | panic =>
        simp only
        constructor
        · intro hh
          exact ⟨[], [], buf.drop pos, .nil, ⟨hne, .inl ((h buf pos).1 (by rw [hp]; exact Fault.panic_as.2 (Fault.panic_as.1 hh)))⟩, rfl⟩
        · rintro ⟨vs, es, t1, hs, ⟨hne1, hk⟩, he⟩
          cases hs with
          | nil =>
            simp only [List.nil_append] at he
            rcases hk with hk | ⟨_, a', r'⟩
            · have := (h buf pos).2 (he ▸ hk)
              rw [hp] at this
              exact Fault.panic_as.2 (Fault.panic_as.1 this)
            · rw [inv a' [] _ r' rfl] at hp; cases hp
          | @cons a' vs e' es' r' hs =>
            rw [inv a' e' (es' ++ t1) r'.2 (by rw [he]; simp)] at hp; cases hp
      | hang =>
        simp only
        constructor
        · intro hh
          exact ⟨[], [], buf.drop pos, .nil, ⟨hne, .inl ((h buf pos).1 (by rw [hp]; exact Fault.hang_as.2 (Fault.hang_as.1 hh)))⟩, rfl⟩
        · rintro ⟨vs, es, t1, hs, ⟨hne1, hk⟩, he⟩
          cases hs with
          | nil =>
            simp only [List.nil_append] at he
            rcases hk with hk | ⟨_, a', r'⟩
            · have := (h buf pos).2 (he ▸ hk)
              rw [hp] at this
              exact Fault.hang_as.2 (Fault.hang_as.1 this)
            · rw [inv a' [] _ r' rfl] at hp; cases hp
          | @cons a' vs e' es' r' hs =>
            rw [inv a' e' (es' ++ t1) r'.2 (by rw [he]; simp)] at hp; cases hp
    · rw [List.drop_eq_nil_of_le (by omega)]
      constructor
      · intro h; exact absurd h.symm (f.as_ne_ok _)
      · rintro ⟨vs, es, t1, _, ⟨hne1, _⟩, he⟩
        exact absurd (List.append_eq_nil_iff.1 he.symm).2 hne1

/-- A loop whose steps never read nothing. -/
theorem Faults.whileStep {α : Type} {f : Fault} {p : P α} {R : α → Bytes → Prop} {K : Bytes → Prop} (h1 : Exact p R) (h : Faults f p K)
    (hne : ∀ v, ¬R v []) (hK : ¬K []) : Faults f (P.whileData p) (AfterSome R K) :=
  (Faults.whileData h1 h).cast fun t => by
    constructor
    · rintro ⟨vs, e, t1, hs, ⟨_, hk⟩, rfl⟩
      rcases hk with hk | ⟨_, a, r⟩
      · exact ⟨vs, e, t1, each_cast (fun _ _ h => h.2) hs, hk, rfl⟩
      · exact absurd r (hne a)
    · rintro ⟨vs, e, t1, hs, hk, rfl⟩
      exact ⟨vs, e, t1, each_cast (fun v _ h => ⟨fun h' => hne v (h' ▸ h), h⟩) hs, ⟨fun h' => hK (h' ▸ hk), .inl hk⟩, rfl⟩

/-! ## Primitives -/

theorem crash_alloc (n : Nat) : Faults .crash (P.lift (allocZeroed n)) (fun _ => 2 ^ 63 ≤ n) :=
  (Faults.lift .crash (allocZeroed n)).cast fun t => by
    unfold allocZeroed Fault.as
    split <;> simp <;> omega

theorem crash_readExact (n : Nat) : Faults .crash (P.readExact n) (fun _ => False) := Faults.safe fun buf => Safe.readExact buf n

theorem crash_readVec (n : Nat) : Faults .crash (P.readVec n) (fun _ => 2 ^ 63 ≤ n) :=
  (Faults.bind (Exact.lift (allocZeroed n)) (crash_alloc n) fun _ => crash_readExact n).cast fun t => by simp

theorem crash_uLE (n : Nat) : Faults .crash (P.uLE n) (fun _ => False) := Faults.safe fun buf => Safe.uLE buf n
theorem crash_uBE (n : Nat) : Faults .crash (P.uBE n) (fun _ => False) := Faults.safe fun buf => Safe.uBE buf n
theorem crash_u8 : Faults .crash P.u8 (fun _ => False) := Faults.safe fun buf => Safe.u8 buf
theorem crash_toString : Faults .crash readToString (fun _ => False) := Faults.safe fun buf => Safe.readToString buf

theorem crash_readString (n : Nat) : Faults .crash (readString n) (fun _ => 2 ^ 63 ≤ n) := by
  refine (Faults.bind (Exact.readVec n) (crash_readVec n) fun v => Faults.lift .crash (fromUtf8 v)).cast fun t => ?_
  constructor
  · rintro (h | ⟨v, _, _, _, h, _⟩)
    · exact h
    · exact absurd h (fromUtf8_ne_panic v)
  · exact .inl

theorem crash_lenEncNum : Faults .crash readLenEncNum (fun _ => False) := by
  unfold readLenEncNum
  refine (Faults.then Exact.u8 crash_u8 fun a => Faults.ite (fun _ => Faults.ret .crash _) fun _ => Faults.ite (fun _ => Faults.fail .crash _)
    fun _ => Faults.ite (fun _ => crash_uLE 2) fun _ => Faults.ite (fun _ => crash_uLE 3) fun _ => Faults.ite (fun _ => crash_uLE 8)
    fun _ => Faults.fail .crash _).cast fun t => by simp

theorem crash_lenEncStr : Faults .crash readLenEncStr HugeText := by
  refine (Faults.then Exact.lenEncNum crash_lenEncNum fun n => crash_readString n).cast fun t => ?_
  exact Iff.rfl

theorem crash_uintLE (w : Nat) : Faults .crash (P.uintLE w) (fun _ => NoWidth w) := by
  unfold P.uintLE NoWidth
  by_cases h8 : 8 < w
  · rw [if_pos h8]; exact Faults.panic.cast fun t => by simp [h8]
  · rw [if_neg h8]
    by_cases h0 : w = 0
    · subst h0
      refine (Faults.then (Exact.readExact 0) (crash_readExact 0) fun _ => Faults.panic).cast fun t => ?_
      simp
    · simp only [h0, if_false]
      exact ((crash_readExact w).map _).cast fun t => by simp [h8]

theorem crash_uintBE (w : Nat) : Faults .crash (P.uintBE w) (fun _ => NoWidth w) := by
  unfold P.uintBE NoWidth
  by_cases h8 : 8 < w
  · rw [if_pos h8]; exact Faults.panic.cast fun t => by simp [h8]
  · rw [if_neg h8]
    by_cases h0 : w = 0
    · subst h0
      refine (Faults.then (Exact.readExact 0) (crash_readExact 0) fun _ => Faults.panic).cast fun t => ?_
      simp
    · simp only [h0, if_false]
      exact ((crash_readExact w).map _).cast fun t => by simp [h8]

theorem crash_bitmapLE (n : Nat) : Faults .crash (readBitmapLittleEndian n) (fun _ => 2 ^ 63 ≤ n) := by
  by_cases h : n < 2 ^ 63
  · exact (Faults.safe fun _ => Safe.bitmapLE h).cast fun t => by simp; omega
  · intro buf pos
    unfold readBitmapLittleEndian
    rw [show allocZeroed n = .panic from if_neg h]
    simp [P.lift, Fault.as]; omega

theorem crash_bitmapBE (n : Nat) : Faults .crash (readBitmapBigEndian n) (fun _ => 2 ^ 63 ≤ n) := by
  by_cases h : n < 2 ^ 63
  · exact (Faults.safe fun _ => Safe.bitmapBE h).cast fun t => by simp; omega
  · intro buf pos
    unfold readBitmapBigEndian
    rw [show allocZeroed n = .panic from if_neg h]
    simp [P.lift, Fault.as]; omega

end MysqlCdc
