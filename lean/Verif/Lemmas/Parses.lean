import Verif.Spec.Wire
import Verif.Model.Extensions
import Verif.Lemmas.Utf8
/-!
# Compositional round-trip reasoning about cursor parsers
-/

namespace MysqlCdc

open Spec

namespace P

theorem bind_eq {α β : Type} (p : P α) (f : α → P β) : (p >>= f) = seq p f := rfl
theorem pure_eq {α : Type} (a : α) : (pure a : P α) = ret a := rfl

@[simp] theorem seq_apply {α β : Type} (p : P α) (f : α → P β) (buf : Bytes) (pos : Nat) :
    (p >>= f) buf pos = (p buf pos).bind (fun r => f r.1 buf r.2) := by
  show seq p f buf pos = _
  unfold seq
  rcases p buf pos with ⟨a, pos'⟩ | e | _ | _ <;> rfl

@[simp] theorem ret_apply {α : Type} (a : α) (buf : Bytes) (pos : Nat) : (pure a : P α) buf pos = .ok (a, pos) := rfl

theorem map_eq {α β : Type} (f : α → β) (p : P α) : (f <$> p) = (p >>= fun a => pure (f a)) := rfl

@[simp] theorem lift_ok {α : Type} (a : α) : lift (.ok a) = (pure a : P α) := rfl

theorem pure_bind' {α β : Type} (a : α) (f : α → P β) : ((pure a : P α) >>= f) = f a := rfl

end P

/-- `p` reads exactly `enc`, wherever it stands and whatever follows, and yields `v`. -/
def Parses {α : Type} (p : P α) (enc : Bytes) (v : α) : Prop :=
  ∀ pre rest : Bytes, p (pre ++ (enc ++ rest)) pre.length = .ok (v, pre.length + enc.length)

/-- `p` reads `enc` when `enc` is the last thing in the buffer. -/
def ParsesEnd {α : Type} (p : P α) (enc : Bytes) (v : α) : Prop :=
  ∀ pre : Bytes, p (pre ++ enc) pre.length = .ok (v, pre.length + enc.length)

theorem Parses.end {α : Type} {p : P α} {enc : Bytes} {v : α} (h : Parses p enc v) : ParsesEnd p enc v := fun pre => by
  simpa using h pre []

theorem ParsesEnd.run {α : Type} {p : P α} {enc : Bytes} {v : α} (h : ParsesEnd p enc v) : p.run enc = .ok v := by
  have := h []
  simp only [List.nil_append, List.length_nil] at this
  simp [P.run, this]

theorem Parses.run {α : Type} {p : P α} {enc : Bytes} {v : α} (h : Parses p enc v) : p.run enc = .ok v := h.end.run

theorem Parses.pure {α : Type} (v : α) : Parses (Pure.pure v : P α) [] v := fun pre rest => by simp

theorem Parses.bind {α β : Type} {p : P α} {f : α → P β} {e1 e2 : Bytes} {a : α} {b : β} (h1 : Parses p e1 a)
    (h2 : Parses (f a) e2 b) : Parses (p >>= f) (e1 ++ e2) b := fun pre rest => by
  have h1' := h1 pre (e2 ++ rest)
  have h2' := h2 (pre ++ e1) rest
  simp only [List.append_assoc, List.length_append] at h1' h2' ⊢
  simp [h1', h2', Nat.add_assoc]

theorem Parses.bindEnd {α β : Type} {p : P α} {f : α → P β} {e1 e2 : Bytes} {a : α} {b : β} (h1 : Parses p e1 a)
    (h2 : ParsesEnd (f a) e2 b) : ParsesEnd (p >>= f) (e1 ++ e2) b := fun pre => by
  have h1' := h1 pre e2
  have h2' := h2 (pre ++ e1)
  simp only [List.append_assoc, List.length_append] at h1' h2' ⊢
  simp [h1', h2', Nat.add_assoc]

theorem ParsesEnd.pure {α : Type} (v : α) : ParsesEnd (Pure.pure v : P α) [] v := (Parses.pure v).end

/-- Last step of a `do` block. -/
theorem Parses.map {α β : Type} {p : P α} {e : Bytes} {a : α} (h : Parses p e a) (f : α → β) :
    Parses (p >>= fun x => Pure.pure (f x)) e (f a) := by
  simpa using Parses.bind (f := fun x => Pure.pure (f x)) h (Parses.pure (f a))

theorem ParsesEnd.map {α β : Type} {p : P α} {e : Bytes} {a : α} (h : ParsesEnd p e a) (f : α → β) :
    ParsesEnd (p >>= fun x => Pure.pure (f x)) e (f a) := fun pre => by
  simp [h pre]

/-- A step that consumes nothing, after the value is known. -/
theorem ParsesEnd.bind {α β : Type} {p : P α} {f : α → P β} {e : Bytes} {a : α} {b : β} (h1 : ParsesEnd p e a)
    (h2 : ParsesEnd (f a) [] b) : ParsesEnd (p >>= f) e b := fun pre => by
  have h1' := h1 pre
  have h2' := h2 (pre ++ e)
  simp only [List.append_nil, List.length_append, List.length_nil, Nat.add_zero] at h2'
  simp [h1', h2']

/-! ## Primitive readers -/

theorem readExact_parses (bs : Bytes) : Parses (P.readExact bs.length) bs bs := fun pre rest => by
  simp [P.readExact]

theorem readExact_parses' {n : Nat} {bs : Bytes} (h : bs.length = n) : Parses (P.readExact n) bs bs :=
  h ▸ readExact_parses bs

theorem readVec_parses {n : Nat} {bs : Bytes} (h : bs.length = n) (hn : n < 2 ^ 63) : Parses (P.readVec n) bs bs := by
  unfold P.readVec
  rw [show allocZeroed n = .ok () by simp [allocZeroed, hn]]
  simpa using (Parses.pure ()).bind (readExact_parses' h)

theorem seek_parses {n : Nat} {bs : Bytes} (h : bs.length = n) : Parses (P.seekCur n) bs () := fun pre rest => by
  subst h
  have h1 : (0 : Int) ≤ (pre.length : Int) + (bs.length : Int) := by omega
  have h2 : ((pre.length : Int) + (bs.length : Int)).toNat = pre.length + bs.length := by omega
  unfold P.seekCur
  rw [if_pos h1, h2]

@[simp] theorem le_length (k n : Nat) : (le k n).length = k := by simp [le]
@[simp] theorem be_length (k n : Nat) : (be k n).length = k := by simp [be]

theorem le_succ (k n : Nat) : le (k + 1) n = UInt8.ofNat n :: le k (n / 256) := by
  unfold le
  rw [List.range_succ_eq_map]
  simp only [List.map_cons, List.map_map, Nat.pow_zero, Nat.div_one, List.cons.injEq, true_and]
  apply List.map_congr_left
  intro i _
  simp [Nat.pow_succ, Nat.div_div_eq_div_mul, Nat.mul_comm]

theorem leVal_le (k n : Nat) : leVal (le k n) = n % 256 ^ k := by
  induction k generalizing n with
  | zero => simp [le, leVal, Nat.mod_one]
  | succ k ih =>
    rw [le_succ, leVal, ih]
    simp only [UInt8.toNat_ofNat']
    rw [show 256 ^ (k + 1) = 256 * 256 ^ k by rw [Nat.pow_succ, Nat.mul_comm], Nat.mod_mul]

theorem leVal_le_of_lt {k n : Nat} (h : n < 256 ^ k) : leVal (le k n) = n := by
  rw [leVal_le, Nat.mod_eq_of_lt h]

theorem beVal_be_of_lt {k n : Nat} (h : n < 256 ^ k) : beVal (be k n) = n := by
  simp [beVal, be, leVal_le_of_lt h]

theorem leVal_lt (bs : Bytes) : leVal bs < 256 ^ bs.length := by
  induction bs with
  | nil => simp [leVal]
  | cons b bs ih =>
    have := b.toNat_lt
    rw [leVal, List.length_cons, Nat.pow_succ]
    omega

theorem le_leVal (bs : Bytes) : le bs.length (leVal bs) = bs := by
  induction bs with
  | nil => rfl
  | cons b bs ih =>
    have hb := b.toNat_lt
    rw [List.length_cons, le_succ, leVal]
    congr 1
    · apply UInt8.toNat_inj.1
      simp only [UInt8.toNat_ofNat']
      omega
    · rw [show (b.toNat + 256 * leVal bs) / 256 = leVal bs by omega, ih]

theorem uLE_parses {k n : Nat} (h : n < 256 ^ k) : Parses (P.uLE k) (le k n) n := by
  have := (readExact_parses' (le_length k n)).map leVal
  rwa [leVal_le_of_lt h] at this

theorem uBE_parses {k n : Nat} (h : n < 256 ^ k) : Parses (P.uBE k) (be k n) n := by
  have := (readExact_parses' (be_length k n)).map beVal
  rwa [beVal_be_of_lt h] at this

theorem u8_parses {n : Nat} (h : n < 256) : Parses P.u8 (le 1 n) n := uLE_parses (k := 1) (by simpa using h)

theorem u8_byte (b : UInt8) : Parses P.u8 [b] b.toNat := by
  have := u8_parses b.toNat_lt
  rwa [show le 1 b.toNat = [b] by simp [le]] at this

theorem uintLE_parses {k n : Nat} (hk : 0 < k) (hk8 : k ≤ 8) (h : n < 256 ^ k) : Parses (P.uintLE k) (le k n) n := by
  unfold P.uintLE
  rw [if_neg (by omega)]
  simp only [show k ≠ 0 by omega, if_false]
  have := (readExact_parses' (le_length k n)).map leVal
  rwa [leVal_le_of_lt h] at this

theorem uintBE_parses {k n : Nat} (hk : 0 < k) (hk8 : k ≤ 8) (h : n < 256 ^ k) : Parses (P.uintBE k) (be k n) n := by
  unfold P.uintBE
  rw [if_neg (by omega)]
  simp only [show k ≠ 0 by omega, if_false]
  have := (readExact_parses' (be_length k n)).map beVal
  rwa [beVal_be_of_lt h] at this

theorem rest_parses (bs : Bytes) : ParsesEnd P.rest bs bs := fun pre => by
  simp [P.rest]

/-! ## Strings -/

theorem fromUtf8_utf8Bytes (s : RStr) : fromUtf8 (utf8Bytes s) = .ok s := by simp [fromUtf8, utf8Decode_utf8Bytes]

theorem readToString_parses (s : RStr) : ParsesEnd readToString (utf8Bytes s) s := by
  refine (rest_parses (utf8Bytes s)).bind ?_
  rw [utf8Decode_utf8Bytes]
  exact ParsesEnd.pure s

theorem readString_parses {n : Nat} {s : RStr} (h : (utf8Bytes s).length = n) (hn : n < 2 ^ 63) :
    Parses (readString n) (utf8Bytes s) s := by
  unfold readString
  have h1 := readVec_parses h hn
  have h2 : Parses (P.lift (fromUtf8 (utf8Bytes s))) [] s := by
    rw [fromUtf8_utf8Bytes]; exact Parses.pure s
  simpa using Parses.bind (f := fun v => P.lift (fromUtf8 v)) h1 h2

theorem lenEnc_spec {n : Nat} (h : n < 2 ^ 64) : LenEnc n (lenEnc n) := by
  unfold lenEnc
  split
  · exact .one ‹_›
  split
  · exact .two ‹_›
  split
  · exact .three ‹_›
  · exact .eight h

theorem readLenEncNum_parses {n : Nat} {enc : Bytes} (h : LenEnc n enc) : Parses readLenEncNum enc n := by
  unfold readLenEncNum
  cases h with
  | one h =>
    have := (u8_parses (n := n) (by omega)).bind (f := fun first =>
      if first < 0xFB then pure first
      else if first = 0xFB then P.fail (.str "Length encoded integer cannot be NULL.")
      else if first = 0xFC then P.uLE 2
      else if first = 0xFD then P.uLE 3
      else if first = 0xFE then P.uLE 8
      else P.fail (.str "Unexpected length-encoded integer")) (e2 := []) (b := n)
      (by rw [if_pos h]; exact Parses.pure n)
    simpa using this
  | two h => exact (u8_byte 0xFC).bind (uLE_parses (k := 2) h)
  | three h => exact (u8_byte 0xFD).bind (uLE_parses (k := 3) h)
  | eight h => exact (u8_byte 0xFE).bind (uLE_parses (k := 8) h)

theorem LenEnc_lt {n : Nat} {enc : Bytes} (h : LenEnc n enc) : n < 2 ^ 64 := by
  cases h <;> omega

theorem LenEnc_ne_nil {n : Nat} {enc : Bytes} (h : LenEnc n enc) : enc ≠ [] := by
  cases h <;> simp [le]

theorem readLenEncStr_parses {s : RStr} {enc : Bytes} (h : LenEncStr s enc) (hn : (utf8Bytes s).length < 2 ^ 63) :
    Parses readLenEncStr enc s := by
  obtain ⟨l, hl, rfl⟩ := h
  exact (readLenEncNum_parses hl).bind (readString_parses rfl hn)

/-! ## Loops -/

theorem times_parses {α β : Type} {p : P α} {enc : β → Bytes} {v : β → α} {xs : List β}
    (h : ∀ x ∈ xs, Parses p (enc x) (v x)) : Parses (P.times xs.length p) (xs.flatMap enc) (xs.map v) := by
  induction xs with
  | nil => exact Parses.pure []
  | cons x xs ih =>
    have h1 := h x (by simp)
    have h2 := ih fun y hy => h y (by simp [hy])
    exact h1.bind (h2.map _)

theorem forEach_parses {α β γ : Type} {f : α → P β} {xs : List γ} {a : γ → α} {enc : γ → Bytes} {v : γ → β}
    (h : ∀ x ∈ xs, Parses (f (a x)) (enc x) (v x)) :
    Parses (P.forEach (xs.map a) f) (xs.flatMap enc) (xs.map v) := by
  induction xs with
  | nil => exact Parses.pure []
  | cons x xs ih =>
    have h1 := h x (by simp)
    have h2 := ih fun y hy => h y (by simp [hy])
    exact h1.bind (h2.map _)

theorem whileData_parses {α β : Type} {p : P α} {enc : β → Bytes} {v : β → α} {xs : List β}
    (h : ∀ x ∈ xs, Parses p (enc x) (v x)) (hne : ∀ x ∈ xs, enc x ≠ []) :
    ParsesEnd (P.whileData p) (xs.flatMap enc) (xs.map v) := by
  induction xs with
  | nil =>
    intro pre
    rw [P.whileData]
    simp
  | cons x xs ih =>
    intro pre
    have h1 := h x (by simp) pre (xs.flatMap enc)
    have h2 := ih (fun y hy => h y (by simp [hy])) (fun y hy => hne y (by simp [hy])) (pre ++ enc x)
    have h3 : 0 < (enc x).length := List.length_pos_iff.2 (hne x (by simp))
    simp only [List.flatMap_cons, List.map_cons] at *
    rw [P.whileData, if_pos (by simp; omega), h1]
    simp only [List.append_assoc, List.length_append] at h2 ⊢
    simp only [show pre.length < pre.length + (enc x).length by omega, if_true, h2]
    simp [Nat.add_assoc]

end MysqlCdc
