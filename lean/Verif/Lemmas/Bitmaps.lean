import Verif.Lemmas.Parses
/-!
# The three bitmap readers
-/

namespace MysqlCdc

open Spec

theorem bitAt_eq (v : UInt8) (k : Nat) : bitAt v k = bitOf v k := by
  simp [bitAt, bitOf, Nat.testBit_eq_decide_div_mod_eq]
  by_cases h : v.toNat / 2 ^ k % 2 = 1 <;> simp [h]

/-- What storing one byte does to the result vector: group `g` of eight bits is overwritten by `f`. -/
def StoresGroup (bits g : Nat) (f : Nat → Bool) (res res' : List Bool) : Prop :=
  res'.length = bits ∧ ∀ j < bits, res'[j]? = if j / 8 = g then some (f (j % 8)) else res[j]?

theorem setBitsLE_range {bits i : Nat} {v : UInt8} (k a : Nat) (hak : a + k ≤ 8) (res : List Bool)
    (hl : res.length = bits) (hi : i * 8 + a ≤ bits) :
    ∃ r, setBitsLE bits i v (List.range' a k) res = .ok r ∧ r.length = bits ∧
      ∀ j < bits, r[j]? = if i * 8 + a ≤ j ∧ j < i * 8 + a + k then some (bitAt v (j - i * 8)) else res[j]? := by
  induction k generalizing a res with
  | zero =>
    refine ⟨res, by simp [setBitsLE], hl, fun j hj => ?_⟩
    rw [if_neg (by omega)]
  | succ k ih =>
    rw [List.range'_succ, setBitsLE]
    by_cases hb : i * 8 + a = bits
    · refine ⟨res, by simp [hb], hl, fun j hj => ?_⟩
      rw [if_neg (by omega)]
    · obtain ⟨r, h1, h2, h3⟩ := ih (a + 1) (by omega) (res.set (i * 8 + a) (bitAt v a)) (by simp [hl]) (by omega)
      refine ⟨r, ?_, h2, fun j hj => ?_⟩
      · simp only [hb, if_false]
        rw [if_pos (by omega)]
        exact h1
      · rw [h3 j hj]
        by_cases hj' : j = i * 8 + a
        · subst hj'
          rw [if_neg (by omega), if_pos (by omega)]
          simp [hl, hj]
        · by_cases hc : i * 8 + (a + 1) ≤ j ∧ j < i * 8 + (a + 1) + k
          · rw [if_pos hc, if_pos (by omega)]
          · rw [if_neg hc, if_neg (by omega), List.getElem?_set_ne (by omega)]

theorem setBitsRev_range {bits i : Nat} {v : UInt8} (k a : Nat) (hak : a + k ≤ 8) (res : List Bool)
    (hl : res.length = bits) (hi : i * 8 + a ≤ bits) :
    ∃ r, setBitsRev bits i v (List.range' a k) res = .ok r ∧ r.length = bits ∧
      ∀ j < bits, r[j]? = if i * 8 + a ≤ j ∧ j < i * 8 + a + k then some (bitAt v (7 - (j - i * 8))) else res[j]? := by
  induction k generalizing a res with
  | zero =>
    refine ⟨res, by simp [setBitsRev], hl, fun j hj => ?_⟩
    rw [if_neg (by omega)]
  | succ k ih =>
    rw [List.range'_succ, setBitsRev]
    by_cases hb : i * 8 + a = bits
    · refine ⟨res, by simp [hb], hl, fun j hj => ?_⟩
      rw [if_neg (by omega)]
    · obtain ⟨r, h1, h2, h3⟩ := ih (a + 1) (by omega) (res.set (i * 8 + a) (bitAt v (7 - a))) (by simp [hl]) (by omega)
      refine ⟨r, ?_, h2, fun j hj => ?_⟩
      · simp only [hb, if_false]
        rw [if_pos (by omega)]
        exact h1
      · rw [h3 j hj]
        by_cases hj' : j = i * 8 + a
        · subst hj'
          rw [if_neg (by omega), if_pos (by omega)]
          simp [hl, hj]
        · by_cases hc : i * 8 + (a + 1) ≤ j ∧ j < i * 8 + (a + 1) + k
          · rw [if_pos hc, if_pos (by omega)]
          · rw [if_neg hc, if_neg (by omega), List.getElem?_set_ne (by omega)]

theorem setBitsBE_range {bits n i : Nat} {v : UInt8} (k a : Nat) (hak : a + k ≤ 8) (res : List Bool)
    (hl : res.length = bits) :
    ∃ r, setBitsBE bits n i v (List.range' a k) res = .ok r ∧ r.length = bits ∧
      ∀ j < bits, r[j]? = if (n - i - 1) * 8 + a ≤ j ∧ j < (n - i - 1) * 8 + a + k
        then some (bitAt v (j - (n - i - 1) * 8)) else res[j]? := by
  induction k generalizing a res with
  | zero =>
    refine ⟨res, by simp [setBitsBE], hl, fun j hj => ?_⟩
    rw [if_neg (by omega)]
  | succ k ih =>
    rw [List.range'_succ, setBitsBE]
    by_cases hb : (n - i - 1) * 8 + a ≥ bits
    · obtain ⟨r, h1, h2, h3⟩ := ih (a + 1) (by omega) res hl
      refine ⟨r, ?_, h2, fun j hj => ?_⟩
      · rw [if_pos hb]; exact h1
      · rw [h3 j hj]
        rw [if_neg (by omega), if_neg (by omega)]
    · obtain ⟨r, h1, h2, h3⟩ := ih (a + 1) (by omega) (res.set ((n - i - 1) * 8 + a) (bitAt v a)) (by simp [hl])
      refine ⟨r, ?_, h2, fun j hj => ?_⟩
      · simp only [hb, if_false]
        rw [if_pos (by omega)]
        exact h1
      · rw [h3 j hj]
        by_cases hj' : j = (n - i - 1) * 8 + a
        · subst hj'
          rw [if_neg (by omega), if_pos (by omega)]
          simp [hl, hj]
        · by_cases hc : (n - i - 1) * 8 + (a + 1) ≤ j ∧ j < (n - i - 1) * 8 + (a + 1) + k
          · rw [if_pos hc, if_pos (by omega)]
          · rw [if_neg hc, if_neg (by omega), List.getElem?_set_ne (by omega)]

theorem setBitsLE_stores {bits i : Nat} (v : UInt8) (res : List Bool) (hl : res.length = bits) (hi : i < bytesFor bits) :
    ∃ r, setBitsLE bits i v (List.range 8) res = .ok r ∧ StoresGroup bits i (fun k => bitOf v k) res r := by
  unfold bytesFor at hi
  obtain ⟨r, h1, h2, h3⟩ := setBitsLE_range (v := v) (i := i) 8 0 (by omega) res hl (by omega)
  refine ⟨r, by rw [List.range_eq_range']; exact h1, h2, fun j hj => ?_⟩
  rw [h3 j hj]
  by_cases h : j / 8 = i
  · rw [if_pos (by omega), if_pos h, bitAt_eq]
    simp only [show j - i * 8 = j % 8 by omega]
  · rw [if_neg (by omega), if_neg h]

theorem setBitsRev_stores {bits i : Nat} (v : UInt8) (res : List Bool) (hl : res.length = bits) (hi : i < bytesFor bits) :
    ∃ r, setBitsRev bits i v (List.range 8) res = .ok r ∧ StoresGroup bits i (fun k => bitOf v (7 - k)) res r := by
  unfold bytesFor at hi
  obtain ⟨r, h1, h2, h3⟩ := setBitsRev_range (v := v) (i := i) 8 0 (by omega) res hl (by omega)
  refine ⟨r, by rw [List.range_eq_range']; exact h1, h2, fun j hj => ?_⟩
  rw [h3 j hj]
  by_cases h : j / 8 = i
  · rw [if_pos (by omega), if_pos h, bitAt_eq]
    simp only [show j - i * 8 = j % 8 by omega]
  · rw [if_neg (by omega), if_neg h]

theorem setBitsBE_stores {bits n i : Nat} (v : UInt8) (res : List Bool) (hl : res.length = bits) :
    ∃ r, setBitsBE bits n i v (List.range 8) res = .ok r ∧ StoresGroup bits (n - i - 1) (fun k => bitOf v k) res r := by
  obtain ⟨r, h1, h2, h3⟩ := setBitsBE_range (v := v) (i := i) (n := n) 8 0 (by omega) res hl
  refine ⟨r, by rw [List.range_eq_range']; exact h1, h2, fun j hj => ?_⟩
  rw [h3 j hj]
  by_cases h : j / 8 = n - i - 1
  · rw [if_pos (by omega), if_pos h, bitAt_eq]
    simp only [show j - (n - i - 1) * 8 = j % 8 by omega]
  · rw [if_neg (by omega), if_neg h]

/-- The outer loop, for any way of storing bytes whose groups are distinct. -/
theorem bitmapLoop_parses {bits N : Nat} {set : Nat → UInt8 → List Bool → Res (List Bool)} {grp : Nat → Nat}
    {f : UInt8 → Nat → Bool}
    (hset : ∀ i < N, ∀ v res, res.length = bits → ∃ r, set i v res = .ok r ∧ StoresGroup bits (grp i) (f v) res r)
    (hinj : ∀ i < N, ∀ j < N, grp i = grp j → i = j)
    (enc : Bytes) (i : Nat) (hN : i + enc.length ≤ N) (res : List Bool) (hl : res.length = bits) :
    ∃ r, Parses (bitmapLoop set (List.range' i enc.length) res) enc r ∧ r.length = bits ∧
      (∀ t v, enc[t]? = some v → ∀ j < bits, grp (i + t) = j / 8 → r[j]? = some (f v (j % 8))) ∧
      (∀ j < bits, (∀ t < enc.length, grp (i + t) ≠ j / 8) → r[j]? = res[j]?) := by
  induction enc generalizing i res with
  | nil => exact ⟨res, Parses.pure _, hl, by simp, by simp⟩
  | cons b bs ih =>
    simp only [List.length_cons] at hN
    obtain ⟨r0, h1, h2, h3⟩ := hset i (by omega) b res hl
    obtain ⟨r, k1, k2, k3, k4⟩ := ih (i + 1) (by omega) r0 h2
    refine ⟨r, ?_, k2, ?_, ?_⟩
    · rw [List.length_cons, List.range'_succ, bitmapLoop]
      refine (u8_byte b).bind (e2 := bs) ?_
      have : UInt8.ofNat b.toNat = b := by simp
      rw [this, h1]
      exact k1
    · intro t v ht j hj hg
      cases t with
      | zero =>
        simp only [List.getElem?_cons_zero, Option.some.injEq] at ht
        subst ht
        rw [k4 j hj, h3 j hj, if_pos (by simpa using hg.symm)]
        intro t ht he
        have := hinj (i + 1 + t) (by omega) i (by omega) (by rw [he, ← hg]; rfl)
        omega
      | succ t =>
        refine k3 t v (by simpa using ht) j hj ?_
        rw [← hg]; congr 1; omega
    · intro j hj ht
      rw [k4 j hj, h3 j hj, if_neg]
      · have := ht 0 (by simp)
        exact fun h => this h.symm
      · intro t ht'
        have := ht (t + 1) (by simpa using ht')
        rwa [show i + (t + 1) = i + 1 + t by omega] at this

theorem list_eq_of_bits {bits r : List Bool} (h1 : r.length = bits.length)
    (h2 : ∀ (j : Nat) b, bits[j]? = some b → r[j]? = some b) : r = bits := by
  apply List.ext_getElem?
  intro j
  by_cases hj : j < bits.length
  · rw [List.getElem?_eq_getElem hj, h2 j bits[j] (List.getElem?_eq_getElem hj)]
  · rw [List.getElem?_eq_none (by omega), List.getElem?_eq_none (by omega)]

theorem allocZeroed_ok {n : Nat} (h : n < 2 ^ 63) : allocZeroed n = .ok () := by simp [allocZeroed, h]

theorem lift_ok_bind {α β : Type} (a : α) (f : α → P β) : (P.lift (.ok a) >>= f) = f a := rfl

theorem readBitmapLittleEndian_parses {bits : List Bool} {enc : Bytes} (h : BitmapLE bits enc) (hn : bits.length < 2 ^ 63) :
    Parses (readBitmapLittleEndian bits.length) enc bits := by
  unfold readBitmapLittleEndian
  rw [allocZeroed_ok hn, lift_ok_bind]
  obtain ⟨r, h1, h2, h3, _⟩ := bitmapLoop_parses (bits := bits.length) (N := bytesFor bits.length)
    (set := fun i v => setBitsLE bits.length i v (List.range 8)) (grp := id) (f := bitOf)
    (fun i hi v res hl => setBitsLE_stores v res hl hi) (fun i _ j _ h => h)
    enc 0 (by rw [h.1]; omega) (List.replicate bits.length false) (by simp)
  have : r = bits := by
    refine list_eq_of_bits h2 fun j b hb => ?_
    obtain ⟨v, hv, hvb⟩ := h.2 j b hb
    have hj : j < bits.length := (List.getElem?_eq_some_iff.1 hb).1
    rw [h3 (j / 8) v hv j hj (by simp), hvb]
  subst this
  rw [h.1] at h1
  rw [← List.range_eq_range'] at h1
  exact h1

theorem readBitmapReverted_parses {bits : List Bool} {enc : Bytes} (h : BitmapMsb bits enc) (hn : bits.length < 2 ^ 63) :
    Parses (readBitmapReverted bits.length) enc bits := by
  unfold readBitmapReverted
  rw [allocZeroed_ok hn, lift_ok_bind]
  obtain ⟨r, h1, h2, h3, _⟩ := bitmapLoop_parses (bits := bits.length) (N := bytesFor bits.length)
    (set := fun i v => setBitsRev bits.length i v (List.range 8)) (grp := id) (f := fun v k => bitOf v (7 - k))
    (fun i hi v res hl => setBitsRev_stores v res hl hi) (fun i _ j _ h => h)
    enc 0 (by rw [h.1]; omega) (List.replicate bits.length false) (by simp)
  have : r = bits := by
    refine list_eq_of_bits h2 fun j b hb => ?_
    obtain ⟨v, hv, hvb⟩ := h.2 j b hb
    have hj : j < bits.length := (List.getElem?_eq_some_iff.1 hb).1
    rw [h3 (j / 8) v hv j hj (by simp), hvb]
  subst this
  rw [h.1] at h1
  rw [← List.range_eq_range'] at h1
  exact h1

theorem readBitmapBigEndian_parses {bits : List Bool} {enc : Bytes} (h : BitmapBE bits enc) (hn : bits.length < 2 ^ 63) :
    Parses (readBitmapBigEndian bits.length) enc bits := by
  unfold readBitmapBigEndian
  rw [allocZeroed_ok hn, lift_ok_bind]
  obtain ⟨r, h1, h2, h3, _⟩ := bitmapLoop_parses (bits := bits.length) (N := bytesFor bits.length)
    (set := fun i v => setBitsBE bits.length (bytesFor bits.length) i v (List.range 8))
    (grp := fun i => bytesFor bits.length - i - 1) (f := bitOf)
    (fun i hi v res hl => setBitsBE_stores v res hl) (fun i hi j hj h => by have : bytesFor bits.length - i - 1 = bytesFor bits.length - j - 1 := h; omega)
    enc 0 (by rw [h.1]; omega) (List.replicate bits.length false) (by simp)
  have : r = bits := by
    refine list_eq_of_bits h2 fun j b hb => ?_
    obtain ⟨v, hv, hvb⟩ := h.2 j b hb
    have hj : j < bits.length := (List.getElem?_eq_some_iff.1 hb).1
    have hlen := h.1
    unfold bytesFor at hlen
    rw [h3 (enc.length - 1 - j / 8) v hv j hj (by simp only [bytesFor]; omega), hvb]
  subst this
  rw [h.1] at h1
  rw [← List.range_eq_range'] at h1
  exact h1

end MysqlCdc
