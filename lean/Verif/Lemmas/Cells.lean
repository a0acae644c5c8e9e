import Verif.Spec.Cells
import Verif.Model.Rows
import Verif.Lemmas.Format
import Verif.Lemmas.Strings
import Mathlib.Tactic.IntervalCases
/-!
# Round-trip of column values
-/

namespace MysqlCdc

open Spec

/-! ## Numbers -/

theorem numberCell_parses (m : Mode) {t : UInt8} {md : Nat} {v : MySqlValue} {e : Bytes} (h : NumberCell t v e) :
    Parses (parseColumn m t.toNat md) e v := by
  cases h with
  | tiny h => exact (u8_parses h).map _
  | short h => exact (uLE_parses (k := 2) h).map _
  | long h => exact (uLE_parses (k := 4) h).map _
  | float h => exact (uLE_parses (k := 4) h).map _
  | double h => exact (uLE_parses (k := 8) h).map _
  | longLong h => exact (uLE_parses (k := 8) h).map _
  | int24 h => exact (uLE_parses (k := 3) h).map _

/-! ## Dates and times -/

theorem fraction_parses (m : Mode) {fsp micros : Nat} {e : Bytes} (h : Fraction fsp micros e) :
    Parses (parseFractionalPart m fsp) e micros := by
  have hm : ∀ k, k ≤ 6 → addU m 16 k 1 = .ok (k + 1) := fun k hk => by
    have : k + 1 < 65536 := by omega
    simp [addU, this]
  unfold parseFractionalPart
  cases h with
  | none h1 h2 =>
    subst h1 h2
    rw [hm 0 (by omega), lift_ok_bind]
    exact Parses.pure 0
  | one h1 h2 h3 =>
    rw [hm fsp (by omega), lift_ok_bind]
    have : 10000 ∣ micros := Nat.dvd_trans ((by rcases h1 with rfl | rfl <;> decide) : 10000 ∣ 10 ^ (6 - fsp)) h3
    simp only [show (fsp + 1) / 2 = 1 by omega]
    refine ((uintBE_parses (k := 1) (by decide) (by decide) (by omega)).map (· * 10000)).cast rfl ?_
    exact (Nat.div_mul_cancel this).symm
  | two h1 h2 h3 =>
    rw [hm fsp (by omega), lift_ok_bind]
    have : 100 ∣ micros := Nat.dvd_trans ((by rcases h1 with rfl | rfl <;> decide) : 100 ∣ 10 ^ (6 - fsp)) h3
    simp only [show (fsp + 1) / 2 = 2 by omega]
    refine ((uintBE_parses (k := 2) (by decide) (by decide) (by omega)).map (· * 100)).cast rfl ?_
    exact (Nat.div_mul_cancel this).symm
  | three h1 h2 h3 =>
    rw [hm fsp (by omega), lift_ok_bind]
    simp only [show (fsp + 1) / 2 = 3 by omega]
    exact ((uintBE_parses (k := 3) (by decide) (by decide) (by omega)).map (· * 1)).cast rfl (by omega)

/-- The wrapped power in `parse_fractional_part`: for 4 to 8 bytes and no overflow checks the exponent is `2^32 + 3 - length`
and the `u64` power is 0. -/
theorem pow100_wraps {length : Nat} (h : 3 < length) (h' : length ≤ 8) : 100 ^ (2 ^ 32 + 3 - length) % 2 ^ 64 = 0 := by
  have : 2 ^ 64 ∣ 100 ^ (2 ^ 32 + 3 - length) := by
    rw [show (100 : Nat) = 2 * 50 by rfl, Nat.mul_pow]
    exact Nat.dvd_trans (Nat.pow_dvd_pow 2 (by omega)) (Nat.dvd_mul_right _ _)
  exact Nat.mod_eq_zero_of_dvd this

theorem fraction_lt {fsp micros : Nat} {e : Bytes} (h : Fraction fsp micros e) : micros < 1000000 := by
  cases h <;> omega

theorem timeCell_parses (m : Mode) {t : UInt8} {md : Nat} {v : MySqlValue} {e : Bytes} (h : TimeCell t md v e)
    (hy : v ≠ .year 0) : Parses (parseColumn m t.toNat md) e v := by
  cases h with
  | @year y h h' =>
    refine (((u8_parses (n := y - 1900) (by omega)).map (1900 + ·)).map MySqlValue.year).cast rfl ?_
    rw [show 1900 + (y - 1900) = y by omega]
  | yearZero => exact absurd rfl hy
  | @date y mo d hy hm hd =>
    refine (((uLE_parses (k := 3) (by omega)).map _).map MySqlValue.date).cast rfl ?_
    simp only [Nat.shiftRight_eq_div_pow, Nat.one_shiftLeft, MySqlValue.date.injEq, Date.mk.injEq]
    refine ⟨?_, ?_, ?_⟩ <;> omega
  | @time h mi s hh hm hs =>
    have : ¬ (h * 10000 + mi * 100 + s ≥ 2 ^ 23) := by omega
    refine Parses.map (f := MySqlValue.time) (a := ⟨h, mi, s, 0⟩) ?_
    unfold parseTime
    refine ((uLE_parses (k := 3) (n := h * 10000 + mi * 100 + s) (by omega)).bind (e2 := []) ?_).cast (by simp) rfl
    rw [if_neg this]
    refine (Parses.pure _).cast rfl ?_
    simp only [Time.mk.injEq, and_true]
    refine ⟨?_, ?_, ?_⟩ <;> omega
  | @timestamp s hs =>
    exact (((uLE_parses (k := 4) hs).map (· * 1000)).map MySqlValue.timestamp).cast rfl (by simp [Nat.mul_comm])
  | @dateTime y mo d h mi s hy hmo hd hh hm hs =>
    refine (((uLE_parses (k := 8) (by omega)).map _).map MySqlValue.dateTime).cast rfl ?_
    simp only [MySqlValue.dateTime.injEq, DateTime.mk.injEq, and_true]
    refine ⟨?_, ?_, ?_, ?_, ?_, ?_⟩ <;> omega
  | @time2 fsp h mi s micros frac hh hm hs hf =>
    have hl := fraction_lt hf
    refine Parses.map (f := MySqlValue.time) (a := ⟨h, mi, s, micros / 1000⟩) ?_
    unfold parseTime2
    refine (uBE_parses (k := 3) (n := 2 ^ 23 + 2 ^ 12 * h + 2 ^ 6 * mi + s) (by omega)).bind ?_
    refine ((fraction_parses m hf).bind (e2 := []) ?_).cast (by simp) rfl
    simp only [Nat.shiftRight_eq_div_pow, Nat.one_shiftLeft, Nat.and_one_is_mod]
    rw [if_neg (by omega)]
    refine (Parses.pure _).cast rfl ?_
    simp only [Time.mk.injEq]
    refine ⟨?_, ?_, ?_, ?_⟩ <;> omega
  | @timestamp2 fsp s micros frac hs hf =>
    refine Parses.map (f := MySqlValue.timestamp) (a := 1000 * s + micros / 1000) ?_
    unfold parseTimestamp2
    refine (uBE_parses (k := 4) hs).bind ?_
    exact ((fraction_parses m hf).map _).cast rfl (by omega)
  | @dateTime2 fsp y mo d h mi s micros frac hy hmo hd hh hm hs hf =>
    have hl := fraction_lt hf
    refine Parses.map (f := MySqlValue.dateTime) (a := ⟨y, mo, d, h, mi, s, micros / 1000⟩) ?_
    unfold parseDateTime2
    refine (uintBE_parses (k := 5) (by decide) (by decide) (by omega)).bind ?_
    refine ((fraction_parses m hf).map _).cast rfl ?_
    simp only [Nat.shiftRight_eq_div_pow, Nat.one_shiftLeft, DateTime.mk.injEq]
    have h1 : (2 ^ 39 + 2 ^ 22 * (y * 13 + mo) + 2 ^ 17 * d + 2 ^ 12 * h + 2 ^ 6 * mi + s) / 2 ^ 22 = 2 ^ 17 + (y * 13 + mo) := by
      omega
    have h2 : (2 ^ 17 + (y * 13 + mo)) % 2 ^ 17 = y * 13 + mo := by omega
    rw [h1, h2]
    refine ⟨?_, ?_, ?_, ?_, ?_, ?_, ?_⟩ <;> omega

/-! ## Text, blobs, BIT, ENUM, SET -/

theorem parseString_parses {size : Nat} {s : RStr} {e : Bytes} (hs : size < 2 ^ 16) (h : Sized size s e) :
    Parses (parseString size) e s := by
  obtain ⟨h1, rfl⟩ := h
  unfold parseString
  by_cases h : size < 256
  · simp only [h, if_true]
    exact (u8_parses (by omega)).bind (readString_parses rfl (by omega))
  · simp only [h, if_false]
    exact (uLE_parses (k := 2) (by omega)).bind (readString_parses rfl (by omega))

theorem actual_char {size : Nat} (h : size < 1024) : getActualStringType 254 (charMeta size) = (254, size) := by
  have : ∀ n < 1024, getActualStringType 254 (charMeta n) = (254, n) := by decide +kernel
  exact this size h

theorem actual_enum {w : Nat} (h : w < 256) : getActualStringType 254 (247 * 256 + w) = (247, w) := by
  have : ∀ n < 256, getActualStringType 254 (247 * 256 + n) = (247, n) := by decide +kernel
  exact this w h

theorem actual_set {w : Nat} (h : w < 256) : getActualStringType 254 (248 * 256 + w) = (248, w) := by
  have : ∀ n < 256, getActualStringType 254 (248 * 256 + n) = (248, n) := by decide +kernel
  exact this w h

theorem parseColumn_string (m : Mode) (md : Nat) :
    parseColumn m 254 md = parseCell m (getActualStringType 254 md).1 (getActualStringType 254 md).2 := rfl

theorem bit_le (k v i : Nat) (h : i / 8 < k) :
    ∃ byte, (le k v)[i / 8]? = some byte ∧ bitOf byte (i % 8) = (v / 2 ^ i % 2 == 1) := by
  refine ⟨UInt8.ofNat (v / 256 ^ (i / 8)), by simp [le, h], ?_⟩
  unfold bitOf
  congr 1
  rw [UInt8.toNat_ofNat', show (256 : Nat) = 2 ^ 8 by rfl, ← Nat.pow_mul]
  have h8 : i % 8 < 8 := Nat.mod_lt _ (by decide)
  have hi : i = 8 * (i / 8) + i % 8 := (Nat.div_add_mod i 8).symm
  have e1 : v / 2 ^ i = v / 2 ^ (8 * (i / 8)) / 2 ^ (i % 8) := by
    rw [Nat.div_div_eq_div_mul, ← Nat.pow_add, ← hi]
  rw [e1]
  generalize v / 2 ^ (8 * (i / 8)) = w
  generalize i % 8 = j at h8
  interval_cases j <;> omega

theorem parseBit_parses {n v : Nat} (hn : n ≤ 64) : Parses (parseBit (n / 8 * 256 + n % 8)) (be (bytesFor n) v) (bitsOf n v) := by
  unfold parseBit
  have h1 : ((n / 8 * 256 + n % 8) >>> 8) * 8 + ((n / 8 * 256 + n % 8) &&& 0xFF) = n := by
    rw [Nat.shiftRight_eq_div_pow, show (0xFF : Nat) = 2 ^ 8 - 1 by rfl, Nat.and_two_pow_sub_one_eq_mod]
    omega
  simp only [h1]
  have h2 : BitmapBE (bitsOf n v).reverse (be (bytesFor n) v) := by
    have hl : (bitsOf n v).length = n := by simp [bitsOf]
    refine ⟨by simp [hl], fun i b hb => ?_⟩
    have hi : i < n := by
      have := (List.getElem?_eq_some_iff.1 hb).1
      simpa [hl] using this
    have hb' : b = (v / 2 ^ i % 2 == 1) := by
      rw [List.getElem?_reverse (by omega), hl] at hb
      simp only [bitsOf, List.getElem?_map, List.getElem?_range (show n - 1 - i < n by omega), Option.map_some,
        Option.some.injEq] at hb
      rw [← hb, show n - 1 - (n - 1 - i) = i by omega]
    have hk : i / 8 < bytesFor n := by unfold bytesFor; omega
    obtain ⟨byte, h3, h4⟩ := bit_le (bytesFor n) v i hk
    refine ⟨byte, ?_, by rw [h4, hb']⟩
    rw [be_length, ← h3, be, List.getElem?_reverse (by simp; omega)]
    congr 1
    simp
    omega
  have hl : (bitsOf n v).reverse.length = n := by simp [bitsOf]
  have h3 := readBitmapBigEndian_parses h2 (by omega)
  rw [hl] at h3
  exact (h3.map List.reverse).cast rfl (by simp)

theorem parseBlob_parses {w : Nat} {bs : Bytes} (hw : 1 ≤ w) (hw' : w ≤ 4) (hl : bs.length < 256 ^ w) :
    Parses (parseBlob w) (le w bs.length ++ bs) bs := by
  unfold parseBlob
  refine (uintLE_parses (by omega) (by omega) hl).bind (readVec_parses rfl ?_)
  have : 256 ^ w ≤ 256 ^ 4 := Nat.pow_le_pow_right (by decide) hw'
  omega

theorem dataCell_parses (m : Mode) {t : UInt8} {md : Nat} {v : MySqlValue} {e : Bytes} (h : DataCell t md v e) :
    Parses (parseColumn m t.toNat md) e v := by
  cases h with
  | varChar hs h => exact (parseString_parses hs h).map _
  | varString hs h => exact (parseString_parses hs h).map _
  | char hs h =>
    show Parses (parseColumn m 254 _) _ _
    rw [parseColumn_string, actual_char hs]
    exact (parseString_parses (by omega) h).map _
  | @enum width n hw hn =>
    show Parses (parseColumn m 254 _) _ _
    rw [parseColumn_string, actual_enum (by omega)]
    have : n < 2 ^ 32 := by
      have : 256 ^ width ≤ 256 ^ 2 := Nat.pow_le_pow_right (by decide) (by omega)
      omega
    exact ((uintLE_parses (by omega) (by omega) hn).map _).cast rfl (by rw [Nat.mod_eq_of_lt this])
  | @set width n hw hw' hn =>
    show Parses (parseColumn m 254 _) _ _
    rw [parseColumn_string, actual_set (by omega)]
    exact (uintLE_parses (by omega) (by omega) hn).map _
  | blob ht hw hw' hl =>
    have hp := (parseBlob_parses hw hw' hl).map MySqlValue.blob
    simp only [List.mem_cons, List.not_mem_nil, or_false] at ht
    rcases ht with h | h | h | h | h | h <;> rw [h] <;> exact hp
  | bit hn hv => exact (parseBit_parses hn).map _

end MysqlCdc
