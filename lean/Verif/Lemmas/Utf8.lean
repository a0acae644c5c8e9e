import Verif.Model.Utf8
/-!
# The UTF-8 decoder inverts Lean core's encoder, and accepts nothing else
-/

namespace MysqlCdc

theorem toNat_ofNat_valid {n : Nat} (h : n.isValidChar) : (Char.ofNat n).val.toNat = n := by
  unfold Char.ofNat
  rw [dif_pos h]
  rfl

theorem u8_toNat_ofNat {n : Nat} (h : n < 256) : (UInt8.ofNat n).toNat = n := by
  simp; omega

theorem char_valid (c : Char) : c.val.toNat < 0xd800 ∨ (0xdfff < c.val.toNat ∧ c.val.toNat < 0x110000) := c.valid

theorem ofNat_val (c : Char) : Char.ofNat c.val.toNat = c := Char.ofNat_toNat c

theorem utf8Decode_1 {b0 : UInt8} {t : Bytes} (h : b0.toNat < 128) :
    utf8Decode (b0 :: t) = (utf8Decode t).map (Char.ofNat b0.toNat :: ·) := by
  rw [utf8Decode.eq_def]; simp only; rw [if_pos h]

theorem utf8Decode_2 {b0 b1 : UInt8} {t : Bytes} (h0 : 0xC2 ≤ b0.toNat ∧ b0.toNat ≤ 0xDF) (h1 : isCont b1 = true) :
    utf8Decode (b0 :: b1 :: t) = (utf8Decode t).map (Char.ofNat ((b0.toNat % 32) * 64 + b1.toNat % 64) :: ·) := by
  rw [utf8Decode.eq_def]; simp only
  rw [if_neg (by omega), if_pos (by simp; omega), if_pos h1]

theorem utf8Decode_3 {b0 b1 b2 : UInt8} {t : Bytes} (h0 : 0xE0 ≤ b0.toNat) (h1 : ok3 b0 b1 = true)
    (h2 : isCont b2 = true) : utf8Decode (b0 :: b1 :: b2 :: t) = (utf8Decode t).map
      (Char.ofNat ((b0.toNat % 16) * 4096 + (b1.toNat % 64) * 64 + b2.toNat % 64) :: ·) := by
  rw [utf8Decode.eq_def]; simp only
  rw [if_neg (by omega), if_neg (by simp; omega), if_pos h1, if_pos h2]

theorem utf8Decode_4 {b0 b1 b2 b3 : UInt8} {t : Bytes} (h0 : 0xF0 ≤ b0.toNat) (h1 : ok4 b0 b1 = true)
    (h2 : isCont b2 = true) (h3 : isCont b3 = true) : utf8Decode (b0 :: b1 :: b2 :: b3 :: t) = (utf8Decode t).map
      (Char.ofNat ((b0.toNat % 8) * 262144 + (b1.toNat % 64) * 4096 + (b2.toNat % 64) * 64 + b3.toNat % 64) :: ·) := by
  rw [utf8Decode.eq_def]; simp only
  rw [if_neg (by omega), if_neg (by simp; omega), if_neg (by simp [ok3]; omega), if_pos (by simp [h1, h2, h3])]

theorem utf8Decode_encodeChar (c : Char) (t : Bytes) :
    utf8Decode (String.utf8EncodeChar c ++ t) = (utf8Decode t).map (c :: ·) := by
  have hv := char_valid c
  have hc := ofNat_val c
  unfold String.utf8EncodeChar
  generalize c.val.toNat = v at *
  simp only
  split
  · simp only [List.cons_append, List.nil_append]
    have e0 := u8_toNat_ofNat (n := v) (by omega)
    rw [utf8Decode_1 (by omega), e0, hc]
  · split
    · simp only [List.cons_append, List.nil_append]
      have e0 := u8_toNat_ofNat (n := v / 64 % 32 + 192) (by omega)
      have e1 := u8_toNat_ofNat (n := v % 64 + 128) (by omega)
      rw [utf8Decode_2 (by omega) (by simp only [isCont, e1]; simp; omega), e0, e1]
      rw [show (v / 64 % 32 + 192) % 32 * 64 + (v % 64 + 128) % 64 = v by omega, hc]
    · split
      · simp only [List.cons_append, List.nil_append]
        have e0 := u8_toNat_ofNat (n := v / 4096 % 16 + 224) (by omega)
        have e1 := u8_toNat_ofNat (n := v / 64 % 64 + 128) (by omega)
        have e2 := u8_toNat_ofNat (n := v % 64 + 128) (by omega)
        rw [utf8Decode_3 (by omega) (by simp only [ok3, e0, e1]; simp; omega) (by simp only [isCont, e2]; simp; omega),
          e0, e1, e2]
        rw [show (v / 4096 % 16 + 224) % 16 * 4096 + (v / 64 % 64 + 128) % 64 * 64 + (v % 64 + 128) % 64 = v by omega, hc]
      · simp only [List.cons_append, List.nil_append]
        have e0 := u8_toNat_ofNat (n := v / 262144 % 8 + 240) (by omega)
        have e1 := u8_toNat_ofNat (n := v / 4096 % 64 + 128) (by omega)
        have e2 := u8_toNat_ofNat (n := v / 64 % 64 + 128) (by omega)
        have e3 := u8_toNat_ofNat (n := v % 64 + 128) (by omega)
        rw [utf8Decode_4 (by omega) (by simp only [ok4, e0, e1]; simp; omega) (by simp only [isCont, e2]; simp; omega)
          (by simp only [isCont, e3]; simp; omega), e0, e1, e2, e3]
        rw [show (v / 262144 % 8 + 240) % 8 * 262144 + (v / 4096 % 64 + 128) % 64 * 4096 + (v / 64 % 64 + 128) % 64 * 64 +
          (v % 64 + 128) % 64 = v by omega, hc]

/-- Decoding the UTF-8 bytes of a string gives the string back. -/
theorem utf8Decode_utf8Bytes (s : RStr) : utf8Decode (utf8Bytes s) = some s := by
  induction s with
  | nil => rfl
  | cons c s ih =>
    rw [utf8Bytes, List.flatMap_cons, utf8Decode_encodeChar]
    rw [utf8Bytes] at ih
    rw [ih]; rfl

theorem utf8Bytes_inj {a b : RStr} (h : utf8Bytes a = utf8Bytes b) : a = b := by
  have := utf8Decode_utf8Bytes a
  rw [h, utf8Decode_utf8Bytes] at this
  exact (Option.some.inj this).symm

theorem encodeChar_eq1 {n : Nat} (h : n < 128) : String.utf8EncodeChar (Char.ofNat n) = [UInt8.ofNat n] := by
  unfold String.utf8EncodeChar
  rw [toNat_ofNat_valid (by left; omega)]
  simp only
  rw [if_pos (by omega)]

theorem encodeChar_eq2 {n : Nat} (h1 : 128 ≤ n) (h2 : n < 2048) : String.utf8EncodeChar (Char.ofNat n) =
    [UInt8.ofNat (n / 64 % 32 + 192), UInt8.ofNat (n % 64 + 128)] := by
  unfold String.utf8EncodeChar
  rw [toNat_ofNat_valid (by left; omega)]
  simp only
  rw [if_neg (by omega), if_pos (by omega)]

theorem encodeChar_eq3 {n : Nat} (h1 : 2048 ≤ n) (h2 : n < 65536) (hv : n.isValidChar) :
    String.utf8EncodeChar (Char.ofNat n) =
    [UInt8.ofNat (n / 4096 % 16 + 224), UInt8.ofNat (n / 64 % 64 + 128), UInt8.ofNat (n % 64 + 128)] := by
  unfold String.utf8EncodeChar
  rw [toNat_ofNat_valid hv]
  simp only
  rw [if_neg (by omega), if_neg (by omega), if_pos (by omega)]

theorem encodeChar_eq4 {n : Nat} (h1 : 65536 ≤ n) (h2 : n < 0x110000) :
    String.utf8EncodeChar (Char.ofNat n) =
    [UInt8.ofNat (n / 262144 % 8 + 240), UInt8.ofNat (n / 4096 % 64 + 128), UInt8.ofNat (n / 64 % 64 + 128),
      UInt8.ofNat (n % 64 + 128)] := by
  unfold String.utf8EncodeChar
  rw [toNat_ofNat_valid (by right; omega)]
  simp only
  rw [if_neg (by omega), if_neg (by omega), if_neg (by omega)]

theorem ofNat_eq_of {b : UInt8} {n : Nat} (h : n = b.toNat) : UInt8.ofNat n = b := by subst h; simp

/-- What the decoder accepts is the UTF-8 encoding of the string it returns. -/
theorem utf8Bytes_of_decode {bs : Bytes} {s : RStr} (h : utf8Decode bs = some s) : utf8Bytes s = bs := by
  induction hn : bs.length using Nat.strongRecOn generalizing bs s with
  | _ n ih =>
    match bs with
    | [] => simp [utf8Decode] at h; subst h; rfl
    | b0 :: t =>
      rw [utf8Decode.eq_def] at h
      simp only at h
      have hb0 := b0.toNat_lt
      split at h
      · rename_i h0
        obtain ⟨s', h1, rfl⟩ := Option.map_eq_some_iff.1 h
        have := ih t.length (by simp at hn; omega) h1 rfl
        rw [utf8Bytes, List.flatMap_cons, encodeChar_eq1 h0]
        rw [utf8Bytes] at this
        rw [this]; simp
      · match t with
        | [] => simp at h
        | b1 :: t1 =>
          simp only at h
          have hb1 := b1.toNat_lt
          split at h
          · rename_i h0 h1
            simp [isCont] at h1 h
            obtain ⟨⟨h2, h3⟩, s', h4, rfl⟩ := h
            have := ih t1.length (by simp at hn; omega) h4 rfl
            rw [utf8Bytes, List.flatMap_cons, encodeChar_eq2 (by omega) (by omega)]
            rw [utf8Bytes] at this
            rw [this, ofNat_eq_of (b := b0) (by omega), ofNat_eq_of (b := b1) (by omega)]; rfl
          · match t1 with
            | [] => simp at h
            | b2 :: t2 =>
              simp only at h
              have hb2 := b2.toNat_lt
              split at h
              · rename_i h0 h1 h2
                simp [isCont] at h
                simp [ok3] at h2
                obtain ⟨⟨h3, h4⟩, s', h5, rfl⟩ := h
                have := ih t2.length (by simp at hn; omega) h5 rfl
                rw [utf8Bytes, List.flatMap_cons, encodeChar_eq3 (by omega) (by omega) (by
                  unfold Nat.isValidChar; omega)]
                rw [utf8Bytes] at this
                rw [this, ofNat_eq_of (b := b0) (by omega), ofNat_eq_of (b := b1) (by omega),
                  ofNat_eq_of (b := b2) (by omega)]; rfl
              · match t2 with
                | [] => simp at h
                | b3 :: t3 =>
                  simp only at h
                  have hb3 := b3.toNat_lt
                  split at h
                  · rename_i h0 h1 h2 h3
                    simp [isCont, ok4] at h3
                    obtain ⟨s', h5, rfl⟩ := Option.map_eq_some_iff.1 h
                    have := ih t3.length (by simp at hn; omega) h5 rfl
                    rw [utf8Bytes, List.flatMap_cons, encodeChar_eq4 (by omega) (by omega)]
                    rw [utf8Bytes] at this
                    rw [this, ofNat_eq_of (b := b0) (by omega), ofNat_eq_of (b := b1) (by omega),
                      ofNat_eq_of (b := b2) (by omega), ofNat_eq_of (b := b3) (by omega)]; rfl
                  · simp at h

/-- Acceptance, exactly. -/
theorem utf8Decode_eq_some_iff {bs : Bytes} {s : RStr} : utf8Decode bs = some s ↔ bs = utf8Bytes s := by
  constructor
  · intro h; exact (utf8Bytes_of_decode h).symm
  · rintro rfl; exact utf8Decode_utf8Bytes s

end MysqlCdc
