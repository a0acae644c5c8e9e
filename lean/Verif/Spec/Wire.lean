import Verif.Model.Utf8
/-!
# Wire formats: numbers, strings, bitmaps

Written from the published MySQL/MariaDB protocol documentation; nothing here uses the parsers of the model.
-/

namespace MysqlCdc.Spec

/-- `n` as `k` bytes, least significant first. -/
def le (k n : Nat) : Bytes := (List.range k).map fun i => UInt8.ofNat (n / 256 ^ i)

/-- `n` as `k` bytes, most significant first. -/
def be (k n : Nat) : Bytes := (le k n).reverse

/-- The four forms of a length-encoded integer: one byte below 251, or a marker followed by 2, 3 or 8 bytes. The format does
not require the shortest form. -/
inductive LenEnc : Nat → Bytes → Prop where
  | one {n : Nat} (h : n < 251) : LenEnc n (le 1 n)
  | two {n : Nat} (h : n < 2 ^ 16) : LenEnc n (0xFC :: le 2 n)
  | three {n : Nat} (h : n < 2 ^ 24) : LenEnc n (0xFD :: le 3 n)
  | eight {n : Nat} (h : n < 2 ^ 64) : LenEnc n (0xFE :: le 8 n)

/-- The shortest length-encoded form, as servers write it. -/
def lenEnc (n : Nat) : Bytes :=
  if n < 251 then le 1 n else if n < 2 ^ 16 then 0xFC :: le 2 n else if n < 2 ^ 24 then 0xFD :: le 3 n else 0xFE :: le 8 n

/-- A length-encoded string: its byte length in any length-encoded form, then its bytes. -/
def LenEncStr (s : RStr) (enc : Bytes) : Prop :=
  ∃ l, LenEnc (utf8Bytes s).length l ∧ enc = l ++ utf8Bytes s

/-- The bit of weight `2^k` of a byte. -/
def bitOf (b : UInt8) (k : Nat) : Bool := b.toNat / 2 ^ k % 2 == 1

/-- The number of bytes needed for `n` bits. -/
def bytesFor (n : Nat) : Nat := (n + 7) / 8

/-- Little-endian bitmap: bit `i` is the bit of weight `2^(i mod 8)` of byte `i / 8`. The other bits are free. -/
def BitmapLE (bits : List Bool) (enc : Bytes) : Prop :=
  enc.length = bytesFor bits.length ∧
  ∀ i b, bits[i]? = some b → ∃ byte, enc[i / 8]? = some byte ∧ bitOf byte (i % 8) = b

/-- Big-endian bitmap: bytes in the opposite order, so bit `i` is in byte `(number of bytes) - 1 - i / 8`. -/
def BitmapBE (bits : List Bool) (enc : Bytes) : Prop :=
  enc.length = bytesFor bits.length ∧
  ∀ i b, bits[i]? = some b → ∃ byte, enc[enc.length - 1 - i / 8]? = some byte ∧ bitOf byte (i % 8) = b

/-- Bitmap with the most significant bit of each byte first. -/
def BitmapMsb (bits : List Bool) (enc : Bytes) : Prop :=
  enc.length = bytesFor bits.length ∧
  ∀ i b, bits[i]? = some b → ∃ byte, enc[i / 8]? = some byte ∧ bitOf byte (7 - i % 8) = b

end MysqlCdc.Spec
