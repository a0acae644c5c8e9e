import Verif.Spec.Wire
import Verif.Model.Cells
/-!
# Wire format of column values

Each relation `XCell type metadata value bytes` says how a column declared in the table map with this type code and metadata
holds the value. Type codes are the numbers of MySQL's `enum_field_types`.
-/

namespace MysqlCdc.Spec

/-! ## Numbers -/

/-- Integers and floats: little-endian, at the width of the type. Floats are their IEEE 754 bit pattern. -/
inductive NumberCell : UInt8 → MySqlValue → Bytes → Prop where
  | tiny {n : Nat} (h : n < 2 ^ 8) : NumberCell 1 (.tinyInt n) (le 1 n)
  | short {n : Nat} (h : n < 2 ^ 16) : NumberCell 2 (.smallInt n) (le 2 n)
  | long {n : Nat} (h : n < 2 ^ 32) : NumberCell 3 (.int n) (le 4 n)
  | float {n : Nat} (h : n < 2 ^ 32) : NumberCell 4 (.float n) (le 4 n)
  | double {n : Nat} (h : n < 2 ^ 64) : NumberCell 5 (.double n) (le 8 n)
  | longLong {n : Nat} (h : n < 2 ^ 64) : NumberCell 8 (.bigInt n) (le 8 n)
  | int24 {n : Nat} (h : n < 2 ^ 24) : NumberCell 9 (.mediumInt n) (le 3 n)

/-- A signed integer stored in `bits` bits (two's complement). -/
def twosComplement (bits : Nat) (v : Int) : Nat := (v % (2 ^ bits : Nat)).toNat

/-- The signed reading of a stored number. -/
def asSigned (bits : Nat) (n : Nat) : Int := if n < 2 ^ (bits - 1) then n else (n : Int) - (2 ^ bits : Nat)

/-! ## DECIMAL -/

/-- Digits are numbers below 10, most significant first. -/
def digitsValue (ds : List Nat) : Nat := ds.foldl (fun acc d => acc * 10 + d) 0

/-- Bytes for a group of up to nine digits: 1-2 digits in 1 byte, 3-4 in 2, 5-6 in 3, 7-9 in 4. -/
def groupBytes (digits : Nat) : Nat := min 4 ((digits + 1) / 2)

/-- A group of up to nine digits. -/
def group (ds : List Nat) : Bytes := be (groupBytes ds.length) (digitsValue ds)

/-- The integral digits are grouped by nine from the right, the fractional digits from the left. -/
inductive DecimalBody : (integral fractional : List Nat) → Bytes → Prop where
  | mk {lead tail : List Nat} {groups fgroups : List (List Nat)} (hl : lead.length < 9) (ht : tail.length < 9)
      (hg : ∀ g ∈ groups, g.length = 9) (hf : ∀ g ∈ fgroups, g.length = 9) :
      DecimalBody (lead ++ groups.flatten) (fgroups.flatten ++ tail)
        (group lead ++ groups.flatMap group ++ (fgroups.flatMap group ++ group tail))

/-- Negative numbers are inverted byte by byte; then the top bit of the first byte is flipped. -/
def signed (negative : Bool) (body : Bytes) : Bytes :=
  match (if negative then body.map (255 - ·) else body) with
  | [] => []
  | b :: bs => (b + 128) :: bs

/-- The text of a decimal number: no leading zeros except a single one for an integral part of zero. -/
def decimalText (negative : Bool) (integral fractional : List Nat) : RStr :=
  (if negative then ['-'] else [])
  ++ (if integral.all (· == 0) then ['0'] else (integral.dropWhile (· == 0)).map Nat.digitChar)
  ++ (if fractional = [] then [] else '.' :: fractional.map Nat.digitChar)

/-- NEWDECIMAL (246) with precision `p` and scale `s`: metadata is the byte `p`, then the byte `s`. -/
inductive DecimalCell : Nat → MySqlValue → Bytes → Prop where
  | mk {p s : Nat} {negative : Bool} {integral fractional : List Nat} {body : Bytes} (hp : 0 < p) (hp' : p < 256) (hs : s ≤ p)
      (hi : integral.length = p - s) (hf : fractional.length = s) (hdi : ∀ d ∈ integral, d < 10) (hdf : ∀ d ∈ fractional, d < 10)
      (hb : DecimalBody integral fractional body) :
      DecimalCell (p + 256 * s) (.decimal (decimalText negative integral fractional)) (signed negative body)

/-! ## Dates and times -/

/-- The fractional seconds of a value with `fsp` digits: `micros` has no more than `fsp` significant digits and is stored in
units of its last pair of digits. -/
inductive Fraction (fsp : Nat) (micros : Nat) : Bytes → Prop where
  | none (h : fsp = 0) (hm : micros = 0) : Fraction fsp micros []
  | one (h : fsp = 1 ∨ fsp = 2) (hm : micros < 1000000) (hd : 10 ^ (6 - fsp) ∣ micros) : Fraction fsp micros (be 1 (micros / 10000))
  | two (h : fsp = 3 ∨ fsp = 4) (hm : micros < 1000000) (hd : 10 ^ (6 - fsp) ∣ micros) : Fraction fsp micros (be 2 (micros / 100))
  | three (h : fsp = 5 ∨ fsp = 6) (hm : micros < 1000000) (hd : 10 ^ (6 - fsp) ∣ micros) : Fraction fsp micros (be 3 micros)

/-- Dates and times. `millis` are the microseconds divided by 1000, rounded down. -/
inductive TimeCell : UInt8 → Nat → MySqlValue → Bytes → Prop where
  /-- YEAR: years since 1900; the year 0 is stored as 0. -/
  | year {y : Nat} (h : 1901 ≤ y) (h' : y ≤ 2155) : TimeCell 13 0 (.year y) (le 1 (y - 1900))
  | yearZero : TimeCell 13 0 (.year 0) (le 1 0)
  /-- DATE: 5 bits day, 4 bits month, 15 bits year. -/
  | date {y mo d : Nat} (hy : y ≤ 9999) (hm : mo ≤ 12) (hd : d ≤ 31) :
      TimeCell 10 0 (.date ⟨y, mo, d⟩) (le 3 (d + 2 ^ 5 * mo + 2 ^ 9 * y))
  /-- TIME before MySQL 5.6.4: the decimal number hhmmss. -/
  | time {h mi s : Nat} (hh : h ≤ 838) (hm : mi < 60) (hs : s < 60) :
      TimeCell 11 0 (.time ⟨h, mi, s, 0⟩) (le 3 (h * 10000 + mi * 100 + s))
  /-- TIMESTAMP before 5.6.4: seconds. -/
  | timestamp {s : Nat} (hs : s < 2 ^ 32) : TimeCell 7 0 (.timestamp (1000 * s)) (le 4 s)
  /-- DATETIME before 5.6.4: the decimal number yyyymmddhhmmss. -/
  | dateTime {y mo d h mi s : Nat} (hy : y ≤ 9999) (hmo : mo ≤ 12) (hd : d ≤ 31) (hh : h < 24) (hm : mi < 60) (hs : s < 60) :
      TimeCell 12 0 (.dateTime ⟨y, mo, d, h, mi, s, 0⟩)
        (le 8 (((((y * 100 + mo) * 100 + d) * 100 + h) * 100 + mi) * 100 + s))
  /-- TIME2: sign bit (1 = non-negative), 1 unused bit, 10 bits hour, 6 bits minute, 6 bits second, big-endian. -/
  | time2 {fsp h mi s micros : Nat} {frac : Bytes} (hh : h ≤ 838) (hm : mi < 60) (hs : s < 60) (hf : Fraction fsp micros frac) :
      TimeCell 19 fsp (.time ⟨h, mi, s, micros / 1000⟩) (be 3 (2 ^ 23 + 2 ^ 12 * h + 2 ^ 6 * mi + s) ++ frac)
  /-- TIMESTAMP2: seconds, big-endian. -/
  | timestamp2 {fsp s micros : Nat} {frac : Bytes} (hs : s < 2 ^ 32) (hf : Fraction fsp micros frac) :
      TimeCell 17 fsp (.timestamp (1000 * s + micros / 1000)) (be 4 s ++ frac)
  /-- DATETIME2: sign bit (always 1), 17 bits year*13+month, 5 bits day, 5 bits hour, 6 bits minute, 6 bits second. -/
  | dateTime2 {fsp y mo d h mi s micros : Nat} {frac : Bytes} (hy : y ≤ 9999) (hmo : mo ≤ 12) (hd : d ≤ 31) (hh : h < 24)
      (hm : mi < 60) (hs : s < 60) (hf : Fraction fsp micros frac) :
      TimeCell 18 fsp (.dateTime ⟨y, mo, d, h, mi, s, micros / 1000⟩)
        (be 5 (2 ^ 39 + 2 ^ 22 * (y * 13 + mo) + 2 ^ 17 * d + 2 ^ 12 * h + 2 ^ 6 * mi + s) ++ frac)

/-! ## Text, blobs, BIT, ENUM, SET -/

/-- Text in a column of at most `size` bytes: the length takes one byte if `size` is below 256, two otherwise. -/
def Sized (size : Nat) (s : RStr) (bytes : Bytes) : Prop :=
  (utf8Bytes s).length ≤ size ∧
  bytes = le (if size < 256 then 1 else 2) (utf8Bytes s).length ++ utf8Bytes s

/-- Metadata of a STRING (254) column that is CHAR of at most `size` bytes: the real type 254 in the high byte, with bits 4
and 5 inverted by the bits 8 and 9 of the size; the low byte of the size in the low byte. -/
def charMeta (size : Nat) : Nat := (254 - 16 * (size / 256)) * 256 + size % 256

/-- The bits of a number, most significant first. -/
def bitsOf (n v : Nat) : List Bool := (List.range n).map fun i => v / 2 ^ (n - 1 - i) % 2 == 1

inductive DataCell : UInt8 → Nat → MySqlValue → Bytes → Prop where
  | varChar {size : Nat} {s : RStr} {e : Bytes} (hs : size < 2 ^ 16) (h : Sized size s e) : DataCell 15 size (.string s) e
  | varString {size : Nat} {s : RStr} {e : Bytes} (hs : size < 2 ^ 16) (h : Sized size s e) : DataCell 253 size (.string s) e
  | char {size : Nat} {s : RStr} {e : Bytes} (hs : size < 1024) (h : Sized size s e) :
      DataCell 254 (charMeta size) (.string s) e
  /-- ENUM: real type 247 and the width, one or two bytes. -/
  | enum {width n : Nat} (hw : width = 1 ∨ width = 2) (hn : n < 256 ^ width) :
      DataCell 254 (247 * 256 + width) (.enum n) (le width n)
  /-- SET: real type 248 and the width, up to eight bytes. -/
  | set {width n : Nat} (hw : 1 ≤ width) (hw' : width ≤ 8) (hn : n < 256 ^ width) :
      DataCell 254 (248 * 256 + width) (.set n) (le width n)
  /-- TINYBLOB, MEDIUMBLOB, LONGBLOB, BLOB, JSON, GEOMETRY: metadata is the width of the length. -/
  | blob {t : UInt8} {width : Nat} {bs : Bytes} (ht : t.toNat ∈ [249, 250, 251, 252, 245, 255]) (hw : 1 ≤ width) (hw' : width ≤ 4)
      (hl : bs.length < 256 ^ width) : DataCell t width (.blob bs) (le width bs.length ++ bs)
  /-- BIT(n): metadata is the number of odd bits, then the number of full bytes. The value is big-endian. -/
  | bit {n v : Nat} (hn : n ≤ 64) (hv : v < 2 ^ n) : DataCell 16 (n / 8 * 256 + n % 8) (.bit (bitsOf n v)) (be (bytesFor n) v)

/-- Any column value. -/
inductive Cell : UInt8 → Nat → MySqlValue → Bytes → Prop where
  | number {t : UInt8} {md : Nat} {v : MySqlValue} {e : Bytes} (h : NumberCell t v e) : Cell t md v e
  | decimal {md : Nat} {v : MySqlValue} {e : Bytes} (h : DecimalCell md v e) : Cell 246 md v e
  | time {t : UInt8} {md : Nat} {v : MySqlValue} {e : Bytes} (h : TimeCell t md v e) (hy : v ≠ .year 0) : Cell t md v e
  | data {t : UInt8} {md : Nat} {v : MySqlValue} {e : Bytes} (h : DataCell t md v e) : Cell t md v e

end MysqlCdc.Spec
