import Verif.Model.Utf8
/-!
# String functions of std used by the GTID code
-/

namespace MysqlCdc

/-- `str::split(c)`: always at least one part. -/
def splitOn (sep : Char) : RStr → List RStr
  | [] => [[]]
  | c :: cs =>
    if c = sep then [] :: splitOn sep cs
    else match splitOn sep cs with
      | [] => [[c]]
      | p :: ps => (c :: p) :: ps

/-- `str::replace(c, "")` for a one-character pattern. -/
def removeChar (c : Char) (s : RStr) : RStr := s.filter (· ≠ c)

/-- `char::is_whitespace`: the Unicode property White_Space. -/
def isWhitespace (c : Char) : Bool :=
  (9 ≤ c.toNat && c.toNat ≤ 13) || c.toNat == 0x20 || c.toNat == 0x85 || c.toNat == 0xA0 || c.toNat == 0x1680
  || (0x2000 ≤ c.toNat && c.toNat ≤ 0x200A) || c.toNat == 0x2028 || c.toNat == 0x2029 || c.toNat == 0x202F
  || c.toNat == 0x205F || c.toNat == 0x3000

/-- `str::trim` -/
def trim (s : RStr) : RStr := ((s.dropWhile isWhitespace).reverse.dropWhile isWhitespace).reverse

/-- `[String]::join(",")` and the like, for one-character separators. -/
def joinWith (sep : Char) : List RStr → RStr
  | [] => []
  | [x] => x
  | x :: y :: ys => x ++ sep :: joinWith sep (y :: ys)

/-- `Display` of an unsigned integer. -/
def showNat (n : Nat) : RStr := Nat.toDigits 10 n

/-- Value of an ASCII decimal digit. -/
def digitVal (c : Char) : Option Nat :=
  if 48 ≤ c.toNat ∧ c.toNat ≤ 57 then some (c.toNat - 48) else none

/-- The digit loop of `from_str_radix(_, 10)`: `none` on a non-digit or on overflow of `bits` bits. -/
def parseDigits (bits : Nat) : Nat → RStr → Option Nat
  | acc, [] => some acc
  | acc, c :: cs =>
    match digitVal c with
    | none => none
    | some d => if acc * 10 + d < 2 ^ bits then parseDigits bits (acc * 10 + d) cs else none

/-- `str::parse::<u32>()` / `::<u64>()` (core::num): one leading `+` is allowed, `-` is not, the empty string and a lone
sign are errors. -/
def parseUnsigned (bits : Nat) (s : RStr) : Res Nat :=
  match s with
  | [] => .err .parseInt
  | '+' :: [] => .err .parseInt
  | '+' :: cs => match parseDigits bits 0 cs with | some n => .ok n | none => .err .parseInt
  | cs => match parseDigits bits 0 cs with | some n => .ok n | none => .err .parseInt

/-! ## HashMap -/

/-- `std::collections::HashMap`: key/value pairs with distinct keys, in iteration order. The order is unspecified in Rust; what
depends on it is stated for every permutation of the list. -/
abbrev HMap (κ ν : Type) := List (κ × ν)

namespace HMap

/-- `HashMap::get` -/
def get? {κ ν : Type} [DecidableEq κ] : HMap κ ν → κ → Option ν
  | [], _ => none
  | (k', v) :: rest, k => if k' = k then some v else get? rest k

/-- `HashMap::insert`: replaces the value of an existing key. -/
def insert {κ ν : Type} [DecidableEq κ] : HMap κ ν → κ → ν → HMap κ ν
  | [], k, v => [(k, v)]
  | (k', v') :: rest, k, v => if k' = k then (k', v) :: rest else (k', v') :: insert rest k v

def keys {κ ν : Type} (m : HMap κ ν) : List κ := m.map (·.1)
def values {κ ν : Type} (m : HMap κ ν) : List ν := m.map (·.2)

end HMap

/-! ## Ordering of strings -/

/-- Lexicographic `≤` on byte strings. -/
def bytesLe : Bytes → Bytes → Bool
  | [], _ => true
  | _ :: _, [] => false
  | a :: as, b :: bs => if a.toNat < b.toNat then true else if b.toNat < a.toNat then false else bytesLe as bs

/-- `Ord for str`: lexicographic on UTF-8 bytes. -/
def strLe (a b : RStr) : Bool := bytesLe (utf8Bytes a) (utf8Bytes b)

/-- `[String]::sort()` -/
def sortStrings (l : List RStr) : List RStr := l.mergeSort strLe

end MysqlCdc
