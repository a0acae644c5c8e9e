import Mathlib.Data.List.Forall2
import Verif.Spec.GtidSet
import Verif.Model.MariaGtid
/-!
# GTID texts

Grammar of the texts the GTID parsers accept, independent of the model's functions.
-/

namespace MysqlCdc.Spec

/-- `s` is a decimal writing of `n` (leading zeros allowed). -/
def Decimal (n : Nat) (s : RStr) : Prop := s ≠ [] ∧ (∀ c ∈ s, c.isDigit = true) ∧ Nat.ofDigitChars 10 s 0 = n

/-- Unicode White_Space. -/
def Blank (c : Char) : Prop :=
  (9 ≤ c.toNat ∧ c.toNat ≤ 13) ∨ (0x2000 ≤ c.toNat ∧ c.toNat ≤ 0x200A) ∨
  c.toNat ∈ [0x20, 0x85, 0xA0, 0x1680, 0x2028, 0x2029, 0x202F, 0x205F, 0x3000]

/-- One interval: `first-last`, or one number for an interval of one id. -/
def IntervalText (iv : Interval) (s : RStr) : Prop :=
  (iv.start = iv.end ∧ Decimal iv.start s) ∨ ∃ a b, Decimal iv.start a ∧ Decimal iv.end b ∧ s = a ++ '-' :: b

/-- One server: a 36 character uuid, a colon, intervals separated by colons. -/
def EntryText (e : Uuid × List Interval) (s : RStr) : Prop :=
  UuidOk e.1 ∧ e.1.uuid.length = 36 ∧ e.2 ≠ [] ∧
  ∃ toks, List.Forall₂ IntervalText e.2 toks ∧ s = e.1.uuid ++ ':' :: [':'].intercalate toks

/-- A whole set: entries separated by commas, blanks around entries, newlines anywhere. -/
def SetText (es : List (Uuid × List Interval)) (t : RStr) : Prop :=
  es ≠ [] ∧ ∃ parts, List.Forall₂ (fun e p => ∃ l s r, p = l ++ s ++ r ∧ (∀ c ∈ l, Blank c) ∧ (∀ c ∈ r, Blank c) ∧
    EntryText e s) es parts ∧ t.filter (· ≠ '\n') = [','].intercalate parts

/-- MariaDB: `domain-server-sequence`. -/
def MGtidText (g : MGtid) (s : RStr) : Prop :=
  ∃ a b c, Decimal g.domainId a ∧ Decimal g.serverId b ∧ Decimal g.sequence c ∧ s = a ++ '-' :: (b ++ '-' :: c)

/-- MariaDB: GTIDs separated by commas, blanks around them, newlines anywhere. -/
def ListText (gs : List MGtid) (t : RStr) : Prop :=
  gs ≠ [] ∧ ∃ parts, List.Forall₂ (fun g p => ∃ l s r, p = l ++ s ++ r ∧ (∀ c ∈ l, Blank c) ∧ (∀ c ∈ r, Blank c) ∧
    MGtidText g s) gs parts ∧ t.filter (· ≠ '\n') = [','].intercalate parts

/-- The fields are values of their Rust types. -/
def MGtidRange (g : MGtid) : Prop := g.domainId < 2 ^ 32 ∧ g.serverId < 2 ^ 32 ∧ g.sequence < 2 ^ 64

/-- `p` is one of the parts into which the separator cuts `t`. -/
def IsPart (sep : Char) (t p : RStr) : Prop :=
  sep ∉ p ∧ ∃ a b, t = a ++ p ++ b ∧ (a = [] ∨ ∃ a', a = a' ++ [sep]) ∧ (b = [] ∨ ∃ b', b = sep :: b')

/-- `q` is `p` without the blanks at both ends. -/
def Trimmed (p q : RStr) : Prop :=
  (∃ l r, p = l ++ q ++ r ∧ (∀ c ∈ l, Blank c) ∧ (∀ c ∈ r, Blank c)) ∧
  (∀ c, q.head? = some c → ¬ Blank c) ∧ (∀ c, q.getLast? = some c → ¬ Blank c)

end MysqlCdc.Spec
