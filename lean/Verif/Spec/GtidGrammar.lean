import Verif.Spec.GtidText
/-!
# Which texts are GTID texts, exactly

The grammar of everything the GTID parsers accept, including what no server writes: a plus sign before a number, any character
in the place of the colon after the uuid, a fourth component of a MariaDB GTID.
-/

namespace MysqlCdc.Spec

/-- Cutting `t` at every separator gives `ps`. -/
def Cut (sep : Char) (t : RStr) (ps : List RStr) : Prop := ps ≠ [] ∧ (∀ p ∈ ps, sep ∉ p) ∧ t = [sep].intercalate ps

/-- A number that fits in `bits` bits, in decimal, perhaps after a plus sign. -/
def Number (bits n : Nat) (s : RStr) : Prop := n < 2 ^ bits ∧ (Decimal n s ∨ ∃ d, Decimal n d ∧ s = '+' :: d)

/-- Newlines left out, cut at commas, blanks around the parts left out. -/
def Cleaned (t : RStr) (qs : List RStr) : Prop := ∃ ps, Cut ',' (t.filter (· ≠ '\n')) ps ∧ List.Forall₂ Trimmed ps qs

/-! ## MySQL -/

/-- One interval: a number or two. -/
def LooseInterval (iv : Interval) (s : RStr) : Prop :=
  (iv.start = iv.end ∧ Number 64 iv.start s) ∨ ∃ a b, Number 64 iv.start a ∧ Number 64 iv.end b ∧ s = a ++ '-' :: b

/-- One server: the first 36 characters name it, the 37th is ignored, from the 38th on come intervals separated by colons. -/
def LooseEntry (e : Uuid × List Interval) (s : RStr) : Prop :=
  e.1.uuid = s.take 36 ∧ UuidOk e.1 ∧ ∃ toks, Cut ':' (s.drop 37) toks ∧ List.Forall₂ LooseInterval e.2 toks

/-- The first 36 characters are hexadecimal digits, an even number of them, but fewer than 32. -/
def ShortUuid (s : RStr) : Prop := ∃ data, HexOf (s.take 36) data ∧ data.length < 16

/-! ## MariaDB -/

/-- Three numbers; a fourth component and what follows it are ignored. -/
def LooseMGtid (g : MGtid) (s : RStr) : Prop :=
  ∃ a b c, Number 32 g.domainId a ∧ Number 32 g.serverId b ∧ Number 64 g.sequence c ∧
    (s = a ++ '-' :: (b ++ '-' :: c) ∨ ∃ rest, s = a ++ '-' :: (b ++ '-' :: (c ++ '-' :: rest)))

/-- One number or two, where a GTID has three. -/
def ShortMGtid (s : RStr) : Prop :=
  (∃ d, Number 32 d s) ∨ ∃ d n a b, Number 32 d a ∧ Number 32 n b ∧ s = a ++ '-' :: b

end MysqlCdc.Spec
