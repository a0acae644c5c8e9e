import Verif.Spec.GtidGrammar
/-!
# With which error a GTID text is refused
-/

namespace MysqlCdc.Spec

/-- No number of `bits` bits. -/
def NoNumber (bits : Nat) (s : RStr) : Prop := ∀ n, ¬ Number bits n s

/-! ## MySQL -/

/-- An interval is refused because one of its one or two components is no number, or because it has three components or more. -/
inductive RefusedInterval (s : RStr) : Err → Prop
  | number (cs : List RStr) (c : RStr) : Cut '-' s cs → cs.length ≤ 2 → c ∈ cs → NoNumber 64 c → RefusedInterval s .parseInt
  | shape (cs : List RStr) : Cut '-' s cs → 3 ≤ cs.length → RefusedInterval s (.str "Invalid interval format")

/-- One server is refused because its first 36 characters are not an even number of hexadecimal digits between dashes, or else
because of its first bad interval. -/
inductive RefusedEntry (q : RStr) : Err → Prop
  | uuid : (¬ ∃ data, HexOf (q.take 36) data) → RefusedEntry q .fromHex
  | interval (data : Bytes) (pre : List RStr) (s : RStr) (post : List RStr) (e : Err) :
      HexOf (q.take 36) data → 16 ≤ data.length → Cut ':' (q.drop 37) (pre ++ s :: post) →
      (∀ p ∈ pre, ∃ iv, LooseInterval iv p) → RefusedInterval s e → RefusedEntry q e

/-! ## MariaDB -/

/-- The width of the `i`-th component of a GTID: domain, server, sequence. -/
def componentBits (i : Nat) : Nat := if i = 2 then 64 else 32

/-- A GTID is refused because one of its first three components (of those it has) is no number, or because its domain was seen
before. -/
inductive RefusedMGtid (seen : List Nat) (q : RStr) : Err → Prop
  | number (cs : List RStr) (i : Nat) (c : RStr) : Cut '-' q cs → i < 3 → cs[i]? = some c → NoNumber (componentBits i) c →
      RefusedMGtid seen q .parseInt
  | domain (g : MGtid) : LooseMGtid g q → g.domainId ∈ seen →
      RefusedMGtid seen q (.str "GtidList must consist of unique domain ids")

end MysqlCdc.Spec
