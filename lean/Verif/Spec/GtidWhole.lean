import Verif.Spec.GtidSet
/-!
# Adding a transaction to a MySQL GTID set, over the whole range of 64-bit ids

No server issues the id `u64::MAX`, but the library's parsers accept it. Here is said where that makes a difference.
-/

namespace MysqlCdc.Spec

/-- The largest id of 64 bits. -/
def topId : Nat := 2 ^ 64 - 1

/-- All ids fit 64 bits. -/
def Fits64 (ivs : List Interval) : Prop := ∀ iv ∈ ivs, iv.end ≤ topId

/-- The last interval goes up to `u64::MAX`, all others end before `t`, and `t` is not the id just in front of the last one. -/
def HitsTop (ivs : List Interval) (t : Nat) : Prop :=
  ∃ front s, ivs = front ++ [⟨s, topId⟩] ∧ (∀ iv ∈ front, iv.end < t) ∧ s ≠ t + 1

/-- What a sum that wraps around makes of the intervals when `t` is added: adding 0 to one interval up to `u64::MAX` empties it
(or leaves only 0), adding `u64::MAX` to the set of all ids leaves only `u64::MAX`. -/
inductive Wraps : List Interval → Nat → List Interval → Prop where
  | zero {s : Nat} : s ≠ 1 → Wraps [⟨s, topId⟩] 0 [⟨s, 0⟩]
  | top : Wraps [⟨0, topId⟩] topId [⟨topId, topId⟩]

/-- The intervals of the server named by the text. -/
def IvsFor (g : GtidSet) (server : RStr) (ivs : List Interval) : Prop :=
  (∃ s, (server, s) ∈ g.uuidSets ∧ s.intervals = ivs) ∨ ((∀ s, (server, s) ∉ g.uuidSets) ∧ ivs = [])

end MysqlCdc.Spec
