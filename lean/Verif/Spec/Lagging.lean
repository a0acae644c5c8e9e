import Verif.Spec.Copy
/-!
# Applications whose commits lag behind what they have applied

An application may stop, or lose its connection, when it has applied transactions that it has not committed yet. It gets them again.
-/

namespace MysqlCdc.Spec

/-- Transactions that are given again until they are recorded. Of those that wait, each run gives some first ones (`recorded` and `more`), of which some
first ones are recorded; the others wait for the next run. -/
inductive Redelivered {α : Type} : (waiting : List α) → (runs : List (List α)) → (left : List α) → Prop where
  | stop {waiting : List α} : Redelivered waiting [] waiting
  | run {recorded more rest : List α} {runs : List (List α)} {left : List α} (h : Redelivered (more ++ rest) runs left) :
      Redelivered (recorded ++ more ++ rest) ((recorded ++ more) :: runs) left

/-- A transaction writes values into some places of the data, whatever they held, and leaves the others. -/
def Overwrites {K V : Type} (apply : (K → V) → List Ev → K → V) (es : List Ev) : Prop :=
  ∀ k, (∃ v, ∀ d, apply d es k = v) ∨ ∀ d, apply d es k = d k

end MysqlCdc.Spec
