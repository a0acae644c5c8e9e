import Verif.Spec.Stream
/-!
# Committing only some of the events of a transaction

Only data types of the model are used.
-/

namespace MysqlCdc.Spec

/-- The first and the last event of a transaction. -/
def firstAndLast : List Ev → List Ev
  | [] => []
  | [e] => [e]
  | e :: es => e :: es.getLast?.toList

/-- The last event of a transaction. -/
def lastAlone (es : List Ev) : List Ev := es.getLast?.toList

/-- The same choice made in every transaction of a stream; the events between transactions are kept. -/
def Part.choose {γ : Type} (f : List Ev → List Ev) : Part γ → Part γ
  | .tx g es => .tx g (f es)
  | .noise e => .noise e

/-- A transaction within one log file whose last event says where it ends: servers rotate only between transactions, and give every
event of a log file its position. -/
def InOneFile (es : List Ev) : Prop :=
  (∀ p ∈ es, ∀ r, p.2 ≠ .rotate r) ∧ ∀ p ∈ es.getLast?, p.1.nextEventPosition > 0

/-- All transactions of a stream are such. -/
def Part.InFile {γ : Type} : Part γ → Prop
  | .tx _ es => InOneFile es
  | .noise _ => True

/-- Of the first `k` events of a stream those that are first or last in their transaction or lie between transactions. -/
def firstAndLastOf {γ : Type} : Nat → List (Part γ) → List Ev
  | _, [] => []
  | k, p :: ps =>
    if p.events.length ≤ k then (p.choose firstAndLast).events ++ firstAndLastOf (k - p.events.length) ps
    else (p.events.take k).take 1

end MysqlCdc.Spec
