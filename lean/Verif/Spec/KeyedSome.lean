import Verif.Spec.Keyed
/-!
# A copy of some of the tables, kept by keys

The reader keeps the tables that it wants and does nothing with rows of other tables, which need not have keys.
-/

namespace MysqlCdc.Spec

variable {κ : Type} [DecidableEq κ]

/-- The tables that are wanted, the others empty. -/
def onlyTables (want : TableName → Bool) (rows : TableName → List Cells) : TableName → List Cells := fun t => if want t then rows t else []

/-- What the reader does with the events of a transaction. -/
def keyedSome (want : TableName → Bool) (key : TableName → Cells → κ) (data : Keyed κ) (es : List Ev) : Keyed κ :=
  ((changesOf (fun _ => none) es).filter fun c => want c.1).foldl (onKeys key) data

end MysqlCdc.Spec
