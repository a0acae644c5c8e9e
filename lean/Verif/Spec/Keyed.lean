import Verif.Spec.Tables
/-!
# A copy of the tables that is kept by keys

The reader keeps, for each table and each key, the row with that key. A row that is written takes the place of what was there under its key, a row that is
deleted leaves its key empty, whatever was there.
-/

namespace MysqlCdc.Spec

abbrev Cells := List (Option MySqlValue)

/-- What becomes of one row of a table. -/
inductive RowChange where
  | insert (row : Cells)
  | delete (row : Cells)
  | update (before after : Cells)

/-- What events say of rows, with the names that the table maps before them gave to the tables' numbers. -/
def changesOf (names : Nat → Option TableName) : List Ev → List (TableName × RowChange)
  | [] => []
  | (_, .tableMap t) :: es => changesOf (fun id => if id = t.tableId then some (t.databaseName, t.tableName) else names id) es
  | (_, .writeRows e) :: es => (names e.tableId).toList.flatMap (fun t => e.rows.map fun r => (t, .insert r.cells)) ++ changesOf names es
  | (_, .deleteRows e) :: es => (names e.tableId).toList.flatMap (fun t => e.rows.map fun r => (t, .delete r.cells)) ++ changesOf names es
  | (_, .updateRows e) :: es =>
    (names e.tableId).toList.flatMap (fun t => e.rows.map fun u => (t, .update u.beforeUpdate.cells u.afterUpdate.cells)) ++ changesOf names es
  | _ :: es => changesOf names es

/-- A table is a bag of rows. -/
def RowChange.onBag (rows : List Cells) : RowChange → List Cells
  | .insert r => rows ++ [r]
  | .delete r => rows.erase r
  | .update b a => a :: rows.erase b

def onBags (rows : TableName → List Cells) (c : TableName × RowChange) : TableName → List Cells :=
  fun t => if t = c.1 then c.2.onBag (rows t) else rows t

variable {κ : Type} [DecidableEq κ]

/-- The reader's places: the keys of the tables. -/
abbrev Keyed (κ : Type) := TableName × κ → Option Cells

def Keyed.set (data : Keyed κ) (t : TableName) (k : κ) (row : Option Cells) : Keyed κ := fun place => if place = (t, k) then row else data place

/-- What the reader does with a row. -/
def onKeys (key : TableName → Cells → κ) (data : Keyed κ) (c : TableName × RowChange) : Keyed κ :=
  match c.2 with
  | .insert r => data.set c.1 (key c.1 r) (some r)
  | .delete r => data.set c.1 (key c.1 r) none
  | .update b a => (data.set c.1 (key c.1 b) none).set c.1 (key c.1 a) (some a)

/-- What the reader does with the events of a transaction. -/
def keyedTransaction (key : TableName → Cells → κ) (data : Keyed κ) (es : List Ev) : Keyed κ := (changesOf (fun _ => none) es).foldl (onKeys key) data

/-- The changes are those of tables in which no two rows have the same key: a row that is inserted has a new key, and one that is deleted or updated is there. -/
def KeysHold (key : TableName → Cells → κ) : (TableName → List Cells) → List (TableName × RowChange) → Prop
  | _, [] => True
  | rows, c :: cs =>
    (match c.2 with
      | .insert r => key c.1 r ∉ (rows c.1).map (key c.1)
      | .delete r => r ∈ rows c.1
      | .update b a => b ∈ rows c.1 ∧ key c.1 a ∉ ((rows c.1).erase b).map (key c.1)) ∧ KeysHold key (onBags rows c) cs

/-- Under each key there is the row that has it, if there is one. -/
def Indexes (key : TableName → Cells → κ) (data : Keyed κ) (rows : TableName → List Cells) : Prop :=
  (∀ t, ((rows t).map (key t)).Nodup) ∧ ∀ t k r, data (t, k) = some r ↔ r ∈ rows t ∧ key t r = k

end MysqlCdc.Spec
