import Verif.Model.EventParser

/-!
# How large a row event is once decoded

Counted in the data that a client holds, not in bytes of memory: one for each cell, and what the cell holds.
-/

namespace MysqlCdc.Spec

/-- What a value holds besides itself: bytes of text and of blobs, bits, characters of a decimal number. The other values have a fixed
size. -/
def contentSize : MySqlValue → Nat
  | .decimal s => s.length
  | .string s => (utf8Bytes s).length
  | .bit bits => bits.length
  | .blob bytes => bytes.length
  | _ => 0

/-- What the values of a row hold. -/
def rowContent (row : RowData) : Nat := (row.cells.map fun c => (c.map contentSize).getD 0).sum

/-- A row: its cells, with a value or without, and what they hold. -/
def rowSize (row : RowData) : Nat := row.cells.length + rowContent row

/-- Of a row only what its image states: the cells of columns that are present. -/
def statedSize (present : List Bool) (row : RowData) : Nat := (present.take row.cells.length).count true + rowContent row

/-- The rows of an event, of updates both images. -/
def rowsOf : BinlogEvent → List RowData
  | .writeRows r => r.rows
  | .deleteRows r => r.rows
  | .updateRows r => r.rows.flatMap fun u => [u.beforeUpdate, u.afterUpdate]
  | _ => []

/-- The rows of an event together. -/
def decodedSize (event : BinlogEvent) : Nat := ((rowsOf event).map rowSize).sum

/-- What the images of an event state together. -/
def statedTotal : BinlogEvent → Nat
  | .writeRows r => (r.rows.map (statedSize r.columnsPresent)).sum
  | .deleteRows r => (r.rows.map (statedSize r.columnsPresent)).sum
  | .updateRows r =>
    (r.rows.map fun u => statedSize r.columnsBeforeUpdate u.beforeUpdate + statedSize r.columnsAfterUpdate u.afterUpdate).sum
  | _ => 0

/-- The table that the rows of an event belong to. -/
def rowTable : BinlogEvent → Option Nat
  | .writeRows r => some r.tableId
  | .deleteRows r => some r.tableId
  | .updateRows r => some r.tableId
  | _ => none

/-- All columns are present in all images of the event (`binlog_row_image=FULL`). -/
def FullImages : BinlogEvent → Prop
  | .writeRows r => ∀ b ∈ r.columnsPresent, b = true
  | .deleteRows r => ∀ b ∈ r.columnsPresent, b = true
  | .updateRows r => (∀ b ∈ r.columnsBeforeUpdate, b = true) ∧ ∀ b ∈ r.columnsAfterUpdate, b = true
  | _ => True

end MysqlCdc.Spec
