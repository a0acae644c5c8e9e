import Verif.Spec.Tables
/-!
# Row images that do not show all columns

With `binlog_row_image=MINIMAL` or `NOBLOB` the log shows of a row that is deleted or updated the columns that tell it from the others, of a new
row those that were given a value, and of an updated row those that were set.
-/

namespace MysqlCdc.Spec

/-- What is seen of a row when some columns are shown. -/
def pick {α : Type} (nothing : α) (shown : List Bool) (row : List α) : List α := List.zipWith (fun b x => if b then x else nothing) shown row

/-- The shown columns of one row, the other columns of another. -/
def merge {α : Type} (shown : List Bool) (new old : List α) : List α := List.zipWith (fun b (x : α × α) => if b then x.1 else x.2) shown (new.zip old)

/-- `Only key rest row`: the columns of the key tell `row` from the rows `rest`, but for rows that are equal to it altogether. -/
def Only (key : List Bool) (rest : List (List Stored)) (row : List Stored) : Prop := ∀ r ∈ rest, pick .absent key r = pick .absent key row → r = row

/-- The columns of the key are among those shown. -/
def Covers (key shown : List Bool) : Prop := List.Forall₂ (fun k s => k = true → s = true) key shown

/-- Rows are deleted one after the other. -/
inductive PickedOut (key : List Bool) :
    List (List Stored) → List (List Stored) → List (List Stored) → Prop where
  | nil {rows rows' : List (List Stored)} (h : rows.Perm rows') : PickedOut key rows [] rows'
  | cons {rows rest gone rows' : List (List Stored)} {row : List Stored} (h : rows.Perm (row :: rest)) (ho : Only key rest row)
      (ht : PickedOut key rest gone rows') : PickedOut key rows (row :: gone) rows'

/-- Rows are updated one after the other. Columns that are not shown afterwards stay as they are. -/
inductive SetIn (key after : List Bool) :
    List (List Stored) → List (List Stored × List Stored) → List (List Stored) → Prop where
  | nil {rows rows' : List (List Stored)} (h : rows.Perm rows') : SetIn key after rows [] rows'
  | cons {rows rest rows' : List (List Stored)} {pair : List Stored × List Stored} {pairs : List (List Stored × List Stored)}
      (h : rows.Perm (pair.1 :: rest)) (ho : Only key rest pair.1) (hk : merge after pair.2 pair.1 = pair.2)
      (ht : SetIn key after (pair.2 :: rest) pairs rows') : SetIn key after rows (pair :: pairs) rows'

/-- As `Change`, with images that show some columns, at least one. Of a row that is deleted or updated, the image shows at least the columns of the `key`
of the table; a table without a key has all columns for its key. A new row has `defaults` in the columns that are not shown. -/
inductive PartChange (columns : TableName → List (UInt8 × Nat)) (key : TableName → List Bool)
    (defaults : TableName → List Stored) (s : Server) : EventHeader × Bytes → List (TableName × List Stored) → Server → Prop where
  | insert {h : EventHeader} {body slice : Bytes} {version tableId flags : Nat} {shown : List Bool} {table : TableName}
      {rows rows' : List (List Stored)} {s' : Server} (ht : version = 1 ∧ h.eventType = 23 ∨ version = 2 ∧ h.eventType = 30)
      (hid : s.names tableId = some table) (hp : true ∈ shown) (hd : ∀ row ∈ rows, Stored.absent ∉ row ∧ merge shown row (defaults table) = row)
      (hb : StoredRows version (columns table) tableId flags shown (rows.map (pick .absent shown)) body)
      (hs : WithChecksum s.log.checksum body slice) (hr : rows'.Perm (s.rows table ++ rows)) (hs' : s.Sets table rows' s') :
      PartChange columns key defaults s (h, slice) (rows.map fun r => (table, pick .absent shown r)) s'
  | delete {h : EventHeader} {body slice : Bytes} {version tableId flags : Nat} {shown : List Bool} {table : TableName}
      {rows rows' : List (List Stored)} {s' : Server} (ht : version = 1 ∧ h.eventType = 25 ∨ version = 2 ∧ h.eventType = 32)
      (hid : s.names tableId = some table) (hp : true ∈ shown) (hk : Covers (key table) shown)
      (hb : StoredRows version (columns table) tableId flags shown (rows.map (pick .absent shown)) body)
      (hs : WithChecksum s.log.checksum body slice) (hr : PickedOut (key table) (s.rows table) rows rows')
      (hs' : s.Sets table rows' s') : PartChange columns key defaults s (h, slice) (rows.map fun r => (table, pick .absent shown r)) s'
  | update {h : EventHeader} {body slice : Bytes} {version tableId flags : Nat} {before after : List Bool} {table : TableName}
      {pairs : List (List Stored × List Stored)} {rows' : List (List Stored)} {s' : Server}
      (ht : version = 1 ∧ h.eventType = 24 ∨ version = 2 ∧ h.eventType = 31) (hid : s.names tableId = some table)
      (hp : true ∈ before) (hk : Covers (key table) before)
      (ha : ∀ pair ∈ pairs, Stored.absent ∉ pair.2)
      (hb : StoredUpdates version (columns table) tableId flags before after
        (pairs.map fun p => (pick .absent before p.1, pick .absent after p.2)) body)
      (hs : WithChecksum s.log.checksum body slice) (hr : SetIn (key table) after (s.rows table) pairs rows')
      (hs' : s.Sets table rows' s') :
      PartChange columns key defaults s (h, slice) (pairs.flatMap fun p => [(table, pick .absent before p.1), (table, pick .absent after p.2)]) s'
  | announce {h : EventHeader} {slice : Bytes} {t : TableMapEvent} {log : LogState} (hw : Written s.log (h, .tableMap t) slice log)
      (hd : Describes t (columns (t.databaseName, t.tableName))) :
      PartChange columns key defaults s (h, slice) []
        { s with log := log, names := fun id => if id = t.tableId then some (t.databaseName, t.tableName) else s.names id }
  | other {h : EventHeader} {e : BinlogEvent} {slice : Bytes} {log : LogState} (hw : Written s.log (h, e) slice log) (he : NoRows e) :
      PartChange columns key defaults s (h, slice) [] { s with log := log }

/-- One record after the other. -/
inductive PartChanges (columns : TableName → List (UInt8 × Nat)) (key : TableName → List Bool)
    (defaults : TableName → List Stored) : Server → List (EventHeader × Bytes) → List (TableName × List Stored) → Server → Prop where
  | nil {s : Server} : PartChanges columns key defaults s [] [] s
  | cons {s s1 s2 : Server} {record : EventHeader × Bytes} {records : List (EventHeader × Bytes)} {images images' : List (TableName × List Stored)}
      (hf : HeaderFits record.1) (h : PartChange columns key defaults s record images s1)
      (ht : PartChanges columns key defaults s1 records images' s2) :
      PartChanges columns key defaults s (record :: records) (images ++ images') s2

/-- A key that the library sees whole: its columns hold no more than milliseconds, or it is all columns. -/
def KeySeen (columns : List (UInt8 × Nat)) (key : List Bool) : Prop := (∀ c ∈ columns.zip key, c.2 = true → Millis [c.1]) ∨ ∀ b ∈ key, b = true

/-- The row of a copy that has the cells of an image. -/
def seek (shown : List Bool) (cells : List (Option MySqlValue)) (rows : List (List (Option MySqlValue))) : Option (List (Option MySqlValue)) :=
  rows.find? fun r => pick none shown r = cells

/-- What the reader does with an event. It looks for the row that has the cells of the image, and fills up new rows with `defaults`. -/
def Kept.takePart (defaults : TableName → List (Option MySqlValue)) (c : Kept) : BinlogEvent → Kept
  | .writeRows e => c.onTable e.tableId fun rows => rows ++ e.rows.map fun r => merge e.columnsPresent r.cells (((c.names e.tableId).map defaults).getD [])
  | .deleteRows e => c.onTable e.tableId fun rows => e.rows.foldl (fun rows r =>
      match seek e.columnsPresent r.cells rows with
      | some x => rows.erase x
      | none => rows) rows
  | .updateRows e => c.onTable e.tableId fun rows => e.rows.foldl (fun rows u =>
      match seek e.columnsBeforeUpdate u.beforeUpdate.cells rows with
      | some x => merge e.columnsAfterUpdate u.afterUpdate.cells x :: rows.erase x
      | none => rows) rows
  | e => c.take e

def Kept.takeParts (defaults : TableName → List (Option MySqlValue)) (c : Kept) (events : List Ev) : Kept :=
  events.foldl (fun c e => c.takePart defaults e.2) c

/-- What the reader does with the events of a transaction, see `Kept.transaction`. -/
def Kept.transactionPart (defaults : TableName → List (Option MySqlValue)) (c : Kept) (events : List Ev) : Kept :=
  Kept.takeParts defaults { c with names := fun _ => none } events

/-- As `History`. -/
inductive PartHistory {γ : Type} (columns : TableName → List (UInt8 × Nat)) (key : TableName → List Bool) (defaults : TableName → List Stored) :
    (TableName → List (List Stored)) → List (γ × List Ev) → (TableName → List (List Stored)) → Prop where
  | nil {rows : TableName → List (List Stored)} : PartHistory columns key defaults rows [] rows
  | cons {rows rows' : TableName → List (List Stored)} {g : γ} {es : List Ev} {txs : List (γ × List Ev)} {checksum : ChecksumType} {slices : List Bytes}
      {st : LogState} {images : List (TableName × List Stored)} {s : Server} (hw : LogOf (.start checksum) es slices st)
      (hc : PartChanges columns key defaults ⟨.start checksum, fun _ => none, rows⟩ ((es.map (·.1)).zip slices) images s)
      (ht : PartHistory columns key defaults s.rows txs rows') : PartHistory columns key defaults rows ((g, es) :: txs) rows'

end MysqlCdc.Spec
