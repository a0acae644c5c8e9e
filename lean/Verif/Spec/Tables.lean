import Verif.Spec.Stored
import Verif.Spec.Written
import Mathlib.Data.List.Forall2
/-!
# A server's tables and a copy of them

The server holds tables: bags of rows. Its log has a record for each change: rows inserted, deleted or updated, with all columns
(`binlog_row_image=FULL`), after a table map event that gives the table's name and columns under a number. The reader of the log keeps a copy
of the tables by doing to it what the decoded events say.
-/

namespace MysqlCdc.Spec

/-- A database's name and a table's name. -/
abbrev TableName := RStr × RStr

/-- The server while it writes its log: what the log has said so far, the tables the log's numbers stand for, and the rows of the tables. The
order of the rows does not matter. -/
structure Server where
  log : LogState
  names : Nat → Option TableName
  rows : TableName → List (List Stored)

/-- A change of the rows of one table. -/
def Server.Sets (s : Server) (table : TableName) (rows : List (List Stored)) (s' : Server) : Prop :=
  s' = { s with rows := fun t => if t = table then rows else s.rows t }

/-- Updates are done one after the other. -/
inductive Updated : List (List Stored) → List (List Stored × List Stored) → List (List Stored) → Prop where
  | nil {rows rows' : List (List Stored)} (h : rows.Perm rows') : Updated rows [] rows'
  | cons {rows rest rows' : List (List Stored)} {pair : List Stored × List Stored} {pairs : List (List Stored × List Stored)}
      (h : rows.Perm (pair.1 :: rest)) (ht : Updated (pair.2 :: rest) pairs rows') : Updated rows (pair :: pairs) rows'

/-- Events that do not speak of rows. -/
def NoRows : BinlogEvent → Prop
  | .tableMap _ | .writeRows _ | .deleteRows _ | .updateRows _ => False
  | _ => True

/-- `Change columns s (h, slice) images s'`: the server in state `s` writes a record with header `h` and what follows it, `slice`, and then is in
state `s'`. `images` are the rows that the record shows. `columns` are the columns of the tables: they stay the same. -/
inductive Change (columns : TableName → List (UInt8 × Nat)) (s : Server) : EventHeader × Bytes → List (TableName × List Stored) → Server → Prop where
  | announce {h : EventHeader} {slice : Bytes} {t : TableMapEvent} {log : LogState} (hw : Written s.log (h, .tableMap t) slice log)
      (hd : Describes t (columns (t.databaseName, t.tableName))) :
      Change columns s (h, slice) []
        { s with log := log, names := fun id => if id = t.tableId then some (t.databaseName, t.tableName) else s.names id }
  | insert {h : EventHeader} {body slice : Bytes} {version tableId flags : Nat} {table : TableName} {rows rows' : List (List Stored)} {s' : Server}
      (ht : version = 1 ∧ h.eventType = 23 ∨ version = 2 ∧ h.eventType = 30) (hid : s.names tableId = some table)
      (hb : StoredRows version (columns table) tableId flags (List.replicate (columns table).length true) rows body)
      (hs : WithChecksum s.log.checksum body slice) (hr : rows'.Perm (s.rows table ++ rows)) (hs' : s.Sets table rows' s') :
      Change columns s (h, slice) (rows.map fun r => (table, r)) s'
  | delete {h : EventHeader} {body slice : Bytes} {version tableId flags : Nat} {table : TableName} {rows rows' : List (List Stored)} {s' : Server}
      (ht : version = 1 ∧ h.eventType = 25 ∨ version = 2 ∧ h.eventType = 32) (hid : s.names tableId = some table)
      (hb : StoredRows version (columns table) tableId flags (List.replicate (columns table).length true) rows body)
      (hs : WithChecksum s.log.checksum body slice) (hr : (s.rows table).Perm (rows' ++ rows)) (hs' : s.Sets table rows' s') :
      Change columns s (h, slice) (rows.map fun r => (table, r)) s'
  | update {h : EventHeader} {body slice : Bytes} {version tableId flags : Nat} {table : TableName} {pairs : List (List Stored × List Stored)}
      {rows' : List (List Stored)} {s' : Server} (ht : version = 1 ∧ h.eventType = 24 ∨ version = 2 ∧ h.eventType = 31)
      (hid : s.names tableId = some table)
      (hb : StoredUpdates version (columns table) tableId flags (List.replicate (columns table).length true)
        (List.replicate (columns table).length true) pairs body)
      (hs : WithChecksum s.log.checksum body slice) (hr : Updated (s.rows table) pairs rows') (hs' : s.Sets table rows' s') :
      Change columns s (h, slice) (pairs.flatMap fun p => [(table, p.1), (table, p.2)]) s'
  /-- Begin and end of transactions, rotation, heartbeat, ...: nothing changes. -/
  | other {h : EventHeader} {e : BinlogEvent} {slice : Bytes} {log : LogState} (hw : Written s.log (h, e) slice log) (he : NoRows e) :
      Change columns s (h, slice) [] { s with log := log }

/-- One record after the other. -/
inductive Changes (columns : TableName → List (UInt8 × Nat)) : Server → List (EventHeader × Bytes) → List (TableName × List Stored) → Server → Prop where
  | nil {s : Server} : Changes columns s [] [] s
  | cons {s s1 s2 : Server} {record : EventHeader × Bytes} {records : List (EventHeader × Bytes)} {images images' : List (TableName × List Stored)}
      (hf : HeaderFits record.1) (h : Change columns s record images s1) (ht : Changes columns s1 records images' s2) :
      Changes columns s (record :: records) (images ++ images') s2

/-- The packets of records, see `eventPackets`. -/
def recordPackets : Nat → List (EventHeader × Bytes) → List (Bytes × Nat)
  | _, [] => []
  | n, r :: rs => (0x00 :: (headerBytes r.1 ++ r.2), n % 256) :: recordPackets (n + 1) rs

/-- The copy that the reader keeps. -/
structure Kept where
  names : Nat → Option TableName
  rows : TableName → List (List (Option MySqlValue))

def Kept.onTable (c : Kept) (id : Nat) (f : List (List (Option MySqlValue)) → List (List (Option MySqlValue))) : Kept :=
  match c.names id with
  | some table => { c with rows := fun t => if t = table then f (c.rows t) else c.rows t }
  | none => c

/-- What the reader does with an event: it does to its copy what the event says. -/
def Kept.take (c : Kept) : BinlogEvent → Kept
  | .tableMap t => { c with names := fun id => if id = t.tableId then some (t.databaseName, t.tableName) else c.names id }
  | .writeRows e => c.onTable e.tableId fun rows => rows ++ e.rows.map (·.cells)
  | .deleteRows e => c.onTable e.tableId fun rows => e.rows.foldl (fun rows r => rows.erase r.cells) rows
  | .updateRows e => c.onTable e.tableId fun rows =>
      e.rows.foldl (fun rows u => u.afterUpdate.cells :: rows.erase u.beforeUpdate.cells) rows
  | _ => c

def Kept.takeAll (c : Kept) (events : List Ev) : Kept := events.foldl (fun c e => c.take e.2) c

/-- The copy shows the rows of the server: the same number of rows in each table, and row for row the values that the library has for the stored ones. -/
def RowsShown (columns : TableName → List (UInt8 × Nat)) (rows : TableName → List (List Stored))
    (copy : TableName → List (List (Option MySqlValue))) : Prop :=
  ∀ t, ∃ shown, List.Forall₂ (fun row cells => Stored.absent ∉ row ∧ RowShown (columns t) row cells) (rows t) shown ∧ shown.Perm (copy t)

/-- The copy shows the tables of the server. -/
structure Shows (columns : TableName → List (UInt8 × Nat)) (s : Server) (c : Kept) : Prop where
  names : c.names = s.names
  rows : RowsShown columns s.rows c.rows

/-- What the reader does with the events of a transaction. A transaction names the tables that it speaks of; what their numbers were before does
not matter. -/
def Kept.transaction (c : Kept) (events : List Ev) : Kept := Kept.takeAll { c with names := fun _ => none } events

/-- `History columns rows txs rows'`: the transactions change the rows of the tables from `rows` to `rows'`. The records of a transaction are, on the
one hand, the written form of its events, on the other hand, what the server writes when it changes its tables so. -/
inductive History {γ : Type} (columns : TableName → List (UInt8 × Nat)) :
    (TableName → List (List Stored)) → List (γ × List Ev) → (TableName → List (List Stored)) → Prop where
  | nil {rows : TableName → List (List Stored)} : History columns rows [] rows
  | cons {rows rows' : TableName → List (List Stored)} {g : γ} {es : List Ev} {txs : List (γ × List Ev)} {checksum : ChecksumType} {slices : List Bytes}
      {st : LogState} {images : List (TableName × List Stored)} {s : Server} (hw : LogOf (.start checksum) es slices st)
      (hc : Changes columns ⟨.start checksum, fun _ => none, rows⟩ ((es.map (·.1)).zip slices) images s) (ht : History columns s.rows txs rows') :
      History columns rows ((g, es) :: txs) rows'

end MysqlCdc.Spec
