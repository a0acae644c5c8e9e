import Verif.Spec.Stream
import Verif.Spec.Decoder
import Verif.Spec.Rows
/-!
# A log as the master writes it

What follows the header of each event, given what the log said before: the checksum algorithm in force, and the columns of the
tables that were announced.
-/

namespace MysqlCdc.Spec

/-- What the log has said so far. -/
structure LogState where
  checksum : ChecksumType
  columns : Nat → Option (List (UInt8 × Nat))

/-- The state after a table map event. -/
def LogState.announce (st : LogState) (tableId : Nat) (columns : List (UInt8 × Nat)) : LogState :=
  { st with columns := fun id => if id = tableId then some columns else st.columns id }

/-- `Written st (h, e) slice st'`: in state `st`, the event `e` with header `h` is written as `slice` after the header (body and
checksum), and then the state is `st'`. -/
inductive Written (st : LogState) : Ev → Bytes → LogState → Prop where
  /-- Statements, rotation, XID, heartbeat, MySQL GTID, ... -/
  | plain {h : EventHeader} {e : BinlogEvent} {body slice : Bytes} (hb : PlainBody h.eventType e body)
      (hs : WithChecksum st.checksum body slice) : Written st (h, e) slice st
  /-- MariaDB GTID and GTID list. -/
  | maria {h : EventHeader} {e : BinlogEvent} {body slice : Bytes} (hb : MariaBody h h.eventType e body)
      (hs : WithChecksum st.checksum body slice) : Written st (h, e) slice st
  /-- PREVIOUS_GTIDS_LOG_EVENT (35). -/
  | previousGtids {h : EventHeader} {sets : List (Bytes × List Interval)} {extra slice : Bytes} (ht : h.eventType = 35)
      (hf : GtidSetFits sets) (hn : (sets.map (·.1)).Nodup) (hs : WithChecksum st.checksum (gtidSetBytes sets ++ extra) slice) :
      Written st (h, .mySqlPrevGtids ⟨⟨sets.map fun s => (uuidText s.1, ⟨⟨s.1, uuidText s.1⟩, s.2⟩)⟩⟩) slice st
  /-- FORMAT_DESCRIPTION_EVENT (15): sets the checksum algorithm. Servers write fewer than 256 bytes. -/
  | format {h : EventHeader} {known : Bool} {e : FormatDescriptionEvent} {body : Bytes} (ht : h.eventType = 15)
      (hb : FormatBody known e body) (hl : h.eventLength = 19 + body.length) (hl' : h.eventLength < 256)
      (hk : st.checksum = .crc32 → known = true) :
      Written st (h, .formatDescription e) body { st with checksum := e.checksumType }
  /-- TABLE_MAP_EVENT (19): announces the columns of a table. -/
  | tableMap {h : EventHeader} {tableId : Nat} {db table : RStr} {columns : List (UInt8 × Nat)} {nulls : List Bool}
      {fields : List MetaField} {md : Option TableMetadata} {body slice : Bytes} (ht : h.eventType = 19)
      (hb : TableMapBody tableId db table columns nulls fields body) (hs : WithChecksum st.checksum body slice)
      (hm : fields = [] ∧ md = none ∨ fields ≠ [] ∧ ∃ r, md = some r ∧ MetaOf fields r) :
      Written st (h, .tableMap ⟨tableId, db, table, columns.map (·.1), columns.map (·.2), nulls, md⟩) slice
        (st.announce tableId columns)
  /-- WRITE_ROWS_EVENT (23, 30). -/
  | writeRows {h : EventHeader} {version tableId flags : Nat} {columns : List (UInt8 × Nat)} {present : List Bool}
      {rows : List (List ColState)} {body slice : Bytes} (ht : version = 1 ∧ h.eventType = 23 ∨ version = 2 ∧ h.eventType = 30)
      (hc : st.columns tableId = some columns) (hp : true ∈ present ∨ rows = [])
      (hb : RowsBody version columns tableId flags present rows body) (hs : WithChecksum st.checksum body slice) :
      Written st (h, .writeRows ⟨tableId, flags, columns.length, present, rows.map fun r => ⟨r.map ColState.cell⟩⟩) slice st
  /-- DELETE_ROWS_EVENT (25, 32). -/
  | deleteRows {h : EventHeader} {version tableId flags : Nat} {columns : List (UInt8 × Nat)} {present : List Bool}
      {rows : List (List ColState)} {body slice : Bytes} (ht : version = 1 ∧ h.eventType = 25 ∨ version = 2 ∧ h.eventType = 32)
      (hc : st.columns tableId = some columns) (hp : true ∈ present ∨ rows = [])
      (hb : RowsBody version columns tableId flags present rows body) (hs : WithChecksum st.checksum body slice) :
      Written st (h, .deleteRows ⟨tableId, flags, columns.length, present, rows.map fun r => ⟨r.map ColState.cell⟩⟩) slice st
  /-- UPDATE_ROWS_EVENT (24, 31). -/
  | updateRows {h : EventHeader} {version tableId flags : Nat} {columns : List (UInt8 × Nat)} {before after : List Bool}
      {rows : List (List ColState × List ColState)} {body slice : Bytes}
      (ht : version = 1 ∧ h.eventType = 24 ∨ version = 2 ∧ h.eventType = 31)
      (hc : st.columns tableId = some columns) (hp : true ∈ before ∨ true ∈ after ∨ rows = [])
      (hb : UpdateRowsBody version columns tableId flags before after rows body) (hs : WithChecksum st.checksum body slice) :
      Written st (h, .updateRows ⟨tableId, flags, columns.length, before, after,
        rows.map fun r => ⟨⟨r.1.map ColState.cell⟩, ⟨r.2.map ColState.cell⟩⟩⟩) slice st
  /-- An event of a type the library does not decode. -/
  | unknown {h : EventHeader} {body slice : Bytes} (ht : h.eventType ∉ decodedTypes) (hs : WithChecksum st.checksum body slice) :
      Written st (h, .unknown) slice st

/-- `LogOf st events slices st'`: the events are written, one after the other, as the slices. -/
inductive LogOf : LogState → List Ev → List Bytes → LogState → Prop where
  | nil {st : LogState} : LogOf st [] [] st
  | cons {st st1 st2 : LogState} {e : Ev} {slice : Bytes} {es : List Ev} {slices : List Bytes} (hf : HeaderFits e.1)
      (h : Written st e slice st1) (ht : LogOf st1 es slices st2) : LogOf st (e :: es) (slice :: slices) st2

/-- The state before the first event, when the algorithm is `checksum`. -/
def LogState.start (checksum : ChecksumType) : LogState := ⟨checksum, fun _ => none⟩

/-- The packets of events: status byte 0, header, slice; `n` is the sequence number of the first packet. -/
def eventPackets : Nat → List Ev → List Bytes → List (Bytes × Nat)
  | n, e :: es, slice :: slices => (0x00 :: (headerBytes e.1 ++ slice), n % 256) :: eventPackets (n + 1) es slices
  | _, _, _ => []

end MysqlCdc.Spec
