import Verif.Model.EventParser
/-!
# The memory that the decoder asks for

The functions of the decoder once more, now with the sizes that they ask the allocator for because a length field or a column count says so: `vec![..; n]` and
`Vec::with_capacity(n)`. Simplified: vectors and strings that grow with what is read (`push`, `read_to_string`, `format!`) are left out, and every request is
granted. Lemmas/Memory proves that these functions return what those without sizes do.
-/

namespace MysqlCdc

/-- A parser, also giving the sizes in bytes that it asked for. -/
def PM (α : Type) : Type := Bytes → Nat → Res (α × Nat) × List Nat

namespace PM

def ret {α : Type} (a : α) : PM α := fun _ pos => (.ok (a, pos), [])

def seq {α β : Type} (p : PM α) (f : α → PM β) : PM β := fun buf pos =>
  match p buf pos with
  | (.ok (a, pos'), sizes) => ((f a buf pos').1, sizes ++ (f a buf pos').2)
  | (.err e, sizes) => (.err e, sizes)
  | (.panic, sizes) => (.panic, sizes)
  | (.hang, sizes) => (.hang, sizes)

instance : Monad PM where
  pure := ret
  bind := seq

/-- A parser that asks for no memory. -/
def free {α : Type} (p : P α) : PM α := fun buf pos => (p buf pos, [])

/-- `vec![0; n]`: `capacity overflow` panics above `isize::MAX` before anything is asked for. -/
def alloc (n : Nat) : PM Unit := fun _ pos => if n < 2 ^ 63 then (.ok ((), pos), [n]) else (.panic, [])

/-- `vec![0; n]` where `n` is the size of a vector that exists already, or a multiple of it. -/
def request (n : Nat) : PM Unit := fun _ pos => (.ok ((), pos), [n])

/-- `Cursor::new(bytes)` and a parser on it. -/
def within {α : Type} (p : PM α) (bytes : Bytes) : PM α := fun _ pos =>
  match p bytes 0 with
  | (.ok (a, _), sizes) => (.ok (a, pos), sizes)
  | (.err e, sizes) => (.err e, sizes)
  | (.panic, sizes) => (.panic, sizes)
  | (.hang, sizes) => (.hang, sizes)

/-- `while cursor.position() < cursor.get_ref().len() as u64 { v.push(body) }` -/
def whileData {α : Type} (body : PM α) (buf : Bytes) (pos : Nat) : Res (List α × Nat) × List Nat :=
  if pos < buf.length then
    match body buf pos with
    | (.ok (a, pos'), sizes) =>
      if pos < pos' then
        match whileData body buf pos' with
        | (.ok (as, pos''), more) => (.ok (a :: as, pos''), sizes ++ more)
        | (.err e, more) => (.err e, sizes ++ more)
        | (.panic, more) => (.panic, sizes ++ more)
        | (.hang, more) => (.hang, sizes ++ more)
      else (.hang, sizes)
    | (.err e, sizes) => (.err e, sizes)
    | (.panic, sizes) => (.panic, sizes)
    | (.hang, sizes) => (.hang, sizes)
  else (.ok ([], pos), [])
  termination_by buf.length - pos

/-- `for _ in 0..n { v.push(body) }` -/
def times {α : Type} : Nat → PM α → PM (List α)
  | 0, _ => ret []
  | n + 1, body => do
    let a ← body
    let as ← times n body
    return a :: as

/-- `vec![0; n]` followed by `read_exact` into it. -/
def readVec (n : Nat) : PM Bytes := do
  alloc n
  free (P.readExact n)

end PM

/-- src/extensions.rs:62-66 -/
def readStringM (size : Nat) : PM RStr := do
  let vec ← PM.readVec size
  .free (P.lift (fromUtf8 vec))

/-- src/extensions.rs:68-71 -/
def readLenEncStrM : PM RStr := do
  let length ← .free readLenEncNum
  readStringM length

/-- src/extensions.rs:100-117: one byte for each bit -/
def readBitmapLittleEndianM (bits : Nat) : PM (List Bool) := do
  PM.alloc bits
  let bytesNumber := (bits + 7) / 8
  .free (bitmapLoop (fun i v => setBitsLE bits i v (List.range 8)) (List.range bytesNumber) (List.replicate bits false))

/-- src/extensions.rs:120-137 -/
def readBitmapBigEndianM (bits : Nat) : PM (List Bool) := do
  PM.alloc bits
  let bytesNumber := (bits + 7) / 8
  .free (bitmapLoop (fun i v => setBitsBE bits bytesNumber i v (List.range 8)) (List.range bytesNumber) (List.replicate bits false))

/-- src/metadata/table_metadata.rs:182-201 -/
def readBitmapRevertedM (bits : Nat) : PM (List Bool) := do
  PM.alloc bits
  let bytesNumber := (bits + 7) / 8
  .free (bitmapLoop (fun i v => setBitsRev bits i v (List.range 8)) (List.range bytesNumber) (List.replicate bits false))

/-! ## Table maps -/

/-- src/metadata/table_metadata.rs:141-148 -/
def parseStringArrayM : PM (List RStr) := PM.whileData readLenEncStrM

/-- src/metadata/table_metadata.rs:160-171 -/
def parseTypeValuesM : PM (List (List RStr)) :=
  PM.whileData (do
    let length ← .free readLenEncNum
    PM.times length readLenEncStrM)

/-- One iteration of the loop of `TableMetadata::parse`, src/metadata/table_metadata.rs:66-112 -/
def parseMetadataFieldM (columnTypes : Bytes) : PM (TableMetadata → TableMetadata) := do
  let code ← .free P.u8
  let metadataType ← .free (P.lift (MetadataType.fromCode code))
  let metadataLength ← .free readLenEncNum
  let metadata ← PM.readVec metadataLength
  match metadataType with
  | .signedness =>
    let count ← .free (P.lift (numericColumnCount columnTypes))
    let v ← PM.within (readBitmapRevertedM count) metadata
    return fun t => { t with signedness := some v }
  | .defaultCharset =>
    let v ← .free (P.lift (parseDefaultCharset.run metadata))
    return fun t => { t with defaultCharset := some v }
  | .columnCharset =>
    let v ← .free (P.lift (parseIntArray.run metadata))
    return fun t => { t with columnCharsets := some v }
  | .columnName =>
    let v ← PM.within parseStringArrayM metadata
    return fun t => { t with columnNames := some v }
  | .setStrValue =>
    let v ← PM.within parseTypeValuesM metadata
    return fun t => { t with setStringValues := some v }
  | .enumStrValue =>
    let v ← PM.within parseTypeValuesM metadata
    return fun t => { t with enumStringValues := some v }
  | .geometryType =>
    let v ← .free (P.lift (parseIntArray.run metadata))
    return fun t => { t with geometryTypes := some v }
  | .simplePrimaryKey =>
    let v ← .free (P.lift (parseIntArray.run metadata))
    return fun t => { t with simplePrimaryKeys := some v }
  | .primaryKeyWithPrefix =>
    let v ← .free (P.lift (parseIntMap.run metadata))
    return fun t => { t with primaryKeysWithPrefix := some v }
  | .enumAndSetDefaultCharset =>
    let v ← .free (P.lift (parseDefaultCharset.run metadata))
    return fun t => { t with enumAndSetDefaultCharset := some v }
  | .enumAndSetColumnCharset =>
    let v ← .free (P.lift (parseIntArray.run metadata))
    return fun t => { t with enumAndSetColumnCharsets := some v }
  | .columnVisibility =>
    let v ← PM.within (readBitmapRevertedM columnTypes.length) metadata
    return fun t => { t with columnVisibility := some v }

/-- `TableMetadata::parse`, src/metadata/table_metadata.rs:51-129 -/
def parseTableMetadataM (columnTypes : Bytes) : PM TableMetadata := do
  let assigns ← PM.whileData (parseMetadataFieldM columnTypes)
  return assigns.foldl (fun t f => f t) TableMetadata.empty

/-- `parse_metadata`, src/events/table_map_event.rs:78-113: a `Vec<u16>` -/
def parseMetadataM (columnTypes : Bytes) : PM (List Nat) := do
  PM.request (2 * columnTypes.length)
  .free (parseMetadata columnTypes)

/-- `TableMapEvent::parse`, src/events/table_map_event.rs:36-76 -/
def parseTableMapM : PM TableMapEvent := do
  let tableId ← .free (P.uLE 6)
  .free (P.seekCur 2)
  let databaseNameLength ← .free P.u8
  let databaseName ← readStringM databaseNameLength
  .free (P.seekCur 1)
  let tableNameLength ← .free P.u8
  let tableName ← readStringM tableNameLength
  .free (P.seekCur 1)
  let columnsNumber ← .free readLenEncNum
  let columnTypes ← PM.readVec columnsNumber
  let _metadataLength ← .free readLenEncNum
  let columnMetadata ← parseMetadataM columnTypes
  let nullBitmap ← readBitmapLittleEndianM columnsNumber
  let more ← .free P.hasData
  if more then
    let tableMetadata ← parseTableMetadataM columnTypes
    return { tableId, databaseName, tableName, columnTypes, columnMetadata, nullBitmap, tableMetadata := some tableMetadata }
  else
    return { tableId, databaseName, tableName, columnTypes, columnMetadata, nullBitmap, tableMetadata := none }

/-! ## Rows -/

/-- src/events/row_events/col_parser.rs:7-14 -/
def parseStringM (metadata : Nat) : PM RStr := do
  let length ← if metadata < 256 then .free P.u8 else .free (P.uLE 2)
  readStringM length

/-- src/events/row_events/col_parser.rs:16-21 -/
def parseBitM (metadata : Nat) : PM (List Bool) := do
  let length := (metadata >>> 8) * 8 + (metadata &&& 0xFF)
  let bitmap ← readBitmapBigEndianM length
  return bitmap.reverse

/-- src/events/row_events/col_parser.rs:23-28 -/
def parseBlobM (metadata : Nat) : PM Bytes := do
  let length ← .free (P.uintLE metadata)
  PM.readVec length

/-- src/events/row_events/decimal.rs:10-83 -/
def parseDecimalM (m : Mode) (metadata : Nat) : PM RStr := do
  let precision := metadata &&& 0xFF
  let scale := (metadata >>> 8) % 256
  let difference ← .free (P.lift (subU m 16 precision scale))
  let integral := difference % 256
  let uncompressedIntegral := integral / DIGITS_PER_INT
  let uncompressedFractional := scale / DIGITS_PER_INT
  let compressedIntegral := integral - uncompressedIntegral * DIGITS_PER_INT
  let compressedFractional := scale - uncompressedFractional * DIGITS_PER_INT
  let length := uncompressedIntegral * 4 + compressedBytes compressedIntegral
    + uncompressedFractional * 4 + compressedBytes compressedFractional
  let value ← PM.readVec length
  .free (match value with
    | [] => P.panic -- `value[0]`
    | v0 :: vs =>
      let negative := v0 &&& 0x80 == 0
      let value := (v0 ^^^ 0x80) :: vs
      let (result, value) := if negative then (['-'], value.map (· ^^^ 0xFF)) else ([], value)
      P.lift ((decimalBody uncompressedIntegral compressedIntegral uncompressedFractional compressedFractional scale
        result).run value))

/-- `parse_cell`, src/events/row_events/row_parser.rs:130-184: DECIMAL, strings, BIT and BLOBs ask for memory. -/
def parseCellM (m : Mode) (columnType metadata : Nat) : PM MySqlValue := do
  let t ← .free (P.lift (ColumnType.fromCode columnType))
  match t with
  | .newDecimal => return .decimal (← parseDecimalM m metadata)
  | .string => return .string (← parseStringM metadata)
  | .varChar => return .string (← parseStringM metadata)
  | .varString => return .string (← parseStringM metadata)
  | .bit => return .bit (← parseBitM metadata)
  | .tinyBlob => return .blob (← parseBlobM metadata)
  | .mediumBlob => return .blob (← parseBlobM metadata)
  | .longBlob => return .blob (← parseBlobM metadata)
  | .blob => return .blob (← parseBlobM metadata)
  | .geometry => return .blob (← parseBlobM metadata)
  | .json => return .blob (← parseBlobM metadata)
  | _ => .free (parseCell m columnType metadata)

/-- The branch "Column has data" of `parse_row`, src/events/row_events/row_parser.rs:119-124 -/
def parseColumnM (m : Mode) (columnType metadata : Nat) : PM MySqlValue := do
  let t ← .free (P.lift (ColumnType.fromCode columnType))
  let (columnType, metadata) :=
    if t = .string then getActualStringType columnType metadata else (columnType, metadata)
  parseCellM m columnType metadata

/-- The loop of `parse_row`, src/events/row_events/row_parser.rs:107-126 -/
def rowLoopM (m : Mode) (table : TableMapEvent) (columnsPresent nullBitmap : List Bool) :
    List Nat → Nat → PM (List (Option MySqlValue))
  | [], _ => return []
  | i :: is, skipped =>
    match columnsPresent[i]? with
    | none => .free P.panic
    | some false => do
      let rest ← rowLoopM m table columnsPresent nullBitmap is (skipped + 1)
      return none :: rest
    | some true =>
      match nullBitmap[i - skipped]? with
      | none => .free P.panic
      | some true => do
        let rest ← rowLoopM m table columnsPresent nullBitmap is skipped
        return none :: rest
      | some false =>
        match table.columnTypes[i]?, table.columnMetadata[i]? with
        | some columnType, some metadata => do
          let cell ← parseColumnM m columnType.toNat metadata
          let rest ← rowLoopM m table columnsPresent nullBitmap is skipped
          return some cell :: rest
        | _, _ => .free P.panic

/-- `parse_row`, src/events/row_events/row_parser.rs:97-128. `cell` is the size of an `Option<MySqlValue>`; the vector for the row is made before anything is
read. -/
def parseRowM (m : Mode) (cell : Nat) (table : TableMapEvent) (columnsPresent : List Bool) (cellsIncluded : Nat) : PM RowData := do
  PM.request (cell * table.columnTypes.length)
  let nullBitmap ← readBitmapLittleEndianM cellsIncluded
  let cells ← rowLoopM m table columnsPresent nullBitmap (List.range table.columnTypes.length) 0
  return { cells }

/-- `parse_row_data_list`, src/events/row_events/row_parser.rs:27-44 -/
def parseRowDataListM (m : Mode) (cell : Nat) (tableMap : TableMapCache) (tableId : Nat) (columnsPresent : List Bool) : PM (List RowData) :=
  match tableMap.get? tableId with
  | none => .free (P.fail TABLE_MAP_NOT_FOUND)
  | some table =>
    let cellsIncluded := getBitsNumber columnsPresent
    PM.whileData (parseRowM m cell table columnsPresent cellsIncluded)

/-- `parse_update_row_data_list`, src/events/row_events/row_parser.rs:46-77 -/
def parseUpdateRowDataListM (m : Mode) (cell : Nat) (tableMap : TableMapCache) (tableId : Nat)
    (columnsBeforeUpdate columnsAfterUpdate : List Bool) : PM (List UpdateRowData) :=
  match tableMap.get? tableId with
  | none => .free (P.fail TABLE_MAP_NOT_FOUND)
  | some table =>
    let cellsBefore := getBitsNumber columnsBeforeUpdate
    let cellsAfter := getBitsNumber columnsAfterUpdate
    PM.whileData (do
      let beforeUpdate ← parseRowM m cell table columnsBeforeUpdate cellsBefore
      let afterUpdate ← parseRowM m cell table columnsAfterUpdate cellsAfter
      return { beforeUpdate, afterUpdate })

/-- `WriteRowsEvent::parse` and `DeleteRowsEvent::parse`, src/events/row_events/write_rows_event.rs:31-46 and
src/events/row_events/delete_rows_event.rs:31-46 -/
def parseRowsEventM (m : Mode) (cell : Nat) (tableMap : TableMapCache) (rowEventVersion : Nat) : PM RowsEvent := do
  let (tableId, flags, columnsNumber) ← .free (parseHead rowEventVersion)
  let columnsPresent ← readBitmapLittleEndianM columnsNumber
  let rows ← parseRowDataListM m cell tableMap tableId columnsPresent
  return { tableId, flags, columnsNumber, columnsPresent, rows }

/-- `UpdateRowsEvent::parse`, src/events/row_events/update_rows_event.rs:35-58 -/
def parseUpdateRowsEventM (m : Mode) (cell : Nat) (tableMap : TableMapCache) (rowEventVersion : Nat) : PM UpdateRowsEvent := do
  let (tableId, flags, columnsNumber) ← .free (parseHead rowEventVersion)
  let columnsBeforeUpdate ← readBitmapLittleEndianM columnsNumber
  let columnsAfterUpdate ← readBitmapLittleEndianM columnsNumber
  let rows ← parseUpdateRowDataListM m cell tableMap tableId columnsBeforeUpdate columnsAfterUpdate
  return { tableId, flags, columnsNumber, columnsBeforeUpdate, columnsAfterUpdate, rows }

/-! ## Other events -/

/-- `QueryEvent::parse`, src/events/query_event.rs:30-58 -/
def parseQueryM : PM QueryEvent := do
  let threadId ← .free (P.uLE 4)
  let duration ← .free (P.uLE 4)
  let databaseNameLength ← .free P.u8
  let errorCode ← .free (P.uLE 2)
  let statusVariableLength ← .free (P.uLE 2)
  let statusVariables ← PM.readVec statusVariableLength
  let databaseName ← readStringM databaseNameLength
  .free (P.seekCur 1)
  let sqlStatement ← .free readToString
  return { threadId, duration, errorCode, statusVariables, databaseName, sqlStatement }

/-- `UserVarEvent::parse`, src/events/uservar_event.rs:35-61 -/
def parseUserVarM : PM UserVarEvent := do
  let nameLen ← .free (P.uLE 4)
  let name ← readStringM nameLen
  let isNull ← .free P.u8
  if isNull ≠ 0 then return { name, value := none }
  else
    let varType ← .free P.u8
    let collation ← .free (P.uLE 4)
    let valueLen ← .free (P.uLE 4)
    let value ← readStringM valueLen
    let flags ← .free P.u8
    return { name, value := some { varType, collation, value, flags } }

/-- The `match` of `parse_event`, src/events/event_parser.rs:52-111. The other events have fixed sizes, or grow while they are read. -/
def dispatchEventM (m : Mode) (cell : Nat) (tableMap : TableMapCache) (header : EventHeader) : PM BinlogEvent :=
  match EventType.fromCode header.eventType with
  | .tableMap => do return .tableMap (← parseTableMapM)
  | .userVar => do return .userVar (← parseUserVarM)
  | .query => do return .query (← parseQueryM)
  | .writeRowsV1 => do return .writeRows (← parseRowsEventM m cell tableMap 1)
  | .updateRowsV1 => do return .updateRows (← parseUpdateRowsEventM m cell tableMap 1)
  | .deleteRowsV1 => do return .deleteRows (← parseRowsEventM m cell tableMap 1)
  | .mySqlWriteRowsV2 => do return .writeRows (← parseRowsEventM m cell tableMap 2)
  | .mySqlUpdateRowsV2 => do return .updateRows (← parseUpdateRowsEventM m cell tableMap 2)
  | .mySqlDeleteRowsV2 => do return .deleteRows (← parseRowsEventM m cell tableMap 2)
  | _ => .free (dispatchEvent m tableMap header)

/-- `parse_event`, src/events/event_parser.rs:41-122: the sizes asked for, in order. -/
def eventMemory (m : Mode) (cell : Nat) (st : EventParser) (header : EventHeader) (slice : Bytes) : List Nat :=
  match eventBody st.checksumType slice with
  | .ok body => (dispatchEventM m cell st.tableMap header body 0).2
  | _ => []

end MysqlCdc
