import Verif.Model.Cells
import Verif.Model.TableMap
/-!
# Row events (src/events/row_events)
-/

namespace MysqlCdc

/-- `RowData`, src/events/row_events/row_data.rs:4-14 -/
structure RowData where
  cells : List (Option MySqlValue)
  deriving DecidableEq, Repr

/-- `UpdateRowData`, src/events/row_events/row_data.rs:17-33 -/
structure UpdateRowData where
  beforeUpdate : RowData
  afterUpdate : RowData
  deriving DecidableEq, Repr

/-- `parse_cell`, src/events/row_events/row_parser.rs:130-184 -/
def parseCell (m : Mode) (columnType metadata : Nat) : P MySqlValue := do
  let t ← P.lift (ColumnType.fromCode columnType)
  match t with
  | .tiny => return .tinyInt (← P.u8)
  | .short => return .smallInt (← P.uLE 2)
  | .int24 => return .mediumInt (← P.uLE 3)
  | .long => return .int (← P.uLE 4)
  | .longLong => return .bigInt (← P.uLE 8)
  | .float => return .float (← P.uLE 4)
  | .double => return .double (← P.uLE 8)
  | .newDecimal => return .decimal (← parseDecimal m metadata)
  | .string => return .string (← parseString metadata)
  | .varChar => return .string (← parseString metadata)
  | .varString => return .string (← parseString metadata)
  | .bit => return .bit (← parseBit metadata)
  | .enum => do
    let n ← P.uintLE metadata
    return .enum (n % 2 ^ 32)
  | .set => return .set (← P.uintLE metadata)
  | .tinyBlob => return .blob (← parseBlob metadata)
  | .mediumBlob => return .blob (← parseBlob metadata)
  | .longBlob => return .blob (← parseBlob metadata)
  | .blob => return .blob (← parseBlob metadata)
  | .year => return .year (← parseYear)
  | .date => return .date (← parseDate)
  | .time => return .time (← parseTime)
  | .timeStamp => return .timestamp (← parseTimestamp)
  | .dateTime => return .dateTime (← parseDateTime)
  | .time2 => return .time (← parseTime2 m metadata)
  | .timeStamp2 => return .timestamp (← parseTimestamp2 m metadata)
  | .dateTime2 => return .dateTime (← parseDateTime2 m metadata)
  | .geometry => return .blob (← parseBlob metadata)
  | .json => return .blob (← parseBlob metadata)
  | .decimal | .null | .newDate => P.fail (.str "Parsing column type is not supported")

/-- The branch "Column has data" of `parse_row`, src/events/row_events/row_parser.rs:119-124 -/
def parseColumn (m : Mode) (columnType metadata : Nat) : P MySqlValue := do
  let t ← P.lift (ColumnType.fromCode columnType)
  let (columnType, metadata) :=
    if t = .string then getActualStringType columnType metadata else (columnType, metadata)
  parseCell m columnType metadata

/-- `get_bits_number`, src/events/row_events/row_parser.rs:187-189 -/
def getBitsNumber (bitmap : List Bool) : Nat := (bitmap.filter (· == true)).length

/-- The loop of `parse_row`, src/events/row_events/row_parser.rs:107-126, over column indices with the running
`skipped_columns`. Indexing outside a vector panics. -/
def rowLoop (m : Mode) (table : TableMapEvent) (columnsPresent nullBitmap : List Bool) :
    List Nat → Nat → P (List (Option MySqlValue))
  | [], _ => return []
  | i :: is, skipped =>
    match columnsPresent[i]? with
    | none => P.panic
    | some false => do
      let rest ← rowLoop m table columnsPresent nullBitmap is (skipped + 1)
      return none :: rest
    | some true =>
      match nullBitmap[i - skipped]? with
      | none => P.panic
      | some true => do
        let rest ← rowLoop m table columnsPresent nullBitmap is skipped
        return none :: rest
      | some false =>
        match table.columnTypes[i]?, table.columnMetadata[i]? with
        | some columnType, some metadata => do
          let cell ← parseColumn m columnType.toNat metadata
          let rest ← rowLoop m table columnsPresent nullBitmap is skipped
          return some cell :: rest
        | _, _ => P.panic

/-- `parse_row`, src/events/row_events/row_parser.rs:97-128 -/
def parseRow (m : Mode) (table : TableMapEvent) (columnsPresent : List Bool) (cellsIncluded : Nat) : P RowData := do
  let nullBitmap ← readBitmapLittleEndian cellsIncluded
  let cells ← rowLoop m table columnsPresent nullBitmap (List.range table.columnTypes.length) 0
  return { cells }

/-- `EventParser.table_map`, src/events/event_parser.rs:30 -/
abbrev TableMapCache := HMap Nat TableMapEvent

/-- src/events/row_events/row_parser.rs:18-20 -/
def TABLE_MAP_NOT_FOUND : Err := .str "No preceding TableMapEvent event was found for the row event."

/-- `parse_row_data_list`, src/events/row_events/row_parser.rs:27-44 -/
def parseRowDataList (m : Mode) (tableMap : TableMapCache) (tableId : Nat) (columnsPresent : List Bool) :
    P (List RowData) :=
  match tableMap.get? tableId with
  | none => P.fail TABLE_MAP_NOT_FOUND
  | some table =>
    let cellsIncluded := getBitsNumber columnsPresent
    P.whileData (parseRow m table columnsPresent cellsIncluded)

/-- `parse_update_row_data_list`, src/events/row_events/row_parser.rs:46-77 -/
def parseUpdateRowDataList (m : Mode) (tableMap : TableMapCache) (tableId : Nat)
    (columnsBeforeUpdate columnsAfterUpdate : List Bool) : P (List UpdateRowData) :=
  match tableMap.get? tableId with
  | none => P.fail TABLE_MAP_NOT_FOUND
  | some table =>
    let cellsBefore := getBitsNumber columnsBeforeUpdate
    let cellsAfter := getBitsNumber columnsAfterUpdate
    P.whileData (do
      let beforeUpdate ← parseRow m table columnsBeforeUpdate cellsBefore
      let afterUpdate ← parseRow m table columnsAfterUpdate cellsAfter
      return { beforeUpdate, afterUpdate })

/-- `parse_head`, src/events/row_events/row_parser.rs:79-95 -/
def parseHead (rowEventVersion : Nat) : P (Nat × Nat × Nat) := do
  let tableId ← P.uLE 6
  let flags ← P.uLE 2
  if rowEventVersion = 2 then
    let extraDataLength ← P.uLE 2
    P.seekCur ((extraDataLength : Int) - 2)
    let columnsNumber ← readLenEncNum
    return (tableId, flags, columnsNumber)
  else
    let columnsNumber ← readLenEncNum
    return (tableId, flags, columnsNumber)

/-- `WriteRowsEvent` and `DeleteRowsEvent`, src/events/row_events/write_rows_event.rs:12-27 and
src/events/row_events/delete_rows_event.rs:12-27 (same fields, same parser) -/
structure RowsEvent where
  tableId : Nat
  flags : Nat
  columnsNumber : Nat
  columnsPresent : List Bool
  rows : List RowData
  deriving DecidableEq, Repr

/-- `WriteRowsEvent::parse` and `DeleteRowsEvent::parse`, src/events/row_events/write_rows_event.rs:31-46 and
src/events/row_events/delete_rows_event.rs:31-46 -/
def parseRowsEvent (m : Mode) (tableMap : TableMapCache) (rowEventVersion : Nat) : P RowsEvent := do
  let (tableId, flags, columnsNumber) ← parseHead rowEventVersion
  let columnsPresent ← readBitmapLittleEndian columnsNumber
  let rows ← parseRowDataList m tableMap tableId columnsPresent
  return { tableId, flags, columnsNumber, columnsPresent, rows }

/-- `UpdateRowsEvent`, src/events/row_events/update_rows_event.rs:13-31 -/
structure UpdateRowsEvent where
  tableId : Nat
  flags : Nat
  columnsNumber : Nat
  columnsBeforeUpdate : List Bool
  columnsAfterUpdate : List Bool
  rows : List UpdateRowData
  deriving DecidableEq, Repr

/-- `UpdateRowsEvent::parse`, src/events/row_events/update_rows_event.rs:35-58 -/
def parseUpdateRowsEvent (m : Mode) (tableMap : TableMapCache) (rowEventVersion : Nat) : P UpdateRowsEvent := do
  let (tableId, flags, columnsNumber) ← parseHead rowEventVersion
  let columnsBeforeUpdate ← readBitmapLittleEndian columnsNumber
  let columnsAfterUpdate ← readBitmapLittleEndian columnsNumber
  let rows ← parseUpdateRowDataList m tableMap tableId columnsBeforeUpdate columnsAfterUpdate
  return { tableId, flags, columnsNumber, columnsBeforeUpdate, columnsAfterUpdate, rows }

end MysqlCdc
