import Verif.Model.Events
import Verif.Model.Rows
/-!
# The stateful event decoder (src/events/event_parser.rs)
-/

namespace MysqlCdc

/-- `BinlogEvent`, src/events/binlog_event.rs:20-39 -/
inductive BinlogEvent where
  | unknown
  | deleteRows (e : RowsEvent)
  | updateRows (e : UpdateRowsEvent)
  | writeRows (e : RowsEvent)
  | xid (e : XidEvent)
  | intVar (e : IntVarEvent)
  | userVar (e : UserVarEvent)
  | query (e : QueryEvent)
  | tableMap (e : TableMapEvent)
  | rotate (e : RotateEvent)
  | rowsQuery (e : RowsQueryEvent)
  | heartbeat (e : HeartbeatEvent)
  | formatDescription (e : FormatDescriptionEvent)
  | mySqlGtid (e : MySqlGtidEvent)
  | mySqlPrevGtids (e : PreviousGtidsEvent)
  | mariaDbGtid (e : MariaGtidEvent)
  | mariaDbGtidList (e : GtidListEvent)
  deriving DecidableEq, Repr

/-- `EventParser`, src/events/event_parser.rs:25-31 -/
structure EventParser where
  checksumType : ChecksumType
  tableMap : TableMapCache
  deriving DecidableEq, Repr

/-- `EventParser::new`, src/events/event_parser.rs:34-39 -/
def EventParser.new : EventParser := { checksumType := .none, tableMap := [] }

/-- The dispatch of `parse_event`, src/events/event_parser.rs:52-111 -/
def dispatchEvent (m : Mode) (tableMap : TableMapCache) (header : EventHeader) : P BinlogEvent :=
  match EventType.fromCode header.eventType with
  | .formatDescription => do return .formatDescription (← parseFormatDescription m header)
  | .tableMap => do return .tableMap (← parseTableMap)
  | .heartbeat => do return .heartbeat (← parseHeartbeat)
  | .rotate => do return .rotate (← parseRotate)
  | .intvar => do return .intVar (← parseIntVar)
  | .userVar => do return .userVar (← parseUserVar)
  | .query => do return .query (← parseQuery)
  | .xid => do return .xid (← parseXid)
  | .writeRowsV1 => do return .writeRows (← parseRowsEvent m tableMap 1)
  | .updateRowsV1 => do return .updateRows (← parseUpdateRowsEvent m tableMap 1)
  | .deleteRowsV1 => do return .deleteRows (← parseRowsEvent m tableMap 1)
  | .mySqlWriteRowsV2 => do return .writeRows (← parseRowsEvent m tableMap 2)
  | .mySqlUpdateRowsV2 => do return .updateRows (← parseUpdateRowsEvent m tableMap 2)
  | .mySqlDeleteRowsV2 => do return .deleteRows (← parseRowsEvent m tableMap 2)
  | .mySqlRowsQuery => do return .rowsQuery (← parseRowsQueryMysql)
  | .mySqlGtid => do return .mySqlGtid (← parseMySqlGtid)
  | .mySqlPreviousGtids => do return .mySqlPrevGtids (← parsePreviousGtids m)
  | .mariaDbGtid => do return .mariaDbGtid (← parseMariaGtid header)
  | .mariaDbGtidList => do return .mariaDbGtidList (← parseGtidList)
  | .mariaDbAnnotateRows => do return .rowsQuery (← parseRowsQueryMariadb)
  | _ => return .unknown

/-- The bytes the cursor is created on, src/events/event_parser.rs:47-50. `slice.len() - 4` underflows (a panic with checks,
a huge end index and hence a slicing panic without) when there are fewer than four bytes. -/
def eventBody (checksumType : ChecksumType) (slice : Bytes) : Res Bytes :=
  match checksumType with
  | .none => .ok slice
  | .crc32 => if 4 ≤ slice.length then .ok (slice.take (slice.length - 4)) else .panic

/-- The assignments of `parse_event` after a successful decode, src/events/event_parser.rs:113-119 -/
def EventParser.record (st : EventParser) : BinlogEvent → EventParser
  | .formatDescription x => { st with checksumType := x.checksumType }
  | .tableMap x => { st with tableMap := st.tableMap.insert x.tableId x }
  | _ => st

/-- `parse_event`, src/events/event_parser.rs:41-122: the result and the parser afterwards. -/
def parseEvent (m : Mode) (st : EventParser) (header : EventHeader) (slice : Bytes) : Res BinlogEvent × EventParser :=
  match eventBody st.checksumType slice with
  | .ok body =>
    match (dispatchEvent m st.tableMap header).run body with
    | .ok event => (.ok event, st.record event)
    | .err e => (.err e, st)
    | .panic => (.panic, st)
    | .hang => (.hang, st)
  | .err e => (.err e, st)
  | .panic => (.panic, st)
  | .hang => (.hang, st)

end MysqlCdc
