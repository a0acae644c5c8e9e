import Verif.Model.Extensions
import Verif.Model.MysqlGtid
import Verif.Model.MariaGtid
/-!
# Event header and the events that need no table map (src/events, src/providers/*/events)
-/

namespace MysqlCdc

/-- `EventHeader`, src/events/event_header.rs:10-29 -/
structure EventHeader where
  timestamp : Nat
  eventType : Nat
  serverId : Nat
  eventLength : Nat
  nextEventPosition : Nat
  eventFlags : Nat
  deriving DecidableEq, Repr

/-- `EventHeader::parse`, src/events/event_header.rs:32-42 -/
def parseHeader : P EventHeader := do
  let timestamp ← P.uLE 4
  let eventType ← P.u8
  let serverId ← P.uLE 4
  let eventLength ← P.uLE 4
  let nextEventPosition ← P.uLE 4
  let eventFlags ← P.uLE 2
  return { timestamp, eventType, serverId, eventLength, nextEventPosition, eventFlags }

/-- `HeartbeatEvent`, src/events/heartbeat_event.rs:8-11 -/
structure HeartbeatEvent where
  binlogFilename : RStr
  deriving DecidableEq, Repr

/-- `HeartbeatEvent::parse`, src/events/heartbeat_event.rs:15-20 -/
def parseHeartbeat : P HeartbeatEvent := do
  let binlogFilename ← readToString
  return { binlogFilename }

/-- `IntVarEvent`, src/events/intvar_event.rs:9-18 -/
structure IntVarEvent where
  intvarType : Nat
  value : Nat
  deriving DecidableEq, Repr

/-- `IntVarEvent::parse`, src/events/intvar_event.rs:22-27 -/
def parseIntVar : P IntVarEvent := do
  let intvarType ← P.u8
  let value ← P.uLE 8
  return { intvarType, value }

/-- `QueryEvent`, src/events/query_event.rs:8-26 -/
structure QueryEvent where
  threadId : Nat
  duration : Nat
  errorCode : Nat
  statusVariables : Bytes
  databaseName : RStr
  sqlStatement : RStr
  deriving DecidableEq, Repr

/-- `QueryEvent::parse`, src/events/query_event.rs:30-58 -/
def parseQuery : P QueryEvent := do
  let threadId ← P.uLE 4
  let duration ← P.uLE 4
  let databaseNameLength ← P.u8
  let errorCode ← P.uLE 2
  let statusVariableLength ← P.uLE 2
  let statusVariables ← P.readVec statusVariableLength
  let databaseName ← readString databaseNameLength
  P.seekCur 1
  let sqlStatement ← readToString
  return { threadId, duration, errorCode, statusVariables, databaseName, sqlStatement }

/-- `RotateEvent`, src/events/rotate_event.rs:10-16 -/
structure RotateEvent where
  binlogFilename : RStr
  binlogPosition : Nat
  deriving DecidableEq, Repr

/-- `RotateEvent::parse`, src/events/rotate_event.rs:20-30 -/
def parseRotate : P RotateEvent := do
  let binlogPosition ← P.uLE 8
  let binlogFilename ← readToString
  return { binlogPosition, binlogFilename }

/-- `RowsQueryEvent`, src/events/rows_query_event.rs:9-12 -/
structure RowsQueryEvent where
  query : RStr
  deriving DecidableEq, Repr

/-- `RowsQueryEvent::parse_mysql`, src/events/rows_query_event.rs:16-23 -/
def parseRowsQueryMysql : P RowsQueryEvent := do
  P.seekCur 1
  let query ← readToString
  return { query }

/-- `RowsQueryEvent::parse_mariadb`, src/events/rows_query_event.rs:26-31 -/
def parseRowsQueryMariadb : P RowsQueryEvent := do
  let query ← readToString
  return { query }

/-- `VariableValue`, src/events/uservar_event.rs:19-31 -/
structure VariableValue where
  varType : Nat
  collation : Nat
  value : RStr
  flags : Nat
  deriving DecidableEq, Repr

/-- `UserVarEvent`, src/events/uservar_event.rs:9-15 -/
structure UserVarEvent where
  name : RStr
  value : Option VariableValue
  deriving DecidableEq, Repr

/-- `UserVarEvent::parse`, src/events/uservar_event.rs:35-61 -/
def parseUserVar : P UserVarEvent := do
  let nameLen ← P.uLE 4
  let name ← readString nameLen
  let isNull ← P.u8
  if isNull ≠ 0 then return { name, value := none }
  else
    let varType ← P.u8
    let collation ← P.uLE 4
    let valueLen ← P.uLE 4
    let value ← readString valueLen
    let flags ← P.u8
    return { name, value := some { varType, collation, value, flags } }

/-- `XidEvent`, src/events/xid_event.rs:9-12 -/
structure XidEvent where
  xid : Nat
  deriving DecidableEq, Repr

/-- `XidEvent::parse`, src/events/xid_event.rs:16-20 -/
def parseXid : P XidEvent := do
  let xid ← P.uLE 8
  return { xid }

/-- `FormatDescriptionEvent`, src/events/format_description_event.rs:15-24 -/
structure FormatDescriptionEvent where
  binlogVersion : Nat
  serverVersion : RStr
  checksumType : ChecksumType
  deriving DecidableEq, Repr

/-- src/events/format_description_event.rs:8 -/
def EVENT_TYPES_OFFSET : Nat := 2 + 50 + 4 + 1

/-- `FormatDescriptionEvent::parse`, src/events/format_description_event.rs:28-63 -/
def parseFormatDescription (m : Mode) (header : EventHeader) : P FormatDescriptionEvent := do
  let binlogVersion ← P.uLE 2
  let raw ← P.readExact 50
  -- `position(|&b| b == 0)`: up to the first zero, or all 50 bytes
  let serverVersion ← match utf8Decode (raw.takeWhile (· != 0)) with
    | some s => pure s
    | none => P.fail .utf8
  P.seekCur 5
  P.seekCur ((FORMAT_DESCRIPTION_CODE : Int) - 1)
  let payloadLength ← P.u8
  -- `header.event_length as u8 - EVENT_HEADER_SIZE as u8`
  let expected ← P.lift (subU m 8 (header.eventLength % 256) EVENT_HEADER_SIZE)
  if payloadLength ≠ expected then
    let skip : Int := (payloadLength : Int) - EVENT_TYPES_OFFSET - FORMAT_DESCRIPTION_CODE
    P.seekCur skip
    let code ← P.u8
    let checksumType ← P.lift (ChecksumType.fromCode code)
    return { binlogVersion, serverVersion, checksumType }
  else
    return { binlogVersion, serverVersion, checksumType := .none }

/-! ## GTID events -/

/-- `GtidEvent` (MySQL), src/providers/mysql/events/gtid_event.rs:9-15 -/
structure MySqlGtidEvent where
  gtid : Gtid
  flags : Nat
  deriving DecidableEq, Repr

/-- `GtidEvent::parse` (MySQL), src/providers/mysql/events/gtid_event.rs:19-30 -/
def parseMySqlGtid : P MySqlGtidEvent := do
  let flags ← P.u8
  let sourceId ← P.readExact 16
  let transactionId ← P.uLE 8
  return { gtid := { sourceId := Uuid.new sourceId, transactionId }, flags }

/-- `PreviousGtidsEvent`, src/providers/mysql/events/prev_gtids_event.rs:10-13 -/
structure PreviousGtidsEvent where
  gtidSet : GtidSet
  deriving DecidableEq, Repr

/-- One interval, src/providers/mysql/events/prev_gtids_event.rs:29-31. `end - 1` can underflow. -/
def parsePrevInterval (m : Mode) : P Interval := do
  let start ← P.uLE 8
  let «end» ← P.uLE 8
  let «end» ← P.lift (subU m 64 «end» 1)
  return { start, «end» }

/-- The body of the outer loop, src/providers/mysql/events/prev_gtids_event.rs:22-35, up to the insertion. -/
def parsePrevUuidSet (m : Mode) : P UuidSet := do
  let sourceId ← P.readExact 16
  let sourceId := Uuid.new sourceId
  let uuidSet ← P.lift (UuidSet.new m sourceId [])
  let intervalNumber ← P.uLE 8
  let intervals ← P.times intervalNumber (parsePrevInterval m)
  return { uuidSet with intervals := uuidSet.intervals ++ intervals }

/-- `PreviousGtidsEvent::parse`, src/providers/mysql/events/prev_gtids_event.rs:17-39. The insertions are done after the reads
instead of between them; neither can fail because of the other. -/
def parsePreviousGtids (m : Mode) : P PreviousGtidsEvent := do
  let uuidSetNumber ← P.uLE 8
  let sets ← P.times uuidSetNumber (parsePrevUuidSet m)
  return { gtidSet := { uuidSets := sets.foldl (fun r s => r.insert s.sourceId.uuid s) GtidSet.new.uuidSets } }

/-- `GtidEvent` (MariaDB), src/providers/mariadb/events/gtid_event.rs:9-15 -/
structure MariaGtidEvent where
  gtid : MGtid
  flags : Nat
  deriving DecidableEq, Repr

/-- `GtidEvent::parse` (MariaDB), src/providers/mariadb/events/gtid_event.rs:19-26 -/
def parseMariaGtid (header : EventHeader) : P MariaGtidEvent := do
  let sequence ← P.uLE 8
  let domainId ← P.uLE 4
  let flags ← P.u8
  return { gtid := { domainId, serverId := header.serverId, sequence }, flags }

/-- `GtidListEvent`, src/providers/mariadb/events/gtid_list_event.rs:9-12 -/
structure GtidListEvent where
  gtidList : GtidList
  deriving DecidableEq, Repr

/-- One GTID, src/providers/mariadb/events/gtid_list_event.rs:21-25 -/
def parseListGtid : P MGtid := do
  let domainId ← P.uLE 4
  let serverId ← P.uLE 4
  let sequence ← P.uLE 8
  return { domainId, serverId, sequence }

/-- `GtidListEvent::parse`, src/providers/mariadb/events/gtid_list_event.rs:16-30 -/
def parseGtidList : P GtidListEvent := do
  let gtidListLen ← P.uLE 4
  let gtids ← P.times gtidListLen parseListGtid
  return { gtidList := { gtids } }

end MysqlCdc
