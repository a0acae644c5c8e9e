import Verif.Spec.Events
import Verif.Spec.TableMap
/-!
# Histories of the event decoder
-/

namespace MysqlCdc.Spec

/-- What a decoder answers to a sequence of events (header, payload), one after the other. -/
def answers (m : Mode) : EventParser → List (EventHeader × Bytes) → List (Res BinlogEvent)
  | _, [] => []
  | st, (h, p) :: rest => (parseEvent m st h p).1 :: answers m (parseEvent m st h p).2 rest

/-- The decoder after the sequence. -/
def after (m : Mode) : EventParser → List (EventHeader × Bytes) → EventParser
  | st, [] => st
  | st, (h, p) :: rest => after m (parseEvent m st h p).2 rest

/-- The table maps of table `id` among some answers. -/
def tableMapOf (id : Nat) : Res BinlogEvent → Option TableMapEvent
  | .ok (.tableMap t) => if t.tableId = id then some t else none
  | _ => none

/-- The checksum types announced among some answers. -/
def announcedChecksum : Res BinlogEvent → Option ChecksumType
  | .ok (.formatDescription e) => some e.checksumType
  | _ => none

/-- The event types the library decodes: QUERY 2, ROTATE 4, INTVAR 5, USER_VAR 14, FORMAT_DESCRIPTION 15, XID 16, TABLE_MAP 19,
row events 23-25 and 30-32, HEARTBEAT 27, ROWS_QUERY 29, GTID 33, PREVIOUS_GTIDS 35, MariaDB ANNOTATE_ROWS 160, GTID 162,
GTID_LIST 163. -/
def decodedTypes : List Nat := [2, 4, 5, 14, 15, 16, 19, 23, 24, 25, 27, 29, 30, 31, 32, 33, 35, 160, 162, 163]

/-- Row event types. -/
def rowTypes : List Nat := [23, 24, 25, 30, 31, 32]

end MysqlCdc.Spec
