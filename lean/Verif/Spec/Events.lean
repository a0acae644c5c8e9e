import Verif.Spec.Wire
import Verif.Spec.GtidSet
import Verif.Model.EventParser
/-!
# Wire formats of binlog events

Written from the MySQL internals manual and the MariaDB knowledge base. Only the data types of the model are used, none of its
functions.
-/

namespace MysqlCdc.Spec

/-- The values a header can carry. -/
def HeaderFits (h : EventHeader) : Prop :=
  h.timestamp < 2 ^ 32 ∧ h.eventType < 2 ^ 8 ∧ h.serverId < 2 ^ 32 ∧ h.eventLength < 2 ^ 32 ∧
  h.nextEventPosition < 2 ^ 32 ∧ h.eventFlags < 2 ^ 16

/-- The 19 bytes of a v4 event header. -/
def headerBytes (h : EventHeader) : Bytes :=
  le 4 h.timestamp ++ le 1 h.eventType ++ le 4 h.serverId ++ le 4 h.eventLength ++ le 4 h.nextEventPosition
  ++ le 2 h.eventFlags

/-- What follows the event body on the wire: nothing, or four checksum bytes of any value. -/
def WithChecksum (checksum : ChecksumType) (body slice : Bytes) : Prop :=
  ∃ sum : Bytes, sum.length = (match checksum with | .none => 0 | .crc32 => 4) ∧ slice = body ++ sum

/-- `PlainBody code event body`: an event of type `code` holding the values of `event` has the body `body`. -/
inductive PlainBody : Nat → BinlogEvent → Bytes → Prop where
  /-- QUERY_EVENT (2): thread id, duration, database length, error code, status length; status, database, zero, statement. -/
  | query {thread duration error : Nat} {status : Bytes} {db sql : RStr}
      (h1 : thread < 2 ^ 32) (h2 : duration < 2 ^ 32) (h3 : (utf8Bytes db).length < 2 ^ 8) (h4 : error < 2 ^ 16)
      (h5 : status.length < 2 ^ 16) :
      PlainBody 2 (.query ⟨thread, duration, error, status, db, sql⟩)
        (le 4 thread ++ le 4 duration ++ le 1 (utf8Bytes db).length ++ le 2 error ++ le 2 status.length
          ++ status ++ utf8Bytes db ++ [0] ++ utf8Bytes sql)
  /-- ROTATE_EVENT (4): position, file name to the end. -/
  | rotate {name : RStr} {position : Nat} (h : position < 2 ^ 64) :
      PlainBody 4 (.rotate ⟨name, position⟩) (le 8 position ++ utf8Bytes name)
  /-- INTVAR_EVENT (5): type, value. -/
  | intVar {type value : Nat} {extra : Bytes} (h1 : type < 2 ^ 8) (h2 : value < 2 ^ 64) :
      PlainBody 5 (.intVar ⟨type, value⟩) (le 1 type ++ le 8 value ++ extra)
  /-- USER_VAR_EVENT (14) of a NULL variable: name length, name, non-zero byte. -/
  | userVarNull {name : RStr} {isNull : Nat} {extra : Bytes} (h1 : (utf8Bytes name).length < 2 ^ 32)
      (h2 : 0 < isNull ∧ isNull < 2 ^ 8) :
      PlainBody 14 (.userVar ⟨name, none⟩) (le 4 (utf8Bytes name).length ++ utf8Bytes name ++ le 1 isNull ++ extra)
  /-- USER_VAR_EVENT (14): name length, name, zero, type, collation, value length, value, flags. -/
  | userVar {name value : RStr} {type collation flags : Nat} {extra : Bytes} (h1 : (utf8Bytes name).length < 2 ^ 32)
      (h2 : type < 2 ^ 8) (h3 : collation < 2 ^ 32) (h4 : (utf8Bytes value).length < 2 ^ 32) (h5 : flags < 2 ^ 8) :
      PlainBody 14 (.userVar ⟨name, some ⟨type, collation, value, flags⟩⟩)
        (le 4 (utf8Bytes name).length ++ utf8Bytes name ++ [0] ++ le 1 type ++ le 4 collation
          ++ le 4 (utf8Bytes value).length ++ utf8Bytes value ++ le 1 flags ++ extra)
  /-- XID_EVENT (16): transaction id. -/
  | xid {xid : Nat} {extra : Bytes} (h : xid < 2 ^ 64) : PlainBody 16 (.xid ⟨xid⟩) (le 8 xid ++ extra)
  /-- HEARTBEAT_LOG_EVENT (27): file name to the end. -/
  | heartbeat {name : RStr} : PlainBody 27 (.heartbeat ⟨name⟩) (utf8Bytes name)
  /-- ROWS_QUERY_LOG_EVENT (29, MySQL): one length byte (meaningless above 255), query to the end. -/
  | rowsQuery {query : RStr} {length : UInt8} : PlainBody 29 (.rowsQuery ⟨query⟩) (length :: utf8Bytes query)
  /-- GTID_LOG_EVENT (33, MySQL): flags, server uuid, transaction id, then fields of newer versions. -/
  | mySqlGtid {flags id : Nat} {sid extra : Bytes} (h1 : flags < 2 ^ 8) (h2 : sid.length = 16) (h3 : id < 2 ^ 64) :
      PlainBody 33 (.mySqlGtid ⟨⟨⟨sid, uuidText sid⟩, id⟩, flags⟩) (le 1 flags ++ sid ++ le 8 id ++ extra)
  /-- ANNOTATE_ROWS_EVENT (160, MariaDB): query to the end. -/
  | annotateRows {query : RStr} : PlainBody 160 (.rowsQuery ⟨query⟩) (utf8Bytes query)

/-- GTID_EVENT (162, MariaDB): sequence, domain, flags, then fields depending on the flags. The server id is in the header. -/
inductive MariaBody (header : EventHeader) : Nat → BinlogEvent → Bytes → Prop where
  | gtid {sequence domain flags : Nat} {extra : Bytes} (h1 : sequence < 2 ^ 64) (h2 : domain < 2 ^ 32)
      (h3 : flags < 2 ^ 8) :
      MariaBody header 162 (.mariaDbGtid ⟨⟨domain, header.serverId, sequence⟩, flags⟩)
        (le 8 sequence ++ le 4 domain ++ le 1 flags ++ extra)
  /-- GTID_LIST_EVENT (163, MariaDB): count, then domain, server id and sequence of each. -/
  | gtidList {gtids : List MGtid} {extra : Bytes} (h1 : gtids.length < 2 ^ 32)
      (h2 : ∀ g ∈ gtids, g.domainId < 2 ^ 32 ∧ g.serverId < 2 ^ 32 ∧ g.sequence < 2 ^ 64) :
      MariaBody header 163 (.mariaDbGtidList ⟨⟨gtids⟩⟩)
        (le 4 gtids.length ++ (gtids.flatMap fun g => le 4 g.domainId ++ le 4 g.serverId ++ le 8 g.sequence) ++ extra)

/-- A list of closed intervals as (start, end) pairs on the wire: half-open, so the end is one more. -/
def intervalsBytes (ivs : List Interval) : Bytes := ivs.flatMap fun iv => le 8 iv.start ++ le 8 (iv.end + 1)

/-- An encoded GTID set: number of servers; for each its id, the number of intervals and the intervals. -/
def gtidSetBytes (sets : List (Bytes × List Interval)) : Bytes :=
  le 8 sets.length ++ sets.flatMap fun s => s.1 ++ le 8 s.2.length ++ intervalsBytes s.2

/-- The limits of that encoding. -/
def GtidSetFits (sets : List (Bytes × List Interval)) : Prop :=
  sets.length < 2 ^ 64 ∧ ∀ s ∈ sets, s.1.length = 16 ∧ s.2.length < 2 ^ 64 ∧
    ∀ iv ∈ s.2, iv.start < 2 ^ 64 ∧ iv.end < 2 ^ 64 - 1

/-- The end of a format description event: nothing from servers that do not know checksums (`false`), otherwise the algorithm
(0 none, 1 CRC32) and the checksum of this event. -/
inductive FormatTail : Bool → ChecksumType → Bytes → Prop where
  | absent : FormatTail false .none []
  | none {sum : Bytes} (h : sum.length = 4) : FormatTail true .none (0 :: sum)
  | crc32 {sum : Bytes} (h : sum.length = 4) : FormatTail true .crc32 (1 :: sum)

/-- FORMAT_DESCRIPTION_EVENT (15), v4: binlog version, 50 bytes of server version padded with zeros, creation time (4), header
length (1), one post-header length per event type, and the tail. `lengths` is the table of post-header lengths; its entry 14
(type 15) is the length of everything before the tail. -/
inductive FormatBody : Bool → FormatDescriptionEvent → Bytes → Prop where
  | mk {known : Bool} {version : Nat} {server : RStr} {checksum : ChecksumType} {pad created lengths tail : Bytes}
      {headerLength : UInt8}
      (h1 : version < 2 ^ 16) (h2 : (0 : UInt8) ∉ utf8Bytes server) (h3 : ∀ b ∈ pad, b = 0)
      (h4 : (utf8Bytes server).length + pad.length = 50) (h5 : created.length = 4)
      (h6 : (lengths[14]?).map UInt8.toNat = some (57 + lengths.length)) (h7 : FormatTail known checksum tail) :
      FormatBody known ⟨version, server, checksum⟩
        (le 2 version ++ (utf8Bytes server ++ pad) ++ created ++ [headerLength] ++ lengths ++ tail)

end MysqlCdc.Spec
