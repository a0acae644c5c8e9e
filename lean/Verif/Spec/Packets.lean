import Verif.Spec.Events
import Verif.Model.Responses
/-!
# Wire formats of the client/server protocol

Written from the MySQL internals manual and the MariaDB knowledge base. Only data types of the model are used.
-/

namespace MysqlCdc.Spec

/-- A string ended by a zero byte; it cannot contain one. -/
def NullTerm (s : RStr) (enc : Bytes) : Prop := (0 : UInt8) ∉ utf8Bytes s ∧ enc = utf8Bytes s ++ [0]

/-- Whether the bit of weight `2^k` is set. -/
def hasBit (n k : Nat) : Bool := n / 2 ^ k % 2 == 1

/-! ## Server to client -/

/-- Protocol::HandshakeV10: protocol version, server version, connection id, first part of the scramble (8 bytes and a zero),
capabilities (bits 0-15), collation, status, capabilities (bits 16-31), length of the scramble, six zeros, capabilities (bits
32-63, MariaDB); then, if SECURE_CONNECTION (bit 15), the second part of the scramble with its zero in `max 13 (length - 8)`
bytes; then, if PLUGIN_AUTH (bit 19), the name of the plugin and a zero. -/
inductive Greeting : HandshakePacket → Bytes → Prop where
  | mk {protocol id caps collation status length : Nat} {version scramble1 scramble2 plugin : RStr}
      {versionBytes scrambleBytes extra : Bytes}
      (h1 : protocol < 2 ^ 8) (h2 : NullTerm version versionBytes) (h3 : id < 2 ^ 32) (h4 : NullTerm scramble1 scrambleBytes)
      (h5 : scrambleBytes.length = 9) (h6 : caps < 2 ^ 64) (h7 : collation < 2 ^ 8) (h8 : status < 2 ^ 16)
      (h9 : length < 2 ^ 8) {part2 pluginBytes : Bytes}
      (h10 : if hasBit caps 15 then NullTerm scramble2 part2 ∧ part2.length = max 13 (length - 8)
        else scramble2 = [] ∧ part2 = [])
      (h11 : if hasBit caps 19 then NullTerm plugin pluginBytes else plugin = [] ∧ pluginBytes = []) :
      Greeting ⟨protocol, version, id, scramble1 ++ scramble2, caps, collation, status, List.replicate 6 '\x00', length, plugin⟩
        (le 1 protocol ++ versionBytes ++ le 4 id ++ scrambleBytes ++ le 2 (caps % 2 ^ 16) ++ le 1 collation ++ le 2 status
          ++ le 2 (caps / 2 ^ 16 % 2 ^ 16) ++ le 1 length ++ List.replicate 6 0 ++ le 4 (caps / 2 ^ 32) ++ part2 ++ pluginBytes
          ++ extra)

/-- ERR_Packet after its first byte: code, then `#` and five characters of SQL state if marked, then the message. -/
inductive ErrorBody : ErrorPacket → Bytes → Prop where
  | marked {code : Nat} {state message : RStr} (h1 : code < 2 ^ 16) (h2 : state.length = 5) :
      ErrorBody ⟨code, message, some state⟩ (le 2 code ++ utf8Bytes ['#'] ++ utf8Bytes state ++ utf8Bytes message)
  | unmarked {code : Nat} {message : RStr} (h1 : code < 2 ^ 16) (h2 : message.head? ≠ some '#') :
      ErrorBody ⟨code, message, none⟩ (le 2 code ++ utf8Bytes message)

/-- The error handed to the user shows code, message and SQL state of the error packet with this body, if it is well-formed. -/
def Reports (e : Err) (body : Bytes) : Prop :=
  ∀ p, ErrorBody p body → ∃ context, e = .server context p.errorCode p.errorMessage p.sqlState

/-- Authentication switch request after its first byte: plugin name and data, both ended by a zero. -/
inductive SwitchBody : AuthPluginSwitchPacket → Bytes → Prop where
  | mk {name data : RStr} {nameBytes dataBytes extra : Bytes} (h1 : NullTerm name nameBytes) (h2 : NullTerm data dataBytes) :
      SwitchBody ⟨name, data⟩ (nameBytes ++ dataBytes ++ extra)

/-- EOF_Packet after its first byte: warning count, status. -/
inductive EofBody : EndOfFilePacket → Bytes → Prop where
  | mk {warnings status : Nat} {extra : Bytes} (h1 : warnings < 2 ^ 16) (h2 : status < 2 ^ 16) :
      EofBody ⟨warnings, status⟩ (le 2 warnings ++ le 2 status ++ extra)

/-- A cell of a text row: the byte 0xFB for NULL, otherwise a length-encoded string. -/
inductive TextCell : Option RStr → Bytes → Prop where
  | null : TextCell none [0xFB]
  | value {s : RStr} {enc : Bytes} (h1 : (utf8Bytes s).length < 2 ^ 63) (h2 : LenEncStr s enc) : TextCell (some s) enc

/-- A text row: its cells one after the other. -/
inductive TextRow : List (Option RStr) → Bytes → Prop where
  | nil : TextRow [] []
  | cons {c : Option RStr} {cs : List (Option RStr)} {enc rest : Bytes} (h1 : TextCell c enc) (h2 : TextRow cs rest) :
      TextRow (c :: cs) (enc ++ rest)

/-! ## Client to server -/

/-- COM_QUERY (3): statement to the end. -/
def QueryPacket (sql : RStr) (packet : Bytes) : Prop := packet = le 1 3 ++ utf8Bytes sql

/-- COM_REGISTER_SLAVE (21): server id; host, user and password each with a length byte; port, rank, master id. -/
inductive RegisterPacket (serverId : Nat) (host user password : Bytes) (port rank master : Nat) : Bytes → Prop where
  | mk (h1 : serverId < 2 ^ 32) (h2 : host.length < 2 ^ 8) (h3 : user.length < 2 ^ 8) (h4 : password.length < 2 ^ 8)
      (h5 : port < 2 ^ 16) (h6 : rank < 2 ^ 32) (h7 : master < 2 ^ 32) :
      RegisterPacket serverId host user password port rank master
        (le 1 21 ++ le 4 serverId ++ le 1 host.length ++ host ++ le 1 user.length ++ user ++ le 1 password.length ++ password
          ++ le 2 port ++ le 4 rank ++ le 4 master)

/-- COM_BINLOG_DUMP (18): position, flags, server id, file name to the end. -/
inductive DumpPacket (flags serverId : Nat) (filename : RStr) (position : Nat) : Bytes → Prop where
  | mk (h1 : position < 2 ^ 32) (h2 : flags < 2 ^ 16) (h3 : serverId < 2 ^ 32) :
      DumpPacket flags serverId filename position
        (le 1 18 ++ le 4 position ++ le 2 flags ++ le 4 serverId ++ utf8Bytes filename)

/-- The servers and intervals a `GtidSet` holds, in the order of its table. -/
def setsOf (g : GtidSet) : List (Bytes × List Interval) := g.uuidSets.map fun e => (e.2.sourceId.data, e.2.intervals)

/-- COM_BINLOG_DUMP_GTID (30): flags, server id, length and bytes of the file name, position, length and bytes of the GTID set
(the encoding of `gtidSetBytes`: half-open intervals). -/
inductive DumpGtidPacket (flags serverId : Nat) (filename : RStr) (position : Nat) (sets : List (Bytes × List Interval)) :
    Bytes → Prop where
  | mk (h1 : flags < 2 ^ 16) (h2 : serverId < 2 ^ 32) (h3 : (utf8Bytes filename).length < 2 ^ 32) (h4 : position < 2 ^ 64)
      (h5 : GtidSetFits sets) (h6 : (gtidSetBytes sets).length < 2 ^ 32) :
      DumpGtidPacket flags serverId filename position sets
        (le 1 30 ++ le 2 flags ++ le 4 serverId ++ le 4 (utf8Bytes filename).length ++ utf8Bytes filename ++ le 8 position
          ++ le 4 (gtidSetBytes sets).length ++ gtidSetBytes sets)

/-- SSLRequest: capabilities with SSL (bit 11) set, maximum packet size, collation, 23 zeros. -/
inductive SslPacket (caps maxPacket collation : Nat) : Bytes → Prop where
  | mk (h1 : caps < 2 ^ 32) (h2 : maxPacket < 2 ^ 32) (h3 : collation < 2 ^ 8) (h4 : hasBit caps 11) :
      SslPacket caps maxPacket collation (le 4 caps ++ le 4 maxPacket ++ le 1 collation ++ List.replicate 23 0)

/-- HandshakeResponse41 (PROTOCOL_41, bit 9, SECURE_CONNECTION, bit 15, and PLUGIN_AUTH, bit 19, set; the other bits that add
fields, 20 and 21, clear): capabilities, maximum packet size, collation, 23 zeros, user name and a zero, length byte and
authentication response; database and a zero if and only if CONNECT_WITH_DB (bit 3) is set; plugin name and a zero. -/
inductive ResponsePacket (caps maxPacket collation : Nat) (user : RStr) (auth : Bytes) (database : Option RStr) (plugin : RStr) :
    Bytes → Prop where
  | mk {userBytes databaseBytes pluginBytes : Bytes}
      (h1 : caps < 2 ^ 32) (h2 : maxPacket < 2 ^ 32) (h3 : collation < 2 ^ 8)
      (h4 : hasBit caps 9 ∧ hasBit caps 15 ∧ hasBit caps 19 ∧ ¬ hasBit caps 20 ∧ ¬ hasBit caps 21)
      (h5 : NullTerm user userBytes) (h6 : auth.length < 2 ^ 8) (h7 : hasBit caps 3 = database.isSome)
      (h8 : match database with | some d => NullTerm d databaseBytes | none => databaseBytes = [])
      (h9 : NullTerm plugin pluginBytes) :
      ResponsePacket caps maxPacket collation user auth database plugin
        (le 4 caps ++ le 4 maxPacket ++ le 1 collation ++ List.replicate 23 0 ++ userBytes ++ le 1 auth.length ++ auth
          ++ databaseBytes ++ pluginBytes)

end MysqlCdc.Spec
