import Verif.Model.Responses
import Verif.Model.Options
/-!
# Packets sent by the client (src/commands) and `encrypt_password`

`serialize` writes to a `Cursor<&mut Vec<u8>>`, which takes every byte and never fails, so the model returns the bytes.
-/

namespace MysqlCdc

/-- The foreign cryptographic functions: `sha1` and `sha256` (src/extensions.rs:26-36), and `Rsa::public_key_from_pem` followed
by `public_encrypt` with OAEP padding (src/connect.rs:144-150). OAEP draws random bytes; as a connection makes at most one such
call, `rsa` stands for the function with that draw fixed. Its result is the encrypted text, or `none` when openssl reports an
error. -/
structure Crypto where
  sha1 : Bytes → Bytes
  sha256 : Bytes → Bytes
  rsa : Bytes → Bytes → Option Bytes

/-- `xor`, src/extensions.rs:38-44. `i % slice2.len()` panics when `slice2` is empty and the loop is entered. -/
def xorBytes (slice1 slice2 : Bytes) : Res Bytes :=
  if slice2.isEmpty ∧ slice1 ≠ [] then .panic
  else .ok (slice1.mapIdx fun i b => b ^^^ slice2.getD (i % slice2.length) 0)

/-- `encrypt_password`, src/extensions.rs:11-24 -/
def encryptPassword (c : Crypto) (password scramble : RStr) (plugin : AuthPlugin) : Res Bytes :=
  match plugin with
  | .mySqlNativePassword =>
    let passwordHash := c.sha1 (utf8Bytes password)
    let concatHash := utf8Bytes scramble ++ c.sha1 passwordHash
    xorBytes passwordHash (c.sha1 concatHash)
  | .cachingSha2Password =>
    let passwordHash := c.sha256 (utf8Bytes password)
    let concatHash := utf8Bytes scramble ++ c.sha256 passwordHash
    xorBytes passwordHash (c.sha256 concatHash)

/-- `write_null_term_string`, src/extensions.rs:53-60 -/
def nullTermString (s : RStr) : Bytes := utf8Bytes s ++ [0]

/-- `CommandType` discriminants, src/commands/command_type.rs:3-26 -/
def COM_QUERY : Nat := 3
def COM_BINLOG_DUMP : Nat := 18
def COM_REGISTER_SLAVE : Nat := 21
def COM_BINLOG_DUMP_GTID : Nat := 30

/-- `QueryCommand::serialize`, src/commands/query_command.rs:16-24 -/
def queryCommand (sql : RStr) : Bytes := leBytes 1 COM_QUERY ++ utf8Bytes sql

/-- `RegisterSlaveCommand::serialize`, src/commands/register_slave_command.rs:17-33 -/
def registerSlaveCommand (serverId : Nat) : Bytes :=
  leBytes 1 COM_REGISTER_SLAVE ++ leBytes 4 serverId ++ leBytes 1 0 ++ leBytes 1 0 ++ leBytes 1 0 ++ leBytes 2 0
    ++ leBytes 4 0 ++ leBytes 4 0

/-- `DumpBinlogCommand::new` and `serialize`, src/commands/dump_binlog_command.rs:15-35 (`flags` is always 0) -/
def dumpBinlogCommand (serverId : Nat) (filename : RStr) (position : Nat) : Bytes :=
  leBytes 1 COM_BINLOG_DUMP ++ leBytes 4 position ++ leBytes 2 0 ++ leBytes 4 serverId ++ utf8Bytes filename

/-- The loop over intervals, src/commands/dump_binlog_gtid_command.rs:54-57. `interval.end + 1` can overflow. -/
def dumpIntervals (m : Mode) : List Interval → Res Bytes
  | [] => .ok []
  | iv :: ivs => do
    let e ← addU m 64 iv.end 1
    let rest ← dumpIntervals m ivs
    return leBytes 8 iv.start ++ leBytes 8 e ++ rest

/-- The loop over servers, src/commands/dump_binlog_gtid_command.rs:50-58 -/
def dumpUuidSets (m : Mode) : List UuidSet → Res Bytes
  | [] => .ok []
  | s :: ss => do
    let ivs ← dumpIntervals m s.intervals
    let rest ← dumpUuidSets m ss
    return s.sourceId.data ++ leBytes 8 s.intervals.length ++ ivs ++ rest

/-- The loop computing `data_length`, src/commands/dump_binlog_gtid_command.rs:40-45. A `usize` overflow would need 2^64 bytes
of intervals in memory and is not modelled. -/
def dumpDataLength (sets : List UuidSet) : Nat :=
  sets.foldl (fun n s => n + 16 + 8 + s.intervals.length * (8 + 8)) 8

/-- `DumpBinlogGtidCommand::new` and `serialize`, src/commands/dump_binlog_gtid_command.rs:16-61 -/
def dumpBinlogGtidCommand (m : Mode) (serverId : Nat) (filename : RStr) (position : Nat) (gtidSet : GtidSet) : Res Bytes := do
  let sets := gtidSet.uuidSets.values
  let body ← dumpUuidSets m sets
  return leBytes 1 COM_BINLOG_DUMP_GTID ++ leBytes 2 0 ++ leBytes 4 serverId
    ++ leBytes 4 (utf8Bytes filename).length ++ utf8Bytes filename ++ leBytes 8 position
    ++ leBytes 4 (dumpDataLength sets) ++ leBytes 8 sets.length ++ body

/-- `SslRequestCommand::new` and `serialize`, src/commands/ssl_request_command.rs:15-45 -/
def sslRequestCommand (collation : Nat) : Bytes :=
  let capabilities := CAP_LONG_FLAG ||| CAP_PROTOCOL_41 ||| CAP_SECURE_CONNECTION ||| CAP_SSL ||| CAP_PLUGIN_AUTH
  leBytes 4 capabilities ++ leBytes 4 0 ++ leBytes 1 collation ++ List.replicate 23 0

/-- `AuthenticateCommand::new` and `serialize`, src/commands/authenticate_command.rs:25-81 -/
def authenticateCommand (c : Crypto) (options : ReplicaOptions) (handshake : HandshakePacket) (plugin : AuthPlugin)
    (collation : Nat) : Res Bytes := do
  let capabilities := CAP_LONG_FLAG ||| CAP_PROTOCOL_41 ||| CAP_SECURE_CONNECTION ||| CAP_PLUGIN_AUTH
  let capabilities := if options.database.isSome then capabilities ||| CAP_CONNECT_WITH_DB else capabilities
  let encrypted ← encryptPassword c options.password handshake.scramble plugin
  return leBytes 4 capabilities ++ leBytes 4 0 ++ leBytes 1 collation ++ List.replicate 23 0
    ++ nullTermString options.username
    -- `encrypted_password.len() as u8`
    ++ leBytes 1 encrypted.length ++ encrypted
    ++ (match options.database with | some database => nullTermString database | none => [])
    ++ nullTermString handshake.authPluginName

/-- `AuthPluginSwitchCommand::new` and `serialize`, src/commands/auth_plugin_switch_command.rs:12-35 -/
def authPluginSwitchCommand (c : Crypto) (password scramble : RStr) (plugin : AuthPlugin) : Res Bytes :=
  encryptPassword c password scramble plugin

end MysqlCdc
