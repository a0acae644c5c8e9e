import Verif.Model.Channel
import Verif.Model.Client
import Verif.Model.Commands
import Verif.Model.Iterators
/-!
# Connecting and setting up replication (src/connect.rs, src/configure.rs, src/providers/*/..._provider.rs,
src/binlog_client.rs:36-61)
-/

namespace MysqlCdc

/-- What set-up code works on: the client and the connection. -/
structure Sess where
  client : Client
  chan : Channel
  deriving DecidableEq, Repr

/-- Code that reads and writes the connection and the client. Unlike a cursor's position, the state matters also after an error. -/
def S (α : Type) : Type := Sess → Res α × Sess

namespace S

def ret {α : Type} (a : α) : S α := fun s => (.ok a, s)

def seq {α β : Type} (p : S α) (f : α → S β) : S β := fun s =>
  match p s with
  | (.ok a, s) => f a s
  | (.err e, s) => (.err e, s)
  | (.panic, s) => (.panic, s)
  | (.hang, s) => (.hang, s)

instance : Monad S where
  pure := ret
  bind := seq

/-- An outcome that does not touch the session. -/
def lift {α : Type} (r : Res α) : S α := fun s => (r, s)

def fail {α : Type} (e : Err) : S α := lift (.err e)

/-- `self` -/
def client : S Client := fun s => (.ok s.client, s)
def setClient (c : Client) : S Unit := fun s => (.ok (), { s with client := c })

/-- `channel.read_packet()?` -/
def readPacket : S (Bytes × Nat) := fun s =>
  let (r, chan) := s.chan.readPacket
  (r, { s with chan })

/-- `channel.write_packet(&packet, seq_num)?` -/
def writePacket (packet : Bytes) (seqNum : Nat) : S Unit := fun s =>
  let (r, chan) := s.chan.writePacket packet seqNum
  (r, { s with chan })

end S

/-! ## src/connect.rs -/

/-- `get_auth_plugin`, src/connect.rs:158-167 -/
def getAuthPlugin (name : RStr) : Res AuthPlugin :=
  if name = MY_SQL_NATIVE_PASSWORD then .ok .mySqlNativePassword
  else if name = CACHING_SHA2_PASSWORD then .ok .cachingSha2Password
  else .err (.str "auth plugin is not supported.")

/-- `packet[i]` -/
def byteAt (packet : Bytes) (i : Nat) : Res UInt8 :=
  match packet[i]? with
  | some b => .ok b
  | none => .panic

/-- Lines 142-150: the password, zero-terminated, xored with the scramble and encrypted with the server's key. -/
def rsaPassword (c : Crypto) (publicKey : Bytes) (password scramble : RStr) : Res Bytes := do
  let encrypted ← xorBytes (utf8Bytes password ++ [0]) (utf8Bytes scramble)
  match c.rsa publicKey encrypted with
  | some body => .ok body
  | none => .err .openssl

/-- `packet[0] == 0x01 && packet[1] == 0x03`, src/connect.rs:120 -/
def isFastAuthSuccess (packet : Bytes) : Res Bool := do
  let b0 ← byteAt packet 0
  if b0 = 0x01 then
    let b1 ← byteAt packet 1
    return b1 == 0x03
  else return false

/-- `authenticate_sha_256`, src/connect.rs:110-156 -/
def authenticateSha256 (m : Mode) (c : Crypto) (packet : Bytes) (scramble : RStr) (seqNum : Nat) (useSsl : Bool) : S Unit := do
  let done ← S.lift (isFastAuthSuccess packet)
  if done then return ()
  else
    let self ← S.client
    if useSsl then
      S.writePacket (utf8Bytes self.options.password ++ [0]) seqNum
      let (packet, _) ← S.readPacket
      S.lift (checkErrorPacket packet "Sending clear password error.")
    else
      S.writePacket [0x02] seqNum
      let (packet, seqNum) ← S.readPacket
      S.lift (checkErrorPacket packet "Requesting caching_sha2_password public key.")
      let body ← S.lift (rsaPassword c (packet.drop 1) self.options.password scramble)
      let next ← S.lift (addU m 8 seqNum 1)
      S.writePacket body next
      let (packet, _) ← S.readPacket
      S.lift (checkErrorPacket packet "Authentication error.")

/-- `handle_auth_plugin_switch`, src/connect.rs:80-108 -/
def handleAuthPluginSwitch (m : Mode) (c : Crypto) (switch : AuthPluginSwitchPacket) (seqNum : Nat) (useSsl : Bool) :
    S Unit := do
  let plugin ← S.lift (getAuthPlugin switch.authPluginName)
  let self ← S.client
  let command ← S.lift (authPluginSwitchCommand c self.options.password switch.authPluginData plugin)
  S.writePacket command seqNum
  let (packet, seqNum) ← S.readPacket
  S.lift (checkErrorPacket packet "Authentication switch error.")
  if switch.authPluginName = CACHING_SHA2_PASSWORD then
    let next ← S.lift (addU m 8 seqNum 1)
    authenticateSha256 m c packet switch.authPluginData next useSsl
  else return ()

/-- The part of `authenticate` about encryption, src/connect.rs:37-52. `upgrade_to_ssl` is `unimplemented!()`
(src/packet_channel.rs:42-44), so this never returns `true`. -/
def negotiateSsl (m : Mode) (handshake : HandshakePacket) (seqNum : Nat) : S (Bool × Nat) := do
  let self ← S.client
  if self.options.sslMode ≠ .disabled then
    let sslAvailable : Bool := handshake.serverCapabilities &&& CAP_SSL != 0
    if !sslAvailable && self.options.sslMode.code ≥ SslMode.require.code then
      S.fail (.str "The server doesn't support SSL encryption")
    else if sslAvailable then
      S.writePacket (sslRequestCommand UTF8_MB4_GENERAL_CI) seqNum
      let _next ← S.lift (addU m 8 seqNum 1)
      S.lift .panic
    else return (false, seqNum)
  else return (false, seqNum)

/-- `authenticate`, src/connect.rs:30-78 -/
def authenticate (m : Mode) (c : Crypto) (handshake : HandshakePacket) (plugin : AuthPlugin) (seqNum : Nat) : S Unit := do
  let (useSsl, seqNum) ← negotiateSsl m handshake seqNum
  let self ← S.client
  let command ← S.lift (authenticateCommand c self.options handshake plugin UTF8_MB4_GENERAL_CI)
  S.writePacket command seqNum
  let (packet, seqNum) ← S.readPacket
  S.lift (checkErrorPacket packet "Authentication error.")
  let b ← S.lift (byteAt packet 0)
  if b = RESP_OK then return ()
  else if b = RESP_EOF then  -- `AUTH_PLUGIN_SWITCH` is 0xFE too
    let switch ← S.lift (parseAuthSwitch.run (packet.drop 1))
    let next ← S.lift (addU m 8 seqNum 1)
    handleAuthPluginSwitch m c switch next useSsl
  else
    let next ← S.lift (addU m 8 seqNum 1)
    authenticateSha256 m c packet handshake.scramble next useSsl

/-- `connect`, src/connect.rs:19-28, after `PacketChannel::new` -/
def connect (m : Mode) (c : Crypto) : S DatabaseProvider := do
  let (packet, seqNum) ← S.readPacket
  S.lift (checkErrorPacket packet "Initial handshake error.")
  let handshake ← S.lift (parseHandshake.run packet)
  let plugin ← S.lift (getAuthPlugin handshake.authPluginName)
  let next ← S.lift (addU m 8 seqNum 1)
  authenticate m c handshake plugin next
  return DatabaseProvider.fromServer handshake.serverVersion

/-! ## src/configure.rs -/

/-- The loop skipping column definitions, src/configure.rs:74-80. Every packet takes at least four bytes from the connection, so
the loop ends; the guard only makes that visible to Lean. -/
def skipMetadata (s : Sess) : Res Unit × Sess :=
  match S.readPacket s with
  | (.ok (packet, _), s') =>
    match packet with
    | [] => (.panic, s')
    | b :: _ =>
      if b = RESP_EOF then (.ok (), s')
      else if s'.chan.input.length < s.chan.input.length then skipMetadata s'
      else (.hang, s')
  | (.err e, s') => (.err e, s')
  | (.panic, s') => (.panic, s')
  | (.hang, s') => (.hang, s')
  termination_by s.chan.input.length

/-- The loop reading rows, src/configure.rs:83-90 -/
def readRows (s : Sess) : Res (List (List RStr)) × Sess :=
  match S.readPacket s with
  | (.ok (packet, _), s') =>
    match checkErrorPacket packet "Query result set error." with
    | .ok _ =>
      match packet with
      | [] => (.panic, s')
      | b :: _ =>
        if b = RESP_EOF then (.ok [], s')
        else
          match parseResultSetRow.run packet with
          | .ok row =>
            if s'.chan.input.length < s.chan.input.length then
              match readRows s' with
              | (.ok rows, s'') => (.ok (row :: rows), s'')
              | (.err e, s'') => (.err e, s'')
              | (.panic, s'') => (.panic, s'')
              | (.hang, s'') => (.hang, s'')
            else (.hang, s')
          | .err e => (.err e, s')
          | .panic => (.panic, s')
          | .hang => (.hang, s')
    | .err e => (.err e, s')
    | .panic => (.panic, s')
    | .hang => (.hang, s')
  | (.err e, s') => (.err e, s')
  | (.panic, s') => (.panic, s')
  | (.hang, s') => (.hang, s')
  termination_by s.chan.input.length

/-- `read_result_set`, src/configure.rs:67-92 -/
def readResultSet : S (List (List RStr)) := do
  let (packet, _) ← S.readPacket
  S.lift (checkErrorPacket packet "Reading result set error.")
  (skipMetadata : S Unit)
  readRows

/-- `result_set[i].cells[j]` -/
def cellAt (rows : List (List RStr)) (i j : Nat) : Res RStr :=
  match rows[i]? with
  | none => .panic
  | some row =>
    match row[j]? with
    | none => .panic
    | some cell => .ok cell

/-- `adjust_starting_position`, src/configure.rs:12-35. The file name is assigned before the position is parsed. -/
def adjustStartingPosition : S Unit := do
  let self ← S.client
  if self.options.binlog.startingStrategy ≠ .fromEnd then return ()
  else if self.options.binlog.filename ≠ [] then return ()
  else
    S.writePacket (queryCommand "show master status".toList) 0
    let resultSet ← readResultSet
    if resultSet.length ≠ 1 then S.fail (.str "Could not read master binlog position.")
    else
      let filename ← S.lift (cellAt resultSet 0 0)
      S.setClient (self.setPosition filename self.options.binlog.position)
      let text ← S.lift (cellAt resultSet 0 1)
      let position ← S.lift (parseUnsigned 32 text)
      S.setClient (self.setPosition filename position)

/-- `set_master_heartbeat`, src/configure.rs:37-46 (`u128` arithmetic cannot overflow) -/
def setMasterHeartbeat : S Unit := do
  let self ← S.client
  let milliseconds := self.options.heartbeatInterval / 10 ^ 6
  let nanoseconds := milliseconds * 1000 * 1000
  S.writePacket (queryCommand ("set @master_heartbeat_period=".toList ++ showNat nanoseconds)) 0
  let (packet, _) ← S.readPacket
  S.lift (checkErrorPacket packet "Setting master heartbeat error.")

/-- `set_master_binlog_checksum`, src/configure.rs:48-65 -/
def setMasterBinlogChecksum : S ChecksumType := do
  S.writePacket (queryCommand "SET @master_binlog_checksum= @@global.binlog_checksum".toList) 0
  let (packet, _) ← S.readPacket
  S.lift (checkErrorPacket packet "Setting master_binlog_checksum error.")
  S.writePacket (queryCommand "SELECT @master_binlog_checksum".toList) 0
  let resultSet ← readResultSet
  let cell ← S.lift (cellAt resultSet 0 0)
  S.lift (ChecksumType.fromName cell)

/-! ## Providers -/

/-- `replicate_mysql`, src/providers/mysql/mysql_provider.rs:8-33 -/
def replicateMysql (m : Mode) (serverId : Nat) : S Unit := do
  let self ← S.client
  let binlog := self.options.binlog
  if binlog.startingStrategy = .fromGtid then
    match binlog.gtidSet with
    | some gtidSet =>
      let command ← S.lift (dumpBinlogGtidCommand m serverId binlog.filename binlog.position gtidSet)
      S.writePacket command 0
    | none => S.fail (.str "GtidSet was not specified")
  else S.writePacket (dumpBinlogCommand serverId binlog.filename binlog.position) 0

/-- A query whose answer is only checked for an error. -/
def simpleQuery (sql : RStr) (message : String) : S Unit := do
  S.writePacket (queryCommand sql) 0
  let (packet, _) ← S.readPacket
  S.lift (checkErrorPacket packet message)

/-- `register_gtid_slave`, src/providers/mariadb/mariadb_provider.rs:37-62 -/
def registerGtidSlave (serverId : Nat) (gtidList : RStr) : S Unit := do
  simpleQuery ("SET @slave_connect_state='".toList ++ gtidList ++ "'".toList) "Setting @slave_connect_state error."
  simpleQuery "SET @slave_gtid_strict_mode=0".toList "Setting @slave_gtid_strict_mode error."
  simpleQuery "SET @slave_gtid_ignore_duplicates=0".toList "Setting @slave_gtid_ignore_duplicates error."
  S.writePacket (registerSlaveCommand serverId) 0
  let (packet, _) ← S.readPacket
  S.lift (checkErrorPacket packet "Registering slave error.")

/-- `replicate_mariadb`, src/providers/mariadb/mariadb_provider.rs:10-35 -/
def replicateMariadb (serverId : Nat) : S Unit := do
  simpleQuery "SET @mariadb_slave_capability=4".toList "Setting @mariadb_slave_capability error."
  let self ← S.client
  let binlog := self.options.binlog
  if binlog.startingStrategy = .fromGtid then
    match binlog.gtidList with
    | some gtidList =>
      registerGtidSlave self.options.serverId gtidList.display
      S.writePacket (dumpBinlogCommand serverId binlog.filename binlog.position) 0
    | none => S.fail (.str "GtidList was not specified")
  else S.writePacket (dumpBinlogCommand serverId binlog.filename binlog.position) 0

/-! ## src/binlog_client.rs -/

/-- `self.transaction = false; self.maria_gtid = None; self.mysql_gtid = None`, src/binlog_client.rs:41-43 -/
def resetOnReconnect : S Unit := fun s =>
  (.ok (), { s with client := { s.client with transaction := false, mariaGtid := none, mysqlGtid := none } })

/-- `replicate`, src/binlog_client.rs:37-61, on an open connection. The result is the checksum type for `BinlogEvents::new`. -/
def setUp (m : Mode) (c : Crypto) : S ChecksumType := do
  let provider ← connect m c
  resetOnReconnect
  adjustStartingPosition
  setMasterHeartbeat
  let checksum ← setMasterBinlogChecksum
  let self ← S.client
  let serverId := if self.options.blocking then self.options.serverId else 0
  match provider with
  | .mariaDB => replicateMariadb serverId
  | .mySQL => replicateMysql m serverId
  return checksum

/-- `replicate`, src/binlog_client.rs:37-61: the stream of events, and the client afterwards. `net` is what connecting gives. -/
def Client.replicate (m : Mode) (c : Crypto) (self : Client) (net : Except IoKind Channel) : Res BinlogEvents × Client :=
  match Channel.open self.options net with
  | .ok chan =>
    match setUp m c { client := self, chan } with
    | (.ok checksum, s) => (.ok (BinlogEvents.new s.chan checksum), s.client)
    | (.err e, s) => (.err e, s.client)
    | (.panic, s) => (.panic, s.client)
    | (.hang, s) => (.hang, s.client)
  | .err e => (.err e, self)
  | .panic => (.panic, self)
  | .hang => (.hang, self)

end MysqlCdc
