import Verif.Spec.AcceptedPackets
import Verif.Spec.Login
import Verif.Spec.Auth
import Verif.Spec.GtidGrammar
/-!
# The conversation of a client that sets up replication

A conversation is the list of the packets of both sides in order. `At … stage t`: after the conversation `t` the client is at `stage`.
-/

namespace MysqlCdc.Spec

/-- The number of the answer to packet number `n`: one more. Without overflow checks 0 comes after 255. -/
def NextNumber (m : Mode) (n k : Nat) : Prop := n < 255 ∧ k = n + 1 ∨ n = 255 ∧ m.checks = false ∧ k = 0

/-- A packet that is no error packet. -/
def NoError (q : Bytes) : Prop := ∃ b rest, q = b :: rest ∧ b ≠ 0xFF

/-- EOF packet, or one that starts alike. -/
def IsEof (q : Bytes) : Prop := ∃ rest, q = 0xFE :: rest

/-- The answer to a scramble with the hash function `h`: `h(password)` masked with `h(scramble ++ h(h(password)))`. -/
def Answer (h : Bytes → Bytes) (password scramble : RStr) (x : Bytes) : Prop :=
  let key := h (utf8Bytes scramble ++ h (h (utf8Bytes password)))
  Masked key (h (utf8Bytes password)) x ∧ (key = [] → x = [])

/-- The answer by authentication method; there are two methods. -/
inductive AuthAnswer (c : Crypto) (password scramble : RStr) : (method : RStr) → Bytes → Prop where
  | native {x : Bytes} (h : Answer c.sha1 password scramble x) : AuthAnswer c password scramble "mysql_native_password".toList x
  | sha2 {x : Bytes} (h : Answer c.sha256 password scramble x) : AuthAnswer c password scramble "caching_sha2_password".toList x

/-- Capabilities, maximum packet size 0, collation utf8mb4_general_ci (45), 23 zeros. -/
def clientHead (caps : Nat) : Bytes := le 4 caps ++ le 4 0 ++ [45] ++ List.replicate 23 0

/-- LONG_FLAG, PROTOCOL_41, SECURE_CONNECTION, PLUGIN_AUTH. -/
def clientCaps : Nat := 2 ^ 2 + 2 ^ 9 + 2 ^ 15 + 2 ^ 19

/-- Capabilities with CONNECT_WITH_DB (bit 3) when there is a database, user, answer with its length, database, method. -/
def Response (o : ReplicaOptions) (method : RStr) (auth packet : Bytes) : Prop :=
  packet = clientHead (match o.database with | some _ => clientCaps + 2 ^ 3 | none => clientCaps) ++ utf8Bytes o.username ++ [0]
    ++ le 1 auth.length ++ auth ++ (match o.database with | some d => utf8Bytes d ++ [0] | none => []) ++ utf8Bytes method ++ [0]

/-- The requests after the log-in. -/
inductive Request where
  | status | heartbeat | setChecksum | getChecksum | capability | connectState | strict | duplicates | register | dump
  deriving DecidableEq

/-- Answered by a result set. -/
def Request.hasResult : Request → Prop
  | .status | .getChecksum => True
  | _ => False

/-- What is known about the server: whether it is a MariaDB; the place to read from; the checksum algorithm. -/
structure Known' where
  maria : Bool
  place : RStr × Nat
  checksum : Option ChecksumType

/-- A MariaDB GTID as text. -/
def gtidNumeral (g : MGtid) : RStr := Nat.toDigits 10 g.domainId ++ ['-'] ++ Nat.toDigits 10 g.serverId ++ ['-'] ++ Nat.toDigits 10 g.sequence

/-- The server id announced with the request for the stream. -/
def dumpId (o : ReplicaOptions) : Nat := if o.blocking then o.serverId else 0

/-- The packet of a request. -/
inductive Asks (o : ReplicaOptions) (i : Known') : Request → Bytes → Prop where
  | status {p : Bytes} (h : QueryPacket "show master status".toList p) : Asks o i .status p
  | heartbeat {p : Bytes}
      (h : QueryPacket ("set @master_heartbeat_period=".toList ++ Nat.toDigits 10 (o.heartbeatInterval / 10 ^ 6 * 10 ^ 6)) p) :
      Asks o i .heartbeat p
  | setChecksum {p : Bytes} (h : QueryPacket "SET @master_binlog_checksum= @@global.binlog_checksum".toList p) : Asks o i .setChecksum p
  | getChecksum {p : Bytes} (h : QueryPacket "SELECT @master_binlog_checksum".toList p) : Asks o i .getChecksum p
  | capability {p : Bytes} (h : QueryPacket "SET @mariadb_slave_capability=4".toList p) : Asks o i .capability p
  | connectState {l : GtidList} {p : Bytes} (hl : o.binlog.gtidList = some l)
      (h : QueryPacket ("SET @slave_connect_state='".toList ++ [','].intercalate (l.gtids.map gtidNumeral) ++ "'".toList) p) :
      Asks o i .connectState p
  | strict {p : Bytes} (h : QueryPacket "SET @slave_gtid_strict_mode=0".toList p) : Asks o i .strict p
  | duplicates {p : Bytes} (h : QueryPacket "SET @slave_gtid_ignore_duplicates=0".toList p) : Asks o i .duplicates p
  | register {p : Bytes} (h : RegisterPacket o.serverId [] [] [] 0 0 0 p) : Asks o i .register p
  | dump {p : Bytes} (hs : o.binlog.startingStrategy ≠ .fromGtid ∨ i.maria = true)
      (h : DumpPacket 0 (dumpId o) i.place.1 i.place.2 p) : Asks o i .dump p
  | dumpGtid {g : GtidSet} {p : Bytes} (hs : o.binlog.startingStrategy = .fromGtid) (hm : i.maria = false) (hg : o.binlog.gtidSet = some g)
      (h : DumpGtidPacket 0 (dumpId o) i.place.1 i.place.2 (setsOf g) p) : Asks o i .dump p

/-- Whether the client must ask for the end of the log. -/
def wantsEnd (o : ReplicaOptions) : Prop := o.binlog.startingStrategy = .fromEnd ∧ o.binlog.filename = []

/-- Which request comes after which (`none`: right after the log-in). -/
inductive Order (o : ReplicaOptions) (maria : Bool) : Option Request → Request → Prop where
  | status (h : wantsEnd o) : Order o maria none .status
  | heartbeat (h : ¬wantsEnd o) : Order o maria none .heartbeat
  | heartbeat' : Order o maria (some .status) .heartbeat
  | setChecksum : Order o maria (some .heartbeat) .setChecksum
  | getChecksum : Order o maria (some .setChecksum) .getChecksum
  | mysql (h : maria = false) : Order o maria (some .getChecksum) .dump
  | capability (h : maria = true) : Order o maria (some .getChecksum) .capability
  | position (h : o.binlog.startingStrategy ≠ .fromGtid) : Order o maria (some .capability) .dump
  | connectState (h : o.binlog.startingStrategy = .fromGtid) : Order o maria (some .capability) .connectState
  | strict : Order o maria (some .connectState) .strict
  | duplicates : Order o maria (some .strict) .duplicates
  | register : Order o maria (some .duplicates) .register
  | dump : Order o maria (some .register) .dump

inductive Stage where
  /-- Nothing has been read. -/
  | start
  /-- The greeting has been read; `k` is the number to answer with. -/
  | greeted (g : HandshakePacket) (k : Nat)
  /-- Encryption has been requested. -/
  | encrypting
  /-- User and authentication answer have been sent. -/
  | responded (g : HandshakePacket)
  /-- The server wants another method. -/
  | switching (g : HandshakePacket) (s : AuthPluginSwitchPacket) (k : Nat)
  /-- It has been answered. -/
  | switched (g : HandshakePacket) (s : AuthPluginSwitchPacket)
  /-- The server sent `q`, which goes on with caching_sha2_password. -/
  | sha2 (g : HandshakePacket) (scramble : RStr) (q : Bytes) (k : Nat)
  /-- The key has been asked for. -/
  | keyAsked (g : HandshakePacket) (scramble : RStr)
  /-- The key has been received; `body` is the encrypted password. -/
  | keyed (g : HandshakePacket) (body : Bytes) (k : Nat)
  /-- The password has been sent. -/
  | proved (g : HandshakePacket)
  | loggedIn (g : HandshakePacket)
  /-- The last request, if any, has been answered. -/
  | ready (i : Known') (last : Option Request)
  | asked (i : Known') (r : Request)
  /-- Within the column definitions of the result set. -/
  | columns (i : Known') (r : Request)
  /-- Within the rows. -/
  | rows (i : Known') (r : Request) (rs : List (List RStr))
  /-- After the rows. -/
  | result (i : Known') (r : Request) (rs : List (List RStr))

/-- Encryption is not wanted, or wanted if offered (bit 11) and not offered. -/
def Plain (o : ReplicaOptions) (g : HandshakePacket) : Prop :=
  o.sslMode = .disabled ∨ o.sslMode = .ifAvailable ∧ hasBit g.serverCapabilities 11 = false

/-- The conversation. -/
inductive At (m : Mode) (c : Crypto) (o : ReplicaOptions) : Stage → List Packet → Prop where
  | start : At m c o .start []
  | greeting {n k : Nat} {q : Bytes} {g : HandshakePacket} (he : NoError q) (hg : LooseGreeting g q) (hm : Known g.authPluginName)
      (hk : NextNumber m n k) : At m c o (.greeted g k) [.received n q]
  | encrypt {t : List Packet} {g : HandshakePacket} {k : Nat} (ht : At m c o (.greeted g k) t) (hw : o.sslMode ≠ .disabled)
      (ho : hasBit g.serverCapabilities 11 = true) : At m c o .encrypting (t ++ [.sent k (clientHead (clientCaps + 2 ^ 11))])
  | respond {t : List Packet} {g : HandshakePacket} {k : Nat} {auth p : Bytes} (ht : At m c o (.greeted g k) t) (hp : Plain o g)
      (ha : AuthAnswer c o.password g.scramble g.authPluginName auth) (hr : Response o g.authPluginName auth p) :
      At m c o (.responded g) (t ++ [.sent k p])
  | ok {t : List Packet} {g : HandshakePacket} {n : Nat} {rest : Bytes} (ht : At m c o (.responded g) t) :
      At m c o (.loggedIn g) (t ++ [.received n (0 :: rest)])
  | switch {t : List Packet} {g : HandshakePacket} {s : AuthPluginSwitchPacket} {n k : Nat} {body : Bytes}
      (ht : At m c o (.responded g) t) (hs : LooseSwitch s body) (hk : NextNumber m n k) :
      At m c o (.switching g s k) (t ++ [.received n (0xFE :: body)])
  | more {t : List Packet} {g : HandshakePacket} {n k : Nat} {b : UInt8} {rest : Bytes} (ht : At m c o (.responded g) t)
      (hb : b ≠ 0 ∧ b ≠ 0xFE ∧ b ≠ 0xFF) (hk : NextNumber m n k) :
      At m c o (.sha2 g g.scramble (b :: rest) k) (t ++ [.received n (b :: rest)])
  | answer {t : List Packet} {g : HandshakePacket} {s : AuthPluginSwitchPacket} {k : Nat} {auth : Bytes}
      (ht : At m c o (.switching g s k) t) (ha : AuthAnswer c o.password s.authPluginData s.authPluginName auth) :
      At m c o (.switched g s) (t ++ [.sent k auth])
  | native {t : List Packet} {g : HandshakePacket} {s : AuthPluginSwitchPacket} {n : Nat} {q : Bytes} (ht : At m c o (.switched g s) t)
      (hm : s.authPluginName ≠ "caching_sha2_password".toList) (he : NoError q) : At m c o (.loggedIn g) (t ++ [.received n q])
  | switchedSha2 {t : List Packet} {g : HandshakePacket} {s : AuthPluginSwitchPacket} {n k : Nat} {q : Bytes}
      (ht : At m c o (.switched g s) t) (hm : s.authPluginName = "caching_sha2_password".toList) (he : NoError q)
      (hk : NextNumber m n k) : At m c o (.sha2 g s.authPluginData q k) (t ++ [.received n q])
  | fast {t : List Packet} {g : HandshakePacket} {scramble : RStr} {rest : Bytes} {k : Nat}
      (ht : At m c o (.sha2 g scramble (1 :: 3 :: rest) k) t) : At m c o (.loggedIn g) t
  | askKey {t : List Packet} {g : HandshakePacket} {scramble : RStr} {q : Bytes} {k : Nat} (ht : At m c o (.sha2 g scramble q k) t)
      (hq : q ≠ [1] ∧ ∀ rest, q ≠ 1 :: 3 :: rest) : At m c o (.keyAsked g scramble) (t ++ [.sent k [2]])
  | key {t : List Packet} {g : HandshakePacket} {scramble : RStr} {b : UInt8} {key x body : Bytes} {n k : Nat}
      (ht : At m c o (.keyAsked g scramble) t) (he : b ≠ 0xFF) (hx : Masked (utf8Bytes scramble) (utf8Bytes o.password ++ [0]) x)
      (hs : scramble ≠ []) (hr : c.rsa key x = some body) (hk : NextNumber m n k) :
      At m c o (.keyed g body k) (t ++ [.received n (b :: key)])
  | password {t : List Packet} {g : HandshakePacket} {body : Bytes} {k : Nat} (ht : At m c o (.keyed g body k) t) :
      At m c o (.proved g) (t ++ [.sent k body])
  | proof {t : List Packet} {g : HandshakePacket} {n : Nat} {q : Bytes} (ht : At m c o (.proved g) t) (he : NoError q) :
      At m c o (.loggedIn g) (t ++ [.received n q])
  | login {t : List Packet} {g : HandshakePacket} {maria : Bool} (ht : At m c o (.loggedIn g) t)
      (hm : maria = true ↔ IsMariaDb g.serverVersion) :
      At m c o (.ready ⟨maria, (o.binlog.filename, o.binlog.position), none⟩ none) t
  | ask {t : List Packet} {i : Known'} {last : Option Request} {r : Request} {p : Bytes} (ht : At m c o (.ready i last) t)
      (ho : Order o i.maria last r) (hp : Asks o i r p) : At m c o (.asked i r) (t ++ [.sent 0 p])
  | answered {t : List Packet} {i : Known'} {r : Request} {n : Nat} {q : Bytes} (ht : At m c o (.asked i r) t) (hr : ¬r.hasResult)
      (hd : r ≠ .dump) (he : NoError q) : At m c o (.ready i (some r)) (t ++ [.received n q])
  | count {t : List Packet} {i : Known'} {r : Request} {n : Nat} {q : Bytes} (ht : At m c o (.asked i r) t) (hr : r.hasResult)
      (he : NoError q) : At m c o (.columns i r) (t ++ [.received n q])
  | column {t : List Packet} {i : Known'} {r : Request} {n : Nat} {q : Bytes} (ht : At m c o (.columns i r) t) (hn : q ≠ [])
      (he : ¬IsEof q) : At m c o (.columns i r) (t ++ [.received n q])
  | columnsEnd {t : List Packet} {i : Known'} {r : Request} {n : Nat} {q : Bytes} (ht : At m c o (.columns i r) t) (he : IsEof q) :
      At m c o (.rows i r []) (t ++ [.received n q])
  | row {t : List Packet} {i : Known'} {r : Request} {rs : List (List RStr)} {n : Nat} {q : Bytes} {cells : List RStr}
      (ht : At m c o (.rows i r rs) t) (he : NoError q) (hn : ¬IsEof q) (hc : LooseRow cells q) :
      At m c o (.rows i r (rs ++ [cells])) (t ++ [.received n q])
  | rowsEnd {t : List Packet} {i : Known'} {r : Request} {rs : List (List RStr)} {n : Nat} {q : Bytes} (ht : At m c o (.rows i r rs) t)
      (he : IsEof q) : At m c o (.result i r rs) (t ++ [.received n q])
  | end {t : List Packet} {i : Known'} {file text : RStr} {more : List RStr} {position : Nat}
      (ht : At m c o (.result i .status [file :: text :: more]) t) (hp : Number 32 position text) :
      At m c o (.ready { i with place := (file, position) } (some .status)) t
  | checksum {t : List Packet} {i : Known'} {name : RStr} {more : List RStr} {rs : List (List RStr)} {checksum : ChecksumType}
      (ht : At m c o (.result i .getChecksum ((name :: more) :: rs)) t) (hc : ChecksumName checksum name) :
      At m c o (.ready { i with checksum := some checksum } (some .getChecksum)) t

/-- A conversation so far, perhaps with one more packet received that the client cannot go on from. -/
def Began (m : Mode) (c : Crypto) (o : ReplicaOptions) (t : List Packet) : Prop :=
  ∃ stage, At m c o stage t ∨ ∃ t0 n q, t = t0 ++ [.received n q] ∧ At m c o stage t0

/-- The client after the log-in: nothing is known of a transaction, and it will read from the place. -/
def restarted (client : Client) (place : RStr × Nat) : Client :=
  { client with
    transaction := false, mariaGtid := none, mysqlGtid := none,
    options := { client.options with binlog := { client.options.binlog with filename := place.1, position := place.2 } } }

/-- The client at a stage, when it was `client` at the start. -/
def Stage.client (client : Client) : Stage → Client
  | .ready i _ | .asked i _ | .columns i _ | .rows i _ _ | .result i _ _ => restarted client i.place
  | _ => client

/-- A packet that can be sent: its length, kept in 32 bits, fits into the three bytes that are sent of it. -/
def Sendable (p : Bytes) : Prop := p.length % 2 ^ 32 < 2 ^ 24

/-- The fields of the options are values of their Rust types; the GTID set fits into a request. -/
structure FitsRequests (o : ReplicaOptions) : Prop where
  serverId : o.serverId < 2 ^ 32
  position : o.binlog.position < 2 ^ 32
  filename : (utf8Bytes o.binlog.filename).length < 2 ^ 32
  gtidSet : ∀ g, o.binlog.gtidSet = some g → GtidSetFits (setsOf g) ∧ (gtidSetBytes (setsOf g)).length < 2 ^ 32

end MysqlCdc.Spec
