import Verif.Spec.Dialogue
import Verif.Spec.Frames
/-!
# How the set-up of replication ends when it fails
-/

namespace MysqlCdc.Spec

/-- The errors for a packet that cannot be read: it is too short, a text is not UTF-8, or a length is not one. -/
def Unreadable (e : Err) : Prop :=
  e = .io .unexpectedEof ∨ e = .io .invalidData ∨ e = .fromUtf8 ∨ e = .str "Length encoded integer cannot be NULL." ∨
    e = .str "Unexpected length-encoded integer"

inductive Ending where
  /-- The error `e` is returned. -/
  | error (e : Err)
  /-- The packet cannot be read, and an error is returned. -/
  | malformed
  /-- The program panics. -/
  | crash

/-- The outcome that the ending stands for. -/
def Ending.Is {α : Type} (r : Res α) : Ending → Prop
  | .error e => r = .err e
  | .malformed => ∃ e, r = .err e ∧ Unreadable e
  | .crash => r = .panic

/-- The first words of the error when the server answers with an error packet. There are none where the client does not wait for a
packet, and where it does not look for errors: in the column definitions. -/
def heading : Stage → Option String
  | .start => some "Initial handshake error."
  | .responded _ => some "Authentication error."
  | .switched _ _ => some "Authentication switch error."
  | .keyAsked _ _ => some "Requesting caching_sha2_password public key."
  | .proved _ => some "Authentication error."
  | .asked _ .status | .asked _ .getChecksum => some "Reading result set error."
  | .asked _ .heartbeat => some "Setting master heartbeat error."
  | .asked _ .setChecksum => some "Setting master_binlog_checksum error."
  | .asked _ .capability => some "Setting @mariadb_slave_capability error."
  | .asked _ .connectState => some "Setting @slave_connect_state error."
  | .asked _ .strict => some "Setting @slave_gtid_strict_mode error."
  | .asked _ .duplicates => some "Setting @slave_gtid_ignore_duplicates error."
  | .asked _ .register => some "Registering slave error."
  | .rows _ _ _ => some "Query result set error."
  | _ => none

/-- The client waits for a packet. -/
def Waits (st : Stage) : Prop := (∃ head, heading st = some head) ∨ ∃ i r, st = .columns i r

/-- There is no next packet number. -/
def LastNumber (m : Mode) (n : Nat) : Prop := n = 255 ∧ m.checks = true

/-- Cells, then a length of 2^63 or more. -/
def HugeCell (q : Bytes) : Prop := ∃ cells pre n l rest, LooseRow cells pre ∧ LenEnc n l ∧ 2 ^ 63 ≤ n ∧ q = pre ++ l ++ rest

/-- Encryption is insisted on. -/
def Insists (o : ReplicaOptions) : Prop := o.sslMode = .require ∨ o.sslMode = .requireVerifyCa ∨ o.sslMode = .requireVerifyFull

/-- Why the client cannot go on from a stage: because of the packet (number and payload) that it waited for, or without one. -/
inductive Fails (m : Mode) (c : Crypto) (o : ReplicaOptions) : Stage → Option (Nat × Bytes) → Ending → Prop where
  /-- The server reports an error. -/
  | refused {st : Stage} {head : String} {n : Nat} {body : Bytes} {e : ErrorPacket} (hh : heading st = some head) (he : LooseError e body) :
      Fails m c o st (some (n, 0xFF :: body)) (.error (.server head e.errorCode e.errorMessage e.sqlState))
  | garbled {st : Stage} {head : String} {n : Nat} {body : Bytes} (hh : heading st = some head) (he : ∀ e, ¬LooseError e body) :
      Fails m c o st (some (n, 0xFF :: body)) .malformed
  | empty {st : Stage} {n : Nat} (hw : Waits st) : Fails m c o st (some (n, [])) .crash
  | greeting {n : Nat} {q : Bytes} (he : NoError q) (hg : ∀ g, ¬LooseGreeting g q) : Fails m c o .start (some (n, q)) .malformed
  | method {n : Nat} {q : Bytes} {g : HandshakePacket} (he : NoError q) (hg : LooseGreeting g q) (hm : ¬Known g.authPluginName) :
      Fails m c o .start (some (n, q)) (.error (.str "auth plugin is not supported."))
  | greetingNumber {n : Nat} {q : Bytes} {g : HandshakePacket} (he : NoError q) (hg : LooseGreeting g q) (hm : Known g.authPluginName)
      (hn : LastNumber m n) : Fails m c o .start (some (n, q)) .crash
  | switch {g : HandshakePacket} {n : Nat} {body : Bytes} (hs : ∀ s, ¬LooseSwitch s body) :
      Fails m c o (.responded g) (some (n, 0xFE :: body)) .malformed
  | switchNumber {g : HandshakePacket} {n : Nat} {body : Bytes} {s : AuthPluginSwitchPacket} (hs : LooseSwitch s body)
      (hn : LastNumber m n) : Fails m c o (.responded g) (some (n, 0xFE :: body)) .crash
  | moreNumber {g : HandshakePacket} {n : Nat} {b : UInt8} {rest : Bytes} (hb : b ≠ 0 ∧ b ≠ 0xFE ∧ b ≠ 0xFF) (hn : LastNumber m n) :
      Fails m c o (.responded g) (some (n, b :: rest)) .crash
  | switchedNumber {g : HandshakePacket} {s : AuthPluginSwitchPacket} {n : Nat} {q : Bytes}
      (hm : s.authPluginName = "caching_sha2_password".toList) (he : NoError q) (hn : LastNumber m n) :
      Fails m c o (.switched g s) (some (n, q)) .crash
  /-- There is no scramble to mask the password with. -/
  | noScramble {g : HandshakePacket} {n : Nat} {q : Bytes} (he : NoError q) : Fails m c o (.keyAsked g []) (some (n, q)) .crash
  | key {g : HandshakePacket} {scramble : RStr} {n : Nat} {b : UInt8} {key x : Bytes} (he : b ≠ 0xFF) (hs : scramble ≠ [])
      (hx : Masked (utf8Bytes scramble) (utf8Bytes o.password ++ [0]) x) (hr : c.rsa key x = none) :
      Fails m c o (.keyAsked g scramble) (some (n, b :: key)) (.error .openssl)
  | keyNumber {g : HandshakePacket} {scramble : RStr} {n : Nat} {b : UInt8} {key x body : Bytes} (he : b ≠ 0xFF) (hs : scramble ≠ [])
      (hx : Masked (utf8Bytes scramble) (utf8Bytes o.password ++ [0]) x) (hr : c.rsa key x = some body) (hn : LastNumber m n) :
      Fails m c o (.keyAsked g scramble) (some (n, b :: key)) .crash
  | row {i : Known'} {r : Request} {rs : List (List RStr)} {n : Nat} {q : Bytes} (he : NoError q) (hn : ¬IsEof q)
      (hc : ∀ cells, ¬LooseRow cells q) (hh : ¬HugeCell q) : Fails m c o (.rows i r rs) (some (n, q)) .malformed
  | hugeCell {i : Known'} {r : Request} {rs : List (List RStr)} {n : Nat} {q : Bytes} (he : NoError q) (hn : ¬IsEof q) (hh : HugeCell q) :
      Fails m c o (.rows i r rs) (some (n, q)) .crash
  | insists {g : HandshakePacket} {k : Nat} (hi : Insists o) (ho : hasBit g.serverCapabilities 11 = false) :
      Fails m c o (.greeted g k) none (.error (.str "The server doesn't support SSL encryption"))
  /-- There is always an answer if hashes are not empty. -/
  | noAnswer {g : HandshakePacket} {k : Nat} (hp : Plain o g) (ha : ∀ auth, ¬AuthAnswer c o.password g.scramble g.authPluginName auth) :
      Fails m c o (.greeted g k) none .crash
  | encrypting : Fails m c o .encrypting none .crash
  | switchMethod {g : HandshakePacket} {s : AuthPluginSwitchPacket} {k : Nat} (hm : ¬Known s.authPluginName) :
      Fails m c o (.switching g s k) none (.error (.str "auth plugin is not supported."))
  | switchNoAnswer {g : HandshakePacket} {s : AuthPluginSwitchPacket} {k : Nat} (hm : Known s.authPluginName)
      (ha : ∀ auth, ¬AuthAnswer c o.password s.authPluginData s.authPluginName auth) : Fails m c o (.switching g s k) none .crash
  | cut {g : HandshakePacket} {scramble : RStr} {k : Nat} : Fails m c o (.sha2 g scramble [1] k) none .crash
  | gtidSet {i : Known'} (hm : i.maria = false) (hs : o.binlog.startingStrategy = .fromGtid) (hg : o.binlog.gtidSet = none) :
      Fails m c o (.ready i (some .getChecksum)) none (.error (.str "GtidSet was not specified"))
  | gtidList {i : Known'} (hs : o.binlog.startingStrategy = .fromGtid) (hg : o.binlog.gtidList = none) :
      Fails m c o (.ready i (some .capability)) none (.error (.str "GtidList was not specified"))
  | rowCount {i : Known'} {rs : List (List RStr)} (hl : rs.length ≠ 1) :
      Fails m c o (.result i .status rs) none (.error (.str "Could not read master binlog position."))
  | noFile {i : Known'} : Fails m c o (.result i .status [[]]) none .crash
  | noPosition {i : Known'} {file : RStr} : Fails m c o (.result i .status [[file]]) none .crash
  | position {i : Known'} {file text : RStr} {more : List RStr} (hp : ∀ position, ¬Number 32 position text) :
      Fails m c o (.result i .status [file :: text :: more]) none (.error .parseInt)
  | noChecksum {i : Known'} {rs : List (List RStr)} (hr : rs.head? = none ∨ rs.head? = some []) :
      Fails m c o (.result i .getChecksum rs) none .crash
  | checksum {i : Known'} {name : RStr} {more : List RStr} {rs : List (List RStr)} (hc : ∀ checksum, ¬ChecksumName checksum name) :
      Fails m c o (.result i .getChecksum ((name :: more) :: rs)) none (.error (.str "The master checksum type is not supported"))

/-- The client that is left when the set-up has failed: the file name of the end of the log is kept even if the position cannot be. -/
def Stage.clientLeft (client : Client) : Stage → Client
  | .result i .status [file :: _] => restarted client (file, i.place.2)
  | st => st.client client

/-- `input` does not begin with a whole packet. -/
def NoPacket (input : Bytes) : Prop := ∀ q n rest, Framable (q, n) → input ≠ frame q n ++ rest

/-- `Stops … t input written rest st e`: the set-up failed with `e` at the stage `st`, after the packets `t`, of which `written` could be
written. Behind the packets received, the peer had `input` to send, and `rest` is left of it. The connection gives the error `lost` when
there is no more data. -/
inductive Stops (m : Mode) (c : Crypto) (o : ReplicaOptions) (lost : IoKind) :
    (t : List Packet) → (input : Bytes) → (written : List Packet) → (rest : Bytes) → Stage → Ending → Prop where
  /-- The packet that was waited for makes it impossible to go on. -/
  | packet {t : List Packet} {rest : Bytes} {st : Stage} {n : Nat} {q : Bytes} {e : Ending} (ht : At m c o st t)
      (hf : Fails m c o st (some (n, q)) e) : Stops m c o lost (t ++ [.received n q]) rest t rest st e
  /-- Something else does. -/
  | stage {t : List Packet} {rest : Bytes} {st : Stage} {e : Ending} (ht : At m c o st t) (hf : Fails m c o st none e) :
      Stops m c o lost t rest t rest st e
  /-- The last packet cannot be sent. -/
  | tooLong {t : List Packet} {rest : Bytes} {st : Stage} {k : Nat} {p : Bytes} (ht : At m c o st (t ++ [.sent k p])) (hp : ¬Sendable p) :
      Stops m c o lost (t ++ [.sent k p]) rest t rest st .crash
  /-- There is no packet where one was waited for. -/
  | lost {t : List Packet} {input : Bytes} {st : Stage} (ht : At m c o st t) (hw : Waits st) (hr : NoPacket input) :
      Stops m c o lost t input t [] st (.error (.io lost))

end MysqlCdc.Spec
