import Verif.Spec.SetUp
import Verif.Spec.Safety
/-!
# What makes the set-up of replication crash
-/

namespace MysqlCdc.Spec

/-- A greeting whose first scramble part is empty: protocol version, server version, connection id, and at once the zero byte. -/
def BareGreeting (packet : Bytes) : Prop :=
  ∃ protocol version id rest, packet = protocol :: (version ++ 0 :: (id ++ 0 :: rest)) ∧ 0 ∉ version ∧ id.length = 4

/-- A request to switch the method of authentication, with nothing, at once a zero byte, or a single last byte where the
scramble should be. -/
def BareSwitch (packet : Bytes) : Prop :=
  ∃ name rest, 0 ∉ name ∧ (packet = 0xFE :: name ∨
    packet = 0xFE :: (name ++ 0 :: rest) ∧ (rest.length ≤ 1 ∨ rest.head? = some 0))

/-- The request to encrypt the connection: the capabilities LONG_FLAG, PROTOCOL_41, SSL, SECURE_CONNECTION and PLUGIN_AUTH, no
packet limit, the collation, and 23 zeros. -/
def sslRequest : Bytes := le 4 (2 ^ 2 + 2 ^ 9 + 2 ^ 11 + 2 ^ 15 + 2 ^ 19) ++ le 4 0 ++ le 1 45 ++ List.replicate 23 0

/-- `Crash m options t`: after the packets `t` of a connection, set-up can have crashed. Apart from the last two cases, it is the
last packets that do it. -/
inductive Crash (m : Mode) (options : ReplicaOptions) : List Packet → Prop where
  /-- an empty packet arrived -/
  | empty (t : List Packet) (n : Nat) : Crash m options (t ++ [.received n []])
  /-- a packet `[1]` arrived (where more data about authentication is expected) -/
  | cut (t : List Packet) (n : Nat) : Crash m options (t ++ [.received n [1]])
  /-- with overflow checks: a packet with the last sequence number arrived -/
  | sequence (t : List Packet) (p : Bytes) (h : m.checks) : Crash m options (t ++ [.received 255 p])
  /-- a row arrived that holds a length of 2^63 or more -/
  | length (t : List Packet) (n : Nat) (p : Bytes) (h : AbsurdLength p) : Crash m options (t ++ [.received n p])
  /-- a result set ended without a row -/
  | noRow (t : List Packet) (a b : Nat) (p q : Bytes) :
      Crash m options (t ++ [.received a (0xFE :: p), .received b (0xFE :: q)])
  /-- a result set ended with a row of a single cell -/
  | oneCell (t : List Packet) (a b : Nat) (cell : RStr) (p q : Bytes) (h : TextRow [some cell] p) :
      Crash m options (t ++ [.received a p, .received b (0xFE :: q)])
  /-- the public key arrived after a greeting or a switch without a scramble -/
  | noScramble (t : List Packet) (k a n : Nat) (greeting p : Bytes) (h : Packet.received a greeting ∈ t)
      (h2 : BareGreeting greeting ∨ BareSwitch greeting) : Crash m options (t ++ [.sent k [2], .received n p])
  /-- the packet to send does not fit -/
  | tooLong (t : List Packet) (k : Nat) (p : Bytes) (h : 2 ^ 24 ≤ p.length % 2 ^ 32) : Crash m options (t ++ [.sent k p])
  /-- with overflow checks: the user asks for everything after a set with the last possible number -/
  | lastNumber (t : List Packet) (set : GtidSet) (server : Bytes) (ivs : List Interval) (iv : Interval) (h : m.checks)
      (h1 : options.binlog.startingStrategy = .fromGtid) (h2 : options.binlog.gtidSet = some set)
      (h3 : (server, ivs) ∈ setsOf set) (h4 : iv ∈ ivs) (h5 : 2 ^ 64 ≤ iv.end + 1) : Crash m options t
  /-- the user wants encryption, and it has been asked for -/
  | encryption (n k : Nat) (greeting : Bytes) (h : options.sslMode ≠ .disabled) :
      Crash m options [.received n greeting, .sent k sslRequest]

end MysqlCdc.Spec
