import Verif.Spec.Sessions
import Verif.Model.Iterators
import Verif.Spec.Frames
/-!
# The requests of a session, as a list
-/

namespace MysqlCdc.Spec

/-- The requests after the log-in, in order. -/
def plan (o : ReplicaOptions) (maria : Bool) : List Request :=
  (if o.binlog.startingStrategy = .fromEnd ∧ o.binlog.filename = [] then [.status] else []) ++
  [.heartbeat, .setChecksum, .getChecksum] ++
  (if maria then
    .capability :: (if o.binlog.startingStrategy = .fromGtid then [.connectState, .strict, .duplicates, .register] else [])
   else []) ++
  [.dump]

/-- The first packet of the client: its user and its answer to the greeting. -/
def Opens (c : Crypto) (o : ReplicaOptions) (t : List Packet) (p : Bytes) : Prop :=
  ∃ n q g rest auth, t = .received n q :: rest ∧ LooseGreeting g q ∧ AuthAnswer c o.password g.scramble g.authPluginName auth ∧
    Response o g.authPluginName auth p

/-- The requests that every session makes, with the default heartbeat of 30 seconds (in nanoseconds). -/
def configuration : List RStr :=
  ["set @master_heartbeat_period=30000000000".toList, "SET @master_binlog_checksum= @@global.binlog_checksum".toList,
    "SELECT @master_binlog_checksum".toList]

/-- Packets sent with number 0. -/
def fresh (ps : List Bytes) : List (Bytes × Nat) := ps.map fun p => (p, 0)

/-- What a MariaDB is told in addition. -/
def mariaDbExtra (maria : Bool) : List RStr := if maria then ["SET @mariadb_slave_capability=4".toList] else []

/-- A session with the default options was set up: over one connection, to localhost:3306, with a read timeout of 40 seconds; the client
first answered the greeting for its user, and after the log-in made these requests and no others. -/
def Opened (c : Crypto) (o : ReplicaOptions) (net : RStr → Except IoKind Channel) (stream : BinlogEvents) (maria : Bool)
    (requests : List Bytes) : Prop :=
  ∃ chan t p k login, net "localhost:3306".toList = .ok chan ∧ stream.channel.readTimeout = 40 * 10 ^ 9 ∧
    stream.channel.trace = chan.trace ++ t ∧ GreetedBy t maria ∧ Opens c o t p ∧ sentOf t = (p, k) :: login ++ fresh requests

end MysqlCdc.Spec
