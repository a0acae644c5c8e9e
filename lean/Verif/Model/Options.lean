import Verif.Model.Constants
import Verif.Model.MysqlGtid
import Verif.Model.MariaGtid
/-!
# Options (src/binlog_options.rs, src/replica_options.rs)
-/

namespace MysqlCdc

/-- `BinlogOptions`, src/binlog_options.rs:8-29 -/
structure BinlogOptions where
  filename : RStr
  position : Nat
  gtidSet : Option GtidSet
  gtidList : Option GtidList
  startingStrategy : StartingStrategy
  deriving DecidableEq, Repr

/-- `BinlogOptions::from_start`, src/binlog_options.rs:33-41 -/
def BinlogOptions.fromStart : BinlogOptions :=
  { filename := [], position := FIRST_EVENT_POSITION, gtidSet := none, gtidList := none, startingStrategy := .fromStart }

/-- `BinlogOptions::from_end`, src/binlog_options.rs:45-53 -/
def BinlogOptions.fromEnd : BinlogOptions :=
  { filename := [], position := 0, gtidSet := none, gtidList := none, startingStrategy := .fromEnd }

/-- `BinlogOptions::from_position`, src/binlog_options.rs:56-64 -/
def BinlogOptions.fromPosition (filename : RStr) (position : Nat) : BinlogOptions :=
  { filename, position, gtidSet := none, gtidList := none, startingStrategy := .fromPosition }

/-- `BinlogOptions::from_mysql_gtid`, src/binlog_options.rs:67-75 -/
def BinlogOptions.fromMysqlGtid (gtidSet : GtidSet) : BinlogOptions :=
  { filename := [], position := FIRST_EVENT_POSITION, gtidSet := some gtidSet, gtidList := none,
    startingStrategy := .fromGtid }

/-- `BinlogOptions::from_mariadb_gtid`, src/binlog_options.rs:77-85 -/
def BinlogOptions.fromMariadbGtid (gtidList : GtidList) : BinlogOptions :=
  { filename := [], position := FIRST_EVENT_POSITION, gtidSet := none, gtidList := some gtidList,
    startingStrategy := .fromGtid }

/-- `ReplicaOptions`, src/replica_options.rs:6-42. `heartbeatInterval` is the `Duration` in nanoseconds. -/
structure ReplicaOptions where
  port : Nat
  hostname : RStr
  sslMode : SslMode
  username : RStr
  password : RStr
  database : Option RStr
  serverId : Nat
  blocking : Bool
  heartbeatInterval : Nat
  binlog : BinlogOptions
  deriving DecidableEq, Repr

/-- `ReplicaOptions::default`, src/replica_options.rs:45-58 -/
def ReplicaOptions.default : ReplicaOptions :=
  { port := 3306, hostname := "localhost".toList, sslMode := .disabled, username := [], password := [], database := none,
    serverId := 65535, blocking := true, heartbeatInterval := 30 * 10 ^ 9, binlog := BinlogOptions.fromEnd }

end MysqlCdc
