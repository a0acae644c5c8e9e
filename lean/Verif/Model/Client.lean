import Verif.Model.EventParser
import Verif.Model.Options
/-!
# The client's position keeping (src/binlog_client.rs)
-/

namespace MysqlCdc

/-- `BinlogClient`, src/binlog_client.rs:15-20 -/
structure Client where
  options : ReplicaOptions
  transaction : Bool
  mariaGtid : Option MGtid
  mysqlGtid : Option Gtid
  deriving DecidableEq, Repr

/-- `BinlogClient::new`, src/binlog_client.rs:23-34 -/
def Client.new (options : ReplicaOptions) : Res Client :=
  if options.sslMode ≠ .disabled then .panic
  else .ok { options, transaction := false, mariaGtid := none, mysqlGtid := none }

/-- `list.add_gtid(gtid.clone())`, src/binlog_client.rs:122-126 -/
def commitMaria (mariaGtid : Option MGtid) (gtidList : Option GtidList) : Option GtidList :=
  match mariaGtid, gtidList with
  | some gtid, some list => some (list.addGtid gtid).2
  | _, _ => gtidList

/-- `set.add_gtid(gtid.clone()).unwrap()`, src/binlog_client.rs:127-131. An `Err` is a panic. -/
def commitMysql (m : Mode) (mysqlGtid : Option Gtid) (gtidSet : Option GtidSet) : Res (Option GtidSet) :=
  match mysqlGtid, gtidSet with
  | some gtid, some set =>
    match set.addGtid m gtid with
    | .ok (_, set') => .ok (some set')
    | .err _ => .panic
    | .panic => .panic
    | .hang => .hang
  | _, _ => .ok gtidSet

/-- `commit_gtid`, src/binlog_client.rs:119-132 -/
def Client.commitGtid (m : Mode) (c : Client) : Res Client := do
  let gtidList := commitMaria c.mariaGtid c.options.binlog.gtidList
  let gtidSet ← commitMysql m c.mysqlGtid c.options.binlog.gtidSet
  return { c with
    transaction := false
    options := { c.options with binlog := { c.options.binlog with gtidList, gtidSet } } }

/-- `update_gtid_position`, src/binlog_client.rs:69-99 -/
def Client.updateGtidPosition (m : Mode) (c : Client) (event : BinlogEvent) : Res Client :=
  if c.options.binlog.startingStrategy ≠ .fromGtid then .ok c
  else match event with
    | .mariaDbGtid x => .ok { c with mariaGtid := some x.gtid }
    | .mySqlGtid x => .ok { c with mysqlGtid := some x.gtid }
    | .xid _ => c.commitGtid m
    | .query x =>
      if x.sqlStatement.isEmpty then .ok c
      else if x.sqlStatement = "BEGIN".toList then .ok { c with transaction := true }
      else if x.sqlStatement = "COMMIT".toList ∨ x.sqlStatement = "ROLLBACK".toList then c.commitGtid m
      else if !c.transaction then c.commitGtid m
      else .ok c
    | _ => .ok c

/-- Assignments to `self.options.binlog.filename` and `position`. -/
def Client.setPosition (c : Client) (filename : RStr) (position : Nat) : Client :=
  { c with options := { c.options with binlog := { c.options.binlog with filename, position } } }

/-- `update_binlog_position`, src/binlog_client.rs:101-117 (`x.binlog_position as u32`) -/
def Client.updateBinlogPosition (c : Client) (header : EventHeader) (event : BinlogEvent) : Client :=
  match event with
  | .tableMap _ => c
  | .rotate x => c.setPosition x.binlogFilename (x.binlogPosition % 2 ^ 32)
  | _ =>
    if header.nextEventPosition > 0 then c.setPosition c.options.binlog.filename header.nextEventPosition else c

/-- `commit`, src/binlog_client.rs:64-67 -/
def Client.commit (m : Mode) (c : Client) (header : EventHeader) (event : BinlogEvent) : Res Client := do
  let c ← c.updateGtidPosition m event
  return c.updateBinlogPosition header event

end MysqlCdc
