import Verif.Spec.GtidSet
import Verif.Model.EventParser
/-!
# What servers send: transactions and log files

Only data types of the model are used.
-/

namespace MysqlCdc.Spec

/-- An event with its header. -/
abbrev Ev := EventHeader × BinlogEvent

/-! ## Transactions -/

/-- The event that ends a transaction: XID, or the statement COMMIT or ROLLBACK. -/
def Ends : BinlogEvent → Prop
  | .xid _ => True
  | .query q => q.sqlStatement = "COMMIT".toList ∨ q.sqlStatement = "ROLLBACK".toList
  | _ => False

/-- A statement that is a transaction of its own, such as DDL. -/
def AutoCommits : BinlogEvent → Prop
  | .query q => q.sqlStatement ≠ [] ∧ q.sqlStatement ≠ "BEGIN".toList ∧ q.sqlStatement ≠ "COMMIT".toList ∧
      q.sqlStatement ≠ "ROLLBACK".toList
  | _ => False

/-- The statement BEGIN. -/
def Begins : BinlogEvent → Prop
  | .query q => q.sqlStatement = "BEGIN".toList
  | _ => False

/-- An event with a GTID. -/
def IsGtid : BinlogEvent → Prop
  | .mySqlGtid _ | .mariaDbGtid _ => True
  | _ => False

/-- An event that neither opens nor closes anything: not a GTID, no XID, no statement. Rotate, format description, heartbeat,
table map, rows, ... -/
def Neutral : BinlogEvent → Prop
  | .mySqlGtid _ | .mariaDbGtid _ | .xid _ => False
  | .query q => q.sqlStatement = []
  | _ => True

/-- An event inside a transaction: anything but a GTID or the end of a transaction. Statements are allowed. -/
def Inside (e : BinlogEvent) : Prop := ¬ IsGtid e ∧ ¬ Ends e

/-- The events of one MySQL transaction: its GTID, then BEGIN, events and the end, or one auto-committed statement; neutral
events may come in between. -/
inductive MysqlTx (g : Gtid) : List Ev → Prop where
  | block {h0 hb he : EventHeader} {x : MySqlGtidEvent} {b e : BinlogEvent} {mid body : List Ev} (hx : x.gtid = g)
      (hm : ∀ p ∈ mid, Neutral p.2) (hbegin : Begins b) (hi : ∀ p ∈ body, Inside p.2) (hend : Ends e) :
      MysqlTx g ((h0, .mySqlGtid x) :: mid ++ (hb, b) :: body ++ [(he, e)])
  | auto {h0 he : EventHeader} {x : MySqlGtidEvent} {e : BinlogEvent} {mid : List Ev} (hx : x.gtid = g)
      (hm : ∀ p ∈ mid, Neutral p.2) (hauto : AutoCommits e) : MysqlTx g ((h0, .mySqlGtid x) :: mid ++ [(he, e)])

/-- `a` is what `s` starts with. -/
def StartsWith (a s : RStr) : Prop := ∃ rest, s = a ++ rest

/-- A statement starting with given text. -/
def Statement (a : String) : BinlogEvent → Prop
  | .query q => StartsWith a.toList q.sqlStatement
  | _ => False

/-- The events MySQL writes for the first phase of a distributed transaction: its GTID, the statement `XA START ..`, row events,
the statement `XA END ..` and the XA-prepare event (of a type the library does not know). -/
inductive MysqlXa (g : Gtid) : List Ev → Prop where
  | phase {h0 hs he hp : EventHeader} {x : MySqlGtidEvent} {s e : BinlogEvent} {body : List Ev} (hx : x.gtid = g)
      (hstart : Statement "XA START" s) (hi : ∀ p ∈ body, Neutral p.2) (hend : Statement "XA END" e) :
      MysqlXa g ((h0, .mySqlGtid x) :: (hs, s) :: body ++ [(he, e), (hp, .unknown)])

/-- The events of one MariaDB transaction: its GTID, events, the end; there is no BEGIN statement. Or its GTID and one
auto-committed statement. -/
inductive MariaTx (g : MGtid) : List Ev → Prop where
  | block {h0 he : EventHeader} {x : MariaGtidEvent} {e : BinlogEvent} {body : List Ev} (hx : x.gtid = g)
      (hi : ∀ p ∈ body, Inside p.2) (hend : Ends e) : MariaTx g ((h0, .mariaDbGtid x) :: body ++ [(he, e)])
  | auto {h0 he : EventHeader} {x : MariaGtidEvent} {e : BinlogEvent} {mid : List Ev} (hx : x.gtid = g)
      (hm : ∀ p ∈ mid, Neutral p.2) (hauto : AutoCommits e) : MariaTx g ((h0, .mariaDbGtid x) :: mid ++ [(he, e)])

/-- A part of a stream: a transaction with GTID `g`, or a neutral event between transactions. -/
inductive Part (γ : Type) where
  | tx (g : γ) (events : List Ev)
  | noise (e : Ev)

def Part.events {γ : Type} : Part γ → List Ev
  | .tx _ es => es
  | .noise e => [e]

def Part.gtids {γ : Type} : Part γ → List γ
  | .tx g _ => [g]
  | .noise _ => []

/-- A part of a stream whose transactions have the shape `T`. -/
def Part.Ok {γ : Type} (T : γ → List Ev → Prop) : Part γ → Prop
  | .tx g es => T g es
  | .noise e => Neutral e.2

/-- All events of a stream. -/
def flat {γ : Type} (parts : List (Part γ)) : List Ev := parts.flatMap Part.events

/-- The GTIDs of the transactions that lie entirely within the first `k` events. -/
def finished {γ : Type} : Nat → List (Part γ) → List γ
  | _, [] => []
  | k, p :: ps => if p.events.length ≤ k then p.gtids ++ finished (k - p.events.length) ps else []

/-- The GTIDs of the transactions of which at least one event lies beyond the first `k` events. -/
def unfinished {γ : Type} : Nat → List (Part γ) → List γ
  | _, [] => []
  | k, p :: ps =>
    if p.events.length ≤ k then unfinished (k - p.events.length) ps else (p :: ps).flatMap Part.gtids

/-! ## Positions -/

/-- The file name an event announces. -/
def newFile (e : Ev) : Option RStr :=
  match e.2 with
  | .rotate r => some r.binlogFilename
  | _ => none

/-- The position an event carries: that of a rotate event, otherwise that of the header unless it is 0 or the event is a table
map. -/
def newPosition (e : Ev) : Option Nat :=
  match e.2 with
  | .rotate r => some r.binlogPosition
  | .tableMap _ => none
  | _ => if e.1.nextEventPosition = 0 then none else some e.1.nextEventPosition

/-- The last value, or the default. -/
def lastOr {α : Type} (d : α) (xs : List α) : α := xs.getLast?.getD d

end MysqlCdc.Spec
