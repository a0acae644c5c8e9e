import Verif.Spec.Stream
/-!
# The server's log files and what it sends from a position

Only data types of the model are used.
-/

namespace MysqlCdc.Spec

structure LogFile where
  name : RStr
  events : List Ev

abbrev Log := List LogFile

/-- A file name and an offset in that file. -/
structure Place where
  name : RStr
  pos : Nat
  deriving DecidableEq

def IsTableMap : BinlogEvent → Prop
  | .tableMap _ => True
  | _ => False

def IsRotate : BinlogEvent → Prop
  | .rotate _ => True
  | _ => False

/-- A row event of table `id`. -/
def RowsOf (id : Nat) : BinlogEvent → Prop
  | .writeRows e | .deleteRows e => e.tableId = id
  | .updateRows e => e.tableId = id
  | _ => False

/-- A table map of table `id`. -/
def Maps (id : Nat) : BinlogEvent → Prop
  | .tableMap t => t.tableId = id
  | _ => False

/-- The offset behind events that start at `pos`. -/
def endOf : Nat → List Ev → Nat
  | pos, [] => pos
  | _, e :: es => endOf e.1.nextEventPosition es

/-- Events one behind the other: each ends where its header says, behind its start. Offsets fit 32 bits. -/
def Chain : Nat → List Ev → Prop
  | _, [] => True
  | pos, e :: es => pos < e.1.nextEventPosition ∧ e.1.nextEventPosition < 2 ^ 32 ∧ Chain e.1.nextEventPosition es

/-- Log files as a server writes them. A file may end with a rotate event (or else with the server's stop or crash). -/
structure LogOk (log : Log) : Prop where
  names : (log.map (·.name)).Nodup
  named : ∀ f ∈ log, f.name ≠ []
  chain : ∀ f ∈ log, Chain 4 f.events
  rotate : ∀ pre f post a e b r, log = pre ++ f :: post → f.events = a ++ e :: b → e.2 = .rotate r →
    b = [] ∧ ∃ g post', post = g :: post' ∧ r.binlogFilename = g.name ∧ r.binlogPosition = 4

/-- The events, the first of which starts at `start`, that do not start before `pos`. -/
def fromPos (pos : Nat) : Nat → List Ev → List Ev
  | _, [] => []
  | start, e :: es => if pos ≤ start then e :: es else fromPos pos e.1.nextEventPosition es

/-- All events of the log from a place on. -/
def remaining : Log → Place → List Ev
  | [], _ => []
  | f :: fs, p => if f.name = p.name then fromPos p.pos 4 f.events ++ fs.flatMap (·.events) else remaining fs p

/-- The place is the start of the events of a file or the end of one of them. -/
def Valid (log : Log) (p : Place) : Prop :=
  ∃ f ∈ log, f.name = p.name ∧ ∃ done todo, f.events = done ++ todo ∧ p.pos = endOf 4 done

/-- An empty file name stands for the first file. -/
def resolve (log : Log) (name : RStr) (pos : Nat) : Place :=
  match log with
  | [] => ⟨name, pos⟩
  | f :: _ => if name = [] then ⟨f.name, pos⟩ else ⟨name, pos⟩

/-- The event that starts at a place. -/
def StartsAt (log : Log) (q : Place) (e : Ev) : Prop :=
  ∃ f ∈ log, f.name = q.name ∧ ∃ done todo, f.events = done ++ e :: todo ∧ q.pos = endOf 4 done

/-- The place behind an event. -/
def moved (q : Place) (e : Ev) : Place :=
  match e.2 with
  | .rotate r => ⟨r.binlogFilename, r.binlogPosition⟩
  | _ => ⟨q.name, e.1.nextEventPosition⟩

/-- What a server may have sent to a client that asked for place `p`: `Serve log calm p q sent real` says that it sent `sent`, among
them the events `real` of the log, and has come to `q`. Besides events of the log it sends rotate events to announce the file it
reads, artificial events with offset 0, and heartbeats with the current offset (if `calm`, not right behind a table map). -/
inductive Serve (log : Log) (calm : Prop) (p : Place) : Place → List Ev → List Ev → Prop
  | start : Serve log calm p p [] []
  | event {q : Place} {sent real : List Ev} {e : Ev} : Serve log calm p q sent real → StartsAt log q e →
      Serve log calm p (moved q e) (sent ++ [e]) (real ++ [e])
  | artificial {q : Place} {sent real : List Ev} {e : Ev} : Serve log calm p q sent real → e.1.nextEventPosition = 0 →
      ¬ IsRotate e.2 → Serve log calm p q (sent ++ [e]) real
  | heartbeat {q : Place} {sent real : List Ev} {h : EventHeader} {x : HeartbeatEvent} : Serve log calm p q sent real →
      h.nextEventPosition = q.pos → (calm → ∀ e, real.getLast? = some e → ¬ IsTableMap e.2) →
      Serve log calm p q (sent ++ [(h, .heartbeat x)]) real
  | announce {q : Place} {sent real : List Ev} {h : EventHeader} : Serve log calm p q sent real → real = [] ∨ q.pos = 4 →
      Serve log calm p q (sent ++ [(h, .rotate ⟨q.name, q.pos⟩)]) real
  | nextFile {sent real : List Ev} {h : EventHeader} {pre post : Log} {f g : LogFile} : log = pre ++ f :: g :: post →
      Serve log calm p ⟨f.name, endOf 4 f.events⟩ sent real →
      Serve log calm p ⟨g.name, 4⟩ (sent ++ [(h, .rotate ⟨g.name, 4⟩)]) real

/-- Every row event comes right behind table maps one of which is that of its table. -/
def Decodable (es : List Ev) : Prop :=
  ∀ a e b id, es = a ++ e :: b → RowsOf id e.2 →
    ∃ a' run, a = a' ++ run ∧ (∀ t ∈ run, IsTableMap t.2) ∧ ∃ t ∈ run, Maps id t.2

end MysqlCdc.Spec
