import Verif.Spec.Refused
import Verif.Spec.Log
/-!
# Log files with records the library has no event for

As `Spec/Log`, with records (`Rec`) in place of events.
-/

namespace MysqlCdc.Spec

structure RecFile where
  name : RStr
  records : List Rec

abbrev RecLog := List RecFile

/-- The offset behind records that start at `pos`. -/
def recEnd : Nat → List Rec → Nat
  | pos, [] => pos
  | _, r :: rs => recEnd r.1.nextEventPosition rs

def RecChain : Nat → List Rec → Prop
  | _, [] => True
  | pos, r :: rs => pos < r.1.nextEventPosition ∧ r.1.nextEventPosition < 2 ^ 32 ∧ RecChain r.1.nextEventPosition rs

/-- As `LogOk`. -/
structure RecLogOk (log : RecLog) : Prop where
  names : (log.map (·.name)).Nodup
  named : ∀ f ∈ log, f.name ≠ []
  chain : ∀ f ∈ log, RecChain 4 f.records
  rotate : ∀ pre f post a r b x, log = pre ++ f :: post → f.records = a ++ r :: b → r.2 = .ok (.rotate x) →
    b = [] ∧ ∃ g post', post = g :: post' ∧ x.binlogFilename = g.name ∧ x.binlogPosition = 4

/-- The records, the first of which starts at `start`, that do not start before `pos`. -/
def recFrom (pos : Nat) : Nat → List Rec → List Rec
  | _, [] => []
  | start, r :: rs => if pos ≤ start then r :: rs else recFrom pos r.1.nextEventPosition rs

/-- All records of the log from a place on. -/
def recRemaining : RecLog → Place → List Rec
  | [], _ => []
  | f :: fs, p => if f.name = p.name then recFrom p.pos 4 f.records ++ fs.flatMap (·.records) else recRemaining fs p

/-- The place is the start of the records of a file or the end of one of them. -/
def RecValid (log : RecLog) (p : Place) : Prop :=
  ∃ f ∈ log, f.name = p.name ∧ ∃ done todo, f.records = done ++ todo ∧ p.pos = recEnd 4 done

/-- An empty file name stands for the first file. -/
def recResolve (log : RecLog) (name : RStr) (pos : Nat) : Place :=
  match log with
  | [] => ⟨name, pos⟩
  | f :: _ => if name = [] then ⟨f.name, pos⟩ else ⟨name, pos⟩

/-- The record that starts at a place. -/
def RecStarts (log : RecLog) (q : Place) (r : Rec) : Prop :=
  ∃ f ∈ log, f.name = q.name ∧ ∃ done todo, f.records = done ++ r :: todo ∧ q.pos = recEnd 4 done

/-- The place behind a record. -/
def recMoved (q : Place) (r : Rec) : Place :=
  match r.2 with
  | .ok (.rotate x) => ⟨x.binlogFilename, x.binlogPosition⟩
  | _ => ⟨q.name, r.1.nextEventPosition⟩

/-- What a server may have sent to a client that asked for place `p`, as `Serve`: it sent `sent`, among them the records `real` of the log, and has come
to `q`. -/
inductive RecServe (log : RecLog) (p : Place) : Place → List Rec → List Rec → Prop
  | start : RecServe log p p [] []
  | record {q : Place} {sent real : List Rec} {r : Rec} : RecServe log p q sent real → RecStarts log q r →
      RecServe log p (recMoved q r) (sent ++ [r]) (real ++ [r])
  | artificial {q : Place} {sent real : List Rec} {e : Ev} : RecServe log p q sent real → e.1.nextEventPosition = 0 →
      ¬ IsRotate e.2 → RecServe log p q (sent ++ [(e.1, .ok e.2)]) real
  | heartbeat {q : Place} {sent real : List Rec} {h : EventHeader} {x : HeartbeatEvent} : RecServe log p q sent real →
      h.nextEventPosition = q.pos → RecServe log p q (sent ++ [(h, .ok (.heartbeat x))]) real
  | announce {q : Place} {sent real : List Rec} {h : EventHeader} : RecServe log p q sent real → real = [] ∨ q.pos = 4 →
      RecServe log p q (sent ++ [(h, .ok (.rotate ⟨q.name, q.pos⟩))]) real
  | nextFile {sent real : List Rec} {h : EventHeader} {pre post : RecLog} {f g : RecFile} : log = pre ++ f :: g :: post →
      RecServe log p ⟨f.name, recEnd 4 f.records⟩ sent real →
      RecServe log p ⟨g.name, 4⟩ (sent ++ [(h, .ok (.rotate ⟨g.name, 4⟩))]) real

/-- Records other than table maps. -/
def notMaps (rs : List Rec) : List Rec :=
  rs.filter fun r => match r.2 with | .ok (.tableMap _) => false | _ => true

/-- The records before the first one that shows an error. -/
def beforeError : List Rec → List Rec
  | (h, .ok e) :: rs => (h, .ok e) :: beforeError rs
  | _ => []

end MysqlCdc.Spec
