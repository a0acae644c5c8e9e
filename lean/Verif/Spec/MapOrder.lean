import Mathlib.Data.List.Forall2
import Verif.Model.Session
import Verif.Spec.Events
/-!
# The same, except for the order of hash maps

The library keeps GTID sets and table maps in hash maps, whose order is not specified and differs from run to run.
-/

namespace MysqlCdc.Spec

/-- Hash maps with the same entries. -/
def AlikeMap {κ ν : Type} (a b : HMap κ ν) : Prop := (a.map (·.1)).Nodup ∧ a.Perm b

def AlikeSet (g g' : GtidSet) : Prop := AlikeMap g.uuidSets g'.uuidSets

/-- The same outcome; values may differ as `R` allows. -/
inductive AlikeRes {α β : Type} (R : α → β → Prop) : Res α → Res β → Prop where
  | ok {a : α} {b : β} (h : R a b) : AlikeRes R (.ok a) (.ok b)
  | err (e : Err) : AlikeRes R (.err e) (.err e)
  | panic : AlikeRes R .panic .panic
  | hang : AlikeRes R .hang .hang

inductive AlikeEvent : BinlogEvent → BinlogEvent → Prop where
  | same {e : BinlogEvent} (h : ∀ x, e ≠ .mySqlPrevGtids x) : AlikeEvent e e
  | previous {g g' : GtidSet} (h : AlikeSet g g') : AlikeEvent (.mySqlPrevGtids ⟨g⟩) (.mySqlPrevGtids ⟨g'⟩)

inductive AlikeItem : Item → Item → Prop where
  | error (e : Err) : AlikeItem (.error e) (.error e)
  | ok (h : EventHeader) {e e' : BinlogEvent} (he : AlikeEvent e e') : AlikeItem (.ok (h, e)) (.ok (h, e'))

/-- What a request for events says about one server. -/
def requestBlock (s : UuidSet) : Bytes := s.sourceId.data ++ le 8 s.intervals.length ++ intervalsBytes s.intervals

/-- The same packet, or requests for events by GTIDs (command 30) that list the same servers in another order. -/
inductive AlikePayload : Bytes → Bytes → Prop where
  | same (p : Bytes) : AlikePayload p p
  | request (head : Bytes) {sets sets' : List UuidSet} (h : sets.Perm sets') :
      AlikePayload (30 :: head ++ sets.flatMap requestBlock) (30 :: head ++ sets'.flatMap requestBlock)

inductive AlikePacket : Packet → Packet → Prop where
  | sent (seq : Nat) {p p' : Bytes} (h : AlikePayload p p') : AlikePacket (.sent seq p) (.sent seq p')
  | received (seq : Nat) (p : Bytes) : AlikePacket (.received seq p) (.received seq p)

/-- A connection with the same to come on which alike packets have gone. -/
structure AlikeChannel (a b : Channel) : Prop where
  input : a.input = b.input
  ending : a.ending = b.ending
  writes : a.writes = b.writes
  timeout : a.readTimeout = b.readTimeout
  later : a.later = b.later
  trace : List.Forall₂ AlikePacket a.trace b.trace

def AlikeParser (a b : EventParser) : Prop := a.checksumType = b.checksumType ∧ AlikeMap a.tableMap b.tableMap

def AlikeStream (a b : BinlogEvents) : Prop := AlikeChannel a.channel b.channel ∧ AlikeParser a.parser b.parser

def AlikeReader (a b : BinlogReader) : Prop := a.stream = b.stream ∧ a.failure = b.failure ∧ AlikeParser a.parser b.parser

/-- The client with another GTID set. -/
def withSet (c : Client) (set : Option GtidSet) : Client :=
  { c with options := { c.options with binlog := { c.options.binlog with gtidSet := set } } }

/-- Clients that differ only in the order of the GTID set. -/
def AlikeClient (a b : Client) : Prop := ∃ set, b = withSet a set ∧ Option.Rel AlikeSet a.options.binlog.gtidSet set

end MysqlCdc.Spec
