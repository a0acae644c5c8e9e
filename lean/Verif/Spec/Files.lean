import Verif.Model.Iterators
import Verif.Spec.Decoder
import Verif.Spec.Packets
import Verif.Spec.Frames
/-!
# Binlog files and event streams as byte strings

MySQL internals manual, "Binary Log" and "Binlog Network Stream".
-/

namespace MysqlCdc.Spec

/-- An event as stored: header and payload (body and checksum). -/
abbrev Record := EventHeader × Bytes

/-- The header's values fit its fields and its length is that of the record. -/
def RecordOk (r : Record) : Prop := HeaderFits r.1 ∧ r.1.eventLength = 19 + r.2.length

def recordBytes (r : Record) : Bytes := headerBytes r.1 ++ r.2

/-- Records one after the other. -/
def recordsBytes : List Record → Bytes
  | [] => []
  | r :: rs => recordBytes r ++ recordsBytes rs

/-- A binlog file: four magic bytes and the records. -/
def fileBytes (rs : List Record) : Bytes := [0xfe, 0x62, 0x69, 0x6e] ++ recordsBytes rs

/-- There is a complete event at the start of the bytes. -/
def StartsWithRecord (bs : Bytes) : Prop := ∃ r rest, RecordOk r ∧ bs = recordBytes r ++ rest

/-- What the master sends after a dump request: an event, an error, or a packet of neither kind. -/
inductive Sent where
  /-- Status 0, header, payload. -/
  | event (header : EventHeader) (payload : Bytes)
  /-- Status 0, fewer than 19 bytes. -/
  | short (body : Bytes)
  /-- Status 0xFF and anything. -/
  | error (body : Bytes)
  /-- Another status, not that of the end. -/
  | other (status : UInt8) (body : Bytes)

def Sent.payload : Sent → Bytes
  | .event h p => 0x00 :: (headerBytes h ++ p)
  | .short body => 0x00 :: body
  | .error body => 0xFF :: body
  | .other status body => status :: body

def Sent.Ok : Sent → Prop
  | .event h _ => HeaderFits h
  | .short body => body.length < 19
  | .error _ => True
  | .other status _ => status ≠ 0 ∧ status ≠ 0xFF ∧ status ≠ 0xFE

/-- The events among what was sent. -/
def eventsOf : List Sent → List Record
  | [] => []
  | .event h p :: ss => (h, p) :: eventsOf ss
  | _ :: ss => eventsOf ss

/-- One item for each packet: the decoded event, the decoder's error, or an error for a packet that is no event, which for
an error packet shows what the server reported. -/
inductive Delivered (m : Mode) : EventParser → List Sent → List Item → Prop where
  | nil {st : EventParser} : Delivered m st [] []
  | event {st st' : EventParser} {h : EventHeader} {p : Bytes} {e : BinlogEvent} {ss : List Sent} {xs : List Item} :
      parseEvent m st h p = (.ok e, st') → Delivered m st' ss xs → Delivered m st (.event h p :: ss) (.ok (h, e) :: xs)
  | bad {st st' : EventParser} {h : EventHeader} {p : Bytes} {e : Err} {ss : List Sent} {xs : List Item} :
      parseEvent m st h p = (.err e, st') → Delivered m st' ss xs → Delivered m st (.event h p :: ss) (.error e :: xs)
  | none {st : EventParser} {s : Sent} {e : Err} {ss : List Sent} {xs : List Item} : (∀ h p, s ≠ .event h p) → (∀ body, s = .error body → Reports e body) →
      Delivered m st ss xs → Delivered m st (s :: ss) (.error e :: xs)

/-- The beginning of a record, and not all of it. -/
def Unfinished (bytes : Bytes) : Prop :=
  bytes.length < 19 ∨ ∃ h rest, HeaderFits h ∧ bytes = headerBytes h ++ rest ∧ 19 + rest.length < h.eventLength

end MysqlCdc.Spec
