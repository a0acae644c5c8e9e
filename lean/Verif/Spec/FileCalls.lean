import Verif.Spec.Iteration
/-!
# Any number of calls on a file that changes

Only data types of the model are used; the results are those of `Iterator::next`.
-/

namespace MysqlCdc.Spec

/-- One call of `next` on a file of which `bytes` can be read, and reading beyond them fails like `failure`, after events that leave `known` behind:
what it gives, what is known then, and what of the file is left. After a crash nothing is said. -/
inductive FileCall (m : Mode) (failure : IoKind) (k : Learned) : (bytes : Bytes) → Res (Option Item) → Learned → (rest : Bytes) → Prop where
  /-- Reading an event comes to the end of the file. -/
  | over {bytes : Bytes} (h : Unfinished bytes) (hf : failure = .unexpectedEof) : FileCall m failure k bytes (.ok none) k []
  /-- Reading an event fails. -/
  | fails {bytes : Bytes} (h : Unfinished bytes) (hf : failure ≠ .unexpectedEof) :
      FileCall m failure k bytes (.ok (some (.error (.io failure)))) k []
  /-- A length that does not even cover the header. -/
  | length {header : EventHeader} {rest rest' : Bytes} {k' : Learned} (hf : HeaderFits header) (h : header.eventLength < 19) :
      FileCall m failure k (headerBytes header ++ rest) .panic k' rest'
  | event {header : EventHeader} {slice body rest : Bytes} {ev : BinlogEvent} (hok : RecordOk (header, slice))
      (hs : WithChecksum k.checksum body slice) (ha : AcceptedEvent m k.columns header ev body) :
      FileCall m failure k (recordBytes (header, slice) ++ rest) (.ok (some (.ok (header, ev)))) (k.after ev) rest
  | refused {header : EventHeader} {slice rest : Bytes} {err : Err} (hok : RecordOk (header, slice)) (he : err ≠ .io .unexpectedEof)
      (h : SliceReason m err k.checksum k.columns header slice) :
      FileCall m failure k (recordBytes (header, slice) ++ rest) (.ok (some (.error err))) k rest
  /-- An event that is too short for what it says is taken for the end of the file. -/
  | ends {header : EventHeader} {slice rest : Bytes} (hok : RecordOk (header, slice)) (h : SliceEnds m k.checksum k.columns header slice) :
      FileCall m failure k (recordBytes (header, slice) ++ rest) (.ok none) k rest
  | crash {header : EventHeader} {slice rest rest' : Bytes} {k' : Learned} (hok : RecordOk (header, slice))
      (h : SliceCrash m k.checksum k.columns header slice) : FileCall m failure k (recordBytes (header, slice) ++ rest) .panic k' rest'
  | loop {header : EventHeader} {slice rest rest' : Bytes} {k' : Learned} (hok : RecordOk (header, slice))
      (h : SliceLoop k.checksum k.columns header slice) : FileCall m failure k (recordBytes (header, slice) ++ rest) .hang k' rest'

/-- What happens to a file and its reader: a call of `next` that gives this, something written to the file, or a change in how reading beyond what
can be read fails (a disk that breaks, or is back). -/
inductive FileAct where
  | call (result : Res (Option Item))
  | write (bytes : Bytes)
  | failing (failure : IoKind)

/-- This can happen. -/
inductive FileHistory (m : Mode) : (failure : IoKind) → (known : Learned) → (bytes : Bytes) → List FileAct → Prop where
  | stop {failure : IoKind} {k : Learned} {bytes : Bytes} : FileHistory m failure k bytes []
  | call {failure : IoKind} {k k' : Learned} {bytes rest : Bytes} {x : Option Item} {steps : List FileAct}
      (h : FileCall m failure k bytes (.ok x) k' rest) (hr : FileHistory m failure k' rest steps) :
      FileHistory m failure k bytes (.call (.ok x) :: steps)
  /-- A call that does not come back is the last one. -/
  | last {failure : IoKind} {k k' : Learned} {bytes rest : Bytes} {result : Res (Option Item)} (h : FileCall m failure k bytes result k' rest) :
      FileHistory m failure k bytes [.call result]
  | write {failure : IoKind} {k : Learned} {bytes more : Bytes} {steps : List FileAct} (hr : FileHistory m failure k (bytes ++ more) steps) :
      FileHistory m failure k bytes (.write more :: steps)
  | failing {failure failure' : IoKind} {k : Learned} {bytes : Bytes} {steps : List FileAct} (hr : FileHistory m failure' k bytes steps) :
      FileHistory m failure k bytes (.failing failure' :: steps)

/-- The same result; of an event, see `SameEvent`. -/
inductive SameResult : Res (Option Item) → Res (Option Item) → Prop where
  | item {x y : Item} (h : SameItem x y) : SameResult (.ok (some x)) (.ok (some y))
  | refl {r : Res (Option Item)} : SameResult r r

inductive SameAct : FileAct → FileAct → Prop where
  | call {a b : Res (Option Item)} (h : SameResult a b) : SameAct (.call a) (.call b)
  | refl {s : FileAct} : SameAct s s

end MysqlCdc.Spec
