import Verif.Spec.AcceptedPackets
import Verif.Spec.Errors
import Verif.Spec.Files
/-!
# What iterating gives, for all bytes

Only data types of the model are used; the items are those of `Iterator::Item`.
-/

namespace MysqlCdc.Spec

/-- What the events so far say about those to come: the checksum algorithm, and types and metadata of the columns of each table. -/
structure Learned where
  checksum : ChecksumType
  columns : Nat → Option (List (UInt8 × Nat))

def Learned.start (checksum : ChecksumType) : Learned := ⟨checksum, fun _ => none⟩

def Learned.after (k : Learned) (ev : BinlogEvent) : Learned := ⟨algorithmAfter k.checksum ev, columnsAfter k.columns ev⟩

/-- How a number of calls of `next` ends. -/
inductive Halt where
  /-- No more calls. -/
  | running
  /-- The last one gives `None`. -/
  | ended
  /-- The last one panics. -/
  | crash
  /-- The last one does not return. -/
  | loop
  deriving DecidableEq

/-- The bytes `bytes`, read after events that leave `known` behind, give these items, and then it ends like this. -/
inductive FileRun (m : Mode) : (known : Learned) → (bytes : Bytes) → List Item → Halt → Prop where
  | running {k : Learned} {bytes : Bytes} : FileRun m k bytes [] .running
  /-- No room for a header. -/
  | short {k : Learned} {bytes : Bytes} (h : bytes.length < 19) : FileRun m k bytes [] .ended
  /-- The event does not end. -/
  | cut {k : Learned} {header : EventHeader} {rest : Bytes} (hf : HeaderFits header) (h : 19 + rest.length < header.eventLength) :
      FileRun m k (headerBytes header ++ rest) [] .ended
  /-- A length that does not even cover the header. -/
  | length {k : Learned} {header : EventHeader} {rest : Bytes} (hf : HeaderFits header) (h : header.eventLength < 19) :
      FileRun m k (headerBytes header ++ rest) [] .crash
  | event {k : Learned} {header : EventHeader} {slice body rest : Bytes} {ev : BinlogEvent} {items : List Item} {halt : Halt}
      (hok : RecordOk (header, slice)) (hs : WithChecksum k.checksum body slice) (ha : AcceptedEvent m k.columns header ev body)
      (hr : FileRun m (k.after ev) rest items halt) :
      FileRun m k (recordBytes (header, slice) ++ rest) (.ok (header, ev) :: items) halt
  | refused {k : Learned} {header : EventHeader} {slice rest : Bytes} {err : Err} {items : List Item} {halt : Halt}
      (hok : RecordOk (header, slice)) (he : err ≠ .io .unexpectedEof) (h : SliceReason m err k.checksum k.columns header slice)
      (hr : FileRun m k rest items halt) : FileRun m k (recordBytes (header, slice) ++ rest) (.error err :: items) halt
  /-- An event that is too short for what it says is taken for the end of the file. -/
  | ends {k : Learned} {header : EventHeader} {slice rest : Bytes} (hok : RecordOk (header, slice))
      (h : SliceEnds m k.checksum k.columns header slice) : FileRun m k (recordBytes (header, slice) ++ rest) [] .ended
  | crash {k : Learned} {header : EventHeader} {slice rest : Bytes} (hok : RecordOk (header, slice))
      (h : SliceCrash m k.checksum k.columns header slice) : FileRun m k (recordBytes (header, slice) ++ rest) [] .crash
  | loop {k : Learned} {header : EventHeader} {slice rest : Bytes} (hok : RecordOk (header, slice))
      (h : SliceLoop k.checksum k.columns header slice) : FileRun m k (recordBytes (header, slice) ++ rest) [] .loop

/-- Bytes that start with a whole packet. -/
def WholePacket (bytes : Bytes) : Prop := ∃ p n rest, Framable (p, n) ∧ bytes = frame p n ++ rest

/-- How reading fails when the bytes run out; then, the bytes that come after that, how reading fails when those run out, and so on. -/
abbrev Failures := IoKind × List (Bytes × IoKind)

/-- The same for the packets of a connection whose reads fail like that. -/
inductive LiveRun (m : Mode) : Failures → (known : Learned) → (bytes : Bytes) → List Item → Halt → Prop where
  | running {f : Failures} {k : Learned} {bytes : Bytes} : LiveRun m f k bytes [] .running
  /-- The connection breaks off. What there was of a packet is lost, and further calls fail the same way. -/
  | broken {ending : IoKind} {k : Learned} {bytes : Bytes} {items : List Item} {halt : Halt} (h : ¬WholePacket bytes)
      (hr : LiveRun m (ending, []) k [] items halt) :
      LiveRun m (ending, []) k bytes (.error (.io ending) :: items) halt
  /-- The connection fails for a time. What there was of a packet is lost; the next call takes what comes then for the start of one. -/
  | resumed {ending ending' : IoKind} {later : List (Bytes × IoKind)} {k : Learned} {bytes bytes' : Bytes} {items : List Item} {halt : Halt}
      (h : ¬WholePacket bytes) (hr : LiveRun m (ending', later) k bytes' items halt) :
      LiveRun m (ending, (bytes', ending') :: later) k bytes (.error (.io ending) :: items) halt
  | empty {f : Failures} {k : Learned} {n : Nat} {rest : Bytes} (hn : Framable ([], n)) : LiveRun m f k (frame [] n ++ rest) [] .crash
  /-- An end-of-file packet, whatever it says. -/
  | eof {f : Failures} {k : Learned} {n : Nat} {body rest : Bytes} (hn : Framable (0xFE :: body, n)) :
      LiveRun m f k (frame (0xFE :: body) n ++ rest) [] .ended
  | status {f : Failures} {k : Learned} {status : UInt8} {n : Nat} {body rest : Bytes} {items : List Item} {halt : Halt} (hn : Framable (status :: body, n))
      (h : status ∉ [0x00, 0xFE, 0xFF]) (hr : LiveRun m f k rest items halt) :
      LiveRun m f k (frame (status :: body) n ++ rest) (.error (.str "Unknown network stream status") :: items) halt
  /-- An error packet; one too short for an error number; one whose message is no text. -/
  | error {f : Failures} {k : Learned} {error : ErrorPacket} {n : Nat} {body rest : Bytes} {items : List Item} {halt : Halt} (hn : Framable (0xFF :: body, n))
      (h : LooseError error body) (hr : LiveRun m f k rest items halt) :
      LiveRun m f k (frame (0xFF :: body) n ++ rest)
        (.error (.server "Event stream error." error.errorCode error.errorMessage error.sqlState) :: items) halt
  | errorShort {f : Failures} {k : Learned} {n : Nat} {body rest : Bytes} {items : List Item} {halt : Halt} (hn : Framable (0xFF :: body, n))
      (h : body.length < 2) (hr : LiveRun m f k rest items halt) :
      LiveRun m f k (frame (0xFF :: body) n ++ rest) (.error (.io .unexpectedEof) :: items) halt
  | errorText {f : Failures} {k : Learned} {code n : Nat} {text rest : Bytes} {items : List Item} {halt : Halt} (hn : Framable (0xFF :: (le 2 code ++ text), n))
      (hc : code < 2 ^ 16) (h : NotText text) (hr : LiveRun m f k rest items halt) :
      LiveRun m f k (frame (0xFF :: (le 2 code ++ text)) n ++ rest) (.error (.io .invalidData) :: items) halt
  /-- No room for a header. -/
  | short {f : Failures} {k : Learned} {n : Nat} {body rest : Bytes} {items : List Item} {halt : Halt} (hn : Framable (0x00 :: body, n))
      (h : body.length < 19) (hr : LiveRun m f k rest items halt) :
      LiveRun m f k (frame (0x00 :: body) n ++ rest) (.error (.io .unexpectedEof) :: items) halt
  /-- Events. The length in the header does not matter. -/
  | event {f : Failures} {k : Learned} {n : Nat} {header : EventHeader} {slice body rest : Bytes} {ev : BinlogEvent} {items : List Item} {halt : Halt}
      (hn : Framable (0x00 :: (headerBytes header ++ slice), n)) (hf : HeaderFits header) (hs : WithChecksum k.checksum body slice)
      (ha : AcceptedEvent m k.columns header ev body) (hr : LiveRun m f (k.after ev) rest items halt) :
      LiveRun m f k (frame (0x00 :: (headerBytes header ++ slice)) n ++ rest) (.ok (header, ev) :: items) halt
  | refused {f : Failures} {k : Learned} {n : Nat} {header : EventHeader} {slice rest : Bytes} {err : Err} {items : List Item} {halt : Halt}
      (hn : Framable (0x00 :: (headerBytes header ++ slice), n)) (hf : HeaderFits header) (he : err ≠ .io .unexpectedEof)
      (h : SliceReason m err k.checksum k.columns header slice) (hr : LiveRun m f k rest items halt) :
      LiveRun m f k (frame (0x00 :: (headerBytes header ++ slice)) n ++ rest) (.error err :: items) halt
  | ends {f : Failures} {k : Learned} {n : Nat} {header : EventHeader} {slice rest : Bytes} {items : List Item} {halt : Halt}
      (hn : Framable (0x00 :: (headerBytes header ++ slice), n)) (hf : HeaderFits header)
      (h : SliceEnds m k.checksum k.columns header slice) (hr : LiveRun m f k rest items halt) :
      LiveRun m f k (frame (0x00 :: (headerBytes header ++ slice)) n ++ rest) (.error (.io .unexpectedEof) :: items) halt
  | crash {f : Failures} {k : Learned} {n : Nat} {header : EventHeader} {slice rest : Bytes} (hn : Framable (0x00 :: (headerBytes header ++ slice), n))
      (hf : HeaderFits header) (h : SliceCrash m k.checksum k.columns header slice) :
      LiveRun m f k (frame (0x00 :: (headerBytes header ++ slice)) n ++ rest) [] .crash
  | loop {f : Failures} {k : Learned} {n : Nat} {header : EventHeader} {slice rest : Bytes} (hn : Framable (0x00 :: (headerBytes header ++ slice), n))
      (hf : HeaderFits header) (h : SliceLoop k.checksum k.columns header slice) :
      LiveRun m f k (frame (0x00 :: (headerBytes header ++ slice)) n ++ rest) [] .loop

/-- The same item; of an event, see `SameEvent`. -/
inductive SameItem : Item → Item → Prop where
  | ok {header : EventHeader} {ev ev' : BinlogEvent} (h : SameEvent ev ev') : SameItem (.ok (header, ev)) (.ok (header, ev'))
  | error {err : Err} : SameItem (.error err) (.error err)

end MysqlCdc.Spec
