import Verif.Model.Channel
import Verif.Model.EventParser
import Verif.Model.Responses
/-!
# The two event iterators (src/binlog_events.rs, src/binlog_reader.rs)
-/

namespace MysqlCdc

/-- `Iterator::Item` of both iterators: `Result<(EventHeader, BinlogEvent), Error>`. -/
abbrev Item := Except Err (EventHeader × BinlogEvent)

/-- `BinlogEvents`, src/binlog_events.rs:12-15 -/
structure BinlogEvents where
  channel : Channel
  parser : EventParser
  deriving DecidableEq, Repr

/-- `BinlogEvents::new`, src/binlog_events.rs:18-23 -/
def BinlogEvents.new (channel : Channel) (checksum : ChecksumType) : BinlogEvents :=
  { channel, parser := { EventParser.new with checksumType := checksum } }

/-- `BinlogEvents::read_event`, src/binlog_events.rs:25-30. `&packet[1 + EVENT_HEADER_SIZE..]` is in bounds whenever the header
could be read. -/
def BinlogEvents.readEvent (m : Mode) (s : BinlogEvents) (packet : Bytes) : Res (EventHeader × BinlogEvent) × BinlogEvents :=
  match parseHeader.run (packet.drop 1) with
  | .ok header =>
    let eventSlice := packet.drop (1 + EVENT_HEADER_SIZE)
    match parseEvent m s.parser header eventSlice with
    | (.ok event, parser) => (.ok (header, event), { s with parser })
    | (.err e, parser) => (.err e, { s with parser })
    | (.panic, parser) => (.panic, { s with parser })
    | (.hang, parser) => (.hang, { s with parser })
  | .err e => (.err e, s)
  | .panic => (.panic, s)
  | .hang => (.hang, s)

/-- `BinlogEvents::read_error`, src/binlog_events.rs:32-35 -/
def readError (packet : Bytes) : Res (EventHeader × BinlogEvent) :=
  match parseErrorPacket.run (packet.drop 1) with
  | .ok error => .err (.server "Event stream error." error.errorCode error.errorMessage error.sqlState)
  | .err e => .err e
  | .panic => .panic
  | .hang => .hang

/-- `Some(result)` -/
def asItem {α : Type} : Res α → Res (Option (Except Err α))
  | .ok a => .ok (some (.ok a))
  | .err e => .ok (some (.error e))
  | .panic => .panic
  | .hang => .hang

/-- `BinlogEvents::next`, src/binlog_events.rs:43-59. `packet[0]` panics on an empty packet. A failed read is not
the end: the caller may call again, and then reads what comes after the failure. -/
def BinlogEvents.next (m : Mode) (s : BinlogEvents) : Res (Option Item) × BinlogEvents :=
  match s.channel.readPacket with
  | (.ok (packet, _), channel) =>
    let s := { s with channel }
    match packet with
    | [] => (.panic, s)
    | b :: _ =>
      if b = RESP_OK then
        let r := s.readEvent m packet
        (asItem r.1, r.2)
      else if b = RESP_ERROR then (asItem (readError packet), s)
      else if b = RESP_EOF then (.ok none, s)
      else (.ok (some (.error (.str "Unknown network stream status"))), s)
  | (.err e, channel) => (.ok (some (.error e)), { s with channel := channel.afterFailure })
  | (.panic, channel) => (.panic, { s with channel })
  | (.hang, channel) => (.hang, { s with channel })

/-- `BinlogReader`, src/binlog_reader.rs:13-17. `stream` is the rest of the file, as far as it can be read; `failure` is what reading beyond
that gives: the end of the file, or another error of the operating system. `payload_buffer` is left out: the part that is
parsed has always just been overwritten by `read_exact`. -/
structure BinlogReader where
  stream : Bytes
  parser : EventParser
  failure : IoKind := .unexpectedEof
  deriving DecidableEq, Repr

/-- src/binlog_reader.rs:10 -/
def MAGIC_NUMBER : Bytes := [0xfe, 0x62, 0x69, 0x6e]

/-- `File::read_exact`: it reads until it has enough or a read fails; what it has read by then is gone. -/
def fileRead (stream : Bytes) (failure : IoKind) (n : Nat) : Res Bytes × Bytes :=
  if n ≤ stream.length then (.ok (stream.take n), stream.drop n) else (.err (.io failure), [])

/-- `BinlogReader::new`, src/binlog_reader.rs:20-33 -/
def BinlogReader.new (file : Bytes) (failure : IoKind := .unexpectedEof) : Res BinlogReader :=
  match fileRead file failure FIRST_EVENT_POSITION with
  | (.ok header, stream) =>
    if header ≠ MAGIC_NUMBER then .err (.str "Invalid binary log file header")
    else .ok { stream, parser := EventParser.new, failure }
  | (.err e, _) => .err e
  | (.panic, _) => .panic
  | (.hang, _) => .hang

/-- `BinlogReader::read_event`, src/binlog_reader.rs:39-59. `event_length - 19` underflows below 19: a panic with checks on, and
with checks off a length near 2^64 whose allocation panics. Both branches of the `if` on the buffer size read and parse the
same bytes. -/
def BinlogReader.readEvent (m : Mode) (r : BinlogReader) : Res (EventHeader × BinlogEvent) × BinlogReader :=
  match fileRead r.stream r.failure EVENT_HEADER_SIZE with
  | (.ok headerBuffer, stream) =>
    let r := { r with stream }
    match parseHeader.run headerBuffer with
    | .ok header =>
      match subU m 64 header.eventLength EVENT_HEADER_SIZE with
      | .ok payloadLength =>
        -- `vec![0; payload_length]` above 32 KiB, a slice of the buffer otherwise
        match (if payloadLength > PAYLOAD_BUFFER_SIZE then allocZeroed payloadLength else .ok ()) with
        | .ok _ =>
          match fileRead r.stream r.failure payloadLength with
          | (.ok payload, stream) =>
            let r := { r with stream }
            match parseEvent m r.parser header payload with
            | (.ok event, parser) => (.ok (header, event), { r with parser })
            | (.err e, parser) => (.err e, { r with parser })
            | (.panic, parser) => (.panic, { r with parser })
            | (.hang, parser) => (.hang, { r with parser })
          | (.err e, stream) => (.err e, { r with stream })
          | (.panic, stream) => (.panic, { r with stream })
          | (.hang, stream) => (.hang, { r with stream })
        | .err e => (.err e, r)
        | .panic => (.panic, r)
        | .hang => (.hang, r)
      | .err e => (.err e, r)
      | .panic => (.panic, r)
      | .hang => (.hang, r)
    | .err e => (.err e, r)
    | .panic => (.panic, r)
    | .hang => (.hang, r)
  | (.err e, stream) => (.err e, { r with stream })
  | (.panic, stream) => (.panic, { r with stream })
  | (.hang, stream) => (.hang, { r with stream })

/-- `BinlogReader::next`, src/binlog_reader.rs:65-75 -/
def BinlogReader.next (m : Mode) (r : BinlogReader) : Res (Option Item) × BinlogReader :=
  match r.readEvent m with
  | (.err (.io .unexpectedEof), r) => (.ok none, r)
  | (result, r) => (asItem result, r)

end MysqlCdc
