import Verif.Model.Iterators
/-!
# The memory that reading events asks for

The reading functions once more, now with the sizes of the buffers that they make for a packet or an event because its header announces a length. Simplified as in
Model/Memory: every request is granted. The buffer of 32 KiB that a file reader makes once (src/binlog_reader.rs:31) is left out. Props/ReadMemory proves that these
functions return what those without sizes do.
-/

namespace MysqlCdc

/-- `read_packet`, src/packet_channel.rs:21-32: the result and the sizes asked for. -/
def Channel.readPacketM (ch : Channel) : (Res (Bytes × Nat) × Channel) × List Nat :=
  match ch.readExact PACKET_HEADER_SIZE with
  | (.ok header, ch) =>
    let packetSize := leVal (header.take 3)
    let seqNum := leVal (header.drop 3)
    -- `vec![0; packet_size as usize]`
    match ch.readExact packetSize with
    | (.ok packet, ch) => ((.ok (packet, seqNum), { ch with trace := ch.trace ++ [.received seqNum packet] }), [packetSize])
    | (.err e, ch) => ((.err e, ch), [packetSize])
    | (.panic, ch) => ((.panic, ch), [packetSize])
    | (.hang, ch) => ((.hang, ch), [packetSize])
  | (.err e, ch) => ((.err e, ch), [])
  | (.panic, ch) => ((.panic, ch), [])
  | (.hang, ch) => ((.hang, ch), [])

/-- `BinlogReader::read_event`, src/binlog_reader.rs:39-59: the result and the sizes asked for to read the event. What decoding it asks for is
`eventMemory`. -/
def BinlogReader.readEventM (m : Mode) (r : BinlogReader) : (Res (EventHeader × BinlogEvent) × BinlogReader) × List Nat :=
  match fileRead r.stream r.failure EVENT_HEADER_SIZE with
  | (.ok headerBuffer, stream) =>
    let r := { r with stream }
    match parseHeader.run headerBuffer with
    | .ok header =>
      match subU m 64 header.eventLength EVENT_HEADER_SIZE with
      | .ok payloadLength =>
        match (if payloadLength > PAYLOAD_BUFFER_SIZE then allocZeroed payloadLength else .ok ()) with
        | .ok _ =>
          let sizes := if payloadLength > PAYLOAD_BUFFER_SIZE then [payloadLength] else []
          match fileRead r.stream r.failure payloadLength with
          | (.ok payload, stream) =>
            let r := { r with stream }
            match parseEvent m r.parser header payload with
            | (.ok event, parser) => ((.ok (header, event), { r with parser }), sizes)
            | (.err e, parser) => ((.err e, { r with parser }), sizes)
            | (.panic, parser) => ((.panic, { r with parser }), sizes)
            | (.hang, parser) => ((.hang, { r with parser }), sizes)
          | (.err e, stream) => ((.err e, { r with stream }), sizes)
          | (.panic, stream) => ((.panic, { r with stream }), sizes)
          | (.hang, stream) => ((.hang, { r with stream }), sizes)
        | .err e => ((.err e, r), [])
        | .panic => ((.panic, r), [])
        | .hang => ((.hang, r), [])
      | .err e => ((.err e, r), [])
      | .panic => ((.panic, r), [])
      | .hang => ((.hang, r), [])
    | .err e => ((.err e, r), [])
    | .panic => ((.panic, r), [])
    | .hang => ((.hang, r), [])
  | (.err e, stream) => ((.err e, { r with stream }), [])
  | (.panic, stream) => ((.panic, { r with stream }), [])
  | (.hang, stream) => ((.hang, { r with stream }), [])

/-- `BinlogReader::next`, src/binlog_reader.rs:65-75: the result and the sizes asked for to read the event. -/
def BinlogReader.nextM (m : Mode) (r : BinlogReader) : (Res (Option Item) × BinlogReader) × List Nat :=
  match r.readEventM m with
  | ((.err (.io .unexpectedEof), r), sizes) => ((.ok none, r), sizes)
  | ((result, r), sizes) => ((asItem result, r), sizes)

end MysqlCdc
