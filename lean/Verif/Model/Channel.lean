import Verif.Model.Options
/-!
# The packet channel (src/packet_channel.rs)

A connection is a script: what the peer will send, what error comes after that, and what the operating system does with each
write. As the script is arbitrary it covers every peer, also one that reacts to what it is sent.
-/

namespace MysqlCdc

/-- What one `write` call does: takes at most `n` bytes, or fails. -/
inductive WriteStep where
  | accept (n : Nat)
  | fail (k : IoKind)
  deriving DecidableEq, Repr

/-- A packet that went over the connection, with its sequence number. -/
inductive Packet where
  | sent (seq : Nat) (payload : Bytes)
  | received (seq : Nat) (payload : Bytes)
  deriving DecidableEq, Repr

/-- `PacketChannel`, src/packet_channel.rs:8-10, with its `TcpStream`.
`input`: the bytes the peer will still send; `ending`: the error of a read that needs more than that (`unexpectedEof` when the
peer has closed, another kind for a timeout or a reset); `output`: the bytes handed to the connection so far; `writes`: what the
next write calls do, calls after the end of the list take everything; `readTimeout` in nanoseconds. `trace` is not in the code:
it records the packets read and those `write_packet` was called with (see `trace_faithful` in Props/Channel). `later`: what the
peer sends after each failed read, and the error of the next one; a connection that is read on after the last of them fails in
the same way as before. Interrupted system calls (retried by `read_exact` and `write_all`) are not modelled. -/
structure Channel where
  input : Bytes
  ending : IoKind
  output : Bytes
  writes : List WriteStep
  readTimeout : Nat
  trace : List Packet
  later : List (Bytes × IoKind) := []
  deriving DecidableEq, Repr

/-- src/constants/mod.rs:10 -/
def PACKET_HEADER_SIZE : Nat := 4

/-- The kind `WriteZero`. -/
def WRITE_ZERO : IoKind := .other 0

/-- The timeout set by `PacketChannel::new`, src/packet_channel.rs:16-17. `Duration + Duration` panics at 2^64 seconds. -/
def readTimeoutOf (options : ReplicaOptions) : Res Nat :=
  if options.heartbeatInterval + TIMEOUT_LATENCY_DELTA < 2 ^ 64 * 10 ^ 9 then
    .ok (options.heartbeatInterval + TIMEOUT_LATENCY_DELTA)
  else .panic

/-- `stream.set_read_timeout(Some(read_timeout))?`, after computing the timeout. -/
def Channel.withTimeout (ch : Channel) (timeout : Res Nat) : Res Channel :=
  match timeout with
  | .ok t => .ok { ch with readTimeout := t }
  | .err e => .err e
  | .panic => .panic
  | .hang => .hang

/-- `PacketChannel::new`, src/packet_channel.rs:13-19. `net` is what `TcpStream::connect` answers: an error or a connection. -/
def Channel.open (options : ReplicaOptions) (net : Except IoKind Channel) : Res Channel :=
  match net with
  | .error k => .err (.io k)
  | .ok ch => ch.withTimeout (readTimeoutOf options)

/-- `self.stream.read_exact` of `n` bytes. When the connection cannot deliver them, what there was is lost. -/
def Channel.readExact (ch : Channel) (n : Nat) : Res Bytes × Channel :=
  if n ≤ ch.input.length then (.ok (ch.input.take n), { ch with input := ch.input.drop n })
  else (.err (.io ch.ending), { ch with input := [] })

/-- `read_packet`, src/packet_channel.rs:21-32 -/
def Channel.readPacket (ch : Channel) : Res (Bytes × Nat) × Channel :=
  match ch.readExact PACKET_HEADER_SIZE with
  | (.ok header, ch) =>
    let packetSize := leVal (header.take 3)
    let seqNum := leVal (header.drop 3)
    match ch.readExact packetSize with
    | (.ok packet, ch) => (.ok (packet, seqNum), { ch with trace := ch.trace ++ [.received seqNum packet] })
    | (.err e, ch) => (.err e, ch)
    | (.panic, ch) => (.panic, ch)
    | (.hang, ch) => (.hang, ch)
  | (.err e, ch) => (.err e, ch)
  | (.panic, ch) => (.panic, ch)
  | (.hang, ch) => (.hang, ch)

/-- The connection as the next call of `read_packet` finds it after one that failed. Set-up code never reads again after a failed
read, so only the iterator (src/binlog_events.rs:44-47) comes here. -/
def Channel.afterFailure (ch : Channel) : Channel :=
  match ch.later with
  | [] => ch
  | (input, ending) :: later => { ch with input, ending, later }

/-- `TcpStream::write`: one system call. -/
def Channel.write (ch : Channel) (bs : Bytes) : Res Nat × Channel :=
  match ch.writes with
  | [] => (.ok bs.length, { ch with output := ch.output ++ bs })
  | .accept n :: ws => (.ok (min n bs.length), { ch with output := ch.output ++ bs.take n, writes := ws })
  | .fail k :: ws => (.err (.io k), { ch with writes := ws })

/-- `Write::write_all`, used by byteorder's `write_u24` and `write_u8`: calls `write` until everything is taken. -/
def Channel.writeAll (ch : Channel) (bs : Bytes) : Res Unit × Channel :=
  if bs = [] then (.ok (), ch)
  else
    match ch.write bs with
    | (.ok n, ch) =>
      if _h : 0 < n ∧ bs ≠ [] then Channel.writeAll ch (bs.drop n) else (.err (.io WRITE_ZERO), ch)
    | (.err e, ch) => (.err e, ch)
    | (.panic, ch) => (.panic, ch)
    | (.hang, ch) => (.hang, ch)
  termination_by bs.length
  decreasing_by
    have := List.length_pos_iff.2 _h.2
    simp; omega

/-- `write_packet`, src/packet_channel.rs:34-40. byteorder's `write_u24` asserts that the number fits. The last `write` may take
only a part of the packet; its count is ignored. -/
def Channel.writePacket (ch : Channel) (packet : Bytes) (seqNum : Nat) : Res Unit × Channel :=
  let ch := { ch with trace := ch.trace ++ [.sent seqNum packet] }
  let packetLen := packet.length % 2 ^ 32
  if packetLen ≥ 2 ^ 24 then (.panic, ch)
  else
    match ch.writeAll (leBytes 3 packetLen) with
    | (.ok _, ch) =>
      match ch.writeAll (leBytes 1 seqNum) with
      | (.ok _, ch) =>
        match ch.write packet with
        | (.ok _, ch) => (.ok (), ch)
        | (.err e, ch) => (.err e, ch)
        | (.panic, ch) => (.panic, ch)
        | (.hang, ch) => (.hang, ch)
      | (.err e, ch) => (.err e, ch)
      | (.panic, ch) => (.panic, ch)
      | (.hang, ch) => (.hang, ch)
    | (.err e, ch) => (.err e, ch)
    | (.panic, ch) => (.panic, ch)
    | (.hang, ch) => (.hang, ch)

end MysqlCdc
