import Verif.Spec.Endings
import Verif.Spec.Writes
import Verif.Model.Iterators
/-!
# How setting up replication, and opening a stream of events, can end
-/

namespace MysqlCdc.Spec

/-- How the set-up can end: it succeeds; the conversation does not go on; or the connection breaks within a packet. -/
inductive SetUpEnds (m : Mode) (c : Crypto) (s : Sess) : Res ChecksumType × Sess → Prop where
  | done {t : List Packet} {maria : Bool} {place : RStr × Nat} {checksum : ChecksumType} {rest wire : Bytes} {ws' : List WriteStep}
      (h : At m c s.client.options (.asked ⟨maria, place, some checksum⟩ .dump) t)
      (hi : s.chan.input = frames (receivedOf t) ++ rest) (hr : ∀ x ∈ receivedOf t, Framable x) (hs : ∀ x ∈ sentOf t, Sendable x.1)
      (hc : Carries s.chan.writes (sentOf t) wire ws') :
      SetUpEnds m c s (.ok checksum, ⟨restarted s.client place,
        { s.chan with input := rest, output := s.chan.output ++ wire, writes := ws', trace := s.chan.trace ++ t }⟩)
  | stops {t written : List Packet} {input rest wire : Bytes} {st : Stage} {e : Ending} {ws' : List WriteStep} {r : Res ChecksumType}
      (h : Stops m c s.client.options s.chan.ending t input written rest st e) (hi : s.chan.input = frames (receivedOf t) ++ input)
      (hr : ∀ x ∈ receivedOf t, Framable x) (hs : ∀ x ∈ sentOf written, Sendable x.1)
      (hc : Carries s.chan.writes (sentOf written) wire ws') (he : e.Is r) :
      SetUpEnds m c s (r, ⟨st.clientLeft s.client,
        { s.chan with input := rest, output := s.chan.output ++ wire, writes := ws', trace := s.chan.trace ++ t }⟩)
  | breaks {t : List Packet} {p rest wire wire' : Bytes} {n : Nat} {st : Stage} {k : IoKind} {ws ws' : List WriteStep}
      (h : At m c s.client.options st (t ++ [.sent n p])) (hi : s.chan.input = frames (receivedOf t) ++ rest)
      (hr : ∀ x ∈ receivedOf t, Framable x) (hs : ∀ x ∈ sentOf t, Sendable x.1) (hp : Sendable p)
      (hc : Carries s.chan.writes (sentOf t) wire ws) (hb : Breaks ws p n wire' k ws') :
      SetUpEnds m c s (.err (.io k), ⟨st.client s.client, { s.chan with
        input := rest, output := s.chan.output ++ wire ++ wire', writes := ws', trace := s.chan.trace ++ (t ++ [.sent n p]) }⟩)

/-- How `replicate` can end, with the client that is left; `net` says what connecting to an address gives. -/
inductive Opening (m : Mode) (c : Crypto) (client : Client) (net : RStr → Except IoKind Channel) : Res BinlogEvents → Client → Prop where
  /-- There is no connection. -/
  | unreachable {k : IoKind} (h : net (client.options.hostname ++ [':'] ++ Nat.toDigits 10 client.options.port) = .error k) :
      Opening m c client net (.err (.io k)) client
  /-- The time to wait for a packet, ten seconds more than the heartbeat interval, is 2^64 seconds or longer. -/
  | waitTooLong {chan : Channel} (h : net (client.options.hostname ++ [':'] ++ Nat.toDigits 10 client.options.port) = .ok chan)
      (hh : 2 ^ 64 * 10 ^ 9 ≤ client.options.heartbeatInterval + 10 * 10 ^ 9) : Opening m c client net .panic client
  /-- Replication is set up, and there is a stream of events that has not read anything. -/
  | opened {chan : Channel} {checksum : ChecksumType} {s : Sess}
      (h : net (client.options.hostname ++ [':'] ++ Nat.toDigits 10 client.options.port) = .ok chan)
      (hh : client.options.heartbeatInterval + 10 * 10 ^ 9 < 2 ^ 64 * 10 ^ 9)
      (ho : SetUpEnds m c ⟨client, { chan with readTimeout := client.options.heartbeatInterval + 10 * 10 ^ 9 }⟩ (.ok checksum, s)) :
      Opening m c client net (.ok ⟨s.chan, ⟨checksum, []⟩⟩) s.client
  /-- The set-up fails. -/
  | failed {chan : Channel} {e : Err} {s : Sess}
      (h : net (client.options.hostname ++ [':'] ++ Nat.toDigits 10 client.options.port) = .ok chan)
      (hh : client.options.heartbeatInterval + 10 * 10 ^ 9 < 2 ^ 64 * 10 ^ 9)
      (ho : SetUpEnds m c ⟨client, { chan with readTimeout := client.options.heartbeatInterval + 10 * 10 ^ 9 }⟩ (.err e, s)) :
      Opening m c client net (.err e) s.client
  /-- The set-up panics. -/
  | crashed {chan : Channel} {s : Sess}
      (h : net (client.options.hostname ++ [':'] ++ Nat.toDigits 10 client.options.port) = .ok chan)
      (hh : client.options.heartbeatInterval + 10 * 10 ^ 9 < 2 ^ 64 * 10 ^ 9)
      (ho : SetUpEnds m c ⟨client, { chan with readTimeout := client.options.heartbeatInterval + 10 * 10 ^ 9 }⟩ (.panic, s)) :
      Opening m c client net .panic s.client

end MysqlCdc.Spec
