import Verif.Props.ServerErrors
/-!
# C80: what the server reports reaches the user
-/

namespace MysqlCdc

open Spec

/-- C80, set-up: when the server answers a packet with a well-formed error packet, `replicate` returns an error that shows its code,
message and SQL state, whichever step it was. -/
theorem C80_set_up_error (m : Mode) (c : Crypto) (self : Client) (net : Except IoKind Channel) (chan : Channel)
    (ho : Channel.open self.options net = .ok chan) (pre post : List Packet) (k n : Nat) (p : Bytes) (error : ErrorPacket)
    (body : Bytes) (hb : ErrorBody error body)
    (h : PacketsOf ⟨self, chan⟩ (setUp m c ⟨self, chan⟩).2 (pre ++ .sent k p :: .received n (0xFF :: body) :: post)) :
    ∃ context, (self.replicate m c net).1 = .err (.server context error.errorCode error.errorMessage error.sqlState) := by
  obtain ⟨e, he, hrep⟩ := C59_replicate_errs m c self net chan ho pre post k n p body h
  obtain ⟨context, rfl⟩ := hrep error hb
  exact ⟨context, he⟩

/-- An account that may not replicate. -/
example : ErrorBody ⟨1045, "denied".toList, some "28000".toList⟩ (exDenied.drop 1) :=
  ErrorBody.marked (code := 1045) (state := "28000".toList) (message := "denied".toList) (by decide) (by decide)

example (m : Mode) : (setUp m exCrypto ⟨exUser BinlogOptions.fromStart,
    exChannel (exLogin "8.0.30" ++ [(exOk, 1), (exDenied, 1)])⟩).1 =
      .err (.server "Setting master_binlog_checksum error." 1045 "denied".toList (some "28000".toList)) := by
  revert m
  rintro ⟨_ | _⟩ <;> decide +kernel

/-- C80, streaming: when the server sends a well-formed error packet instead of an event, the next item is an error that shows its code,
message and SQL state; decoder and connection go on behind the packet. -/
theorem C80_stream_error (m : Mode) (s : BinlogEvents) (error : ErrorPacket) (body rest : Bytes) (n : Nat) (hb : ErrorBody error body)
    (hf : Framable (0xFF :: body, n)) (hi : s.channel.input = frame (0xFF :: body) n ++ rest) :
    ∃ context s', s.next m = (.ok (some (.error (.server context error.errorCode error.errorMessage error.sqlState))), s') ∧
      s'.parser = s.parser ∧ s'.channel.input = rest := by
  obtain ⟨ch, ⟨h1, -⟩, h2⟩ := next_packet m s (0xFF :: body) rest n hf.1 hf.2 hi
  obtain ⟨e, he, hrep⟩ := readError_err 0xFF body
  obtain ⟨context, rfl⟩ := hrep error hb
  refine ⟨context, { s with channel := ch }, ?_, rfl, h1⟩
  rw [h2]
  simp only
  rw [if_neg (by decide), he]
  rfl

/-- The log asked for has been purged. -/
example : let body := le 2 1236 ++ utf8Bytes ['#'] ++ utf8Bytes "HY000".toList ++ utf8Bytes "Could not find first log file name".toList
    ErrorBody ⟨1236, "Could not find first log file name".toList, some "HY000".toList⟩ body ∧ Framable (0xFF :: body, 1) :=
  ⟨.marked (by decide) (by decide), by decide +kernel, by decide⟩

end MysqlCdc
