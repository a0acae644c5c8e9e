import Verif.Props.Writes
import Verif.Lemmas.ExampleServer
/-!
C85: how the set-up of replication ends when it fails.
-/

namespace MysqlCdc

open Spec

/-- **C85.** When the conversation comes to a point from which it does not go on, as described, the set-up ends in the way described;
what could be written has been written, and nothing else. -/
theorem C85_ends (m : Mode) (c : Crypto) (s : Sess) (t written : List Packet) (input rest : Bytes) (st : Stage) (e : Ending)
    (h : Stops m c s.client.options s.chan.ending t input written rest st e) (hi : s.chan.input = frames (receivedOf t) ++ input)
    (hw : s.chan.writes = []) (hr : ∀ x ∈ receivedOf t, Framable x) (hs : ∀ x ∈ sentOf written, Sendable x.1) :
    ∃ r, e.Is r ∧ setUp m c s = (r, ⟨st.clientLeft s.client,
      { s.chan with input := rest, output := s.chan.output ++ frames (sentOf written), trace := s.chan.trace ++ t }⟩) := by
  have := C95_ends m c s t written input rest st e h hi hr hs (by rw [hw]; exact carries_free _)
  rwa [← hw] at this

/-- **C85.** There is no other way to end: whatever the server sends, the set-up succeeds with a complete conversation (C84), or it
comes to a point from which the conversation does not go on. -/
theorem C85_total (m : Mode) (c : Crypto) (s : Sess) (hf : FitsRequests s.client.options) (hw : s.chan.writes = []) :
    (∃ t maria place checksum rest, Spec.At m c s.client.options (.asked ⟨maria, place, some checksum⟩ .dump) t ∧
      s.chan.input = frames (receivedOf t) ++ rest ∧ (∀ x ∈ receivedOf t, Framable x) ∧ (∀ x ∈ sentOf t, Sendable x.1) ∧
      setUp m c s = (.ok checksum, ⟨restarted s.client place,
        { s.chan with input := rest, output := s.chan.output ++ frames (sentOf t), trace := s.chan.trace ++ t }⟩)) ∨
    ∃ t written input rest st e, Stops m c s.client.options s.chan.ending t input written rest st e ∧
      s.chan.input = frames (receivedOf t) ++ input ∧ (∀ x ∈ receivedOf t, Framable x) ∧ (∀ x ∈ sentOf written, Sendable x.1) ∧
      e.Is (setUp m c s).1 ∧ (setUp m c s).2 = ⟨st.clientLeft s.client,
        { s.chan with input := rest, output := s.chan.output ++ frames (sentOf written), trace := s.chan.trace ++ t }⟩ := by
  rcases leads (m := m) (c := c) hf s.chan.ending (input := s.chan.input) (input' := s.chan.input) .start (by simp [receivedOf, frames]) (by simp [receivedOf])
    (by simp [sentOf]) with ⟨t, maria, place, checksum, rest, h1, h2, h3, h4⟩ | ⟨t, input, written, rest, st, e, h1, h2, h3, h4⟩
  · refine .inl ⟨t, maria, place, checksum, rest, h1, h2, h3, h4, ?_⟩
    have h := reached (c0 := s.client) (ch := s.chan) rfl h1 h3 (sends_free _ _ hw h4).1 rest
    rw [after_start h2] at h
    rw [h, after_free _ _ _ _ _ hw h4]
    rfl
  · obtain ⟨r, h5, h6⟩ := C85_ends m c s t written input rest st e h1 h2 hw h3 h4
    refine .inr ⟨t, written, input, rest, st, e, h1, h2, h3, h4, ?_⟩
    rw [h6]
    exact ⟨h5, rfl⟩

/-- **C85.** The set-up always ends. -/
theorem C85_returns (m : Mode) (c : Crypto) (s : Sess) (hf : FitsRequests s.client.options) (hw : s.chan.writes = []) :
    (setUp m c s).1 ≠ .hang := by
  rcases C85_total m c s hf hw with ⟨_, _, _, _, _, _, _, _, _, h⟩ | ⟨_, _, _, _, _, e, _, _, _, _, h, _⟩
  · rw [h]; simp
  · intro hh
    rw [hh] at h
    cases e with
    | malformed => obtain ⟨_, h, _⟩ := h; cases h
    | _ => cases h

/-- **C85.** When it panics. -/
theorem C85_panics_iff (m : Mode) (c : Crypto) (s : Sess) (hf : FitsRequests s.client.options) (hw : s.chan.writes = []) :
    (setUp m c s).1 = .panic ↔ ∃ t written input rest st, Stops m c s.client.options s.chan.ending t input written rest st .crash ∧
      s.chan.input = frames (receivedOf t) ++ input ∧ (∀ x ∈ receivedOf t, Framable x) ∧ ∀ x ∈ sentOf written, Sendable x.1 := by
  constructor
  · intro hh
    rcases C85_total m c s hf hw with ⟨_, _, _, _, _, _, _, _, _, h⟩ | ⟨t, written, input, rest, st, e, h1, h2, h3, h4, h, _⟩
    · rw [h] at hh; simp at hh
    · rw [hh] at h
      cases e with
      | crash => exact ⟨t, written, input, rest, st, h1, h2, h3, h4⟩
      | malformed => obtain ⟨_, h, _⟩ := h; cases h
      | error e => cases h
  · rintro ⟨t, written, input, rest, st, h1, h2, h3, h4⟩
    obtain ⟨r, h5, h6⟩ := C85_ends m c s t written input rest st .crash h1 h2 hw h3 h4
    rw [h6]
    exact h5

/-- **C85.** An error of the server is reported, with the words for the request, exactly when the last packet read was that error packet. -/
theorem C85_refused_iff (m : Mode) (c : Crypto) (s : Sess) (hf : FitsRequests s.client.options) (hw : s.chan.writes = []) (head : String)
    (e : ErrorPacket) :
    (setUp m c s).1 = .err (.server head e.errorCode e.errorMessage e.sqlState) ↔ ∃ t n body rest st, Spec.At m c s.client.options st t ∧
      heading st = some head ∧ LooseError e body ∧ s.chan.input = frames (receivedOf t ++ [(0xFF :: body, n)]) ++ rest ∧
      (∀ x ∈ receivedOf t ++ [(0xFF :: body, n)], Framable x) ∧ ∀ x ∈ sentOf t, Sendable x.1 := by
  constructor
  · intro hh
    rcases C85_total m c s hf hw with ⟨_, _, _, _, _, _, _, _, _, h⟩ | ⟨t, written, input, rest, st, e', h1, h2, h3, h4, h, _⟩
    · rw [h] at hh; simp at hh
    · rw [hh] at h
      cases e' with
      | crash => cases h
      | malformed => obtain ⟨_, h, hu⟩ := h; cases h; unfold Unreadable at hu; simp at hu
      | error e' =>
        cases h
        cases h1 with
        | @packet t0 _ _ n q _ ht hf' =>
          rw [receivedOf_append] at h2 h3
          generalize hx : Ending.error _ = x at hf'
          cases hf' with
          | @refused _ _ _ body e' hh' he =>
            obtain ⟨a1, a2, a3⟩ := e
            obtain ⟨b1, b2, b3⟩ := e'
            simp only [Ending.error.injEq, Err.server.injEq] at hx
            obtain ⟨rfl, rfl, rfl, rfl⟩ := hx
            exact ⟨written, n, body, _, st, ht, hh', he, h2, h3, h4⟩
          | _ => cases hx
        | stage ht hf' =>
          generalize hx : Ending.error _ = x at hf'
          cases hf' <;> cases hx
  · rintro ⟨t, n, body, rest, st, h1, h2, h3, h4, h5, h6⟩
    obtain ⟨r, h7, h8⟩ := C85_ends m c s (t ++ [.received n (0xFF :: body)]) t rest rest st _ (.packet h1 (.refused h2 h3))
      (by rw [receivedOf_append]; exact h4) hw (by rw [receivedOf_append]; exact h5) h6
    rw [h8]
    exact h7

/-! ## Examples -/

theorem exFits (b : BinlogOptions) (hb : b = .fromEnd ∨ b = .fromStart) : FitsRequests (exUser b).options := by
  rcases hb with rfl | rfl <;> exact ⟨by decide, by decide, by decide, fun g h => by cases h⟩

/-- The server refuses the password. -/
def exDenied85 : Bytes := [0xFF] ++ le 2 1045 ++ utf8Bytes "#28000Access denied".toList

/-- This is reported; so there was a conversation that ended with it. -/
example (m : Mode) : ∃ t n body rest st, Spec.At m exCrypto (exUser .fromStart).options st t ∧ heading st = some "Authentication error." ∧
    LooseError ⟨1045, "Access denied".toList, some "28000".toList⟩ body ∧
    (exChannel [(exHello "8.0.30" "mysql_native_password" 0xf7ff, 0), (exDenied85, 2)]).input =
      frames (receivedOf t ++ [(0xFF :: body, n)]) ++ rest := by
  obtain ⟨t, n, body, rest, st, h1, h2, h3, h4, -, -⟩ := (C85_refused_iff m exCrypto
    ⟨exUser .fromStart, exChannel [(exHello "8.0.30" "mysql_native_password" 0xf7ff, 0), (exDenied85, 2)]⟩ (exFits _ (.inr rfl)) rfl
    "Authentication error." ⟨1045, "Access denied".toList, some "28000".toList⟩).1
    (by revert m; rintro ⟨_ | _⟩ <;> decide +kernel)
  exact ⟨t, n, body, rest, st, h1, h2, h3, h4⟩

/-- The server has no place for another client: the hypotheses of `C85_ends` are met. -/
example (m : Mode) (c : Crypto) : (setUp m c ⟨exUser .fromEnd, exChannel [([0xFF] ++ le 2 1040 ++ utf8Bytes "Too many".toList, 0)]⟩).1 =
    .err (.server "Initial handshake error." 1040 "Too many".toList none) := by
  obtain ⟨r, h1, h2⟩ := C85_ends m c ⟨exUser .fromEnd, exChannel [([0xFF] ++ le 2 1040 ++ utf8Bytes "Too many".toList, 0)]⟩
    [.received 0 ([0xFF] ++ le 2 1040 ++ utf8Bytes "Too many".toList)] [] [] [] .start _
    (.packet .start (.refused (e := ⟨1040, "Too many".toList, none⟩) rfl (C83_error_iff.1 (by decide +kernel)))) rfl rfl
    (by simp [receivedOf, Framable]; decide +kernel) (by simp [sentOf])
  rw [h2]
  exact h1

/-- The client insists on encryption, which the server does not offer: the client has sent nothing. -/
example (m : Mode) : setUp m exCrypto ⟨{ exUser .fromStart with options := { (exUser .fromStart).options with sslMode := .require } },
    exChannel [(exHello "8.0.30" "mysql_native_password" 0xf7ff, 0)]⟩ =
    (.err (.str "The server doesn't support SSL encryption"),
      ⟨{ exUser .fromStart with options := { (exUser .fromStart).options with sslMode := .require } },
      { exChannel [] with trace := [.received 0 (exHello "8.0.30" "mysql_native_password" 0xf7ff)] }⟩) := by
  have hg : LooseGreeting ⟨10, "8.0.30".toList, 77, "abcdefghijklmnopqrst".toList, 0xc00ff7ff, 255, 2, List.replicate 6 '\x00', 21,
      "mysql_native_password".toList⟩ (exHello "8.0.30" "mysql_native_password" 0xf7ff) := C83_greeting_iff.1 (by decide +kernel)
  obtain ⟨r, rfl, h2⟩ := C85_ends m exCrypto
    ⟨{ exUser .fromStart with options := { (exUser .fromStart).options with sslMode := .require } },
      exChannel [(exHello "8.0.30" "mysql_native_password" 0xf7ff, 0)]⟩
    [.received 0 (exHello "8.0.30" "mysql_native_password" 0xf7ff)] _ [] [] _ _
    (.stage (.greeting (n := 0) (k := 1) ⟨10, _, rfl, by decide⟩ hg (.inl rfl) (.inl ⟨by decide, rfl⟩)) (.insists (.inl rfl) (by decide)))
    rfl rfl
    (by
      rintro x hx
      obtain rfl : x = (exHello "8.0.30" "mysql_native_password" 0xf7ff, 0) := List.mem_singleton.1 hx
      exact ⟨by decide +kernel, by decide⟩)
    (by simp [sentOf])
  exact h2

/-- The position at the end of the log is no number: the name of the file is kept, the position is not. -/
example (m : Mode) : (setUp m exCrypto ⟨exUser .fromEnd, exChannel (exLogin "8.0.30" ++ exResult ["bin.000003", "x"])⟩).1 = .err .parseInt ∧
    (setUp m exCrypto ⟨exUser .fromEnd, exChannel (exLogin "8.0.30" ++ exResult ["bin.000003", "x"])⟩).2.client =
      restarted (exUser .fromEnd) ("bin.000003".toList, 0) := by
  revert m
  rintro ⟨_ | _⟩ <;> decide +kernel

/-- A cell of 2^63 bytes is announced. -/
example (m : Mode) : (setUp m exCrypto ⟨exUser .fromEnd, exChannel (exLogin "8.0.30" ++ [([2], 1), (exEof, 2),
    ([1, 97, 0xFE, 0, 0, 0, 0, 0, 0, 0, 0x80], 3)])⟩).1 = .panic ∧
    HugeCell [1, 97, 0xFE, 0, 0, 0, 0, 0, 0, 0, 0x80] := by
  refine ⟨by revert m; rintro ⟨_ | _⟩ <;> decide +kernel, row_panic_iff.1 (by decide +kernel)⟩

/-- The connection breaks off within a packet. -/
example (m : Mode) : (setUp m exCrypto ⟨exUser .fromEnd, { exChannel (exLogin "8.0.30") with
    input := frames (exLogin "8.0.30") ++ [5, 0, 0, 1, 0] }⟩).1 = .err (.io .unexpectedEof) := by
  revert m
  rintro ⟨_ | _⟩ <;> decide +kernel

end MysqlCdc
