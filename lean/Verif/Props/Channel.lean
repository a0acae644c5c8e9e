import Verif.Lemmas.Channel
import Verif.Lemmas.Session
/-!
# C24, C25: packets on the wire
-/

namespace MysqlCdc

open Spec

/-- Writes packets one after the other, stopping at the first failure. -/
def Channel.writePackets (ch : Channel) : List (Bytes × Nat) → Res Unit × Channel
  | [] => (.ok (), ch)
  | p :: ps =>
    match ch.writePacket p.1 p.2 with
    | (.ok _, ch) => ch.writePackets ps
    | (r, ch) => (r, ch)

/-- Reads `n` packets. -/
def Channel.readPackets (ch : Channel) : Nat → Res (List (Bytes × Nat)) × Channel
  | 0 => (.ok [], ch)
  | n + 1 =>
    match ch.readPacket with
    | (.ok p, ch) =>
      match ch.readPackets n with
      | (.ok ps, ch) => (.ok (p :: ps), ch)
      | (r, ch) => (r, ch)
    | (.err e, ch) => (.err e, ch)
    | (.panic, ch) => (.panic, ch)
    | (.hang, ch) => (.hang, ch)

/-- The connection takes a packet in one call whenever it takes anything. -/
def TakesWhole (ch : Channel) (p : Bytes) : Prop := ∀ a, WriteStep.accept a ∈ ch.writes → p.length ≤ a

/-! ## C24 -/

theorem readPackets_frames (ch : Channel) (ps : List (Bytes × Nat)) (rest : Bytes) (hp : ∀ p ∈ ps, Framable p)
    (hi : ch.input = frames ps ++ rest) :
    ∃ ch', ch.readPackets ps.length = (.ok ps, ch') ∧ ch'.input = rest := by
  induction ps generalizing ch with
  | nil => exact ⟨ch, rfl, by simpa [frames] using hi⟩
  | cons p ps ih =>
    have h0 := hp p (by simp)
    rw [frames, List.append_assoc] at hi
    have h1 := readPacket_frame ch p.1 (frames ps ++ rest) p.2 h0.1 h0.2 hi
    obtain ⟨ch', h2, h3⟩ := ih { ch with input := frames ps ++ rest, trace := ch.trace ++ [.received p.2 p.1] }
      (fun q hq => hp q (by simp [hq])) rfl
    refine ⟨ch', ?_, h3⟩
    rw [List.length_cons, Channel.readPackets, h1]
    simp only [h2]

theorem writePackets_frames (ch ch' : Channel) (ps : List (Bytes × Nat)) (hp : ∀ p ∈ ps, Framable p)
    (ht : ∀ p ∈ ps, TakesWhole ch p.1) (hw : ch.writePackets ps = (.ok (), ch')) :
    ch'.output = ch.output ++ frames ps := by
  induction ps generalizing ch with
  | nil =>
    obtain rfl : ch = ch' := by simpa [Channel.writePackets] using hw
    simp [frames]
  | cons p ps ih =>
    have h0 := hp p (by simp)
    have h24 : p.1.length < 2 ^ 32 := Nat.lt_of_lt_of_le h0.1 (by decide)
    have hf := writePacket_cases ch p.1 p.2 h24
    rw [Channel.writePackets] at hw
    rcases hf with ⟨h, -⟩ | ⟨-, k, ws, hs, h2, ⟨h1, -, h3⟩ | ⟨e, h1⟩⟩
    · have := h0.1; omega
    · rcases hx : ch.writePacket p.1 p.2 with ⟨r, c⟩
      rw [hx] at h1 h2 hw
      simp only at h1 h2
      subst h1 h2
      simp only at hw
      have hk := h3 (ht p (by simp))
      have := ih _ (fun q hq => hp q (by simp [hq])) (fun q hq a ha => ht q (by simp [hq]) a (hs.subset ha)) hw
      rw [this, List.take_of_length_le (by rw [frame_length]; exact hk), frames]
      simp
    · rcases hx : ch.writePacket p.1 p.2 with ⟨r, c⟩
      rw [hx] at h1 hw
      simp only at h1
      subst h1
      simp at hw

/-- C24. Packets that were written, all successfully, to a connection that takes them whole are read back by a peer: the same
payloads and sequence numbers in the same order; and the bytes that follow are left. -/
theorem C24_round_trip (ch ch' peer : Channel) (ps : List (Bytes × Nat)) (rest : Bytes) (hp : ∀ p ∈ ps, Framable p)
    (ht : ∀ p ∈ ps, TakesWhole ch p.1) (hw : ch.writePackets ps = (.ok (), ch')) :
    ∃ bytes, ch'.output = ch.output ++ bytes ∧
      (peer.input = bytes ++ rest → ∃ peer', peer.readPackets ps.length = (.ok ps, peer') ∧ peer'.input = rest) :=
  ⟨frames ps, writePackets_frames ch ch' ps hp ht hw, fun h => readPackets_frames peer ps rest hp h⟩

theorem writeAll_empty_script (c : Channel) (bs : Bytes) (hc : c.writes = []) :
    c.writeAll bs = (.ok (), { c with output := c.output ++ bs }) := by
  rw [Channel.writeAll]
  split
  · rename_i h; simp [h]
  · rename_i h
    have := List.length_pos_iff.2 h
    have hw : c.write bs = (.ok bs.length, { c with output := c.output ++ bs }) := by unfold Channel.write; rw [hc]
    rw [hw]
    simp only
    rw [dif_pos ⟨this, h⟩, Channel.writeAll]
    simp

theorem writePacket_empty_script (ch : Channel) (p : Bytes) (n : Nat) (h : ch.writes = []) (hp : p.length < 2 ^ 24) :
    ch.writePacket p n = (.ok (), { ch with output := ch.output ++ frame p n, trace := ch.trace ++ [.sent n p] }) := by
  have h24 : p.length % 2 ^ 32 = p.length := Nat.mod_eq_of_lt (Nat.lt_of_lt_of_le hp (by decide))
  unfold Channel.writePacket
  rw [h24]
  simp only
  rw [if_neg (by omega), writeAll_empty_script { ch with trace := ch.trace ++ [.sent n p] } _ h]
  simp only
  rw [writeAll_empty_script _ _ (by exact h)]
  simp only [Channel.write, h, leBytes_eq, frame, List.append_assoc]

/-- C24. Writing succeeds on a connection that takes everything. -/
theorem C24_writes_succeed (ch : Channel) (ps : List (Bytes × Nat)) (hp : ∀ p ∈ ps, Framable p) (ht : ch.writes = []) :
    ∃ ch', ch.writePackets ps = (.ok (), ch') := by
  induction ps generalizing ch with
  | nil => exact ⟨ch, rfl⟩
  | cons p ps ih =>
    have h0 := (hp p (by simp)).1
    have e1 := writePacket_empty_script ch p.1 p.2 ht h0
    obtain ⟨ch', h⟩ := ih { ch with output := ch.output ++ frame p.1 p.2, trace := ch.trace ++ [.sent p.2 p.1] }
      (fun q hq => hp q (by simp [hq])) ht
    exact ⟨ch', by rw [Channel.writePackets, e1]; exact h⟩

/-- Short writes during the header, packets of several sizes. -/
example : ∃ ch' : Channel, Channel.writePackets ⟨[], .unexpectedEof, [], [.accept 2, .accept 7, .accept 9], 0, [], []⟩
      [([3, 1], 0), ([], 1), ([9], 255)] = (.ok (), ch') ∧
    (∀ p ∈ ([([3, 1], 0), ([], 1), ([9], 255)] : List (Bytes × Nat)), Framable p ∧
      TakesWhole ⟨[], .unexpectedEof, [], [.accept 2, .accept 7, .accept 9], 0, [], []⟩ p.1) ∧
    ch'.output = [2, 0, 0, 0, 3, 1, 0, 0, 0, 1, 1, 0, 0, 255, 9] := by
  refine ⟨⟨[], .unexpectedEof, [2, 0, 0, 0, 3, 1, 0, 0, 0, 1, 1, 0, 0, 255, 9], [], 0,
    [.sent 0 [3, 1], .sent 1 [], .sent 255 [9]], []⟩, ?_, ?_, rfl⟩
  · simp [Channel.writePackets, Channel.writePacket, leBytes, Channel.writeAll, Channel.write]
  · unfold Framable TakesWhole
    simp

/-! ## C25 -/

/-- C25 is false: when the operating system takes a part of the packet, `write_packet` succeeds all the same. Here two of four
bytes are sent. -/
theorem C25_false_short_write :
    ∃ (ch ch' : Channel) (p : Bytes) (n : Nat), p.length < 2 ^ 24 ∧ ch.writePacket p n = (.ok (), ch') ∧
      ch'.output.length < ch.output.length + (frame p n).length := by
  refine ⟨⟨[], .unexpectedEof, [], [.accept 3, .accept 1, .accept 2], 0, [], []⟩,
    ⟨[], .unexpectedEof, [4, 0, 0, 7, 10, 11], [], 0, [.sent 7 [10, 11, 12, 13]], []⟩, [10, 11, 12, 13], 7, by decide, ?_, by decide⟩
  simp [Channel.writePacket, leBytes, Channel.writeAll, Channel.write]

/-- C25 is false in a second way: the length is cut to 32 bits before it is checked, so a packet of 4 GiB is not refused; it goes
out with length zero. -/
theorem C25_false_long_packet :
    ∃ (ch ch' : Channel) (p : Bytes), 2 ^ 24 ≤ p.length ∧ ch.writePacket p 0 = (.ok (), ch') ∧
      ch'.output = [0, 0, 0, 0] ++ p := by
  obtain ⟨p, hp⟩ : ∃ p : Bytes, p.length = 4294967296 :=
    (fun n => ⟨List.replicate n 0, List.length_replicate⟩ : ∀ n : Nat, ∃ p : Bytes, p.length = n) _
  have hz : p.length % 2 ^ 32 = 0 := by omega
  refine ⟨⟨[], .unexpectedEof, [], [], 0, [], []⟩, ⟨[], .unexpectedEof, [0, 0, 0, 0] ++ p, [], 0, [.sent 0 p], []⟩, p, by omega, ?_, rfl⟩
  unfold Channel.writePacket
  rw [hz]
  simp [leBytes, Channel.writeAll, Channel.write]

/-- C25. What holds, for packets below 4 GiB: success means that the four bytes of the header and a prefix of the packet were
handed over, in order and nothing else; and the whole packet if the connection takes whole packets. A packet too long for the
length field is refused before anything is sent. Missing: the rest of the packet after a short write, and longer packets. -/
theorem C25_sent_whole_partial (ch : Channel) (p : Bytes) (n : Nat) (hp : p.length < 2 ^ 32) :
    (∀ ch', ch.writePacket p n = (.ok (), ch') →
      p.length < 2 ^ 24 ∧ (∃ k, ch'.output = ch.output ++ le 3 p.length ++ le 1 n ++ p.take k) ∧
      (TakesWhole ch p → ch'.output = ch.output ++ frame p n)) ∧
    (2 ^ 24 ≤ p.length → (ch.writePacket p n).1 = .panic ∧ (ch.writePacket p n).2.output = ch.output) := by
  rcases writePacket_cases ch p n hp with ⟨h, e⟩ | ⟨h, k, ws, hs, h2, h1⟩
  · rw [e]
    exact ⟨fun ch' h => by simp at h, fun _ => ⟨rfl, rfl⟩⟩
  · refine ⟨fun ch' he => ?_, fun h' => absurd h' (by omega)⟩
    rw [he] at h2 h1
    simp only at h2 h1
    subst h2
    rcases h1 with ⟨-, h4, hw⟩ | ⟨e, h1⟩
    · refine ⟨h, ⟨k - 4, ?_⟩, fun ht => ?_⟩
      · have := take_frame_payload p n (k - 4)
        rw [show 4 + (k - 4) = k by omega] at this
        rw [this]
        simp
      · simp only
        rw [List.take_of_length_le (by rw [frame_length]; exact hw ht)]
    · simp at h1

example : TakesWhole ⟨[], .unexpectedEof, [], [.accept 4, .accept 4, .accept 4], 0, [], []⟩ [10, 11, 12, 13] ∧
    Channel.writePacket ⟨[], .unexpectedEof, [], [.accept 4, .accept 4, .accept 4], 0, [], []⟩ [10, 11, 12, 13] 7 =
      (.ok (), ⟨[], .unexpectedEof, [4, 0, 0, 7, 10, 11, 12, 13], [], 0, [.sent 7 [10, 11, 12, 13]], []⟩) := by
  unfold TakesWhole
  simp [Channel.writePacket, leBytes, Channel.writeAll, Channel.write]

/-! ## The trace is what travelled -/

/-- What a trace says about the bytes: the input consumed is the received packets (and what a failed read lost); the output is
the sent packets, if the connection takes everything and no packet was too long. -/
def Faithful (a b : Channel) : Prop :=
  ∃ t lost, b.trace = a.trace ++ t ∧ a.input = frames (receivedOf t) ++ lost ++ b.input ∧ (lost ≠ [] → b.input = []) ∧
    (a.writes = [] → (∀ p ∈ sentOf t, p.1.length < 2 ^ 24) → b.writes = [] ∧ b.output = a.output ++ frames (sentOf t))

theorem Faithful.refl (a : Channel) : Faithful a a :=
  ⟨[], [], by simp, by simp [receivedOf, frames], by simp, fun h _ => ⟨h, by simp [sentOf, frames]⟩⟩

theorem Faithful.trans {a b c : Channel} (h : Faithful a b) (h' : Faithful b c) : Faithful a c := by
  obtain ⟨t, l, h1, h2, h3, h4⟩ := h
  obtain ⟨t', l', g1, g2, g3, g4⟩ := h'
  have ha : a.input = frames (receivedOf (t ++ t')) ++ (l ++ l') ++ c.input ∧ (l ++ l' ≠ [] → c.input = []) := by
    rw [receivedOf_append, frames_append, h2]
    by_cases hl : l = []
    · subst hl
      exact ⟨by rw [g2]; simp, by simpa using g3⟩
    · have hb := h3 hl
      rw [hb] at g2 ⊢
      have := List.append_eq_nil_iff.1 g2.symm
      have h5 := List.append_eq_nil_iff.1 this.1
      rw [h5.1, h5.2, this.2]
      simp
  refine ⟨t ++ t', l ++ l', by rw [g1, h1, List.append_assoc], ha.1, ha.2, ?_⟩
  intro hw hp
  rw [sentOf_append] at hp ⊢
  obtain ⟨w1, o1⟩ := h4 hw (fun p hp' => hp p (List.mem_append.2 (.inl hp')))
  obtain ⟨w2, o2⟩ := g4 w1 (fun p hp' => hp p (List.mem_append.2 (.inr hp')))
  exact ⟨w2, by rw [o2, o1, frames_append, List.append_assoc]⟩

theorem Faithful.read (ch : Channel) : Faithful ch ch.readPacket.2 := by
  rcases h : ch.readPacket with ⟨r, c⟩
  by_cases hr : ∃ x, r = .ok x
  · obtain ⟨⟨p, n⟩, rfl⟩ := hr
    obtain ⟨-, -, rest, hi, rfl⟩ := readPacket_inv h
    exact ⟨[.received n p], [], rfl, by simp [receivedOf, frames, hi], by simp, fun hw _ => ⟨hw, by simp [sentOf, frames]⟩⟩
  · obtain ⟨-, rfl⟩ := readPacket_fail h (fun x hx => hr ⟨x, hx⟩)
    exact ⟨[], ch.input, by simp, by simp [receivedOf, frames], fun _ => rfl, fun hw _ => ⟨hw, by simp [sentOf, frames]⟩⟩

theorem Faithful.write (ch : Channel) (p : Bytes) (n : Nat) : Faithful ch (ch.writePacket p n).2 := by
  obtain ⟨out, ws, h⟩ := writePacket_frame ch p n
  refine ⟨[.sent n p], [], by rw [h], by rw [h]; simp [receivedOf, frames], by simp, fun hw hp => ?_⟩
  have := writePacket_empty_script ch p n hw (hp (p, n) (by simp [sentOf]))
  rw [this]
  exact ⟨hw, by simp [sentOf, frames]⟩

/-- The trace that later theorems speak of is faithful: over the whole set-up of a connection, up to the dump request or a
failure, the bytes consumed are the received packets (and what a failed read lost) and the bytes handed over are the sent
packets, framed and in order. -/
theorem trace_faithful (m : Mode) (c : Crypto) (s : Sess) : Faithful s.chan (setUp m c s).2.chan := by
  have hF : Frame fun a b : Sess => Faithful a.chan b.chan :=
    { refl := fun s => .refl s.chan
      trans := fun h h' => h.trans h'
      read := fun s => Faithful.read s.chan
      write := fun p n s => Faithful.write s.chan p n }
  exact (FullFrame.mk hF (fun s => .refl s.chan) (hF.adjustStartingPosition fun s _ _ => .refl s.chan)).setUp m c s

end MysqlCdc
