import Verif.Props.LiveStream
/-!
# Events of 16 MiB and more: what the iterator makes of them, C99
-/

namespace MysqlCdc

open Spec

/-- Where a payload that travels in several packets is cut. -/
def cutAt : Nat := 2 ^ 24 - 1

/-- The packets behind the first one of a payload. -/
def others (p : Bytes) (n : Nat) : List (Bytes × Nat) := if p.length < cutAt then [] else physical (p.drop cutAt) (n + 1)

theorem physical_cons (p : Bytes) (n : Nat) : physical p n = (p.take cutAt, n % 256) :: others p n := by
  rw [physical, others, cutAt]
  split
  · rename_i h
    rw [List.take_of_length_le (by omega)]
  · rfl

theorem cutAt_lt : cutAt < 2 ^ 24 := by decide

/-- **C99.** Each packet is taken for itself: of a payload of any length the call gives what it gives for the first 2^24 - 1 bytes
alone, whatever their number and whatever follows, and leaves the other packets of the payload for the next calls. -/
theorem C99_each_packet_alone (m : Mode) (s : BinlogEvents) (p rest : Bytes) (n : Nat)
    (hi : s.channel.input = frames (physical p n) ++ rest) :
    (s.next m).2.channel.input = frames (others p n) ++ rest ∧
    ∀ (s1 : BinlogEvents) (n1 : Nat) (rest1 : Bytes), n1 < 2 ^ 8 → s1.parser = s.parser →
      s1.channel.input = frame (p.take cutAt) n1 ++ rest1 →
      (s.next m).1 = (s1.next m).1 ∧ (s.next m).2.parser = (s1.next m).2.parser := by
  rw [physical_cons] at hi
  simp only [frames, List.append_assoc] at hi
  have hl : (p.take cutAt).length < 2 ^ 24 := Nat.lt_of_le_of_lt (List.length_take_le _ _) cutAt_lt
  generalize p.take cutAt = q at hi hl
  obtain ⟨ch, ⟨h1, -⟩, h2⟩ := next_packet m s q _ _ hl (Nat.mod_lt _ (by decide)) hi
  constructor
  · rw [h2, ← h1]
    cases q with
    | nil => rfl
    | cons b q =>
      dsimp only
      split
      · unfold BinlogEvents.readEvent
        dsimp only
        split
        · split <;> rfl
        all_goals rfl
      · split
        · rfl
        · split <;> rfl
  · intro s1 n1 rest1 hn1 hp hi1
    obtain ⟨ch1, -, h3⟩ := next_packet m s1 q _ _ hl hn1 hi1
    rw [h2, h3, hp]
    cases q with
    | nil => exact ⟨rfl, rfl⟩
    | cons b q =>
      dsimp only
      split
      · unfold BinlogEvents.readEvent
        dsimp only
        split
        · split <;> exact ⟨rfl, rfl⟩
        all_goals exact ⟨rfl, rfl⟩
      · split
        · exact ⟨rfl, rfl⟩
        · split <;> exact ⟨rfl, rfl⟩

theorem cutAt_eq : cutAt = (cutAt - 20) + 20 := by decide

theorem take_event (h : EventHeader) (payload : Bytes) :
    (0x00 :: (headerBytes h ++ payload) : Bytes).take cutAt = 0x00 :: (headerBytes h ++ payload.take (cutAt - 20)) := by
  rw [cutAt_eq, Nat.add_sub_cancel]
  generalize cutAt - 20 = k
  rw [List.take_succ_cons, List.take_append, List.take_of_length_le (by rw [headerBytes_length]; omega), headerBytes_length,
    show k + 19 - 19 = k by omega]

theorem drop_event (h : EventHeader) (payload : Bytes) :
    (0x00 :: (headerBytes h ++ payload) : Bytes).drop cutAt = payload.drop (cutAt - 20) := by
  rw [cutAt_eq, Nat.add_sub_cancel]
  generalize cutAt - 20 = k
  rw [List.drop_succ_cons, List.drop_append, List.drop_of_length_le (by rw [headerBytes_length]; omega), headerBytes_length,
    show k + 19 - 19 = k by omega, List.nil_append]

/-- The call treats the next packet as an event of header `h` with the payload `q`: it gives what the decoder makes of that. -/
structure TakenFor (m : Mode) (s : BinlogEvents) (h : EventHeader) (q : Bytes) : Prop where
  event : ∀ x e, (s.next m).1 = .ok (some (.ok (x, e))) ↔ x = h ∧ (parseEvent m s.parser h q).1 = .ok e
  error : ∀ e, (s.next m).1 = .ok (some (.error e)) ↔ (parseEvent m s.parser h q).1 = .err e
  panic : (s.next m).1 = .panic ↔ (parseEvent m s.parser h q).1 = .panic
  goes : (s.next m).1 ≠ .ok none
  parser : (s.next m).2.parser = (parseEvent m s.parser h q).2

theorem takenFor (m : Mode) (s : BinlogEvents) (h : EventHeader) (payload rest : Bytes) (n : Nat) (hf : HeaderFits h)
    (hi : s.channel.input = frames (physical (0x00 :: (headerBytes h ++ payload)) n) ++ rest) :
    TakenFor m s h (payload.take (cutAt - 20)) := by
  rw [physical_cons, take_event] at hi
  simp only [frames, List.append_assoc] at hi
  have hlen : 20 + (payload.take (cutAt - 20)).length < 2 ^ 24 := by
    have := List.length_take_le (cutAt - 20) payload
    have := cutAt_lt
    have := cutAt_eq
    omega
  generalize payload.take (cutAt - 20) = q at hi hlen
  obtain ⟨ch, -, h2⟩ := next_event m s h q _ _ hf hlen (Nat.mod_lt _ (by decide)) hi
  constructor <;> rw [h2] <;> rcases parseEvent m s.parser h q with ⟨r, st⟩ <;> cases r <;> simp [asItem, eq_comm]

/-- **C99.** An event too long for one packet: the call gives what the decoder makes of its beginning, as much of it as the first
packet holds, under the header of the whole event; all the rest is left for the next calls. -/
theorem C99_beginning (m : Mode) (s : BinlogEvents) (h : EventHeader) (payload rest : Bytes) (n : Nat) (hf : HeaderFits h)
    (hl : cutAt ≤ 20 + payload.length) (hi : s.channel.input = frames (physical (0x00 :: (headerBytes h ++ payload)) n) ++ rest) :
    TakenFor m s h (payload.take (cutAt - 20)) ∧
    (s.next m).2.channel.input = frames (physical (payload.drop (cutAt - 20)) (n + 1)) ++ rest := by
  refine ⟨takenFor m s h payload rest n hf hi, ?_⟩
  have h1 := (C99_each_packet_alone m s _ rest n hi).1
  have hnot : ¬ (0x00 :: (headerBytes h ++ payload) : Bytes).length < cutAt := by
    rw [List.length_cons, List.length_append, headerBytes_length]; omega
  rwa [others, if_neg hnot, drop_event] at h1

theorem head_take_cut (p : Bytes) : (p.take cutAt).head? = p.head? := by
  rw [show cutAt = (cutAt - 1) + 1 by decide]
  cases p <;> rfl

/-- **C99.** The rest is not recognised as such; its first bytes decide. Without any byte, because the event just filled the packets
before, the process panics. The byte FE ends the stream as if the server had ended it. With FF, or any byte but 00, there is an error. With
00 the bytes behind are taken for the header of an event; if there are too few of them there is an error. -/
theorem C99_continuation (m : Mode) (s : BinlogEvents) (tail rest : Bytes) (n : Nat)
    (hi : s.channel.input = frames (physical tail n) ++ rest) :
    (tail = [] → (s.next m).1 = .panic) ∧
    (tail.head? = some 0xFE → (s.next m).1 = .ok none) ∧
    (tail.head? = some 0xFF → ∃ e, (s.next m).1 = .ok (some (.error e))) ∧
    (∀ b, tail.head? = some b → b ∉ [0x00, 0xFE, 0xFF] → (s.next m).1 = .ok (some (.error (.str "Unknown network stream status")))) ∧
    (∀ q, tail = 0x00 :: q → q.length < 19 → ∃ e, (s.next m).1 = .ok (some (.error e))) ∧
    (∀ h p, HeaderFits h → tail = 0x00 :: (headerBytes h ++ p) → TakenFor m s h (p.take (cutAt - 20))) := by
  have hi' := hi
  rw [physical_cons] at hi'
  simp only [frames, List.append_assoc] at hi'
  have hl : (tail.take cutAt).length < 2 ^ 24 := Nat.lt_of_le_of_lt (List.length_take_le _ _) cutAt_lt
  have hh := head_take_cut tail
  obtain ⟨ch, -, h2⟩ := next_packet m s _ _ _ hl (Nat.mod_lt _ (by decide)) hi'
  refine ⟨?_, ?_, ?_, ?_, ?_, ?_⟩
  · rintro rfl
    rw [h2, List.take_nil]
  · intro h
    rw [h] at hh
    rw [h2]
    generalize tail.take cutAt = q at hh
    cases q with
    | nil => cases hh
    | cons b q =>
      simp only [List.head?_cons, Option.some.injEq] at hh
      subst hh
      rfl
  · intro h
    rw [h] at hh
    rw [h2]
    generalize tail.take cutAt = q at hh
    cases q with
    | nil => cases hh
    | cons b q =>
      simp only [List.head?_cons, Option.some.injEq] at hh
      subst hh
      obtain ⟨e, he, -⟩ := readError_err 0xFF q
      refine ⟨e, ?_⟩
      show asItem (readError (0xFF :: q)) = _
      rw [he]
      rfl
  · intro c h hc
    rw [h] at hh
    rw [h2]
    generalize tail.take cutAt = q at hh
    cases q with
    | nil => cases hh
    | cons b q =>
      simp only [List.head?_cons, Option.some.injEq] at hh
      subst hh
      simp only [List.mem_cons, List.not_mem_nil, or_false, not_or] at hc
      simp only [if_neg hc.1, if_neg hc.2.1, if_neg hc.2.2]
  · rintro q rfl hq
    rw [h2, List.take_of_length_le (by rw [List.length_cons]; exact Nat.le_trans hq (by decide))]
    obtain ⟨e, he⟩ := parseHeader_short q hq
    refine ⟨e, ?_⟩
    show asItem (BinlogEvents.readEvent m { s with channel := ch } (0x00 :: q)).1 = _
    unfold BinlogEvents.readEvent
    rw [show (0x00 :: q : Bytes).drop 1 = q from rfl, he]
    rfl
  · rintro h p hf rfl
    exact takenFor m s h p rest n hf hi

/-- **C99.** An event that just fills a packet is delivered, but the next call panics: the server sends an empty packet behind it. -/
theorem C99_just_filled (m : Mode) (s : BinlogEvents) (h : EventHeader) (payload rest : Bytes) (n : Nat) (e : BinlogEvent)
    (hf : HeaderFits h) (hl : 20 + payload.length = cutAt) (hd : (parseEvent m s.parser h payload).1 = .ok e)
    (hi : s.channel.input = frames (physical (0x00 :: (headerBytes h ++ payload)) n) ++ rest) :
    ∃ s', s.next m = (.ok (some (.ok (h, e))), s') ∧ (s'.next m).1 = .panic := by
  obtain ⟨h1, h2⟩ := C99_beginning m s h payload rest n hf (by omega) hi
  rw [List.take_of_length_le (by omega)] at h1
  rw [List.drop_of_length_le (by omega)] at h2
  exact ⟨(s.next m).2, Prod.ext ((h1.event h e).2 ⟨rfl, hd⟩) rfl, (C99_continuation m _ [] rest (n + 1) h2).1 rfl⟩

/-- An event that just fills a packet; and one whose rest starts with FE. -/
example (m : Mode) : ∃ (h : EventHeader) (payload : Bytes) (e : BinlogEvent), HeaderFits h ∧ 20 + payload.length = cutAt ∧
    (parseEvent m EventParser.new h payload).1 = .ok e := by
  suffices H : ∀ n, n + 21 = cutAt → ∃ (h : EventHeader) (payload : Bytes) (e : BinlogEvent), HeaderFits h ∧
    20 + payload.length = cutAt ∧ (parseEvent m EventParser.new h payload).1 = .ok e from H (cutAt - 21) (by decide)
  intro n hn
  have := cutAt_lt
  refine ⟨⟨0, 29, 1, 20 + n, 0, 0⟩, 0 :: List.replicate n 97, .rowsQuery ⟨List.replicate n 'a'⟩, ?_, ?_, ?_⟩
  · unfold HeaderFits
    simp only
    omega
  · simp only [List.length_cons, List.length_replicate]; omega
  · rw [rows_query_decoded m _ rfl _ rfl n]

example : ∃ payload : Bytes, cutAt ≤ 20 + payload.length ∧ (payload.drop (cutAt - 20)).head? = some 0xFE := by
  suffices H : ∀ n, ∃ payload : Bytes, n + 20 ≤ 20 + payload.length ∧ (payload.drop n).head? = some 0xFE from by
    rw [cutAt_eq, Nat.add_sub_cancel]; exact H _
  exact fun n => ⟨List.replicate n 7 ++ [0xFE], by simp; omega, by simp⟩

end MysqlCdc
