import Verif.Lemmas.Header
import Verif.Props.Packets
/-!
# C26: the live event iterator
-/

namespace MysqlCdc

open Spec

/-- Iterating until the end gives these items and leaves the iterator in this state. -/
inductive BinlogEvents.Drains (m : Mode) : BinlogEvents → List Item → BinlogEvents → Prop where
  | done {s s' : BinlogEvents} : s.next m = (.ok none, s') → Drains m s [] s'
  | item {s s1 s' : BinlogEvents} {x : Item} {xs : List Item} : s.next m = (.ok (some x), s1) → Drains m s1 xs s' →
      Drains m s (x :: xs) s'

/-- What iterating gives is determined. -/
theorem BinlogEvents.Drains.unique {m : Mode} {r r1 r2 : BinlogEvents} {xs ys : List Item} (h : r.Drains m xs r1)
    (h' : r.Drains m ys r2) : xs = ys ∧ r1 = r2 := by
  induction h generalizing ys with
  | done h =>
    cases h' with
    | done h' => rw [h] at h'; simpa using h'
    | item h' _ => rw [h] at h'; simp at h'
  | item h _ ih =>
    cases h' with
    | done h' => rw [h] at h'; simp at h'
    | item h' h2 =>
      rw [h] at h'
      obtain ⟨rfl, rfl⟩ : _ ∧ _ := by simpa using h'
      obtain ⟨rfl, rfl⟩ := ih h2
      exact ⟨rfl, rfl⟩

/-- Decoding an error packet returns, whatever is in it. -/
theorem parseErrorPacket_returns (bs : Bytes) : (∃ e, parseErrorPacket.run bs = .ok e) ∨ ∃ e, parseErrorPacket.run bs = .err e := by
  have h1 : Safe bs parseErrorPacket fun _ => True := by
    refine (Safe.uLE bs 2).bind fun _ _ => (Safe.readToString bs).bind fun _ _ => ?_
    split <;> exact .pure trivial
  have h2 : NoHang parseErrorPacket := by
    refine (Step.uLE 2).noHang.bind fun _ => Step.readToString.noHang.bind fun _ => ?_
    split <;> exact (Step.pure _).noHang
  have h3 := (h1 0).1
  have h4 := h2 bs 0
  unfold P.run
  cases hr : parseErrorPacket bs 0 with
  | ok x => exact .inl ⟨_, rfl⟩
  | err e => exact .inr ⟨e, rfl⟩
  | panic => exact absurd hr h3
  | hang => exact absurd hr h4

/-- An error packet gives an error whatever is in it, and what the server reported if it is well-formed. -/
theorem readError_err (b : UInt8) (body : Bytes) : ∃ e, readError (b :: body) = .err e ∧ Reports e body := by
  unfold readError
  rw [List.drop_one, List.tail_cons]
  rcases parseErrorPacket_returns body with ⟨e, h⟩ | ⟨e, h⟩ <;> rw [h] <;> refine ⟨_, rfl, fun p hp => ?_⟩ <;>
    rw [C54_error_decoded p body hp] at h <;> cases h
  exact ⟨_, rfl⟩

/-- What `next` does with the packet it has read. -/
theorem next_packet (m : Mode) (s : BinlogEvents) (p rest : Bytes) (n : Nat) (hp : p.length < 2 ^ 24) (hn : n < 2 ^ 8)
    (hi : s.channel.input = frame p n ++ rest) :
    ∃ ch, (ch.input = rest ∧ (ch.ending, ch.later) = (s.channel.ending, s.channel.later)) ∧ s.next m =
      (match p with
        | [] => (.panic, { s with channel := ch })
        | b :: _ =>
          if b = 0x00 then (asItem (BinlogEvents.readEvent m { s with channel := ch } p).1,
            (BinlogEvents.readEvent m { s with channel := ch } p).2)
          else if b = 0xFF then (asItem (readError p), { s with channel := ch })
          else if b = 0xFE then (.ok none, { s with channel := ch })
          else (.ok (some (.error (.str "Unknown network stream status"))), { s with channel := ch })) := by
  refine ⟨{ s.channel with input := rest, trace := s.channel.trace ++ [.received n p] }, ⟨rfl, rfl⟩, ?_⟩
  unfold BinlogEvents.next
  rw [readPacket_frame s.channel p rest n hp hn hi]
  rfl

/-- The next items, and the iterator after them. -/
inductive BinlogEvents.Yields (m : Mode) : BinlogEvents → List Item → BinlogEvents → Prop where
  | nil {s : BinlogEvents} : Yields m s [] s
  | item {s s1 s' : BinlogEvents} {x : Item} {xs : List Item} : s.next m = (.ok (some x), s1) → Yields m s1 xs s' →
      Yields m s (x :: xs) s'

theorem BinlogEvents.Yields.drains {m : Mode} {s s1 s2 : BinlogEvents} {xs ys : List Item} (h : s.Yields m xs s1) (h' : s1.Drains m ys s2) :
    s.Drains m (xs ++ ys) s2 := by
  induction h with
  | nil => exact h'
  | item h _ ih => exact .item h (ih h')

/-- C26. The master sends any packets (shorter than 16 MiB) other than an end-of-file packet; decoding the events among them does not
panic. Then iteration gives one item for each packet, in order: the decoded event with its header, the decoder's error, or an error for a
packet that carries none. What follows these packets is left unread. -/
theorem C26_delivers_each (m : Mode) (s : BinlogEvents) (sent : List (Sent × Nat)) (rest : Bytes)
    (hok : ∀ x ∈ sent, x.1.Ok ∧ Framable (x.1.payload, x.2))
    (hd : ∀ a ∈ answers m s.parser (eventsOf (sent.map Prod.fst)), a ≠ .panic ∧ a ≠ .hang)
    (hi : s.channel.input = frames (sent.map fun x => (x.1.payload, x.2)) ++ rest) :
    ∃ items s', s.Yields m items s' ∧ Delivered m s.parser (sent.map Prod.fst) items ∧ items.length = sent.length ∧
      s'.channel.input = rest ∧ (s'.channel.ending, s'.channel.later) = (s.channel.ending, s.channel.later) := by
  induction sent generalizing s with
  | nil => exact ⟨[], s, .nil, .nil, rfl, hi, rfl⟩
  | cons x sent ih =>
    obtain ⟨x, n⟩ := x
    obtain ⟨hx, hfr⟩ := hok (x, n) (by simp)
    have hok' := fun y hy => hok y (List.mem_cons_of_mem (x, n) hy)
    simp only [List.map_cons, frames, List.append_assoc] at hi
    obtain ⟨ch, ⟨h1, h0⟩, h2⟩ := next_packet m s x.payload _ n hfr.1 hfr.2 hi
    -- a packet without event
    have other : (∃ e, s.next m = (.ok (some (.error e)), { s with channel := ch }) ∧ ∀ body, x = .error body → Reports e body) → (∀ h p, x ≠ .event h p) →
        (∀ a ∈ answers m s.parser (eventsOf (sent.map Prod.fst)), a ≠ .panic ∧ a ≠ .hang) →
        ∃ items s', s.Yields m items s' ∧ Delivered m s.parser (x :: sent.map Prod.fst) items ∧
          items.length = sent.length + 1 ∧ s'.channel.input = rest ∧ (s'.channel.ending, s'.channel.later) = (s.channel.ending, s.channel.later) := by
      rintro ⟨e, he, hrep⟩ hne hd
      obtain ⟨items, s', g1, g2, g3, g4, g5⟩ := ih { s with channel := ch } hok' hd h1
      exact ⟨.error e :: items, s', .item he g1, .none hne hrep g2, by simp [g3], g4, g5.trans h0⟩
    cases x with
    | event h p =>
      simp only [Sent.payload, if_true] at h2
      have hh : parseHeader.run ((0x00 :: (headerBytes h ++ p) : Bytes).drop 1) = .ok h := parseHeader_run hx p
      have hb : (0x00 :: (headerBytes h ++ p) : Bytes).drop (1 + EVENT_HEADER_SIZE) = p := by
        rw [← List.drop_drop]
        exact List.drop_left' (by rw [headerBytes_length]; rfl)
      unfold BinlogEvents.readEvent at h2
      simp only [hh, hb] at h2
      simp only [List.map_cons, eventsOf, answers, List.mem_cons, forall_eq_or_imp] at hd
      obtain ⟨hd1, hd2⟩ := hd
      rcases hp : parseEvent m s.parser h p with ⟨y, st⟩
      rw [hp] at h2 hd1 hd2
      simp only at hd1 hd2 h2
      obtain ⟨items, s', g1, g2, g3, g4, g5⟩ := ih ⟨ch, st⟩ hok' hd2 h1
      cases y with
      | ok e => exact ⟨.ok (h, e) :: items, s', .item h2 g1, .event hp g2, by simp [g3], g4, g5.trans h0⟩
      | err e => exact ⟨.error e :: items, s', .item h2 g1, .bad hp g2, by simp [g3], g4, g5.trans h0⟩
      | panic => exact absurd rfl hd1.1
      | hang => exact absurd rfl hd1.2
    | short body =>
      refine other ?_ (by simp) hd
      obtain ⟨e, he⟩ := parseHeader_short body hx
      refine ⟨e, ?_, by simp⟩
      rw [h2]
      simp only [Sent.payload, if_true]
      unfold BinlogEvents.readEvent
      rw [List.drop_one, List.tail_cons, he]
      rfl
    | error body =>
      refine other ?_ (by simp) hd
      obtain ⟨e, he, hrep⟩ := readError_err 0xFF body
      refine ⟨e, ?_, by rintro _ ⟨⟩; exact hrep⟩
      rw [h2]
      simp only [Sent.payload]
      rw [if_neg (by decide), he]
      rfl
    | other status body =>
      refine other ?_ (by simp) hd
      refine ⟨.str "Unknown network stream status", ?_, by simp⟩
      rw [h2]
      simp only [Sent.payload]
      rw [if_neg hx.1, if_neg hx.2.1, if_neg hx.2.2]

/-- C26. The same when an end-of-file packet follows: iteration gives these items and no others, ends at that packet, and leaves what
follows it unread. -/
theorem C26_delivers_all (m : Mode) (s : BinlogEvents) (sent : List (Sent × Nat)) (eof : Bytes × Nat) (rest : Bytes)
    (hok : ∀ x ∈ sent, x.1.Ok ∧ Framable (x.1.payload, x.2)) (heof : eof.1.head? = some 0xFE ∧ Framable eof)
    (hd : ∀ a ∈ answers m s.parser (eventsOf (sent.map Prod.fst)), a ≠ .panic ∧ a ≠ .hang)
    (hi : s.channel.input = frames (sent.map fun x => (x.1.payload, x.2)) ++ frame eof.1 eof.2 ++ rest) :
    ∃ items s', s.Drains m items s' ∧ Delivered m s.parser (sent.map Prod.fst) items ∧ items.length = sent.length ∧
      s'.channel.input = rest := by
  obtain ⟨items, s1, g1, g2, g3, g4, -⟩ := C26_delivers_each m s sent (frame eof.1 eof.2 ++ rest) hok hd (by rw [hi, List.append_assoc])
  obtain ⟨ch, ⟨h1, -⟩, h2⟩ := next_packet m s1 eof.1 rest eof.2 heof.2.1 heof.2.2 g4
  obtain ⟨p, n⟩ := eof
  cases p with
  | nil => simp at heof
  | cons b p =>
    obtain rfl : b = 0xFE := by simpa using heof.1
    have hdone : s1.Drains m [] { s1 with channel := ch } := .done (by rw [h2]; simp)
    exact ⟨items, _, by simpa using g1.drains hdone, g2, g3, h1⟩

/-- C26. When the connection ends or times out before the next packet is complete (none of it or a part has arrived), iteration gives
that failure as an error item, and goes on: neither the end of the stream nor an event is made up. -/
theorem C26_broken_off (m : Mode) (s : BinlogEvents) (p : Bytes) (n : Nat) (hp : p.length < 2 ^ 24)
    (hpart : s.channel.input <+: frame p n) (hcut : s.channel.input ≠ frame p n) :
    ∃ s', s.next m = (.ok (some (.error (.io s.channel.ending))), s') ∧ s'.parser = s.parser ∧
      (s.channel.later = [] → s'.channel.input = [] ∧ s'.channel.ending = s.channel.ending) ∧
      ∀ input ending later, s.channel.later = (input, ending) :: later →
        s'.channel.input = input ∧ s'.channel.ending = ending ∧ s'.channel.later = later := by
  have hafter : ∀ ch : Channel, (ch.later = [] → ({ ch with input := [] }.afterFailure).input = [] ∧
      ({ ch with input := [] }.afterFailure).ending = ch.ending) ∧
      ∀ input ending later, ch.later = (input, ending) :: later → ({ ch with input := [] }.afterFailure).input = input ∧
        ({ ch with input := [] }.afterFailure).ending = ending ∧ ({ ch with input := [] }.afterFailure).later = later := by
    intro ch
    unfold Channel.afterFailure
    exact ⟨fun h => by simp only [h]; trivial, fun input ending later h => by simp only [h]; trivial⟩
  have hlen : s.channel.input.length < 4 + p.length := by
    have h1 := hpart.length_le
    have h2 : (frame p n).length = 4 + p.length := by simp [frame, le_length]; omega
    rcases Nat.lt_or_ge s.channel.input.length (4 + p.length) with h | h
    · exact h
    · exact absurd (hpart.eq_of_length_le (by omega)) hcut
  unfold BinlogEvents.next Channel.readPacket Channel.readExact PACKET_HEADER_SIZE
  by_cases h4 : 4 ≤ s.channel.input.length
  · have hsize : leVal ((s.channel.input.take 4).take 3) = p.length := by
      obtain ⟨t, ht⟩ := hpart
      have e : s.channel.input.take 4 = le 3 p.length ++ le 1 n := by
        have : (s.channel.input ++ t).take 4 = le 3 p.length ++ le 1 n := by
          rw [ht, frame]
          exact List.take_left' (by simp)
        rwa [List.take_append_of_le_length h4] at this
      rw [e, List.take_left' (by simp), leVal_le_of_lt (by simpa using hp)]
    simp only [h4, if_true, hsize, List.length_drop]
    rw [if_neg (by omega)]
    exact ⟨_, rfl, rfl, hafter s.channel⟩
  · simp only [h4, if_false]
    exact ⟨_, rfl, rfl, hafter s.channel⟩

/-- Two of four header bytes; a packet short of its last byte; nothing. -/
example : [3, 0] <+: frame [0, 7, 8] 1 ∧ [3, 0] ≠ frame [0, 7, 8] 1 ∧ [3, 0, 0, 1, 0, 7] <+: frame [0, 7, 8] 1 ∧
    [3, 0, 0, 1, 0, 7] ≠ frame [0, 7, 8] 1 ∧ [] <+: frame [0, 7, 8] 1 := by decide +kernel

/-- C26. The list of packets in `C26_delivers_each` covers everything that is not empty and not an end-of-file packet. -/
theorem C26_every_packet (p : Bytes) (h : p ≠ []) (he : p.head? ≠ some 0xFE) : ∃ s : Sent, s.Ok ∧ s.payload = p := by
  cases p with
  | nil => exact absurd rfl h
  | cons b body =>
    by_cases h0 : b = 0
    · subst h0
      by_cases hl : body.length < 19
      · exact ⟨.short body, hl, rfl⟩
      · obtain ⟨hd, hf, e⟩ := split_header body (by omega)
        exact ⟨.event hd (body.drop 19), hf, by simp only [Sent.payload]; rw [← e]⟩
    · by_cases h1 : b = 0xFF
      · subst h1
        exact ⟨.error body, trivial, rfl⟩
      · exact ⟨.other b body, ⟨h0, h1, by simpa using he⟩, rfl⟩

/-- A commit, an error packet, a rotation with a broken name, the end. -/
example (m : Mode) : ∃ (s : BinlogEvents) (sent : List (Sent × Nat)), sent.length = 3 ∧
    (∀ x ∈ sent, x.1.Ok ∧ Framable (x.1.payload, x.2)) ∧
    (∀ a ∈ answers m s.parser (eventsOf (sent.map Prod.fst)), a ≠ .panic ∧ a ≠ .hang) ∧
    s.channel.input = frames (sent.map fun x => (x.1.payload, x.2)) ++ frame [0xFE, 0, 0, 2, 0] 4 ++ [1, 2] := by
  refine ⟨⟨⟨frames ([((Sent.event ⟨5, 16, 1, 27, 0, 0⟩ [9, 0, 0, 0, 0, 0, 0, 0]), 1), (.error [1, 4, 35], 2),
      (.event ⟨5, 4, 1, 28, 0, 0⟩ [4, 0, 0, 0, 0, 0, 0, 0, 0xFF], 3)].map fun x => (x.1.payload, x.2))
        ++ frame [0xFE, 0, 0, 2, 0] 4 ++ [1, 2], .unexpectedEof, [], [], 0, [], []⟩, EventParser.new⟩,
    [((Sent.event ⟨5, 16, 1, 27, 0, 0⟩ [9, 0, 0, 0, 0, 0, 0, 0]), 1), (.error [1, 4, 35], 2),
      (.event ⟨5, 4, 1, 28, 0, 0⟩ [4, 0, 0, 0, 0, 0, 0, 0, 0xFF], 3)], rfl, ?_, ?_, rfl⟩
  · simp only [List.mem_cons, List.not_mem_nil, or_false, forall_eq_or_imp, forall_eq]
    unfold Sent.Ok Framable HeaderFits
    decide +kernel
  · revert m
    rintro ⟨_ | _⟩ <;> decide +kernel

/-! ## C68 -/

/-- What `next` gives for a packet that is an event. -/
theorem next_event (m : Mode) (s : BinlogEvents) (h : EventHeader) (p rest : Bytes) (n : Nat) (hf : HeaderFits h)
    (hl : 20 + p.length < 2 ^ 24) (hn : n < 2 ^ 8) (hi : s.channel.input = frame (0x00 :: (headerBytes h ++ p)) n ++ rest) :
    ∃ ch, ch.input = rest ∧ s.next m =
      (asItem (match (parseEvent m s.parser h p).1 with
        | .ok e => .ok (h, e)
        | .err e => .err e
        | .panic => .panic
        | .hang => .hang), ⟨ch, (parseEvent m s.parser h p).2⟩) := by
  obtain ⟨ch, ⟨h1, -⟩, h2⟩ := next_packet m s _ rest n
    (by simp only [List.length_cons, List.length_append, headerBytes_length]; omega) hn hi
  refine ⟨ch, h1, ?_⟩
  rw [h2]
  have hh : parseHeader.run ((0x00 :: (headerBytes h ++ p) : Bytes).drop 1) = .ok h := parseHeader_run hf p
  have hb : (0x00 :: (headerBytes h ++ p) : Bytes).drop (1 + EVENT_HEADER_SIZE) = p := by
    rw [← List.drop_drop]
    exact List.drop_left' (by rw [headerBytes_length]; rfl)
  simp only [if_true]
  unfold BinlogEvents.readEvent
  simp only [hh, hb]
  rcases parseEvent m s.parser h p with ⟨y, st⟩
  cases y <;> rfl

theorem utf8Bytes_replicate (n : Nat) : utf8Bytes (List.replicate n 'a') = List.replicate n 97 := by
  induction n with
  | zero => rfl
  | succ n ih =>
    rw [List.replicate_succ, List.replicate_succ, ← ih]
    rfl

theorem rows_query_decoded (m : Mode) (st : EventParser) (hc : st.checksumType = .none) (h : EventHeader)
    (ht : h.eventType = 29) (n : Nat) :
    parseEvent m st h (0 :: List.replicate n 97) = (.ok (.rowsQuery ⟨List.replicate n 'a'⟩), st) := by
  have hb : PlainBody h.eventType (.rowsQuery ⟨List.replicate n 'a'⟩) (0 :: List.replicate n 97) := by
    rw [ht, ← utf8Bytes_replicate]
    exact .rowsQuery
  rw [parseEvent_of_body (body := 0 :: List.replicate n 97) ⟨[], by rw [hc]; rfl, by simp⟩ (dispatch_plain hb)]
  rfl

/-- C68 is false: packets are not put together. An event of 16 MiB that the decoder accepts is sent in two packets, and the
iterator gives the decoded beginning as if it were the event. -/
theorem C68_false (m : Mode) : ∃ (h : EventHeader) (payload : Bytes) (e : BinlogEvent), RecordOk (h, payload) ∧
    parseEvent m EventParser.new h payload = (.ok e, EventParser.new) ∧
    ∀ (s : BinlogEvents) (rest : Bytes), s.parser = EventParser.new →
      s.channel.input = frames (physical (0x00 :: (headerBytes h ++ payload)) 1) ++ rest →
      ∃ e' s', s.next m = (.ok (some (.ok (h, e'))), s') ∧ e' ≠ e := by
  suffices H : ∀ n, n = 16777216 → ∃ (h : EventHeader) (payload : Bytes) (e : BinlogEvent), RecordOk (h, payload) ∧
      parseEvent m EventParser.new h payload = (.ok e, EventParser.new) ∧
      ∀ (s : BinlogEvents) (rest : Bytes), s.parser = EventParser.new →
        s.channel.input = frames (physical (0x00 :: (headerBytes h ++ payload)) 1) ++ rest →
        ∃ e' s', s.next m = (.ok (some (.ok (h, e'))), s') ∧ e' ≠ e from H _ rfl
  intro n hn
  have hf : HeaderFits ⟨0, 29, 1, 20 + n, 0, 0⟩ := by
    unfold HeaderFits
    simp only
    omega
  refine ⟨⟨0, 29, 1, 20 + n, 0, 0⟩, 0 :: List.replicate n 97, .rowsQuery ⟨List.replicate n 'a'⟩, ⟨hf, ?_⟩,
    rows_query_decoded m _ rfl _ rfl n, ?_⟩
  · simp only [List.length_cons, List.length_replicate]; omega
  · intro s rest hs hi
    rw [physical, dif_neg (by simp only [List.length_cons, List.length_append, headerBytes_length, List.length_replicate]; omega)] at hi
    simp only [frames, List.append_assoc] at hi
    obtain ⟨k, hk⟩ : ∃ k, k + 21 = 2 ^ 24 - 1 := ⟨2 ^ 24 - 1 - 21, by omega⟩
    have ht : (0x00 :: (headerBytes ⟨0, 29, 1, 20 + n, 0, 0⟩ ++ 0 :: List.replicate n 97) : Bytes).take (2 ^ 24 - 1) =
        0x00 :: (headerBytes ⟨0, 29, 1, 20 + n, 0, 0⟩ ++ 0 :: List.replicate k 97) := by
      rw [← hk, List.take_succ_cons, List.take_append, List.take_of_length_le (by rw [headerBytes_length]; omega),
        headerBytes_length, show k + 20 - 19 = k + 1 by omega, List.take_succ_cons, List.take_replicate]
      congr 4
      omega
    rw [ht] at hi
    obtain ⟨ch, -, h2⟩ := next_event m s _ _ _ _ hf
      (by simp only [List.length_cons, List.length_replicate]; omega) (by decide) hi
    rw [hs, rows_query_decoded m _ rfl _ rfl k] at h2
    refine ⟨.rowsQuery ⟨List.replicate k 'a'⟩, _, h2, ?_⟩
    intro he
    have : (List.replicate k 'a').length = (List.replicate n 'a').length := by
      simp only [BinlogEvent.rowsQuery.injEq, RowsQueryEvent.mk.injEq] at he
      rw [he]
    simp only [List.length_replicate] at this
    omega

/-- C68. What holds: an event that travels in one packet is delivered as decoded. Missing: larger events. -/
theorem C68_single_packet_partial (m : Mode) (s : BinlogEvents) (h : EventHeader) (payload rest : Bytes) (n : Nat)
    (e : BinlogEvent) (hok : RecordOk (h, payload)) (hd : (parseEvent m s.parser h payload).1 = .ok e)
    (hl : h.eventLength < 2 ^ 24 - 2) (hi : s.channel.input = frames (physical (0x00 :: (headerBytes h ++ payload)) n) ++ rest) :
    ∃ s', s.next m = (.ok (some (.ok (h, e))), s') ∧ s'.channel.input = rest := by
  have hl' := hok.2
  simp only at hl'
  rw [physical, dif_pos (by simp only [List.length_cons, List.length_append, headerBytes_length]; omega)] at hi
  simp only [frames, List.append_nil] at hi
  obtain ⟨ch, h1, h2⟩ := next_event m s h payload rest _ hok.1 (by omega) (by omega) hi
  rw [hd] at h2
  exact ⟨_, h2, h1⟩

example (m : Mode) : RecordOk (⟨5, 16, 1, 27, 0, 0⟩, [9, 0, 0, 0, 0, 0, 0, 0]) ∧
    (parseEvent m EventParser.new ⟨5, 16, 1, 27, 0, 0⟩ [9, 0, 0, 0, 0, 0, 0, 0]).1 = .ok (.xid ⟨9⟩) ∧ 27 < 2 ^ 24 - 2 := by
  refine ⟨⟨by unfold HeaderFits; decide, by decide⟩, ?_, by decide⟩
  revert m
  rintro ⟨_ | _⟩ <;> decide +kernel

end MysqlCdc
