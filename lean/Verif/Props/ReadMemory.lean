import Verif.Model.ReadMemory
import Verif.Props.Iteration
/-!
# C118: reading asks for memory in proportion to what is there to be read
-/

namespace MysqlCdc

open Spec

/-! ## From a connection -/

theorem C118_packet_same_result (ch : Channel) : ch.readPacketM.1 = ch.readPacket := by
  unfold Channel.readPacketM Channel.readPacket
  rcases ch.readExact PACKET_HEADER_SIZE with ⟨header | e | _ | _, ch'⟩
  · dsimp only
    rcases ch'.readExact (leVal (header.take 3)) with ⟨_ | _ | _ | _, _⟩ <;> rfl
  all_goals rfl

/-- **C118, connections.** Whatever a server sends, reading a packet makes at most one buffer; it is smaller than 16 MiB, and is the size of the packet if the packet
comes. -/
theorem C118_packet (ch : Channel) : (∀ x ∈ ch.readPacketM.2, x < 2 ^ 24) ∧ ch.readPacketM.2.length ≤ 1 ∧
    ∀ packet seq ch', ch.readPacket = (.ok (packet, seq), ch') → ch.readPacketM.2 = [packet.length] := by
  rw [← C118_packet_same_result]
  unfold Channel.readPacketM
  have hlt : ∀ bs : Bytes, leVal (bs.take 3) < 2 ^ 24 := by
    intro bs
    refine lt_of_lt_of_le (leVal_lt _) ?_
    exact le_trans (Nat.pow_le_pow_right (by decide) (by rw [List.length_take]; omega)) (by decide : 256 ^ 3 ≤ 2 ^ 24)
  rcases ch.readExact PACKET_HEADER_SIZE with ⟨header | e | _ | _, ch'⟩
  · dsimp only
    cases hr : ch'.readExact (leVal (header.take 3)) with
    | mk res ch'' =>
      cases res with
      | ok packet =>
        refine ⟨by simpa using hlt header, by simp, fun p s c h => ?_⟩
        simp only [Prod.mk.injEq, Res.ok.injEq] at h
        obtain ⟨⟨rfl, -⟩, -⟩ := h
        unfold Channel.readExact at hr
        split at hr
        · simp only [Prod.mk.injEq, Res.ok.injEq] at hr
          rw [← hr.1, List.length_take, Nat.min_eq_left (by assumption)]
        · simp at hr
      | err e => exact ⟨by simpa using hlt header, by simp, by simp⟩
      | panic => exact ⟨by simpa using hlt header, by simp, by simp⟩
      | hang => exact ⟨by simpa using hlt header, by simp, by simp⟩
  all_goals exact ⟨by simp, by simp, by simp⟩

/-! ## From a file -/

theorem readEventM_fst (m : Mode) (r : BinlogReader) : (r.readEventM m).1 = r.readEvent m := by
  unfold BinlogReader.readEventM BinlogReader.readEvent
  rcases fileRead r.stream r.failure EVENT_HEADER_SIZE with ⟨header | e | _ | _, stream⟩
  · dsimp only
    rcases parseHeader.run header with h | _ | _ | _
    · dsimp only
      rcases subU m 64 h.eventLength EVENT_HEADER_SIZE with n | _ | _ | _
      · dsimp only
        rcases (if n > PAYLOAD_BUFFER_SIZE then allocZeroed n else .ok ()) with _ | _ | _ | _
        · dsimp only
          rcases fileRead stream r.failure n with ⟨payload | _ | _ | _, stream'⟩
          · dsimp only
            rcases parseEvent m r.parser h payload with ⟨_ | _ | _ | _, _⟩ <;> rfl
          all_goals rfl
        all_goals rfl
      all_goals rfl
    all_goals rfl
  all_goals rfl

theorem C118_file_same_result (m : Mode) (r : BinlogReader) : (r.nextM m).1 = r.next m := by
  unfold BinlogReader.nextM BinlogReader.next
  rw [← readEventM_fst]
  rcases r.readEventM m with ⟨⟨_ | e | _ | _, _⟩, _⟩
  · rfl
  · rcases e with k | _ | _ | _ | _
    all_goals first | rfl | (cases k <;> rfl)
  all_goals rfl

/-- Calls of `next` one after the other, and the sizes they ask for. A call that does not return is the last. -/
inductive BinlogReader.Asks (m : Mode) : BinlogReader → List Nat → BinlogReader → Prop where
  | stop {r : BinlogReader} : Asks m r [] r
  | call {r r1 r' : BinlogReader} {x : Option Item} {sizes more : List Nat} (h : r.nextM m = ((.ok x, r1), sizes)) (h' : Asks m r1 more r') :
      Asks m r (sizes ++ more) r'
  | last {r r' : BinlogReader} {x : Res (Option Item)} {sizes : List Nat} (h : r.nextM m = ((x, r'), sizes)) : Asks m r sizes r'

/-- What one call asks for: nothing; or the payload's size, and it reads that much; or a size, and nothing is left. -/
inductive Asked (before after : Bytes) : List Nat → Prop where
  | nothing (h : after.length ≤ before.length) : Asked before after []
  | paid {n : Nat} (h : n + after.length ≤ before.length) (hn : 2 ^ 15 < n ∧ n < 2 ^ 32) : Asked before after [n]
  | short {n : Nat} (hl : 19 ≤ before.length) (h : after = []) (hn : 2 ^ 15 < n ∧ n < 2 ^ 32) : Asked before after [n]

theorem fileRead_length {s s' : Bytes} {k : IoKind} {n : Nat} {res : Res Bytes} (h : fileRead s k n = (res, s')) :
    s'.length ≤ s.length ∧ ((∃ b, res = .ok b ∧ n + s'.length = s.length) ∨ (∃ e, res = .err e) ∧ s' = []) := by
  unfold fileRead at h
  split at h
  · simp only [Prod.mk.injEq] at h
    obtain ⟨rfl, rfl⟩ := h
    rw [List.length_drop]
    exact ⟨by omega, .inl ⟨_, rfl, by omega⟩⟩
  · simp only [Prod.mk.injEq] at h
    obtain ⟨rfl, rfl⟩ := h
    exact ⟨by simp, .inr ⟨⟨_, rfl⟩, rfl⟩⟩

theorem parseHeader_length_lt {bs : Bytes} {h : EventHeader} (hr : parseHeader.run bs = .ok h) : h.eventLength < 2 ^ 32 := by
  by_cases hl : 19 ≤ bs.length
  · obtain ⟨h', hf, he⟩ := split_header bs hl
    rw [he, parseHeader_run hf] at hr
    cases hr
    exact hf.2.2.2.1
  · obtain ⟨e, he⟩ := parseHeader_short bs (by omega)
    rw [he] at hr
    cases hr

theorem readEventM_asked (m : Mode) (r : BinlogReader) : Asked r.stream (r.readEventM m).1.2.stream (r.readEventM m).2 := by
  unfold BinlogReader.readEventM
  cases h1 : fileRead r.stream r.failure EVENT_HEADER_SIZE with
  | mk res stream =>
  have l1 := (fileRead_length h1).1
  cases res with
  | ok header =>
    have l0 : 19 ≤ r.stream.length := by
      rcases (fileRead_length h1).2 with ⟨_, _, l⟩ | ⟨⟨_, l⟩, _⟩
      · have h19 : EVENT_HEADER_SIZE = 19 := rfl
        omega
      · cases l
    dsimp only
    cases h2 : parseHeader.run header with
    | ok h =>
      dsimp only
      cases h3 : subU m 64 h.eventLength EVENT_HEADER_SIZE with
      | ok n =>
        dsimp only
        cases h4 : (if n > PAYLOAD_BUFFER_SIZE then allocZeroed n else .ok ()) with
        | ok _ =>
          dsimp only
          have hn : n < 2 ^ 32 := by
            have := parseHeader_length_lt h2
            unfold subU at h3
            split at h3
            · cases h3; omega
            · split at h3
              · cases h3
              · rename_i hlt _
                cases h3
                have h19 : EVENT_HEADER_SIZE = 19 := rfl
                have hbuf : PAYLOAD_BUFFER_SIZE = 32768 := rfl
                unfold allocZeroed at h4
                rw [h19] at hlt h4
                rw [hbuf] at h4
                split at h4
                · split at h4
                  · omega
                  · cases h4
                · omega
          cases h5 : fileRead stream r.failure n with
          | mk res' stream' =>
          obtain ⟨l2, l3⟩ := fileRead_length h5
          have key : Asked r.stream stream' (if n > PAYLOAD_BUFFER_SIZE then [n] else []) := by
            split
            · rename_i hb
              rcases l3 with ⟨_, _, l3⟩ | ⟨_, rfl⟩
              · exact .paid (by omega) ⟨hb, hn⟩
              · exact .short l0 rfl ⟨hb, hn⟩
            · exact .nothing (by omega)
          cases res' with
          | ok payload =>
            dsimp only
            rcases parseEvent m r.parser h payload with ⟨_ | _ | _ | _, _⟩ <;> exact key
          | err e => exact key
          | panic => exact key
          | hang => exact key
        | err e => exact .nothing l1
        | panic => exact .nothing l1
        | hang => exact .nothing l1
      | err e => exact .nothing l1
      | panic => exact .nothing l1
      | hang => exact .nothing l1
    | err e => exact .nothing l1
    | panic => exact .nothing l1
    | hang => exact .nothing l1
  | err e => exact .nothing l1
  | panic => exact .nothing l1
  | hang => exact .nothing l1

theorem nextM_asked (m : Mode) (r : BinlogReader) : Asked r.stream (r.nextM m).1.2.stream (r.nextM m).2 := by
  have h := readEventM_asked m r
  unfold BinlogReader.nextM
  split
  · rename_i h'
    rw [h'] at h
    exact h
  · rename_i h'
    rw [h'] at h
    exact h

/-- C118, files, where it holds: whatever the file, the buffers that any number of calls ask for are together no larger than the file, but for the last one, which is
smaller than 4 GiB and is made for an event that the file does not have. Events up to 32 KiB ask for nothing. -/
theorem C118_file_partial {m : Mode} {r r' : BinlogReader} {sizes : List Nat} (h : r.Asks m sizes r') :
    (∀ x ∈ sizes, 2 ^ 15 < x ∧ x < 2 ^ 32) ∧
      (sizes.sum + r'.stream.length ≤ r.stream.length ∨
        r'.stream = [] ∧ ∃ paid last, sizes = paid ++ [last] ∧ paid.sum + 19 ≤ r.stream.length) := by
  induction h with
  | stop => exact ⟨by simp, .inl (by simp)⟩
  | @call r r1 r' x sizes more h _ ih =>
    have hs := nextM_asked m r
    rw [h] at hs
    obtain ⟨i1, i2⟩ := ih
    have hb : ∀ x ∈ sizes, 2 ^ 15 < x ∧ x < 2 ^ 32 := by
      cases hs with
      | nothing _ => simp
      | paid _ hn => simpa using hn
      | short _ _ hn => simpa using hn
    refine ⟨fun x hx => (List.mem_append.1 hx).elim (hb x) (i1 x), ?_⟩
    cases hs with
    | nothing h =>
      dsimp only at h
      rcases i2 with i2 | ⟨e, paid, last, rfl, i2⟩
      · exact .inl (by rw [List.nil_append]; omega)
      · exact .inr ⟨e, paid, last, rfl, by omega⟩
    | @paid n h _ =>
      dsimp only at h
      rcases i2 with i2 | ⟨e, paid, last, rfl, i2⟩
      · exact .inl (by simp only [List.sum_append, List.sum_singleton]; omega)
      · exact .inr ⟨e, n :: paid, last, by simp, by simp only [List.sum_cons]; omega⟩
    | @short n hl h _ =>
      dsimp only at h
      rw [h, List.length_nil] at i2
      have hmore : more = [] ∧ r'.stream = [] := by
        rcases i2 with i2 | ⟨e, paid, last, rfl, i2⟩
        · refine ⟨?_, List.length_eq_zero_iff.1 (by omega)⟩
          cases more with
          | nil => rfl
          | cons y ys =>
            have := (i1 y (by simp)).1
            simp only [List.sum_cons] at i2
            omega
        · simp at i2
      exact .inr ⟨hmore.2, [], n, by rw [hmore.1]; rfl, by simpa using hl⟩
  | @last r r' x sizes h =>
    have hs := nextM_asked m r
    rw [h] at hs
    cases hs with
    | nothing h => exact ⟨by simp, .inl (by simpa using h)⟩
    | @paid n h hn => exact ⟨by simpa using hn, .inl (by simpa using h)⟩
    | @short n hl h hn => exact ⟨by simpa using hn, .inr ⟨h, [], n, rfl, by simpa using hl⟩⟩

/-- C118 is false of the code: a file of 23 bytes makes the reader ask for any size between 32 KiB and 4 GiB, before it finds that the file ends. -/
theorem C118_false (m : Mode) {n : Nat} (h1 : 2 ^ 15 < n) (h2 : n + 19 < 2 ^ 32) :
    ∃ (file : Bytes) (r r' : BinlogReader), file.length = 23 ∧ BinlogReader.new file = .ok r ∧ r.nextM m = ((.ok none, r'), [n]) := by
  have hf : HeaderFits ⟨0, 2, 0, n + 19, 0, 0⟩ := by unfold HeaderFits; exact ⟨by simp, by simp, by simp, h2, by simp, by simp⟩
  have hl : (headerBytes ⟨0, 2, 0, n + 19, 0, 0⟩).length = 19 := by simp [headerBytes]
  refine ⟨MAGIC_NUMBER ++ headerBytes ⟨0, 2, 0, n + 19, 0, 0⟩, ⟨headerBytes ⟨0, 2, 0, n + 19, 0, 0⟩, EventParser.new, .unexpectedEof⟩, ⟨[], EventParser.new, .unexpectedEof⟩, ?_, ?_, ?_⟩
  · rw [List.length_append, hl]
    rfl
  · unfold BinlogReader.new fileRead
    rw [if_pos (by rw [List.length_append]; exact Nat.le_add_right _ _)]
    rfl
  · generalize hg : headerBytes ⟨0, 2, 0, n + 19, 0, 0⟩ = bytes at *
    have hr : parseHeader.run bytes = .ok ⟨0, 2, 0, n + 19, 0, 0⟩ := by
      rw [← hg, ← List.append_nil (headerBytes _)]
      exact parseHeader_run hf []
    have e1 : fileRead bytes .unexpectedEof EVENT_HEADER_SIZE = (.ok bytes, []) := by
      unfold fileRead
      rw [if_pos (by rw [hl]; decide), List.take_of_length_le (by rw [hl]; decide), List.drop_of_length_le (by rw [hl]; decide)]
    have e2 : subU m 64 (n + 19) EVENT_HEADER_SIZE = .ok n := by
      unfold subU
      rw [if_pos (show EVENT_HEADER_SIZE ≤ n + 19 from Nat.le_add_left _ _)]
      rfl
    have e3 : (if n > PAYLOAD_BUFFER_SIZE then allocZeroed n else .ok ()) = .ok () := by
      rw [if_pos (show n > PAYLOAD_BUFFER_SIZE from h1), allocZeroed, if_pos (by omega)]
    have e4 : fileRead [] .unexpectedEof n = (.err (.io .unexpectedEof), []) := by
      unfold fileRead
      rw [if_neg (by simp; omega)]
    unfold BinlogReader.nextM BinlogReader.readEventM
    simp only [e1, hr, e2, e3, e4, if_pos (show n > PAYLOAD_BUFFER_SIZE from h1)]

/-! A packet of three bytes; one of which only the header comes. A file whose only event is announced with 40000 bytes. -/

def exSending (input : Bytes) : Channel := { input, ending := .unexpectedEof, output := [], writes := [], readTimeout := 0, trace := [] }

example : (exSending [3, 0, 0, 7, 1, 2, 3]).readPacketM.2 = [3] ∧ (exSending [3, 0, 0, 7, 1, 2, 3]).readPacket.1 = .ok ([1, 2, 3], 7) ∧
    (exSending [255, 255, 255, 7]).readPacketM.2 = [2 ^ 24 - 1] := by decide +kernel

example (m : Mode) : ∃ r', BinlogReader.Asks m ⟨headerBytes ⟨0, 2, 0, 40019, 0, 0⟩, EventParser.new, .unexpectedEof⟩ [40000] r' := by
  refine ⟨_, .last (x := .ok none) (r' := ⟨[], EventParser.new, .unexpectedEof⟩) ?_⟩
  revert m
  rintro ⟨_ | _⟩ <;> decide +kernel

end MysqlCdc
