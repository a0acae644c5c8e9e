import Verif.Lemmas.Header
/-!
# C27-C31: the file reader
-/

namespace MysqlCdc

open Spec

/-- Iterating until the end gives these items and leaves the reader in this state. -/
inductive BinlogReader.Drains (m : Mode) : BinlogReader → List Item → BinlogReader → Prop where
  | done {r r' : BinlogReader} : r.next m = (.ok none, r') → Drains m r [] r'
  | item {r r1 r' : BinlogReader} {x : Item} {xs : List Item} : r.next m = (.ok (some x), r1) → Drains m r1 xs r' →
      Drains m r (x :: xs) r'

/-- What iterating gives is determined. -/
theorem BinlogReader.Drains.unique {m : Mode} {r r1 r2 : BinlogReader} {xs ys : List Item} (h : r.Drains m xs r1)
    (h' : r.Drains m ys r2) : xs = ys ∧ r1 = r2 := by
  induction h generalizing ys with
  | done h =>
    cases h' with
    | done h' => rw [h] at h'; simpa using h'
    | item h' _ => rw [h] at h'; simp at h'
  | item h _ ih =>
    cases h' with
    | done h' => rw [h] at h'; simp at h'
    | item h' h2 =>
      rw [h] at h'
      obtain ⟨rfl, rfl⟩ : _ ∧ _ := by simpa using h'
      obtain ⟨rfl, rfl⟩ := ih h2
      exact ⟨rfl, rfl⟩

/-! ## One step -/

/-- A complete event is read whole, whatever its payload. -/
theorem next_record (m : Mode) (r : BinlogReader) (h : EventHeader) (p rest : Bytes) (hok : RecordOk (h, p))
    (hs : r.stream = recordBytes (h, p) ++ rest) :
    r.next m = (match parseEvent m r.parser h p with
      | (.ok e, st) => (.ok (some (.ok (h, e))), { r with stream := rest, parser := st })
      | (.err (.io .unexpectedEof), st) => (.ok none, { r with stream := rest, parser := st })
      | (.err e, st) => (.ok (some (.error e)), { r with stream := rest, parser := st })
      | (.panic, st) => (.panic, { r with stream := rest, parser := st })
      | (.hang, st) => (.hang, { r with stream := rest, parser := st })) := by
  obtain ⟨hf, hl⟩ := hok
  simp only at hf hl
  have hlt := hf.2.2.2.1
  rw [recordBytes, List.append_assoc] at hs
  have h1 : fileRead r.stream r.failure EVENT_HEADER_SIZE = (.ok (headerBytes h), p ++ rest) := by
    unfold fileRead
    have e : EVENT_HEADER_SIZE = (headerBytes h).length := by rw [headerBytes_length]; rfl
    rw [hs, e, if_pos (by simp), List.take_left, List.drop_left]
  have h2 : parseHeader.run (headerBytes h) = .ok h := by simpa using parseHeader_run hf []
  have h3 : subU m 64 h.eventLength EVENT_HEADER_SIZE = .ok p.length := by
    unfold subU EVENT_HEADER_SIZE
    rw [if_pos (by omega), hl, Nat.add_sub_cancel_left]
  have h4 : (if p.length > PAYLOAD_BUFFER_SIZE then allocZeroed p.length else .ok ()) = .ok () := by
    unfold allocZeroed
    split
    · rw [if_pos (by omega)]
    · rfl
  have h5 : fileRead (p ++ rest) r.failure p.length = (.ok p, rest) := by
    unfold fileRead
    rw [if_pos (by simp), List.take_left, List.drop_left]
  unfold BinlogReader.next BinlogReader.readEvent
  simp only [h1, h2, h3, h4, h5]
  rcases parseEvent m r.parser h p with ⟨x, st⟩
  cases x with
  | ok e => rfl
  | panic => rfl
  | hang => rfl
  | err e => 
    cases e with
    | io k => cases k <;> rfl
    | _ => rfl

/-- Without a complete event reading fails. That is taken for the end if it is the end of the file, and reported otherwise. -/
theorem reader_fails (m : Mode) (r : BinlogReader)
    (hs : r.stream.length < 19 ∨ ∃ h rest, HeaderFits h ∧ r.stream = headerBytes h ++ rest ∧ 19 + rest.length < h.eventLength) :
    r.next m = (.ok (if r.failure = .unexpectedEof then none else some (.error (.io r.failure))), { r with stream := [] }) := by
  have key : r.readEvent m = (.err (.io r.failure), { r with stream := [] }) → r.next m =
      (.ok (if r.failure = .unexpectedEof then none else some (.error (.io r.failure))), { r with stream := [] }) := by
    intro h
    unfold BinlogReader.next
    rw [h]
    rcases r with ⟨_, _, f⟩
    cases f <;> rfl
  apply key
  unfold BinlogReader.readEvent
  rcases hs with hs | ⟨h, rest, hf, he, hl⟩
  · have h1 : fileRead r.stream r.failure EVENT_HEADER_SIZE = (.err (.io r.failure), []) := by
      unfold fileRead EVENT_HEADER_SIZE
      rw [if_neg (by omega)]
    simp only [h1]
  · have hlt := hf.2.2.2.1
    have h1 : fileRead r.stream r.failure EVENT_HEADER_SIZE = (.ok (headerBytes h), rest) := by
      unfold fileRead
      have e : EVENT_HEADER_SIZE = (headerBytes h).length := by rw [headerBytes_length]; rfl
      rw [he, e, if_pos (by simp), List.take_left, List.drop_left]
    have h2 : parseHeader.run (headerBytes h) = .ok h := by simpa using parseHeader_run hf []
    have h3 : subU m 64 h.eventLength EVENT_HEADER_SIZE = .ok (h.eventLength - 19) := by
      unfold subU EVENT_HEADER_SIZE
      rw [if_pos (by omega)]
    have h4 : (if h.eventLength - 19 > PAYLOAD_BUFFER_SIZE then allocZeroed (h.eventLength - 19) else .ok ()) = .ok () := by
      unfold allocZeroed
      split
      · rw [if_pos (by omega)]
      · rfl
    have h5 : fileRead rest r.failure (h.eventLength - 19) = (.err (.io r.failure), []) := by
      unfold fileRead
      rw [if_neg (by omega)]
    simp only [h1, h2, h3, h4, h5]

/-- Without a complete event the iterator ends, at the end of the file. -/
theorem next_incomplete (m : Mode) (r : BinlogReader) (hr : r.failure = .unexpectedEof)
    (hs : r.stream.length < 19 ∨ ∃ h rest, HeaderFits h ∧ r.stream = headerBytes h ++ rest ∧ 19 + rest.length < h.eventLength) :
    r.next m = (.ok none, { r with stream := [] }) := by
  rw [reader_fails m r hs, if_pos hr]

/-- A length below the header's own is a panic. -/
theorem next_bad_length (m : Mode) (r : BinlogReader) (h : EventHeader) (rest : Bytes) (hf : HeaderFits h)
    (hs : r.stream = headerBytes h ++ rest) (hl : h.eventLength < 19) : (r.next m).1 = .panic := by
  have h1 : fileRead r.stream r.failure EVENT_HEADER_SIZE = (.ok (headerBytes h), rest) := by
    unfold fileRead
    have e : EVENT_HEADER_SIZE = (headerBytes h).length := by rw [headerBytes_length]; rfl
    rw [hs, e, if_pos (by simp), List.take_left, List.drop_left]
  have h2 : parseHeader.run (headerBytes h) = .ok h := by simpa using parseHeader_run hf []
  unfold BinlogReader.next BinlogReader.readEvent
  simp only [h1, h2]
  unfold subU EVENT_HEADER_SIZE
  rw [if_neg (by omega)]
  cases hc : m.checks with
  | true => simp [asItem]
  | false =>
    have h4 : (if (2 ^ 64 + h.eventLength - 19) % 2 ^ 64 > PAYLOAD_BUFFER_SIZE then allocZeroed ((2 ^ 64 + h.eventLength - 19) % 2 ^ 64)
        else .ok ()) = .panic := by
      rw [if_pos (by unfold PAYLOAD_BUFFER_SIZE; omega)]
      unfold allocZeroed
      rw [if_neg (by omega)]
    simp only [Bool.false_eq_true, if_false, h4]
    rfl

/-! ## C31 -/

/-- C31. Exactly the files starting with `fe 62 69 6e` are opened; the reader then stands behind these bytes. -/
theorem C31_magic (file : Bytes) (failure : IoKind) :
    (∀ rest, file = [0xfe, 0x62, 0x69, 0x6e] ++ rest → BinlogReader.new file failure = .ok ⟨rest, EventParser.new, failure⟩) ∧
    (∀ r, BinlogReader.new file failure = .ok r → file = [0xfe, 0x62, 0x69, 0x6e] ++ r.stream) ∧
    ((¬ ∃ rest, file = [0xfe, 0x62, 0x69, 0x6e] ++ rest) → ∃ e, BinlogReader.new file failure = .err e) := by
  have key : ∀ rest, file = [0xfe, 0x62, 0x69, 0x6e] ++ rest → BinlogReader.new file failure = .ok ⟨rest, EventParser.new, failure⟩ := by
    rintro rest rfl
    simp [BinlogReader.new, fileRead, FIRST_EVENT_POSITION, MAGIC_NUMBER]
  have key2 : (¬ ∃ rest, file = [0xfe, 0x62, 0x69, 0x6e] ++ rest) → ∃ e, BinlogReader.new file failure = .err e := by
    intro h
    unfold BinlogReader.new fileRead FIRST_EVENT_POSITION
    split
    · rename_i header stream hh
      split at hh
      · obtain ⟨rfl, rfl⟩ : file.take 4 = header ∧ file.drop 4 = stream := by simpa using hh
        rw [if_pos]
        · exact ⟨_, rfl⟩
        · intro he
          exact h ⟨file.drop 4, by rw [← MAGIC_NUMBER, ← he, List.take_append_drop]⟩
      · simp at hh
    · exact ⟨_, rfl⟩
    · rename_i hh; split at hh <;> simp at hh
    · rename_i hh; split at hh <;> simp at hh
  refine ⟨key, fun r hr => ?_, key2⟩
  by_cases h : ∃ rest, file = [0xfe, 0x62, 0x69, 0x6e] ++ rest
  · obtain ⟨rest, he⟩ := h
    rw [key rest he] at hr
    obtain rfl : _ = r := by simpa using hr
    exact he
  · obtain ⟨e, he⟩ := key2 h
    rw [he] at hr
    simp at hr

example : BinlogReader.new [0xfe, 0x62, 0x69, 0x6e, 7] = .ok ⟨[7], EventParser.new, .unexpectedEof⟩ := by decide +kernel
example : ¬ ∃ rest, ([0xfe, 0x62, 0x69] : Bytes) = [0xfe, 0x62, 0x69, 0x6e] ++ rest := by
  rintro ⟨rest, h⟩; simp at h

/-! ## C27, C28 -/

theorem drains_records (m : Mode) (rs : List Record) (hok : ∀ x ∈ rs, RecordOk x) (es : List BinlogEvent) (r : BinlogReader)
    (tail : Bytes) (hs : r.stream = recordsBytes rs ++ tail) (hd : answers m r.parser rs = es.map .ok)
    (ht : ∀ st, BinlogReader.next m ⟨tail, st, r.failure⟩ = (.ok none, ⟨[], st, r.failure⟩)) :
    ∃ r', r.Drains m ((rs.zip es).map fun x => Except.ok (x.1.1, x.2)) r' ∧ r'.stream = [] ∧ r'.failure = r.failure := by
  induction rs generalizing es r with
  | nil =>
    cases es with
    | nil =>
      have e : r = ⟨tail, r.parser, r.failure⟩ := by cases r; simp [recordsBytes] at hs; simp [hs]
      exact ⟨⟨[], r.parser, r.failure⟩, .done (by rw [e]; exact ht _), rfl, rfl⟩
    | cons e es => simp [answers] at hd
  | cons x rs ih =>
    obtain ⟨h, p⟩ := x
    cases es with
    | nil => simp [answers] at hd
    | cons e es =>
      simp only [answers, List.map_cons, List.cons.injEq] at hd
      rw [recordsBytes, List.append_assoc] at hs
      have h1 := next_record m r h p _ (hok _ (by simp)) hs
      rcases hp : parseEvent m r.parser h p with ⟨y, st⟩
      rw [hp] at h1 hd
      obtain ⟨hd1, hd2⟩ := hd
      simp only at hd1 hd2
      subst hd1
      simp only at h1
      obtain ⟨r', h2, h3⟩ := ih (fun y hy => hok y (by simp [hy])) es { r with stream := recordsBytes rs ++ tail, parser := st } rfl hd2 ht
      exact ⟨r', .item h1 h2, h3⟩

/-- C27. A file of records the decoder accepts: iteration gives exactly the decoded events with their headers, in order, and
ends; and it stays ended. -/
theorem C27_reads_all (m : Mode) (rs : List Record) (hok : ∀ x ∈ rs, RecordOk x) (es : List BinlogEvent)
    (hd : answers m EventParser.new rs = es.map .ok) :
    rs.length = es.length ∧ ∃ r r', BinlogReader.new (fileBytes rs) = .ok r ∧
      r.Drains m ((rs.zip es).map fun x => Except.ok (x.1.1, x.2)) r' ∧ (r'.next m).1 = .ok none := by
  have hlen : rs.length = es.length := by
    have : ∀ (rs : List Record) (st : EventParser), (answers m st rs).length = rs.length := by
      intro rs
      induction rs with
      | nil => intro st; rfl
      | cons x rs ih => intro st; simp [answers, ih]
    have h := this rs EventParser.new
    rw [hd] at h
    simpa using h.symm
  obtain ⟨r', h1, h2, h3⟩ := drains_records m rs hok es ⟨recordsBytes rs, EventParser.new, .unexpectedEof⟩ [] (by simp) hd
    (fun st => next_incomplete m ⟨[], st, _⟩ rfl (.inl (by simp)))
  exact ⟨hlen, _, r', (C31_magic _ _).1 _ rfl, h1, by rw [next_incomplete m r' h3 (.inl (by simp [h2]))]⟩

/-- The records that end before position `k`. -/
theorem cut_records (rs : List Record) (hok : ∀ x ∈ rs, RecordOk x) (k : Nat) :
    ∃ j ≤ rs.length, (recordsBytes (rs.take j)).length ≤ k ∧
      (j < rs.length → k < (recordsBytes (rs.take (j + 1))).length) ∧
      ∃ tail, (recordsBytes rs).take k = recordsBytes (rs.take j) ++ tail ∧
        (tail.length < 19 ∨ ∃ h rest, HeaderFits h ∧ tail = headerBytes h ++ rest ∧ 19 + rest.length < h.eventLength) := by
  induction rs generalizing k with
  | nil => exact ⟨0, by simp, by simp [recordsBytes], by simp, [], by simp [recordsBytes], .inl (by simp)⟩
  | cons x rs ih =>
    obtain ⟨hf, hl⟩ := hok x (by simp)
    have hx : (recordBytes x).length = x.1.eventLength := by rw [recordBytes, List.length_append, headerBytes_length, hl]
    by_cases hk : (recordBytes x).length ≤ k
    · obtain ⟨j, h1, h2, h3, tail, h4, h5⟩ := ih (fun y hy => hok y (by simp [hy])) (k - (recordBytes x).length)
      refine ⟨j + 1, by simp; omega, ?_, ?_, tail, ?_, h5⟩
      · simp only [List.take_succ_cons, recordsBytes, List.length_append]; omega
      · intro hj
        have := h3 (by simpa using hj)
        simp only [List.take_succ_cons, recordsBytes, List.length_append] at this ⊢
        omega
      · rw [recordsBytes, List.take_append, List.take_of_length_le hk, h4]
        simp [recordsBytes]
    · refine ⟨0, by simp, by simp [recordsBytes], ?_, (recordBytes x).take k, ?_, ?_⟩
      · intro _
        simp only [List.take_succ_cons, List.take_zero, recordsBytes, List.length_append, List.length_nil]
        omega
      · rw [recordsBytes, List.take_append_of_le_length (by omega)]
        simp [recordsBytes]
      · by_cases h19 : k < 19
        · exact .inl (by simp; omega)
        · right
          refine ⟨x.1, x.2.take (k - 19), hf, ?_, ?_⟩
          · rw [recordBytes, List.take_append, List.take_of_length_le (by rw [headerBytes_length]; omega), headerBytes_length]
          · simp only [List.length_take]; omega

theorem answers_take (m : Mode) (st : EventParser) (rs : List Record) (j : Nat) :
    answers m st (rs.take j) = (answers m st rs).take j := by
  induction rs generalizing st j with
  | nil => simp [answers]
  | cons x rs ih =>
    cases j with
    | zero => simp [answers]
    | succ j => simp [answers, ih]

/-- C28. Cut such a file anywhere behind the magic number: iteration gives exactly the events that end before the cut, then ends.
`j` is the number of records that are complete. -/
theorem C28_truncated (m : Mode) (rs : List Record) (hok : ∀ x ∈ rs, RecordOk x) (es : List BinlogEvent)
    (hd : answers m EventParser.new rs = es.map .ok) (cut : Nat) (hc : 4 ≤ cut) :
    ∃ j ≤ rs.length, 4 + (recordsBytes (rs.take j)).length ≤ cut ∧
      (j < rs.length → cut < 4 + (recordsBytes (rs.take (j + 1))).length) ∧
      ∃ r r', BinlogReader.new ((fileBytes rs).take cut) = .ok r ∧
        r.Drains m (((rs.zip es).take j).map fun x => Except.ok (x.1.1, x.2)) r' ∧ (r'.next m).1 = .ok none := by
  obtain ⟨j, h1, h2, h3, tail, h4, h5⟩ := cut_records rs hok (cut - 4)
  have hfile : (fileBytes rs).take cut = [0xfe, 0x62, 0x69, 0x6e] ++ (recordsBytes rs).take (cut - 4) := by
    rw [fileBytes, List.take_append, List.take_of_length_le (by simpa using hc)]
    rfl
  have hd' : answers m EventParser.new (rs.take j) = (es.take j).map .ok := by
    rw [answers_take, hd, List.map_take]
  obtain ⟨r', g1, g2, g3⟩ := drains_records m (rs.take j) (fun x hx => hok x (List.mem_of_mem_take hx)) (es.take j)
    ⟨(recordsBytes rs).take (cut - 4), EventParser.new, .unexpectedEof⟩ tail h4 hd' (fun st => next_incomplete m ⟨tail, st, _⟩ rfl h5)
  rw [show (rs.take j).zip (es.take j) = (rs.zip es).take j by simp only [List.zip, List.take_zipWith]] at g1
  exact ⟨j, h1, by omega, fun hj => by have := h3 hj; omega, _, r', (C31_magic _ _).1 _ hfile, g1,
    by rw [next_incomplete m r' g3 (.inl (by simp [g2]))]⟩

/-- A rotation and a commit; cut in the middle of the commit, only the rotation is left. -/
def exRecords : List Record :=
  [(⟨5, 4, 1, 28, 0, 0⟩, [4, 0, 0, 0, 0, 0, 0, 0, 97]), (⟨5, 16, 1, 27, 0, 0⟩, [9, 0, 0, 0, 0, 0, 0, 0])]

theorem exRecords_ok : ∀ x ∈ exRecords, RecordOk x := by
  unfold exRecords RecordOk HeaderFits
  decide

example (m : Mode) : answers m EventParser.new exRecords = [BinlogEvent.rotate ⟨['a'], 4⟩, .xid ⟨9⟩].map .ok := by
  revert m
  rintro ⟨_ | _⟩ <;> decide +kernel

example : (4 + (recordsBytes (exRecords.take 1)).length ≤ 50 ∧ 50 < 4 + (recordsBytes (exRecords.take 2)).length) := by
  decide +kernel

/-! ## C29, C30 -/

/-- C30. After any item, and after a failure too, the reader stands where the event length in the header says: for every content
of the file from here on that holds a complete event. -/
theorem C30_resynchronised (m : Mode) (r : BinlogReader) (hs : 19 ≤ r.stream.length) :
    ∃ h, HeaderFits h ∧ r.stream.take 19 = headerBytes h ∧
      (19 ≤ h.eventLength → h.eventLength ≤ r.stream.length → (r.next m).2.stream = r.stream.drop h.eventLength) := by
  obtain ⟨h, hf, he⟩ := split_header r.stream hs
  refine ⟨h, hf, ?_, fun h1 h2 => ?_⟩
  · conv => lhs; rw [he]
    exact List.take_left' (headerBytes_length h)
  · have hok : RecordOk (h, (r.stream.drop 19).take (h.eventLength - 19)) := ⟨hf, by simp; omega⟩
    have hst : r.stream = recordBytes (h, (r.stream.drop 19).take (h.eventLength - 19)) ++ r.stream.drop h.eventLength := by
      rw [recordBytes]
      conv => lhs; rw [he]
      rw [List.append_assoc]
      congr 1
      conv => lhs; rw [← List.take_append_drop (h.eventLength - 19) (r.stream.drop 19)]
      rw [List.drop_drop]
      congr 2
      omega
    have := next_record m r h _ _ hok hst
    rw [this]
    split <;> rfl

/-- An undecodable payload: an error item, then the commit. -/
example (m : Mode) : 19 ≤ (recordsBytes ((⟨5, 4, 1, 28, 0, 0⟩, [4, 0, 0, 0, 0, 0, 0, 0, 0xFF]) :: exRecords)).length ∧
    ∃ e, BinlogReader.next m ⟨recordsBytes ((⟨5, 4, 1, 28, 0, 0⟩, [4, 0, 0, 0, 0, 0, 0, 0, 0xFF]) :: exRecords), EventParser.new, .unexpectedEof⟩ =
      (.ok (some (.error e)), ⟨recordsBytes exRecords, EventParser.new, .unexpectedEof⟩) := by
  revert m
  refine fun ⟨b⟩ => ⟨by decide +kernel, .io .invalidData, ?_⟩
  cases b <;> decide +kernel

/-- C29 is false: a complete event in the middle of the file whose payload is shorter than its type demands ends the iteration,
although a decodable event follows. -/
theorem C29_false : ∃ (file : Bytes) (r r1 r2 : BinlogReader) (h : EventHeader) (e : BinlogEvent), ∀ m,
    BinlogReader.new file = .ok r ∧ r.next m = (.ok none, r1) ∧ StartsWithRecord r.stream ∧
      r1.next m = (.ok (some (.ok (h, e))), r2) := by
  -- an XID event (type 16) with three bytes of payload, then one with eight
  have hs : StartsWithRecord (recordsBytes [(⟨0, 16, 1, 22, 0, 0⟩, [1, 2, 3]), (⟨0, 16, 1, 27, 0, 0⟩, [9, 0, 0, 0, 0, 0, 0, 0])]) :=
    ⟨(⟨0, 16, 1, 22, 0, 0⟩, [1, 2, 3]), recordBytes (⟨0, 16, 1, 27, 0, 0⟩, [9, 0, 0, 0, 0, 0, 0, 0]),
      ⟨by unfold HeaderFits; decide, by decide⟩, by decide +kernel⟩
  refine ⟨fileBytes [(⟨0, 16, 1, 22, 0, 0⟩, [1, 2, 3]), (⟨0, 16, 1, 27, 0, 0⟩, [9, 0, 0, 0, 0, 0, 0, 0])],
    ⟨recordsBytes [(⟨0, 16, 1, 22, 0, 0⟩, [1, 2, 3]), (⟨0, 16, 1, 27, 0, 0⟩, [9, 0, 0, 0, 0, 0, 0, 0])], EventParser.new, .unexpectedEof⟩,
    ⟨recordBytes (⟨0, 16, 1, 27, 0, 0⟩, [9, 0, 0, 0, 0, 0, 0, 0]), EventParser.new, .unexpectedEof⟩,
    ⟨[], EventParser.new, .unexpectedEof⟩, ⟨0, 16, 1, 27, 0, 0⟩, .xid ⟨9⟩, ?_⟩
  rintro ⟨_ | _⟩
  · exact ⟨by decide +kernel, by decide +kernel, hs, by decide +kernel⟩
  · exact ⟨by decide +kernel, by decide +kernel, hs, by decide +kernel⟩

theorem whole_record {bytes : Bytes} {h : EventHeader} (hf : HeaderFits h) (he : bytes = headerBytes h ++ bytes.drop 19) (hl : ¬ h.eventLength < 19)
    (hc : ¬ 19 + (bytes.drop 19).length < h.eventLength) : StartsWithRecord bytes := by
  refine ⟨(h, (bytes.drop 19).take (h.eventLength - 19)), (bytes.drop 19).drop (h.eventLength - 19), ⟨hf, by simp at hc ⊢; omega⟩, ?_⟩
  rw [recordBytes, List.append_assoc, List.take_append_drop]
  exact he

/-- C29. What holds: the iterator ends only at the end of the file where no complete event follows, or at an event whose payload the decoder found too
short. Missing: the end in the second case, which hides the rest of the file. -/
theorem C29_ends_partial (m : Mode) (r : BinlogReader) (hn : (r.next m).1 = .ok none) :
    (¬ StartsWithRecord r.stream ∧ r.failure = .unexpectedEof) ∨
    ∃ h p rest, RecordOk (h, p) ∧ r.stream = recordBytes (h, p) ++ rest ∧
      (parseEvent m r.parser h p).1 = .err (.io .unexpectedEof) := by
  by_cases hs : StartsWithRecord r.stream
  · right
    obtain ⟨⟨h, p⟩, rest, hok, he⟩ := hs
    refine ⟨h, p, rest, hok, he, ?_⟩
    rw [next_record m r h p rest hok he] at hn
    rcases hp : parseEvent m r.parser h p with ⟨x, st⟩
    rw [hp] at hn
    cases x with
    | ok e => simp at hn
    | panic => simp at hn
    | hang => simp at hn
    | err e =>
      cases e with
      | io k => cases k <;> simp at hn ⊢
      | _ => simp at hn
  · refine .inl ⟨hs, ?_⟩
    by_cases h19 : r.stream.length < 19
    · rw [reader_fails m r (.inl h19)] at hn
      by_contra hne
      rw [if_neg hne] at hn
      simp at hn
    · obtain ⟨h, hf, he⟩ := split_header r.stream (by omega)
      by_cases hl : h.eventLength < 19
      · rw [next_bad_length m r h _ hf he hl] at hn
        simp at hn
      · by_cases hc : 19 + (r.stream.drop 19).length < h.eventLength
        · rw [reader_fails m r (.inr ⟨h, _, hf, he, hc⟩)] at hn
          by_contra hne
          rw [if_neg hne] at hn
          simp at hn
        · exact absurd (whole_record hf he hl hc) hs

/-- C29. The other way round: without a complete event, and with no nonsensical length, it does end. -/
theorem C29_ends_at_end (m : Mode) (r : BinlogReader) (hr : r.failure = .unexpectedEof) (hs : ¬ StartsWithRecord r.stream) :
    (r.next m).1 = .ok none ∨ ∃ h rest, HeaderFits h ∧ r.stream = headerBytes h ++ rest ∧ h.eventLength < 19 := by
  by_cases h19 : r.stream.length < 19
  · exact .inl (by rw [next_incomplete m r hr (.inl h19)])
  · obtain ⟨h, hf, he⟩ := split_header r.stream (by omega)
    by_cases hl : h.eventLength < 19
    · exact .inr ⟨h, _, hf, he, hl⟩
    · left
      by_cases hc : 19 + (r.stream.drop 19).length < h.eventLength
      · rw [next_incomplete m r hr (.inr ⟨h, _, hf, he, hc⟩)]
      · exact absurd (whole_record hf he hl hc) hs

end MysqlCdc
