import Verif.Spec.Decoder
import Verif.Lemmas.HMap
import Verif.Props.Rows
/-!
# C32 – C35: the state of the event decoder
-/

namespace MysqlCdc

open Spec

theorem lastOf_cons {α β : Type} (f : α → Option β) (x : α) (xs : List α) : lastOf f (x :: xs) = (lastOf f xs).or (f x) := by
  unfold lastOf
  cases h : f x with
  | none => simp [h]
  | some y => simp [h, List.getLast?_cons]

theorem parseEvent_state (m : Mode) (st : EventParser) (h : EventHeader) (p : Bytes) :
    (parseEvent m st h p).2 = (match (parseEvent m st h p).1 with | .ok e => st.record e | _ => st) := by
  unfold parseEvent
  cases eventBody st.checksumType p with
  | ok body => simp only; cases (dispatchEvent m st.tableMap h).run body <;> rfl
  | err e => rfl
  | panic => rfl
  | hang => rfl

/-! ## C35 -/

/-- C35: an event that is rejected with an error leaves no trace: the events after it are decoded as without it. -/
theorem C35_rejected_event_forgotten (m : Mode) (st : EventParser) (h : EventHeader) (p : Bytes) (e : Err)
    (he : (parseEvent m st h p).1 = .err e) :
    ∀ rest, answers m st ((h, p) :: rest) = .err e :: answers m st rest ∧ after m st ((h, p) :: rest) = after m st rest := by
  intro rest
  have hs := parseEvent_state m st h p
  rw [he] at hs
  simp [answers, after, he, hs]

/-- A row event without table map is rejected. -/
example : (parseEvent ⟨true⟩ EventParser.new ⟨0, 23, 1, 40, 0, 0⟩ [7, 0, 0, 0, 0, 0, 1, 0, 1, 1, 0, 5]).1
    = .err TABLE_MAP_NOT_FOUND := by decide +kernel

/-! ## C32 -/

theorem cache_after (m : Mode) (st : EventParser) (events : List (EventHeader × Bytes)) (id : Nat) :
    (after m st events).tableMap.get? id = (lastOf (tableMapOf id) (answers m st events)).or (st.tableMap.get? id) := by
  induction events generalizing st with
  | nil => rfl
  | cons ev rest ih =>
    obtain ⟨h, p⟩ := ev
    simp only [after, answers]
    rw [ih, lastOf_cons, Option.or_assoc]
    congr 1
    rw [parseEvent_state]
    cases hr : (parseEvent m st h p).1 with
    | ok e =>
      cases e with
      | tableMap t =>
        simp only [EventParser.record, HMap.get?_insert, tableMapOf]
        split <;> simp
      | _ => simp [EventParser.record, tableMapOf]
    | _ => simp [tableMapOf]

theorem uLE6_run (buf : Bytes) : P.uLE 6 buf 0 = if 6 ≤ buf.length then .ok (leVal (buf.take 6), 6) else .err (.io .unexpectedEof) := by
  simp only [P.uLE, P.seq_apply, P.readExact, List.drop_zero, Nat.zero_add]
  split <;> simp

theorem parseHead_tableId (version : Nat) (buf : Bytes) (r : (Nat × Nat × Nat) × Nat) (h : parseHead version buf 0 = .ok r) :
    r.1.1 = leVal (buf.take 6) := by
  unfold parseHead at h
  rw [P.seq_apply, uLE6_run] at h
  split at h
  · simp only [Res.bind, P.seq_apply] at h
    cases h2 : P.uLE 2 buf 6 with
    | ok x =>
      rw [h2] at h
      simp only at h
      split at h
      · simp only [P.seq_apply] at h
        cases h3 : P.uLE 2 buf x.2 with
        | ok y =>
          rw [h3] at h
          simp only [Res.bind] at h
          cases h4 : P.seekCur ((y.1 : Int) - 2) buf y.2 with
          | ok z =>
            rw [h4] at h
            simp only at h
            cases h5 : readLenEncNum buf z.2 with
            | ok w => rw [h5] at h; simp at h; rw [← h]
            | _ => rw [h5] at h; simp at h
          | _ => rw [h4] at h; simp at h
        | _ => rw [h3] at h; simp at h
      · simp only [P.seq_apply] at h
        cases h5 : readLenEncNum buf x.2 with
        | ok w => rw [h5] at h; simp at h; rw [← h]
        | _ => rw [h5] at h; simp at h
    | _ => rw [h2] at h; simp at h
  · simp at h

theorem rows_cache_irrelevant (m : Mode) (version : Nat) (c1 c2 : TableMapCache) (buf : Bytes)
    (h : c1.get? (leVal (buf.take 6)) = c2.get? (leVal (buf.take 6))) :
    parseRowsEvent m c1 version buf 0 = parseRowsEvent m c2 version buf 0 ∧
    parseUpdateRowsEvent m c1 version buf 0 = parseUpdateRowsEvent m c2 version buf 0 := by
  unfold parseRowsEvent parseUpdateRowsEvent
  rw [P.seq_apply, P.seq_apply, P.seq_apply, P.seq_apply]
  cases hh : parseHead version buf 0 with
  | ok r =>
    have hid := parseHead_tableId version buf r hh
    obtain ⟨⟨id, flags, n⟩, pos⟩ := r
    simp only at hid
    subst hid
    simp only [Res.bind]
    have e1 : ∀ p, parseRowDataList m c1 (leVal (buf.take 6)) p = parseRowDataList m c2 (leVal (buf.take 6)) p := by
      intro p; unfold parseRowDataList; rw [h]
    have e2 : ∀ p q, parseUpdateRowDataList m c1 (leVal (buf.take 6)) p q
        = parseUpdateRowDataList m c2 (leVal (buf.take 6)) p q := by
      intro p q; unfold parseUpdateRowDataList; rw [h]
    simp only [e1, e2]
    exact ⟨trivial, trivial⟩
  | _ => exact ⟨rfl, rfl⟩

theorem run_map_congr {α β : Type} {p q : P α} {f : α → β} {buf : Bytes} (h : p buf 0 = q buf 0) :
    (p >>= fun a => (pure (f a) : P β)).run buf = (q >>= fun a => (pure (f a) : P β)).run buf := by
  simp only [P.run, P.seq_apply, h]

theorem dispatch_rows_congr (m : Mode) (c1 c2 : TableMapCache) (header : EventHeader) (buf : Bytes)
    (ht : header.eventType ∈ rowTypes) (h : c1.get? (leVal (buf.take 6)) = c2.get? (leVal (buf.take 6))) :
    (dispatchEvent m c1 header).run buf = (dispatchEvent m c2 header).run buf := by
  have k1 := rows_cache_irrelevant m 1 c1 c2 buf h
  have k2 := rows_cache_irrelevant m 2 c1 c2 buf h
  simp only [rowTypes, List.mem_cons, List.not_mem_nil, or_false] at ht
  unfold dispatchEvent
  rcases ht with h | h | h | h | h | h <;> rw [h]
  · exact run_map_congr k1.1
  · exact run_map_congr k1.2
  · exact run_map_congr k1.1
  · exact run_map_congr k2.1
  · exact run_map_congr k2.2
  · exact run_map_congr k2.1

theorem dispatch_rows_short (m : Mode) (c : TableMapCache) (header : EventHeader) (buf : Bytes)
    (ht : header.eventType ∈ rowTypes) (hs : buf.length < 6) :
    (dispatchEvent m c header).run buf = .err (.io .unexpectedEof) := by
  have hl : ¬ 6 ≤ buf.length := by omega
  have k : ∀ v, parseHead v buf 0 = .err (.io .unexpectedEof) := by
    intro v
    unfold parseHead
    rw [P.seq_apply, uLE6_run, if_neg hl]
    rfl
  simp only [rowTypes, List.mem_cons, List.not_mem_nil, or_false] at ht
  unfold dispatchEvent
  rcases ht with h | h | h | h | h | h <;> rw [h] <;>
    simp [P.run, EventType.fromCode, parseRowsEvent, parseUpdateRowsEvent, k]

/-- C32: a row event is decoded with the last table map of its table among everything decoded before, whatever else was decoded:
the answer is the one of a decoder that knows only that table map. (Table maps known before the history count as older.) -/
theorem C32_latest_table_map (m : Mode) (st : EventParser) (history : List (EventHeader × Bytes)) (header : EventHeader)
    (slice : Bytes) (ht : header.eventType ∈ rowTypes) (t : TableMapEvent)
    (hlast : (lastOf (tableMapOf (leVal (slice.take 6))) (answers m st history)).or (st.tableMap.get? (leVal (slice.take 6)))
      = some t) :
    (parseEvent m (after m st history) header slice).1 =
      (parseEvent m ⟨(after m st history).checksumType, [(leVal (slice.take 6), t)]⟩ header slice).1 := by
  have hc := cache_after m st history (leVal (slice.take 6))
  rw [hlast] at hc
  generalize after m st history = st' at *
  have hget : st'.tableMap.get? (leVal (slice.take 6)) = HMap.get? [(leVal (slice.take 6), t)] (leVal (slice.take 6)) := by
    rw [hc]; simp [HMap.get?]
  have key : ∀ body, eventBody st'.checksumType slice = .ok body →
      (dispatchEvent m st'.tableMap header).run body = (dispatchEvent m [(leVal (slice.take 6), t)] header).run body := by
    intro body hb
    by_cases h6 : body.length < 6
    · rw [dispatch_rows_short m _ header body ht h6, dispatch_rows_short m _ header body ht h6]
    · have : body.take 6 = slice.take 6 := by
        unfold eventBody at hb
        split at hb
        · simp at hb; rw [hb]
        · split at hb
          · simp only [Res.ok.injEq] at hb
            subst hb
            simp only [List.length_take] at h6
            rw [List.take_take, Nat.min_eq_left (by omega)]
          · simp at hb
      exact dispatch_rows_congr m _ _ header body ht (by rw [this]; exact hget)
  unfold parseEvent
  cases hb : eventBody st'.checksumType slice with
  | ok body =>
    simp only [key body hb]
    cases (dispatchEvent m [(leVal (slice.take 6), t)] header).run body <;> rfl
  | _ => rfl

/-- C32, the other half: without a table map for its table a well-formed row event is rejected with an error. -/
theorem C32_no_table_map_rejected (m : Mode) (st : EventParser) (history : List (EventHeader × Bytes)) (header : EventHeader)
    {version : Nat} {columns : List (UInt8 × Nat)} {tableId flags : Nat} {slice body : Bytes} (hv : version = 1 ∨ version = 2)
    (hlen : columns.length < 2 ^ 63) (hs : WithChecksum (after m st history).checksumType body slice)
    (hlast : lastOf (tableMapOf tableId) (answers m st history) = none) (hst : st.tableMap.get? tableId = none) :
    (∀ present rows, RowsBody version columns tableId flags present rows body →
      (header.eventType = rowEventCode version 0 ∨ header.eventType = rowEventCode version 2) →
      (parseEvent m (after m st history) header slice).1 = .err TABLE_MAP_NOT_FOUND) ∧
    (∀ before after' rows, UpdateRowsBody version columns tableId flags before after' rows body →
      header.eventType = rowEventCode version 1 →
      (parseEvent m (after m st history) header slice).1 = .err TABLE_MAP_NOT_FOUND) := by
  have hc := cache_after m st history tableId
  rw [hlast, hst] at hc
  generalize after m st history = st' at *
  have hbody := eventBody_of_checksum hs
  have fin : (dispatchEvent m st'.tableMap header).run body = .err TABLE_MAP_NOT_FOUND →
      (parseEvent m st' header slice).1 = .err TABLE_MAP_NOT_FOUND := by
    intro h
    simp [parseEvent, hbody, h]
  constructor
  · intro present rows hb ht
    apply fin
    have h1 : parseRowsEvent m st'.tableMap version body 0 = .err TABLE_MAP_NOT_FOUND := by
      cases hb with
      | @mk head bitmap data hn hh hbm hr =>
        have p1 := rowsHead_parses hh [] (bitmap ++ data)
        have p2 := readBitmapLittleEndian_parses hbm (by omega) head data
        simp only [List.nil_append, List.length_nil, Nat.zero_add] at p1
        unfold parseRowsEvent
        rw [P.seq_apply, List.append_assoc, p1]
        simp only [Res.bind]
        rw [hn] at p2
        rw [P.seq_apply, p2]
        simp [Res.bind, parseRowDataList, hc, P.fail]
    unfold dispatchEvent
    rcases hv with rfl | rfl <;> rcases ht with h | h <;> rw [h] <;>
      simp [rowEventCode, EventType.fromCode, P.run, h1]
  · intro before after' rows hb ht
    apply fin
    have h1 : parseUpdateRowsEvent m st'.tableMap version body 0 = .err TABLE_MAP_NOT_FOUND := by
      cases hb with
      | @mk head bitmap1 bitmap2 data hn1 hn2 hh hbm1 hbm2 hr =>
        have p1 := rowsHead_parses hh [] (bitmap1 ++ (bitmap2 ++ data))
        have p2 := readBitmapLittleEndian_parses hbm1 (by omega) head (bitmap2 ++ data)
        have p3 := readBitmapLittleEndian_parses hbm2 (by omega) (head ++ bitmap1) data
        simp only [List.nil_append, List.length_nil, Nat.zero_add] at p1
        rw [hn1] at p2
        rw [hn2] at p3
        simp only [List.length_append, List.append_assoc] at p3
        unfold parseUpdateRowsEvent
        rw [P.seq_apply, List.append_assoc, List.append_assoc, p1]
        simp only [Res.bind]
        rw [P.seq_apply, p2]
        simp only [Res.bind]
        rw [P.seq_apply, p3]
        simp [Res.bind, parseUpdateRowDataList, hc, P.fail]
    unfold dispatchEvent
    rcases hv with rfl | rfl <;> rw [ht] <;>
      simp [rowEventCode, EventType.fromCode, P.run, h1]

/-- A table map for table 7 with the given column types. -/
def sampleTableMap (types : Bytes) : EventHeader × Bytes :=
  (⟨0, 19, 1, 40, 0, 0⟩, [7, 0, 0, 0, 0, 0, 1, 0, 1, 100, 0, 1, 116, 0] ++ [UInt8.ofNat types.length] ++ types ++ [0, 0])
/-- A history in which table 7 is mapped twice (and something fails in between), then a row event of table 7. -/
def sampleHistory : List (EventHeader × Bytes) :=
  [sampleTableMap [1, 1], (⟨0, 2, 1, 40, 0, 0⟩, [1]), sampleTableMap [3, 1], (⟨0, 16, 1, 31, 0, 0⟩, [9, 0, 0, 0, 0, 0, 0, 0])]
def sampleRows : Bytes := [7, 0, 0, 0, 0, 0] ++ [1, 0] ++ [5, 0, 1, 2, 3] ++ [2] ++ [3] ++ ([2, 2, 1, 0, 0] ++ [0, 1, 0, 0, 0, 9])
example : ((lastOf (tableMapOf (leVal (sampleRows.take 6))) (answers ⟨true⟩ EventParser.new sampleHistory)).or
    (EventParser.new.tableMap.get? (leVal (sampleRows.take 6)))).map (·.columnTypes) = some [3, 1] := by decide +kernel
/-- The same row event is rejected when only other tables were mapped. -/
example : (parseEvent ⟨true⟩ (after ⟨true⟩ EventParser.new [sampleHistory[1], sampleHistory[3]]) ⟨0, 30, 1, 60, 0, 0⟩ sampleRows).1
    = .err TABLE_MAP_NOT_FOUND :=
  (C32_no_table_map_rejected ⟨true⟩ EventParser.new _ _ (version := 2) (slice := sampleRows) (.inr rfl) (by decide)
    ⟨[], by decide +kernel, rfl⟩ (by decide +kernel) (by decide +kernel)).1 _ _ sampleRowsBody (.inl rfl)

/-! ## C33 -/

/-- C33: in a CRC32 stream the four checksum bytes are no part of the event, whatever they are. -/
theorem C33_checksum_stripped (m : Mode) (st : EventParser) (header : EventHeader) (body checksum : Bytes)
    (hst : st.checksumType = .crc32) (hc : checksum.length = 4) :
    (parseEvent m st header (body ++ checksum)).1 = (parseEvent m { st with checksumType := .none } header body).1 ∧
    ∀ checksum', checksum'.length = 4 → parseEvent m st header (body ++ checksum) = parseEvent m st header (body ++ checksum') := by
  have hb : ∀ c : Bytes, c.length = 4 → eventBody .crc32 (body ++ c) = .ok body := by
    intro c hc
    simp [eventBody, hc]
  constructor
  · unfold parseEvent
    rw [hst, hb _ hc]
    simp only [eventBody]
    cases (dispatchEvent m st.tableMap header).run body <;> rfl
  · intro c' hc'
    unfold parseEvent
    rw [hst, hb _ hc, hb _ hc']

/-- C33: the checksum type in force is that of the last format description event, else the initial one. -/
theorem C33_checksum_type (m : Mode) (st : EventParser) (history : List (EventHeader × Bytes)) :
    (after m st history).checksumType = (lastOf announcedChecksum (answers m st history)).getD st.checksumType := by
  induction history generalizing st with
  | nil => rfl
  | cons ev rest ih =>
    obtain ⟨h, p⟩ := ev
    simp only [after, answers]
    rw [ih, lastOf_cons]
    cases hr : lastOf announcedChecksum (answers m (parseEvent m st h p).2 rest) with
    | some c => simp
    | none =>
      simp only [Option.getD_none, Option.none_or]
      rw [parseEvent_state]
      cases hp : (parseEvent m st h p).1 with
      | ok e => cases e <;> simp [EventParser.record, announcedChecksum]
      | _ => simp [announcedChecksum]

example : (parseEvent ⟨true⟩ ⟨.crc32, []⟩ ⟨0, 16, 1, 31, 0, 0⟩ [9, 0, 0, 0, 0, 0, 0, 0, 1, 2, 3, 4]).1
    = .ok (.xid ⟨9⟩) := by decide +kernel

/-! ## C34 -/

/-- C34: an event of any type the library does not decode is delivered as unknown, whatever its payload, and changes nothing. -/
theorem C34_unknown_types (m : Mode) (st : EventParser) (header : EventHeader) (payload slice : Bytes)
    (ht : header.eventType ∉ decodedTypes) (hs : WithChecksum st.checksumType payload slice) :
    parseEvent m st header slice = (.ok .unknown, st) := by
  refine parseEvent_of_body hs (event := .unknown) ?_
  have h : dispatchEvent m st.tableMap header = (pure .unknown : P BinlogEvent) := by
    simp only [decodedTypes, List.mem_cons, List.not_mem_nil, or_false, not_or] at ht
    obtain ⟨h2, h4, h5, h14, h15, h16, h19, h23, h24, h25, h27, h29, h30, h31, h32, h33, h35, h160, h162, h163⟩ := ht
    have hk : EventType.fromCode header.eventType ∈ [EventType.stop, .rand, .mySqlXaPrepare, .mariaDbBinlogCheckpoint,
        .mariaDbStartEncryption, .unknown] := by
      generalize header.eventType = code at *
      unfold EventType.fromCode
      split <;> simp_all
    simp only [List.mem_cons, List.not_mem_nil, or_false] at hk
    unfold dispatchEvent
    rcases hk with h | h | h | h | h | h <;> rw [h]
  rw [h]
  rfl

/-- Types the library decodes are never delivered as unknown. -/
theorem C34_known_types (m : Mode) (st : EventParser) (header : EventHeader) (slice : Bytes)
    (ht : header.eventType ∈ decodedTypes) : (parseEvent m st header slice).1 ≠ .ok .unknown := by
  have key : ∀ {α : Type} (p : P α) (f : α → BinlogEvent) (body : Bytes), (∀ a, f a ≠ .unknown) →
      (p >>= fun a => (pure (f a) : P BinlogEvent)).run body ≠ .ok .unknown := by
    intro α p f body hf
    simp only [P.run, P.seq_apply]
    cases p body 0 with
    | ok r => simpa using hf r.1
    | _ => simp
  have h : ∀ body, (dispatchEvent m st.tableMap header).run body ≠ .ok .unknown := by
    intro body
    simp only [decodedTypes, List.mem_cons, List.not_mem_nil, or_false] at ht
    unfold dispatchEvent
    rcases ht with h | h | h | h | h | h | h | h | h | h | h | h | h | h | h | h | h | h | h | h <;> rw [h] <;>
      exact key _ _ body (fun a => by simp)
  unfold parseEvent
  cases eventBody st.checksumType slice with
  | ok body =>
    simp only
    have := h body
    cases hr : (dispatchEvent m st.tableMap header).run body <;> simp_all
  | _ => simp

/-- MariaDB START_ENCRYPTION, MySQL TRANSACTION_PAYLOAD and a type no server knows. -/
example : (164 : Nat) ∉ decodedTypes ∧ (40 : Nat) ∉ decodedTypes ∧ (255 : Nat) ∉ decodedTypes := by decide

end MysqlCdc
