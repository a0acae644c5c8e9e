import Verif.Lemmas.FrugalEvents
import Verif.Spec.Memory
/-!
# C115: decoding an event asks for memory in proportion to its bytes
-/

namespace MysqlCdc

open Spec

theorem stops_map {α β : Type} {B : Nat} {p : PM α} {f : α → β} {buf : Bytes} (h : (p buf 0).1 ≠ .hang → Stops B (p buf 0).1 (p buf 0).2)
    (hh : ((p >>= fun a => pure (f a)) buf 0).1 ≠ .hang) :
    Stops B ((p >>= fun a => pure (f a)) buf 0).1 ((p >>= fun a => pure (f a)) buf 0).2 := by
  rw [PM.bind_def] at *
  unfold PM.seq at *
  revert h hh
  rcases p buf 0 with ⟨⟨a, pos'⟩ | e | _ | _, ts⟩
  · intro h _
    have := (h (by simp)).cast (r' := (Res.ok (f a, pos') : Res (β × Nat))) (by simp)
    simpa [Pure.pure, PM.ret] using this
  · intro h _; exact (h (by simp)).cast (by simp)
  · intro h _; exact (h (by simp)).cast (by simp)
  · intro _ hh; exact absurd rfl hh

theorem rows_memory (m : Mode) (cell : Nat) (cache : TableMapCache) (v : Nat) (buf : Bytes)
    (hh : (parseRowsEventM m cell cache v buf 0).1 ≠ .hang) :
    Stops (8 * buf.length + cell * namedColumns cache buf * (buf.length + 1)) (parseRowsEventM m cell cache v buf 0).1
      (parseRowsEventM m cell cache v buf 0).2 := by
  unfold parseRowsEventM at *
  rw [PM.bind_def] at *
  unfold PM.seq PM.free at *
  revert hh
  cases hp : parseHead v buf 0 with
  | ok r =>
    obtain ⟨⟨id, fl, n⟩, pos'⟩ := r
    have hid := (parseHead_inv hp).2
    simp only at hid
    subst hid
    simp only [List.nil_append]
    intro hh
    unfold namedColumns
    cases ht : cache.get? (leVal (buf.take 6)) with
    | none =>
      refine (Frugal.total (K := 8) (cin := 0) (cout := fun _ => 0) ?_ buf pos' hh).mono (by omega)
      refine ((Frugal.bitmapLE 8 0 n (by omega)).keep fun _ => by omega).bind fun present => Frugal.map ?_ _
      unfold parseRowDataListM
      rw [ht]
      exact Frugal.free (k := 0) 8 0 (.fail _ _)
    | some table =>
      refine (Frugal.total (K := 8 + cell * table.columnTypes.length) (cin := cell * table.columnTypes.length)
        (cout := fun _ => cell * table.columnTypes.length) ?_ buf pos' hh).mono (by simp only [Nat.add_mul, Nat.mul_add, Nat.mul_one]; omega)
      refine ((Frugal.bitmapLE _ _ n (by omega)).keep fun _ => by omega).bind fun present => Frugal.map ?_ _
      unfold parseRowDataListM
      rw [ht]
      exact Frugal.rowDataList m cell table present
  | err e => exact fun _ => Stops.none _ _
  | panic => exact fun _ => Stops.none _ _
  | hang => exact fun _ => Stops.none _ _

theorem updateRows_memory (m : Mode) (cell : Nat) (cache : TableMapCache) (v : Nat) (buf : Bytes)
    (hh : (parseUpdateRowsEventM m cell cache v buf 0).1 ≠ .hang) :
    Stops (8 * buf.length + 2 * (cell * namedColumns cache buf) * (buf.length + 1)) (parseUpdateRowsEventM m cell cache v buf 0).1
      (parseUpdateRowsEventM m cell cache v buf 0).2 := by
  unfold parseUpdateRowsEventM at *
  rw [PM.bind_def] at *
  unfold PM.seq PM.free at *
  revert hh
  cases hp : parseHead v buf 0 with
  | ok r =>
    obtain ⟨⟨id, fl, n⟩, pos'⟩ := r
    have hid := (parseHead_inv hp).2
    simp only at hid
    subst hid
    simp only [List.nil_append]
    intro hh
    unfold namedColumns
    cases ht : cache.get? (leVal (buf.take 6)) with
    | none =>
      refine (Frugal.total (K := 8) (cin := 0) (cout := fun _ => 0) ?_ buf pos' hh).mono (by omega)
      refine ((Frugal.bitmapLE 8 0 n (by omega)).keep fun _ => by omega).bind fun before =>
        ((Frugal.bitmapLE 8 0 n (by omega)).keep fun _ => by omega).bind fun after => Frugal.map ?_ _
      unfold parseUpdateRowDataListM
      rw [ht]
      exact Frugal.free (k := 0) 8 0 (.fail _ _)
    | some table =>
      refine (Frugal.total (K := 8 + 2 * (cell * table.columnTypes.length)) (cin := 2 * (cell * table.columnTypes.length))
        (cout := fun _ => 2 * (cell * table.columnTypes.length)) ?_ buf pos' hh).mono (by simp only [Nat.add_mul, Nat.mul_add, Nat.mul_one]; omega)
      refine ((Frugal.bitmapLE _ _ n (by omega)).keep fun _ => by omega).bind fun before =>
        ((Frugal.bitmapLE _ _ n (by omega)).keep fun _ => by omega).bind fun after => Frugal.map ?_ _
      unfold parseUpdateRowDataListM
      rw [ht]
      exact Frugal.updateRowDataList m cell table before after
  | err e => exact fun _ => Stops.none _ _
  | panic => exact fun _ => Stops.none _ _
  | hang => exact fun _ => Stops.none _ _

theorem dispatch_memory (m : Mode) (cell : Nat) (cache : TableMapCache) (header : EventHeader) (buf : Bytes)
    (hh : (dispatchEventM m cell cache header buf 0).1 ≠ .hang) :
    Stops (allowance header.eventType buf.length (cell * namedColumns cache buf)) (dispatchEventM m cell cache header buf 0).1
      (dispatchEventM m cell cache header buf 0).2 := by
  unfold dispatchEventM at *
  generalize header.eventType = code at *
  revert hh
  have back : ∀ t c, EventType.fromCode code = t → EventType.fromCode c = t → t ≠ .unknown → code = c := by
    intro t c h1 h2 h3
    unfold EventType.fromCode at h1 h2
    split at h1 <;> (subst h1; split at h2 <;> first | rfl | exact absurd rfl h3 | cases h2)
  cases ht : EventType.fromCode code with
  | query =>
    obtain rfl := back _ 2 ht rfl (by simp)
    exact fun hh => (stops_map (Frugal.query.total buf 0) hh).mono (by simp [allowance])
  | userVar =>
    obtain rfl := back _ 14 ht rfl (by simp)
    exact fun hh => (stops_map (Frugal.userVar.total buf 0) hh).mono (by simp [allowance])
  | tableMap =>
    obtain rfl := back _ 19 ht rfl (by simp)
    exact fun hh => (stops_map (Frugal.tableMap.total buf 0) hh).mono (by simp [allowance])
  | writeRowsV1 =>
    obtain rfl := back _ 23 ht rfl (by simp)
    exact fun hh => (stops_map (rows_memory m cell cache 1 buf) hh).mono (by simp [allowance])
  | updateRowsV1 =>
    obtain rfl := back _ 24 ht rfl (by simp)
    exact fun hh => (stops_map (updateRows_memory m cell cache 1 buf) hh).mono (by simp [allowance])
  | deleteRowsV1 =>
    obtain rfl := back _ 25 ht rfl (by simp)
    exact fun hh => (stops_map (rows_memory m cell cache 1 buf) hh).mono (by simp [allowance])
  | mySqlWriteRowsV2 =>
    obtain rfl := back _ 30 ht rfl (by simp)
    exact fun hh => (stops_map (rows_memory m cell cache 2 buf) hh).mono (by simp [allowance])
  | mySqlUpdateRowsV2 =>
    obtain rfl := back _ 31 ht rfl (by simp)
    exact fun hh => (stops_map (updateRows_memory m cell cache 2 buf) hh).mono (by simp [allowance])
  | mySqlDeleteRowsV2 =>
    obtain rfl := back _ 32 ht rfl (by simp)
    exact fun hh => (stops_map (rows_memory m cell cache 2 buf) hh).mono (by simp [allowance])
  | _ => exact fun _ => Stops.none _ _

/-- The run whose requests are listed is the run of the decoder. -/
theorem C115_same_result (m : Mode) (cell : Nat) (st : EventParser) (header : EventHeader) {slice body : Bytes}
    (hb : eventBody st.checksumType slice = .ok body) :
    (parseEvent m st header slice).1 = ((dispatchEventM m cell st.tableMap header body 0).1 >>= fun r => .ok r.1) := by
  unfold parseEvent
  rw [hb, Erases.dispatch m cell st.tableMap header body 0]
  simp only [P.run]
  cases dispatchEvent m st.tableMap header body 0 <;> rfl

/-- C115, where it holds: whatever the bytes, the requests of an event add up to its allowance, but for a last one that the event has no bytes for. -/
theorem C115_requests_partial (m : Mode) (cell : Nat) (st : EventParser) (header : EventHeader) {slice body : Bytes}
    (hb : eventBody st.checksumType slice = .ok body) (hh : (parseEvent m st header slice).1 ≠ .hang) :
    WithinAllowance (allowance header.eventType body.length (cell * namedColumns st.tableMap body)) (parseEvent m st header slice).1
      (eventMemory m cell st header slice) := by
  have e := C115_same_result m cell st header hb
  have em : eventMemory m cell st header slice = (dispatchEventM m cell st.tableMap header body 0).2 := by unfold eventMemory; rw [hb]
  rw [em]
  have hs := dispatch_memory m cell st.tableMap header body (by intro hc; rw [hc] at e; exact hh e)
  obtain ⟨us, big, h1, h2, h3, h4⟩ := hs
  rw [h1]
  match big, h3, h4 with
  | [], _, _ => rw [List.append_nil]; exact .paid h2
  | [x], _, h4 => exact .short h2 (by rw [e, h4 (by simp)]; rfl)

/-- An event that is handed out has asked for no more than its allowance. -/
theorem C115_decoded_partial (m : Mode) (cell : Nat) (st : EventParser) (header : EventHeader) {slice body : Bytes} {event : BinlogEvent}
    (hb : eventBody st.checksumType slice = .ok body) (hd : (parseEvent m st header slice).1 = .ok event) :
    (eventMemory m cell st header slice).sum ≤ allowance header.eventType body.length (cell * namedColumns st.tableMap body) := by
  have := C115_requests_partial m cell st header hb (by rw [hd]; simp)
  generalize eventMemory m cell st header slice = sizes at *
  cases this with
  | paid h => exact h
  | short h hr => rw [hd] at hr; cases hr

/-- C115 is false of the code: seventeen bytes make it ask for as much as one likes, before it finds that they are too few. -/
theorem C115_false (m : Mode) (cell : Nat) (header : EventHeader) (hc : header.eventType = 23) (st : EventParser) (hs : st.checksumType = .none)
    {n : Nat} (h0 : 0 < n) (hn : n < 2 ^ 63) :
    ∃ slice : Bytes, slice.length = 17 ∧ eventMemory m cell st header slice = [n] ∧
      (parseEvent m st header slice).1 = .err (.io .unexpectedEof) := by
  have hl : (le 6 0 ++ (le 2 0 ++ (0xFE :: le 8 n))).length = 17 := by simp
  have hhead : parseHead 1 (le 6 0 ++ (le 2 0 ++ (0xFE :: le 8 n))) 0 = .ok ((0, 0, n), 17) := by
    have : Parses (parseHead 1) (le 6 0 ++ (le 2 0 ++ (0xFE :: le 8 n))) (0, 0, n) :=
      (uLE_parses (by decide)).bind ((uLE_parses (by decide)).bind ((readLenEncNum_parses (.eight (by omega))).map _))
    have := this [] []
    simpa using this
  generalize le 6 0 ++ (le 2 0 ++ (0xFE :: le 8 n)) = slice at *
  have hloop : ∀ set res, bitmapLoop set (List.range ((n + 7) / 8)) res slice 17 = .err (.io .unexpectedEof) := by
    intro set res
    obtain ⟨k, hk⟩ : ∃ k, (n + 7) / 8 = k + 1 := ⟨(n + 7) / 8 - 1, by omega⟩
    rw [hk, List.range_succ_eq_map]
    have hu : P.u8 slice 17 = .err (.io .unexpectedEof) := by
      unfold P.u8
      rw [P.seq_apply]
      simp [P.readExact, hl]
    unfold bitmapLoop
    rw [P.seq_apply, hu]
    rfl
  have hb : eventBody st.checksumType slice = .ok slice := by rw [hs]; rfl
  have hd : dispatchEventM m cell st.tableMap header slice 0 = (.err (.io .unexpectedEof), [n]) := by
    unfold dispatchEventM
    rw [hc]
    simp only [EventType.fromCode, parseRowsEventM, PM.bind_def, PM.seq, PM.free, hhead, readBitmapLittleEndianM, PM.alloc, if_pos hn, hloop]
    simp
  refine ⟨slice, hl, ?_, ?_⟩
  · unfold eventMemory; rw [hb]; simp only [hd]
  · rw [C115_same_result m cell st header hb, hd]; rfl

/-- A table with an INT and a VARCHAR(20). -/
def exMemoryTable : TableMapEvent :=
  { tableId := 7, databaseName := [], tableName := [], columnTypes := [3, 15], columnMetadata := [0, 20], nullBitmap := [false, false], tableMetadata := none }

/-- Its two rows (1, "ab") and (2, NULL). -/
def exMemoryRows : Bytes := [7, 0, 0, 0, 0, 0, 1, 0, 2, 3, 0, 1, 0, 0, 0, 2, 97, 98, 2, 2, 0, 0, 0]

-- two rows: the bitmap of the columns; for each row its vector and its bitmap; and the text
example : ∀ m, eventMemory m 32 ⟨.none, [(7, exMemoryTable)]⟩ ⟨0, 23, 1, 50, 0, 0⟩ exMemoryRows = [2, 64, 2, 2, 64, 2] := by
  rintro ⟨_ | _⟩ <;> decide +kernel
example : ∀ m, (eventMemory m 32 ⟨.none, [(7, exMemoryTable)]⟩ ⟨0, 23, 1, 50, 0, 0⟩ exMemoryRows).sum ≤
    allowance 23 exMemoryRows.length (32 * namedColumns [(7, exMemoryTable)] exMemoryRows) := fun m =>
  C115_decoded_partial m 32 ⟨.none, [(7, exMemoryTable)]⟩ ⟨0, 23, 1, 50, 0, 0⟩ (body := exMemoryRows)
    (event := .writeRows ⟨7, 1, 2, [true, true], [⟨[some (.int 1), some (.string ['a', 'b'])]⟩, ⟨[some (.int 2), none]⟩]⟩) rfl
    (by revert m; rintro ⟨_ | _⟩ <;> decide +kernel)
example : allowance 23 exMemoryRows.length (32 * namedColumns [(7, exMemoryTable)] exMemoryRows) = 8 * 23 + 64 * 24 := by decide +kernel
-- a table map of two columns whose metadata names them: names of database and table, types, metadata, bitmap, names
example : ∀ m, eventMemory m 32 EventParser.new ⟨0, 19, 1, 50, 0, 0⟩
    [7, 0, 0, 0, 0, 0, 0, 0, 1, 100, 0, 1, 116, 0, 2, 3, 3, 0, 0, 4, 4, 1, 97, 1, 98] = [1, 1, 2, 4, 2, 4, 1, 1] := by
  rintro ⟨_ | _⟩ <;> decide +kernel
-- a name of the length 200 in a table map that ends after three bytes of it
example : ∀ m, WithinAllowance (9 * 12) (parseEvent m EventParser.new ⟨0, 19, 1, 50, 0, 0⟩ [7, 0, 0, 0, 0, 0, 0, 0, 200, 97, 98, 99]).1 [200] := fun m =>
  C115_requests_partial m 32 EventParser.new ⟨0, 19, 1, 50, 0, 0⟩ (body := [7, 0, 0, 0, 0, 0, 0, 0, 200, 97, 98, 99]) rfl
    (by revert m; rintro ⟨_ | _⟩ <;> decide +kernel)
example : ∃ slice : Bytes, slice.length = 17 ∧ eventMemory ⟨true⟩ 32 EventParser.new ⟨0, 23, 1, 50, 0, 0⟩ slice = [2 ^ 62] ∧
    (parseEvent ⟨true⟩ EventParser.new ⟨0, 23, 1, 50, 0, 0⟩ slice).1 = .err (.io .unexpectedEof) :=
  C115_false ⟨true⟩ 32 _ rfl _ rfl (by decide) (by decide)

end MysqlCdc
