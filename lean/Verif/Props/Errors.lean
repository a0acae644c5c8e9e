import Verif.Lemmas.ErrorsRows
import Verif.Props.Faults

/-!
With which error an event is refused, exactly (C87). C86 says which are refused; this says why.
-/

namespace MysqlCdc

open Spec

theorem eventError_code {m : Mode} {columnsOf : Nat → Option (List (UInt8 × Nat))} {header : EventHeader} {err : Err} {body : Bytes}
    (h : EventError m columnsOf header err body) : header.eventType ∈ [2, 4, 14, 15, 19, 23, 24, 25, 27, 29, 30, 31, 32, 160] := by
  simp only [List.mem_cons, List.not_mem_nil, or_false]
  cases h with
  | text h | rows h => simp only [List.mem_cons, List.not_mem_nil, or_false] at h; omega
  | _ => omega

theorem err_dispatch {e : Err} (he : e ≠ .io .unexpectedEof) (m : Mode) {tm : TableMapCache} (htm : ProperCache tm) (header : EventHeader)
    (body : Bytes) : (dispatchEvent m tm header).run body = .err e ↔ EventError m (cachedColumns tm) header e body := by
  by_cases ht : header.eventType ∈ decodedTypes
  · have other : header.eventType ∉ [2, 4, 14, 15, 19, 23, 24, 25, 27, 29, 30, 31, 32, 160] → ∀ {p : P BinlogEvent}, EndsOnly p →
        (p.run body = .err e ↔ EventError m (cachedColumns tm) header e body) := by
      intro hn p hp
      exact ((hp.faults he).run body).trans ⟨False.elim, fun h => hn (eventError_code h)⟩
    have one : ∀ {p : P BinlogEvent} {K : Bytes → Prop}, Faults (.error e) p K → (K body → EventError m (cachedColumns tm) header e body) →
        (EventError m (cachedColumns tm) header e body → K body) → (p.run body = .err e ↔ EventError m (cachedColumns tm) header e body) :=
      fun h h1 h2 => (h.run body).trans ⟨h1, h2⟩
    have rows : ∀ (version : Nat) (f : RowsEvent → BinlogEvent), (version = 1 ∧ header.eventType ∈ [23, 25] ∨ version = 2 ∧ header.eventType ∈ [30, 32]) →
        ((parseRowsEvent m tm version >>= fun a => pure (f a)).run body = .err e ↔ EventError m (cachedColumns tm) header e body) := by
      intro version f hc
      refine one ((err_rowsEvent he m htm (by omega)).map f) (.rows hc) fun h => ?_
      simp only [List.mem_cons, List.not_mem_nil, or_false] at hc
      cases h with
      | @rows version' hc' h =>
        simp only [List.mem_cons, List.not_mem_nil, or_false] at hc'
        obtain rfl : version = version' := by omega
        exact h
      | text hc' => simp only [List.mem_cons, List.not_mem_nil, or_false] at hc'; omega
      | _ => omega
    have updates : ∀ (version : Nat) (f : UpdateRowsEvent → BinlogEvent), (version = 1 ∧ header.eventType = 24 ∨ version = 2 ∧ header.eventType = 31) →
        ((parseUpdateRowsEvent m tm version >>= fun a => pure (f a)).run body = .err e ↔ EventError m (cachedColumns tm) header e body) := by
      intro version f hc
      refine one ((err_updateRowsEvent he m htm (by omega)).map f) (.updates hc) fun h => ?_
      cases h with
      | @updates version' hc' h =>
        obtain rfl : version = version' := by omega
        exact h
      | text hc' | rows hc' => simp only [List.mem_cons, List.not_mem_nil, or_false] at hc'; omega
      | _ => omega
    have text : header.eventType ∈ [27, 160] → ∀ {α : Type} (g : RStr → α) (f : α → BinlogEvent),
        (((readToString >>= fun a => pure (g a)) >>= fun a => pure (f a)).run body = .err e ↔ EventError m (cachedColumns tm) header e body) := by
      intro hc α g f
      refine one ((err_toString.map g).map f) (.text hc) fun h => ?_
      simp only [List.mem_cons, List.not_mem_nil, or_false] at hc
      cases h with
      | text _ h => exact h
      | rows hc' => simp only [List.mem_cons, List.not_mem_nil, or_false] at hc'; omega
      | _ => omega
    simp only [decodedTypes, List.mem_cons, List.not_mem_nil, or_false] at ht
    unfold dispatchEvent
    rcases ht with h | h | h | h | h | h | h | h | h | h | h | h | h | h | h | h | h | h | h | h <;> rw [h]
    · refine one ((err_query he).map _) (.query h) fun h' => ?_
      cases h' with
      | query _ h' => exact h'
      | text hc' | rows hc' => simp only [List.mem_cons, List.not_mem_nil, or_false] at hc'; omega
      | _ => omega
    · refine one ((Faults.then (Exact.uLE 8) ((ends_uLE 8).faults he) fun _ => err_toString.map _).map _) ?_ fun h' => ?_
      · rintro ⟨n, _, t, ⟨h1, rfl⟩, h2, h3⟩
        exact .rotate h (by simpa using h1) h2 h3
      · cases h' with
        | rotate _ h1 h2 h3 => exact ⟨_, _, _, ⟨by simpa using h1, rfl⟩, h2, h3⟩
        | text hc' | rows hc' => simp only [List.mem_cons, List.not_mem_nil, or_false] at hc'; omega
        | _ => omega
    · exact other (by rw [h]; decide) ((ends_u8.bind fun _ => (ends_uLE 8).map _).map _)
    · refine one ((err_userVar he).map _) (.userVar h) fun h' => ?_
      cases h' with
      | userVar _ h' => exact h'
      | text hc' | rows hc' => simp only [List.mem_cons, List.not_mem_nil, or_false] at hc'; omega
      | _ => omega
    · have : (parseFormatDescription m header >>= fun a => (pure (.formatDescription a) : P BinlogEvent)).run body = .err e ↔
          parseFormatDescription m header body 0 = .err e := by
        unfold P.run
        rw [P.seq_apply]
        cases parseFormatDescription m header body 0 <;> simp [Res.bind, pure, P.ret]
      refine this.trans ((err_format he m header body).trans ⟨.format h, fun h' => ?_⟩)
      cases h' with
      | format _ h' => exact h'
      | text hc' | rows hc' => simp only [List.mem_cons, List.not_mem_nil, or_false] at hc'; omega
      | _ => omega
    · exact other (by rw [h]; decide) (((ends_uLE 8).map _).map _)
    · refine one ((err_tableMap he).map _) (.tableMap h) fun h' => ?_
      cases h' with
      | tableMap _ h' => exact h'
      | text hc' | rows hc' => simp only [List.mem_cons, List.not_mem_nil, or_false] at hc'; omega
      | _ => omega
    · exact rows 1 _ (.inl ⟨rfl, by rw [h]; decide⟩)
    · exact updates 1 _ (.inl ⟨rfl, h⟩)
    · exact rows 1 _ (.inl ⟨rfl, by rw [h]; decide⟩)
    · exact text (by rw [h]; decide) HeartbeatEvent.mk _
    · refine one (((err_toString.map _).skip tailError_ne 1).map _) ?_ fun h' => ?_
      · rintro ⟨s, t, hs, h2, rfl⟩
        obtain ⟨x, rfl⟩ := List.length_eq_one_iff.1 hs
        exact .rowsQuery h h2 rfl
      · cases h' with
        | @rowsQuery len t _ h2 h3 => exact ⟨[len], t, rfl, h2, h3⟩
        | text hc' | rows hc' => simp only [List.mem_cons, List.not_mem_nil, or_false] at hc'; omega
        | _ => omega
    · exact rows 2 _ (.inr ⟨rfl, by rw [h]; decide⟩)
    · exact updates 2 _ (.inr ⟨rfl, h⟩)
    · exact rows 2 _ (.inr ⟨rfl, by rw [h]; decide⟩)
    · exact other (by rw [h]; decide) ((ends_u8.bind fun _ => (ends_readExact 16).bind fun _ => (ends_uLE 8).map _).map _)
    · exact other (by rw [h]; decide) ((ends_previous m).map _)
    · exact text (by rw [h]; decide) RowsQueryEvent.mk _
    · exact other (by rw [h]; decide) (((ends_uLE 8).bind fun _ => (ends_uLE 4).bind fun _ => ends_u8.map _).map _)
    · exact other (by rw [h]; decide) (ends_gtidList.map _)
  · rw [dispatch_unknown m tm ht]
    refine ((Faults.ret (.error e) _).run body).trans ⟨False.elim, fun h => ht ?_⟩
    have := eventError_code h
    revert this
    simp only [decodedTypes, List.mem_cons, List.not_mem_nil, or_false]
    omega

/-! ## The property -/

/-- **C87.** An event is refused with an error other than "unexpected end" exactly if its body has one of the forms listed for this error
in `EventError`. -/
theorem C87_error_iff {m : Mode} {st : EventParser} (hst : ProperCache st.tableMap) {header : EventHeader} {slice : Bytes} {e : Err}
    (he : e ≠ .io .unexpectedEof) :
    (parseEvent m st header slice).1 = .err e ↔ SliceReason m e st.checksumType (cachedColumns st.tableMap) header slice := by
  have := parseEvent_fault (m := m) (st := st) (header := header) (slice := slice) (.error e)
  simp only [Fault.as, err_dispatch he m hst header] at this
  refine this.trans ?_
  unfold SliceReason
  have : eventBody st.checksumType slice ≠ .err e := by
    unfold eventBody
    cases st.checksumType with
    | none => simp
    | crc32 => simp; split <;> simp
  simp [this]

/-- **C87.** It is refused with the error "unexpected end" exactly if it is refused (C86) and none of these forms is the reason. -/
theorem C87_eof_iff {m : Mode} {st : EventParser} (hst : ProperCache st.tableMap) {header : EventHeader} {slice : Bytes} :
    (parseEvent m st header slice).1 = .err (.io .unexpectedEof) ↔
      SliceEnds m st.checksumType (cachedColumns st.tableMap) header slice := by
  unfold SliceEnds
  rw [← C86_error_iff hst]
  constructor
  · intro h
    refine ⟨⟨_, h⟩, fun err he hr => ?_⟩
    rw [← C87_error_iff hst he, h] at hr
    exact he (by simpa using hr.symm)
  · rintro ⟨⟨e, h⟩, hn⟩
    by_cases he : e = .io .unexpectedEof
    · rw [h, he]
    · exact absurd ((C87_error_iff hst he).1 h) (hn e he)

/-- **C87.** From a new decoder, a sequence of events is refused with an error other than "unexpected end" exactly if accepted events are
followed by one that is refused with this error after these. -/
theorem C87_stream_error {m : Mode} {items : List (EventHeader × Bytes)} {e : Err} (he : e ≠ .io .unexpectedEof) :
    decodeAll m EventParser.new items = .err e ↔ AfterEvents m (SliceReason m e) items := by
  have := decodeAll_fault (m := m) (Q' := fun r => r = .err e) (Q1 := fun r => r = .err e) (Z := SliceReason m e)
    (fun st hst header slice => C87_error_iff hst he) (fun r k => by cases r <;> simp)
    (fun ev r => by cases r <;> simp) (by simp) items EventParser.new properCache_new
  exact this

theorem C87_stream_eof {m : Mode} {items : List (EventHeader × Bytes)} :
    decodeAll m EventParser.new items = .err (.io .unexpectedEof) ↔ AfterEvents m (SliceEnds m) items := by
  have := decodeAll_fault (m := m) (Q' := fun r => r = .err (.io .unexpectedEof)) (Q1 := fun r => r = .err (.io .unexpectedEof))
    (Z := SliceEnds m)
    (fun st hst header slice => C87_eof_iff hst) (fun r k => by cases r <;> simp)
    (fun ev r => by cases r <;> simp) (by simp) items EventParser.new properCache_new
  exact this

/-! ## Examples -/

/-- A row event of a table that was not announced. -/
example (m : Mode) : SliceReason m (.str "No preceding TableMapEvent event was found for the row event.") .none (fun _ => none) (exHeaderOf 30)
    [7, 0, 0, 0, 0, 0, 1, 0, 2, 0, 1, 1] :=
  ⟨_, ⟨[], rfl, (List.append_nil _).symm⟩, .rows (.inr ⟨rfl, by decide⟩) (RowsError.table (tableId := 7) (flags := 1) (n := 1)
    (present := [true]) (bitmap := [1]) (data := []) (.taken (head := [7, 0, 0, 0, 0, 0, 1, 0, 2, 0, 1])
      (.plain (cast (by congr 1) (RowsHead.v2 (tableId := 7) (flags := 1) (columns := 1) (extra := []) (by decide) (by decide) (by decide) (.one (by decide))))))
    (by decide) rfl ⟨rfl, fun i b h => ⟨1, by match i, h with | 0, h => exact ⟨rfl, Option.some.inj h⟩⟩⟩ rfl)⟩

/-- A heartbeat whose file name is not UTF-8. -/
example (m : Mode) : (parseEvent m EventParser.new (exHeaderOf 27) [97, 255]).1 = .err (.io .invalidData) := by
  revert m; rintro ⟨_ | _⟩ <;> decide +kernel

/-- A negative TIME in the only column of a row, after the map of its table. -/
example (m : Mode) : AfterEvents m (SliceReason m (.str "Parsing negative TIME values is not supported in this version"))
    [(exHeaderOf 19, [7, 0, 0, 0, 0, 0, 1, 0, 1, 100, 0, 1, 116, 0, 1, 19, 1, 0, 1]),
     (exHeaderOf 30, [7, 0, 0, 0, 0, 0, 1, 0, 2, 0, 1, 1, 0, 127, 255, 255]), (exHeaderOf 27, [97])] :=
  (C87_stream_error (by decide)).1 (by revert m; rintro ⟨_ | _⟩ <;> decide +kernel)

/-- A table with a column of an unknown type. -/
example (m : Mode) : AfterEvents m (SliceReason m (.str "Unknown column type"))
    [(exHeaderOf 27, [97]), (exHeaderOf 19, [7, 0, 0, 0, 0, 0, 1, 0, 1, 100, 0, 1, 116, 0, 1, 20, 0, 1])] :=
  (C87_stream_error (by decide)).1 (by revert m; rintro ⟨_ | _⟩ <;> decide +kernel)

/-- A row of which a cell is cut off. -/
example (m : Mode) : AfterEvents m (SliceEnds m) (exFaultItems [2, 0, 1, 1, 0, 42]) :=
  C87_stream_eof.1 (by revert m; rintro ⟨_ | _⟩ <;> decide +kernel)

end MysqlCdc
