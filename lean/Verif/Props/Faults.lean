import Verif.Lemmas.FaultsEvents
import Verif.Lemmas.FaultsRows
import Verif.Props.AcceptedRows
import Verif.Props.Safety

/-!
Which events crash the decoder, which it never gets done with, and which are refused with an error, exactly (C86). Together with C81 and
C82 this says of all bytes what happens to them.
-/

namespace MysqlCdc

open Spec

theorem dispatch_unknown (m : Mode) (tm : TableMapCache) {header : EventHeader} (ht : header.eventType ∉ decodedTypes) :
    dispatchEvent m tm header = (pure .unknown : P BinlogEvent) := by
  simp only [decodedTypes, List.mem_cons, List.not_mem_nil, or_false, not_or] at ht
  obtain ⟨h2, h4, h5, h14, h15, h16, h19, h23, h24, h25, h27, h29, h30, h31, h32, h33, h35, h160, h162, h163⟩ := ht
  have hk : EventType.fromCode header.eventType ∈ [EventType.stop, .rand, .mySqlXaPrepare, .mariaDbBinlogCheckpoint,
      .mariaDbStartEncryption, .unknown] := by
    generalize header.eventType = code at *
    unfold EventType.fromCode
    split <;> simp_all
  simp only [List.mem_cons, List.not_mem_nil, or_false] at hk
  unfold dispatchEvent
  rcases hk with h | h | h | h | h | h <;> rw [h]

theorem eventCrash_code {m : Mode} {columnsOf : Nat → Option (List (UInt8 × Nat))} {header : EventHeader} {body : Bytes}
    (h : EventCrash m columnsOf header body) : header.eventType ∈ [15, 19, 23, 24, 25, 30, 31, 32, 35] := by
  simp only [List.mem_cons, List.not_mem_nil, or_false]
  cases h with
  | format h | tableMap h | previous h => omega
  | rows h => simp only [List.mem_cons, List.not_mem_nil, or_false] at h; omega
  | updates h => omega

theorem eventLoop_code {columnsOf : Nat → Option (List (UInt8 × Nat))} {header : EventHeader} {body : Bytes}
    (h : EventLoop columnsOf header body) : header.eventType ∈ [23, 24, 25, 30, 31, 32] := by
  simp only [List.mem_cons, List.not_mem_nil, or_false]
  cases h with
  | rows h => simp only [List.mem_cons, List.not_mem_nil, or_false] at h; omega
  | updates h => omega

theorem crash_dispatch (m : Mode) {tm : TableMapCache} (htm : ProperCache tm) (header : EventHeader) :
    Faults .crash (dispatchEvent m tm header) (EventCrash m (cachedColumns tm) header) := by
  by_cases ht : header.eventType ∈ decodedTypes
  · have other : header.eventType ∉ [15, 19, 23, 24, 25, 30, 31, 32, 35] → ∀ {p : P BinlogEvent}, (∀ buf, Safe buf p fun _ => True) →
        Faults .crash p (EventCrash m (cachedColumns tm) header) := by
      intro hn p hp
      exact (Faults.safe hp).cast fun t => ⟨False.elim, fun h => hn (eventCrash_code h)⟩
    have rows : ∀ (version : Nat) (f : RowsEvent → BinlogEvent), (version = 1 ∧ header.eventType ∈ [23, 25] ∨ version = 2 ∧ header.eventType ∈ [30, 32]) →
        Faults .crash (parseRowsEvent m tm version >>= fun a => pure (f a)) (EventCrash m (cachedColumns tm) header) := by
      intro version f hc
      refine ((crash_rowsEvent m htm (by omega)).map f).cast fun t => ⟨.rows hc, fun h => ?_⟩
      simp only [List.mem_cons, List.not_mem_nil, or_false] at hc
      cases h with
      | @rows version' hc' h =>
        simp only [List.mem_cons, List.not_mem_nil, or_false] at hc'
        obtain rfl : version = version' := by omega
        exact h
      | _ => omega
    have updates : ∀ (version : Nat) (f : UpdateRowsEvent → BinlogEvent), (version = 1 ∧ header.eventType = 24 ∨ version = 2 ∧ header.eventType = 31) →
        Faults .crash (parseUpdateRowsEvent m tm version >>= fun a => pure (f a)) (EventCrash m (cachedColumns tm) header) := by
      intro version f hc
      refine ((crash_updateRowsEvent m htm (by omega)).map f).cast fun t => ⟨.updates hc, fun h => ?_⟩
      cases h with
      | rows hc' h => simp only [List.mem_cons, List.not_mem_nil, or_false] at hc'; omega
      | @updates version' hc' h =>
        obtain rfl : version = version' := by omega
        exact h
      | _ => omega
    simp only [decodedTypes, List.mem_cons, List.not_mem_nil, or_false] at ht
    unfold dispatchEvent
    rcases ht with h | h | h | h | h | h | h | h | h | h | h | h | h | h | h | h | h | h | h | h <;> rw [h]
    · exact other (by rw [h]; decide) fun buf => ((Safe.query buf).map _)
    · exact other (by rw [h]; decide) fun buf => (((Safe.uLE buf 8).bind fun _ _ => (Safe.readToString buf).map _).map _)
    · exact other (by rw [h]; decide) fun buf => (((Safe.u8 buf).bind fun _ _ => (Safe.uLE buf 8).map _).map _)
    · exact other (by rw [h]; decide) fun buf => ((Safe.userVar buf).map _)
    · refine ((crash_format m header).map _).cast fun t => ⟨.format h, fun h' => ?_⟩
      cases h' with
      | format _ h' => exact h'
      | rows hc' => simp only [List.mem_cons, List.not_mem_nil, or_false] at hc'; omega
      | _ => omega
    · exact other (by rw [h]; decide) fun buf => (((Safe.uLE buf 8).map _).map _)
    · refine (crash_tableMap.map _).cast fun t => ⟨.tableMap h, fun h' => ?_⟩
      cases h' with
      | tableMap _ h' => exact h'
      | rows hc' => simp only [List.mem_cons, List.not_mem_nil, or_false] at hc'; omega
      | _ => omega
    · exact rows 1 _ (.inl ⟨rfl, by rw [h]; decide⟩)
    · exact updates 1 _ (.inl ⟨rfl, h⟩)
    · exact rows 1 _ (.inl ⟨rfl, by rw [h]; decide⟩)
    · exact other (by rw [h]; decide) fun buf => (((Safe.readToString buf).map _).map _)
    · exact other (by rw [h]; decide) fun buf => (((Safe.seek buf 1).bind fun _ _ => (Safe.readToString buf).map _).map _)
    · exact rows 2 _ (.inr ⟨rfl, by rw [h]; decide⟩)
    · exact updates 2 _ (.inr ⟨rfl, h⟩)
    · exact rows 2 _ (.inr ⟨rfl, by rw [h]; decide⟩)
    · exact other (by rw [h]; decide) fun buf => (((Safe.u8 buf).bind fun _ _ => (Safe.readExact buf 16).bind fun _ _ =>
          (Safe.uLE buf 8).map _).map _)
    · refine ((crash_previous m).map _).cast fun t => ⟨.previous h, fun h' => ?_⟩
      cases h' with
      | previous _ h' => exact h'
      | rows hc' => simp only [List.mem_cons, List.not_mem_nil, or_false] at hc'; omega
      | _ => omega
    · exact other (by rw [h]; decide) fun buf => (((Safe.readToString buf).map _).map _)
    · exact other (by rw [h]; decide) fun buf => (((Safe.uLE buf 8).bind fun _ _ => (Safe.uLE buf 4).bind fun _ _ =>
          (Safe.u8 buf).map _).map _)
    · exact other (by rw [h]; decide) fun buf => ((Safe.gtidList buf).map _)
  · rw [dispatch_unknown m tm ht]
    refine (Faults.ret .crash _).cast fun t => ⟨False.elim, fun h => ht ?_⟩
    have := eventCrash_code h
    revert this
    simp only [decodedTypes, List.mem_cons, List.not_mem_nil, or_false]
    omega

theorem loop_dispatch (m : Mode) {tm : TableMapCache} (htm : ProperCache tm) (header : EventHeader) :
    Faults .loop (dispatchEvent m tm header) (EventLoop (cachedColumns tm) header) := by
  by_cases ht : header.eventType ∈ decodedTypes
  · have other : header.eventType ∉ [23, 24, 25, 30, 31, 32] → ∀ {α : Type} {p : P α} {f : α → BinlogEvent}, NoHang p →
        Faults .loop (p >>= fun a => pure (f a)) (EventLoop (cachedColumns tm) header) := by
      intro hn α p f hp
      exact ((Faults.noHang hp).map f).cast fun t => ⟨False.elim, fun h => hn (eventLoop_code h)⟩
    have rows : ∀ (version : Nat) (f : RowsEvent → BinlogEvent), (version = 1 ∧ header.eventType ∈ [23, 25] ∨ version = 2 ∧ header.eventType ∈ [30, 32]) →
        Faults .loop (parseRowsEvent m tm version >>= fun a => pure (f a)) (EventLoop (cachedColumns tm) header) := by
      intro version f hc
      refine ((loop_rowsEvent m htm (by omega)).map f).cast fun t => ⟨.rows hc, fun h => ?_⟩
      simp only [List.mem_cons, List.not_mem_nil, or_false] at hc
      cases h with
      | @rows version' hc' h =>
        simp only [List.mem_cons, List.not_mem_nil, or_false] at hc'
        obtain rfl : version = version' := by omega
        exact h
      | _ => omega
    have updates : ∀ (version : Nat) (f : UpdateRowsEvent → BinlogEvent), (version = 1 ∧ header.eventType = 24 ∨ version = 2 ∧ header.eventType = 31) →
        Faults .loop (parseUpdateRowsEvent m tm version >>= fun a => pure (f a)) (EventLoop (cachedColumns tm) header) := by
      intro version f hc
      refine ((loop_updateRowsEvent m htm (by omega)).map f).cast fun t => ⟨.updates hc, fun h => ?_⟩
      cases h with
      | rows hc' h => simp only [List.mem_cons, List.not_mem_nil, or_false] at hc'; omega
      | @updates version' hc' h =>
        obtain rfl : version = version' := by omega
        exact h
    simp only [decodedTypes, List.mem_cons, List.not_mem_nil, or_false] at ht
    unfold dispatchEvent
    rcases ht with h | h | h | h | h | h | h | h | h | h | h | h | h | h | h | h | h | h | h | h <;> rw [h]
    · exact other (by rw [h]; decide) noHang_query
    · exact other (p := parseRotate) (by rw [h]; decide) ((Step.uLE 8).noHang.bind fun _ => (Step.readToString.map _).noHang)
    · exact other (p := parseIntVar) (by rw [h]; decide) (Step.u8.noHang.bind fun _ => ((Step.uLE 8).map _).noHang)
    · exact other (by rw [h]; decide) noHang_userVar
    · exact other (by rw [h]; decide) (noHang_formatDescription m header)
    · exact other (p := parseXid) (by rw [h]; decide) ((Step.uLE 8).map _).noHang
    · exact other (by rw [h]; decide) noHang_tableMap
    · exact rows 1 _ (.inl ⟨rfl, by rw [h]; decide⟩)
    · exact updates 1 _ (.inl ⟨rfl, h⟩)
    · exact rows 1 _ (.inl ⟨rfl, by rw [h]; decide⟩)
    · exact other (p := parseHeartbeat) (by rw [h]; decide) (Step.readToString.map _).noHang
    · exact other (p := parseRowsQueryMysql) (by rw [h]; decide) ((NoHang.seek 1).bind fun _ => (Step.readToString.map _).noHang)
    · exact rows 2 _ (.inr ⟨rfl, by rw [h]; decide⟩)
    · exact updates 2 _ (.inr ⟨rfl, h⟩)
    · exact rows 2 _ (.inr ⟨rfl, by rw [h]; decide⟩)
    · exact other (p := parseMySqlGtid) (by rw [h]; decide) (Step.u8.noHang.bind fun _ => (Step.readExact 16).noHang.bind fun _ =>
        ((Step.uLE 8).map _).noHang)
    · exact other (by rw [h]; decide) (noHang_previousGtids m fun id => by rw [uuidSet_new_nil]; simp)
    · exact other (p := parseRowsQueryMariadb) (by rw [h]; decide) (Step.readToString.map _).noHang
    · exact other (p := parseMariaGtid header) (by rw [h]; decide) ((Step.uLE 8).noHang.bind fun _ => (Step.uLE 4).noHang.bind fun _ =>
        (Step.u8.map _).noHang)
    · exact other (by rw [h]; decide) noHang_gtidList
  · rw [dispatch_unknown m tm ht]
    refine (Faults.ret .loop _).cast fun t => ⟨False.elim, fun h => ht ?_⟩
    have := eventLoop_code h
    revert this
    simp only [decodedTypes, List.mem_cons, List.not_mem_nil, or_false]
    omega

theorem parseEvent_fault {m : Mode} {st : EventParser} {header : EventHeader} {slice : Bytes} (f : Fault) :
    (parseEvent m st header slice).1 = f.as ↔ eventBody st.checksumType slice = f.as ∨
      ∃ body, WithChecksum st.checksumType body slice ∧ (dispatchEvent m st.tableMap header).run body = f.as := by
  simp only [← eventBody_iff]
  unfold parseEvent
  cases h : eventBody st.checksumType slice with
  | ok body =>
    simp only [Res.ok.injEq, exists_eq_left', (f.as_ne_ok _).symm, false_or]
    cases h2 : (dispatchEvent m st.tableMap header).run body <;> cases f <;> simp [Fault.as]
  | err | panic | hang => cases f <;> simp [Fault.as]

/-! ## The property -/

/-- **C86.** Decoding an event crashes exactly if there is no room for its checksum, or its body has one of the forms listed in
`EventCrash`. -/
theorem C86_crash_iff {m : Mode} {st : EventParser} (hst : ProperCache st.tableMap) {header : EventHeader} {slice : Bytes} :
    (parseEvent m st header slice).1 = .panic ↔ SliceCrash m st.checksumType (cachedColumns st.tableMap) header slice := by
  have := parseEvent_fault (m := m) (st := st) (header := header) (slice := slice) .crash
  simp only [(crash_dispatch m hst header).run] at this
  refine this.trans (or_congr ?_ Iff.rfl)
  unfold eventBody Fault.as
  cases st.checksumType with
  | none => simp
  | crc32 => simp

/-- **C86.** Decoding an event never ends exactly if it is a row event with data of which no column is present. -/
theorem C86_loop_iff {m : Mode} {st : EventParser} (hst : ProperCache st.tableMap) {header : EventHeader} {slice : Bytes} :
    (parseEvent m st header slice).1 = .hang ↔ SliceLoop st.checksumType (cachedColumns st.tableMap) header slice := by
  have := parseEvent_fault (m := m) (st := st) (header := header) (slice := slice) .loop
  simp only [(loop_dispatch m hst header).run] at this
  refine this.trans ?_
  unfold SliceLoop
  have : eventBody st.checksumType slice ≠ Fault.as .loop := by
    unfold eventBody Fault.as
    cases st.checksumType with
    | none => simp
    | crc32 => simp; split <;> simp
  simp [this]

theorem eventBody_cases (ck : ChecksumType) (slice : Bytes) : (ck = .crc32 ∧ slice.length < 4) ∨ ∃ body, WithChecksum ck body slice := by
  cases ck with
  | none => exact .inr ⟨slice, [], rfl, by simp⟩
  | crc32 =>
    by_cases h : slice.length < 4
    · exact .inl ⟨rfl, h⟩
    · exact .inr ⟨slice.take (slice.length - 4), slice.drop (slice.length - 4), by simp; omega, by simp⟩

theorem withChecksum_unique {ck : ChecksumType} {body body' slice : Bytes} (h : WithChecksum ck body slice) (h' : WithChecksum ck body' slice) :
    body = body' := by
  rw [← eventBody_iff] at h h'
  exact Res.ok.inj (h.symm.trans h')

/-- An event is decoded exactly if its body is one of the accepted ones. -/
theorem decoded_iff {m : Mode} {st : EventParser} (hst : ProperCache st.tableMap) {header : EventHeader} {slice : Bytes} :
    (∃ ev, (parseEvent m st header slice).1 = .ok ev) ↔
      ∃ body ev, WithChecksum st.checksumType body slice ∧ AcceptedEvent m (cachedColumns st.tableMap) header ev body := by
  constructor
  · rintro ⟨ev, h⟩
    by_cases hr : header.eventType ∈ rowCodes
    · obtain ⟨body, hs, ha⟩ := (C82_iff hst hr).1 h; exact ⟨body, ev, hs, .inr ha⟩
    · obtain ⟨body, hs, ha⟩ := C81_sound hr h; exact ⟨body, ev, hs, .inl ha⟩
  · rintro ⟨body, ev, hs, h | h⟩
    · obtain ⟨ev', h', _⟩ := C81_complete hs h; exact ⟨ev', h'⟩
    · exact ⟨ev, (C82_iff hst (rowCodes_rows h)).2 ⟨body, hs, h⟩⟩

/-- **C86.** An event is refused with an error exactly if it is none of the others. -/
theorem C86_error_iff {m : Mode} {st : EventParser} (hst : ProperCache st.tableMap) {header : EventHeader} {slice : Bytes} :
    (∃ e, (parseEvent m st header slice).1 = .err e) ↔ SliceError m st.checksumType (cachedColumns st.tableMap) header slice := by
  have hok := decoded_iff (m := m) hst (header := header) (slice := slice)
  have hcr := C86_crash_iff (m := m) hst (header := header) (slice := slice)
  have hlo := C86_loop_iff (m := m) hst (header := header) (slice := slice)
  unfold SliceError
  constructor
  · rintro ⟨e, he⟩
    rw [he] at hok hcr hlo
    simp only [reduceCtorEq, exists_false, false_iff] at hok hcr hlo
    rcases eventBody_cases st.checksumType slice with hs | ⟨body, hs⟩
    · exact absurd (.inl hs) hcr
    · exact ⟨body, hs, fun ev h => hok ⟨body, ev, hs, h⟩, fun h => hcr (.inr ⟨body, hs, h⟩), fun h => hlo ⟨body, hs, h⟩⟩
  · rintro ⟨body, hs, h1, h2, h3⟩
    cases hp : (parseEvent m st header slice).1 with
    | err e => exact ⟨e, rfl⟩
    | ok ev =>
      obtain ⟨body', ev', hs', h⟩ := hok.1 ⟨ev, hp⟩
      exact absurd (withChecksum_unique hs hs' ▸ h) (h1 ev')
    | panic =>
      rcases hcr.1 hp with ⟨hc, hl⟩ | ⟨body', hs', h⟩
      · obtain ⟨sum, hsum, rfl⟩ := hs
        rw [hc] at hsum
        simp only [List.length_append] at hl hsum
        omega
      · exact absurd (withChecksum_unique hs hs' ▸ h) h2
    | hang =>
      obtain ⟨body', hs', h⟩ := hlo.1 hp
      exact absurd (withChecksum_unique hs hs' ▸ h) h3

/-! ## Streams -/

theorem sameEvent_algorithm {ev ev' : BinlogEvent} (h : SameEvent ev ev') :
    (∀ ck, algorithmAfter ck ev = algorithmAfter ck ev') ∧ ∀ c, columnsAfter c ev = columnsAfter c ev' := by
  cases h <;> exact ⟨fun _ => rfl, fun _ => rfl⟩

theorem decodeAll_fault {m : Mode} {Q' : Res (List BinlogEvent) → Prop} {Q1 : Res BinlogEvent → Prop}
    {Z : ChecksumType → (Nat → Option (List (UInt8 × Nat))) → EventHeader → Bytes → Prop}
    (hZ : ∀ st : EventParser, ProperCache st.tableMap → ∀ header slice,
      (Q1 (parseEvent m st header slice).1 ↔ Z st.checksumType (cachedColumns st.tableMap) header slice))
    (hq : ∀ (r : Res BinlogEvent) (k : BinlogEvent → Res (List BinlogEvent)), Q' (r >>= k) ↔ Q1 r ∨ ∃ ev, r = .ok ev ∧ Q' (k ev))
    (hm : ∀ (ev : BinlogEvent) (r : Res (List BinlogEvent)), Q' (r >>= fun evs => Pure.pure (ev :: evs)) ↔ Q' r)
    (hn : ¬Q' (.ok [])) (items : List (EventHeader × Bytes)) (st : EventParser) (hst : ProperCache st.tableMap) :
    Q' (decodeAll m st items) ↔ ∃ before events header slice after, items = before ++ (header, slice) :: after ∧
      AcceptedStream m st.checksumType (cachedColumns st.tableMap) before events ∧
      Z (events.foldl algorithmAfter st.checksumType) (events.foldl columnsAfter (cachedColumns st.tableMap)) header slice := by
  induction items generalizing st with
  | nil =>
    simp only [decodeAll, hn, false_iff]
    rintro ⟨before, events, header, slice, after, h, _⟩
    simp at h
  | cons item items ih =>
    obtain ⟨header, slice⟩ := item
    simp only [decodeAll, hq, hm]
    have ih := ih (parseEvent m st header slice).2 (C82_properCache hst header slice)
    constructor
    · rintro (h | ⟨ev, h1, h2⟩)
      · exact ⟨[], [], header, slice, items, rfl, .nil, (hZ st hst header slice).1 h⟩
      · obtain ⟨before, events, header', slice', after, rfl, h3, h4⟩ := ih.1 h2
        rw [parseEvent_after h1, record_checksum, record_columns] at h3 h4
        refine ⟨(header, slice) :: before, ev :: events, header', slice', after, rfl, ?_, h4⟩
        by_cases hr : header.eventType ∈ rowCodes
        · obtain ⟨body, hs, ha⟩ := (C82_iff hst hr).1 h1
          exact .cons hs (.inr ha) h3
        · obtain ⟨body, hs, ha⟩ := C81_sound hr h1
          exact .cons hs (.inl ha) h3
    · rintro ⟨before, events, header', slice', after, he, h3, h4⟩
      cases h3 with
      | nil =>
        obtain ⟨he, rfl⟩ := List.cons.inj he
        cases he
        exact .inl ((hZ st hst header slice).2 h4)
      | @cons _ _ header'' slice'' body ev items' events hs ha hrest =>
        obtain ⟨he, rfl⟩ := List.cons.inj he
        cases he
        have hev : ∃ ev', (parseEvent m st header slice).1 = .ok ev' ∧ SameEvent ev ev' := by
          rcases ha with h | h
          · exact C81_complete hs h
          · exact ⟨ev, (C82_iff hst (rowCodes_rows h)).2 ⟨body, hs, h⟩, .refl _⟩
        obtain ⟨ev', h1, hsame⟩ := hev
        obtain ⟨hs1, hs2⟩ := sameEvent_algorithm hsame
        refine .inr ⟨ev', h1, ih.2 ⟨items', events, header', slice', after, rfl, ?_⟩⟩
        rw [parseEvent_after h1, record_checksum, record_columns]
        simp only [List.foldl_cons] at h4
        rw [hs1, hs2] at hrest h4
        exact ⟨hrest, h4⟩

/-- **C86.** From a new decoder, a sequence of events crashes it exactly if accepted events are followed by one that crashes it after
these. -/
theorem C86_stream_crash {m : Mode} {items : List (EventHeader × Bytes)} :
    decodeAll m EventParser.new items = .panic ↔ AfterEvents m (SliceCrash m) items := by
  have := decodeAll_fault (m := m) (Q' := fun r => r = .panic) (Q1 := fun r => r = .panic) (Z := SliceCrash m)
    (fun st hst header slice => C86_crash_iff hst) (fun r k => by cases r <;> simp)
    (fun ev r => by cases r <;> simp) (by simp) items EventParser.new properCache_new
  exact this

theorem C86_stream_loop {m : Mode} {items : List (EventHeader × Bytes)} :
    decodeAll m EventParser.new items = .hang ↔ AfterEvents m SliceLoop items := by
  have := decodeAll_fault (m := m) (Q' := fun r => r = .hang) (Q1 := fun r => r = .hang) (Z := SliceLoop)
    (fun st hst header slice => C86_loop_iff hst) (fun r k => by cases r <;> simp)
    (fun ev r => by cases r <;> simp) (by simp) items EventParser.new properCache_new
  exact this

theorem C86_stream_error {m : Mode} {items : List (EventHeader × Bytes)} :
    (∃ e, decodeAll m EventParser.new items = .err e) ↔ AfterEvents m (SliceError m) items := by
  have := decodeAll_fault (m := m) (Q' := fun r => ∃ e, r = .err e) (Q1 := fun r => ∃ e, r = .err e) (Z := SliceError m)
    (fun st hst header slice => C86_error_iff hst) (fun r k => by cases r <;> simp)
    (fun ev r => by cases r <;> simp) (by simp) items EventParser.new properCache_new
  exact this

/-! ## Examples -/

/-- A table with 2^63 columns. -/
example (m : Mode) (columnsOf : Nat → Option (List (UInt8 × Nat))) : SliceCrash m .none columnsOf (exHeaderOf 19)
    [7, 0, 0, 0, 0, 0, 1, 0, 1, 100, 0, 1, 116, 0, 254, 0, 0, 0, 0, 0, 0, 0, 128] := by
  refine .inr ⟨_, ⟨[], rfl, (List.append_nil _).symm⟩, .tableMap rfl (cast ?_ (TableMapCrash.columns (tableId := 7) (n := 2 ^ 63) (flags := [1, 0])
    (count := 254 :: le 8 (2 ^ 63)) (rest := []) (db := ['d']) (table := ['t']) (z1 := 0) (z2 := 0) (by decide) rfl (by decide +kernel) (by decide +kernel)
    (.eight (by decide)) (by decide)))⟩
  have h1 : utf8Bytes ['d'] = [100] := by decide +kernel
  have h2 : utf8Bytes ['t'] = [116] := by decide +kernel
  have h3 : le 6 7 = [7, 0, 0, 0, 0, 0] := by decide +kernel
  have h4 : le 8 (2 ^ 63) = [0, 0, 0, 0, 0, 0, 0, 128] := by decide +kernel
  rw [h1, h2, h3, h4]
  congr 1

/-- A row event of a table with one column, with data of which no column is present. -/
example : SliceLoop .none (fun id => if id = 7 then some [(3, 0)] else none) (exHeaderOf 30) [7, 0, 0, 0, 0, 0, 1, 0, 2, 0, 1, 0, 42] :=
  ⟨_, ⟨[], rfl, (List.append_nil _).symm⟩, .rows (.inr ⟨rfl, by decide⟩) (RowsLoop.mk (tableId := 7) (flags := 1) (n := 1) (columns := [(3, 0)])
    (present := [false]) (bitmap := [0]) (data := [42]) (.taken (head := [7, 0, 0, 0, 0, 0, 1, 0, 2, 0, 1])
      (.plain (cast (by congr 1) (RowsHead.v2 (tableId := 7) (flags := 1) (columns := 1) (extra := []) (by decide) (by decide) (by decide) (.one (by decide))))))
    (by decide) rfl ⟨rfl, fun i b h => ⟨0, by match i, h with | 0, h => exact ⟨rfl, Option.some.inj h⟩⟩⟩ rfl (by decide) (by decide) (by decide))⟩

/-- A row event with less columns than its table, one with the columns of which none is present, and one of which a cell is cut off. -/
def exFaultItems (rows : Bytes) : List (EventHeader × Bytes) :=
  [(exHeaderOf 19, [7, 0, 0, 0, 0, 0, 1, 0, 1, 100, 0, 1, 116, 0, 1, 3, 0, 1]), (exHeaderOf 30, [7, 0, 0, 0, 0, 0, 1, 0] ++ rows), (exHeaderOf 27, [97])]

example (m : Mode) : AfterEvents m (SliceCrash m) (exFaultItems [2, 0, 0, 42]) :=
  C86_stream_crash.1 (by revert m; rintro ⟨_ | _⟩ <;> decide +kernel)

example (m : Mode) : AfterEvents m (SliceError m) (exFaultItems [2, 0, 1, 1, 0, 42]) :=
  C86_stream_error.1 ⟨.io .unexpectedEof, by revert m; rintro ⟨_ | _⟩ <;> decide +kernel⟩

/-- The length of a checksum is not there. -/
example (m : Mode) (columnsOf : Nat → Option (List (UInt8 × Nat))) : SliceCrash m .crc32 columnsOf (exHeaderOf 27) [1, 2, 3] :=
  .inl ⟨rfl, by decide⟩

end MysqlCdc
