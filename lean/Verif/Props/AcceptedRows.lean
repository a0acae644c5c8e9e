import Verif.Lemmas.ExactRowEvents
import Verif.Lemmas.HMap
import Verif.Props.Accepted

/-!
Which row events the decoder takes, and for what, exactly (C82); and with C81, which streams of events.
-/

namespace MysqlCdc

open Spec

theorem acceptedRows_of_run {m : Mode} {tm : TableMapCache} (htm : ProperCache tm) {header : EventHeader} {ev : BinlogEvent}
    {body : Bytes} (hr : header.eventType ∈ rowCodes) :
    (dispatchEvent m tm header).run body = .ok ev ↔ AcceptedRows m (cachedColumns tm) header.eventType ev body := by
  simp only [rowCodes, List.mem_cons, List.not_mem_nil, or_false] at hr
  have hw := fun (version : Nat) (hv : version = 1 ∨ version = 2) =>
    ((exact_rowsEvent m htm hv).map BinlogEvent.writeRows).run ev body
  have hu := fun (version : Nat) (hv : version = 1 ∨ version = 2) =>
    ((exact_updateRowsEvent m htm hv).map BinlogEvent.updateRows).run ev body
  have hd := fun (version : Nat) (hv : version = 1 ∨ version = 2) =>
    ((exact_rowsEvent m htm hv).map BinlogEvent.deleteRows).run ev body
  rcases hr with hc | hc | hc | hc | hc | hc <;> simp only [dispatchEvent, hc, EventType.fromCode]
  · rw [hw 1 (.inl rfl)]
    constructor
    · rintro ⟨r, ⟨columns, h1, h2⟩, rfl⟩; exact .write (.inl ⟨rfl, rfl⟩) h1 h2
    · rintro (⟨hc', h1, h2⟩ | ⟨hc', h1, h2⟩ | ⟨hc', h1, h2⟩)
      · rcases hc' with ⟨rfl, hn⟩ | ⟨rfl, hn⟩
        all_goals first | exact ⟨_, ⟨_, h1, h2⟩, rfl⟩ | omega
      · omega
      · omega
  · rw [hu 1 (.inl rfl)]
    constructor
    · rintro ⟨r, ⟨columns, h1, h2⟩, rfl⟩; exact .update (.inl ⟨rfl, rfl⟩) h1 h2
    · rintro (⟨hc', h1, h2⟩ | ⟨hc', h1, h2⟩ | ⟨hc', h1, h2⟩)
      · omega
      · rcases hc' with ⟨rfl, hn⟩ | ⟨rfl, hn⟩
        all_goals first | exact ⟨_, ⟨_, h1, h2⟩, rfl⟩ | omega
      · omega
  · rw [hd 1 (.inl rfl)]
    constructor
    · rintro ⟨r, ⟨columns, h1, h2⟩, rfl⟩; exact .delete (.inl ⟨rfl, rfl⟩) h1 h2
    · rintro (⟨hc', h1, h2⟩ | ⟨hc', h1, h2⟩ | ⟨hc', h1, h2⟩)
      · omega
      · omega
      · rcases hc' with ⟨rfl, hn⟩ | ⟨rfl, hn⟩
        all_goals first | exact ⟨_, ⟨_, h1, h2⟩, rfl⟩ | omega
  · rw [hw 2 (.inr rfl)]
    constructor
    · rintro ⟨r, ⟨columns, h1, h2⟩, rfl⟩; exact .write (.inr ⟨rfl, rfl⟩) h1 h2
    · rintro (⟨hc', h1, h2⟩ | ⟨hc', h1, h2⟩ | ⟨hc', h1, h2⟩)
      · rcases hc' with ⟨rfl, hn⟩ | ⟨rfl, hn⟩
        all_goals first | exact ⟨_, ⟨_, h1, h2⟩, rfl⟩ | omega
      · omega
      · omega
  · rw [hu 2 (.inr rfl)]
    constructor
    · rintro ⟨r, ⟨columns, h1, h2⟩, rfl⟩; exact .update (.inr ⟨rfl, rfl⟩) h1 h2
    · rintro (⟨hc', h1, h2⟩ | ⟨hc', h1, h2⟩ | ⟨hc', h1, h2⟩)
      · omega
      · rcases hc' with ⟨rfl, hn⟩ | ⟨rfl, hn⟩
        all_goals first | exact ⟨_, ⟨_, h1, h2⟩, rfl⟩ | omega
      · omega
  · rw [hd 2 (.inr rfl)]
    constructor
    · rintro ⟨r, ⟨columns, h1, h2⟩, rfl⟩; exact .delete (.inr ⟨rfl, rfl⟩) h1 h2
    · rintro (⟨hc', h1, h2⟩ | ⟨hc', h1, h2⟩ | ⟨hc', h1, h2⟩)
      · omega
      · omega
      · rcases hc' with ⟨rfl, hn⟩ | ⟨rfl, hn⟩
        all_goals first | exact ⟨_, ⟨_, h1, h2⟩, rfl⟩ | omega

/-- **C82.** A row event is decoded exactly if its body has one of the accepted forms for the declared columns of its table, and
then with the value that form stands for. -/
theorem C82_iff {m : Mode} {st : EventParser} (hst : ProperCache st.tableMap) {header : EventHeader} {slice : Bytes}
    {ev : BinlogEvent} (hr : header.eventType ∈ rowCodes) :
    (parseEvent m st header slice).1 = .ok ev ↔
      ∃ body, WithChecksum st.checksumType body slice ∧ AcceptedRows m (cachedColumns st.tableMap) header.eventType ev body := by
  rw [parseEvent_ok_iff]
  constructor
  · rintro ⟨body, h1, h2⟩; exact ⟨body, h1, (acceptedRows_of_run hst hr).1 h2⟩
  · rintro ⟨body, h1, h2⟩; exact ⟨body, h1, (acceptedRows_of_run hst hr).2 h2⟩

/-! ## Streams -/

/-- The decoder on a sequence of events, up to the first that fails. -/
def decodeAll (m : Mode) : EventParser → List (EventHeader × Bytes) → Res (List BinlogEvent)
  | _, [] => .ok []
  | st, (header, slice) :: items => do
    let event ← (parseEvent m st header slice).1
    let events ← decodeAll m (parseEvent m st header slice).2 items
    return event :: events

theorem properTable_of_loose {t : TableMapEvent} {body : Bytes} (h : LooseTableMap t body) : ProperTable t := by
  obtain ⟨h1, h2, h3, h4, h5, h5', h6, h8, h9, h10, h11⟩ := h
  refine ⟨by simp, ?_⟩
  simp only [List.mem_map]
  rintro _ ⟨c, hc, rfl⟩
  clear h5 h5' h9 h11
  induction h6 with
  | nil => simp at hc
  | cons r _ ih =>
    rcases List.mem_cons.1 hc with rfl | hc
    · cases r <;> simp <;> omega
    · exact ih hc

theorem properCache_new : ProperCache EventParser.new.tableMap := by
  intro id table h
  simp [EventParser.new, HMap.get?] at h

theorem parseEvent_after {m : Mode} {st : EventParser} {header : EventHeader} {slice : Bytes} {ev : BinlogEvent}
    (h : (parseEvent m st header slice).1 = .ok ev) : (parseEvent m st header slice).2 = st.record ev := by
  unfold parseEvent at h ⊢
  split
  · next body hb =>
    rw [hb] at h
    split
    · next event he =>
      simp only [he, Res.ok.injEq] at h
      rw [h]
    all_goals next he => simp [he] at h
  all_goals next hb => rw [hb] at h; simp at h

/-- After any event, decoded or not, the cache is still proper. -/
theorem C82_properCache {m : Mode} {st : EventParser} (hst : ProperCache st.tableMap) (header : EventHeader) (slice : Bytes) :
    ProperCache (parseEvent m st header slice).2.tableMap := by
  cases h : (parseEvent m st header slice).1 with
  | ok ev =>
    rw [parseEvent_after h]
    cases ev with
    | tableMap t =>
      intro id table ht
      simp only [EventParser.record, HMap.get?_insert] at ht
      split at ht
      · obtain rfl := Option.some.inj ht
        have hr : header.eventType ∉ rowCodes := by
          intro hr
          obtain ⟨body, _, ha⟩ := (C82_iff hst hr).1 h
          cases ha
        obtain ⟨body, _, ha⟩ := C81_sound hr h
        generalize hev : BinlogEvent.tableMap t = ev at ha
        cases ha with
        | tableMap hc hl => cases hev; exact properTable_of_loose hl
        | plain hp => subst hev; generalize header.eventType = c at hp; cases hp
        | maria hp => subst hev; generalize header.eventType = c at hp; cases hp
        | _ => cases hev
      · exact hst id table ht
    | _ => exact hst
  | err e =>
    have : (parseEvent m st header slice).2 = st := by
      unfold parseEvent at h ⊢
      split
      · next hb => rw [hb] at h; split
                   · next he => simp [he] at h
                   all_goals rfl
      all_goals rfl
    rw [this]; exact hst
  | panic =>
    have : (parseEvent m st header slice).2 = st := by
      unfold parseEvent at h ⊢
      split
      · next hb => rw [hb] at h; split
                   · next he => simp [he] at h
                   all_goals rfl
      all_goals rfl
    rw [this]; exact hst
  | hang =>
    have : (parseEvent m st header slice).2 = st := by
      unfold parseEvent at h ⊢
      split
      · next hb => rw [hb] at h; split
                   · next he => simp [he] at h
                   all_goals rfl
      all_goals rfl
    rw [this]; exact hst

theorem record_checksum (st : EventParser) (ev : BinlogEvent) : (st.record ev).checksumType = algorithmAfter st.checksumType ev := by
  cases ev <;> rfl

theorem record_columns (st : EventParser) (ev : BinlogEvent) :
    cachedColumns (st.record ev).tableMap = columnsAfter (cachedColumns st.tableMap) ev := by
  cases ev with
  | tableMap t =>
    funext id
    simp only [cachedColumns, EventParser.record, columnsAfter, HMap.get?_insert]
    by_cases h : t.tableId = id
    · simp [h]
    · rw [if_neg h, if_neg (fun h' => h h'.symm)]
  | _ => rfl

theorem rowCodes_rows {m : Mode} {columnsOf : Nat → Option (List (UInt8 × Nat))} {code : Nat} {ev : BinlogEvent} {body : Bytes}
    (h : AcceptedRows m columnsOf code ev body) : code ∈ rowCodes := by
  simp only [rowCodes, List.mem_cons, List.not_mem_nil, or_false]
  cases h <;> omega

theorem accepted_notRows {m : Mode} {header : EventHeader} {ev : BinlogEvent} {body : Bytes} (h : Accepted m header ev body) :
    header.eventType ∉ rowCodes := by
  simp only [rowCodes, List.mem_cons, List.not_mem_nil, or_false]
  cases h with
  | plain hp => generalize header.eventType = c at hp; cases hp <;> omega
  | maria hp => generalize header.eventType = c at hp; cases hp <;> omega
  | unknown hd hr => simpa [rowCodes] using hr
  | _ => omega

theorem decodeAll_sound {m : Mode} {st : EventParser} (hst : ProperCache st.tableMap) {items : List (EventHeader × Bytes)}
    {events : List BinlogEvent} (h : decodeAll m st items = .ok events) :
    AcceptedStream m st.checksumType (cachedColumns st.tableMap) items events := by
  induction items generalizing st events with
  | nil =>
    simp only [decodeAll, Res.ok.injEq] at h
    subst h
    exact .nil
  | cons item items ih =>
    obtain ⟨header, slice⟩ := item
    simp only [decodeAll] at h
    cases h1 : (parseEvent m st header slice).1 with
    | ok ev =>
      rw [h1] at h
      cases h2 : decodeAll m (parseEvent m st header slice).2 items with
      | ok evs =>
        rw [h2] at h
        obtain rfl : events = ev :: evs := (Res.ok.inj h).symm
        have hrest := ih (C82_properCache hst header slice) h2
        rw [parseEvent_after h1, record_checksum, record_columns] at hrest
        by_cases hr : header.eventType ∈ rowCodes
        · obtain ⟨body, hs, ha⟩ := (C82_iff hst hr).1 h1
          exact .cons hs (.inr ha) hrest
        · obtain ⟨body, hs, ha⟩ := C81_sound hr h1
          exact .cons hs (.inl ha) hrest
      | err | panic | hang => rw [h2] at h; cases h
    | err | panic | hang => rw [h1] at h; cases h

theorem decodeAll_complete {m : Mode} {ck : ChecksumType} {columnsOf : Nat → Option (List (UInt8 × Nat))}
    {items : List (EventHeader × Bytes)} {events : List BinlogEvent} (h : AcceptedStream m ck columnsOf items events)
    {st : EventParser} (hst : ProperCache st.tableMap) (hck : st.checksumType = ck) (hco : cachedColumns st.tableMap = columnsOf) :
    ∃ events', decodeAll m st items = .ok events' ∧ List.Forall₂ SameEvent events events' := by
  induction h generalizing st with
  | nil => exact ⟨[], rfl, .nil⟩
  | @cons ck columnsOf header slice body event items events hs h hr ih =>
    subst hck hco
    have hev : ∃ event', (parseEvent m st header slice).1 = .ok event' ∧ SameEvent event event' := by
      rcases h with h | h
      · exact C81_complete hs h
      · exact ⟨event, (C82_iff hst (rowCodes_rows h)).2 ⟨body, hs, h⟩, .refl _⟩
    obtain ⟨event', h1, hsame⟩ := hev
    have hafter := parseEvent_after h1
    obtain ⟨events', h2, hall⟩ := ih (st := (parseEvent m st header slice).2) (C82_properCache hst header slice)
      (by rw [hafter, record_checksum]; cases hsame <;> rfl) (by rw [hafter, record_columns]; cases hsame <;> rfl)
    refine ⟨event' :: events', ?_, .cons hsame hall⟩
    simp only [decodeAll, h1, h2]
    rfl

/-- **C82.** Whole streams, from a new decoder: what is decoded is an accepted stream. -/
theorem C82_stream_sound {m : Mode} {items : List (EventHeader × Bytes)} {events : List BinlogEvent}
    (h : decodeAll m EventParser.new items = .ok events) : AcceptedStream m .none (fun _ => none) items events :=
  decodeAll_sound properCache_new h

/-- **C82.** Every accepted stream is decoded. -/
theorem C82_stream_complete {m : Mode} {items : List (EventHeader × Bytes)} {events : List BinlogEvent}
    (h : AcceptedStream m .none (fun _ => none) items events) :
    ∃ events', decodeAll m EventParser.new items = .ok events' ∧ List.Forall₂ SameEvent events events' :=
  decodeAll_complete h properCache_new rfl rfl

/-! ## Examples -/

/-- Version 2 with a length of 1 for the extra data: taken for an event without columns and rows. -/
example (m : Mode) (columns : List (UInt8 × Nat)) :
    AcceptedRows m (fun id => if id = 7 then some columns else none) 30 (.writeRows ⟨7, 3, 0, [], []⟩) [7, 0, 0, 0, 0, 0, 3, 0, 1, 0] :=
  .write (.inr ⟨rfl, rfl⟩) rfl (.mk (head := le 6 7 ++ le 2 3 ++ [1, 0]) (bitmap := []) (data := []) (.odd (by decide) (by decide))
    (by decide) rfl ⟨rfl, by simp⟩ .nil)

/-- A DECIMAL(9,0) whose group is 10^9, which no server writes: ten digits. -/
example (m : Mode) : TakenCell m 246 9 (.decimal "1000000000".toList) [0xBB, 0x9A, 0xCA, 0x00] := by
  refine .plain (by decide) ⟨_, cast ?_ (LooseDecimal.mk (m := m) (p := 9) (s := 0) (digits := 9) (lead := 0) (tail := 0)
    (groups := [1000000000]) (fgroups := []) (negative := false) (by decide) (by decide) (.inl ⟨by decide, rfl⟩) (by decide) rfl
    (by decide) rfl (by decide) (by decide) rfl ⟨0x3B, [0x9A, 0xCA, 0x00], by decide +kernel, by decide⟩), rfl⟩
  congr 1

/-- A stream: a table of one INT column, then a row event for it whose bitmap has a second column, then one for another table, which
is refused. -/
example (m : Mode) : decodeAll m EventParser.new
    [(exHeaderOf 19, [7, 0, 0, 0, 0, 0, 1, 0, 1, 100, 0, 1, 116, 0, 1, 3, 0, 1]),
     (exHeaderOf 30, [7, 0, 0, 0, 0, 0, 1, 0, 2, 0, 2, 3, 2, 42, 0, 0, 0])]
      = .ok [.tableMap ⟨7, ['d'], ['t'], [3], [0], [true], none⟩,
        .writeRows ⟨7, 1, 2, [true, true], [⟨[some (.int 42)]⟩]⟩] := by
  revert m; rintro ⟨_ | _⟩ <;> decide +kernel

example (m : Mode) (events : List BinlogEvent) : ¬AcceptedStream m .none (fun _ => none)
    [(exHeaderOf 19, [7, 0, 0, 0, 0, 0, 1, 0, 1, 100, 0, 1, 116, 0, 1, 3, 0, 1]),
     (exHeaderOf 30, [8, 0, 0, 0, 0, 0, 1, 0, 2, 0, 1, 1, 0, 42, 0, 0, 0])] events := by
  intro h
  obtain ⟨events', h1, _⟩ := C82_stream_complete h
  have : ∀ evs, decodeAll m EventParser.new
      [(exHeaderOf 19, [7, 0, 0, 0, 0, 0, 1, 0, 1, 100, 0, 1, 116, 0, 1, 3, 0, 1]),
       (exHeaderOf 30, [8, 0, 0, 0, 0, 0, 1, 0, 2, 0, 1, 1, 0, 42, 0, 0, 0])] ≠ .ok evs := by
    intro evs h
    have hn : (match decodeAll m EventParser.new
      [(exHeaderOf 19, [7, 0, 0, 0, 0, 0, 1, 0, 1, 100, 0, 1, 116, 0, 1, 3, 0, 1]),
       (exHeaderOf 30, [8, 0, 0, 0, 0, 0, 1, 0, 2, 0, 1, 1, 0, 42, 0, 0, 0])] with | .ok _ => true | _ => false) = false := by
      clear h h1
      revert m; rintro ⟨_ | _⟩ <;> intros <;> decide +kernel
    rw [h] at hn
    cases hn
  exact this _ h1

end MysqlCdc
