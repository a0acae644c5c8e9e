import Verif.Lemmas.ExactEvents

/-!
Which bodies the decoder takes, and for what, exactly: the statements of `Props/Events` say that what a server writes is decoded;
these say in addition that nothing else is, and what becomes of bodies no server writes (C81).
-/

namespace MysqlCdc

open Spec

theorem eventBody_iff {ck : ChecksumType} {body slice : Bytes} : eventBody ck slice = .ok body ↔ WithChecksum ck body slice := by
  refine ⟨fun h => ?_, eventBody_of_checksum⟩
  cases ck with
  | none => simp only [eventBody, Res.ok.injEq] at h; exact ⟨[], rfl, by simpa using h⟩
  | crc32 =>
    simp only [eventBody] at h
    split at h
    · next hl =>
      simp only [Res.ok.injEq] at h
      subst h
      refine ⟨slice.drop (slice.length - 4), ?_, (List.take_append_drop _ _).symm⟩
      simp only [List.length_drop]; omega
    · cases h

theorem parseEvent_ok_iff {m : Mode} {st : EventParser} {header : EventHeader} {slice : Bytes} {ev : BinlogEvent} :
    (parseEvent m st header slice).1 = .ok ev ↔
      ∃ body, WithChecksum st.checksumType body slice ∧ (dispatchEvent m st.tableMap header).run body = .ok ev := by
  simp only [← eventBody_iff]
  unfold parseEvent
  cases h : eventBody st.checksumType slice with
  | ok body =>
    simp only [Res.ok.injEq]
    cases h2 : (dispatchEvent m st.tableMap header).run body <;> simp [h2]
  | err | panic | hang => simp

theorem nodup_of_keys {α β : Type} {l : List (α × β)} (h : (l.map (·.1)).Nodup) : l.Nodup :=
  List.Pairwise.of_map (·.1) (fun _ _ hn he => hn (congrArg _ he)) h

theorem gathers_perm {sets : List (Bytes × List Interval)} {g g' : GtidSet} (h : Gathers sets g) (h' : Gathers sets g') :
    g.uuidSets.Perm g'.uuidSets := by
  refine (List.perm_ext_iff_of_nodup (nodup_of_keys h.1) (nodup_of_keys h'.1)).2 fun ⟨k, s⟩ => ?_
  rw [h.2, h'.2]

theorem exact_formatRun (m : Mode) (header : EventHeader) (ev : BinlogEvent) (body : Bytes) :
    (parseFormatDescription m header >>= fun a => Pure.pure (BinlogEvent.formatDescription a)).run body = .ok ev ↔
      ∃ e, LooseFormat m header.eventLength e body ∧ ev = .formatDescription e := by
  simp only [← exact_format, P.run]
  constructor
  · intro h
    cases hp : parseFormatDescription m header body 0 with
    | ok r =>
      obtain ⟨e, q⟩ := r
      rw [P.seq_apply, hp] at h
      simp only [Res.bind, P.ret_apply, Res.ok.injEq] at h
      exact ⟨e, ⟨q, rfl⟩, h.symm⟩
    | err | panic | hang => rw [P.seq_apply, hp] at h; cases h
  · rintro ⟨e, ⟨q, hq⟩, rfl⟩
    rw [P.seq_apply, hq]
    rfl

theorem accepted_of_run {m : Mode} {tm : TableMapCache} {header : EventHeader} {ev : BinlogEvent} {body : Bytes}
    (hr : header.eventType ∉ rowCodes) (h : (dispatchEvent m tm header).run body = .ok ev) : Accepted m header ev body := by
  by_cases hd : header.eventType ∈ decodedCodes
  · simp only [decodedCodes, List.mem_cons, List.not_mem_nil, or_false] at hd
    rcases hd with hc | hc | hc | hc | hc | hc | hc | hc | hc | hc | hc | hc | hc | hc <;>
      simp only [dispatchEvent, hc, EventType.fromCode] at h
    · obtain ⟨a, ha, rfl⟩ := ((exact_query.map BinlogEvent.query).run _ _).1 h; exact .query hc ha
    · obtain ⟨a, ha, rfl⟩ := ((exact_rotate.map BinlogEvent.rotate).run _ _).1 h; exact .plain (hc ▸ ha)
    · obtain ⟨a, ha, rfl⟩ := ((exact_intVar.map BinlogEvent.intVar).run _ _).1 h; exact .plain (hc ▸ ha)
    · obtain ⟨a, ha, rfl⟩ := ((exact_userVar.map BinlogEvent.userVar).run _ _).1 h; exact .plain (hc ▸ ha)
    · obtain ⟨a, ha, rfl⟩ := (exact_formatRun m header _ _).1 h; exact .format hc ha
    · obtain ⟨a, ha, rfl⟩ := ((exact_xid.map BinlogEvent.xid).run _ _).1 h; exact .plain (hc ▸ ha)
    · obtain ⟨a, ha, rfl⟩ := ((exact_tableMap.map BinlogEvent.tableMap).run _ _).1 h; exact .tableMap hc ha
    · obtain ⟨a, ha, rfl⟩ := ((exact_heartbeat.map BinlogEvent.heartbeat).run _ _).1 h; exact .plain (hc ▸ ha)
    · obtain ⟨a, ha | ⟨rfl, rfl⟩, rfl⟩ := ((exact_rowsQuery.map BinlogEvent.rowsQuery).run _ _).1 h
      · exact .plain (hc ▸ ha)
      · exact .noRowsQuery hc
    · obtain ⟨a, ha, rfl⟩ := ((exact_mySqlGtid.map BinlogEvent.mySqlGtid).run _ _).1 h; exact .plain (hc ▸ ha)
    · obtain ⟨a, ⟨sets, data, extra, h1, h2, rfl, rfl⟩, rfl⟩ := (((exact_previous m).map BinlogEvent.mySqlPrevGtids).run _ _).1 h
      exact .previous hc (.mk h1 h2 (gathered_gathers sets))
    · obtain ⟨a, ha, rfl⟩ := ((exact_annotate.map BinlogEvent.rowsQuery).run _ _).1 h; exact .plain (hc ▸ ha)
    · obtain ⟨a, ha, rfl⟩ := (((exact_mariaGtid header).map BinlogEvent.mariaDbGtid).run _ _).1 h; exact .maria (hc ▸ ha)
    · obtain ⟨a, ha, rfl⟩ := (((exact_gtidList header).map BinlogEvent.mariaDbGtidList).run _ _).1 h; exact .maria (hc ▸ ha)
  · have he : dispatchEvent m tm header = (return .unknown) := by
      simp only [decodedCodes, rowCodes, List.mem_cons, List.not_mem_nil, or_false, not_or] at hd hr
      unfold dispatchEvent EventType.fromCode
      split <;> first | rfl | (rename_i heq; split at heq <;> first | (exfalso; omega) | cases heq)
    rw [he] at h
    simp only [P.run, P.ret_apply, Res.ok.injEq] at h
    subst h
    exact .unknown hd hr

theorem run_of_accepted {m : Mode} (tm : TableMapCache) {header : EventHeader} {ev : BinlogEvent} {body : Bytes}
    (h : Accepted m header ev body) : ∃ ev', (dispatchEvent m tm header).run body = .ok ev' ∧ SameEvent ev ev' := by
  cases h with
  | plain h =>
    refine ⟨ev, ?_, .refl _⟩
    generalize hc : header.eventType = c at h
    have h' := h
    cases h with
    | query h1 h2 h3 h4 h5 =>
      simp only [dispatchEvent, hc, EventType.fromCode]
      exact ((exact_query.map BinlogEvent.query).run _ _).2 ⟨_, .mk h1 h2 h3 h4 h5 (.inl rfl), rfl⟩
    | rotate => simp only [dispatchEvent, hc, EventType.fromCode]; exact ((exact_rotate.map BinlogEvent.rotate).run _ _).2 ⟨_, h', rfl⟩
    | intVar => simp only [dispatchEvent, hc, EventType.fromCode]; exact ((exact_intVar.map BinlogEvent.intVar).run _ _).2 ⟨_, h', rfl⟩
    | userVarNull => simp only [dispatchEvent, hc, EventType.fromCode]; exact ((exact_userVar.map BinlogEvent.userVar).run _ _).2 ⟨_, h', rfl⟩
    | userVar => simp only [dispatchEvent, hc, EventType.fromCode]; exact ((exact_userVar.map BinlogEvent.userVar).run _ _).2 ⟨_, h', rfl⟩
    | xid => simp only [dispatchEvent, hc, EventType.fromCode]; exact ((exact_xid.map BinlogEvent.xid).run _ _).2 ⟨_, h', rfl⟩
    | heartbeat => simp only [dispatchEvent, hc, EventType.fromCode]; exact ((exact_heartbeat.map BinlogEvent.heartbeat).run _ _).2 ⟨_, h', rfl⟩
    | rowsQuery => simp only [dispatchEvent, hc, EventType.fromCode]; exact ((exact_rowsQuery.map BinlogEvent.rowsQuery).run _ _).2 ⟨_, .inl h', rfl⟩
    | mySqlGtid => simp only [dispatchEvent, hc, EventType.fromCode]; exact ((exact_mySqlGtid.map BinlogEvent.mySqlGtid).run _ _).2 ⟨_, h', rfl⟩
    | annotateRows => simp only [dispatchEvent, hc, EventType.fromCode]; exact ((exact_annotate.map BinlogEvent.rowsQuery).run _ _).2 ⟨_, h', rfl⟩
  | maria h =>
    refine ⟨ev, ?_, .refl _⟩
    generalize hc : header.eventType = c at h
    have h' := h
    cases h with
    | gtid => simp only [dispatchEvent, hc, EventType.fromCode]; exact (((exact_mariaGtid header).map BinlogEvent.mariaDbGtid).run _ _).2 ⟨_, h', rfl⟩
    | gtidList => simp only [dispatchEvent, hc, EventType.fromCode]; exact (((exact_gtidList header).map BinlogEvent.mariaDbGtidList).run _ _).2 ⟨_, h', rfl⟩
  | query hc h =>
    refine ⟨_, ?_, .refl _⟩
    simp only [dispatchEvent, hc, EventType.fromCode]; exact ((exact_query.map BinlogEvent.query).run _ _).2 ⟨_, h, rfl⟩
  | noRowsQuery hc =>
    refine ⟨_, ?_, .refl _⟩
    simp only [dispatchEvent, hc, EventType.fromCode]
    exact ((exact_rowsQuery.map BinlogEvent.rowsQuery).run _ _).2 ⟨_, .inr ⟨rfl, rfl⟩, rfl⟩
  | previous hc h =>
    obtain ⟨h1, h2, hg⟩ := h
    rename_i g' sets data extra
    refine ⟨.mySqlPrevGtids ⟨⟨gathered sets⟩⟩, ?_, .previous (gathers_perm hg (gathered_gathers sets))⟩
    simp only [dispatchEvent, hc, EventType.fromCode]
    exact (((exact_previous m).map BinlogEvent.mySqlPrevGtids).run _ _).2 ⟨_, ⟨sets, data, extra, h1, h2, rfl, rfl⟩, rfl⟩
  | format hc h =>
    refine ⟨_, ?_, .refl _⟩
    simp only [dispatchEvent, hc, EventType.fromCode]; exact (exact_formatRun m header _ _).2 ⟨_, h, rfl⟩
  | tableMap hc h =>
    refine ⟨_, ?_, .refl _⟩
    simp only [dispatchEvent, hc, EventType.fromCode]; exact ((exact_tableMap.map BinlogEvent.tableMap).run _ _).2 ⟨_, h, rfl⟩
  | unknown hd hr =>
    refine ⟨_, ?_, .refl _⟩
    have he : dispatchEvent m tm header = (return .unknown) := by
      simp only [decodedCodes, rowCodes, List.mem_cons, List.not_mem_nil, or_false, not_or] at hd hr
      unfold dispatchEvent EventType.fromCode
      split <;> first | rfl | (rename_i heq; split at heq <;> first | (exfalso; omega) | cases heq)
    rw [he]
    rfl

/-- **C81.** An event that is not a row event is decoded only if its body has one of the accepted forms, and then with the value
that form stands for. -/
theorem C81_sound {m : Mode} {st : EventParser} {header : EventHeader} {slice : Bytes} {ev : BinlogEvent}
    (hr : header.eventType ∉ rowCodes) (h : (parseEvent m st header slice).1 = .ok ev) :
    ∃ body, WithChecksum st.checksumType body slice ∧ Accepted m header ev body := by
  obtain ⟨body, h1, h2⟩ := parseEvent_ok_iff.1 h
  exact ⟨body, h1, accepted_of_run hr h2⟩

/-- **C81.** Every body of an accepted form is decoded, to the value it stands for. -/
theorem C81_complete {m : Mode} {st : EventParser} {header : EventHeader} {slice body : Bytes} {ev : BinlogEvent}
    (hs : WithChecksum st.checksumType body slice) (h : Accepted m header ev body) :
    ∃ ev', (parseEvent m st header slice).1 = .ok ev' ∧ SameEvent ev ev' := by
  obtain ⟨ev', h1, h2⟩ := run_of_accepted st.tableMap h
  exact ⟨ev', parseEvent_ok_iff.2 ⟨body, hs, h1⟩, h2⟩

/-- **C81.** Both together, for all events whose value is determined (all but the set of previous GTIDs, whose order is not). -/
theorem C81_iff {m : Mode} {st : EventParser} {header : EventHeader} {slice : Bytes} {ev : BinlogEvent}
    (hr : header.eventType ∉ rowCodes) (hp : header.eventType ≠ 35) :
    (parseEvent m st header slice).1 = .ok ev ↔
      ∃ body, WithChecksum st.checksumType body slice ∧ Accepted m header ev body := by
  refine ⟨C81_sound hr, fun ⟨body, hs, ha⟩ => ?_⟩
  obtain ⟨ev', h1, h2⟩ := C81_complete (st := st) hs ha
  cases h2 with
  | refl => exact h1
  | previous =>
    cases ha with
    | plain h => generalize header.eventType = c at h; cases h
    | maria h => generalize header.eventType = c at h; cases h
    | previous hc => exact absurd hc hp

/-! ### Examples -/

/-- A header of a given type. -/
def exHeaderOf (type : Nat) : EventHeader :=
  { timestamp := 0, eventType := type, serverId := 1, eventLength := 0, nextEventPosition := 0, eventFlags := 0 }

/-- The forms are not only those a server writes: a statement event may end after the database. -/
example (m : Mode) : Accepted m (exHeaderOf 2) (.query ⟨5, 6, 7, [9], ['d', 'b'], []⟩)
    (le 4 5 ++ le 4 6 ++ le 1 2 ++ le 2 7 ++ le 2 1 ++ [9] ++ [100, 98]) := by
  refine .query rfl (cast ?_ (LooseQuery.mk (thread := 5) (duration := 6) (error := 7) (status := [9]) (sep := []) (db := ['d', 'b'])
    (sql := []) (by decide) (by decide) (by decide +kernel) (by decide) (by decide) (.inr ⟨rfl, rfl⟩)))
  have : utf8Bytes ['d', 'b'] = [100, 98] := by decide +kernel
  have h0 : utf8Bytes [] = [] := by decide +kernel
  rw [this, h0]
  rfl

/-- A transaction id of seven bytes has no accepted form. -/
example (m : Mode) (ev : BinlogEvent) : ¬Accepted m (exHeaderOf 16) ev [1, 2, 3, 4, 5, 6, 7] := by
  intro h
  obtain ⟨ev', h1, _⟩ := C81_complete (st := EventParser.new) (slice := [1, 2, 3, 4, 5, 6, 7]) ⟨[], rfl, rfl⟩ h
  have : (parseEvent m EventParser.new (exHeaderOf 16) [1, 2, 3, 4, 5, 6, 7]).1 = .err (.io .unexpectedEof) := by
    revert m; rintro ⟨_ | _⟩ <;> intros <;> decide +kernel
  rw [this] at h1
  cases h1

/-- A type that is not decoded is accepted with any body. -/
example (m : Mode) (body : Bytes) : Accepted m (exHeaderOf 3) .unknown body := .unknown (by decide) (by decide)

/-- A table of one INT column, its metadata size given as 200, the terminators not zero. -/
example (m : Mode) : (parseEvent m EventParser.new (exHeaderOf 19)
    [7, 0, 0, 0, 0, 0, 1, 0, 1, 100, 55, 1, 116, 66, 1, 3, 200, 1]).1
      = .ok (.tableMap ⟨7, ['d'], ['t'], [3], [0], [true], none⟩) := by
  revert m; rintro ⟨_ | _⟩ <;> decide +kernel

end MysqlCdc
