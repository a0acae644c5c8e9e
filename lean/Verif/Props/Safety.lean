import Verif.Lemmas.Decoded
import Verif.Lemmas.Safe
import Verif.Props.Decoder
/-!
# C37, C38: arbitrary bytes
-/

namespace MysqlCdc

open Spec

theorem parseEvent_fst {m : Mode} {st : EventParser} {header : EventHeader} {slice body : Bytes}
    (h : eventBody st.checksumType slice = .ok body) :
    (parseEvent m st header slice).1 = (dispatchEvent m st.tableMap header).run body := by
  unfold parseEvent
  rw [h]
  simp only
  cases (dispatchEvent m st.tableMap header).run body <;> rfl

theorem safe_map_run {α β : Type} {buf : Bytes} {p : P α} {f : α → β} (h : Safe buf p fun _ => True) :
    (p >>= fun a => (pure (f a) : P β)).run buf ≠ .panic := P.run_ne_panic (h.map f)

/-! ## C37 -/

theorem rows_safe {m : Mode} {cache : TableMapCache} {version : Nat} {buf : Bytes} (hb : ¬ AbsurdLength buf)
    (hrow : ∀ t, cache.get? (leVal (buf.take 6)) = some t → SaneTable t ∧
      ∀ n next, ColumnCountAt version buf n next → t.columnTypes.length ≤ n) :
    parseRowsEvent m cache version buf 0 ≠ .panic ∧ parseUpdateRowsEvent m cache version buf 0 ≠ .panic := by
  have head : Safe buf (parseHead version) fun r => r.2.2 < 2 ^ 63 := by
    unfold parseHead
    refine (Safe.uLE buf 6).bind fun _ _ => (Safe.uLE buf 2).bind fun _ _ => .ite ?_ ?_
    · exact (Safe.uLE buf 2).bind fun _ _ => (Safe.seek buf _).bind fun _ _ =>
        (Safe.readLenEncNum hb).bind fun _ h => .pure h
    · exact (Safe.readLenEncNum hb).bind fun _ h => .pure h
  unfold parseRowsEvent parseUpdateRowsEvent
  rw [P.seq_apply, P.seq_apply]
  cases hh : parseHead version buf 0 with
  | ok r =>
    have hn := (head 0).2 r hh
    obtain ⟨hc, hid⟩ := parseHead_inv hh
    obtain ⟨⟨id, flags, n⟩, pos⟩ := r
    simp only at hid hn hc
    subst hid
    have list : ∀ present : List Bool, present.length = n →
        Safe buf (parseRowDataList m cache (leVal (buf.take 6)) present) fun _ => True := by
      intro present hp
      unfold parseRowDataList
      split
      · exact .fail _ _
      · next t ht =>
        obtain ⟨s1, s2⟩ := hrow t ht
        have := s2 n pos hc
        exact Safe.whileData (Safe.row m s1 (by omega) (by omega) buf)
    have list2 : ∀ before after : List Bool, before.length = n → after.length = n →
        Safe buf (parseUpdateRowDataList m cache (leVal (buf.take 6)) before after) fun _ => True := by
      intro before after hp hq
      unfold parseUpdateRowDataList
      split
      · exact .fail _ _
      · next t ht =>
        obtain ⟨s1, s2⟩ := hrow t ht
        have := s2 n pos hc
        exact Safe.whileData ((Safe.row m s1 (by omega) (by omega) buf).bind fun _ _ =>
          (Safe.row m s1 (by omega) (by omega) buf).map _)
    constructor
    · exact ((Safe.bitmapLE hn).bind fun p hp => (list p hp).map fun rows =>
        ({ tableId := leVal (buf.take 6), flags, columnsNumber := n, columnsPresent := p, rows } : RowsEvent)) pos |>.1
    · exact ((Safe.bitmapLE hn).bind fun p hp => (Safe.bitmapLE hn).bind fun q hq => (list2 p q hp hq).map fun rows =>
        ({ tableId := leVal (buf.take 6), flags, columnsNumber := n, columnsBeforeUpdate := p, columnsAfterUpdate := q,
           rows } : UpdateRowsEvent)) pos |>.1
  | err e => exact ⟨by simp, by simp⟩
  | panic => exact absurd hh (head 0).1
  | hang => exact ⟨by simp, by simp⟩

theorem run_map_ne_panic {α β : Type} {p : P α} {f : α → β} {buf : Bytes} (h : p buf 0 ≠ .panic) :
    (p >>= fun a => (pure (f a) : P β)).run buf ≠ .panic := by
  simp only [P.run, P.seq_apply]
  cases hp : p buf 0 with
  | panic => exact absurd hp h
  | _ => simp

/-- C37 as far as it holds: decoding arbitrary bytes does not crash the process unless
* there are fewer bytes than a checksum in a CRC32 stream,
* a format description event announces a length that is below 19 modulo 256 (checked builds),
* it is a previous-GTIDs event in a checked build (C11 covers the well-formed ones),
* some length of 2^63 or more is announced,
* it is a row event whose table map is insane or has more columns than the row event announces. -/
theorem C37_no_crash_partial (m : Mode) (st : EventParser) (header : EventHeader) (body slice : Bytes)
    (hs : WithChecksum st.checksumType body slice)
    (hfde : header.eventType = 15 → m.checks = true → 19 ≤ header.eventLength % 256)
    (hprev : header.eventType = 35 → m.checks = false)
    (habs : ¬ AbsurdLength body)
    (hrow : ∀ version, header.eventType ∈ versionTypes version → ∀ t, st.tableMap.get? (leVal (body.take 6)) = some t →
      SaneTable t ∧ ∀ n next, ColumnCountAt version body n next → t.columnTypes.length ≤ n) :
    (parseEvent m st header slice).1 ≠ .panic := by
  have key : (dispatchEvent m st.tableMap header).run body ≠ .panic := by
    by_cases ht : header.eventType ∈ decodedTypes
    · simp only [decodedTypes, List.mem_cons, List.not_mem_nil, or_false] at ht
      unfold dispatchEvent
      rcases ht with h | h | h | h | h | h | h | h | h | h | h | h | h | h | h | h | h | h | h | h <;> rw [h]
      · exact safe_map_run (.query body)
      · exact safe_map_run (p := parseRotate) ((Safe.uLE body 8).bind fun _ _ => (Safe.readToString body).map _)
      · exact safe_map_run (p := parseIntVar) ((Safe.u8 body).bind fun _ _ => (Safe.uLE body 8).map _)
      · exact safe_map_run (.userVar body)
      · exact safe_map_run (.formatDescription body (hfde h))
      · exact safe_map_run (p := parseXid) ((Safe.uLE body 8).map _)
      · exact safe_map_run (.tableMap habs)
      · exact run_map_ne_panic (rows_safe habs (hrow 1 (by rw [h]; decide))).1
      · exact run_map_ne_panic (rows_safe habs (hrow 1 (by rw [h]; decide))).2
      · exact run_map_ne_panic (rows_safe habs (hrow 1 (by rw [h]; decide))).1
      · exact safe_map_run (p := parseHeartbeat) ((Safe.readToString body).map _)
      · exact safe_map_run (p := parseRowsQueryMysql) ((Safe.seek body 1).bind fun _ _ => (Safe.readToString body).map _)
      · exact run_map_ne_panic (rows_safe habs (hrow 2 (by rw [h]; decide))).1
      · exact run_map_ne_panic (rows_safe habs (hrow 2 (by rw [h]; decide))).2
      · exact run_map_ne_panic (rows_safe habs (hrow 2 (by rw [h]; decide))).1
      · exact safe_map_run (p := parseMySqlGtid) ((Safe.u8 body).bind fun _ _ => (Safe.readExact body 16).bind fun _ _ =>
          (Safe.uLE body 8).map _)
      · exact safe_map_run (.previousGtids (hprev h) body)
      · exact safe_map_run (p := parseRowsQueryMariadb) ((Safe.readToString body).map _)
      · exact safe_map_run (p := parseMariaGtid header) ((Safe.uLE body 8).bind fun _ _ => (Safe.uLE body 4).bind fun _ _ =>
          (Safe.u8 body).map _)
      · exact safe_map_run (.gtidList body)
    · have := C34_unknown_types m st header body slice ht hs
      rw [← parseEvent_fst (eventBody_of_checksum hs), this]
      simp
  rw [parseEvent_fst (eventBody_of_checksum hs)]
  exact key

/-- The hypotheses are met by arbitrary garbage in a query event, and by a truncated row event of a sane table. -/
example : (parseEvent ⟨true⟩ EventParser.new ⟨0, 2, 1, 40, 0, 0⟩ (List.replicate 40 0xFF)).1 ≠ .panic :=
  C37_no_crash_partial _ _ _ _ _ ⟨[], rfl, (List.append_nil _).symm⟩ (by decide) (by decide)
    (by
      rintro ⟨l, h1, h2, h3⟩
      have hm : (0xFE : UInt8) ∈ List.replicate 40 (0xFF : UInt8) := h3.subset (by simp)
      rw [List.mem_replicate] at hm
      exact absurd hm.2 (by decide))
    (by intro v hv; simp only [versionTypes] at hv; split at hv <;> simp at hv)
example : SaneTable ⟨7, [], [], [3, 246, 252, 254], [0, 10 + 256 * 2, 2, 247 * 256 + 1], [false, true, false, true], none⟩ := by
  refine ⟨rfl, fun i c md hc hm => ?_⟩
  have hi : i < 4 := (List.getElem?_eq_some_iff.1 hc).1
  match i, hi with
  | 0, _ => simp at hc hm; subst hc hm; exact ⟨by decide, by decide, by decide, by decide, by decide, by simp⟩
  | 1, _ => simp at hc hm; subst hc hm; exact ⟨by decide, by decide, by decide, by decide, by decide, by simp⟩
  | 2, _ => simp at hc hm; subst hc hm; exact ⟨by decide, by decide, by decide, by decide, by decide, by simp⟩
  | 3, _ =>
    simp at hc hm; subst hc hm
    exact ⟨by decide, by decide, by decide, by decide, by decide, fun _ => .inr ⟨1, by decide, by decide, .inl rfl⟩⟩

/-- A table map of one column with the given type and metadata. -/
def sampleTable (t : UInt8) (md : Nat) : TableMapEvent :=
  { tableId := 7, databaseName := [], tableName := [], columnTypes := [t], columnMetadata := [md], nullBitmap := [false],
    tableMetadata := none }

/-- C37 is false of the code: each hypothesis of `C37_no_crash_partial` is needed. -/
theorem C37_false :
    -- three bytes in a CRC32 stream, in both build profiles
    (∀ m, (parseEvent m ⟨.crc32, []⟩ ⟨0, 16, 1, 31, 0, 0⟩ [1, 2, 3]).1 = .panic) ∧
    -- a format description event whose header announces 256 bytes, checked build
    (parseEvent ⟨true⟩ EventParser.new ⟨0, 15, 1, 256, 0, 0⟩ (List.replicate 100 0)).1 = .panic ∧
    -- a previous-GTIDs event with an interval ending at 0, checked build
    (parseEvent ⟨true⟩ EventParser.new ⟨0, 35, 1, 75, 0, 0⟩
      ([1, 0, 0, 0, 0, 0, 0, 0] ++ List.replicate 16 0 ++ [1, 0, 0, 0, 0, 0, 0, 0] ++ List.replicate 16 0)).1 = .panic ∧
    -- a table map announcing 2^63 columns
    (∀ m, (parseEvent m EventParser.new ⟨0, 19, 1, 50, 0, 0⟩
      ([7, 0, 0, 0, 0, 0, 1, 0, 0, 0, 0, 0] ++ [0xFE, 0, 0, 0, 0, 0, 0, 0, 0x80])).1 = .panic) ∧
    -- a blob column with nine length bytes
    (∀ m, (parseEvent m ⟨.none, [(7, sampleTable 252 9)]⟩ ⟨0, 23, 1, 50, 0, 0⟩
      ([7, 0, 0, 0, 0, 0, 1, 0, 1, 1, 0] ++ List.replicate 9 0)).1 = .panic) ∧
    -- a row event that announces fewer columns than the table has
    (∀ m, (parseEvent m ⟨.none, [(7, sampleTable 3 0)]⟩ ⟨0, 23, 1, 50, 0, 0⟩ [7, 0, 0, 0, 0, 0, 1, 0, 0, 5]).1 = .panic) := by
  refine ⟨?_, by decide +kernel, by decide +kernel, ?_, ?_, ?_⟩ <;> rintro ⟨_ | _⟩ <;> decide +kernel

/-! ## C38 -/

/-- What `P.whileData` stands for: running the loop body at most `fuel` times; `none` if that is not enough. -/
def loopFuel {α : Type} (body : P α) : Nat → Bytes → Nat → Option (Res (List α × Nat))
  | 0, _, _ => none
  | fuel + 1, buf, pos =>
    if pos < buf.length then
      match body buf pos with
      | .ok (a, pos') => (loopFuel body fuel buf pos').map fun r => r.bind fun x => .ok (a :: x.1, x.2)
      | .err e => some (.err e)
      | .panic => some .panic
      | .hang => some .hang
    else some (.ok ([], pos))

/-- `hang` is justified: for a loop body that itself ends and never moves backwards, the loop of the model ends with a result
exactly if the loop run step by step ends with it, and is `hang` exactly if the loop never ends. -/
theorem whileData_fuel {α : Type} {body : P α} (h : Step 0 body) (buf : Bytes) (pos : Nat) :
    (P.whileData body buf pos ≠ .hang → ∃ fuel, loopFuel body fuel buf pos = some (P.whileData body buf pos)) ∧
    (P.whileData body buf pos = .hang → ∀ fuel, loopFuel body fuel buf pos = none) := by
  induction hn : buf.length - pos using Nat.strongRecOn generalizing pos with
  | _ n ih =>
    subst hn
    rw [P.whileData]
    by_cases hlt : pos < buf.length
    · rw [if_pos hlt]
      cases hr : body buf pos with
      | ok r =>
        obtain ⟨a, pos'⟩ := r
        have hle : pos ≤ pos' := (h buf pos).2 _ hr
        simp only
        by_cases hadv : pos < pos'
        · rw [if_pos hadv]
          obtain ⟨i1, i2⟩ := ih (buf.length - pos') (by omega) pos' rfl
          constructor
          · intro hne
            have hw : P.whileData body buf pos' ≠ .hang := by
              intro hc; rw [hc] at hne; exact hne rfl
            obtain ⟨fuel, hf⟩ := i1 hw
            refine ⟨fuel + 1, ?_⟩
            rw [loopFuel, if_pos hlt, hr]
            simp only [hf, Option.map_some]
            cases P.whileData body buf pos' <;> rfl
          · intro he fuel
            have hw : P.whileData body buf pos' = .hang := by
              cases hc : P.whileData body buf pos' with
              | hang => rfl
              | _ => rw [hc] at he; simp at he
            cases fuel with
            | zero => rfl
            | succ fuel => rw [loopFuel, if_pos hlt, hr]; simp only [i2 hw fuel, Option.map_none]
        · rw [if_neg hadv]
          have : pos' = pos := by omega
          subst this
          refine ⟨fun h => absurd rfl h, fun _ fuel => ?_⟩
          induction fuel with
          | zero => rfl
          | succ fuel ihf => rw [loopFuel, if_pos hlt, hr]; simp only [ihf, Option.map_none]
      | err e => exact ⟨fun _ => ⟨1, by rw [loopFuel, if_pos hlt, hr]⟩, by simp⟩
      | panic => exact ⟨fun _ => ⟨1, by rw [loopFuel, if_pos hlt, hr]⟩, by simp⟩
      | hang => exact absurd hr (h buf pos).1
    · rw [if_neg hlt]
      exact ⟨fun _ => ⟨1, by rw [loopFuel, if_neg hlt]⟩, by simp⟩

theorem run_map_ne_hang {α β : Type} {p : P α} {f : α → β} {buf : Bytes} (h : p buf 0 ≠ .hang) :
    (p >>= fun a => (pure (f a) : P β)).run buf ≠ .hang := by
  simp only [P.run, P.seq_apply]
  cases hp : p buf 0 with
  | hang => exact absurd hp h
  | _ => simp

theorem run_map_hang {α β : Type} {p : P α} {f : α → β} {buf : Bytes}
    (h : (p >>= fun a => (pure (f a) : P β)).run buf = .hang) : p buf 0 = .hang := by
  apply Classical.byContradiction
  intro hc
  exact run_map_ne_hang hc h

theorem getBits_zero {bits : List Bool} (h : getBitsNumber bits = 0) : true ∉ bits := by
  unfold getBitsNumber at h
  rw [List.length_eq_zero_iff, List.filter_eq_nil_iff] at h
  intro hc
  exact h true hc rfl

theorem rows_hang {m : Mode} {cache : TableMapCache} {version : Nat} {buf : Bytes} :
    (parseRowsEvent m cache version buf 0 = .hang →
      ∃ n next present, ColumnCountAt version buf n next ∧ present.length = n ∧ BitmapAt buf next present ∧ true ∉ present) ∧
    (parseUpdateRowsEvent m cache version buf 0 = .hang →
      ∃ n next before after, ColumnCountAt version buf n next ∧ before.length = n ∧ after.length = n ∧
        BitmapAt buf next before ∧ BitmapAt buf (next + bytesFor n) after ∧ true ∉ before ∧ true ∉ after) := by
  unfold parseRowsEvent parseUpdateRowsEvent
  rw [P.seq_apply, P.seq_apply]
  cases hh : parseHead version buf 0 with
  | ok r =>
    obtain ⟨hc, -⟩ := parseHead_inv hh
    obtain ⟨⟨id, flags, n⟩, pos⟩ := r
    simp only at hc
    simp only [Res.bind]
    rw [P.seq_apply, P.seq_apply]
    cases hb : readBitmapLittleEndian n buf pos with
    | ok b =>
      obtain ⟨b1, b2, b3⟩ := readBitmap_inv hb
      obtain ⟨present, pos2⟩ := b
      simp only [Res.bind] at b1 b2 b3 ⊢
      constructor
      · intro h
        refine ⟨n, pos, present, hc, b1, b2, ?_⟩
        apply Classical.byContradiction
        intro hne
        have hpos : 1 ≤ getBitsNumber present := by
          apply Classical.byContradiction
          intro hz
          exact hne (getBits_zero (by omega))
        have hlist : Step 0 (parseRowDataList m cache id present) := by
          unfold parseRowDataList
          split
          · exact .fail _ _
          · exact Step.whileData ((step_row m _ present _).weaken (by omega))
        exact (hlist.map _ buf pos2).1 h
      · intro h
        rw [P.seq_apply] at h
        cases hb' : readBitmapLittleEndian n buf pos2 with
        | ok b' =>
          obtain ⟨c1, c2, c3⟩ := readBitmap_inv hb'
          obtain ⟨present', pos3⟩ := b'
          rw [hb'] at h
          simp only [Res.bind] at c1 c2 c3 h
          have hz : getBitsNumber present = 0 ∧ getBitsNumber present' = 0 := by
            apply Classical.byContradiction
            intro hz
            have hlist : Step 0 (parseUpdateRowDataList m cache id present present') := by
              unfold parseUpdateRowDataList
              split
              · exact .fail _ _
              · refine Step.whileData (((step_row m _ present _).bind fun _ => (step_row m _ present' _).map _).weaken ?_)
                omega
            exact (hlist.map _ buf pos3).1 h
          rw [b3] at c2
          exact ⟨n, pos, present, present', hc, b1, c1, b2, c2, getBits_zero hz.1, getBits_zero hz.2⟩
        | hang => exact absurd hb' ((Step.bitmapLE n).noHang buf pos2)
        | err e => rw [hb'] at h; simp at h
        | panic => rw [hb'] at h; simp at h
    | hang => exact absurd hb ((Step.bitmapLE n).noHang buf pos)
    | err e => exact ⟨by simp, by simp⟩
    | panic => exact ⟨by simp, by simp⟩
  | hang => exact absurd hh (noHang_head version buf 0)
  | err e => exact ⟨by simp, by simp⟩
  | panic => exact ⟨by simp, by simp⟩

/-- C38 as far as it holds: decoding terminates for every byte string, except for row events that include no column at all
(neither before nor after, for updates). -/
theorem C38_terminates_partial (m : Mode) (st : EventParser) (header : EventHeader) (slice : Bytes)
    (h : (parseEvent m st header slice).1 = .hang) :
    ∃ body, WithChecksum st.checksumType body slice ∧ IncludesNoColumn header.eventType body := by
  have hbody : ∃ body, eventBody st.checksumType slice = .ok body ∧ WithChecksum st.checksumType body slice := by
    cases hc : st.checksumType with
    | none => exact ⟨slice, rfl, [], rfl, by simp⟩
    | crc32 =>
      by_cases h4 : 4 ≤ slice.length
      · refine ⟨slice.take (slice.length - 4), by simp [eventBody, h4], slice.drop (slice.length - 4), ?_, by simp⟩
        simp; omega
      · exfalso
        simp [parseEvent, hc, eventBody, h4] at h
  obtain ⟨body, hb, hs⟩ := hbody
  have hd : (dispatchEvent m st.tableMap header).run body = .hang := by
    rw [← parseEvent_fst hb]
    exact h
  have ht : header.eventType ∈ decodedTypes := by
    apply Classical.byContradiction
    intro hc
    have := C34_unknown_types m st header body slice hc hs
    rw [this] at h
    simp at h
  simp only [decodedTypes, List.mem_cons, List.not_mem_nil, or_false] at ht
  have plain : ∀ {α : Type} (p : P α) (f : α → BinlogEvent), NoHang p →
      (p >>= fun a => (pure (f a) : P BinlogEvent)).run body = .hang → False :=
    fun p f hp hr => run_map_ne_hang (hp body 0) hr
  have rows : ∀ version, header.eventType ∈ versionTypes version → header.eventType ≠ 24 → header.eventType ≠ 31 →
      parseRowsEvent m st.tableMap version body 0 = .hang → IncludesNoColumn header.eventType body := by
    intro version hv h24 h31 hr
    obtain ⟨n, next, present, q1, q2, q3, q4⟩ := rows_hang.1 hr
    exact ⟨version, n, next, hv, q1, ⟨present, q2, q3, q4⟩, fun h => by omega⟩
  have urows : ∀ version, header.eventType ∈ versionTypes version →
      parseUpdateRowsEvent m st.tableMap version body 0 = .hang → IncludesNoColumn header.eventType body := by
    intro version hv hr
    obtain ⟨n, next, present, after, q1, q2, q3, q4, q5, q6, q7⟩ := rows_hang.2 hr
    exact ⟨version, n, next, hv, q1, ⟨present, q2, q4, q6⟩, fun _ => ⟨after, q3, q5, q7⟩⟩
  refine ⟨body, hs, ?_⟩
  unfold dispatchEvent at hd
  rcases ht with h | h | h | h | h | h | h | h | h | h | h | h | h | h | h | h | h | h | h | h <;> rw [h] at hd
  · exact (plain _ _ noHang_query hd).elim
  · exact (plain parseRotate _ ((Step.uLE 8).noHang.bind fun _ => (Step.readToString.map _).noHang) hd).elim
  · exact (plain parseIntVar _ (Step.u8.noHang.bind fun _ => ((Step.uLE 8).map _).noHang) hd).elim
  · exact (plain _ _ noHang_userVar hd).elim
  · exact (plain _ _ (noHang_formatDescription m header) hd).elim
  · exact (plain parseXid _ ((Step.uLE 8).map _).noHang hd).elim
  · exact (plain _ _ noHang_tableMap hd).elim
  · exact rows 1 (by rw [h]; decide) (by omega) (by omega) (run_map_hang hd)
  · exact urows 1 (by rw [h]; decide) (run_map_hang hd)
  · exact rows 1 (by rw [h]; decide) (by omega) (by omega) (run_map_hang hd)
  · exact (plain parseHeartbeat _ (Step.readToString.map _).noHang hd).elim
  · exact (plain parseRowsQueryMysql _ ((NoHang.seek 1).bind fun _ => (Step.readToString.map _).noHang) hd).elim
  · exact rows 2 (by rw [h]; decide) (by omega) (by omega) (run_map_hang hd)
  · exact urows 2 (by rw [h]; decide) (run_map_hang hd)
  · exact rows 2 (by rw [h]; decide) (by omega) (by omega) (run_map_hang hd)
  · exact (plain parseMySqlGtid _ (Step.u8.noHang.bind fun _ => (Step.readExact 16).noHang.bind fun _ =>
      ((Step.uLE 8).map _).noHang) hd).elim
  · exact (plain _ _ (noHang_previousGtids m fun id => by rw [uuidSet_new_nil]; simp) hd).elim
  · exact (plain parseRowsQueryMariadb _ (Step.readToString.map _).noHang hd).elim
  · exact (plain (parseMariaGtid header) _ ((Step.uLE 8).noHang.bind fun _ => (Step.uLE 4).noHang.bind fun _ =>
      (Step.u8.map _).noHang) hd).elim
  · exact (plain _ _ noHang_gtidList hd).elim

/-- C38 is false of the code: a row event of a known table that includes no column but has one more byte is decoded for ever
(collecting empty rows). -/
theorem C38_false (m : Mode) :
    (parseEvent m ⟨.none, [(7, sampleTable 3 0)]⟩ ⟨0, 23, 1, 50, 0, 0⟩ [7, 0, 0, 0, 0, 0, 1, 0, 1, 0, 5]).1 = .hang := by
  obtain ⟨_ | _⟩ := m <;> decide +kernel

end MysqlCdc
