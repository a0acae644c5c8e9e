import Verif.Props.RowSize
import Verif.Props.Accepted
import Verif.Spec.EventSize
import Mathlib.Data.List.Perm.Subperm

/-!
How large events are, once decoded, against their bytes (C143).
-/

namespace MysqlCdc

open Spec

/-! ## Parts of table maps -/

theorem lenEnc_pos {n : Nat} {e : Bytes} (h : LenEnc n e) : 1 ≤ e.length := List.length_pos_iff.mpr (LenEnc_ne_nil h)

theorem text_size {s : RStr} {e : Bytes} (h : Text s e) : 1 + (utf8Bytes s).length ≤ 1 * e.length := by
  obtain ⟨-, l, hl, rfl⟩ := h
  have := lenEnc_pos hl
  rw [List.length_append]
  omega

theorem values_size {ss : List RStr} {e : Bytes} (h : Values ss e) : 1 + textsSize ss ≤ 1 * e.length := by
  obtain ⟨a, b, ha, hb, rfl⟩ := h
  have := lenEnc_pos ha
  have := each_sum (fun _ _ h => text_size h) hb
  rw [List.length_append, textsSize]
  omega

theorem nums_size {ns : List Nat} {e : Bytes} (h : Each LooseNum ns e) : ns.length ≤ e.length :=
  each_count (fun _ _ h => by obtain ⟨v, hv, -⟩ := h; exact LenEnc_ne_nil hv) h

theorem pairs_size {ns : List (Nat × Nat)} {e : Bytes} (h : Each LoosePair ns e) : ns.length ≤ e.length :=
  each_count (fun _ _ h => by
    obtain ⟨a, b, ⟨v, hv, -⟩, -, rfl⟩ := h
    exact fun hn => LenEnc_ne_nil hv (List.append_eq_nil_iff.mp hn).1) h

theorem charset_size {c : DefaultCharset} {e : Bytes} (h : LooseCharset c e) : charsetSize c ≤ e.length := by
  obtain ⟨a, b, ⟨v, hv, -⟩, hb, rfl⟩ := h
  have := lenEnc_pos hv
  have := pairs_size hb
  rw [List.length_append, charsetSize]
  omega

theorem msb_size {n : Nat} {bits : List Bool} {e : Bytes} (h : LooseBitmap n bits e) : bytesFor bits.length ≤ e.length ∧ bits.length = n := by
  obtain ⟨hn, a, b, ha, rfl⟩ := h
  have := ha.1
  rw [List.length_append]
  omega

/-- The bytes that bits need. -/
def bitBytes (bits : List Bool) : Nat := bytesFor bits.length

/-- What a field holds, bits by the bytes that they need. -/
def fieldSize : MetaField → Nat
  | .signedness x => bitBytes x
  | .defaultCharset x => charsetSize x
  | .columnCharset x => x.length
  | .columnName x => textsSize x
  | .setValues x => valuesSize x
  | .enumValues x => valuesSize x
  | .geometryTypes x => x.length
  | .primaryKey x => x.length
  | .primaryKeyPrefix x => x.length
  | .enumSetDefaultCharset x => charsetSize x
  | .enumSetColumnCharset x => x.length
  | .visibility x => bitBytes x

/-- No more bits than columns. -/
def FewBits (columns : Nat) : MetaField → Prop
  | .signedness x => x.length ≤ columns
  | .visibility x => x.length ≤ columns
  | _ => True

theorem payload_size {types : Bytes} {code : UInt8} {f : MetaField} {e : Bytes} (h : LoosePayload types code f e) :
    fieldSize f ≤ e.length ∧ FewBits types.length f := by
  cases h with
  | signedness h => exact ⟨(msb_size h).1, by have := (msb_size h).2; have := List.length_filter_le isNumeric types; simp only [FewBits]; omega⟩
  | visibility h => exact ⟨(msb_size h).1, Nat.le_of_eq (msb_size h).2⟩
  | defaultCharset h | enumSetDefaultCharset h => exact ⟨charset_size h, trivial⟩
  | columnCharset h | geometryTypes h | primaryKey h | enumSetColumnCharset h => exact ⟨nums_size h, trivial⟩
  | primaryKeyPrefix h => exact ⟨pairs_size h, trivial⟩
  | columnName h => have := each_sum (fun _ _ h => text_size h) h; exact ⟨by simp only [fieldSize, textsSize]; omega, trivial⟩
  | setValues h | enumValues h => have := each_sum (fun _ _ h => values_size h) h; exact ⟨by simp only [fieldSize, valuesSize]; omega, trivial⟩

theorem field_size {types : Bytes} {f : MetaField} {e : Bytes} (h : LooseField types f e) : fieldSize f ≤ 1 * e.length ∧ FewBits types.length f := by
  obtain ⟨code, len, payload, hp, -, -, rfl⟩ := h
  have := payload_size hp
  refine ⟨?_, this.2⟩
  simp only [List.length_append]
  omega

theorem member_sum {α : Type} {f : α → Nat} {xs : List α} {x : α} (h : x ∈ xs) : f x ≤ (xs.map f).sum := by
  induction xs with
  | nil => simp at h
  | cons y ys ih =>
    simp only [List.map_cons, List.sum_cons]
    rcases List.mem_cons.mp h with rfl | h
    · omega
    · have := ih h; omega

theorem lastOf_size {α β : Type} (size : β → Nat) (f : α → Option β) (xs : List α) :
    optSize size (lastOf f xs) ≤ (xs.map fun x => optSize size (f x)).sum := by
  unfold lastOf
  rcases hl : (xs.filterMap f).getLast? with _ | b
  · exact Nat.zero_le _
  · obtain ⟨x, hx, hb⟩ := List.mem_filterMap.mp (List.mem_of_getLast? hl)
    have := member_sum (f := fun x => optSize size (f x)) hx
    rwa [hb] at this

theorem lastOf_all {α β : Type} {Q : β → Prop} (f : α → Option β) {xs : List α} (h : ∀ x ∈ xs, ∀ b, f x = some b → Q b) {b : β}
    (hb : lastOf f xs = some b) : Q b := by
  obtain ⟨x, hx, hb⟩ := List.mem_filterMap.mp (List.mem_of_getLast? hb)
  exact h x hx b hb

/-- The metadata with its bits by the bytes that they need. -/
def packedSize (t : TableMetadata) : Nat :=
  optSize bitBytes t.signedness + optSize charsetSize t.defaultCharset + optSize List.length t.columnCharsets + optSize textsSize t.columnNames +
    optSize valuesSize t.setStringValues + optSize valuesSize t.enumStringValues + optSize List.length t.geometryTypes +
    optSize List.length t.simplePrimaryKeys + optSize List.length t.primaryKeysWithPrefix + optSize charsetSize t.enumAndSetDefaultCharset +
    optSize List.length t.enumAndSetColumnCharsets + optSize bitBytes t.columnVisibility

theorem packed_size {fields : List MetaField} {t : TableMetadata} (h : MetaOf fields t) : packedSize t ≤ (fields.map fieldSize).sum := by
  have key : ∀ (f1 f2 : MetaField → Nat) (fs : List MetaField), (fs.map f1).sum + (fs.map f2).sum = (fs.map fun x => f1 x + f2 x).sum := by
    intro f1 f2 fs
    induction fs with
    | nil => rfl
    | cons x xs ih => simp only [List.map_cons, List.sum_cons, ← ih]; omega
  unfold packedSize
  rw [h.signedness, h.defaultCharset, h.columnCharsets, h.columnNames, h.setStringValues, h.enumStringValues, h.geometryTypes, h.simplePrimaryKeys,
    h.primaryKeysWithPrefix, h.enumAndSetDefaultCharset, h.enumAndSetColumnCharsets, h.columnVisibility]
  refine Nat.le_trans (Nat.add_le_add (Nat.add_le_add (Nat.add_le_add (Nat.add_le_add (Nat.add_le_add (Nat.add_le_add (Nat.add_le_add (Nat.add_le_add
    (Nat.add_le_add (Nat.add_le_add (Nat.add_le_add (lastOf_size _ _ _) (lastOf_size _ _ _)) (lastOf_size _ _ _)) (lastOf_size _ _ _))
    (lastOf_size _ _ _)) (lastOf_size _ _ _)) (lastOf_size _ _ _)) (lastOf_size _ _ _)) (lastOf_size _ _ _)) (lastOf_size _ _ _)) (lastOf_size _ _ _))
    (lastOf_size _ _ _)) ?_
  simp only [key]
  refine sums_le fun f _ => ?_
  cases f <;> simp [optSize, fieldSize]

theorem metadata_size {columns : Nat} {fields : List MetaField} {t : TableMetadata} (h : MetaOf fields t) (hf : ∀ f ∈ fields, FewBits columns f) :
    metadataSize t ≤ 4 * (fields.map fieldSize).sum + columns := by
  have h0 := packed_size h
  have bits : ∀ b : Option (List Bool), (∀ x, b = some x → x.length ≤ columns) → 2 * optSize List.length b ≤ 8 * optSize bitBytes b + columns := by
    intro b hb
    cases b with
    | none => simp [optSize]
    | some x =>
      have := hb x rfl
      simp only [optSize, Option.map_some, Option.getD_some, bitBytes, bytesFor]
      omega
  have h1 := bits t.signedness fun x hx => by
    rw [h.signedness] at hx
    refine lastOf_all (Q := fun x => x.length ≤ columns) _ (fun f hm b hb => ?_) hx
    have := hf f hm
    cases f <;> simp at hb
    subst hb; exact this
  have h2 := bits t.columnVisibility fun x hx => by
    rw [h.columnVisibility] at hx
    refine lastOf_all (Q := fun x => x.length ≤ columns) _ (fun f hm b hb => ?_) hx
    have := hf f hm
    cases f <;> simp at hb
    subst hb; exact this
  unfold packedSize at h0
  unfold metadataSize
  omega

theorem looseMetadata_size {types : Bytes} {t : Option TableMetadata} {e : Bytes} (h : LooseMetadata types t e) :
    optSize metadataSize t ≤ 4 * e.length + types.length := by
  rcases h with ⟨-, rfl⟩ | ⟨-, fields, md, h1, h2, rfl⟩
  · exact Nat.zero_le _
  · have h3 := metadata_size h2 (each_all (Q := FewBits types.length) (fun _ _ h => (field_size h).2) h1)
    have h4 := each_sum (f := fieldSize) (k := 1) (fun _ _ h => (field_size h).1) h1
    simp only [optSize, Option.map_some, Option.getD_some]
    omega

theorem tableMap_size {t : TableMapEvent} {e : Bytes} (h : LooseTableMap t e) : 1 + tableMapSize t ≤ 4 * e.length := by
  obtain @⟨tableId, metaSize, flags, db, table, columns, nulls, z1, z2, count, metaLength, colMeta, bitmap, opt, md, _, _, _, _, _, _, _, _, h9, _, h11⟩ := h
  have := looseMetadata_size h11
  simp only [tableMapSize, List.length_append, List.length_map, h9, le_length] at this ⊢
  omega

/-! ## GTID sets -/

theorem sublist_sum {α : Type} {f : α → Nat} {xs ys : List α} (h : xs.Sublist ys) : (xs.map f).sum ≤ (ys.map f).sum := by
  induction h with
  | slnil => simp
  | cons _ _ ih => simp only [List.map_cons, List.sum_cons]; omega
  | cons_cons _ _ ih => simp only [List.map_cons, List.sum_cons]; omega

theorem previousInterval_length {m : Mode} {iv : Interval} {e : Bytes} (h : PreviousInterval m iv e) : e ≠ [] := by
  cases h <;> simp [le]

theorem server_size {m : Mode} {s : Bytes × List Interval} {e : Bytes} (h : PreviousServer m s e) :
    entrySize (uuidText s.1, ⟨⟨s.1, uuidText s.1⟩, s.2⟩) ≤ 4 * e.length := by
  obtain ⟨data, h1, -, h3, rfl⟩ := h
  have := each_count (fun _ _ h => previousInterval_length h) h3
  have := uuidText_length s.1 h1
  simp only [entrySize, uuidSize, List.length_append, le_length]
  omega

theorem previous_size {m : Mode} {g : GtidSet} {e : Bytes} (h : LoosePrevious m g e) : (g.uuidSets.map entrySize).sum ≤ 4 * e.length := by
  obtain @⟨sets, g, data, extra, -, h2, hg⟩ := h
  have h3 := each_sum (fun _ _ h => server_size h) h2
  have hsub : g.uuidSets ⊆ sets.map fun s => (uuidText s.1, (⟨⟨s.1, uuidText s.1⟩, s.2⟩ : UuidSet)) := by
    rintro ⟨k, s⟩ hmem
    obtain ⟨sid, ivs, ⟨before, after, rfl, -⟩, rfl, rfl⟩ := (hg.2 k s).mp hmem
    exact List.mem_map.mpr ⟨(sid, ivs), by simp, rfl⟩
  obtain ⟨l, hp, hl⟩ := List.subperm_of_subset (nodup_of_keys hg.1) hsub
  have h4 := sublist_sum (f := entrySize) hl
  have h5 := (hp.map entrySize).sum_nat
  rw [List.map_map] at h4
  simp only [Function.comp_def] at h4
  simp only [List.length_append]
  omega

/-! ## C143 -/

variable {m : Mode} {st : EventParser} {header : EventHeader} {slice : Bytes} {event : BinlogEvent}

theorem accepted_event_size {body : Bytes} (h : Accepted m header event body) : eventSize event ≤ 4 * body.length := by
  cases h with
  | plain h =>
    generalize header.eventType = code at h
    cases h with
    | mySqlGtid h1 h2 h3 =>
      have := uuidText_length _ h2
      simp only [eventSize, uuidSize, List.length_append, le_length]
      omega
    | _ => simp [eventSize, optSize, decodedSize, rowsOf, le_length] <;> omega
  | maria h =>
    generalize header.eventType = code at h
    cases h with
    | gtid => simp [eventSize, decodedSize, rowsOf]
    | @gtidList gtids extra =>
      have : ∀ gs : List MGtid, (gs.flatMap fun g => le 4 g.domainId ++ le 4 g.serverId ++ le 8 g.sequence).length = 16 * gs.length := by
        intro gs
        induction gs with
        | nil => rfl
        | cons g gs ih => simp only [List.flatMap_cons, List.length_append, le_length, ih, List.length_cons]; omega
      simp only [eventSize, List.length_append, this]
      omega
  | query _ h =>
    cases h
    simp only [eventSize, List.length_append]
    omega
  | noRowsQuery => simp [eventSize, utf8Bytes]
  | previous _ h => exact previous_size h
  | format _ h =>
    cases h
    simp only [eventSize, List.length_append]
    omega
  | tableMap _ h => have := tableMap_size h; simp only [eventSize]; omega
  | unknown => simp [eventSize, decodedSize, rowsOf]

/-- **C143**: an event that is not a row event is, decoded, at most four times as large as its bytes. -/
theorem C143_events (hr : header.eventType ∉ rowCodes) (h : (parseEvent m st header slice).1 = .ok event) : eventSize event ≤ 4 * slice.length := by
  obtain ⟨body, ⟨sum, _, rfl⟩, h'⟩ := C81_sound hr h
  have := accepted_event_size h'
  rw [List.length_append]
  omega

/-- Three times is not enough: two servers of previous GTIDs without intervals, whose uuids are kept as bytes and twice as text. -/
theorem C143_not_three : ∃ (header : EventHeader) (slice : Bytes) (event : BinlogEvent), header.eventType ∉ rowCodes ∧
    (∀ m, (parseEvent m EventParser.new header slice).1 = .ok event) ∧ 3 * slice.length < eventSize event := by
  refine ⟨⟨0, 35, 1, 0, 0, 0⟩, le 8 2 ++ (List.replicate 16 1 ++ le 8 0) ++ (List.replicate 16 2 ++ le 8 0),
    .mySqlPrevGtids ⟨⟨[(uuidText (List.replicate 16 1), ⟨⟨List.replicate 16 1, uuidText (List.replicate 16 1)⟩, []⟩),
      (uuidText (List.replicate 16 2), ⟨⟨List.replicate 16 2, uuidText (List.replicate 16 2)⟩, []⟩)]⟩⟩, by decide, ?_, by decide +kernel⟩
  rintro ⟨_ | _⟩ <;> decide +kernel

theorem insert_sum {κ ν : Type} [DecidableEq κ] (f : ν → Nat) (cache : HMap κ ν) (k : κ) (v : ν) :
    ((cache.insert k v).map fun e => f e.2).sum ≤ (cache.map fun e => f e.2).sum + f v := by
  induction cache with
  | nil => simp [HMap.insert]
  | cons e rest ih =>
    obtain ⟨k', v'⟩ := e
    rw [HMap.insert]
    split <;> simp only [List.map_cons, List.sum_cons] <;> omega

/-- The table maps that are kept after one event. -/
theorem parse_cache : cacheSize (parseEvent m st header slice).2.tableMap ≤ cacheSize st.tableMap + 4 * slice.length := by
  cases hp : (parseEvent m st header slice).1 with
  | ok event =>
    have hst : (parseEvent m st header slice).2 = st.record event := by
      revert hp
      unfold parseEvent
      split
      · split <;> intro hp <;> simp_all
      all_goals simp
    rw [hst]
    cases event with
    | tableMap t =>
      by_cases hr : header.eventType ∈ rowCodes
      · exfalso
        obtain ⟨body, -, h⟩ := parseEvent_ok_iff.1 hp
        simp only [rowCodes, List.mem_cons, List.not_mem_nil, or_false] at hr
        rcases hr with hr | hr | hr | hr | hr | hr <;>
        · simp only [dispatchEvent, hr, EventType.fromCode, P.run] at h
          split at h
          · next h' =>
            obtain ⟨x, -, h'⟩ := bind_inv h'
            simp only [P.ret_apply, Res.ok.injEq, Prod.mk.injEq] at h' h
            rw [h] at h'
            cases h'.1
          all_goals simp at h
      · obtain ⟨body, ⟨sum, _, rfl⟩, h'⟩ := C81_sound hr hp
        have h1 : 1 + tableMapSize t ≤ 4 * body.length := by
          cases h' with
          | tableMap _ h => exact tableMap_size h
          | plain h => generalize header.eventType = code at h; cases h
          | maria h => generalize header.eventType = code at h; cases h
        have := insert_sum (fun t => 1 + tableMapSize t) st.tableMap t.tableId t
        simp only [EventParser.record, cacheSize, List.length_append] at this ⊢
        omega
    | _ => exact Nat.le_add_right _ _
  | _ =>
    have hst : (parseEvent m st header slice).2 = st := by
      revert hp
      unfold parseEvent
      split
      · split <;> simp
      all_goals simp
    rw [hst]
    exact Nat.le_add_right _ _

/-- What the decoder keeps: the last table map of each table. After any events, accepted or refused, these are together at most four times as large as the
bytes of the events. -/
theorem C143_kept (m : Mode) (st : EventParser) (events : List (EventHeader × Bytes)) :
    cacheSize (events.foldl (fun st e => (parseEvent m st e.1 e.2).2) st).tableMap ≤ cacheSize st.tableMap + 4 * (events.map fun e => e.2.length).sum := by
  induction events generalizing st with
  | nil => simp
  | cons e es ih =>
    have h1 := ih (parseEvent m st e.1 e.2).2
    have h2 := parse_cache (m := m) (st := st) (header := e.1) (slice := e.2)
    simp only [List.foldl_cons, List.map_cons, List.sum_cons]
    omega

theorem insert_keys {κ ν : Type} [DecidableEq κ] (cache : HMap κ ν) (k : κ) (v : ν) {x : κ} (h : x ∈ cache.map (·.1)) :
    x ∈ (cache.insert k v).map (·.1) := by
  induction cache with
  | nil => simp at h
  | cons e rest ih =>
    obtain ⟨k', v'⟩ := e
    rw [HMap.insert]
    split
    · simpa using h
    · simp only [List.map_cons, List.mem_cons] at h ⊢
      exact h.imp_right ih

/-- Nothing that is kept is ever dropped: a table that the decoder knows it knows after any further events. So what it keeps grows with each new table, and
with the tables that are dropped and made again under new numbers. -/
theorem C143_never_dropped (m : Mode) (st : EventParser) (events : List (EventHeader × Bytes)) {id : Nat} (h : id ∈ st.tableMap.map (·.1)) :
    id ∈ (events.foldl (fun st e => (parseEvent m st e.1 e.2).2) st).tableMap.map (·.1) := by
  induction events generalizing st with
  | nil => exact h
  | cons e es ih =>
    refine ih _ ?_
    change id ∈ (parseEvent m st e.1 e.2).2.tableMap.map (·.1)
    unfold parseEvent
    split
    · split
      · next event _ =>
        cases event with
        | tableMap t => exact insert_keys _ _ _ h
        | _ => exact h
      all_goals exact h
    all_goals exact h

/-! ## Examples -/

/-- A table map of the table `d.t` with two columns and their names. -/
def exSizeMap : Bytes := [7, 0, 0, 0, 0, 0, 0, 0, 1, 100, 0, 1, 116, 0, 2, 3, 3, 0, 0, 4, 4, 1, 97, 1, 98]

/-- What it is decoded as. -/
def exSizeTable : TableMapEvent :=
  ⟨7, ['d'], ['t'], [3, 3], [0, 0], [false, false], some { TableMetadata.empty with columnNames := some [['a'], ['b']] }⟩

example : ∀ m, (parseEvent m EventParser.new ⟨0, 19, 1, 0, 0, 0⟩ exSizeMap).1 = .ok (.tableMap exSizeTable) := by
  rintro ⟨_ | _⟩ <;> decide +kernel
example : eventSize (.tableMap exSizeTable) = 12 ∧ exSizeMap.length = 25 := by decide +kernel
example : eventSize (.tableMap exSizeTable) ≤ 4 * exSizeMap.length :=
  C143_events (m := ⟨true⟩) (st := EventParser.new) (header := ⟨0, 19, 1, 0, 0, 0⟩) (by decide) (by decide +kernel)
-- the same table twice and something that is refused: one table map is kept
example : ∀ m, cacheSize ([(⟨0, 19, 1, 0, 0, 0⟩, exSizeMap), (⟨0, 16, 1, 0, 0, 0⟩, [1]), (⟨0, 19, 1, 0, 0, 0⟩, exSizeMap)].foldl
    (fun st (e : EventHeader × Bytes) => (parseEvent m st e.1 e.2).2) EventParser.new).tableMap = 13 := by
  rintro ⟨_ | _⟩ <;> decide +kernel
-- other tables, rotations and whatever else do not make it forget the table 7
example : 7 ∈ ([(⟨0, 19, 1, 0, 0, 0⟩, 8 :: exSizeMap.tail), (⟨0, 4, 1, 0, 0, 0⟩, [4, 0, 0, 0, 0, 0, 0, 0, 98])].foldl
    (fun st (e : EventHeader × Bytes) => (parseEvent ⟨true⟩ st e.1 e.2).2) ⟨.none, [(7, exSizeTable)]⟩).tableMap.map (·.1) :=
  C143_never_dropped ⟨true⟩ ⟨.none, [(7, exSizeTable)]⟩ _ (by decide +kernel)

end MysqlCdc
