import Verif.Spec.Rows
import Verif.Lemmas.TableMap
import Verif.Lemmas.Decimal
/-!
# Round-trip of rows and row events
-/

namespace MysqlCdc

open Spec

theorem cell_parses (m : Mode) {t : UInt8} {md : Nat} {v : MySqlValue} {e : Bytes} (h : Cell t md v e) :
    Parses (parseColumn m t.toNat md) e v := by
  cases h with
  | number h => exact numberCell_parses m h
  | decimal h => exact decimalCell_parses m h
  | time h hy => exact timeCell_parses m h hy
  | data h => exact dataCell_parses m h

theorem rowCells_length {cs : List (UInt8 × Nat)} {ss : List ColState} {e : Bytes} (h : RowCells cs ss e) :
    ss.length = cs.length := by
  induction h <;> simp_all

theorem rowLoop_parses (m : Mode) (table : TableMapEvent) {cs : List (UInt8 × Nat)} {ss : List ColState} {e : Bytes}
    (h : RowCells cs ss e) : ∀ (cs0 : List (UInt8 × Nat)) (ss0 : List ColState) (present nulls : List Bool),
    ss0.length = cs0.length → Describes table (cs0 ++ cs) → present = (ss0 ++ ss).map ColState.present →
    nulls = (ss0 ++ ss).filterMap ColState.nullFlag →
    Parses (rowLoop m table present nulls (List.range' cs0.length cs.length)
      (cs0.length - (ss0.filterMap ColState.nullFlag).length)) e (ss.map ColState.cell) := by
  induction h with
  | nil => intro cs0 ss0 present nulls _ _ _ _; exact Parses.pure []
  | @absent c cs ss e h ih =>
    intro cs0 ss0 present nulls hl hd hp hn
    rw [List.length_cons, List.range'_succ, rowLoop.eq_def]
    have hle : (ss0.filterMap ColState.nullFlag).length ≤ ss0.length := List.length_filterMap_le _ _
    have hi : present[cs0.length]? = some false := by
      rw [hp, ← hl]; simp [ColState.present]
    have ih' := ih (cs0 ++ [c]) (ss0 ++ [.absent]) present nulls (by simp [hl]) (by simpa using hd) (by simpa using hp)
      (by simpa using hn)
    simp only [hi]
    simp only [List.length_append, List.length_singleton, List.filterMap_append, List.filterMap_cons, List.filterMap_nil,
      ColState.nullFlag, List.append_nil] at ih'
    rw [show cs0.length + 1 - (ss0.filterMap ColState.nullFlag).length
      = cs0.length - (ss0.filterMap ColState.nullFlag).length + 1 by omega] at ih'
    exact ih'.map _
  | @null c cs ss e h ih =>
    intro cs0 ss0 present nulls hl hd hp hn
    rw [List.length_cons, List.range'_succ, rowLoop.eq_def]
    have hle : (ss0.filterMap ColState.nullFlag).length ≤ ss0.length := List.length_filterMap_le _ _
    have hi : present[cs0.length]? = some true := by
      rw [hp, ← hl]; simp [ColState.present]
    have hj : nulls[cs0.length - (cs0.length - (ss0.filterMap ColState.nullFlag).length)]? = some true := by
      rw [show cs0.length - (cs0.length - (ss0.filterMap ColState.nullFlag).length) = (ss0.filterMap ColState.nullFlag).length by omega,
        hn]
      simp [ColState.nullFlag]
    have ih' := ih (cs0 ++ [c]) (ss0 ++ [.null]) present nulls (by simp [hl]) (by simpa using hd) (by simpa using hp)
      (by simpa using hn)
    simp only [hi, hj]
    simp only [List.length_append, List.length_singleton, List.filterMap_append, List.filterMap_cons, List.filterMap_nil,
      ColState.nullFlag] at ih'
    rw [show cs0.length + 1 - ((ss0.filterMap ColState.nullFlag).length + 1)
      = cs0.length - (ss0.filterMap ColState.nullFlag).length by omega] at ih'
    exact ih'.map _
  | @value t md cs v ss e es hc h ih =>
    intro cs0 ss0 present nulls hl hd hp hn
    rw [List.length_cons, List.range'_succ, rowLoop.eq_def]
    have hle : (ss0.filterMap ColState.nullFlag).length ≤ ss0.length := List.length_filterMap_le _ _
    have hi : present[cs0.length]? = some true := by
      rw [hp, ← hl]; simp [ColState.present]
    have hj : nulls[cs0.length - (cs0.length - (ss0.filterMap ColState.nullFlag).length)]? = some false := by
      rw [show cs0.length - (cs0.length - (ss0.filterMap ColState.nullFlag).length) = (ss0.filterMap ColState.nullFlag).length by omega,
        hn]
      simp [ColState.nullFlag]
    have ht : table.columnTypes[cs0.length]? = some t := by rw [hd.1]; simp
    have hm : table.columnMetadata[cs0.length]? = some md := by rw [hd.2]; simp
    have ih' := ih (cs0 ++ [(t, md)]) (ss0 ++ [.value v]) present nulls (by simp [hl]) (by simpa using hd) (by simpa using hp)
      (by simpa using hn)
    simp only [hi, hj, ht, hm]
    simp only [List.length_append, List.length_singleton, List.filterMap_append, List.filterMap_cons, List.filterMap_nil,
      ColState.nullFlag] at ih'
    rw [show cs0.length + 1 - ((ss0.filterMap ColState.nullFlag).length + 1)
      = cs0.length - (ss0.filterMap ColState.nullFlag).length by omega] at ih'
    exact (cell_parses m hc).bind (ih'.map _)

theorem bits_present (ss : List ColState) :
    getBitsNumber (ss.map ColState.present) = (ss.filterMap ColState.nullFlag).length := by
  unfold getBitsNumber
  induction ss with
  | nil => rfl
  | cons s ss ih => cases s <;> simp_all [ColState.present, ColState.nullFlag, List.filterMap_cons]

theorem image_parses (m : Mode) {table : TableMapEvent} {columns : List (UInt8 × Nat)} {present : List Bool}
    {states : List ColState} {e : Bytes} (ht : Describes table columns) (hlen : columns.length < 2 ^ 63)
    (h : Image columns present states e) :
    Parses (parseRow m table present (getBitsNumber present)) e ⟨states.map ColState.cell⟩ := by
  obtain ⟨hp, bitmap, data, hb, hc, rfl⟩ := h
  subst hp
  unfold parseRow
  rw [bits_present]
  have hl := rowCells_length hc
  have hle : (states.filterMap ColState.nullFlag).length ≤ states.length := List.length_filterMap_le _ _
  refine (readBitmapLittleEndian_parses hb (by omega)).bind ?_
  have := rowLoop_parses m table hc [] [] (states.map ColState.present) (states.filterMap ColState.nullFlag) rfl ht rfl rfl
  simp only [List.length_nil, List.filterMap_nil, Nat.sub_self] at this
  rw [List.range_eq_range', show table.columnTypes.length = columns.length by rw [ht.1]; simp]
  exact this.map _

/-- A row image takes space as soon as one column is present. -/
theorem image_ne_nil {columns : List (UInt8 × Nat)} {present : List Bool} {states : List ColState} {e : Bytes}
    (h : Image columns present states e) (hp : true ∈ present) : e ≠ [] := by
  obtain ⟨rfl, bitmap, data, hb, _, rfl⟩ := h
  have hne : states.filterMap ColState.nullFlag ≠ [] := by
    rw [List.mem_map] at hp
    obtain ⟨s, hs, hs'⟩ := hp
    cases s with
    | absent => simp [ColState.present] at hs'
    | null => exact List.ne_nil_of_mem (List.mem_filterMap.2 ⟨_, hs, rfl⟩)
    | value v => exact List.ne_nil_of_mem (List.mem_filterMap.2 ⟨_, hs, rfl⟩)
  have h1 : 0 < (states.filterMap ColState.nullFlag).length := List.length_pos_iff.2 hne
  have h2 := hb.1
  intro h
  simp only [List.append_eq_nil_iff] at h
  rw [h.1] at h2
  simp only [List.length_nil, bytesFor] at h2
  omega

theorem rowsHead_parses {version tableId flags columns : Nat} {e : Bytes} (h : RowsHead version tableId flags columns e) :
    Parses (parseHead version) e (tableId, flags, columns) := by
  unfold parseHead
  cases h with
  | @v1 _ _ _ count h1 h2 h3 =>
    rw [List.append_assoc]
    refine (uLE_parses (k := 6) (by simpa using h1)).bind ?_
    refine (uLE_parses (k := 2) (by simpa using h2)).bind ?_
    rw [if_neg (by decide)]
    exact (readLenEncNum_parses h3).map _
  | @v2 _ _ _ extra count h1 h2 he h3 =>
    simp only [List.append_assoc]
    refine (uLE_parses (k := 6) (by simpa using h1)).bind ?_
    refine (uLE_parses (k := 2) (by simpa using h2)).bind ?_
    rw [if_pos trivial]
    refine (uLE_parses (k := 2) (by simpa using he)).bind ?_
    rw [show ((extra.length + 2 : Nat) : Int) - 2 = (extra.length : Int) by omega]
    refine (seek_parses rfl).bind ?_
    exact (readLenEncNum_parses h3).map _

theorem each_map {α β : Type} {R : α → Bytes → Prop} {S : β → Bytes → Prop} {f : α → β} {vs : List α} {e : Bytes}
    (h : Each R vs e) (hi : ∀ v e, R v e → S (f v) e) : Each S (vs.map f) e := by
  induction h with
  | nil => exact .nil
  | cons h _ ih => exact .cons (hi _ _ h) ih

theorem rowsEvent_parses (m : Mode) {version : Nat} {columns : List (UInt8 × Nat)} {tableId flags : Nat} {present : List Bool}
    {rows : List (List ColState)} {body : Bytes} {cache : TableMapCache} {table : TableMapEvent}
    (hc : cache.get? tableId = some table) (ht : Describes table columns) (hlen : columns.length < 2 ^ 63)
    (hp : true ∈ present ∨ rows = []) (h : RowsBody version columns tableId flags present rows body) :
    ParsesEnd (parseRowsEvent m cache version) body
      ⟨tableId, flags, columns.length, present, rows.map fun r => ⟨r.map ColState.cell⟩⟩ := by
  cases h with
  | mk hn hh hb hr =>
    unfold parseRowsEvent
    rw [List.append_assoc]
    refine (rowsHead_parses hh).bindEnd ?_
    rw [← hn]
    refine (readBitmapLittleEndian_parses hb (by omega)).bindEnd ?_
    refine ParsesEnd.map (f := fun rows => (⟨tableId, flags, present.length, present, rows⟩ : RowsEvent)) ?_
    unfold parseRowDataList
    rw [hc]
    rcases hp with hp | rfl
    · exact whileData_each (each_map hr fun v e h => ⟨image_parses m ht hlen h, image_ne_nil h hp⟩)
    · cases hr
      exact whileData_each (vs := []) .nil

theorem updateRowsEvent_parses (m : Mode) {version : Nat} {columns : List (UInt8 × Nat)} {tableId flags : Nat}
    {before after : List Bool} {rows : List (List ColState × List ColState)} {body : Bytes} {cache : TableMapCache}
    {table : TableMapEvent} (hc : cache.get? tableId = some table) (ht : Describes table columns) (hlen : columns.length < 2 ^ 63)
    (hp : true ∈ before ∨ true ∈ after ∨ rows = []) (h : UpdateRowsBody version columns tableId flags before after rows body) :
    ParsesEnd (parseUpdateRowsEvent m cache version) body
      ⟨tableId, flags, columns.length, before, after, rows.map fun r => ⟨⟨r.1.map ColState.cell⟩, ⟨r.2.map ColState.cell⟩⟩⟩ := by
  cases h with
  | mk hn1 hn2 hh hb1 hb2 hr =>
    unfold parseUpdateRowsEvent
    simp only [List.append_assoc]
    refine (rowsHead_parses hh).bindEnd ?_
    simp only
    have h1 := readBitmapLittleEndian_parses hb1 (by omega)
    have h2 := readBitmapLittleEndian_parses hb2 (by omega)
    rw [hn1] at h1
    rw [hn2] at h2
    refine h1.bindEnd ?_
    refine h2.bindEnd ?_
    refine ParsesEnd.map (f := fun rows => (⟨tableId, flags, columns.length, before, after, rows⟩ : UpdateRowsEvent)) ?_
    unfold parseUpdateRowDataList
    rw [hc]
    have key : ∀ v e, ImagePair columns before after v e →
        Parses (do
          let beforeUpdate ← parseRow m table before (getBitsNumber before)
          let afterUpdate ← parseRow m table after (getBitsNumber after)
          return ({ beforeUpdate, afterUpdate } : UpdateRowData)) e ⟨⟨v.1.map ColState.cell⟩, ⟨v.2.map ColState.cell⟩⟩ := by
      rintro v e ⟨e1, e2, i1, i2, rfl⟩
      exact (image_parses m ht hlen i1).bind ((image_parses m ht hlen i2).map _)
    have hne : (true ∈ before ∨ true ∈ after) → ∀ v e, ImagePair columns before after v e → e ≠ [] := by
      rintro hp v e ⟨e1, e2, i1, i2, rfl⟩
      rcases hp with hp | hp
      · simp [image_ne_nil i1 hp]
      · simp [image_ne_nil i2 hp]
    rcases hp with hp | hp | rfl
    · exact whileData_each (each_map hr fun v e h => ⟨key v e h, hne (.inl hp) v e h⟩)
    · exact whileData_each (each_map hr fun v e h => ⟨key v e h, hne (.inr hp) v e h⟩)
    · cases hr
      exact whileData_each (vs := []) .nil

end MysqlCdc
