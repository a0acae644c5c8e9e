import Verif.Props.AcceptedRows
import Verif.Props.TableMap
import Verif.Spec.RowSize
import Mathlib.Data.Nat.Digits.Defs

/-!
How large the rows of an event are, once decoded, against its bytes (C142).
-/

namespace MysqlCdc

open Spec

/-! ## One value -/

theorem digits_of_bytes {k n : Nat} (hk : k ≤ 4) (hn : n < 256 ^ k) : (Nat.toDigits 10 n).length ≤ max 1 (3 * k) := by
  have : k = 0 ∨ k = 1 ∨ k = 2 ∨ k = 3 ∨ k = 4 := by omega
  rcases this with rfl | rfl | rfl | rfl | rfl
  · exact Nat.toDigits_length 10 n 1 (by omega) (by omega)
  · exact Nat.toDigits_length 10 n 3 (by omega) (by omega)
  · exact Nat.toDigits_length 10 n 6 (by omega) (by omega)
  · exact Nat.toDigits_length 10 n 9 (by omega) (by omega)
  · exact Nat.toDigits_length 10 n 12 (by omega) (by omega)

theorem padded_length {w k n : Nat} (hk : k ≤ 4) (hn : n < 256 ^ k) : (padded w n).length ≤ max w (max 1 (3 * k)) := by
  have := digits_of_bytes hk hn
  simp only [padded, List.length_append, List.length_replicate]
  omega

theorem groups_length {gs : List Nat} (h : ∀ n ∈ gs, n < 2 ^ 32) : (gs.flatMap (padded 9)).length ≤ 12 * gs.length := by
  induction gs with
  | nil => simp
  | cons g gs ih =>
    have h1 := ih fun n hn => h n (.tail _ hn)
    have h2 := padded_length (w := 9) (k := 4) (n := g) (by omega) (h g (.head _))
    simp only [List.flatMap_cons, List.length_append, List.length_cons]
    omega

theorem groupsText_length {k lead : Nat} {gs : List Nat} (hk : k ≤ 4) (hl : lead < 256 ^ k) (h : ∀ n ∈ gs, n < 2 ^ 32) :
    (groupsText (lead :: gs)).length ≤ 1 + 3 * k + 12 * gs.length := by
  have key : ∀ gs : List Nat, (∀ n ∈ gs, n < 2 ^ 32) → (groupsText gs).length ≤ 1 + 12 * gs.length := by
    intro gs h
    have hsub := List.dropWhile_sublist (l := gs) (· == 0)
    unfold groupsText
    rcases hd : gs.dropWhile (· == 0) with _ | ⟨n, rest⟩
    · simp
    · rw [hd] at hsub
      have h1 := digits_of_bytes (k := 4) (n := n) (by omega) (h n (hsub.subset (.head _)))
      have h2 := groups_length (gs := rest) fun x hx => h x (hsub.subset (.tail _ hx))
      have h3 := hsub.length_le
      simp only [List.length_append, List.length_cons] at h3 ⊢
      omega
  by_cases h0 : lead = 0
  · subst h0
    have : groupsText (0 :: gs) = groupsText gs := by simp [groupsText, List.dropWhile]
    rw [this]
    have := key gs h
    omega
  · have h0' : (lead == 0) = false := by simpa using h0
    have h1 := digits_of_bytes hk hl
    have h2 := groups_length h
    simp only [groupsText, List.dropWhile, h0', List.length_append]
    omega

theorem groupBytes_le (d : Nat) : groupBytes d ≤ 4 := by unfold groupBytes; omega

theorem decimal_content {m : Mode} {md : Nat} {s : RStr} {e : Bytes} (h : LooseDecimal m md s e) : s.length ≤ 8 * e.length := by
  obtain @⟨p, s, digits, lead, tail, groups, fgroups, negative, body, hp, hs, hd, hl, hg, hg', hf, hf', ht, hb, htop⟩ := h
  rw [signed_length]
  have h1 := groupsText_length (groupBytes_le (digits % 9)) hl hg'
  have h2 := groups_length hf'
  have h3 := padded_length (w := s % 9) (groupBytes_le (s % 9)) ht
  have hw : s % 9 ≤ 3 * groupBytes (s % 9) := by unfold groupBytes; omega
  have hpos : 1 ≤ body.length := by obtain ⟨b, bs, rfl, _⟩ := htop; simp
  have hlen : body.length = groupBytes (digits % 9) + 4 * groups.length + 4 * fgroups.length + groupBytes (s % 9) := by
    have : ∀ gs : List Nat, (gs.flatMap (be 4)).length = 4 * gs.length := by
      intro gs
      induction gs with
      | nil => rfl
      | cons g gs ih => simp only [List.flatMap_cons, List.length_append, be_length, List.length_cons, ih]; omega
    rw [hb]; simp only [List.length_append, be_length, this]
  have h4 : (if negative then ['-'] else [] : RStr).length ≤ 1 := by cases negative <;> simp
  have h5 : (if s % 9 = 0 then [] else padded (s % 9) tail : RStr).length ≤ 3 * groupBytes (s % 9) := by
    split
    · simp
    · have : 1 ≤ groupBytes (s % 9) := by unfold groupBytes; omega
      omega
  have h6 : (if s = 0 then [] else '.' :: (fgroups.flatMap (padded 9) ++ if s % 9 = 0 then [] else padded (s % 9) tail) : RStr).length ≤
      1 + 12 * fgroups.length + 3 * groupBytes (s % 9) := by
    split
    · simp
    · simp only [List.length_cons, List.length_append]; omega
  simp only [List.length_append]
  omega

theorem blob_content {w : Nat} {bs e : Bytes} (h : LooseBlob w bs e) : bs.length ≤ 8 * e.length := by
  obtain ⟨len, _, _, rfl⟩ := h
  simp only [List.length_append]
  omega

theorem text_content {w : Nat} {s : RStr} {e : Bytes} (h : LooseText w s e) : (utf8Bytes s).length ≤ 8 * e.length := by
  rw [h.2, List.length_append]
  omega

theorem bit_content {md : Nat} {bits : List Bool} {e : Bytes} (h : LooseBit md bits e) : bits.length ≤ 8 * e.length := by
  have := h.2.1
  rw [this, List.length_reverse]
  unfold bytesFor
  omega

theorem number_content {t : UInt8} {v : MySqlValue} {e : Bytes} (h : NumberCell t v e) : contentSize v ≤ 8 * e.length := by
  cases h <;> exact Nat.zero_le _

theorem value_content {m : Mode} {code md : Nat} {v : MySqlValue} {e : Bytes} (h : TakenValue m code md v e) :
    contentSize v ≤ 8 * e.length := by
  unfold TakenValue at h
  split at h
  all_goals first
    | exact number_content h
    | exact h.elim
    | (obtain ⟨_, h, rfl⟩ := h; first
        | exact blob_content h
        | exact text_content h
        | exact bit_content h
        | exact decimal_content h
        | exact Nat.zero_le _)
    | (obtain ⟨_, _, _, _, _, _, rfl⟩ := h; exact Nat.zero_le _)

theorem cell_content {m : Mode} {t : UInt8} {md : Nat} {v : MySqlValue} {e : Bytes} (h : TakenCell m t md v e) :
    contentSize v ≤ 8 * e.length := by
  cases h with
  | plain _ h => exact value_content h
  | packed _ _ h => exact value_content h

/-! ## Rows -/

theorem cells_content {m : Mode} {columns : List (UInt8 × Nat)} {states : List ColState} {e : Bytes} (h : TakenCells m columns states e) :
    rowContent ⟨states.map ColState.cell⟩ ≤ 8 * e.length ∧ states.length = columns.length := by
  induction h with
  | nil => exact ⟨Nat.zero_le _, rfl⟩
  | absent _ ih | null _ ih =>
    refine ⟨?_, by simp [ih.2]⟩
    have := ih.1
    simpa [rowContent, ColState.cell] using this
  | value hc _ ih =>
    refine ⟨?_, by simp [ih.2]⟩
    have h1 := ih.1
    have h2 := cell_content hc
    simp only [rowContent, List.map_cons, ColState.cell, Option.map_some, Option.getD_some, List.sum_cons, List.length_append] at h1 ⊢
    omega

theorem flags_count (states : List ColState) : (states.filterMap ColState.nullFlag).length = (states.map ColState.present).count true := by
  induction states with
  | nil => rfl
  | cons s ss ih => cases s <;> simp [List.filterMap_cons, ColState.nullFlag, ColState.present, ih]

theorem image_size {m : Mode} {columns : List (UInt8 × Nat)} {present : List Bool} {row : RowData} {e : Bytes}
    (h : TakenImage m columns present row e) : statedSize present row ≤ 8 * e.length ∧ row.cells.length = columns.length := by
  obtain ⟨states, more, bitmap, data, hp, _, hb, hc, rfl, rfl⟩ := h
  obtain ⟨h1, h2⟩ := cells_content hc
  have h3 := hb.1
  rw [List.length_append, flags_count, ← hp] at h3
  unfold bytesFor at h3
  refine ⟨?_, by simp [h2]⟩
  simp only [statedSize, List.length_map, h2, List.length_append]
  omega

theorem each_sum {α : Type} {R : α → Bytes → Prop} {f : α → Nat} {k : Nat} (hf : ∀ v e, R v e → f v ≤ k * e.length) {vs : List α} {e : Bytes}
    (h : Each R vs e) : (vs.map f).sum ≤ k * e.length := by
  induction h with
  | nil => simp
  | cons h _ ih =>
    have := hf _ _ h
    simp only [List.map_cons, List.sum_cons, List.length_append, Nat.mul_add]
    omega

theorem sums_le {α : Type} {f g : α → Nat} {vs : List α} (h : ∀ v ∈ vs, f v ≤ g v) : (vs.map f).sum ≤ (vs.map g).sum := by
  induction vs with
  | nil => simp
  | cons v vs ih =>
    have h1 := h v (.head _)
    have h2 := ih fun x hx => h x (.tail _ hx)
    simp only [List.map_cons, List.sum_cons]
    omega

theorem each_count {α : Type} {R : α → Bytes → Prop} (hf : ∀ v e, R v e → e ≠ []) {vs : List α} {e : Bytes}
    (h : Each R vs e) : vs.length ≤ e.length := by
  induction h with
  | nil => simp
  | cons h _ ih =>
    have := List.length_pos_iff.mpr (hf _ _ h)
    simp only [List.length_append, List.length_cons]
    omega

theorem each_all {α : Type} {R : α → Bytes → Prop} {Q : α → Prop} (hf : ∀ v e, R v e → Q v) {vs : List α} {e : Bytes}
    (h : Each R vs e) : ∀ v ∈ vs, Q v := by
  induction h with
  | nil => simp
  | cons h _ ih => exact List.forall_mem_cons.mpr ⟨hf _ _ h, ih⟩

variable {m : Mode} {st : EventParser} {header : EventHeader} {slice : Bytes} {event : BinlogEvent}

/-- What holds of all accepted row events. -/
theorem accepted_size {columnsOf : Nat → Option (List (UInt8 × Nat))} {code : Nat} {body : Bytes}
    (h : AcceptedRows m columnsOf code event body) : statedTotal event ≤ 8 * body.length ∧ (rowsOf event).length ≤ 2 * body.length ∧
      ∃ id columns, rowTable event = some id ∧ columnsOf id = some columns ∧ ∀ row ∈ rowsOf event, row.cells.length = columns.length := by
  have one : ∀ {version : Nat} {columns : List (UInt8 × Nat)} {r : RowsEvent}, TakenRows m version columns r body →
      (r.rows.map (statedSize r.columnsPresent)).sum ≤ 8 * body.length ∧ r.rows.length ≤ 2 * body.length ∧
        ∀ row ∈ r.rows, row.cells.length = columns.length := by
    rintro version columns _ @⟨_, _, _, present, _, _, _, _, hh, hn, hp, hb, hr⟩
    have h1 := each_sum (f := statedSize present) (k := 8) (fun _ _ h => (image_size h.2.2).1) hr
    have h2 := each_count (fun _ _ h => h.1) hr
    refine ⟨?_, ?_, each_all (fun _ _ h => (image_size h.2.2).2) hr⟩ <;> simp only [List.length_append] <;> omega
  cases h with
  | write _ ht h => exact ⟨(one h).1, (one h).2.1, _, _, rfl, ht, (one h).2.2⟩
  | delete _ ht h => exact ⟨(one h).1, (one h).2.1, _, _, rfl, ht, (one h).2.2⟩
  | update _ ht h =>
    obtain @⟨_, _, _, before, after, rows, _, _, _, _, hh, hn, hp1, hp2, hb1, hb2, hr⟩ := h
    have h1 := each_sum (k := 8) (f := fun u : UpdateRowData => statedSize before u.beforeUpdate + statedSize after u.afterUpdate) (fun _ _ h => by
      obtain ⟨_, _, e1, e2, h1, h2, rfl⟩ := h
      have := (image_size h1).1
      have := (image_size h2).1
      rw [List.length_append]
      omega) hr
    have h2 := each_count (fun _ _ h => h.1) hr
    have h3 := each_all (Q := fun u : UpdateRowData => u.beforeUpdate.cells.length = _ ∧ u.afterUpdate.cells.length = _) (fun _ _ h => by
      obtain ⟨_, _, e1, e2, h1, h2, rfl⟩ := h
      exact ⟨(image_size h1).2, (image_size h2).2⟩) hr
    refine ⟨?_, ?_, _, _, rfl, ht, ?_⟩
    · simp only [statedTotal, List.length_append]; omega
    · have : ∀ us : List UpdateRowData, (us.flatMap fun u => [u.beforeUpdate, u.afterUpdate]).length = 2 * us.length := by
        intro us
        induction us with
        | nil => rfl
        | cons u us ih => simp only [List.flatMap_cons, List.length_append, List.length_cons, List.length_nil, ih]; omega
      simp only [rowsOf, List.length_append, this]
      omega
    · intro row hrow
      simp only [rowsOf, List.mem_flatMap, List.mem_cons, List.not_mem_nil, or_false] at hrow
      obtain ⟨u, hu, rfl | rfl⟩ := hrow
      · exact (h3 u hu).1
      · exact (h3 u hu).2

/-- A row against what its image states: the cells of absent columns. -/
theorem rowSize_le (present : List Bool) (row : RowData) : rowSize row ≤ statedSize present row + row.cells.length := by
  unfold rowSize statedSize; omega

theorem rowSize_full {present : List Bool} {row : RowData} (h : ∀ b ∈ present, b = true) (hl : row.cells.length ≤ present.length) :
    rowSize row ≤ statedSize present row := by
  have : (present.take row.cells.length).count true = row.cells.length := by
    rw [List.count_eq_length.mpr fun b hb => (h b (List.mem_of_mem_take hb)).symm]
    simp [hl]
  unfold rowSize statedSize; omega

theorem accepted_full {columnsOf : Nat → Option (List (UInt8 × Nat))} {code : Nat} {body : Bytes}
    (h : AcceptedRows m columnsOf code event body) (hf : FullImages event) : decodedSize event ≤ statedTotal event := by
  have one : ∀ {version : Nat} {columns : List (UInt8 × Nat)} {r : RowsEvent}, TakenRows m version columns r body →
      (∀ b ∈ r.columnsPresent, b = true) → (r.rows.map rowSize).sum ≤ (r.rows.map (statedSize r.columnsPresent)).sum := by
    rintro version columns _ ⟨hh, hn, hp, hb, hr⟩ hf
    exact sums_le (each_all (fun _ _ h => rowSize_full hf (by rw [(image_size h.2.2).2, hp]; exact h.2.1)) hr)
  cases h with
  | write _ ht h => exact one h hf
  | delete _ ht h => exact one h hf
  | update _ ht h =>
    obtain ⟨hh, hn, hp1, hp2, hb1, hb2, hr⟩ := h
    have : ∀ rows : List UpdateRowData, ((rows.flatMap fun u => [u.beforeUpdate, u.afterUpdate]).map rowSize).sum =
        (rows.map fun u => rowSize u.beforeUpdate + rowSize u.afterUpdate).sum := by
      intro rows
      induction rows with
      | nil => rfl
      | cons u us ih => simp only [List.flatMap_cons, List.map_append, List.sum_append, List.map_cons, List.map_nil, List.sum_cons, List.sum_nil, ih]; omega
    simp only [decodedSize, rowsOf, this]
    refine sums_le (each_all (fun u _ h => ?_) hr)
    obtain ⟨_, hc, e1, e2, h1, h2, rfl⟩ := h
    have h1 := rowSize_full hf.1 (row := u.beforeUpdate) (by rw [(image_size h1).2, hp1]; exact hc)
    have h2 := rowSize_full hf.2 (row := u.afterUpdate) (by rw [(image_size h2).2, hp2]; exact hc)
    omega

/-! ## C142 -/

/-- What the images of an event state is at most eight times as large as the event. -/
theorem C142_stated (hst : ProperCache st.tableMap) (hr : header.eventType ∈ rowCodes) (h : (parseEvent m st header slice).1 = .ok event) :
    statedTotal event ≤ 8 * slice.length := by
  obtain ⟨body, ⟨sum, _, rfl⟩, h'⟩ := (C82_iff hst hr).mp h
  have := (accepted_size h').1
  rw [List.length_append]
  omega

/-- **C142**, where all columns are present: the rows of an event are at most eight times as large as the event. -/
theorem C142_full_partial (hst : ProperCache st.tableMap) (hr : header.eventType ∈ rowCodes)
    (h : (parseEvent m st header slice).1 = .ok event) (hf : FullImages event) : decodedSize event ≤ 8 * slice.length := by
  obtain ⟨body, ⟨sum, _, rfl⟩, h'⟩ := (C82_iff hst hr).mp h
  have := (accepted_size h').1
  have := accepted_full h' hf
  rw [List.length_append]
  omega

/-- Whatever the images leave out: an event has at most two rows for each byte, each with the columns of its table, so that there are at
most that many cells more. -/
theorem C142_rows (hst : ProperCache st.tableMap) (hr : header.eventType ∈ rowCodes) (h : (parseEvent m st header slice).1 = .ok event) :
    (rowsOf event).length ≤ 2 * slice.length ∧ ∃ id columns, rowTable event = some id ∧ cachedColumns st.tableMap id = some columns ∧
      (∀ row ∈ rowsOf event, row.cells.length = columns.length) ∧
        decodedSize event ≤ statedTotal event + columns.length * (rowsOf event).length := by
  obtain ⟨body, ⟨sum, _, rfl⟩, h'⟩ := (C82_iff hst hr).mp h
  obtain ⟨_, h2, id, columns, h3, h4, h5⟩ := accepted_size h'
  refine ⟨by rw [List.length_append]; omega, id, columns, h3, h4, h5, ?_⟩
  have key : ∀ rows : List RowData, (∀ row ∈ rows, row.cells.length = columns.length) →
      (rows.map rowSize).sum = columns.length * rows.length + (rows.map rowContent).sum := by
    intro rows hrows
    induction rows with
    | nil => simp
    | cons r rs ih =>
      have h1 := ih fun x hx => hrows x (.tail _ hx)
      have h2 := hrows r (.head _)
      simp only [List.map_cons, List.sum_cons, List.length_cons, rowSize, Nat.mul_add, h2] at h1 ⊢
      omega
  rw [decodedSize, key _ h5]
  have hc : ((rowsOf event).map rowContent).sum ≤ statedTotal event := by
    have one : ∀ (present : List Bool) (rows : List RowData), (rows.map rowContent).sum ≤ (rows.map (statedSize present)).sum :=
      fun present rows => sums_le fun r _ => by unfold statedSize; omega
    cases event with
    | writeRows r => exact one _ _
    | deleteRows r => exact one _ _
    | updateRows r =>
      simp only [rowsOf, statedTotal]
      generalize r.rows = rows
      induction rows with
      | nil => simp
      | cons u us ih =>
        simp only [List.flatMap_cons, List.map_append, List.sum_append, List.map_cons, List.map_nil, List.sum_cons, List.sum_nil,
          statedSize] at ih ⊢
        omega
    | _ => exact Nat.zero_le _
  omega

/-- The bitmap of columns of which only the first is present. -/
theorem firstOnly_bitmap {j : Nat} (hj : 0 < j) :
    BitmapLE (true :: List.replicate (8 * j - 1) false) (1 :: List.replicate (j - 1) (0 : UInt8)) := by
  refine ⟨by simp [bytesFor]; omega, fun i b hb => ?_⟩
  have hi : i < 8 * j := by
    have := (List.getElem?_eq_some_iff.mp hb).1
    simp at this; omega
  rcases Nat.eq_zero_or_pos i with rfl | h0
  · simp at hb; exact ⟨1, rfl, by rw [hb]; decide⟩
  · have hb' : b = false := by
      obtain ⟨i, rfl⟩ : ∃ k, i = k + 1 := ⟨i - 1, by omega⟩
      rw [List.getElem?_cons_succ, List.getElem?_replicate, if_pos (by omega)] at hb
      simpa using hb.symm
    subst hb'
    by_cases h8 : i < 8
    · refine ⟨1, by rw [show i / 8 = 0 by omega]; rfl, ?_⟩
      have : i = 1 ∨ i = 2 ∨ i = 3 ∨ i = 4 ∨ i = 5 ∨ i = 6 ∨ i = 7 := by omega
      rcases this with rfl | rfl | rfl | rfl | rfl | rfl | rfl <;> decide
    · refine ⟨0, ?_, by simp [bitOf]⟩
      obtain ⟨k, hk⟩ : ∃ k, i / 8 = k + 1 := ⟨i / 8 - 1, by omega⟩
      rw [hk, List.getElem?_cons_succ, List.getElem?_replicate, if_pos (by omega)]

theorem absent_cells (m : Mode) (columns : List (UInt8 × Nat)) :
    TakenCells m columns (List.replicate columns.length .absent) [] := by
  induction columns with
  | nil => exact .nil
  | cons c cs ih => exact .absent ih

/-- **C142 is false** when images leave columns out: of a table with `8 * j` columns, whatever they are, `2 * j + 17` bytes are decoded to
`j` rows with `8 * j * j` cells. -/
theorem C142_false (m : Mode) {st : EventParser} (hst : ProperCache st.tableMap) (hs : st.checksumType = .none) {header : EventHeader}
    (hc : header.eventType = 23) {id j : Nat} {columns : List (UInt8 × Nat)} (hi : id < 2 ^ 48)
    (ht : cachedColumns st.tableMap id = some columns) (hl : columns.length = 8 * j) (h0 : 0 < j) (hj : j < 2 ^ 59) :
    ∃ slice event, slice.length = 2 * j + 17 ∧ (parseEvent m st header slice).1 = .ok event ∧ decodedSize event = 8 * j * j := by
  let row : RowData := ⟨List.replicate (8 * j) none⟩
  let present := true :: List.replicate (8 * j - 1) false
  refine ⟨(le 6 id ++ le 2 0 ++ (0xFE :: le 8 (8 * j))) ++ (1 :: List.replicate (j - 1) (0 : UInt8)) ++ List.replicate j 1,
    .writeRows ⟨id, 0, 8 * j, present, List.replicate j row⟩, ?_, ?_, ?_⟩
  · simp; omega
  · refine (C82_iff hst (by rw [hc]; decide)).mpr ⟨_, ⟨[], by rw [hs]; rfl, (List.append_nil _).symm⟩, ?_⟩
    refine .write (version := 1) (.inl ⟨rfl, hc⟩) ht ?_
    refine .mk (.plain (.v1 hi (by omega) (.eight (by omega)))) (by omega) (by simp [present]; omega) (firstOnly_bitmap h0) ?_
    have image : TakenImage m columns present row [1] := by
      obtain ⟨c, cs, rfl⟩ : ∃ c cs, columns = c :: cs := by
        cases columns with
        | nil => simp at hl; omega
        | cons c cs => exact ⟨c, cs, rfl⟩
      have hcs : cs.length = 8 * j - 1 := by simp at hl; omega
      refine ⟨.null :: List.replicate cs.length .absent, [], [1], [], ?_, ?_, ?_, .null (absent_cells m cs), rfl, ?_⟩
      · simp [present, hcs, ColState.present]
      · simp [present, hcs]
      · have : (ColState.null :: List.replicate cs.length .absent).filterMap ColState.nullFlag = [true] := by
          rw [List.filterMap_cons]
          simp [ColState.nullFlag]
        rw [this]
        refine ⟨rfl, fun i b hb => ?_⟩
        cases i with
        | zero => simp at hb; exact ⟨1, rfl, by rw [hb]; decide⟩
        | succ i => simp at hb
      · simp only [row, List.map_cons, List.map_replicate, ColState.cell, ← List.replicate_succ, hcs, show 8 * j - 1 + 1 = 8 * j by omega]
    have all : ∀ n, Each (fun row e => e ≠ [] ∧ columns.length ≤ 8 * j ∧ TakenImage m columns present row e) (List.replicate n row)
        (List.replicate n 1) := by
      intro n
      induction n with
      | zero => exact .nil
      | succ n ih => exact .cons (e := [1]) ⟨by simp, by omega, image⟩ ih
    exact all j
  · have : rowSize row = 8 * j := by simp [rowSize, rowContent, row]
    simp only [decodedSize, rowsOf, List.map_replicate, this, List.sum_replicate_nat]
    exact Nat.mul_comm _ _

/-- No factor will do: a new decoder can be given a table map and a row event whose rows are more than `factor` times as large as the two
events together. -/
theorem C142_no_factor (m : Mode) {factor : Nat} (hf : factor < 2 ^ 50) {head1 head2 : EventHeader} (h1 : head1.eventType = 19)
    (h2 : head2.eventType = 23) : ∃ slice1 slice2 event1 event2,
      decodeAll m EventParser.new [(head1, slice1), (head2, slice2)] = .ok [event1, event2] ∧
        factor * (slice1.length + slice2.length) < decodedSize event2 := by
  obtain ⟨j, hj⟩ : ∃ j, j = 60 * factor + 1 := ⟨_, rfl⟩
  let columns : List (UInt8 × Nat) := List.replicate (8 * j) (1, 0)
  have none : ∀ n, Each ColumnMeta (List.replicate n (1, 0)) [] := by
    intro n
    induction n with
    | zero => exact .nil
    | succ n ih => exact .cons (e := []) (.nothing rfl) ih
  obtain ⟨slice1, hlen, body⟩ : ∃ slice1 : Bytes, slice1.length = 9 * j + 22 ∧
      TableMapBody 7 [] [] columns (true :: List.replicate (8 * j - 1) false) [] slice1 := by
    refine ⟨_, ?_, .mk (flags := [0, 0]) (count := 0xFE :: le 8 columns.length) (metaLength := le 1 0)
      (colMeta := []) (opt := []) (by decide) rfl (by decide) (by decide) (.eight (by simp [columns]; omega)) (by simp [columns]; omega)
      (none _) (.one (by decide)) (by simp [columns]; omega) (firstOnly_bitmap (j := j) (by omega)) .nil⟩
    simp only [List.length_append, le_length, List.length_map, List.length_cons, List.length_nil, List.length_replicate, columns, utf8Bytes,
      List.flatMap_nil]
    omega
  obtain ⟨t, ht, hid, _, _, hty, hmd, _⟩ := C44_table_map m EventParser.new head1 h1 body ⟨[], rfl, (List.append_nil _).symm⟩
  have hproper := C82_properCache (m := m) (st := EventParser.new) (by intro id table h; cases h) head1 slice1
  rw [ht] at hproper
  have hcached : cachedColumns (EventParser.new.record (.tableMap t)).tableMap 7 = some columns := by
    simp only [cachedColumns, EventParser.record, HMap.get?_insert, hid, if_pos, Option.map_some, hty, hmd]
    simp [columns]
  obtain ⟨slice2, event2, hl, hd, hsize⟩ := C142_false m (st := EventParser.new.record (.tableMap t)) (header := head2) (id := 7) (j := j)
    hproper rfl h2 (by decide) hcached (by simp [columns]) (by omega) (by omega)
  refine ⟨slice1, slice2, .tableMap t, event2, ?_, ?_⟩
  · simp only [decodeAll, ht, hd]; rfl
  · rw [hsize, hl, hlen]
    subst hj
    nlinarith

/-! ## Cases -/

/-- A table of eight columns: INT, VARCHAR(9), DECIMAL(5,2) and five TINYINT. -/
def exWide : TableMapEvent :=
  ⟨7, ['d'], ['t'], [3, 15, 246, 1, 1, 1, 1, 1], [0, 9, 5 + 256 * 2, 0, 0, 0, 0, 0], List.replicate 8 true, none⟩

def exWideParser : EventParser := { EventParser.new with tableMap := [(7, exWide)] }

/-- It is what the decoder holds after the table map of the table. -/
example (m : Mode) : (parseEvent m EventParser.new (exHeaderOf 19)
    [7, 0, 0, 0, 0, 0, 1, 0, 1, 100, 0, 1, 116, 0, 8, 3, 15, 246, 1, 1, 1, 1, 1, 4, 9, 0, 5, 2, 0xFF]).2 = exWideParser := by
  revert m; rintro ⟨_ | _⟩ <;> decide +kernel

theorem exWide_proper : ProperCache exWideParser.tableMap := by
  have := C82_properCache (m := ⟨true⟩) (st := EventParser.new) (by intro id table h; cases h) (exHeaderOf 19)
    [7, 0, 0, 0, 0, 0, 1, 0, 1, 100, 0, 1, 116, 0, 8, 3, 15, 246, 1, 1, 1, 1, 1, 4, 9, 0, 5, 2, 0xFF]
  rwa [show (parseEvent ⟨true⟩ EventParser.new (exHeaderOf 19)
    [7, 0, 0, 0, 0, 0, 1, 0, 1, 100, 0, 1, 116, 0, 8, 3, 15, 246, 1, 1, 1, 1, 1, 4, 9, 0, 5, 2, 0xFF]).2 = exWideParser by decide +kernel]
    at this

/-- All columns present, the last four NULL: eight cells, two bytes of text and six characters. -/
def exFull : BinlogEvent :=
  .writeRows ⟨7, 1, 8, List.replicate 8 true, [⟨[some (.int 42), some (.string ['h', 'i']), some (.decimal "123.45".toList), some (.tinyInt 9),
    none, none, none, none]⟩]⟩

def exFullBytes : Bytes := [7, 0, 0, 0, 0, 0, 1, 0, 8, 0xFF, 0xF0, 42, 0, 0, 0, 2, 104, 105, 128, 123, 45, 9]

theorem exFull_decoded (m : Mode) : (parseEvent m exWideParser (exHeaderOf 23) exFullBytes).1 = .ok exFull := by
  revert m; rintro ⟨_ | _⟩ <;> decide +kernel

/-- All hypotheses of `C142_full_partial` are met. -/
example (m : Mode) : decodedSize exFull ≤ 8 * exFullBytes.length ∧ decodedSize exFull = 16 :=
  ⟨C142_full_partial (m := m) exWide_proper (by decide) (exFull_decoded m) (fun _ h => List.eq_of_mem_replicate h), by decide +kernel⟩

/-- Of the same table nineteen bytes are decoded to eight cells; the hypotheses of `C142_false` are met. -/
example (m : Mode) : ∃ slice event, slice.length = 19 ∧ (parseEvent m exWideParser (exHeaderOf 23) slice).1 = .ok event ∧ decodedSize event = 8 :=
  C142_false m (j := 1) (id := 7) exWide_proper rfl rfl (by decide) rfl rfl (by decide) (by decide)

/-- An update that shows the first column before and nothing after: sixteen cells, of which one is stated, and the allowance for all. -/
example (m : Mode) : ∃ event, (parseEvent m exWideParser (exHeaderOf 24) [7, 0, 0, 0, 0, 0, 1, 0, 8, 1, 0, 0, 42, 0, 0, 0]).1 = .ok event ∧
    decodedSize event = 16 ∧ statedTotal event = 1 ∧ (rowsOf event).length = 2 :=
  ⟨.updateRows ⟨7, 1, 8, true :: List.replicate 7 false, List.replicate 8 false,
    [⟨⟨some (.int 42) :: List.replicate 7 none⟩, ⟨List.replicate 8 none⟩⟩]⟩,
    by revert m; rintro ⟨_ | _⟩ <;> decide +kernel, by decide +kernel, by decide +kernel, by decide +kernel⟩

/-- The hypotheses of `C142_no_factor`, for a factor of a million. -/
example (m : Mode) : ∃ slice1 slice2 event1 event2,
    decodeAll m EventParser.new [(exHeaderOf 19, slice1), (exHeaderOf 23, slice2)] = .ok [event1, event2] ∧
      1000000 * (slice1.length + slice2.length) < decodedSize event2 := C142_no_factor m (by decide) rfl rfl

end MysqlCdc
