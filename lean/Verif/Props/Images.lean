import Verif.Spec.Images
import Verif.Props.Tables
/-!
# C124: a copy of the tables from row images that do not show all columns
-/

namespace MysqlCdc

open Spec

/-! ## Rows of which some columns are shown -/

theorem rowShown_pick {cs : List (UInt8 × Nat)} {row : List Stored} {cells : List (Option MySqlValue)} (h : RowShown cs row cells) (shown : List Bool)
    (hn : shown.length = cs.length) : RowShown cs (pick .absent shown row) (pick none shown cells) := by
  induction h generalizing shown with
  | nil =>
    cases shown with
    | nil => exact .nil
    | cons _ _ => simp at hn
  | absent _ ih =>
    cases shown with
    | nil => simp at hn
    | cons b shown =>
      have := ih shown (by simpa using hn)
      cases b <;> exact .absent this
  | null _ ih =>
    cases shown with
    | nil => simp at hn
    | cons b shown =>
      have := ih shown (by simpa using hn)
      cases b
      · exact .absent this
      · exact .null this
  | bytes hc hs _ ih =>
    cases shown with
    | nil => simp at hn
    | cons b shown =>
      have := ih shown (by simpa using hn)
      cases b
      · exact .absent this
      · exact .bytes hc hs this

theorem rowShown_merge {cs : List (UInt8 × Nat)} {new old : List Stored} {ncells ocells : List (Option MySqlValue)} (shown : List Bool)
    (hn : shown.length = cs.length) (ha : Stored.absent ∉ new) (hnew : RowShown cs (pick .absent shown new) ncells) (hold : RowShown cs old ocells)
    (hl : new.length = cs.length) : RowShown cs (merge shown new old) (merge shown ncells ocells) := by
  induction hold generalizing shown new ncells with
  | nil =>
    cases shown with
    | nil => exact .nil
    | cons _ _ => simp at hn
  | @absent c cs row cells _ ih =>
    cases shown with
    | nil => simp at hn
    | cons b shown =>
      cases new with
      | nil => simp at hl
      | cons x new =>
        have hn' : shown.length = cs.length := by simpa using hn
        have hl' : new.length = cs.length := by simpa using hl
        have ha' : Stored.absent ∉ new := fun h => ha (by simp [h])
        cases b with
        | false => cases hnew with | absent hnew => exact .absent (ih shown hn' ha' hnew hl')
        | true =>
          cases x with
          | absent => exact absurd (by simp) ha
          | null => cases hnew with | null hnew => exact .null (ih shown hn' ha' hnew hl')
          | bytes e => cases hnew with | bytes hc hs hnew => exact .bytes hc hs (ih shown hn' ha' hnew hl')
  | @null c cs row cells _ ih =>
    cases shown with
    | nil => simp at hn
    | cons b shown =>
      cases new with
      | nil => simp at hl
      | cons x new =>
        have hn' : shown.length = cs.length := by simpa using hn
        have hl' : new.length = cs.length := by simpa using hl
        have ha' : Stored.absent ∉ new := fun h => ha (by simp [h])
        cases b with
        | false => cases hnew with | absent hnew => exact .null (ih shown hn' ha' hnew hl')
        | true =>
          cases x with
          | absent => exact absurd (by simp) ha
          | null => cases hnew with | null hnew => exact .null (ih shown hn' ha' hnew hl')
          | bytes e => cases hnew with | bytes hc hs hnew => exact .bytes hc hs (ih shown hn' ha' hnew hl')
  | @bytes t md v e w cs row cells hc0 hs0 _ ih =>
    cases shown with
    | nil => simp at hn
    | cons b shown =>
      cases new with
      | nil => simp at hl
      | cons x new =>
        have hn' : shown.length = cs.length := by simpa using hn
        have hl' : new.length = cs.length := by simpa using hl
        have ha' : Stored.absent ∉ new := fun h => ha (by simp [h])
        cases b with
        | false => cases hnew with | absent hnew => exact .bytes hc0 hs0 (ih shown hn' ha' hnew hl')
        | true =>
          cases x with
          | absent => exact absurd (by simp) ha
          | null => cases hnew with | null hnew => exact .null (ih shown hn' ha' hnew hl')
          | bytes e => cases hnew with | bytes hc hs hnew => exact .bytes hc hs (ih shown hn' ha' hnew hl')

theorem rowShown_length {cs : List (UInt8 × Nat)} {row : List Stored} {cells : List (Option MySqlValue)} (h : RowShown cs row cells) :
    row.length = cs.length := by
  induction h with
  | nil => rfl
  | _ => simp_all

theorem rowShown_cells {cs : List (UInt8 × Nat)} {row : List Stored} {cells : List (Option MySqlValue)} (h : RowShown cs row cells) :
    cells.length = cs.length := by
  induction h with
  | nil => rfl
  | _ => simp_all

theorem pick_present {shown : List Bool} {row : List Stored} (ha : Stored.absent ∉ row) (hl : row.length = shown.length) :
    (pick .absent shown row).map Stored.present = shown := by
  induction shown generalizing row with
  | nil => rfl
  | cons b shown ih =>
    cases row with
    | nil => simp at hl
    | cons x row =>
      have := ih (row := row) (fun h => ha (by simp [h])) (by simpa using hl)
      unfold pick at this ⊢
      rw [List.zipWith_cons_cons, List.map_cons, this]
      congr
      cases b with
      | false => rfl
      | true =>
        cases x with
        | absent => exact absurd (by simp) ha
        | _ => rfl

theorem rowUpToMillis_length {columns : List (UInt8 × Nat)} {row1 row2 : List Stored} (h : RowUpToMillis columns row1 row2) :
    row1.length = columns.length ∧ row2.length = columns.length := by
  induction h with
  | nil => exact ⟨rfl, rfl⟩
  | _ => simp_all

theorem pick_millis {columns : List (UInt8 × Nat)} {shown : List Bool} (hk : ∀ c ∈ columns.zip shown, c.2 = true → Millis [c.1]) {row1 row2 : List Stored}
    (h : RowUpToMillis columns (pick .absent shown row1) (pick .absent shown row2)) : pick .absent shown row1 = pick .absent shown row2 := by
  induction shown generalizing columns row1 row2 with
  | nil => rfl
  | cons b shown ih =>
    cases row1 with
    | nil =>
      cases row2 with
      | nil => rfl
      | cons _ _ =>
        have := rowUpToMillis_length h
        simp [pick] at this
        omega
    | cons x row1 =>
      cases row2 with
      | nil =>
        have := rowUpToMillis_length h
        simp [pick] at this
        omega
      | cons y row2 =>
        have key : ∀ {c : UInt8 × Nat} {cs : List (UInt8 × Nat)} {a a' : Stored} {r r' : List Stored}, RowUpToMillis (c :: cs) (a :: r) (a' :: r') →
            RowUpToMillis [c] [a] [a'] ∧ RowUpToMillis cs r r' := by
          intro c cs a a' r r' h
          cases h with
          | absent h => exact ⟨.absent .nil, h⟩
          | null h => exact ⟨.null .nil, h⟩
          | bytes hc h => exact ⟨.bytes hc .nil, h⟩
        cases columns with
        | nil =>
          have := rowUpToMillis_length h
          simp [pick] at this
        | cons c columns =>
          obtain ⟨h1, h2⟩ := key h
          have e2 := ih (columns := columns) (row1 := row1) (row2 := row2) (fun c hc => hk c (by simp [hc])) h2
          unfold pick at e2 ⊢
          rw [List.zipWith_cons_cons, List.zipWith_cons_cons, e2]
          cases b with
          | false => rfl
          | true =>
            have := millis_eq h1 (hk (c, true) (by simp) rfl)
            simpa using this

theorem rowUpToMillis_pick {columns : List (UInt8 × Nat)} {row1 row2 : List Stored} (h : RowUpToMillis columns row1 row2) (shown : List Bool)
    (hn : shown.length = columns.length) : RowUpToMillis columns (pick .absent shown row1) (pick .absent shown row2) := by
  induction h generalizing shown with
  | nil =>
    cases shown with
    | nil => exact .nil
    | cons _ _ => simp at hn
  | absent _ ih =>
    cases shown with
    | nil => simp at hn
    | cons b shown =>
      have := ih shown (by simpa using hn)
      cases b <;> exact .absent this
  | null _ ih =>
    cases shown with
    | nil => simp at hn
    | cons b shown =>
      have := ih shown (by simpa using hn)
      cases b
      · exact .absent this
      · exact .null this
  | bytes hc _ ih =>
    cases shown with
    | nil => simp at hn
    | cons b shown =>
      have := ih shown (by simpa using hn)
      cases b
      · exact .absent this
      · exact .bytes hc this

theorem pick_pick {α : Type} {nothing : α} {key shown : List Bool} (h : Covers key shown) (row : List α) :
    pick nothing key (pick nothing shown row) = pick nothing key row := by
  induction h generalizing row with
  | nil => rfl
  | @cons k b key shown hk _ ih =>
    cases row with
    | nil => rfl
    | cons x row =>
      have := ih row
      unfold pick at this ⊢
      rw [List.zipWith_cons_cons, List.zipWith_cons_cons, List.zipWith_cons_cons, this]
      cases k with
      | false => rfl
      | true => rw [if_pos (hk rfl)]

theorem pick_all {α : Type} {nothing : α} {shown : List Bool} (h : ∀ b ∈ shown, b = true) {row : List α} (hl : row.length = shown.length) :
    pick nothing shown row = row := by
  induction shown generalizing row with
  | nil => exact (List.length_eq_zero_iff.1 hl).symm
  | cons b shown ih =>
    cases row with
    | nil => simp at hl
    | cons x row =>
      have := ih (row := row) (fun b hb => h b (by simp [hb])) (by simpa using hl)
      unfold pick at this ⊢
      rw [List.zipWith_cons_cons, this, if_pos (h b (by simp))]

/-- The row that the reader finds by the cells of the image is the one the image is of. -/
theorem seek_found {columns : List (UInt8 × Nat)} {key shown : List Bool} (hk : KeySeen columns key) (hcov : Covers key shown)
    (hn : shown.length = columns.length) {row : List Stored} {rest : List (List Stored)} (ho : Only key rest row) {copy : List (List (Option MySqlValue))} (h : BagShown columns (row :: rest) copy)
    {cells : List (Option MySqlValue)} (hc : RowShown columns (pick .absent shown row) cells) :
    ∃ x, seek shown cells copy = some x ∧ Stored.absent ∉ row ∧ RowShown columns row x := by
  obtain ⟨s, h1, h2⟩ := h
  cases h1 with
  | @cons _ x _ s h3 h4 =>
    have hx : pick none shown x = cells := rowShown_unique (rowShown_pick h3.2 shown hn) hc
    have hmem : x ∈ copy := h2.mem_iff.1 (by simp)
    have hall : ∀ y ∈ copy, pick none shown y = cells → y = x := by
      intro y hy hp
      rcases List.mem_cons.1 (h2.mem_iff.2 hy) with rfl | hy
      · rfl
      · obtain ⟨r, hr, hr1, hr2⟩ : ∃ r ∈ rest, Stored.absent ∉ r ∧ RowShown columns r y := by
          clear * - h4 hy
          induction h4 with
          | nil => simp at hy
          | cons h _ ih =>
            rcases List.mem_cons.1 hy with rfl | hy
            · exact ⟨_, by simp, h⟩
            · obtain ⟨r, hr, h⟩ := ih hy
              exact ⟨r, by simp [hr], h⟩
        have e1 := rowShown_pick hr2 shown hn
        rw [hp] at e1
        have hsame : (pick .absent shown r).map Stored.present = (pick .absent shown row).map Stored.present := by
          rw [pick_present hr1 (by rw [rowShown_length hr2, hn]), pick_present h3.1 (by rw [rowShown_length h3.2, hn])]
        rcases hk with hk | hk
        · have hlen : key.length = columns.length := hcov.length_eq.trans hn
          have e2 := rowUpToMillis_pick (rowShown_inj e1 hc hsame) key hlen
          rw [pick_pick hcov, pick_pick hcov] at e2
          obtain rfl := ho r hr (pick_millis hk e2)
          exact rowShown_unique hr2 h3.2
        · have hall : ∀ b ∈ shown, b = true := by
            clear * - hk hcov
            induction hcov with
            | nil => simp
            | cons h _ ih =>
              intro b hb
              rcases List.mem_cons.1 hb with rfl | hb
              · exact h (hk _ (by simp))
              · exact ih (fun b hb => hk b (by simp [hb])) b hb
          rw [pick_all hall (by rw [rowShown_cells hr2, hn])] at hp
          rw [pick_all hall (by rw [rowShown_cells h3.2, hn])] at hx
          rw [hp, hx]
    refine ⟨x, ?_, h3⟩
    unfold seek
    cases hf : copy.find? fun r => decide (pick none shown r = cells) with
    | none =>
      rw [List.find?_eq_none] at hf
      exact absurd (decide_eq_true hx) (hf x hmem)
    | some y =>
      rw [hall y (List.mem_of_find?_eq_some hf) (by simpa using List.find?_some hf)]

/-! ## Bags of rows -/

theorem BagShown.pickedOut {columns : List (UInt8 × Nat)} {key shown : List Bool} (hkey : KeySeen columns key) (hcov : Covers key shown)
    (hn : shown.length = columns.length) {rows gone rows' : List (List Stored)} (hg : PickedOut key rows gone rows') {copy : List (List (Option MySqlValue))} (h : BagShown columns rows copy)
    {data : List RowData} (hd : List.Forall₂ (fun row (s : RowData) => RowShown columns (pick .absent shown row) s.cells) gone data) :
    BagShown columns rows' (data.foldl (fun rows r => match seek shown r.cells rows with | some x => rows.erase x | none => rows) copy) := by
  induction hg generalizing copy data with
  | nil hp => cases hd; exact h.perm hp.symm
  | cons hp ho _ ih =>
    cases hd with
    | cons hx hd =>
      have hb := h.perm hp.symm
      obtain ⟨x, h1, -, h3⟩ := seek_found hkey hcov hn ho hb hx
      rw [List.foldl_cons, h1]
      exact ih (hb.erase h3) hd

theorem BagShown.setIn {columns : List (UInt8 × Nat)} {key before after : List Bool} (hkey : KeySeen columns key) (hcov : Covers key before)
    (hn : before.length = columns.length) (hn' : after.length = columns.length) {rows rows' : List (List Stored)}
    {pairs : List (List Stored × List Stored)} (hg : SetIn key after rows pairs rows')
    (ha : ∀ pair ∈ pairs, Stored.absent ∉ pair.2) {copy : List (List (Option MySqlValue))} (h : BagShown columns rows copy) {data : List UpdateRowData}
    (hd : List.Forall₂ (fun pair (s : UpdateRowData) => RowShown columns (pick .absent before pair.1) s.beforeUpdate.cells ∧
      RowShown columns (pick .absent after pair.2) s.afterUpdate.cells) pairs data) :
    BagShown columns rows' (data.foldl (fun rows u => match seek before u.beforeUpdate.cells rows with
      | some x => merge after u.afterUpdate.cells x :: rows.erase x
      | none => rows) copy) := by
  induction hg generalizing copy data with
  | nil hp => cases hd; exact h.perm hp.symm
  | @cons _ rest _ pair _ hp ho hk _ ih =>
    cases hd with
    | cons hx hd =>
      have hb := h.perm hp.symm
      obtain ⟨x, h1, h2, h3⟩ := seek_found hkey hcov hn ho hb hx.1
      rw [List.foldl_cons, h1]
      have hm := ha pair (by simp)
      have hlen : pair.2.length = columns.length := by
        have e1 := rowShown_length hx.2
        have e2 := congrArg List.length hk
        unfold merge pick at *
        simp only [List.length_zipWith, List.length_zip] at e1 e2
        omega
      have := rowShown_merge after hn' hm hx.2 h3 hlen
      rw [hk] at this
      exact ih (fun p hp => ha p (by simp [hp])) ((hb.erase h3).cons hm this) hd

/-! ## One record -/

theorem partChange_decoded {columns : TableName → List (UInt8 × Nat)} {key : TableName → List Bool} (hkey : ∀ t, KeySeen (columns t) (key t)) {defaults : TableName → List Stored} {cells : TableName → List (Option MySqlValue)}
    (hdef : ∀ t, RowShown (columns t) (defaults t) (cells t)) {s s' : Server} {record : EventHeader × Bytes}
    {images : List (TableName × List Stored)} (h : PartChange columns key defaults s record images s') (m : Mode) {p : EventParser}
    (k : Knows s.log p) (hn : s.Named columns) :
    ∃ (r : Except Err BinlogEvent) (p' : EventParser), parseEvent m p record.1 record.2 = (match r with | .ok e => .ok e | .error e => .err e, p') ∧
      Knows s'.log p' ∧ s'.Named columns ∧ ((∃ e, r = .ok e) ↔ ∀ i ∈ images, ∃ cells, RowShown (columns i.1) i.2 cells) ∧
      ∀ e c, r = .ok e → Shows columns s c → Shows columns s' (c.takePart cells e) := by
  cases h with
  | @announce h slice t log hw hd =>
    obtain ⟨p', h1, h2⟩ := k.decode m hw
    refine ⟨.ok _, p', h1, h2, ?_, by simp, ?_⟩
    · intro id table hid
      have := written_tableMap hw hd
      subst this
      simp only [LogState.announce] at hid ⊢
      split at hid
      · next he =>
        rw [if_pos he]
        simp only [Option.some.injEq] at hid
        rw [← hid]
      · next he =>
        rw [if_neg he]
        exact hn _ _ hid
    · rintro e c ⟨⟩ hc
      exact ⟨by simp only [Kept.takePart, Kept.take, hc.names], hc.rows⟩
  | @insert h body slice version tableId flags shown table rows rows' _ ht hid hp hd hb hs hr hs' =>
    obtain ⟨h1, t, h2, h3⟩ := k.tables _ _ (hn _ _ hid)
    obtain ⟨r, g1, g2, g3⟩ := storedRows_result (kind := 0) (header := h) m (by tauto) (.inl rfl) h2 h3 h1 hp hb (k.checksum ▸ hs)
      (by rcases ht with ⟨rfl, ht⟩ | ⟨rfl, ht⟩ <;> exact ht)
    have hlog : s'.log = s.log ∧ s'.names = s.names := by
      cases hs'
      exact ⟨rfl, rfl⟩
    have hlen : shown.length = (columns table).length := by
      cases hb with
      | mk hn _ _ _ => exact hn
    refine ⟨r.map fun data => .writeRows ⟨tableId, flags, (columns table).length, shown, data⟩, p, ?_, hlog.1 ▸ k, ?_, ?_, ?_⟩
    · rw [g3]
      cases r <;> rfl
    · intro id table hid
      rw [hlog.1]
      exact hn _ _ (hlog.2 ▸ hid)
    · simp only [List.mem_map, forall_exists_index, and_imp, forall_apply_eq_imp_iff₂] at g1 ⊢
      rw [← g1]
      cases r <;> simp [Except.map]
    · intro e c he hc
      cases r with
      | error => simp [Except.map] at he
      | ok data =>
        simp only [Except.map, Except.ok.injEq] at he
        subst he
        refine hc.sets (f := fun rows => rows ++ data.map fun r => merge shown r.cells (((c.names tableId).map cells).getD [])) hid hs' fun hbag => ?_
        refine (hbag.append ?_).perm hr
        have g4 := g2 _ rfl
        rw [List.forall₂_map_left_iff] at g4
        rw [List.forall₂_map_right_iff, hc.names, hid]
        show List.Forall₂ (fun row (x : RowData) => Stored.absent ∉ row ∧ RowShown (columns table) row (merge shown x.cells (cells table))) rows data
        clear * - g4 hd hdef hlen
        induction g4 with
        | nil => exact .nil
        | @cons row x rows data h _ ih =>
          obtain ⟨h1, h2⟩ := hd row (by simp)
          refine .cons ⟨h1, ?_⟩ (ih fun row hr => hd row (by simp [hr]))
          have hl : row.length = (columns table).length := by
            have e1 := rowShown_length h.2
            have e2 := congrArg List.length h2
            unfold merge pick at *
            simp only [List.length_zipWith, List.length_zip] at e1 e2
            omega
          have := rowShown_merge shown hlen h1 h.2 (hdef table) hl
          rwa [h2] at this
  | @delete h body slice version tableId flags shown table rows rows' _ ht hid hp hcov hb hs hr hs' =>
    obtain ⟨h1, t, h2, h3⟩ := k.tables _ _ (hn _ _ hid)
    obtain ⟨r, g1, g2, g3⟩ := storedRows_result (kind := 2) (header := h) m (by tauto) (.inr rfl) h2 h3 h1 hp hb (k.checksum ▸ hs)
      (by rcases ht with ⟨rfl, ht⟩ | ⟨rfl, ht⟩ <;> exact ht)
    have hlog : s'.log = s.log ∧ s'.names = s.names := by
      cases hs'
      exact ⟨rfl, rfl⟩
    have hlen : shown.length = (columns table).length := by
      cases hb with
      | mk hn _ _ _ => exact hn
    refine ⟨r.map fun data => .deleteRows ⟨tableId, flags, (columns table).length, shown, data⟩, p, ?_, hlog.1 ▸ k, ?_, ?_, ?_⟩
    · rw [g3]
      cases r <;> rfl
    · intro id table hid
      rw [hlog.1]
      exact hn _ _ (hlog.2 ▸ hid)
    · simp only [List.mem_map, forall_exists_index, and_imp, forall_apply_eq_imp_iff₂] at g1 ⊢
      rw [← g1]
      cases r <;> simp [Except.map]
    · intro e c he hc
      cases r with
      | error => simp [Except.map] at he
      | ok data =>
        simp only [Except.map, Except.ok.injEq] at he
        subst he
        have g4 := g2 _ rfl
        rw [List.forall₂_map_left_iff] at g4
        exact hc.sets (f := fun rows => data.foldl (fun rows r => match seek shown r.cells rows with | some x => rows.erase x | none => rows) rows)
          hid hs' fun hbag => hbag.pickedOut (hkey table) hcov hlen hr (g4.imp fun _ _ h => h.2)
  | @update h body slice version tableId flags before after table pairs rows' _ ht hid hp hcov ha hb hs hr hs' =>
    obtain ⟨h1, t, h2, h3⟩ := k.tables _ _ (hn _ _ hid)
    obtain ⟨r, g1, g2, g3⟩ := storedUpdates_result (header := h) m (by tauto) h2 h3 h1 hp hb (k.checksum ▸ hs)
      (by rcases ht with ⟨rfl, ht⟩ | ⟨rfl, ht⟩ <;> exact ht)
    have hlog : s'.log = s.log ∧ s'.names = s.names := by
      cases hs'
      exact ⟨rfl, rfl⟩
    have hlen : before.length = (columns table).length ∧ after.length = (columns table).length := by
      cases hb with
      | mk hn1 hn2 _ _ _ _ => exact ⟨hn1, hn2⟩
    refine ⟨r.map fun data => .updateRows ⟨tableId, flags, (columns table).length, before, after, data⟩, p, ?_, hlog.1 ▸ k, ?_, ?_, ?_⟩
    · rw [g3]
      cases r <;> rfl
    · intro id table hid
      rw [hlog.1]
      exact hn _ _ (hlog.2 ▸ hid)
    · have : (∀ i ∈ pairs.flatMap fun p => [(table, pick .absent before p.1), (table, pick .absent after p.2)], ∃ cells, RowShown (columns i.1) i.2 cells) ↔
          ∀ pair ∈ pairs.map fun p => (pick .absent before p.1, pick .absent after p.2),
            (∃ cells, RowShown (columns table) pair.1 cells) ∧ ∃ cells, RowShown (columns table) pair.2 cells := by
        simp only [List.mem_flatMap, List.mem_cons, List.not_mem_nil, or_false, List.mem_map]
        constructor
        · rintro h _ ⟨pair, hm, rfl⟩
          exact ⟨h (table, _) ⟨pair, hm, .inl rfl⟩, h (table, _) ⟨pair, hm, .inr rfl⟩⟩
        · rintro h i ⟨pair, hm, rfl | rfl⟩
          · exact (h _ ⟨pair, hm, rfl⟩).1
          · exact (h _ ⟨pair, hm, rfl⟩).2
      rw [this, ← g1]
      cases r <;> simp [Except.map]
    · intro e c he hc
      cases r with
      | error => simp [Except.map] at he
      | ok data =>
        simp only [Except.map, Except.ok.injEq] at he
        subst he
        have g4 := g2 _ rfl
        rw [List.forall₂_map_left_iff] at g4
        exact hc.sets (f := fun rows => data.foldl (fun rows u => match seek before u.beforeUpdate.cells rows with
          | some x => merge after u.afterUpdate.cells x :: rows.erase x
          | none => rows) rows) hid hs' fun hbag => hbag.setIn (hkey table) hcov hlen.1 hlen.2 hr ha (g4.imp fun _ _ h => ⟨h.1.2, h.2.2⟩)
  | @other h e slice log hw he =>
    obtain ⟨p', h1, h2⟩ := k.decode m hw
    refine ⟨.ok _, p', h1, h2, ?_, by simp, ?_⟩
    · intro id table hid
      simp only [written_log hw he]
      exact hn _ _ hid
    · rintro e' c ⟨⟩ hc
      have : c.takePart cells e = c := by
        cases e <;> first | rfl | exact he.elim
      rw [this]
      exact ⟨hc.names, hc.rows⟩

/-! ## The property -/

/-- C124, where it holds: the columns of the keys hold no more than milliseconds, or images show all columns. Iterating over the
stream in which a server sends the records of what it does gives one item per record. If none is an error, a copy that showed the server's tables before,
and to which was done what the events say, shows them after. An item is an error exactly if the record shows a value for which the library has no form.
Missing: keys that differ in what is below a millisecond, see `C124_false`. -/
theorem C124_copy_partial (m : Mode) {columns : TableName → List (UInt8 × Nat)} {key : TableName → List Bool}
    (hkey : ∀ t, KeySeen (columns t) (key t)) {defaults : TableName → List Stored}
    {cells : TableName → List (Option MySqlValue)} (hdef : ∀ t, RowShown (columns t) (defaults t) (cells t)) {server server' : Server}
    {records : List (EventHeader × Bytes)} {images : List (TableName × List Stored)}
    (h : PartChanges columns key defaults server records images server')
    (s : BinlogEvents) (k : Knows server.log s.parser) (hn : server.Named columns) (n : Nat) (rest : Bytes)
    (hsize : ∀ r ∈ records, r.2.length < 2 ^ 24 - 20) (hi : s.channel.input = frames (recordPackets n records) ++ rest) :
    ∃ items s', s.Yields m items s' ∧ s'.channel.input = rest ∧ items.length = records.length ∧
      ((∃ events : List Ev, items = events.map .ok) ↔ ∀ i ∈ images, ∃ cells, RowShown (columns i.1) i.2 cells) ∧
      ∀ (events : List Ev) c, items = events.map .ok → Shows columns server c → Shows columns server' (c.takeParts cells events) := by
  induction h generalizing s n with
  | nil =>
    refine ⟨[], s, .nil, hi, rfl, ⟨fun _ => by simp, fun _ => ⟨[], rfl⟩⟩, fun events c he hc => ?_⟩
    cases events with
    | nil => exact hc
    | cons _ _ => simp at he
  | @cons w w1 w2 record records images images' hf h _ ih =>
    obtain ⟨r, p', g1, g2, g3, g4, g5⟩ := partChange_decoded hkey hdef h m k hn
    simp only [recordPackets, frames, List.append_assoc] at hi
    have hx := hsize record (by simp)
    obtain ⟨ch, h3, h4⟩ := next_event m s record.1 record.2 _ (n % 256) hf (by omega) (by omega) hi
    rw [g1] at h4
    obtain ⟨items, s', i1, i2, i3, i4, i5⟩ := ih ⟨ch, p'⟩ g2 g3 (n + 1) (fun x hx => hsize x (by simp [hx])) h3
    refine ⟨(r.map fun e => (record.1, e)) :: items, s', .item (h4.trans ?_) i1, i2, by simp [i3], ?_, ?_⟩
    · cases r <;> rfl
    · simp only [List.mem_append]
      constructor
      · rintro ⟨events, he⟩ i hi
        cases events with
        | nil => simp at he
        | cons e events =>
          simp only [List.map_cons, List.cons.injEq] at he
          rcases hi with hi | hi
          · refine g4.1 ?_ i hi
            cases r with
            | ok e => exact ⟨_, rfl⟩
            | error e => simp [Except.map] at he
          · exact i4.1 ⟨_, he.2⟩ i hi
      · intro hall
        obtain ⟨e, rfl⟩ := g4.2 fun i hi => hall i (.inl hi)
        obtain ⟨events, rfl⟩ := i4.2 fun i hi => hall i (.inr hi)
        exact ⟨(record.1, e) :: events, rfl⟩
    · intro events c he hc
      cases events with
      | nil => simp at he
      | cons e events =>
        simp only [List.map_cons, List.cons.injEq] at he
        cases r with
        | error e => simp [Except.map] at he
        | ok e' =>
          simp only [Except.map, Except.ok.injEq] at he
          obtain ⟨rfl, he⟩ := he
          have := i5 _ _ he (g5 _ _ rfl hc)
          exact this

/-! ## Examples -/

/-- New rows have 0 and NULL in the columns that were given no value. -/
def exDefaults : TableName → List Stored := fun _ => [.bytes [0, 0, 0, 0], .null]

/-- The row `(1, 5)`. -/
def exRowC : List Stored := [.bytes [1, 0, 0, 0], .bytes [5]]
def exCellsC : List (Option MySqlValue) := [some (.int 1), some (.tinyInt 5)]

theorem exRowC_shown : RowShown [(3, 0), (1, 0)] exRowC exCellsC :=
  .bytes (v := .value (.int 1)) (.value (.number (.long (n := 1) (by decide)))) .value
    (.bytes (v := .value (.tinyInt 5)) (.value (.number (.tiny (n := 5) (by decide)))) .value .nil)

theorem exDefaults_shown : RowShown [(3, 0), (1, 0)] [.bytes [0, 0, 0, 0], .null] [some (.int 0), none] :=
  .bytes (v := .value (.int 0)) (.value (.number (.long (n := 0) (by decide)))) .value (.null .nil)

/-- The log of a server with `binlog_row_image=MINIMAL`: the table is named; a row is inserted with a value for its key; the row with the key 1 is set
to 5 in the other column; the row with the key 258 is deleted. -/
def exPartChanges : List (EventHeader × Bytes) :=
  [(exTyped 19, exTableMap ++ exSum), (exTyped 30, exTextHead ++ [1] ++ ([0, 2, 1, 0, 0] ++ []) ++ exSum),
    (exTyped 31, exTextHead ++ [1] ++ [2] ++ (([0, 1, 0, 0, 0] ++ [0, 5]) ++ []) ++ exSum),
    (exTyped 32, exTextHead ++ [1] ++ ([0, 2, 1, 0, 0] ++ []) ++ exSum)]

theorem exKey_image (n : Nat) (hn : n < 2 ^ 32) : StoredImage [(3, 0), (1, 0)] [true, false] [.bytes (le 4 n), .absent] ([0] ++ le 4 n) :=
  ⟨rfl, .bytes (v := .value (.int n)) (.value (.number (.long hn))) (.absent .nil), [0],
    show BitmapLE [false] [0] from bitmapLE_of_check rfl (by decide), by simp [Stored.data]⟩

theorem exKey_rows {rows : List (List Stored)} {data : Bytes} (h : Each (StoredImage [(3, 0), (1, 0)] [true, false]) rows data) :
    StoredRows 2 [(3, 0), (1, 0)] 7 1 [true, false] rows (exTextHead ++ [1] ++ data) :=
  .mk rfl (.v2 (extra := []) (count := [2]) (by decide) (by decide) (by decide) (lenEnc_one (by decide) rfl))
    (bitmapLE_of_check rfl (by decide)) h

theorem exPartChanges_made : ∃ log names images, PartChanges exTwoColumns (fun _ => [true, false]) exDefaults
    (exHolder (.start .crc32) (fun _ => none) [exRowB]) exPartChanges images (exHolder log names [exRowC]) ∧
    ∀ i ∈ images, ∃ cells, RowShown (exTwoColumns i.1) i.2 cells := by
  have sum : ∀ body, WithChecksum .crc32 body (body ++ exSum) := fun body => ⟨exSum, rfl, rfl⟩
  have key : ∀ n, n < 2 ^ 32 → ∃ cells, RowShown [(3, 0), (1, 0)] [.bytes (le 4 n), .absent] cells := fun n hn =>
    ⟨_, .bytes (v := .value (.int n)) (.value (.number (.long hn))) .value (.absent .nil)⟩
  have five : ∃ cells, RowShown [(3, 0), (1, 0)] [.absent, .bytes [5]] cells :=
    ⟨_, .absent (.bytes (v := .value (.tinyInt 5)) (.value (.number (.tiny (n := 5) (by decide)))) .value .nil)⟩
  refine ⟨_, _, _, .cons (by unfold HeaderFits; decide) (.announce (t := ⟨7, "db".toList, "t".toList, [3, 1], [0, 0], [false, true], none⟩)
    (.tableMap (columns := [(3, 0), (1, 0)]) rfl exTableMap_body (sum _) (.inl ⟨rfl, rfl⟩)) ⟨rfl, rfl⟩)
    (.cons (by unfold HeaderFits; decide) (.insert (version := 2) (tableId := 7) (flags := 1) (table := exTableName) (shown := [true, false])
      (rows := [exRowA]) (rows' := [exRowB, exRowA]) (.inr ⟨rfl, rfl⟩) rfl (by decide) (by decide)
      (exKey_rows (.cons (exKey_image 258 (by decide)) .nil)) (sum _) (.refl _) exHolder_sets)
    (.cons (by unfold HeaderFits; decide) (.update (version := 2) (tableId := 7) (flags := 1) (table := exTableName) (before := [true, false])
      (after := [false, true]) (pairs := [(exRowB, exRowC)]) (rows' := [exRowC, exRowA]) (.inr ⟨rfl, rfl⟩) rfl (by decide)
      (.cons (by simp) (.cons (by simp) .nil)) (by decide) ?_ (sum _) (.cons (rest := [exRowA]) (show [exRowB, exRowA].Perm _ from .refl _) ?_ rfl (.nil (.refl _))) exHolder_sets)
    (.cons (by unfold HeaderFits; decide) (.delete (version := 2) (tableId := 7) (flags := 1) (table := exTableName) (shown := [true, false])
      (rows := [exRowA]) (rows' := [exRowC]) (.inr ⟨rfl, rfl⟩) rfl (by decide) (.cons (by simp) (.cons (by simp) .nil))
      (exKey_rows (.cons (exKey_image 258 (by decide)) .nil)) (sum _)
      (.cons (rest := [exRowC]) (show [exRowC, exRowA].Perm _ by decide) ?_ (.nil (.refl _))) exHolder_sets) .nil))), ?_⟩
  · exact .mk rfl rfl (.v2 (extra := []) (count := [2]) (by decide) (by decide) (by decide) (lenEnc_one (by decide) rfl))
      (bitmapLE_of_check rfl (by decide)) (bitmapLE_of_check rfl (by decide)) (.cons ⟨_, _, exKey_image 1 (by decide),
        ⟨rfl, .absent (.bytes (v := .value (.tinyInt 5)) (.value (.number (.tiny (n := 5) (by decide)))) .nil), [0],
          show BitmapLE [false] [0] from bitmapLE_of_check rfl (by decide), rfl⟩, rfl⟩ .nil)
  · intro r hr h
    rw [List.mem_singleton] at hr
    subst hr
    exact absurd h (by decide)
  · intro r hr h
    rw [List.mem_singleton] at hr
    subst hr
    exact absurd h (by decide)
  · simp only [List.map_cons, List.map_nil, List.flatMap_cons, List.flatMap_nil, List.append_nil, List.nil_append, List.cons_append,
      List.mem_cons, List.not_mem_nil, or_false, forall_eq_or_imp, forall_eq]
    exact ⟨key 258 (by decide), key 1 (by decide), five, key 258 (by decide)⟩

/-- `C124_copy_partial` applies: the copy of that table had the row `(1, 9)` and then has the row `(1, 5)`. -/
example (m : Mode) (s : BinlogEvents) (hs : s.parser = ⟨.crc32, []⟩) (hi : s.channel.input = frames (recordPackets 1 exPartChanges)) :
    ∃ (events : List Ev) (s' : BinlogEvents), s.Yields m (events.map .ok) s' ∧ events.length = 4 ∧
      ((⟨fun _ => none, fun t => if t = exTableName then [exCellsB] else []⟩ : Kept).takeParts (fun _ => [some (.int 0), none]) events).rows exTableName =
        [exCellsC] := by
  obtain ⟨log, names, images, h1, h2⟩ := exPartChanges_made
  have hkey : ∀ t, KeySeen (exTwoColumns t) [true, false] := by
    refine fun t => .inl fun c hc h x hx ht => ?_
    simp only [exTwoColumns, List.zip_cons_cons, List.zip_nil_right, List.mem_cons, List.not_mem_nil, or_false] at hc
    rw [List.mem_singleton] at hx
    subst hx
    rcases hc with rfl | rfl <;> simp at ht
  obtain ⟨items, s', g1, -, g2, g3, g4⟩ := C124_copy_partial m hkey (fun _ => exDefaults_shown) h1 s (hs ▸ Knows.start .crc32)
    (fun _ _ h => by cases h) 1 [] (by decide +kernel) (by rw [hi, List.append_nil])
  obtain ⟨events, rfl⟩ := g3.2 h2
  refine ⟨events, s', g1, by simpa [exPartChanges] using g2, ?_⟩
  have hshow : Shows exTwoColumns (exHolder (.start .crc32) (fun _ => none) [exRowB])
      ⟨fun _ => none, fun t => if t = exTableName then [exCellsB] else []⟩ := by
    refine ⟨rfl, fun t => ?_⟩
    simp only [exHolder]
    by_cases ht : t = exTableName
    · rw [if_pos ht, if_pos ht]
      exact ⟨_, .cons ⟨by decide, exRowB_shown⟩ .nil, .refl _⟩
    · rw [if_neg ht, if_neg ht]
      exact ⟨_, .nil, .refl _⟩
  obtain ⟨shown, i1, i2⟩ := (g4 events _ rfl hshow).rows exTableName
  simp only [exHolder, if_true] at i1
  cases i1 with
  | cons a i1 =>
    cases i1
    rw [rowShown_unique a.2 exRowC_shown] at i2
    exact List.perm_singleton.1 i2.symm

/-- The rows `('ok', 12:30:15.123000)` and `('no', 12:30:15.123456)`: the second column is the key. -/
def exMicroRow (text : Bytes) (micros : Nat) : List Stored := [.bytes (2 :: text), .bytes ([0x99, 0xBB, 0x60, 0xC7, 0x8F] ++ be 3 micros)]
def exMicroRows : List (List Stored) := [exMicroRow [111, 107] 123000, exMicroRow [110, 111] 123456]
def exMicroColumns : TableName → List (UInt8 × Nat) := fun _ => [(15, 20), (18, 6)]

theorem exMicro_cell (micros : Nat) (h : micros < 1000000) :
    ServerCell 18 6 (.value (.dateTime ⟨2026, 11, 16, 12, 30, 15, micros / 1000⟩)) ([0x99, 0xBB, 0x60, 0xC7, 0x8F] ++ be 3 micros) := by
  have := TimeCell.dateTime2 (fsp := 6) (y := 2026) (mo := 11) (d := 16) (h := 12) (mi := 30) (s := 15) (by decide) (by decide) (by decide) (by decide)
    (by decide) (by decide) (.three (.inr rfl) h (by simp))
  rw [show ([0x99, 0xBB, 0x60, 0xC7, 0x8F] : Bytes) = be 5 (2 ^ 39 + 2 ^ 22 * (2026 * 13 + 11) + 2 ^ 17 * 16 + 2 ^ 12 * 12 + 2 ^ 6 * 30 + 15)
    by decide +kernel]
  exact .value (.time this (by simp))

theorem exMicroKey_rows (micros : Nat) (h : micros < 1000000) :
    StoredRows 2 [(15, 20), (18, 6)] 7 1 [false, true] [[.absent, .bytes ([0x99, 0xBB, 0x60, 0xC7, 0x8F] ++ be 3 micros)]]
      (exTextHead ++ [2] ++ (([0] ++ ([0x99, 0xBB, 0x60, 0xC7, 0x8F] ++ be 3 micros)) ++ [])) :=
  .mk rfl (.v2 (extra := []) (count := [2]) (by decide) (by decide) (by decide) (lenEnc_one (by decide) rfl))
    (bitmapLE_of_check rfl (by decide)) (.cons ⟨rfl, .absent (.bytes (exMicro_cell micros h) .nil), [0],
      show BitmapLE [false] [0] from bitmapLE_of_check rfl (by decide), by simp [Stored.data]⟩ .nil)

/-- C124 is false: the server deletes the row with the key 12:30:15.123000 or the row with the key 12:30:15.123456; the event is the same, and the rows
that are left are not. So no application can keep a copy of this table. -/
theorem C124_false : ∃ (columns : TableName → List (UInt8 × Nat)) (key : TableName → List Bool) (defaults : TableName → List Stored) (server server1 server2 : Server)
    (h : EventHeader) (slice1 slice2 : Bytes) (images1 images2 : List (TableName × List Stored)) (event : BinlogEvent) (p : EventParser),
    PartChanges columns key defaults server [(h, slice1)] images1 server1 ∧
    PartChanges columns key defaults server [(h, slice2)] images2 server2 ∧ Knows server.log p ∧
    (∀ m, parseEvent m p h slice1 = (.ok event, p) ∧ parseEvent m p h slice2 = (.ok event, p)) ∧
    (∃ copy, RowsShown columns server.rows copy) ∧ ¬∃ copy, RowsShown columns server1.rows copy ∧ RowsShown columns server2.rows copy := by
  have shown : ∀ s micros, (utf8Bytes s).length = 2 → micros < 1000000 →
      RowShown [(15, 20), (18, 6)] (exMicroRow (utf8Bytes s) micros) [some (.string s), some (.dateTime ⟨2026, 11, 16, 12, 30, 15, micros / 1000⟩)] := by
    intro s micros hl hm
    refine .bytes (v := .text (utf8Bytes s)) (.varChar (by decide) ?_) .text (.bytes (exMicro_cell micros hm) .value .nil)
    unfold SizedBytes
    rw [hl]
    exact ⟨by decide, rfl⟩
  refine ⟨exMicroColumns, fun _ => [false, true], fun _ => [], exHolder ⟨.none, fun id => if id = 7 then some [(15, 20), (18, 6)] else none⟩
      (fun id => if id = 7 then some exTableName else none) exMicroRows, exHolder _ _ [exMicroRow [110, 111] 123456],
    exHolder _ _ [exMicroRow [111, 107] 123000], exTyped 32, _, _, _, _,
    .deleteRows ⟨7, 1, 2, [false, true], [⟨[none, some (.dateTime ⟨2026, 11, 16, 12, 30, 15, 123⟩)]⟩]⟩, exMicroDecoder,
    .cons (by unfold HeaderFits; decide) (.delete (version := 2) (tableId := 7) (flags := 1) (table := exTableName) (shown := [false, true])
      (rows := [exMicroRow [111, 107] 123000]) (.inr ⟨rfl, rfl⟩) rfl (by decide) (.cons (by simp) (.cons (by simp) .nil)) (exMicroKey_rows 123000 (by decide)) ⟨[], rfl, (List.append_nil _).symm⟩
      (.cons (rest := [exMicroRow [110, 111] 123456]) (show exMicroRows.Perm _ from .refl _) ?_ (.nil (.refl _))) exHolder_sets) .nil,
    .cons (by unfold HeaderFits; decide) (.delete (version := 2) (tableId := 7) (flags := 1) (table := exTableName) (shown := [false, true])
      (rows := [exMicroRow [110, 111] 123456]) (.inr ⟨rfl, rfl⟩) rfl (by decide) (.cons (by simp) (.cons (by simp) .nil)) (exMicroKey_rows 123456 (by decide)) ⟨[], rfl, (List.append_nil _).symm⟩
      (.cons (rest := [exMicroRow [111, 107] 123000]) (show exMicroRows.Perm _ from by decide +kernel) ?_ (.nil (.refl _))) exHolder_sets) .nil, ?_, ?_, ?_, ?_⟩
  · intro r hr h
    rw [List.mem_singleton] at hr
    subst hr
    exact absurd h (by decide +kernel)
  · intro r hr h
    rw [List.mem_singleton] at hr
    subst hr
    exact absurd h (by decide +kernel)
  · refine ⟨rfl, fun id columns h => ?_⟩
    simp only [exHolder] at h
    split at h
    · next hid =>
      subst hid
      simp only [Option.some.injEq] at h
      subst h
      exact ⟨by decide, exMicroTable, rfl, rfl, rfl⟩
    · simp at h
  · rintro ⟨_ | _⟩ <;> constructor <;> decide +kernel
  · refine ⟨fun t => if t = exTableName then [[some (.string "ok".toList), some (.dateTime ⟨2026, 11, 16, 12, 30, 15, 123⟩)],
      [some (.string "no".toList), some (.dateTime ⟨2026, 11, 16, 12, 30, 15, 123⟩)]] else [], fun t => ?_⟩
    simp only [exHolder]
    by_cases ht : t = exTableName
    · rw [if_pos ht, if_pos ht]
      exact ⟨_, .cons ⟨by decide, shown "ok".toList 123000 (by decide +kernel) (by decide)⟩
        (.cons ⟨by decide, shown "no".toList 123456 (by decide +kernel) (by decide)⟩ .nil), .refl _⟩
    · rw [if_neg ht, if_neg ht]
      exact ⟨_, .nil, .refl _⟩
  · rintro ⟨copy, h1, h2⟩
    obtain ⟨s1, i1, j1⟩ := h1 exTableName
    obtain ⟨s2, i2, j2⟩ := h2 exTableName
    simp only [exHolder, if_true] at i1 i2
    cases i1 with
    | cons a i1 =>
      cases i1
      cases i2 with
      | cons b i2 =>
        cases i2
        rw [rowShown_unique a.2 (shown "no".toList 123456 (by decide +kernel) (by decide))] at j1
        rw [rowShown_unique b.2 (shown "ok".toList 123000 (by decide +kernel) (by decide))] at j2
        have := List.perm_singleton.1 (j1.trans j2.symm)
        exact absurd this (by decide +kernel)

end MysqlCdc
