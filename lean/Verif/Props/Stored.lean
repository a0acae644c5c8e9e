import Verif.Lemmas.Stored
/-!
# C116: nothing of a row is lost
-/

namespace MysqlCdc

open Spec

theorem describes_unique {table : TableMapEvent} {c1 c2 : List (UInt8 × Nat)} (h1 : Describes table c1) (h2 : Describes table c2) : c1 = c2 := by
  have h3 := h1.1.symm.trans h2.1
  have h4 := h1.2.symm.trans h2.2
  clear h1 h2
  induction c1 generalizing c2 with
  | nil => cases c2 with
    | nil => rfl
    | cons _ _ => simp at h3
  | cons a c1 ih =>
    cases c2 with
    | nil => simp at h3
    | cons b c2 =>
      simp only [List.map_cons, List.cons.injEq] at h3 h4
      rw [ih h3.2 h4.2, Prod.ext h3.1 h4.1]

/-- What a decoded insert or delete says about its bytes. -/
theorem storedRows_decoded {m : Mode} {st st' : EventParser} {header : EventHeader} {version kind : Nat} {columns : List (UInt8 × Nat)}
    {tableId flags : Nat} {present : List Bool} {rows : List (List Stored)} {body slice : Bytes} {table : TableMapEvent} {event : BinlogEvent}
    (hv : version = 1 ∨ version = 2) (hk : kind = 0 ∨ kind = 2) (hc : st.tableMap.get? tableId = some table) (ht : Describes table columns)
    (hlen : columns.length < 2 ^ 63) (hp : true ∈ present ∨ rows = []) (hb : StoredRows version columns tableId flags present rows body)
    (hs : WithChecksum st.checksumType body slice) (he : header.eventType = rowEventCode version kind)
    (h : parseEvent m st header slice = (.ok event, st')) :
    ∃ shown, event = (if kind = 0 then BinlogEvent.writeRows else .deleteRows) ⟨tableId, flags, columns.length, present, shown⟩ ∧
      List.Forall₂ (fun row s => row.map Stored.present = present ∧ RowShown columns row s.cells) rows shown := by
  cases hb with
  | mk hn hh hbm hr =>
    obtain ⟨srows, h1, h2, h3, -⟩ := storedRows_server hr
    obtain ⟨r, hr', _, hw, hd⟩ := C112_write_and_delete_partial m st header hv hc ht hlen (hp.imp id fun h => by
      rw [← List.length_eq_zero_iff, h2, h, List.length_nil]) (.mk hn hh hbm h1) hs
    rcases hk with rfl | rfl
    · rw [hw he] at h
      cases r with
      | error e => simp at h
      | ok shown =>
        simp only [Prod.mk.injEq, Res.ok.injEq] at h
        exact ⟨shown, h.1.symm, h3 _ hr'⟩
    · rw [hd he] at h
      cases r with
      | error e => simp at h
      | ok shown =>
        simp only [Prod.mk.injEq, Res.ok.injEq] at h
        exact ⟨shown, h.1.symm, h3 _ hr'⟩

/-- What a decoded update says about its bytes. -/
theorem storedUpdates_decoded {m : Mode} {st st' : EventParser} {header : EventHeader} {version : Nat} {columns : List (UInt8 × Nat)}
    {tableId flags : Nat} {before after : List Bool} {rows : List (List Stored × List Stored)} {body slice : Bytes} {table : TableMapEvent}
    {event : BinlogEvent} (hv : version = 1 ∨ version = 2) (hc : st.tableMap.get? tableId = some table) (ht : Describes table columns)
    (hlen : columns.length < 2 ^ 63) (hp : true ∈ before ∨ true ∈ after ∨ rows = [])
    (hb : StoredUpdates version columns tableId flags before after rows body)
    (hs : WithChecksum st.checksumType body slice) (he : header.eventType = rowEventCode version 1)
    (h : parseEvent m st header slice = (.ok event, st')) :
    ∃ shown, event = .updateRows ⟨tableId, flags, columns.length, before, after, shown⟩ ∧
      List.Forall₂ (fun pair s => (pair.1.map Stored.present = before ∧ RowShown columns pair.1 s.beforeUpdate.cells) ∧
        (pair.2.map Stored.present = after ∧ RowShown columns pair.2 s.afterUpdate.cells)) rows shown := by
  cases hb with
  | mk hn1 hn2 hh hb1 hb2 hr =>
    obtain ⟨srows, h1, h2, h3, -⟩ := storedUpdates_server hr
    obtain ⟨r, hr', _, hw⟩ := C112_update_partial m st header hv hc ht hlen (hp.imp id (Or.imp id fun h => by
      rw [← List.length_eq_zero_iff, h2, h, List.length_nil])) (.mk hn1 hn2 hh hb1 hb2 h1) hs he
    rw [hw] at h
    cases r with
    | error e => simp at h
    | ok shown =>
      simp only [Prod.mk.injEq, Res.ok.injEq] at h
      exact ⟨shown, h.1.symm, h3 _ hr'⟩

theorem RowData.ext_cells {a b : RowData} (h : a.cells = b.cells) : a = b := by
  cases a
  cases b
  simp_all

/-- What reading a stored value gives is what the value is shown as. -/
theorem run_shown {m : Mode} {t : UInt8} {md : Nat} {v : ServerValue} {e : Bytes} {w : MySqlValue} (h : ServerCell t md v e)
    (hr : (parseColumn m t.toNat md).run e = .ok w) : Shown v (.ok w) := by
  rcases shown_total v with ⟨_, w', hs⟩ | ⟨_, e', hs⟩
  · have := serverCell_runs m h hs [] []
    simp only [List.nil_append, List.append_nil, List.length_nil, Nat.zero_add] at this
    unfold P.run at hr
    rw [this] at hr
    simp only [Res.ok.injEq] at hr
    exact hr ▸ hs
  · have := serverCell_runs m h hs [] []
    simp only [List.nil_append, List.append_nil, List.length_nil] at this
    unfold P.run at hr
    rw [this] at hr
    simp at hr

/-! ## The property -/

/-- C116 for one value, what holds: two values that a server can store in a column and that the library reads as the same value are stored
in the same bytes, or are times that differ in what is below a millisecond. Missing: that part of a time, see `C116_false`. -/
theorem C116_value_partial (m1 m2 : Mode) {t : UInt8} {md : Nat} {v1 v2 : ServerValue} {e1 e2 : Bytes} {w : MySqlValue} (h1 : ServerCell t md v1 e1)
    (h2 : ServerCell t md v2 e2) (r1 : (parseColumn m1 t.toNat md).run e1 = .ok w) (r2 : (parseColumn m2 t.toNat md).run e2 = .ok w) :
    UpToMillis t md e1 e2 := by
  exact serverCell_bytes h1 h2 (run_shown h1 r1) (run_shown h2 r2)

/-- C116 for inserts and deletes, what holds: if two events in the servers' format decode to the same event, they are about the same table,
have the same flags and columns, as many rows, and in every row the same columns are NULL and the others hold the same bytes, up to what is
below a millisecond. Missing: that part of a time, see `C116_false`. -/
theorem C116_write_and_delete_partial (m1 m2 : Mode) (st : EventParser) {st1 st2 : EventParser} {header1 header2 : EventHeader}
    {version1 version2 kind1 kind2 : Nat} {columns1 columns2 : List (UInt8 × Nat)} {tableId1 tableId2 flags1 flags2 : Nat}
    {present1 present2 : List Bool} {rows1 rows2 : List (List Stored)} {body1 body2 slice1 slice2 : Bytes} {table1 table2 : TableMapEvent}
    {event : BinlogEvent}
    (hv1 : version1 = 1 ∨ version1 = 2) (hk1 : kind1 = 0 ∨ kind1 = 2) (hc1 : st.tableMap.get? tableId1 = some table1)
    (ht1 : Describes table1 columns1) (hlen1 : columns1.length < 2 ^ 63) (hp1 : true ∈ present1 ∨ rows1 = [])
    (hb1 : StoredRows version1 columns1 tableId1 flags1 present1 rows1 body1) (hs1 : WithChecksum st.checksumType body1 slice1)
    (he1 : header1.eventType = rowEventCode version1 kind1) (h1 : parseEvent m1 st header1 slice1 = (.ok event, st1))
    (hv2 : version2 = 1 ∨ version2 = 2) (hk2 : kind2 = 0 ∨ kind2 = 2) (hc2 : st.tableMap.get? tableId2 = some table2)
    (ht2 : Describes table2 columns2) (hlen2 : columns2.length < 2 ^ 63) (hp2 : true ∈ present2 ∨ rows2 = [])
    (hb2 : StoredRows version2 columns2 tableId2 flags2 present2 rows2 body2) (hs2 : WithChecksum st.checksumType body2 slice2)
    (he2 : header2.eventType = rowEventCode version2 kind2) (h2 : parseEvent m2 st header2 slice2 = (.ok event, st2)) :
    kind1 = kind2 ∧ tableId1 = tableId2 ∧ flags1 = flags2 ∧ columns1 = columns2 ∧ present1 = present2 ∧
      List.Forall₂ (RowUpToMillis columns1) rows1 rows2 ∧ (Millis columns1 → rows1 = rows2) := by
  obtain ⟨shown1, i1, j1⟩ := storedRows_decoded hv1 hk1 hc1 ht1 hlen1 hp1 hb1 hs1 he1 h1
  obtain ⟨shown2, i2, j2⟩ := storedRows_decoded hv2 hk2 hc2 ht2 hlen2 hp2 hb2 hs2 he2 h2
  have hkind : kind1 = kind2 := by
    rcases hk1 with rfl | rfl <;> rcases hk2 with rfl | rfl <;> first | rfl | (rw [i1] at i2; simp at i2)
  subst hkind
  have hrows : (⟨tableId1, flags1, columns1.length, present1, shown1⟩ : RowsEvent) = ⟨tableId2, flags2, columns2.length, present2, shown2⟩ := by
    rw [i1] at i2
    rcases hk1 with rfl | rfl <;> simpa using i2
  simp only [RowsEvent.mk.injEq] at hrows
  obtain ⟨rfl, rfl, _, rfl, rfl⟩ := hrows
  rw [hc1] at hc2
  simp only [Option.some.injEq] at hc2
  subst hc2
  have := describes_unique ht1 ht2
  subst this
  have hall : List.Forall₂ (RowUpToMillis columns1) rows1 rows2 :=
    forall2_join (fun a1 a2 b h1 h2 => rowShown_inj h1.2 h2.2 (h1.1.trans h2.1.symm)) j1 j2
  refine ⟨rfl, rfl, rfl, rfl, rfl, hall, fun hk => ?_⟩
  clear * - hall hk
  induction hall with
  | nil => rfl
  | cons h _ ih => rw [millis_eq h hk, ih]

/-- C116 for updates, what holds. -/
theorem C116_update_partial (m1 m2 : Mode) (st : EventParser) {st1 st2 : EventParser} {header1 header2 : EventHeader}
    {version1 version2 : Nat} {columns1 columns2 : List (UInt8 × Nat)} {tableId1 tableId2 flags1 flags2 : Nat}
    {before1 before2 after1 after2 : List Bool} {rows1 rows2 : List (List Stored × List Stored)} {body1 body2 slice1 slice2 : Bytes}
    {table1 table2 : TableMapEvent} {event : BinlogEvent}
    (hv1 : version1 = 1 ∨ version1 = 2) (hc1 : st.tableMap.get? tableId1 = some table1)
    (ht1 : Describes table1 columns1) (hlen1 : columns1.length < 2 ^ 63) (hp1 : true ∈ before1 ∨ true ∈ after1 ∨ rows1 = [])
    (hb1 : StoredUpdates version1 columns1 tableId1 flags1 before1 after1 rows1 body1) (hs1 : WithChecksum st.checksumType body1 slice1)
    (he1 : header1.eventType = rowEventCode version1 1) (h1 : parseEvent m1 st header1 slice1 = (.ok event, st1))
    (hv2 : version2 = 1 ∨ version2 = 2) (hc2 : st.tableMap.get? tableId2 = some table2)
    (ht2 : Describes table2 columns2) (hlen2 : columns2.length < 2 ^ 63) (hp2 : true ∈ before2 ∨ true ∈ after2 ∨ rows2 = [])
    (hb2 : StoredUpdates version2 columns2 tableId2 flags2 before2 after2 rows2 body2) (hs2 : WithChecksum st.checksumType body2 slice2)
    (he2 : header2.eventType = rowEventCode version2 1) (h2 : parseEvent m2 st header2 slice2 = (.ok event, st2)) :
    tableId1 = tableId2 ∧ flags1 = flags2 ∧ columns1 = columns2 ∧ before1 = before2 ∧ after1 = after2 ∧
      List.Forall₂ (fun p1 p2 => RowUpToMillis columns1 p1.1 p2.1 ∧ RowUpToMillis columns1 p1.2 p2.2) rows1 rows2 ∧
      (Millis columns1 → rows1 = rows2) := by
  obtain ⟨shown1, i1, j1⟩ := storedUpdates_decoded hv1 hc1 ht1 hlen1 hp1 hb1 hs1 he1 h1
  obtain ⟨shown2, i2, j2⟩ := storedUpdates_decoded hv2 hc2 ht2 hlen2 hp2 hb2 hs2 he2 h2
  rw [i1] at i2
  simp only [BinlogEvent.updateRows.injEq, UpdateRowsEvent.mk.injEq] at i2
  obtain ⟨rfl, rfl, _, rfl, rfl, rfl⟩ := i2
  rw [hc1] at hc2
  simp only [Option.some.injEq] at hc2
  subst hc2
  have := describes_unique ht1 ht2
  subst this
  have hall : List.Forall₂ (fun p1 p2 => RowUpToMillis columns1 p1.1 p2.1 ∧ RowUpToMillis columns1 p1.2 p2.2) rows1 rows2 :=
    forall2_join (fun a1 a2 b h1 h2 => ⟨rowShown_inj h1.1.2 h2.1.2 (h1.1.1.trans h2.1.1.symm), rowShown_inj h1.2.2 h2.2.2 (h1.2.1.trans h2.2.1.symm)⟩)
      j1 j2
  refine ⟨rfl, rfl, rfl, rfl, rfl, hall, fun hk => ?_⟩
  clear * - hall hk
  induction hall with
  | nil => rfl
  | cons h _ ih => rw [Prod.ext (millis_eq h.1 hk) (millis_eq h.2 hk), ih]

/-- C116 for one value, exactly: what is below a millisecond is lost and nothing else. Two values that the library reads are read as the same
value if and only if they are stored in the same bytes up to that. -/
theorem C116_value_lost (m1 m2 : Mode) {t : UInt8} {md : Nat} {v1 v2 : ServerValue} {e1 e2 : Bytes} {w1 w2 : MySqlValue} (h1 : ServerCell t md v1 e1)
    (h2 : ServerCell t md v2 e2) (r1 : (parseColumn m1 t.toNat md).run e1 = .ok w1) (r2 : (parseColumn m2 t.toNat md).run e2 = .ok w2) :
    w1 = w2 ↔ UpToMillis t md e1 e2 := by
  refine ⟨?_, fun h => ?_⟩
  · rintro rfl
    exact C116_value_partial m1 m2 h1 h2 r1 r2
  · exact upToMillis_shown h h1 h2 (run_shown h1 r1) (run_shown h2 r2)

/-- C116 for inserts and deletes, exactly: two events in the servers' format that are decoded are decoded to the same event if and only if they are
about the same table, with the same flags, columns and rows, up to what is below a millisecond. -/
theorem C116_write_and_delete_lost (m1 m2 : Mode) (st : EventParser) {st1 st2 : EventParser} {header1 header2 : EventHeader}
    {version1 version2 kind1 kind2 : Nat} {columns1 columns2 : List (UInt8 × Nat)} {tableId1 tableId2 flags1 flags2 : Nat}
    {present1 present2 : List Bool} {rows1 rows2 : List (List Stored)} {body1 body2 slice1 slice2 : Bytes} {table1 table2 : TableMapEvent}
    {event1 event2 : BinlogEvent}
    (hv1 : version1 = 1 ∨ version1 = 2) (hk1 : kind1 = 0 ∨ kind1 = 2) (hc1 : st.tableMap.get? tableId1 = some table1)
    (ht1 : Describes table1 columns1) (hlen1 : columns1.length < 2 ^ 63) (hp1 : true ∈ present1 ∨ rows1 = [])
    (hb1 : StoredRows version1 columns1 tableId1 flags1 present1 rows1 body1) (hs1 : WithChecksum st.checksumType body1 slice1)
    (he1 : header1.eventType = rowEventCode version1 kind1) (h1 : parseEvent m1 st header1 slice1 = (.ok event1, st1))
    (hv2 : version2 = 1 ∨ version2 = 2) (hk2 : kind2 = 0 ∨ kind2 = 2) (hc2 : st.tableMap.get? tableId2 = some table2)
    (ht2 : Describes table2 columns2) (hlen2 : columns2.length < 2 ^ 63) (hp2 : true ∈ present2 ∨ rows2 = [])
    (hb2 : StoredRows version2 columns2 tableId2 flags2 present2 rows2 body2) (hs2 : WithChecksum st.checksumType body2 slice2)
    (he2 : header2.eventType = rowEventCode version2 kind2) (h2 : parseEvent m2 st header2 slice2 = (.ok event2, st2)) :
    event1 = event2 ↔ kind1 = kind2 ∧ tableId1 = tableId2 ∧ flags1 = flags2 ∧ present1 = present2 ∧
      List.Forall₂ (RowUpToMillis columns1) rows1 rows2 := by
  constructor
  · rintro rfl
    obtain ⟨i1, i2, i3, -, i5, i6, -⟩ := C116_write_and_delete_partial m1 m2 st hv1 hk1 hc1 ht1 hlen1 hp1 hb1 hs1 he1 h1 hv2 hk2 hc2 ht2 hlen2 hp2
      hb2 hs2 he2 h2
    exact ⟨i1, i2, i3, i5, i6⟩
  · rintro ⟨rfl, rfl, rfl, rfl, hr⟩
    obtain ⟨shown1, rfl, j1⟩ := storedRows_decoded hv1 hk1 hc1 ht1 hlen1 hp1 hb1 hs1 he1 h1
    obtain ⟨shown2, rfl, j2⟩ := storedRows_decoded hv2 hk2 hc2 ht2 hlen2 hp2 hb2 hs2 he2 h2
    rw [hc1] at hc2
    simp only [Option.some.injEq] at hc2
    subst hc2
    have := describes_unique ht1 ht2
    subst this
    have : shown1 = shown2 := by
      clear * - hr j1 j2
      induction hr generalizing shown1 shown2 with
      | nil => cases j1; cases j2; rfl
      | cons h _ ih =>
        cases j1 with
        | cons a j1 =>
          cases j2 with
          | @cons _ s2 _ _ b j2 =>
            rw [ih _ j1 _ j2]
            congr 1
            exact RowData.ext_cells (rowUpToMillis_shown h a.2 b.2)
    rw [this]

/-- C116 for updates, exactly. -/
theorem C116_update_lost (m1 m2 : Mode) (st : EventParser) {st1 st2 : EventParser} {header1 header2 : EventHeader}
    {version1 version2 : Nat} {columns1 columns2 : List (UInt8 × Nat)} {tableId1 tableId2 flags1 flags2 : Nat}
    {before1 before2 after1 after2 : List Bool} {rows1 rows2 : List (List Stored × List Stored)} {body1 body2 slice1 slice2 : Bytes}
    {table1 table2 : TableMapEvent} {event1 event2 : BinlogEvent}
    (hv1 : version1 = 1 ∨ version1 = 2) (hc1 : st.tableMap.get? tableId1 = some table1)
    (ht1 : Describes table1 columns1) (hlen1 : columns1.length < 2 ^ 63) (hp1 : true ∈ before1 ∨ true ∈ after1 ∨ rows1 = [])
    (hb1 : StoredUpdates version1 columns1 tableId1 flags1 before1 after1 rows1 body1) (hs1 : WithChecksum st.checksumType body1 slice1)
    (he1 : header1.eventType = rowEventCode version1 1) (h1 : parseEvent m1 st header1 slice1 = (.ok event1, st1))
    (hv2 : version2 = 1 ∨ version2 = 2) (hc2 : st.tableMap.get? tableId2 = some table2)
    (ht2 : Describes table2 columns2) (hlen2 : columns2.length < 2 ^ 63) (hp2 : true ∈ before2 ∨ true ∈ after2 ∨ rows2 = [])
    (hb2 : StoredUpdates version2 columns2 tableId2 flags2 before2 after2 rows2 body2) (hs2 : WithChecksum st.checksumType body2 slice2)
    (he2 : header2.eventType = rowEventCode version2 1) (h2 : parseEvent m2 st header2 slice2 = (.ok event2, st2)) :
    event1 = event2 ↔ tableId1 = tableId2 ∧ flags1 = flags2 ∧ before1 = before2 ∧ after1 = after2 ∧
      List.Forall₂ (fun p q => RowUpToMillis columns1 p.1 q.1 ∧ RowUpToMillis columns1 p.2 q.2) rows1 rows2 := by
  constructor
  · rintro rfl
    obtain ⟨i1, i2, i3, i4, i5, i6, -⟩ := C116_update_partial m1 m2 st hv1 hc1 ht1 hlen1 hp1 hb1 hs1 he1 h1 hv2 hc2 ht2 hlen2 hp2 hb2 hs2 he2 h2
    exact ⟨i1, i2, i4, i5, i6⟩
  · rintro ⟨rfl, rfl, rfl, rfl, hr⟩
    obtain ⟨shown1, rfl, j1⟩ := storedUpdates_decoded hv1 hc1 ht1 hlen1 hp1 hb1 hs1 he1 h1
    obtain ⟨shown2, rfl, j2⟩ := storedUpdates_decoded hv2 hc2 ht2 hlen2 hp2 hb2 hs2 he2 h2
    rw [hc1] at hc2
    simp only [Option.some.injEq] at hc2
    subst hc2
    have := describes_unique ht1 ht2
    subst this
    have : shown1 = shown2 := by
      clear * - hr j1 j2
      induction hr generalizing shown1 shown2 with
      | nil => cases j1; cases j2; rfl
      | cons h _ ih =>
        cases j1 with
        | @cons _ s1 _ _ a j1 =>
          cases j2 with
          | @cons _ s2 _ _ b j2 =>
            rw [ih _ j1 _ j2]
            congr 1
            have e1 := RowData.ext_cells (rowUpToMillis_shown h.1 a.1.2 b.1.2)
            have e2 := RowData.ext_cells (rowUpToMillis_shown h.2 a.2.2 b.2.2)
            cases s1
            cases s2
            simp_all
    rw [this]

/-! ## Examples -/

/-- A table with a VARCHAR(20) and a DATETIME(6) column. -/
def exMicroTable : TableMapEvent := ⟨7, "db".toList, "t".toList, [15, 18], [20, 6], [true, true], none⟩

def exMicroDecoder : EventParser := { EventParser.new with tableMap := [(7, exMicroTable)] }

/-- A row with the text `ok` and 2026-11-16 12:30:15 and a fraction. -/
theorem exMicro_rows (micros : Nat) (h : micros < 1000000) :
    StoredRows 2 [(15, 20), (18, 6)] 7 1 [true, true] [[.bytes [2, 111, 107], .bytes ([0x99, 0xBB, 0x60, 0xC7, 0x8F] ++ be 3 micros)]]
      (exTextHead ++ [3] ++ (([0] ++ ([2, 111, 107] ++ (([0x99, 0xBB, 0x60, 0xC7, 0x8F] ++ be 3 micros) ++ []))) ++ [])) := by
  refine .mk rfl (.v2 (extra := []) (count := [2]) (by decide) (by decide) (by decide) (lenEnc_one (by decide) rfl))
    (bitmapLE_of_check rfl (by decide)) (.cons ⟨rfl, ?_, [0], show BitmapLE [false, false] [0] from bitmapLE_of_check rfl (by decide), by simp [Stored.data]⟩ .nil)
  refine .bytes (v := .text [111, 107]) (.varChar (by decide) ⟨by decide, by decide⟩) (.bytes (v := .value (.dateTime ⟨2026, 11, 16, 12, 30, 15, micros / 1000⟩)) (.value ?_) .nil)
  have := TimeCell.dateTime2 (fsp := 6) (y := 2026) (mo := 11) (d := 16) (h := 12) (mi := 30) (s := 15) (by decide) (by decide) (by decide) (by decide)
    (by decide) (by decide) (.three (.inr rfl) h (by simp))
  rw [show ([0x99, 0xBB, 0x60, 0xC7, 0x8F] : Bytes) = be 5 (2 ^ 39 + 2 ^ 22 * (2026 * 13 + 11) + 2 ^ 17 * 16 + 2 ^ 12 * 12 + 2 ^ 6 * 30 + 15)
    by decide +kernel]
  exact .time this (by simp)

/-- C116 is false: 12:30:15.123000 and 12:30:15.123456 are the same to the library. -/
theorem C116_false : ∃ rows1 rows2 body1 body2 event, StoredRows 2 [(15, 20), (18, 6)] 7 1 [true, true] rows1 body1 ∧
    StoredRows 2 [(15, 20), (18, 6)] 7 1 [true, true] rows2 body2 ∧ rows1 ≠ rows2 ∧ Describes exMicroTable [(15, 20), (18, 6)] ∧
    ∀ m, parseEvent m exMicroDecoder ⟨0, 30, 1, 0, 0, 0⟩ body1 = (.ok event, exMicroDecoder) ∧
      parseEvent m exMicroDecoder ⟨0, 30, 1, 0, 0, 0⟩ body2 = (.ok event, exMicroDecoder) := by
  refine ⟨_, _, _, _, .writeRows ⟨7, 1, 2, [true, true], [⟨[some (.string "ok".toList), some (.dateTime ⟨2026, 11, 16, 12, 30, 15, 123⟩)]⟩]⟩,
    exMicro_rows 123000 (by decide), exMicro_rows 123456 (by decide), by decide, ⟨rfl, rfl⟩, ?_⟩
  rintro ⟨_ | _⟩ <;> constructor <;> decide +kernel

/-- `C116_write_and_delete_partial` applies to these two events. -/
example (m : Mode) : List.Forall₂ (RowUpToMillis [(15, 20), (18, 6)])
    [[.bytes [2, 111, 107], .bytes ([0x99, 0xBB, 0x60, 0xC7, 0x8F] ++ be 3 123000)]]
    [[.bytes [2, 111, 107], .bytes ([0x99, 0xBB, 0x60, 0xC7, 0x8F] ++ be 3 123456)]] := by
  have run : ∀ micros, micros = 123000 ∨ micros = 123456 → parseEvent m exMicroDecoder ⟨0, 30, 1, 0, 0, 0⟩
      (exTextHead ++ [3] ++ (([0] ++ ([2, 111, 107] ++ (([0x99, 0xBB, 0x60, 0xC7, 0x8F] ++ be 3 micros) ++ []))) ++ [])) =
      (.ok (.writeRows ⟨7, 1, 2, [true, true], [⟨[some (.string "ok".toList), some (.dateTime ⟨2026, 11, 16, 12, 30, 15, 123⟩)]⟩]⟩), exMicroDecoder) := by
    revert m
    rintro ⟨_ | _⟩ micros (rfl | rfl) <;> decide +kernel
  exact (C116_write_and_delete_partial m m exMicroDecoder (.inr rfl) (.inl rfl) rfl (table1 := exMicroTable) ⟨rfl, rfl⟩ (by decide)
    (.inl (by simp)) (exMicro_rows 123000 (by decide)) ⟨[], rfl, (List.append_nil _).symm⟩ rfl (run _ (.inl rfl))
    (.inr rfl) (.inl rfl) rfl (table2 := exMicroTable) ⟨rfl, rfl⟩ (by decide)
    (.inl (by simp)) (exMicro_rows 123456 (by decide)) ⟨[], rfl, (List.append_nil _).symm⟩ rfl (run _ (.inr rfl))).2.2.2.2.2.1

/-- `C116_write_and_delete_lost` applies to any two fractions of that second: the library tells them apart if and only if their milliseconds differ. -/
example (m : Mode) (a b : Nat) (ha : a < 1000000) (hb : b < 1000000) {event1 event2 : BinlogEvent} {st1 st2 : EventParser}
    (h1 : parseEvent m exMicroDecoder ⟨0, 30, 1, 0, 0, 0⟩
      (exTextHead ++ [3] ++ (([0] ++ ([2, 111, 107] ++ (([0x99, 0xBB, 0x60, 0xC7, 0x8F] ++ be 3 a) ++ []))) ++ [])) = (.ok event1, st1))
    (h2 : parseEvent m exMicroDecoder ⟨0, 30, 1, 0, 0, 0⟩
      (exTextHead ++ [3] ++ (([0] ++ ([2, 111, 107] ++ (([0x99, 0xBB, 0x60, 0xC7, 0x8F] ++ be 3 b) ++ []))) ++ [])) = (.ok event2, st2))
    (h : a / 1000 = b / 1000) : event1 = event2 :=
  (C116_write_and_delete_lost m m exMicroDecoder (.inr rfl) (.inl rfl) rfl (table1 := exMicroTable) ⟨rfl, rfl⟩ (by decide)
    (.inl (by simp)) (exMicro_rows a ha) ⟨[], rfl, (List.append_nil _).symm⟩ rfl h1
    (.inr rfl) (.inl rfl) rfl (table2 := exMicroTable) ⟨rfl, rfl⟩ (by decide)
    (.inl (by simp)) (exMicro_rows b hb) ⟨[], rfl, (List.append_nil _).symm⟩ rfl h2).2
    ⟨rfl, rfl, rfl, rfl, .cons (.bytes (.same _) (.bytes (.below (unit := 1) (by simp) (by simp) (by simpa) (by simpa) (by simpa)) .nil)) .nil⟩

/-- The first columns of the example hold no more than milliseconds. -/
example : Millis [(15, 20), (19, 0)] ∧ ¬Millis [(15, 20), (18, 6)] := by
  constructor
  · intro c hc
    simp only [List.mem_cons, List.not_mem_nil, or_false] at hc
    rcases hc with rfl | rfl <;> simp
  · intro h
    have := h (18, 6) (by simp) (by simp)
    simp at this

/-- An update of such a table: the text goes from `ok` to NULL. -/
def exMicroUpdate : Bytes :=
  exTextHead ++ [3] ++ [3] ++ (([0, 2, 111, 107, 0x80, 0x10, 0x83] ++ [1, 0x80, 0x10, 0x83]) ++ [])

theorem exMicroUpdate_stored : StoredUpdates 2 [(15, 20), (19, 0)] 7 1 [true, true] [true, true]
    [([.bytes [2, 111, 107], .bytes [0x80, 0x10, 0x83]], [.null, .bytes [0x80, 0x10, 0x83]])] exMicroUpdate := by
  have time : ServerCell 19 0 (.value (.time ⟨1, 2, 3, 0⟩)) [0x80, 0x10, 0x83] := by
    have := TimeCell.time2 (fsp := 0) (h := 1) (mi := 2) (s := 3) (by decide) (by decide) (by decide) (.none rfl rfl)
    rw [show ([0x80, 0x10, 0x83] : Bytes) = be 3 (2 ^ 23 + 2 ^ 12 * 1 + 2 ^ 6 * 2 + 3) ++ [] by decide +kernel]
    exact .value (.time this (by simp))
  refine .mk rfl rfl (.v2 (extra := []) (count := [2]) (by decide) (by decide) (by decide) (lenEnc_one (by decide) rfl))
    (bitmapLE_of_check rfl (by decide)) (bitmapLE_of_check rfl (by decide)) (.cons ⟨_, _, ⟨rfl, ?_, [0], bitmapLE_of_check rfl (by decide), rfl⟩,
      ⟨rfl, ?_, [1], bitmapLE_of_check rfl (by decide), rfl⟩, rfl⟩ .nil)
  · exact .bytes (v := .text [111, 107]) (.varChar (by decide) ⟨by decide, by decide⟩) (.bytes time .nil)
  · exact .null (.bytes time .nil)

/-- `C116_update_partial`: whatever update decodes to the same event holds the same bytes. -/
example (m : Mode) {st2 : EventParser} {rows : List (List Stored × List Stored)} {body : Bytes} {event : BinlogEvent}
    (h : StoredUpdates 2 [(15, 20), (19, 0)] 7 1 [true, true] [true, true] rows body)
    (h1 : parseEvent m exTextDecoder ⟨0, 31, 1, 0, 0, 0⟩ exMicroUpdate = (.ok event, exTextDecoder))
    (h2 : parseEvent m exTextDecoder ⟨0, 31, 1, 0, 0, 0⟩ body = (.ok event, st2)) :
    rows = [([.bytes [2, 111, 107], .bytes [0x80, 0x10, 0x83]], [.null, .bytes [0x80, 0x10, 0x83]])] := by
  have := C116_update_partial m m exTextDecoder (.inr rfl) rfl (table1 := exTextTable) ⟨rfl, rfl⟩ (by decide) (.inl (by simp)) exMicroUpdate_stored
    ⟨[], rfl, (List.append_nil _).symm⟩ rfl h1 (.inr rfl) rfl (table2 := exTextTable) ⟨rfl, rfl⟩ (by decide) (.inl (by simp)) h
    ⟨[], rfl, (List.append_nil _).symm⟩ rfl h2
  refine (this.2.2.2.2.2.2 ?_).symm
  intro c hc
  simp only [List.mem_cons, List.not_mem_nil, or_false] at hc
  rcases hc with rfl | rfl <;> simp

example : ∀ m, (parseEvent m exTextDecoder ⟨0, 31, 1, 0, 0, 0⟩ exMicroUpdate) =
    (.ok (.updateRows ⟨7, 1, 2, [true, true], [true, true], [⟨⟨[some (.string "ok".toList), some (.time ⟨1, 2, 3, 0⟩)]⟩, ⟨[none, some (.time ⟨1, 2, 3, 0⟩)]⟩⟩]⟩),
      exTextDecoder) := by
  rintro ⟨_ | _⟩ <;> decide +kernel

end MysqlCdc
