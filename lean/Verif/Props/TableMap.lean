import Verif.Lemmas.TableMap
/-!
# C44, C45: table map events
-/

namespace MysqlCdc

open Spec

/-- C44: whatever the table, its table map event is decoded to its id, names, column types, column metadata and nullability
(`fields` is the optional metadata of C45). -/
theorem C44_table_map (m : Mode) (st : EventParser) (header : EventHeader) {tableId : Nat} {db table : RStr}
    {columns : List (UInt8 × Nat)} {nulls : List Bool} {fields : List MetaField} {body slice : Bytes}
    (ht : header.eventType = 19) (hb : TableMapBody tableId db table columns nulls fields body)
    (hs : WithChecksum st.checksumType body slice) :
    ∃ t : TableMapEvent, parseEvent m st header slice = (.ok (.tableMap t), st.record (.tableMap t)) ∧
      t.tableId = tableId ∧ t.databaseName = db ∧ t.tableName = table ∧ t.columnTypes = columns.map (·.1) ∧
      t.columnMetadata = columns.map (·.2) ∧ t.nullBitmap = nulls := by
  obtain ⟨o, _, hp⟩ := parseTableMap_parses hb
  refine ⟨⟨tableId, db, table, columns.map (·.1), columns.map (·.2), nulls, o⟩, parseEvent_of_body hs ?_,
    rfl, rfl, rfl, rfl, rfl, rfl⟩
  unfold dispatchEvent
  rw [ht]
  exact (hp.map _).run

/-- C45: the optional metadata of a table map event. A field nobody sent is `none`, and of several fields of the same type the
last one counts. Without any field there is no metadata record. -/
theorem C45_optional_metadata (m : Mode) (st : EventParser) (header : EventHeader) {tableId : Nat} {db table : RStr}
    {columns : List (UInt8 × Nat)} {nulls : List Bool} {fields : List MetaField} {body slice : Bytes}
    (ht : header.eventType = 19) (hb : TableMapBody tableId db table columns nulls fields body)
    (hs : WithChecksum st.checksumType body slice) :
    ∃ t : TableMapEvent, (parseEvent m st header slice).1 = .ok (.tableMap t) ∧
      (fields = [] → t.tableMetadata = none) ∧
      (fields ≠ [] → ∃ md, t.tableMetadata = some md ∧ MetaOf fields md) := by
  obtain ⟨o, ho, hp⟩ := parseTableMap_parses hb
  have h : parseEvent m st header slice = _ := parseEvent_of_body hs (event := .tableMap ⟨tableId, db, table, columns.map (·.1),
    columns.map (·.2), nulls, o⟩) (by
      unfold dispatchEvent
      rw [ht]
      exact (hp.map _).run)
  refine ⟨_, by rw [h], ?_, ?_⟩
  · intro hf
    rcases ho with ⟨_, ho⟩ | ⟨hf', _⟩
    · exact ho
    · exact absurd hf hf'
  · intro hf
    rcases ho with ⟨hf', _⟩ | ⟨_, md, ho, hmd⟩
    · exact absurd hf' hf
    · exact ⟨md, ho, hmd⟩

/-- Bitmaps by computation, for examples. -/
theorem bitmapLE_of_check {bits : List Bool} {enc : Bytes} (hl : enc.length = bytesFor bits.length)
    (h : ∀ i < bits.length, (enc[i / 8]?).map (bitOf · (i % 8)) = bits[i]?) : BitmapLE bits enc := by
  refine ⟨hl, fun i b hb => ?_⟩
  have hi : i < bits.length := (List.getElem?_eq_some_iff.1 hb).1
  have := h i hi
  rw [hb, Option.map_eq_some_iff] at this
  exact this

theorem bitmapMsb_of_check {bits : List Bool} {enc : Bytes} (hl : enc.length = bytesFor bits.length)
    (h : ∀ i < bits.length, (enc[i / 8]?).map (bitOf · (7 - i % 8)) = bits[i]?) : BitmapMsb bits enc := by
  refine ⟨hl, fun i b hb => ?_⟩
  have hi : i < bits.length := (List.getElem?_eq_some_iff.1 hb).1
  have := h i hi
  rw [hb, Option.map_eq_some_iff] at this
  exact this

theorem lenEnc_one {n : Nat} {b : UInt8} (h : n < 251) (hb : b.toNat = n) : LenEnc n [b] := by
  have h1 : le 1 n = [b] := by simp [le, ← hb]
  exact h1 ▸ LenEnc.one h

/-- A table with an INT, a VARCHAR(300), a DECIMAL(10,2) and an ENUM column, and three metadata fields. -/
example : TableMapBody 7 "db".toList "tä".toList [(3, 0), (15, 300), (246, 10 + 256 * 2), (254, 247 * 256 + 1)]
    [false, true, true, false]
    [.columnName ["id".toList, "n".toList, "d".toList, "e".toList], .signedness [true, false],
      .enumValues [["x".toList, "yy".toList]]]
    ([7, 0, 0, 0, 0, 0, 1, 0] ++ [2, 100, 98, 0] ++ [3, 116, 0xc3, 0xa4, 0] ++ [4, 3, 15, 246, 254]
      ++ [6, 44, 1, 10, 2, 247, 1] ++ [6] ++ [4, 9, 2, 105, 100, 1, 110, 1, 100, 1, 101]
      ++ [1, 1, 128] ++ [6, 6, 2, 1, 120, 2, 121, 121]) := by
  have str : ∀ (s : String) (b : UInt8), (utf8Bytes s.toList).length < 251 → b.toNat = (utf8Bytes s.toList).length →
      Text s.toList ([b] ++ utf8Bytes s.toList) := fun s b h hb => ⟨by omega, _, lenEnc_one h hb, rfl⟩
  have h1 : Each Text ["id".toList, "n".toList, "d".toList, "e".toList] [2, 105, 100, 1, 110, 1, 100, 1, 101] :=
    .cons (str "id" 2 (by decide +kernel) (by decide +kernel)) (.cons (str "n" 1 (by decide +kernel) (by decide +kernel))
      (.cons (str "d" 1 (by decide +kernel) (by decide +kernel)) (.cons (str "e" 1 (by decide +kernel) (by decide +kernel)) .nil)))
  have h2 : Each Values [["x".toList, "yy".toList]] [2, 1, 120, 2, 121, 121] :=
    .cons (e := [2, 1, 120, 2, 121, 121]) (es := []) ⟨[2], [1, 120, 2, 121, 121], lenEnc_one (by decide) rfl,
        .cons (str "x" 1 (by decide +kernel) (by decide +kernel))
          (.cons (str "yy" 2 (by decide +kernel) (by decide +kernel)) .nil), rfl⟩ .nil
  have h3 : Each (MetaFieldBytes [3, 15, 246, 254])
      [.columnName ["id".toList, "n".toList, "d".toList, "e".toList], .signedness [true, false],
        .enumValues [["x".toList, "yy".toList]]]
      ([4, 9, 2, 105, 100, 1, 110, 1, 100, 1, 101] ++ ([1, 1, 128] ++ ([6, 6, 2, 1, 120, 2, 121, 121] ++ []))) :=
    .cons ⟨4, [9], _, .columnName h1, by decide, lenEnc_one (by decide) rfl, rfl⟩
      (.cons ⟨1, [1], [128], .signedness (bitmapMsb_of_check rfl (by decide +kernel)) rfl, by decide, lenEnc_one (by decide) rfl, rfl⟩
        (.cons ⟨6, [6], _, .enumValues h2, by decide, lenEnc_one (by decide) rfl, rfl⟩ .nil))
  have h4 : Each ColumnMeta [(3, 0), (15, 300), (246, 10 + 256 * 2), (254, 247 * 256 + 1)]
      ([] ++ (le 2 300 ++ (le 2 522 ++ (be 2 63233 ++ [])))) :=
    .cons (.nothing rfl) (.cons (.littleEndian rfl (by decide)) (.cons (.littleEndian rfl (by decide))
      (.cons (.bigEndian rfl (by decide)) .nil)))
  exact TableMapBody.mk (tableId := 7) (db := "db".toList) (table := "tä".toList) (flags := [1, 0]) (count := [4])
    (metaLength := [6]) (bitmap := [6]) (by decide) rfl (by decide +kernel) (by decide +kernel)
    (lenEnc_one (by decide) rfl) (by decide) h4 (lenEnc_one (by decide) rfl) rfl
    (bitmapLE_of_check rfl (by decide +kernel)) h3

example : MetaOf [.signedness [true], .columnCharset [33], .signedness [false]]
    { TableMetadata.empty with signedness := some [false], columnCharsets := some [33] } := by
  constructor <;> rfl

end MysqlCdc
