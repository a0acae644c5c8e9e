import Verif.Lemmas.Rows
import Verif.Props.TableMap
/-!
# C46 – C52: column values, rows and row events

`parseColumn` is what the row parser does with the bytes of one column, given the type and metadata of the table map.
-/

namespace MysqlCdc

open Spec

/-! ## C46: integers and floats -/

/-- C46: the cell is the number its little-endian bytes stand for; floats keep their bit pattern. -/
theorem C46_numbers (m : Mode) {t : UInt8} {md : Nat} {v : MySqlValue} {e : Bytes} (h : NumberCell t v e) :
    Parses (parseColumn m t.toNat md) e v := numberCell_parses m h

/-- A number between `-2^(bits-1)` and `2^(bits-1)`, stored in two's complement, is what the signed reading gives back. -/
theorem C46_signed_reading (bits : Nat) (hb : 0 < bits) (v : Int) (h1 : -(2 ^ (bits - 1) : Nat) ≤ v) (h2 : v < (2 ^ (bits - 1) : Nat)) :
    twosComplement bits v < 2 ^ bits ∧ asSigned bits (twosComplement bits v) = v := by
  obtain ⟨k, rfl⟩ : ∃ k, bits = k + 1 := ⟨bits - 1, by omega⟩
  simp only [Nat.add_sub_cancel] at h1 h2
  have h3 : (2 ^ (k + 1) : Nat) = 2 ^ k + 2 ^ k := by rw [Nat.pow_succ]; omega
  have h4 : 0 < 2 ^ k := Nat.two_pow_pos k
  unfold asSigned twosComplement
  rw [Nat.add_sub_cancel, h3]
  generalize 2 ^ k = w at *
  by_cases hv : 0 ≤ v
  · rw [Int.emod_eq_of_lt hv (by omega)]
    exact ⟨by omega, by rw [if_pos (by omega)]; omega⟩
  · have : v % ((w + w : Nat) : Int) = v + ((w + w : Nat) : Int) := by
      rw [← Int.add_emod_right, Int.emod_eq_of_lt (by omega) (by omega)]
    rw [this]
    exact ⟨by omega, by rw [if_neg (by omega)]; omega⟩

/-- C46 for signed columns: reinterpreting the cell at the width of the column gives the signed value. -/
theorem C46_signed_columns (m : Mode) (md : Nat) (v : Int) :
    (-(2 ^ 7) ≤ v ∧ v < 2 ^ 7 → ∃ n, Parses (parseColumn m 1 md) (le 1 (twosComplement 8 v)) (.tinyInt n) ∧ asSigned 8 n = v) ∧
    (-(2 ^ 15) ≤ v ∧ v < 2 ^ 15 → ∃ n, Parses (parseColumn m 2 md) (le 2 (twosComplement 16 v)) (.smallInt n) ∧ asSigned 16 n = v) ∧
    (-(2 ^ 23) ≤ v ∧ v < 2 ^ 23 → ∃ n, Parses (parseColumn m 9 md) (le 3 (twosComplement 24 v)) (.mediumInt n) ∧ asSigned 24 n = v) ∧
    (-(2 ^ 31) ≤ v ∧ v < 2 ^ 31 → ∃ n, Parses (parseColumn m 3 md) (le 4 (twosComplement 32 v)) (.int n) ∧ asSigned 32 n = v) ∧
    (-(2 ^ 63) ≤ v ∧ v < 2 ^ 63 → ∃ n, Parses (parseColumn m 8 md) (le 8 (twosComplement 64 v)) (.bigInt n) ∧ asSigned 64 n = v) := by
  refine ⟨fun ⟨h1, h2⟩ => ?_, fun ⟨h1, h2⟩ => ?_, fun ⟨h1, h2⟩ => ?_, fun ⟨h1, h2⟩ => ?_, fun ⟨h1, h2⟩ => ?_⟩
  · obtain ⟨a, b⟩ := C46_signed_reading 8 (by decide) v (by simpa using h1) (by simpa using h2)
    exact ⟨_, C46_numbers m (.tiny a), b⟩
  · obtain ⟨a, b⟩ := C46_signed_reading 16 (by decide) v (by simpa using h1) (by simpa using h2)
    exact ⟨_, C46_numbers m (.short a), b⟩
  · obtain ⟨a, b⟩ := C46_signed_reading 24 (by decide) v (by simpa using h1) (by simpa using h2)
    exact ⟨_, C46_numbers m (.int24 a), b⟩
  · obtain ⟨a, b⟩ := C46_signed_reading 32 (by decide) v (by simpa using h1) (by simpa using h2)
    exact ⟨_, C46_numbers m (.long a), b⟩
  · obtain ⟨a, b⟩ := C46_signed_reading 64 (by decide) v (by simpa using h1) (by simpa using h2)
    exact ⟨_, C46_numbers m (.longLong a), b⟩

/-- MEDIUMINT -2. -/
example : NumberCell 9 (.mediumInt 0xFFFFFE) [0xFE, 0xFF, 0xFF] ∧ twosComplement 24 (-2) = 0xFFFFFE ∧ asSigned 24 0xFFFFFE = -2 :=
  ⟨.int24 (n := 0xFFFFFE) (by decide), by decide, by decide⟩

/-! ## C47: DECIMAL -/

/-- C47: for every DECIMAL(p,s), sign and digits there is an encoding, and every encoding is decoded to the exact text. -/
theorem C47_decimal (m : Mode) (p s : Nat) (negative : Bool) (integral fractional : List Nat) (hp : 0 < p) (hp' : p < 256)
    (hs : s ≤ p) (hi : integral.length = p - s) (hf : fractional.length = s) (hdi : ∀ d ∈ integral, d < 10)
    (hdf : ∀ d ∈ fractional, d < 10) :
    (∃ body, DecimalBody integral fractional body) ∧
    ∀ body, DecimalBody integral fractional body →
      Parses (parseColumn m 246 (p + 256 * s)) (signed negative body) (.decimal (decimalText negative integral fractional)) :=
  ⟨decimalBody_exists integral fractional, fun _ hb => decimalCell_parses m (.mk hp hp' hs hi hf hdi hdf hb)⟩

/-- DECIMAL(14,4): -1234567890.1234 (the example of MySQL's documentation, negated). -/
example : DecimalBody [1, 2, 3, 4, 5, 6, 7, 8, 9, 0] [1, 2, 3, 4] [0x01, 0x0D, 0xFB, 0x38, 0xD2, 0x04, 0xD2] :=
  DecimalBody.mk (lead := [1]) (groups := [[2, 3, 4, 5, 6, 7, 8, 9, 0]]) (fgroups := []) (tail := [1, 2, 3, 4])
    (by decide) (by decide) (by decide) (by decide)
example : decimalText true [1, 2, 3, 4, 5, 6, 7, 8, 9, 0] [1, 2, 3, 4] = "-1234567890.1234".toList := by decide +kernel
example : decimalText false [0, 0, 0] [0, 5] = "0.05".toList := by decide +kernel

/-! ## C48: dates and times -/

/-- C48, partial: every date and time value, old and new formats, all precisions. Missing: YEAR 0000, see
`C48_year_zero_false`. -/
theorem C48_dates_and_times_partial (m : Mode) {t : UInt8} {md : Nat} {v : MySqlValue} {e : Bytes} (h : TimeCell t md v e)
    (hy : v ≠ .year 0) : Parses (parseColumn m t.toNat md) e v := timeCell_parses m h hy

/-- C48 is false as stated: the YEAR 0000 is reported as 1900. -/
theorem C48_year_zero_false :
    ∃ e, TimeCell 13 0 (.year 0) e ∧ ∀ m, (parseColumn m 13 0).run e = .ok (.year 1900) :=
  ⟨_, .yearZero, fun m => by cases m; rename_i c; cases c <;> decide +kernel⟩

/-- DATETIME(3) 2021-07-14 23:59:58.987. -/
example : TimeCell 18 3 (.dateTime ⟨2021, 7, 14, 23, 59, 58, 987⟩)
    (be 5 (2 ^ 39 + 2 ^ 22 * (2021 * 13 + 7) + 2 ^ 17 * 14 + 2 ^ 12 * 23 + 2 ^ 6 * 59 + 58) ++ be 2 9870) :=
  .dateTime2 (micros := 987000) (by decide) (by decide) (by decide) (by decide) (by decide) (by decide)
    (.two (.inl rfl) (by decide) (by decide))

/-! ## C49: strings, blobs, BIT, ENUM, SET -/

/-- C49 -/
theorem C49_data (m : Mode) {t : UInt8} {md : Nat} {v : MySqlValue} {e : Bytes} (h : DataCell t md v e) :
    Parses (parseColumn m t.toNat md) e v := dataCell_parses m h

/-- BIT(10) with value 0b1000000011. -/
example : DataCell 16 (10 / 8 * 256 + 10 % 8) (.bit [true, false, false, false, false, false, false, false, true, true]) [2, 3] :=
  .bit (n := 10) (v := 515) (by decide) (by decide)
/-- VARCHAR(400): two length bytes. -/
example : DataCell 15 400 (.string "né".toList) [3, 0, 110, 0xc3, 0xa9] :=
  .varChar (by decide) ⟨by decide +kernel, by decide +kernel⟩

/-! ## C50: CHAR, ENUM and SET metadata -/

/-- C50: the real type and length come back from the packed metadata, for CHAR up to 1023 bytes, ENUM and SET. -/
theorem C50_string_metadata (n : Nat) :
    (n < 1024 → getActualStringType 254 (charMeta n) = (254, n)) ∧
    (n < 256 → getActualStringType 254 (247 * 256 + n) = (247, n)) ∧
    (n < 256 → getActualStringType 254 (248 * 256 + n) = (248, n)) :=
  ⟨actual_char, actual_enum, actual_set⟩

/-- CHAR(200) CHARACTER SET utf8mb4 -/
example : charMeta 800 = 52768 := by decide

/-! ## C51: rows -/

/-- C51: a row has one cell per column of the table, `none` exactly for absent and NULL columns, the value otherwise. -/
theorem C51_row (m : Mode) {table : TableMapEvent} {columns : List (UInt8 × Nat)} {present : List Bool}
    {states : List ColState} {e : Bytes} (ht : Describes table columns) (hlen : columns.length < 2 ^ 63)
    (h : Image columns present states e) :
    Parses (parseRow m table present (getBitsNumber present)) e ⟨states.map ColState.cell⟩ ∧
    states.length = columns.length := by
  refine ⟨image_parses m ht hlen h, ?_⟩
  obtain ⟨_, _, _, _, hc, _⟩ := h
  exact rowCells_length hc

/-- INT 258, absent BIGINT, NULL VARCHAR, TINYINT 7. -/
example : Image [(3, 0), (8, 0), (15, 20), (1, 0)] [true, false, true, true]
    [.value (.int 258), .absent, .null, .value (.tinyInt 7)] [2, 2, 1, 0, 0, 7] := by
  refine ⟨rfl, [2], [2, 1, 0, 0, 7], bitmapLE_of_check rfl (by decide), ?_, rfl⟩
  exact .value (.number (.long (n := 258) (by decide))) (.absent (.null (.value (.number (.tiny (n := 7) (by decide))) .nil)))

/-! ## C52: row events -/

/-- Event type codes: WRITE_ROWS 23 and 30, UPDATE_ROWS 24 and 31, DELETE_ROWS 25 and 32 (versions 1 and 2). -/
def rowEventCode (version base : Nat) : Nat := if version = 1 then 23 + base else 30 + base

/-- C52 for inserts and deletes: an event is decoded to its table id, flags, columns and exactly its rows, in order. The
table's description must be in the cache, as after its table map event (C33). A row image without any column takes no space,
so such rows cannot be counted: some column must be present. -/
theorem C52_write_and_delete (m : Mode) (st : EventParser) (header : EventHeader) {version : Nat}
    {columns : List (UInt8 × Nat)} {tableId flags : Nat} {present : List Bool} {rows : List (List ColState)}
    {body slice : Bytes} {table : TableMapEvent} (hv : version = 1 ∨ version = 2)
    (hc : st.tableMap.get? tableId = some table) (ht : Describes table columns) (hlen : columns.length < 2 ^ 63)
    (hp : true ∈ present ∨ rows = []) (hb : RowsBody version columns tableId flags present rows body)
    (hs : WithChecksum st.checksumType body slice) :
    (header.eventType = rowEventCode version 0 → parseEvent m st header slice =
      (.ok (.writeRows ⟨tableId, flags, columns.length, present, rows.map fun r => ⟨r.map ColState.cell⟩⟩), st)) ∧
    (header.eventType = rowEventCode version 2 → parseEvent m st header slice =
      (.ok (.deleteRows ⟨tableId, flags, columns.length, present, rows.map fun r => ⟨r.map ColState.cell⟩⟩), st)) := by
  have hpar := rowsEvent_parses m hc ht hlen hp hb
  constructor
  · intro he
    refine parseEvent_of_body hs ?_
    unfold dispatchEvent
    rw [he]
    rcases hv with rfl | rfl <;> exact (hpar.map BinlogEvent.writeRows).run
  · intro he
    refine parseEvent_of_body hs ?_
    unfold dispatchEvent
    rw [he]
    rcases hv with rfl | rfl <;> exact (hpar.map BinlogEvent.deleteRows).run

/-- C52 for updates: each row before the update is paired with the row after it. -/
theorem C52_update (m : Mode) (st : EventParser) (header : EventHeader) {version : Nat}
    {columns : List (UInt8 × Nat)} {tableId flags : Nat} {before after : List Bool}
    {rows : List (List ColState × List ColState)} {body slice : Bytes} {table : TableMapEvent} (hv : version = 1 ∨ version = 2)
    (hc : st.tableMap.get? tableId = some table) (ht : Describes table columns) (hlen : columns.length < 2 ^ 63)
    (hp : true ∈ before ∨ true ∈ after ∨ rows = []) (hb : UpdateRowsBody version columns tableId flags before after rows body)
    (hs : WithChecksum st.checksumType body slice) (he : header.eventType = rowEventCode version 1) :
    parseEvent m st header slice = (.ok (.updateRows ⟨tableId, flags, columns.length, before, after,
      rows.map fun r => ⟨⟨r.1.map ColState.cell⟩, ⟨r.2.map ColState.cell⟩⟩⟩), st) := by
  have hpar := updateRowsEvent_parses m hc ht hlen hp hb
  refine parseEvent_of_body hs ?_
  unfold dispatchEvent
  rw [he]
  rcases hv with rfl | rfl <;> exact (hpar.map BinlogEvent.updateRows).run

/-- Version 2, three bytes of extra data, two rows of a table with an INT and a nullable TINYINT. -/
theorem sampleRowsBody : RowsBody 2 [(3, 0), (1, 0)] 7 1 [true, true] [[.value (.int 258), .null], [.value (.int 1), .value (.tinyInt 9)]]
    ([7, 0, 0, 0, 0, 0] ++ [1, 0] ++ [5, 0, 1, 2, 3] ++ [2] ++ [3] ++ ([2, 2, 1, 0, 0] ++ [0, 1, 0, 0, 0, 9])) := by
  have h1 : Each (Image [(3, 0), (1, 0)] [true, true]) [[.value (.int 258), .null], [.value (.int 1), .value (.tinyInt 9)]]
      ([2, 2, 1, 0, 0] ++ ([0, 1, 0, 0, 0, 9] ++ [])) := by
    refine .cons ⟨rfl, [2], [2, 1, 0, 0], bitmapLE_of_check rfl (by decide), ?_, rfl⟩
      (.cons ⟨rfl, [0], [1, 0, 0, 0, 9], bitmapLE_of_check rfl (by decide), ?_, rfl⟩ .nil)
    · exact .value (.number (.long (n := 258) (by decide))) (.null .nil)
    · exact .value (.number (.long (n := 1) (by decide))) (.value (.number (.tiny (n := 9) (by decide))) .nil)
  exact RowsBody.mk (bitmap := [3]) rfl
    (.v2 (extra := [1, 2, 3]) (count := [2]) (by decide) (by decide) (by decide) (lenEnc_one (by decide) rfl))
    (bitmapLE_of_check rfl (by decide)) h1

end MysqlCdc
