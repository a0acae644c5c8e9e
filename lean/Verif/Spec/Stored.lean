import Verif.Spec.AnyValues
/-!
# The bytes that a server has stored

A value of a column is the bytes in which the server holds it: they are all that there is to know about it, apart from the definition of the column.
-/

namespace MysqlCdc.Spec

/-- What a row image says about a column: nothing, NULL, or a value, as the server holds it. -/
inductive Stored where
  | absent
  | null
  | bytes (e : Bytes)
  deriving DecidableEq

namespace Stored

def present : Stored → Bool
  | absent => false
  | _ => true

def nullFlag : Stored → Option Bool
  | absent => none
  | null => some true
  | bytes _ => some false

def data : Stored → Bytes
  | bytes e => e
  | _ => []

end Stored

/-- The values of a row are values of the columns. -/
inductive StoredCells : List (UInt8 × Nat) → List Stored → Prop where
  | nil : StoredCells [] []
  | absent {c : UInt8 × Nat} {cs : List (UInt8 × Nat)} {row : List Stored} (h : StoredCells cs row) : StoredCells (c :: cs) (.absent :: row)
  | null {c : UInt8 × Nat} {cs : List (UInt8 × Nat)} {row : List Stored} (h : StoredCells cs row) : StoredCells (c :: cs) (.null :: row)
  | bytes {t : UInt8} {md : Nat} {v : ServerValue} {e : Bytes} {cs : List (UInt8 × Nat)} {row : List Stored} (hc : ServerCell t md v e)
      (h : StoredCells cs row) : StoredCells ((t, md) :: cs) (.bytes e :: row)

/-- A row image: the bitmap of the NULLs, then the values. -/
def StoredImage (columns : List (UInt8 × Nat)) (present : List Bool) (row : List Stored) (bytes : Bytes) : Prop :=
  row.map Stored.present = present ∧ StoredCells columns row ∧
  ∃ bitmap, BitmapLE (row.filterMap Stored.nullFlag) bitmap ∧ bytes = bitmap ++ row.flatMap Stored.data

/-- WRITE_ROWS and DELETE_ROWS. -/
inductive StoredRows (version : Nat) (columns : List (UInt8 × Nat)) (tableId flags : Nat) (present : List Bool) : List (List Stored) → Bytes → Prop where
  | mk {rows : List (List Stored)} {head bitmap data : Bytes} (hn : present.length = columns.length)
      (hh : RowsHead version tableId flags columns.length head) (hb : BitmapLE present bitmap) (hr : Each (StoredImage columns present) rows data) :
      StoredRows version columns tableId flags present rows (head ++ bitmap ++ data)

/-- UPDATE_ROWS. -/
inductive StoredUpdates (version : Nat) (columns : List (UInt8 × Nat)) (tableId flags : Nat) (before after : List Bool) :
    List (List Stored × List Stored) → Bytes → Prop where
  | mk {rows : List (List Stored × List Stored)} {head bitmap1 bitmap2 data : Bytes} (hn1 : before.length = columns.length)
      (hn2 : after.length = columns.length) (hh : RowsHead version tableId flags columns.length head) (hb1 : BitmapLE before bitmap1)
      (hb2 : BitmapLE after bitmap2)
      (hr : Each (fun pair e => ∃ e1 e2, StoredImage columns before pair.1 e1 ∧ StoredImage columns after pair.2 e2 ∧ e = e1 ++ e2) rows data) :
      StoredUpdates version columns tableId flags before after rows (head ++ bitmap1 ++ bitmap2 ++ data)

/-- The cells that a stored row is shown as. -/
inductive RowShown : List (UInt8 × Nat) → List Stored → List (Option MySqlValue) → Prop where
  | nil : RowShown [] [] []
  | absent {c : UInt8 × Nat} {cs : List (UInt8 × Nat)} {row : List Stored} {cells : List (Option MySqlValue)} (h : RowShown cs row cells) :
      RowShown (c :: cs) (.absent :: row) (none :: cells)
  | null {c : UInt8 × Nat} {cs : List (UInt8 × Nat)} {row : List Stored} {cells : List (Option MySqlValue)} (h : RowShown cs row cells) :
      RowShown (c :: cs) (.null :: row) (none :: cells)
  | bytes {t : UInt8} {md : Nat} {v : ServerValue} {e : Bytes} {w : MySqlValue} {cs : List (UInt8 × Nat)} {row : List Stored}
      {cells : List (Option MySqlValue)} (hc : ServerCell t md v e) (hs : Shown v (.ok w)) (h : RowShown cs row cells) :
      RowShown ((t, md) :: cs) (.bytes e :: row) (some w :: cells)

/-- No column holds more than milliseconds: TIMESTAMP (17), DATETIME (18) and TIME (19) have at most three fractional digits. -/
def Millis (columns : List (UInt8 × Nat)) : Prop := ∀ c ∈ columns, c.1 = 17 ∨ c.1 = 18 ∨ c.1 = 19 → c.2 ≤ 3

/-- Two values of a column are the same, or are times that differ in what is below a millisecond: only the fractional seconds differ, which are
counted in microseconds or, in columns of four digits, in hundreds of them. -/
inductive UpToMillis (t : UInt8) (md : Nat) : Bytes → Bytes → Prop where
  | same (e : Bytes) : UpToMillis t md e e
  | below {time : Bytes} {width unit n1 n2 : Nat} (ht : t = 17 ∨ t = 18 ∨ t = 19)
      (hm : md = 4 ∧ width = 2 ∧ unit = 100 ∨ (md = 5 ∨ md = 6) ∧ width = 3 ∧ unit = 1) (h1 : n1 * unit < 1000000) (h2 : n2 * unit < 1000000)
      (h : n1 * unit / 1000 = n2 * unit / 1000) : UpToMillis t md (time ++ be width n1) (time ++ be width n2)

/-- Two rows are the same up to that. -/
inductive RowUpToMillis : List (UInt8 × Nat) → List Stored → List Stored → Prop where
  | nil : RowUpToMillis [] [] []
  | absent {c : UInt8 × Nat} {cs : List (UInt8 × Nat)} {row1 row2 : List Stored} (h : RowUpToMillis cs row1 row2) :
      RowUpToMillis (c :: cs) (.absent :: row1) (.absent :: row2)
  | null {c : UInt8 × Nat} {cs : List (UInt8 × Nat)} {row1 row2 : List Stored} (h : RowUpToMillis cs row1 row2) :
      RowUpToMillis (c :: cs) (.null :: row1) (.null :: row2)
  | bytes {t : UInt8} {md : Nat} {e1 e2 : Bytes} {cs : List (UInt8 × Nat)} {row1 row2 : List Stored} (hc : UpToMillis t md e1 e2)
      (h : RowUpToMillis cs row1 row2) : RowUpToMillis ((t, md) :: cs) (.bytes e1 :: row1) (.bytes e2 :: row2)

end MysqlCdc.Spec
