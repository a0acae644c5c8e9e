import Verif.Spec.Cells
import Verif.Spec.TableMap
import Verif.Model.Rows
/-!
# Wire format of rows and row events
-/

namespace MysqlCdc.Spec

/-- What a row image says about a column. -/
inductive ColState where
  | absent
  | null
  | value (v : MySqlValue)

namespace ColState

def present : ColState → Bool
  | absent => false
  | _ => true

/-- The NULL flag, which only present columns have. -/
def nullFlag : ColState → Option Bool
  | absent => none
  | null => some true
  | value _ => some false

/-- What a client should see. -/
def cell : ColState → Option MySqlValue
  | value v => some v
  | _ => none

end ColState

/-- The values of a row, in column order; only columns with a value take space. -/
inductive RowCells : List (UInt8 × Nat) → List ColState → Bytes → Prop where
  | nil : RowCells [] [] []
  | absent {c : UInt8 × Nat} {cs : List (UInt8 × Nat)} {ss : List ColState} {e : Bytes} (h : RowCells cs ss e) :
      RowCells (c :: cs) (.absent :: ss) e
  | null {c : UInt8 × Nat} {cs : List (UInt8 × Nat)} {ss : List ColState} {e : Bytes} (h : RowCells cs ss e) :
      RowCells (c :: cs) (.null :: ss) e
  | value {t : UInt8} {md : Nat} {cs : List (UInt8 × Nat)} {v : MySqlValue} {ss : List ColState} {e es : Bytes}
      (hc : Cell t md v e) (h : RowCells cs ss es) : RowCells ((t, md) :: cs) (.value v :: ss) (e ++ es)

/-- A row: the NULL flags of the present columns, then the values. -/
def RowBytes (columns : List (UInt8 × Nat)) (states : List ColState) (bytes : Bytes) : Prop :=
  ∃ bitmap data, BitmapLE (states.filterMap ColState.nullFlag) bitmap ∧ RowCells columns states data ∧ bytes = bitmap ++ data

/-- A row image with the given present columns. -/
def Image (columns : List (UInt8 × Nat)) (present : List Bool) (states : List ColState) (bytes : Bytes) : Prop :=
  states.map ColState.present = present ∧ RowBytes columns states bytes

/-- Start of a row event: table id, flags, extra data (version 2; its length includes the two length bytes), number of
columns. -/
inductive RowsHead : (version tableId flags columns : Nat) → Bytes → Prop where
  | v1 {tableId flags columns : Nat} {count : Bytes} (h1 : tableId < 2 ^ 48) (h2 : flags < 2 ^ 16) (h3 : LenEnc columns count) :
      RowsHead 1 tableId flags columns (le 6 tableId ++ le 2 flags ++ count)
  | v2 {tableId flags columns : Nat} {extra count : Bytes} (h1 : tableId < 2 ^ 48) (h2 : flags < 2 ^ 16)
      (he : extra.length + 2 < 2 ^ 16) (h3 : LenEnc columns count) :
      RowsHead 2 tableId flags columns (le 6 tableId ++ le 2 flags ++ (le 2 (extra.length + 2) ++ extra) ++ count)

/-- WRITE_ROWS (23, 30) and DELETE_ROWS (25, 32): which columns are present, then the rows. -/
inductive RowsBody (version : Nat) (columns : List (UInt8 × Nat)) (tableId flags : Nat) (present : List Bool) :
    List (List ColState) → Bytes → Prop where
  | mk {rows : List (List ColState)} {head bitmap data : Bytes} (hn : present.length = columns.length)
      (hh : RowsHead version tableId flags columns.length head) (hb : BitmapLE present bitmap)
      (hr : Each (Image columns present) rows data) : RowsBody version columns tableId flags present rows (head ++ bitmap ++ data)

/-- A row before and after an update. -/
def ImagePair (columns : List (UInt8 × Nat)) (before after : List Bool) (pair : List ColState × List ColState)
    (bytes : Bytes) : Prop :=
  ∃ e1 e2, Image columns before pair.1 e1 ∧ Image columns after pair.2 e2 ∧ bytes = e1 ++ e2

/-- UPDATE_ROWS (24, 31): the columns present before and after, then the pairs of rows. -/
inductive UpdateRowsBody (version : Nat) (columns : List (UInt8 × Nat)) (tableId flags : Nat) (before after : List Bool) :
    List (List ColState × List ColState) → Bytes → Prop where
  | mk {rows : List (List ColState × List ColState)} {head bitmap1 bitmap2 data : Bytes} (hn1 : before.length = columns.length)
      (hn2 : after.length = columns.length)
      (hh : RowsHead version tableId flags columns.length head) (hb1 : BitmapLE before bitmap1) (hb2 : BitmapLE after bitmap2)
      (hr : Each (ImagePair columns before after) rows data) :
      UpdateRowsBody version columns tableId flags before after rows (head ++ bitmap1 ++ bitmap2 ++ data)

/-- The table map event of a table with these columns. -/
def Describes (t : TableMapEvent) (columns : List (UInt8 × Nat)) : Prop :=
  t.columnTypes = columns.map (·.1) ∧ t.columnMetadata = columns.map (·.2)

end MysqlCdc.Spec
