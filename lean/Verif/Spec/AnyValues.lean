import Verif.Spec.Rows
/-!
# All values a server can store in a column

`Spec/Cells` describes the values the library has a form for. Here are all of them: text in any character set, binary strings, and negative
times, as MySQL's `my_time_packed_to_binary` writes them.
-/

namespace MysqlCdc.Spec

/-- A value of a column of the server. -/
inductive ServerValue where
  | value (v : MySqlValue)
  /-- CHAR, VARCHAR, BINARY, VARBINARY: the bytes stored, in the character set of the column. -/
  | text (bytes : Bytes)
  /-- A time below zero: `-hour:minute:second.micros` -/
  | negative (hour minute second micros : Nat)
  /-- YEAR 0000 -/
  | yearZero

/-- Bytes in a column of at most `size` bytes, as `Sized`. -/
def SizedBytes (size : Nat) (bs bytes : Bytes) : Prop :=
  bs.length ≤ size ∧ bytes = le (if size < 256 then 1 else 2) bs.length ++ bs

/-- How a column of type `t` with metadata `md` holds a value. -/
inductive ServerCell : UInt8 → Nat → ServerValue → Bytes → Prop where
  | value {t : UInt8} {md : Nat} {v : MySqlValue} {e : Bytes} (h : Cell t md v e) : ServerCell t md (.value v) e
  | varChar {size : Nat} {bs e : Bytes} (hs : size < 2 ^ 16) (h : SizedBytes size bs e) : ServerCell 15 size (.text bs) e
  | varString {size : Nat} {bs e : Bytes} (hs : size < 2 ^ 16) (h : SizedBytes size bs e) : ServerCell 253 size (.text bs) e
  | char {size : Nat} {bs e : Bytes} (hs : size < 1024) (h : SizedBytes size bs e) : ServerCell 254 (charMeta size) (.text bs) e
  /-- TIME before MySQL 5.6.4: the number hhmmss, negated, in two's complement. -/
  | time {h mi s : Nat} (hh : h ≤ 838) (hm : mi < 60) (hs : s < 60) (h0 : 0 < h * 10000 + mi * 100 + s) :
      ServerCell 11 0 (.negative h mi s 0) (le 3 (2 ^ 24 - (h * 10000 + mi * 100 + s)))
  /-- TIME2: the time as one number, the fraction behind the seconds, taken from the number that stands for zero. -/
  | time2 {fsp width h mi s micros : Nat} (hf : fsp ≤ 6) (hw : width = (fsp + 1) / 2) (hh : h ≤ 838) (hm : mi < 60) (hs : s < 60)
      (hu : micros < 1000000) (hd : 10 ^ (6 - fsp) ∣ micros) (h0 : 0 < h + mi + s + micros) :
      ServerCell 19 fsp (.negative h mi s micros)
        (be (3 + width) (2 ^ 23 * 256 ^ width - ((2 ^ 12 * h + 2 ^ 6 * mi + s) * 256 ^ width + micros / 100 ^ (3 - width))))
  | yearZero : ServerCell 13 0 .yearZero (le 1 0)

/-- What the library makes of a value: its own form of it, or an error. -/
inductive Shown : ServerValue → Except Err MySqlValue → Prop where
  | value {v : MySqlValue} : Shown (.value v) (.ok v)
  | text {s : RStr} : Shown (.text (utf8Bytes s)) (.ok (.string s))
  | noText {bs : Bytes} (h : ∀ s, bs ≠ utf8Bytes s) : Shown (.text bs) (.error .fromUtf8)
  | negative {h mi s u : Nat} :
      Shown (.negative h mi s u) (.error (.str "Parsing negative TIME values is not supported in this version"))
  /-- Not the right form, but no error (C48). -/
  | yearZero : Shown .yearZero (.ok (.year 1900))

/-- What a row image says about a column. -/
inductive ServerState where
  | absent
  | null
  | value (v : ServerValue)

namespace ServerState

def present : ServerState → Bool
  | absent => false
  | _ => true

def nullFlag : ServerState → Option Bool
  | absent => none
  | null => some true
  | value _ => some false

end ServerState

/-- The values of a row, as `RowCells`. -/
inductive ServerCells : List (UInt8 × Nat) → List ServerState → Bytes → Prop where
  | nil : ServerCells [] [] []
  | absent {c : UInt8 × Nat} {cs : List (UInt8 × Nat)} {ss : List ServerState} {e : Bytes} (h : ServerCells cs ss e) :
      ServerCells (c :: cs) (.absent :: ss) e
  | null {c : UInt8 × Nat} {cs : List (UInt8 × Nat)} {ss : List ServerState} {e : Bytes} (h : ServerCells cs ss e) :
      ServerCells (c :: cs) (.null :: ss) e
  | value {t : UInt8} {md : Nat} {cs : List (UInt8 × Nat)} {v : ServerValue} {ss : List ServerState} {e es : Bytes}
      (hc : ServerCell t md v e) (h : ServerCells cs ss es) : ServerCells ((t, md) :: cs) (.value v :: ss) (e ++ es)

/-- A row image, as `Image`. -/
def ServerImage (columns : List (UInt8 × Nat)) (present : List Bool) (states : List ServerState) (bytes : Bytes) : Prop :=
  states.map ServerState.present = present ∧
  ∃ bitmap data, BitmapLE (states.filterMap ServerState.nullFlag) bitmap ∧ ServerCells columns states data ∧ bytes = bitmap ++ data

/-- WRITE_ROWS and DELETE_ROWS, as `RowsBody`. -/
inductive ServerRows (version : Nat) (columns : List (UInt8 × Nat)) (tableId flags : Nat) (present : List Bool) :
    List (List ServerState) → Bytes → Prop where
  | mk {rows : List (List ServerState)} {head bitmap data : Bytes} (hn : present.length = columns.length)
      (hh : RowsHead version tableId flags columns.length head) (hb : BitmapLE present bitmap)
      (hr : Each (ServerImage columns present) rows data) :
      ServerRows version columns tableId flags present rows (head ++ bitmap ++ data)

/-- UPDATE_ROWS, as `UpdateRowsBody`. -/
inductive ServerUpdates (version : Nat) (columns : List (UInt8 × Nat)) (tableId flags : Nat) (before after : List Bool) :
    List (List ServerState × List ServerState) → Bytes → Prop where
  | mk {rows : List (List ServerState × List ServerState)} {head bitmap1 bitmap2 data : Bytes} (hn1 : before.length = columns.length)
      (hn2 : after.length = columns.length)
      (hh : RowsHead version tableId flags columns.length head) (hb1 : BitmapLE before bitmap1) (hb2 : BitmapLE after bitmap2)
      (hr : Each (fun pair e => ∃ e1 e2, ServerImage columns before pair.1 e1 ∧ ServerImage columns after pair.2 e2 ∧ e = e1 ++ e2)
        rows data) :
      ServerUpdates version columns tableId flags before after rows (head ++ bitmap1 ++ bitmap2 ++ data)

/-- What becomes of several things taken one after the other: all results, or the first error. -/
inductive InTurn {α β : Type} (R : α → Except Err β → Prop) : List α → Except Err (List β) → Prop where
  | nil : InTurn R [] (.ok [])
  | cons {a : α} {as : List α} {b : β} {bs : List β} (h : R a (.ok b)) (hs : InTurn R as (.ok bs)) : InTurn R (a :: as) (.ok (b :: bs))
  | here {a : α} {as : List α} {e : Err} (h : R a (.error e)) : InTurn R (a :: as) (.error e)
  | later {a : α} {as : List α} {b : β} {e : Err} (h : R a (.ok b)) (hs : InTurn R as (.error e)) : InTurn R (a :: as) (.error e)

/-- One column of a row. -/
inductive ShownCell : ServerState → Except Err (Option MySqlValue) → Prop where
  | absent : ShownCell .absent (.ok none)
  | null : ShownCell .null (.ok none)
  | value {v : ServerValue} {w : MySqlValue} (h : Shown v (.ok w)) : ShownCell (.value v) (.ok (some w))
  | refused {v : ServerValue} {e : Err} (h : Shown v (.error e)) : ShownCell (.value v) (.error e)

/-- One row: its cells, or the first error. -/
inductive ShownRow : List ServerState → Except Err RowData → Prop where
  | row {states : List ServerState} {cells : List (Option MySqlValue)} (h : InTurn ShownCell states (.ok cells)) :
      ShownRow states (.ok ⟨cells⟩)
  | refused {states : List ServerState} {e : Err} (h : InTurn ShownCell states (.error e)) : ShownRow states (.error e)

/-- A row before and after an update. -/
inductive ShownPair : List ServerState × List ServerState → Except Err UpdateRowData → Prop where
  | pair {s1 s2 : List ServerState} {r1 r2 : RowData} (h1 : ShownRow s1 (.ok r1)) (h2 : ShownRow s2 (.ok r2)) :
      ShownPair (s1, s2) (.ok ⟨r1, r2⟩)
  | before {s1 s2 : List ServerState} {e : Err} (h : ShownRow s1 (.error e)) : ShownPair (s1, s2) (.error e)
  | after {s1 s2 : List ServerState} {r1 : RowData} {e : Err} (h1 : ShownRow s1 (.ok r1)) (h : ShownRow s2 (.error e)) :
      ShownPair (s1, s2) (.error e)

/-- The library has a form for this value. -/
def ServerValue.Fine : ServerValue → Prop
  | .value _ => True
  | .text bs => ∃ s, bs = utf8Bytes s
  | .negative .. => False
  | .yearZero => True

/-- Every value of the row is fine. -/
def FineRow (states : List ServerState) : Prop := ∀ v, ServerState.value v ∈ states → v.Fine

end MysqlCdc.Spec
