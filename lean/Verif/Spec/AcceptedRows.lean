import Verif.Spec.Rows
import Verif.Spec.Accepted
import Verif.Model.EventParser
/-!
# Which row events the decoder takes, and for what

Like `Spec/Accepted`, for row events: the formats of `Spec/Cells` and `Spec/Rows` with every condition dropped that the decoder does
not look at. A column is declared by the type code and the 16 bits of metadata in the table map.
-/

namespace MysqlCdc.Spec

/-! ## DECIMAL -/

/-- At least `width` decimal digits. -/
def padded (width n : Nat) : RStr := List.replicate (width - (Nat.toDigits 10 n).length) '0' ++ Nat.toDigits 10 n

/-- Groups of nine digits, leading groups of zero left out. A group may hold a number of ten digits, which is then shown in full. -/
def groupsText (groups : List Nat) : RStr :=
  match groups.dropWhile (· == 0) with
  | [] => ['0']
  | n :: rest => Nat.toDigits 10 n ++ rest.flatMap (padded 9)

/-- NEWDECIMAL of precision `p` and scale `s`. A scale above the precision is refused by builds that check for overflow; others take
it for `p + 256 - s` integral digits. Any bytes are taken, as long as there are some; the groups need not be below 10^9. -/
inductive LooseDecimal (m : Mode) : Nat → RStr → Bytes → Prop where
  | mk {p s digits lead tail : Nat} {groups fgroups : List Nat} {negative : Bool} {body : Bytes} (hp : p < 256) (hs : s < 256)
      (hd : s ≤ p ∧ digits = p - s ∨ p < s ∧ m.checks = false ∧ digits = p + 256 - s)
      (hl : lead < 256 ^ groupBytes (digits % 9)) (hg : groups.length = digits / 9) (hg' : ∀ n ∈ groups, n < 2 ^ 32)
      (hf : fgroups.length = s / 9) (hf' : ∀ n ∈ fgroups, n < 2 ^ 32) (ht : tail < 256 ^ groupBytes (s % 9))
      (hb : body = be (groupBytes (digits % 9)) lead ++ groups.flatMap (be 4) ++ fgroups.flatMap (be 4) ++ be (groupBytes (s % 9)) tail)
      (htop : ∃ b bs, body = b :: bs ∧ b.toNat < 128) :
      LooseDecimal m (p + 256 * s)
        ((if negative then ['-'] else []) ++ groupsText (lead :: groups) ++
          (if s = 0 then [] else '.' :: (fgroups.flatMap (padded 9) ++ if s % 9 = 0 then [] else padded (s % 9) tail)))
        (signed negative body)

/-! ## Dates and times -/

/-- Fractional seconds: `(fsp + 1) / 2` bytes, units of 10^-2, 10^-4, 10^-6 seconds. More than three bytes crash builds that check for
overflow; others take them for zero. The count itself overflows at 65535. -/
inductive LooseFraction (m : Mode) (fsp : Nat) : Nat → Bytes → Prop where
  | none (h : fsp = 0 ∨ fsp = 65535 ∧ m.checks = false) : LooseFraction m fsp 0 []
  | some {width n : Nat} (hf : fsp < 65535) (hw : width = (fsp + 1) / 2) (h1 : 1 ≤ width) (h3 : width ≤ 3) (hn : n < 256 ^ width) :
      LooseFraction m fsp (n * 100 ^ (3 - width)) (be width n)
  | wide {bs : Bytes} (hm : m.checks = false) (hf : fsp < 65535) (hw : bs.length = (fsp + 1) / 2) (h4 : 4 ≤ bs.length)
      (h8 : bs.length ≤ 8) : LooseFraction m fsp 0 bs

inductive LooseDate : Date → Bytes → Prop where
  | mk {y mo d : Nat} (hy : y < 2 ^ 15) (hm : mo < 16) (hd : d < 32) : LooseDate ⟨y, mo, d⟩ (le 3 (d + 2 ^ 5 * mo + 2 ^ 9 * y))

/-- Minutes and seconds up to 99. -/
inductive LooseTime : Time → Bytes → Prop where
  | mk {h mi s : Nat} (hm : mi < 100) (hs : s < 100) (hv : h * 10000 + mi * 100 + s < 2 ^ 23) :
      LooseTime ⟨h, mi, s, 0⟩ (le 3 (h * 10000 + mi * 100 + s))

/-- The unused bit may be set; a clear sign bit (a negative time) is refused. -/
inductive LooseTime2 (m : Mode) (fsp : Nat) : Time → Bytes → Prop where
  | mk {unused h mi s micros : Nat} {frac : Bytes} (hu : unused < 2) (hh : h < 2 ^ 10) (hm : mi < 2 ^ 6) (hs : s < 2 ^ 6)
      (hf : LooseFraction m fsp micros frac) :
      LooseTime2 m fsp ⟨h, mi, s, micros / 1000⟩ (be 3 (2 ^ 23 + 2 ^ 22 * unused + 2 ^ 12 * h + 2 ^ 6 * mi + s) ++ frac)

/-- Any pairs of digits; of the year the low 16 bits count. -/
inductive LooseDateTime : DateTime → Bytes → Prop where
  | mk {y mo d h mi s : Nat} (hmo : mo < 100) (hd : d < 100) (hh : h < 100) (hm : mi < 100) (hs : s < 100)
      (hv : ((((y * 100 + mo) * 100 + d) * 100 + h) * 100 + mi) * 100 + s < 2 ^ 64) :
      LooseDateTime ⟨y % 2 ^ 16, mo, d, h, mi, s, 0⟩ (le 8 (((((y * 100 + mo) * 100 + d) * 100 + h) * 100 + mi) * 100 + s))

/-- The sign bit is not looked at. -/
inductive LooseDateTime2 (m : Mode) (fsp : Nat) : DateTime → Bytes → Prop where
  | mk {sign y mo d h mi s micros : Nat} {frac : Bytes} (hg : sign < 2) (hy : y * 13 + mo < 2 ^ 17) (hmo : mo < 13) (hd : d < 2 ^ 5)
      (hh : h < 2 ^ 5) (hm : mi < 2 ^ 6) (hs : s < 2 ^ 6) (hf : LooseFraction m fsp micros frac) :
      LooseDateTime2 m fsp ⟨y, mo, d, h, mi, s, micros / 1000⟩
        (be 5 (2 ^ 39 * sign + 2 ^ 22 * (y * 13 + mo) + 2 ^ 17 * d + 2 ^ 12 * h + 2 ^ 6 * mi + s) ++ frac)

/-! ## Text, blobs, BIT, ENUM, SET -/

/-- Text in a column declared with `size`: only the width of the length depends on it. -/
def LooseText (size : Nat) (s : RStr) (e : Bytes) : Prop :=
  (utf8Bytes s).length < 256 ^ (if size < 256 then 1 else 2) ∧
    e = le (if size < 256 then 1 else 2) (utf8Bytes s).length ++ utf8Bytes s

/-- A number of 1 to 8 bytes. -/
def Wide (width n : Nat) (e : Bytes) : Prop := 1 ≤ width ∧ width ≤ 8 ∧ n < 256 ^ width ∧ e = le width n

def LooseBlob (width : Nat) (bs e : Bytes) : Prop :=
  ∃ len, bs.length < 2 ^ 63 ∧ Wide width bs.length len ∧ e = len ++ bs

/-- BIT: metadata is the number of odd bits and the number of full bytes; most significant bit first. -/
def LooseBit (md : Nat) (bits : List Bool) (e : Bytes) : Prop := bits.length = md / 256 * 8 + md % 256 ∧ BitmapBE bits.reverse e

/-- A STRING column (254) with metadata `md` holds a value of type `code` with metadata `md'`. Below 256 the metadata is the size of
a CHAR. Otherwise the high byte is the real type, and its bits 4 and 5 are inverted by bits 8 and 9 of the size; a real type other than
ENUM and SET of size below 256 counts as CHAR. -/
inductive Unpacked : (md code md' : Nat) → Prop where
  | plain {md : Nat} (h : md < 256) : Unpacked md 254 md
  | char {real low : Nat} (hr : real < 256) (hl : low < 256) (h : real / 16 % 4 = 3) (hr' : real ≠ 247) (hr'' : real ≠ 248) :
      Unpacked (real * 256 + low) 254 low
  | other {real low : Nat} (hl : low < 256) (h : real = 247 ∨ real = 248) : Unpacked (real * 256 + low) real low
  | long {high low k : Nat} (hh : 0 < high) (hr : high < 256) (hl : low < 256) (h : high / 16 % 4 + k = 3) (hk : 0 < k) :
      Unpacked (high * 256 + low) (high + 16 * k) (low + 256 * k)

/-! ## Cells and rows -/

/-- The values of a column of type `code`, once unpacked. DECIMAL (0), NULL (6), NEWDATE (14) and unknown types have none. -/
def TakenValue (m : Mode) (code md : Nat) (v : MySqlValue) (e : Bytes) : Prop :=
  match code with
  | 1 => NumberCell 1 v e
  | 2 => NumberCell 2 v e
  | 3 => NumberCell 3 v e
  | 4 => NumberCell 4 v e
  | 5 => NumberCell 5 v e
  | 7 => ∃ s, (s < 2 ^ 32 ∧ e = le 4 s) ∧ v = .timestamp (s * 1000)
  | 8 => NumberCell 8 v e
  | 9 => NumberCell 9 v e
  | 10 => ∃ d, LooseDate d e ∧ v = .date d
  | 11 => ∃ t, LooseTime t e ∧ v = .time t
  | 12 => ∃ d, LooseDateTime d e ∧ v = .dateTime d
  | 13 => ∃ y, (y < 2 ^ 8 ∧ e = le 1 y) ∧ v = .year (1900 + y)
  | 15 => ∃ s, LooseText md s e ∧ v = .string s
  | 16 => ∃ bits, LooseBit md bits e ∧ v = .bit bits
  | 17 => ∃ s micros frac, s < 2 ^ 32 ∧ LooseFraction m md micros frac ∧ e = be 4 s ++ frac ∧ v = .timestamp (s * 1000 + micros / 1000)
  | 18 => ∃ d, LooseDateTime2 m md d e ∧ v = .dateTime d
  | 19 => ∃ t, LooseTime2 m md t e ∧ v = .time t
  | 245 => ∃ bs, LooseBlob md bs e ∧ v = .blob bs
  | 246 => ∃ s, LooseDecimal m md s e ∧ v = .decimal s
  | 247 => ∃ n, Wide md n e ∧ v = .enum (n % 2 ^ 32)
  | 248 => ∃ n, Wide md n e ∧ v = .set n
  | 249 => ∃ bs, LooseBlob md bs e ∧ v = .blob bs
  | 250 => ∃ bs, LooseBlob md bs e ∧ v = .blob bs
  | 251 => ∃ bs, LooseBlob md bs e ∧ v = .blob bs
  | 252 => ∃ bs, LooseBlob md bs e ∧ v = .blob bs
  | 253 => ∃ s, LooseText md s e ∧ v = .string s
  | 254 => ∃ s, LooseText md s e ∧ v = .string s
  | 255 => ∃ bs, LooseBlob md bs e ∧ v = .blob bs
  | _ => False

/-- The values of a column declared with type `t` and metadata `md`. -/
inductive TakenCell (m : Mode) (t : UInt8) (md : Nat) (v : MySqlValue) (e : Bytes) : Prop where
  | plain (ht : t ≠ 254) (h : TakenValue m t.toNat md v e) : TakenCell m t md v e
  | packed {code md' : Nat} (ht : t = 254) (hu : Unpacked md code md') (h : TakenValue m code md' v e) : TakenCell m t md v e

/-- The values of a row, as in `RowCells`. -/
inductive TakenCells (m : Mode) : List (UInt8 × Nat) → List ColState → Bytes → Prop where
  | nil : TakenCells m [] [] []
  | absent {c : UInt8 × Nat} {cs : List (UInt8 × Nat)} {ss : List ColState} {e : Bytes} (h : TakenCells m cs ss e) :
      TakenCells m (c :: cs) (.absent :: ss) e
  | null {c : UInt8 × Nat} {cs : List (UInt8 × Nat)} {ss : List ColState} {e : Bytes} (h : TakenCells m cs ss e) :
      TakenCells m (c :: cs) (.null :: ss) e
  | value {t : UInt8} {md : Nat} {cs : List (UInt8 × Nat)} {v : MySqlValue} {ss : List ColState} {e es : Bytes}
      (hc : TakenCell m t md v e) (h : TakenCells m cs ss es) : TakenCells m ((t, md) :: cs) (.value v :: ss) (e ++ es)

/-- A row image. The event's bitmap may have more bits than the table has columns: the NULL bitmap then has a bit for each of them
that is set, which is not looked at. -/
def TakenImage (m : Mode) (columns : List (UInt8 × Nat)) (present : List Bool) (row : RowData) (bytes : Bytes) : Prop :=
  ∃ states more bitmap data, present.take columns.length = states.map ColState.present ∧
    more.length = (present.drop columns.length).count true ∧
    BitmapLE (states.filterMap ColState.nullFlag ++ more) bitmap ∧ TakenCells m columns states data ∧
    bytes = bitmap ++ data ∧ row = ⟨states.map ColState.cell⟩

/-- Start of a row event. In version 2 a length of 1 for the extra data is taken for an event without columns. -/
inductive TakenHead : (version tableId flags columns : Nat) → Bytes → Prop where
  | plain {version tableId flags columns : Nat} {e : Bytes} (h : RowsHead version tableId flags columns e) :
      TakenHead version tableId flags columns e
  | odd {tableId flags : Nat} (h1 : tableId < 2 ^ 48) (h2 : flags < 2 ^ 16) :
      TakenHead 2 tableId flags 0 (le 6 tableId ++ le 2 flags ++ [1, 0])

/-- WRITE_ROWS and DELETE_ROWS for a table with these columns. A row must take at least one byte. -/
inductive TakenRows (m : Mode) (version : Nat) (columns : List (UInt8 × Nat)) : RowsEvent → Bytes → Prop where
  | mk {tableId flags n : Nat} {present : List Bool} {rows : List RowData} {head bitmap data : Bytes}
      (hh : TakenHead version tableId flags n head) (hn : n < 2 ^ 63) (hp : present.length = n) (hb : BitmapLE present bitmap)
      (hr : Each (fun row e => e ≠ [] ∧ columns.length ≤ n ∧ TakenImage m columns present row e) rows data) :
      TakenRows m version columns ⟨tableId, flags, n, present, rows⟩ (head ++ bitmap ++ data)

/-- UPDATE_ROWS. -/
inductive TakenUpdates (m : Mode) (version : Nat) (columns : List (UInt8 × Nat)) : UpdateRowsEvent → Bytes → Prop where
  | mk {tableId flags n : Nat} {before after : List Bool} {rows : List UpdateRowData} {head bitmap1 bitmap2 data : Bytes}
      (hh : TakenHead version tableId flags n head) (hn : n < 2 ^ 63) (hp1 : before.length = n) (hp2 : after.length = n)
      (hb1 : BitmapLE before bitmap1) (hb2 : BitmapLE after bitmap2)
      (hr : Each (fun row e => e ≠ [] ∧ columns.length ≤ n ∧ ∃ e1 e2, TakenImage m columns before row.beforeUpdate e1 ∧
        TakenImage m columns after row.afterUpdate e2 ∧ e = e1 ++ e2) rows data) :
      TakenUpdates m version columns ⟨tableId, flags, n, before, after, rows⟩ (head ++ bitmap1 ++ bitmap2 ++ data)

/-- A row event is decoded with the columns of the last table map of the same table id. -/
inductive AcceptedRows (m : Mode) (columnsOf : Nat → Option (List (UInt8 × Nat))) (code : Nat) : BinlogEvent → Bytes → Prop where
  | write {version : Nat} {columns : List (UInt8 × Nat)} {r : RowsEvent} {body : Bytes}
      (hc : version = 1 ∧ code = 23 ∨ version = 2 ∧ code = 30) (ht : columnsOf r.tableId = some columns)
      (h : TakenRows m version columns r body) : AcceptedRows m columnsOf code (.writeRows r) body
  | update {version : Nat} {columns : List (UInt8 × Nat)} {r : UpdateRowsEvent} {body : Bytes}
      (hc : version = 1 ∧ code = 24 ∨ version = 2 ∧ code = 31) (ht : columnsOf r.tableId = some columns)
      (h : TakenUpdates m version columns r body) : AcceptedRows m columnsOf code (.updateRows r) body
  | delete {version : Nat} {columns : List (UInt8 × Nat)} {r : RowsEvent} {body : Bytes}
      (hc : version = 1 ∧ code = 25 ∨ version = 2 ∧ code = 32) (ht : columnsOf r.tableId = some columns)
      (h : TakenRows m version columns r body) : AcceptedRows m columnsOf code (.deleteRows r) body

/-! ## Streams -/

/-- Any event. -/
def AcceptedEvent (m : Mode) (columnsOf : Nat → Option (List (UInt8 × Nat))) (header : EventHeader) (event : BinlogEvent)
    (body : Bytes) : Prop :=
  Accepted m header event body ∨ AcceptedRows m columnsOf header.eventType event body

/-- The checksum algorithm is the one of the last FORMAT_DESCRIPTION_EVENT. -/
def algorithmAfter (before : ChecksumType) : BinlogEvent → ChecksumType
  | .formatDescription x => x.checksumType
  | _ => before

/-- The columns of a table are the ones of its last TABLE_MAP_EVENT. -/
def columnsAfter (before : Nat → Option (List (UInt8 × Nat))) : BinlogEvent → Nat → Option (List (UInt8 × Nat))
  | .tableMap t => fun id => if id = t.tableId then some (t.columnTypes.zip t.columnMetadata) else before id
  | _ => before

/-- A sequence of events, each with its header and the bytes behind it, is decoded as `events`. -/
inductive AcceptedStream (m : Mode) : ChecksumType → (Nat → Option (List (UInt8 × Nat))) → List (EventHeader × Bytes) →
    List BinlogEvent → Prop where
  | nil {ck : ChecksumType} {columnsOf : Nat → Option (List (UInt8 × Nat))} : AcceptedStream m ck columnsOf [] []
  | cons {ck : ChecksumType} {columnsOf : Nat → Option (List (UInt8 × Nat))} {header : EventHeader} {slice body : Bytes}
      {event : BinlogEvent} {items : List (EventHeader × Bytes)} {events : List BinlogEvent} (hs : WithChecksum ck body slice)
      (h : AcceptedEvent m columnsOf header event body)
      (hr : AcceptedStream m (algorithmAfter ck event) (columnsAfter columnsOf event) items events) :
      AcceptedStream m ck columnsOf ((header, slice) :: items) (event :: events)

end MysqlCdc.Spec
