import Verif.Spec.AcceptedRows
/-!
# Which events crash the decoder, and which it never gets done with

An event that is neither decoded (`Spec/Accepted`, `Spec/AcceptedRows`) nor listed here is refused with an error.
-/

namespace MysqlCdc.Spec

/-- Well-formed items, then bytes with the property `K`. -/
def AfterSome {α : Type} (R : α → Bytes → Prop) (K : Bytes → Prop) (t : Bytes) : Prop :=
  ∃ vs e t1, Each R vs e ∧ K t1 ∧ t = e ++ t1

/-! ## Events other than row events -/

/-- A text with a length of 2^63 or more. -/
def HugeText (t : Bytes) : Prop := ∃ n l rest, LenEnc n l ∧ 2 ^ 63 ≤ n ∧ t = l ++ rest

/-- Values of an ENUM or SET column, one of them huge. -/
def HugeValues (t : Bytes) : Prop :=
  ∃ n l names e t1, LenEnc n l ∧ names.length < n ∧ Each Text names e ∧ HugeText t1 ∧ t = l ++ e ++ t1

/-- The names of the columns, or the values of the ENUM or SET columns. -/
inductive PayloadCrash : UInt8 → Bytes → Prop where
  | names {payload : Bytes} (h : AfterSome Text HugeText payload) : PayloadCrash 4 payload
  | setValues {payload : Bytes} (h : AfterSome Values HugeValues payload) : PayloadCrash 5 payload
  | enumValues {payload : Bytes} (h : AfterSome Values HugeValues payload) : PayloadCrash 6 payload

/-- Optional metadata: codes 1 to 12. -/
inductive FieldCrash : Bytes → Prop where
  | huge {code : UInt8} {n : Nat} {len rest : Bytes} (hc : 1 ≤ code.toNat ∧ code.toNat ≤ 12) (hl : LenEnc n len) (hn : 2 ^ 63 ≤ n) :
      FieldCrash ([code] ++ len ++ rest)
  | payload {code : UInt8} {len payload rest : Bytes} (hl : LenEnc payload.length len) (hn : payload.length < 2 ^ 63)
      (h : PayloadCrash code payload) : FieldCrash ([code] ++ len ++ payload ++ rest)

/-- TABLE_MAP_EVENT: 2^63 columns or more, or a crash in the optional metadata. -/
inductive TableMapCrash : Bytes → Prop where
  | columns {tableId n : Nat} {flags count rest : Bytes} {db table : RStr} {z1 z2 : UInt8} (h1 : tableId < 2 ^ 48)
      (h2 : flags.length = 2) (h3 : (utf8Bytes db).length < 2 ^ 8) (h4 : (utf8Bytes table).length < 2 ^ 8) (h5 : LenEnc n count)
      (hn : 2 ^ 63 ≤ n) :
      TableMapCrash (le 6 tableId ++ flags ++ (le 1 (utf8Bytes db).length ++ utf8Bytes db ++ [z1])
        ++ (le 1 (utf8Bytes table).length ++ utf8Bytes table ++ [z2]) ++ count ++ rest)
  | metadata {tableId metaSize : Nat} {flags : Bytes} {db table : RStr} {columns : List (UInt8 × Nat)} {nulls : List Bool}
      {z1 z2 : UInt8} {count metaLength colMeta bitmap opt : Bytes} (h1 : tableId < 2 ^ 48) (h2 : flags.length = 2)
      (h3 : (utf8Bytes db).length < 2 ^ 8) (h4 : (utf8Bytes table).length < 2 ^ 8) (h5 : LenEnc columns.length count)
      (h5' : columns.length < 2 ^ 63) (h6 : Each ColumnMeta columns colMeta) (h8 : LenEnc metaSize metaLength)
      (h9 : nulls.length = columns.length) (h10 : BitmapLE nulls bitmap)
      (h11 : AfterSome (LooseField (columns.map (·.1))) FieldCrash opt) :
      TableMapCrash (le 6 tableId ++ flags ++ (le 1 (utf8Bytes db).length ++ utf8Bytes db ++ [z1])
        ++ (le 1 (utf8Bytes table).length ++ utf8Bytes table ++ [z2]) ++ count ++ columns.map (·.1)
        ++ metaLength ++ colMeta ++ bitmap ++ opt)

/-- PREVIOUS_GTIDS_LOG_EVENT: an interval with the end 0, where overflow is checked for. -/
inductive PreviousCrash (m : Mode) : Bytes → Prop where
  | mk {count n start : Nat} {sets : List (Bytes × List Interval)} {ivs : List Interval} {sid data1 data2 rest : Bytes}
      (hm : m.checks = true) (h1 : count < 2 ^ 64) (h2 : sets.length < count) (h3 : Each (PreviousServer m) sets data1)
      (h4 : sid.length = 16) (h5 : n < 2 ^ 64) (h6 : ivs.length < n) (h7 : Each (PreviousInterval m) ivs data2) (h8 : start < 2 ^ 64) :
      PreviousCrash m (le 8 count ++ data1 ++ (sid ++ le 8 n ++ data2 ++ (le 8 start ++ le 8 0)) ++ rest)

/-- FORMAT_DESCRIPTION_EVENT: the low byte of the event length is below 19, where overflow is checked for. -/
inductive FormatCrash (m : Mode) (eventLength : Nat) : Bytes → Prop where
  | mk {version : Nat} {server : RStr} {pad rest : Bytes} (hm : m.checks = true) (hl : eventLength % 256 < 19) (h1 : version < 2 ^ 16)
      (h2 : (0 : UInt8) ∉ utf8Bytes server) (h3 : pad = [] ∨ pad.head? = some 0) (h4 : (utf8Bytes server).length + pad.length = 50)
      (h5 : 20 ≤ rest.length) : FormatCrash m eventLength (le 2 version ++ (utf8Bytes server ++ pad) ++ rest)

/-! ## Row events -/

/-- Fractional seconds. The number of bytes overflows (checked), is above 8, or is above 3 (checked). -/
def FractionCrash (m : Mode) (fsp : Nat) (t : Bytes) : Prop :=
  fsp = 65535 ∧ m.checks = true ∨ fsp < 65535 ∧ 8 < (fsp + 1) / 2 ∨
    m.checks = true ∧ fsp < 65535 ∧ 4 ≤ (fsp + 1) / 2 ∧ (fsp + 1) / 2 ≤ 8 ∧ (fsp + 1) / 2 ≤ t.length

/-- `k` bytes, then a crash in the fractional seconds. -/
def TimeCrash (m : Mode) (k fsp : Nat) (t : Bytes) : Prop := ∃ e t1, e.length = k ∧ FractionCrash m fsp t1 ∧ t = e ++ t1

/-- Numbers of 0 bytes or more than 8. -/
def NoWidth (md : Nat) : Prop := md = 0 ∨ 8 < md

def BlobCrash (md : Nat) (t : Bytes) : Prop := NoWidth md ∨ ∃ n l rest, Wide md n l ∧ 2 ^ 63 ≤ n ∧ t = l ++ rest

/-- A cell of a column of type `code`, once unpacked: fractional seconds; blobs; DECIMAL with more fractional digits than digits
(checked) or none; ENUM and SET. -/
def ValueCrash (m : Mode) (code md : Nat) (t : Bytes) : Prop :=
  match code with
  | 17 => TimeCrash m 4 md t
  | 18 => TimeCrash m 5 md t
  | 19 => TimeCrash m 3 md t
  | 245 => BlobCrash md t
  | 246 => m.checks = true ∧ md % 256 < md / 256 ∨ md = 0
  | 247 => NoWidth md
  | 248 => NoWidth md
  | 249 => BlobCrash md t
  | 250 => BlobCrash md t
  | 251 => BlobCrash md t
  | 252 => BlobCrash md t
  | 255 => BlobCrash md t
  | _ => False

inductive CellCrash (m : Mode) (type : UInt8) (md : Nat) (t : Bytes) : Prop where
  | plain (ht : type ≠ 254) (h : ValueCrash m type.toNat md t) : CellCrash m type md t
  | packed {code md' : Nat} (ht : type = 254) (hu : Unpacked md code md') (h : ValueCrash m code md' t) : CellCrash m type md t

/-- The cells of a row with the columns present and the NULL flags of these: a cell crashes, or there is no flag for a column because the
event has less columns than the table. -/
inductive CellsCrash (m : Mode) : (columns : List (UInt8 × Nat)) → (present nulls : List Bool) → Bytes → Prop where
  | missing {c : UInt8 × Nat} {cs : List (UInt8 × Nat)} {ns : List Bool} {t : Bytes} : CellsCrash m (c :: cs) [] ns t
  | absent {c : UInt8 × Nat} {cs : List (UInt8 × Nat)} {ps ns : List Bool} {t : Bytes} (h : CellsCrash m cs ps ns t) :
      CellsCrash m (c :: cs) (false :: ps) ns t
  | null {c : UInt8 × Nat} {cs : List (UInt8 × Nat)} {ps ns : List Bool} {t : Bytes} (h : CellsCrash m cs ps ns t) :
      CellsCrash m (c :: cs) (true :: ps) (true :: ns) t
  | value {type : UInt8} {md : Nat} {v : MySqlValue} {cs : List (UInt8 × Nat)} {ps ns : List Bool} {e t : Bytes}
      (hc : TakenCell m type md v e) (h : CellsCrash m cs ps ns t) : CellsCrash m ((type, md) :: cs) (true :: ps) (false :: ns) (e ++ t)
  | cell {type : UInt8} {md : Nat} {cs : List (UInt8 × Nat)} {ps ns : List Bool} {t : Bytes} (hc : CellCrash m type md t) :
      CellsCrash m ((type, md) :: cs) (true :: ps) (false :: ns) t

def ImageCrash (m : Mode) (columns : List (UInt8 × Nat)) (present : List Bool) (t : Bytes) : Prop :=
  ∃ nulls bitmap t1, nulls.length = present.count true ∧ BitmapLE nulls bitmap ∧ CellsCrash m columns present nulls t1 ∧ t = bitmap ++ t1

/-- The start of a row event, with `rest` behind it. In version 2 a length of 0 for the extra data makes the decoder go back and take
the first byte of this length for the number of columns. -/
inductive HeadOf (version tableId flags columns : Nat) : (body rest : Bytes) → Prop where
  | taken {head rest : Bytes} (h : TakenHead version tableId flags columns head) : HeadOf version tableId flags columns (head ++ rest) rest
  | back {rest : Bytes} (hv : version = 2) (h1 : tableId < 2 ^ 48) (h2 : flags < 2 ^ 16) (hc : columns = 0) :
      HeadOf version tableId flags columns (le 6 tableId ++ le 2 flags ++ [0, 0] ++ rest) (0 :: rest)

/-- WRITE_ROWS and DELETE_ROWS: 2^63 columns or more, or a crash in a row. -/
inductive RowsCrash (m : Mode) (version : Nat) (columnsOf : Nat → Option (List (UInt8 × Nat))) : Bytes → Prop where
  | columns {tableId flags n : Nat} {body rest : Bytes} (hh : HeadOf version tableId flags n body rest) (hn : 2 ^ 63 ≤ n) :
      RowsCrash m version columnsOf body
  | row {tableId flags n : Nat} {columns : List (UInt8 × Nat)} {present : List Bool} {body bitmap data : Bytes}
      (hh : HeadOf version tableId flags n body (bitmap ++ data)) (hn : n < 2 ^ 63) (hp : present.length = n)
      (hb : BitmapLE present bitmap) (ht : columnsOf tableId = some columns)
      (hr : AfterSome (fun row e => e ≠ [] ∧ columns.length ≤ n ∧ TakenImage m columns present row e)
        (fun t => t ≠ [] ∧ ImageCrash m columns present t) data) : RowsCrash m version columnsOf body

/-- UPDATE_ROWS. -/
inductive UpdatesCrash (m : Mode) (version : Nat) (columnsOf : Nat → Option (List (UInt8 × Nat))) : Bytes → Prop where
  | columns {tableId flags n : Nat} {body rest : Bytes} (hh : HeadOf version tableId flags n body rest) (hn : 2 ^ 63 ≤ n) :
      UpdatesCrash m version columnsOf body
  | row {tableId flags n : Nat} {columns : List (UInt8 × Nat)} {before after : List Bool} {body bitmap1 bitmap2 data : Bytes}
      (hh : HeadOf version tableId flags n body (bitmap1 ++ bitmap2 ++ data)) (hn : n < 2 ^ 63) (hp1 : before.length = n)
      (hp2 : after.length = n) (hb1 : BitmapLE before bitmap1) (hb2 : BitmapLE after bitmap2) (ht : columnsOf tableId = some columns)
      (hr : AfterSome (fun row e => e ≠ [] ∧ columns.length ≤ n ∧ ∃ e1 e2, TakenImage m columns before (UpdateRowData.beforeUpdate row) e1 ∧
          TakenImage m columns after row.afterUpdate e2 ∧ e = e1 ++ e2)
        (fun t => t ≠ [] ∧ (ImageCrash m columns before t ∨ columns.length ≤ n ∧ ∃ row e t1, TakenImage m columns before row e ∧
          ImageCrash m columns after t1 ∧ t = e ++ t1)) data) : UpdatesCrash m version columnsOf body

/-- WRITE_ROWS and DELETE_ROWS: no column is present, and there is data. -/
inductive RowsLoop (version : Nat) (columnsOf : Nat → Option (List (UInt8 × Nat))) : Bytes → Prop where
  | mk {tableId flags n : Nat} {columns : List (UInt8 × Nat)} {present : List Bool} {body bitmap data : Bytes}
      (hh : HeadOf version tableId flags n body (bitmap ++ data)) (hn : n < 2 ^ 63) (hp : present.length = n)
      (hb : BitmapLE present bitmap) (ht : columnsOf tableId = some columns) (hc : columns.length ≤ n) (h0 : true ∉ present)
      (hd : data ≠ []) : RowsLoop version columnsOf body

inductive UpdatesLoop (version : Nat) (columnsOf : Nat → Option (List (UInt8 × Nat))) : Bytes → Prop where
  | mk {tableId flags n : Nat} {columns : List (UInt8 × Nat)} {before after : List Bool} {body bitmap1 bitmap2 data : Bytes}
      (hh : HeadOf version tableId flags n body (bitmap1 ++ bitmap2 ++ data)) (hn : n < 2 ^ 63) (hp1 : before.length = n)
      (hp2 : after.length = n) (hb1 : BitmapLE before bitmap1) (hb2 : BitmapLE after bitmap2) (ht : columnsOf tableId = some columns)
      (hc : columns.length ≤ n) (h1 : true ∉ before) (h2 : true ∉ after) (hd : data ≠ []) : UpdatesLoop version columnsOf body

/-! ## Events -/

/-- The body crashes the decoder. -/
inductive EventCrash (m : Mode) (columnsOf : Nat → Option (List (UInt8 × Nat))) (header : EventHeader) (body : Bytes) : Prop where
  | format (hc : header.eventType = 15) (h : FormatCrash m header.eventLength body) : EventCrash m columnsOf header body
  | tableMap (hc : header.eventType = 19) (h : TableMapCrash body) : EventCrash m columnsOf header body
  | previous (hc : header.eventType = 35) (h : PreviousCrash m body) : EventCrash m columnsOf header body
  | rows {version : Nat} (hc : version = 1 ∧ header.eventType ∈ [23, 25] ∨ version = 2 ∧ header.eventType ∈ [30, 32])
      (h : RowsCrash m version columnsOf body) : EventCrash m columnsOf header body
  | updates {version : Nat} (hc : version = 1 ∧ header.eventType = 24 ∨ version = 2 ∧ header.eventType = 31)
      (h : UpdatesCrash m version columnsOf body) : EventCrash m columnsOf header body

/-- The decoder never gets done with the body. -/
inductive EventLoop (columnsOf : Nat → Option (List (UInt8 × Nat))) (header : EventHeader) (body : Bytes) : Prop where
  | rows {version : Nat} (hc : version = 1 ∧ header.eventType ∈ [23, 25] ∨ version = 2 ∧ header.eventType ∈ [30, 32])
      (h : RowsLoop version columnsOf body) : EventLoop columnsOf header body
  | updates {version : Nat} (hc : version = 1 ∧ header.eventType = 24 ∨ version = 2 ∧ header.eventType = 31)
      (h : UpdatesLoop version columnsOf body) : EventLoop columnsOf header body

/-! ## Slices and streams -/

/-- An event, its checksum included, crashes the decoder. -/
def SliceCrash (m : Mode) (ck : ChecksumType) (columnsOf : Nat → Option (List (UInt8 × Nat))) (header : EventHeader) (slice : Bytes) : Prop :=
  ck = .crc32 ∧ slice.length < 4 ∨ ∃ body, WithChecksum ck body slice ∧ EventCrash m columnsOf header body

def SliceLoop (ck : ChecksumType) (columnsOf : Nat → Option (List (UInt8 × Nat))) (header : EventHeader) (slice : Bytes) : Prop :=
  ∃ body, WithChecksum ck body slice ∧ EventLoop columnsOf header body

/-- An event is refused with an error: it has room for its checksum, and is none of the others. -/
def SliceError (m : Mode) (ck : ChecksumType) (columnsOf : Nat → Option (List (UInt8 × Nat))) (header : EventHeader) (slice : Bytes) : Prop :=
  ∃ body, WithChecksum ck body slice ∧ (∀ event, ¬AcceptedEvent m columnsOf header event body) ∧ ¬EventCrash m columnsOf header body ∧
    ¬EventLoop columnsOf header body

/-- Accepted events, then one with the property `Z`, then anything. -/
def AfterEvents (m : Mode) (Z : ChecksumType → (Nat → Option (List (UInt8 × Nat))) → EventHeader → Bytes → Prop)
    (items : List (EventHeader × Bytes)) : Prop :=
  ∃ before events header slice after, items = before ++ (header, slice) :: after ∧ AcceptedStream m .none (fun _ => none) before events ∧
    Z (events.foldl algorithmAfter .none) (events.foldl columnsAfter fun _ => none) header slice

end MysqlCdc.Spec
