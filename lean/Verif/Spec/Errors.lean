import Verif.Spec.Faults
/-!
# With which error an event is refused

Every reason other than the end of the bytes. It counts only if everything before it is well-formed, so there is never more than one.
-/

namespace MysqlCdc.Spec

/-- These bytes are no UTF-8. -/
def NotText (t : Bytes) : Prop := ∀ s, t ≠ utf8Bytes s

/-- A length-encoded number that starts with 0xFB or 0xFF. -/
inductive NumError : Err → Bytes → Prop where
  | null {rest : Bytes} : NumError (.str "Length encoded integer cannot be NULL.") (0xFB :: rest)
  | marker {rest : Bytes} : NumError (.str "Unexpected length-encoded integer") (0xFF :: rest)

/-- `n` bytes that should be text. -/
inductive TextError (n : Nat) : Err → Bytes → Prop where
  | mk {raw rest : Bytes} (hl : raw.length = n) (hn : n < 2 ^ 63) (h : NotText raw) : TextError n .fromUtf8 (raw ++ rest)

/-- A text with its length-encoded length. -/
inductive CountedError (err : Err) : Bytes → Prop where
  | count {t : Bytes} (h : NumError err t) : CountedError err t
  | text {n : Nat} {l t : Bytes} (hl : LenEnc n l) (h : TextError n err t) : CountedError err (l ++ t)

/-! ## Table maps -/

inductive PairError (err : Err) : Bytes → Prop where
  | key {t : Bytes} (h : NumError err t) : PairError err t
  | value {n : Nat} {l t : Bytes} (hl : LenEnc n l) (h : NumError err t) : PairError err (l ++ t)

inductive CharsetError (err : Err) : Bytes → Prop where
  | default {t : Bytes} (h : NumError err t) : CharsetError err t
  | pair {n : Nat} {l t : Bytes} (hl : LenEnc n l) (h : AfterSome LoosePair (PairError err) t) : CharsetError err (l ++ t)

/-- The values of one ENUM or SET column. -/
inductive ValuesError (err : Err) : Bytes → Prop where
  | count {t : Bytes} (h : NumError err t) : ValuesError err t
  | value {n : Nat} {names : List RStr} {l e t : Bytes} (hl : LenEnc n l) (hn : names.length < n) (he : Each Text names e)
      (h : CountedError err t) : ValuesError err (l ++ e ++ t)

/-- Optional metadata. The two bitmaps (1, 12) can only be too short. -/
inductive PayloadError (err : Err) : UInt8 → Bytes → Prop where
  | charset {code : UInt8} {t : Bytes} (hc : code ∈ [2, 10]) (h : CharsetError err t) : PayloadError err code t
  | numbers {code : UInt8} {t : Bytes} (hc : code ∈ [3, 7, 8, 11]) (h : AfterSome LooseNum (NumError err) t) : PayloadError err code t
  | names {t : Bytes} (h : AfterSome Text (CountedError err) t) : PayloadError err 4 t
  | values {code : UInt8} {t : Bytes} (hc : code ∈ [5, 6]) (h : AfterSome Values (ValuesError err) t) : PayloadError err code t
  | pairs {t : Bytes} (h : AfterSome LoosePair (PairError err) t) : PayloadError err 9 t

inductive FieldError : Err → Bytes → Prop where
  | code {code : UInt8} {rest : Bytes} (hc : code.toNat = 0 ∨ 12 < code.toNat) :
      FieldError (.str "Table metadata type is not supported") (code :: rest)
  | length {err : Err} {code : UInt8} {t : Bytes} (hc : 1 ≤ code.toNat ∧ code.toNat ≤ 12) (h : NumError err t) : FieldError err (code :: t)
  | payload {err : Err} {code : UInt8} {len payload rest : Bytes} (hl : LenEnc payload.length len) (hn : payload.length < 2 ^ 63)
      (h : PayloadError err code payload) : FieldError err ([code] ++ len ++ payload ++ rest)

/-- The start of a table map: id, flags, names. -/
inductive TableStart : Bytes → Prop where
  | mk {tableId : Nat} {flags : Bytes} {db table : RStr} {z1 z2 : UInt8} (h1 : tableId < 2 ^ 48) (h2 : flags.length = 2)
      (h3 : (utf8Bytes db).length < 2 ^ 8) (h4 : (utf8Bytes table).length < 2 ^ 8) :
      TableStart (le 6 tableId ++ flags ++ (le 1 (utf8Bytes db).length ++ utf8Bytes db ++ [z1])
        ++ (le 1 (utf8Bytes table).length ++ utf8Bytes table ++ [z2]))

inductive TableMapError : Err → Bytes → Prop where
  | db {err : Err} {tableId n : Nat} {flags t : Bytes} (h1 : tableId < 2 ^ 48) (h2 : flags.length = 2) (h3 : n < 2 ^ 8)
      (h : TextError n err t) : TableMapError err (le 6 tableId ++ flags ++ le 1 n ++ t)
  | table {err : Err} {tableId n : Nat} {flags t : Bytes} {db : RStr} {z1 : UInt8} (h1 : tableId < 2 ^ 48) (h2 : flags.length = 2)
      (h3 : (utf8Bytes db).length < 2 ^ 8) (h4 : n < 2 ^ 8) (h : TextError n err t) :
      TableMapError err (le 6 tableId ++ flags ++ (le 1 (utf8Bytes db).length ++ utf8Bytes db ++ [z1]) ++ le 1 n ++ t)
  | count {err : Err} {start t : Bytes} (hs : TableStart start) (h : NumError err t) : TableMapError err (start ++ t)
  | metaSize {err : Err} {start count types t : Bytes} (hs : TableStart start) (h5 : LenEnc types.length count) (h5' : types.length < 2 ^ 63)
      (h : NumError err t) : TableMapError err (start ++ count ++ types ++ t)
  /-- A column type that is not known. -/
  | columnType {metaSize : Nat} {start count metaLength colMeta rest more : Bytes} {columns : List (UInt8 × Nat)} {type : UInt8}
      (hs : TableStart start) (h5 : LenEnc (columns.length + (type :: more).length) count)
      (h5' : columns.length + (type :: more).length < 2 ^ 63) (h8 : LenEnc metaSize metaLength) (h6 : Each ColumnMeta columns colMeta)
      (h : metaLayout type = none) :
      TableMapError (.str "Unknown column type") (start ++ count ++ (columns.map (·.1) ++ type :: more) ++ metaLength ++ colMeta ++ rest)
  | metadata {err : Err} {metaSize : Nat} {start count metaLength colMeta bitmap opt : Bytes} {columns : List (UInt8 × Nat)}
      {nulls : List Bool} (hs : TableStart start) (h5 : LenEnc columns.length count) (h5' : columns.length < 2 ^ 63)
      (h6 : Each ColumnMeta columns colMeta) (h8 : LenEnc metaSize metaLength) (h9 : nulls.length = columns.length)
      (h10 : BitmapLE nulls bitmap) (h : AfterSome (LooseField (columns.map (·.1))) (FieldError err) opt) :
      TableMapError err (start ++ count ++ columns.map (·.1) ++ metaLength ++ colMeta ++ bitmap ++ opt)

/-! ## Other events -/

/-- Text that goes to the end of the event. -/
inductive TailError : Err → Bytes → Prop where
  | mk {t : Bytes} (h : NotText t) : TailError (.io .invalidData) t

inductive QueryError (err : Err) : Bytes → Prop where
  | db {thread duration error n : Nat} {status t : Bytes} (h1 : thread < 2 ^ 32) (h2 : duration < 2 ^ 32) (h3 : n < 2 ^ 8)
      (h4 : error < 2 ^ 16) (h5 : status.length < 2 ^ 16) (h : TextError n err t) :
      QueryError err (le 4 thread ++ le 4 duration ++ le 1 n ++ le 2 error ++ le 2 status.length ++ status ++ t)
  | sql {thread duration error : Nat} {status t : Bytes} {db : RStr} {sep : UInt8} (h1 : thread < 2 ^ 32) (h2 : duration < 2 ^ 32)
      (h3 : (utf8Bytes db).length < 2 ^ 8) (h4 : error < 2 ^ 16) (h5 : status.length < 2 ^ 16) (h : TailError err t) :
      QueryError err (le 4 thread ++ le 4 duration ++ le 1 (utf8Bytes db).length ++ le 2 error ++ le 2 status.length ++ status
        ++ utf8Bytes db ++ [sep] ++ t)

inductive UserVarError (err : Err) : Bytes → Prop where
  | name {n : Nat} {t : Bytes} (hn : n < 2 ^ 32) (h : TextError n err t) : UserVarError err (le 4 n ++ t)
  | value {name : RStr} {type collation n : Nat} {t : Bytes} (h1 : (utf8Bytes name).length < 2 ^ 32) (h2 : type < 2 ^ 8)
      (h3 : collation < 2 ^ 32) (hn : n < 2 ^ 32) (h : TextError n err t) :
      UserVarError err (le 4 (utf8Bytes name).length ++ utf8Bytes name ++ [0] ++ le 1 type ++ le 4 collation ++ le 4 n ++ t)

/-- FORMAT_DESCRIPTION_EVENT: the server version is no text, or the checksum algorithm is neither 0 nor 1. -/
inductive FormatError (m : Mode) (eventLength : Nat) : Err → Bytes → Prop where
  | server {version : Nat} {server pad rest : Bytes} (h1 : version < 2 ^ 16) (h2 : (0 : UInt8) ∉ server)
      (h3 : pad = [] ∨ pad.head? = some 0) (h4 : server.length + pad.length = 50) (h : NotText server) :
      FormatError m eventLength .utf8 (le 2 version ++ (server ++ pad) ++ rest)
  | algorithm {version : Nat} {server : RStr} {pad rest body : Bytes} {own code : UInt8} (h1 : version < 2 ^ 16)
      (h2 : (0 : UInt8) ∉ utf8Bytes server) (h3 : pad = [] ∨ pad.head? = some 0) (h4 : (utf8Bytes server).length + pad.length = 50)
      (hm : m.checks = true → 19 ≤ eventLength % 256) (hb : body = le 2 version ++ (utf8Bytes server ++ pad) ++ rest)
      (ho : body[71]? = some own) (hl : (own.toNat + 19) % 256 ≠ eventLength % 256) (hc : body[own.toNat]? = some code)
      (hc' : 1 < code.toNat) : FormatError m eventLength (.str "The master checksum type is not supported") body

/-! ## Row events -/

/-- A cell of a column of type `code`, once unpacked. -/
def ValueError (m : Mode) (code md : Nat) (err : Err) (t : Bytes) : Prop :=
  match code with
  | 0 => err = .str "Parsing column type is not supported"
  | 6 => err = .str "Parsing column type is not supported"
  | 14 => err = .str "Parsing column type is not supported"
  | 11 => err = .str "Parsing negative TIME values is not supported in this version" ∧
      ∃ n rest, 2 ^ 23 ≤ n ∧ n < 2 ^ 24 ∧ t = le 3 n ++ rest
  | 19 => err = .str "Parsing negative TIME values is not supported in this version" ∧
      ∃ n micros frac rest, n < 2 ^ 23 ∧ LooseFraction m md micros frac ∧ t = be 3 n ++ frac ++ rest
  | 15 => ∃ n t1, n < 256 ^ (if md < 256 then 1 else 2) ∧ TextError n err t1 ∧ t = le (if md < 256 then 1 else 2) n ++ t1
  | 253 => ∃ n t1, n < 256 ^ (if md < 256 then 1 else 2) ∧ TextError n err t1 ∧ t = le (if md < 256 then 1 else 2) n ++ t1
  | 254 => ∃ n t1, n < 256 ^ (if md < 256 then 1 else 2) ∧ TextError n err t1 ∧ t = le (if md < 256 then 1 else 2) n ++ t1
  | code => metaLayout (UInt8.ofNat code) = none ∧ err = .str "Unknown column type"

inductive CellError (m : Mode) (type : UInt8) (md : Nat) (err : Err) (t : Bytes) : Prop where
  | plain (ht : type ≠ 254) (h : ValueError m type.toNat md err t) : CellError m type md err t
  | packed {code md' : Nat} (ht : type = 254) (hu : Unpacked md code md') (h : ValueError m code md' err t) : CellError m type md err t

/-- The cells of a row with the columns present and the NULL flags of these. -/
inductive CellsError (m : Mode) (err : Err) : (columns : List (UInt8 × Nat)) → (present nulls : List Bool) → Bytes → Prop where
  | absent {c : UInt8 × Nat} {cs : List (UInt8 × Nat)} {ps ns : List Bool} {t : Bytes} (h : CellsError m err cs ps ns t) :
      CellsError m err (c :: cs) (false :: ps) ns t
  | null {c : UInt8 × Nat} {cs : List (UInt8 × Nat)} {ps ns : List Bool} {t : Bytes} (h : CellsError m err cs ps ns t) :
      CellsError m err (c :: cs) (true :: ps) (true :: ns) t
  | value {type : UInt8} {md : Nat} {v : MySqlValue} {cs : List (UInt8 × Nat)} {ps ns : List Bool} {e t : Bytes}
      (hc : TakenCell m type md v e) (h : CellsError m err cs ps ns t) :
      CellsError m err ((type, md) :: cs) (true :: ps) (false :: ns) (e ++ t)
  | cell {type : UInt8} {md : Nat} {cs : List (UInt8 × Nat)} {ps ns : List Bool} {t : Bytes} (hc : CellError m type md err t) :
      CellsError m err ((type, md) :: cs) (true :: ps) (false :: ns) t

def ImageError (m : Mode) (err : Err) (columns : List (UInt8 × Nat)) (present : List Bool) (t : Bytes) : Prop :=
  ∃ nulls bitmap t1, nulls.length = present.count true ∧ BitmapLE nulls bitmap ∧ CellsError m err columns present nulls t1 ∧ t = bitmap ++ t1

/-- The number of columns is no number. -/
inductive HeadError (err : Err) : (version : Nat) → Bytes → Prop where
  | v1 {tableId flags : Nat} {t : Bytes} (h1 : tableId < 2 ^ 48) (h2 : flags < 2 ^ 16) (h : NumError err t) :
      HeadError err 1 (le 6 tableId ++ le 2 flags ++ t)
  | v2 {tableId flags : Nat} {extra t : Bytes} (h1 : tableId < 2 ^ 48) (h2 : flags < 2 ^ 16) (he : extra.length + 2 < 2 ^ 16)
      (h : NumError err t) : HeadError err 2 (le 6 tableId ++ le 2 flags ++ (le 2 (extra.length + 2) ++ extra) ++ t)

/-- WRITE_ROWS and DELETE_ROWS. -/
inductive RowsError (m : Mode) (version : Nat) (columnsOf : Nat → Option (List (UInt8 × Nat))) : Err → Bytes → Prop where
  | head {err : Err} {body : Bytes} (h : HeadError err version body) : RowsError m version columnsOf err body
  /-- No table map came before. -/
  | table {tableId flags n : Nat} {present : List Bool} {body bitmap data : Bytes} (hh : HeadOf version tableId flags n body (bitmap ++ data))
      (hn : n < 2 ^ 63) (hp : present.length = n) (hb : BitmapLE present bitmap) (ht : columnsOf tableId = none) :
      RowsError m version columnsOf (.str "No preceding TableMapEvent event was found for the row event.") body
  | row {err : Err} {tableId flags n : Nat} {columns : List (UInt8 × Nat)} {present : List Bool} {body bitmap data : Bytes}
      (hh : HeadOf version tableId flags n body (bitmap ++ data)) (hn : n < 2 ^ 63) (hp : present.length = n)
      (hb : BitmapLE present bitmap) (ht : columnsOf tableId = some columns)
      (hr : AfterSome (fun row e => e ≠ [] ∧ columns.length ≤ n ∧ TakenImage m columns present row e)
        (fun t => t ≠ [] ∧ ImageError m err columns present t) data) : RowsError m version columnsOf err body

/-- UPDATE_ROWS. -/
inductive UpdatesError (m : Mode) (version : Nat) (columnsOf : Nat → Option (List (UInt8 × Nat))) : Err → Bytes → Prop where
  | head {err : Err} {body : Bytes} (h : HeadError err version body) : UpdatesError m version columnsOf err body
  | table {tableId flags n : Nat} {before after : List Bool} {body bitmap1 bitmap2 data : Bytes}
      (hh : HeadOf version tableId flags n body (bitmap1 ++ bitmap2 ++ data)) (hn : n < 2 ^ 63) (hp1 : before.length = n)
      (hp2 : after.length = n) (hb1 : BitmapLE before bitmap1) (hb2 : BitmapLE after bitmap2) (ht : columnsOf tableId = none) :
      UpdatesError m version columnsOf (.str "No preceding TableMapEvent event was found for the row event.") body
  | row {err : Err} {tableId flags n : Nat} {columns : List (UInt8 × Nat)} {before after : List Bool} {body bitmap1 bitmap2 data : Bytes}
      (hh : HeadOf version tableId flags n body (bitmap1 ++ bitmap2 ++ data)) (hn : n < 2 ^ 63) (hp1 : before.length = n)
      (hp2 : after.length = n) (hb1 : BitmapLE before bitmap1) (hb2 : BitmapLE after bitmap2) (ht : columnsOf tableId = some columns)
      (hr : AfterSome (fun row e => e ≠ [] ∧ columns.length ≤ n ∧ ∃ e1 e2, TakenImage m columns before (UpdateRowData.beforeUpdate row) e1 ∧
          TakenImage m columns after row.afterUpdate e2 ∧ e = e1 ++ e2)
        (fun t => t ≠ [] ∧ (ImageError m err columns before t ∨ columns.length ≤ n ∧ ∃ row e t1, TakenImage m columns before row e ∧
          ImageError m err columns after t1 ∧ t = e ++ t1)) data) : UpdatesError m version columnsOf err body

/-! ## Events -/

/-- The body is refused with the error `err`, which is not the end of the bytes. -/
inductive EventError (m : Mode) (columnsOf : Nat → Option (List (UInt8 × Nat))) (header : EventHeader) (err : Err) (body : Bytes) : Prop where
  | query (hc : header.eventType = 2) (h : QueryError err body) : EventError m columnsOf header err body
  | rotate {position : Nat} {t : Bytes} (hc : header.eventType = 4) (hp : position < 2 ^ 64) (h : TailError err t)
      (hb : body = le 8 position ++ t) : EventError m columnsOf header err body
  | userVar (hc : header.eventType = 14) (h : UserVarError err body) : EventError m columnsOf header err body
  | format (hc : header.eventType = 15) (h : FormatError m header.eventLength err body) : EventError m columnsOf header err body
  | tableMap (hc : header.eventType = 19) (h : TableMapError err body) : EventError m columnsOf header err body
  /-- HEARTBEAT and MariaDB's ANNOTATE_ROWS. -/
  | text (hc : header.eventType ∈ [27, 160]) (h : TailError err body) : EventError m columnsOf header err body
  | rowsQuery {len : UInt8} {t : Bytes} (hc : header.eventType = 29) (h : TailError err t) (hb : body = len :: t) :
      EventError m columnsOf header err body
  | rows {version : Nat} (hc : version = 1 ∧ header.eventType ∈ [23, 25] ∨ version = 2 ∧ header.eventType ∈ [30, 32])
      (h : RowsError m version columnsOf err body) : EventError m columnsOf header err body
  | updates {version : Nat} (hc : version = 1 ∧ header.eventType = 24 ∨ version = 2 ∧ header.eventType = 31)
      (h : UpdatesError m version columnsOf err body) : EventError m columnsOf header err body

/-- An event, its checksum included, is refused with this error, which is not the end of the bytes. -/
def SliceReason (m : Mode) (err : Err) (ck : ChecksumType) (columnsOf : Nat → Option (List (UInt8 × Nat))) (header : EventHeader)
    (slice : Bytes) : Prop :=
  ∃ body, WithChecksum ck body slice ∧ EventError m columnsOf header err body

/-- An event is refused because its bytes end too early: it is refused, and there is no other reason. -/
def SliceEnds (m : Mode) (ck : ChecksumType) (columnsOf : Nat → Option (List (UInt8 × Nat))) (header : EventHeader) (slice : Bytes) : Prop :=
  SliceError m ck columnsOf header slice ∧ ∀ err, err ≠ .io .unexpectedEof → ¬SliceReason m err ck columnsOf header slice

end MysqlCdc.Spec
