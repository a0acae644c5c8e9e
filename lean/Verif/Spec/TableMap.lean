import Verif.Spec.Wire
import Verif.Model.TableMap
/-!
# Wire format of table map events and their optional metadata
-/

namespace MysqlCdc.Spec

/-- A sequence of values, each encoded as `R` says. -/
inductive Each {α : Type} (R : α → Bytes → Prop) : List α → Bytes → Prop where
  | nil : Each R [] []
  | cons {v : α} {vs : List α} {e es : Bytes} (h : R v e) (hs : Each R vs es) : Each R (v :: vs) (e ++ es)

/-- How much metadata a column type has in a table map event. -/
inductive MetaLayout where
  | nothing | byte | littleEndian | bigEndian

/-- Published table of column types (`enum_field_types`) and the layout of their metadata. -/
def metaLayout (type : UInt8) : Option MetaLayout :=
  match type.toNat with
  -- DECIMAL (old), TINY, SHORT, LONG, NULL, TIMESTAMP, LONGLONG, INT24, DATE, TIME, DATETIME, YEAR, NEWDATE
  | 0 | 1 | 2 | 3 | 6 | 7 | 8 | 9 | 10 | 11 | 12 | 13 | 14 => some .nothing
  -- FLOAT, DOUBLE; TIMESTAMP2, DATETIME2, TIME2; JSON; TINY_BLOB, MEDIUM_BLOB, LONG_BLOB, BLOB; GEOMETRY
  | 4 | 5 | 17 | 18 | 19 | 245 | 249 | 250 | 251 | 252 | 255 => some .byte
  -- VARCHAR, BIT, NEWDECIMAL, VAR_STRING
  | 15 | 16 | 246 | 253 => some .littleEndian
  -- ENUM, SET, STRING: real type, then length
  | 247 | 248 | 254 => some .bigEndian
  | _ => none

/-- The bytes of one column's metadata. -/
inductive ColumnMeta : UInt8 × Nat → Bytes → Prop where
  | nothing {t : UInt8} (h : metaLayout t = some .nothing) : ColumnMeta (t, 0) []
  | byte {t : UInt8} {n : Nat} (h : metaLayout t = some .byte) (hn : n < 2 ^ 8) : ColumnMeta (t, n) (le 1 n)
  | littleEndian {t : UInt8} {n : Nat} (h : metaLayout t = some .littleEndian) (hn : n < 2 ^ 16) : ColumnMeta (t, n) (le 2 n)
  | bigEndian {t : UInt8} {n : Nat} (h : metaLayout t = some .bigEndian) (hn : n < 2 ^ 16) : ColumnMeta (t, n) (be 2 n)

/-- Columns that have a sign flag: TINY, SHORT, LONG, FLOAT, DOUBLE, LONGLONG, INT24, NEWDECIMAL. -/
def isNumeric (t : UInt8) : Bool := t.toNat ∈ [1, 2, 3, 4, 5, 8, 9, 246]

/-- One optional metadata field. -/
inductive MetaField where
  | signedness (bits : List Bool)
  | defaultCharset (c : DefaultCharset)
  | columnCharset (ns : List Nat)
  | columnName (names : List RStr)
  | setValues (values : List (List RStr))
  | enumValues (values : List (List RStr))
  | geometryTypes (ns : List Nat)
  | primaryKey (ns : List Nat)
  | primaryKeyPrefix (ns : List (Nat × Nat))
  | enumSetDefaultCharset (c : DefaultCharset)
  | enumSetColumnCharset (ns : List Nat)
  | visibility (bits : List Bool)

/-- Length-encoded 32-bit numbers. -/
def Num (n : Nat) (e : Bytes) : Prop := n < 2 ^ 32 ∧ LenEnc n e
def NumPair (p : Nat × Nat) (e : Bytes) : Prop := ∃ a b, Num p.1 a ∧ Num p.2 b ∧ e = a ++ b
/-- A length-encoded string a 64-bit machine can hold. -/
def Text (s : RStr) (e : Bytes) : Prop := (utf8Bytes s).length < 2 ^ 63 ∧ LenEncStr s e
/-- The values of one ENUM or SET column: their number, then the strings. -/
def Values (ss : List RStr) (e : Bytes) : Prop := ∃ a b, LenEnc ss.length a ∧ Each Text ss b ∧ e = a ++ b
def Charset (c : DefaultCharset) (e : Bytes) : Prop :=
  ∃ a b, Num c.defaultCharsetCollation a ∧ Each NumPair c.charsetCollations b ∧ e = a ++ b

/-- `MetaPayload types code field bytes`: the value of a field of type `code`. -/
inductive MetaPayload (types : Bytes) : UInt8 → MetaField → Bytes → Prop where
  | signedness {bits : List Bool} {e : Bytes} (h : BitmapMsb bits e) (hl : bits.length = (types.filter isNumeric).length) :
      MetaPayload types 1 (.signedness bits) e
  | defaultCharset {c : DefaultCharset} {e : Bytes} (h : Charset c e) : MetaPayload types 2 (.defaultCharset c) e
  | columnCharset {ns : List Nat} {e : Bytes} (h : Each Num ns e) : MetaPayload types 3 (.columnCharset ns) e
  | columnName {names : List RStr} {e : Bytes} (h : Each Text names e) : MetaPayload types 4 (.columnName names) e
  | setValues {vs : List (List RStr)} {e : Bytes} (h : Each Values vs e) : MetaPayload types 5 (.setValues vs) e
  | enumValues {vs : List (List RStr)} {e : Bytes} (h : Each Values vs e) : MetaPayload types 6 (.enumValues vs) e
  | geometryTypes {ns : List Nat} {e : Bytes} (h : Each Num ns e) : MetaPayload types 7 (.geometryTypes ns) e
  | primaryKey {ns : List Nat} {e : Bytes} (h : Each Num ns e) : MetaPayload types 8 (.primaryKey ns) e
  | primaryKeyPrefix {ns : List (Nat × Nat)} {e : Bytes} (h : Each NumPair ns e) :
      MetaPayload types 9 (.primaryKeyPrefix ns) e
  | enumSetDefaultCharset {c : DefaultCharset} {e : Bytes} (h : Charset c e) :
      MetaPayload types 10 (.enumSetDefaultCharset c) e
  | enumSetColumnCharset {ns : List Nat} {e : Bytes} (h : Each Num ns e) :
      MetaPayload types 11 (.enumSetColumnCharset ns) e
  | visibility {bits : List Bool} {e : Bytes} (h : BitmapMsb bits e) (hl : bits.length = types.length) :
      MetaPayload types 12 (.visibility bits) e

/-- A field on the wire: type, length, value. -/
def MetaFieldBytes (types : Bytes) (f : MetaField) (e : Bytes) : Prop :=
  ∃ code len payload, MetaPayload types code f payload ∧ payload.length < 2 ^ 63 ∧ LenEnc payload.length len ∧
    e = [code] ++ len ++ payload

/-- The value of the last field that `f` picks, if any. -/
def lastOf {α β : Type} (f : α → Option β) (xs : List α) : Option β := (xs.filterMap f).getLast?

/-- The metadata a list of fields stands for. -/
structure MetaOf (fields : List MetaField) (t : TableMetadata) : Prop where
  signedness : t.signedness = lastOf (fun | .signedness x => some x | _ => none) fields
  defaultCharset : t.defaultCharset = lastOf (fun | .defaultCharset x => some x | _ => none) fields
  columnCharsets : t.columnCharsets = lastOf (fun | .columnCharset x => some x | _ => none) fields
  columnNames : t.columnNames = lastOf (fun | .columnName x => some x | _ => none) fields
  setStringValues : t.setStringValues = lastOf (fun | .setValues x => some x | _ => none) fields
  enumStringValues : t.enumStringValues = lastOf (fun | .enumValues x => some x | _ => none) fields
  geometryTypes : t.geometryTypes = lastOf (fun | .geometryTypes x => some x | _ => none) fields
  simplePrimaryKeys : t.simplePrimaryKeys = lastOf (fun | .primaryKey x => some x | _ => none) fields
  primaryKeysWithPrefix : t.primaryKeysWithPrefix = lastOf (fun | .primaryKeyPrefix x => some x | _ => none) fields
  enumAndSetDefaultCharset : t.enumAndSetDefaultCharset = lastOf (fun | .enumSetDefaultCharset x => some x | _ => none) fields
  enumAndSetColumnCharsets : t.enumAndSetColumnCharsets = lastOf (fun | .enumSetColumnCharset x => some x | _ => none) fields
  columnVisibility : t.columnVisibility = lastOf (fun | .visibility x => some x | _ => none) fields

/-- TABLE_MAP_EVENT (19): table id (6 bytes), flags (2), database (length, text, zero), table (length, text, zero), number of
columns, column types, size and bytes of the column metadata, nullability bitmap, optional metadata. -/
inductive TableMapBody : (tableId : Nat) → (db table : RStr) → (columns : List (UInt8 × Nat)) → (nulls : List Bool) →
    (fields : List MetaField) → Bytes → Prop where
  | mk {tableId : Nat} {flags : Bytes} {db table : RStr} {columns : List (UInt8 × Nat)} {nulls : List Bool}
      {fields : List MetaField} {count metaLength colMeta bitmap opt : Bytes}
      (h1 : tableId < 2 ^ 48) (h2 : flags.length = 2) (h3 : (utf8Bytes db).length < 2 ^ 8)
      (h4 : (utf8Bytes table).length < 2 ^ 8) (h5 : LenEnc columns.length count) (h5' : columns.length < 2 ^ 63)
      (h6 : Each ColumnMeta columns colMeta) (h8 : LenEnc colMeta.length metaLength)
      (h9 : nulls.length = columns.length) (h10 : BitmapLE nulls bitmap)
      (h11 : Each (MetaFieldBytes (columns.map (·.1))) fields opt) :
      TableMapBody tableId db table columns nulls fields
        (le 6 tableId ++ flags ++ (le 1 (utf8Bytes db).length ++ utf8Bytes db ++ [0])
          ++ (le 1 (utf8Bytes table).length ++ utf8Bytes table ++ [0]) ++ count ++ columns.map (·.1)
          ++ metaLength ++ colMeta ++ bitmap ++ opt)

end MysqlCdc.Spec
