import Verif.Spec.TableMap
/-!
# Table maps of newer servers
-/

namespace MysqlCdc.Spec

/-- The metadata of one column, also of the types that newer servers have: VECTOR of MySQL 9 (242, one byte), VARCHAR COMPRESSED (140, two bytes) and
BLOB COMPRESSED (141, one byte) of MariaDB 10.3. -/
inductive ServerColumn : UInt8 × Nat → Bytes → Prop where
  | old {c : UInt8 × Nat} {e : Bytes} (h : ColumnMeta c e) : ServerColumn c e
  | vector {n : Nat} (hn : n < 2 ^ 8) : ServerColumn (242, n) (le 1 n)
  | varCharCompressed {n : Nat} (hn : n < 2 ^ 16) : ServerColumn (140, n) (le 2 n)
  | blobCompressed {n : Nat} (hn : n < 2 ^ 8) : ServerColumn (141, n) (le 1 n)

/-- The name of an ENUM or SET value, in the character set of its column. -/
def RawName (name : Bytes) (e : Bytes) : Prop := name.length < 2 ^ 63 ∧ ∃ l, LenEnc name.length l ∧ e = l ++ name

/-- The values of one ENUM or SET column. -/
def RawValues (names : List Bytes) (e : Bytes) : Prop := ∃ a b, LenEnc names.length a ∧ Each RawName names b ∧ e = a ++ b

/-- One field of the optional metadata, with the error of its reader if it is one that the library does not take. -/
inductive ServerField (types : Bytes) : Except Err MetaField → Bytes → Prop where
  | old {f : MetaField} {e : Bytes} (h : MetaFieldBytes types f e) : ServerField types (.ok f) e
  /-- fields that came later, such as the dimensions of VECTOR columns (13) -/
  | newer {code : UInt8} {len payload : Bytes} (hc : 12 < code.toNat) (hl : LenEnc payload.length len) :
      ServerField types (.error (.str "Table metadata type is not supported")) ([code] ++ len ++ payload)
  /-- ENUM or SET values of which one is not UTF-8 -/
  | values {code : UInt8} {len payload : Bytes} {values : List (List Bytes)} (hc : code = 5 ∨ code = 6) (hv : Each RawValues values payload)
      (hn : ∃ names ∈ values, ∃ name ∈ names, ∀ s, name ≠ utf8Bytes s) (hp : payload.length < 2 ^ 63) (hl : LenEnc payload.length len) :
      ServerField types (.error .fromUtf8) ([code] ++ len ++ payload)

/-- As `TableMapBody`, with the columns and fields of newer servers. -/
inductive ServerTable : (tableId : Nat) → (columns : List (UInt8 × Nat)) → (fields : List (Except Err MetaField)) → Bytes → Prop where
  | mk {tableId : Nat} {flags : Bytes} {db table : RStr} {columns : List (UInt8 × Nat)} {nulls : List Bool}
      {fields : List (Except Err MetaField)} {count metaLength colMeta bitmap opt : Bytes}
      (h1 : tableId < 2 ^ 48) (h2 : flags.length = 2) (h3 : (utf8Bytes db).length < 2 ^ 8)
      (h4 : (utf8Bytes table).length < 2 ^ 8) (h5 : LenEnc columns.length count) (h5' : columns.length < 2 ^ 63)
      (h6 : Each ServerColumn columns colMeta) (h8 : LenEnc colMeta.length metaLength)
      (h9 : nulls.length = columns.length) (h10 : BitmapLE nulls bitmap)
      (h11 : Each (ServerField (columns.map (·.1))) fields opt) :
      ServerTable tableId columns fields
        (le 6 tableId ++ flags ++ (le 1 (utf8Bytes db).length ++ utf8Bytes db ++ [0])
          ++ (le 1 (utf8Bytes table).length ++ utf8Bytes table ++ [0]) ++ count ++ columns.map (·.1)
          ++ metaLength ++ colMeta ++ bitmap ++ opt)

/-- The library knows the type of the column. -/
def OldColumn (c : UInt8 × Nat) : Prop := ∃ l, metaLayout c.1 = some l

/-- The library knows all of the table. -/
def OldTable (columns : List (UInt8 × Nat)) (fields : List (Except Err MetaField)) : Prop :=
  (∀ c ∈ columns, OldColumn c) ∧ ∀ f ∈ fields, ∃ x, f = .ok x

end MysqlCdc.Spec
