import Verif.Model.Extensions
/-!
# Table map events and their optional metadata (src/events/table_map_event.rs, src/metadata)
-/

namespace MysqlCdc

/-- `DefaultCharset`, src/metadata/default_charset.rs:3-18 -/
structure DefaultCharset where
  defaultCharsetCollation : Nat
  charsetCollations : List (Nat × Nat)
  deriving DecidableEq, Repr

/-- `TableMetadata`, src/metadata/table_metadata.rs:12-48 -/
structure TableMetadata where
  signedness : Option (List Bool)
  defaultCharset : Option DefaultCharset
  columnCharsets : Option (List Nat)
  columnNames : Option (List RStr)
  setStringValues : Option (List (List RStr))
  enumStringValues : Option (List (List RStr))
  geometryTypes : Option (List Nat)
  simplePrimaryKeys : Option (List Nat)
  primaryKeysWithPrefix : Option (List (Nat × Nat))
  enumAndSetDefaultCharset : Option DefaultCharset
  enumAndSetColumnCharsets : Option (List Nat)
  columnVisibility : Option (List Bool)
  deriving DecidableEq, Repr

/-- All twelve variables `None`, src/metadata/table_metadata.rs:52-63 -/
def TableMetadata.empty : TableMetadata :=
  ⟨none, none, none, none, none, none, none, none, none, none, none, none⟩

/-- `value as u32` on a number read by `read_len_enc_num` -/
def asU32 (n : Nat) : Nat := n % 2 ^ 32

/-- src/metadata/table_metadata.rs:132-139 -/
def parseIntArray : P (List Nat) :=
  P.whileData (do
    let value ← readLenEncNum
    return asU32 value)

/-- src/metadata/table_metadata.rs:141-148 -/
def parseStringArray : P (List RStr) := P.whileData readLenEncStr

/-- src/metadata/table_metadata.rs:150-158 -/
def parseIntMap : P (List (Nat × Nat)) :=
  P.whileData (do
    let key ← readLenEncNum
    let value ← readLenEncNum
    return (asU32 key, asU32 value))

/-- src/metadata/table_metadata.rs:160-171 -/
def parseTypeValues : P (List (List RStr)) :=
  P.whileData (do
    let length ← readLenEncNum
    P.times length readLenEncStr)

/-- `parse_default_charser`, src/metadata/table_metadata.rs:173-180 -/
def parseDefaultCharset : P DefaultCharset := do
  let defaultCollation ← readLenEncNum
  let charsetCollations ← parseIntMap
  return { defaultCharsetCollation := asU32 defaultCollation, charsetCollations }

/-- src/metadata/table_metadata.rs:203-219 -/
def numericColumnCount : Bytes → Res Nat
  | [] => .ok 0
  | c :: cs => do
    let t ← ColumnType.fromCode c.toNat
    let count ← numericColumnCount cs
    match t with
    | .tiny | .short | .int24 | .long | .longLong | .float | .double | .newDecimal => .ok (count + 1)
    | _ => .ok count

/-- One iteration of the loop of `TableMetadata::parse`, src/metadata/table_metadata.rs:66-112: which of the twelve variables
is assigned, as an update of the record. An unknown column type fails the whole count, like the `?` in the loop. -/
def parseMetadataField (columnTypes : Bytes) : P (TableMetadata → TableMetadata) := do
  let code ← P.u8
  let metadataType ← P.lift (MetadataType.fromCode code)
  let metadataLength ← readLenEncNum
  let metadata ← P.readVec metadataLength
  match metadataType with
  | .signedness =>
    let count ← P.lift (numericColumnCount columnTypes)
    let v ← P.lift ((readBitmapReverted count).run metadata)
    return fun t => { t with signedness := some v }
  | .defaultCharset =>
    let v ← P.lift (parseDefaultCharset.run metadata)
    return fun t => { t with defaultCharset := some v }
  | .columnCharset =>
    let v ← P.lift (parseIntArray.run metadata)
    return fun t => { t with columnCharsets := some v }
  | .columnName =>
    let v ← P.lift (parseStringArray.run metadata)
    return fun t => { t with columnNames := some v }
  | .setStrValue =>
    let v ← P.lift (parseTypeValues.run metadata)
    return fun t => { t with setStringValues := some v }
  | .enumStrValue =>
    let v ← P.lift (parseTypeValues.run metadata)
    return fun t => { t with enumStringValues := some v }
  | .geometryType =>
    let v ← P.lift (parseIntArray.run metadata)
    return fun t => { t with geometryTypes := some v }
  | .simplePrimaryKey =>
    let v ← P.lift (parseIntArray.run metadata)
    return fun t => { t with simplePrimaryKeys := some v }
  | .primaryKeyWithPrefix =>
    let v ← P.lift (parseIntMap.run metadata)
    return fun t => { t with primaryKeysWithPrefix := some v }
  | .enumAndSetDefaultCharset =>
    let v ← P.lift (parseDefaultCharset.run metadata)
    return fun t => { t with enumAndSetDefaultCharset := some v }
  | .enumAndSetColumnCharset =>
    let v ← P.lift (parseIntArray.run metadata)
    return fun t => { t with enumAndSetColumnCharsets := some v }
  | .columnVisibility =>
    let v ← P.lift ((readBitmapReverted columnTypes.length).run metadata)
    return fun t => { t with columnVisibility := some v }

/-- `TableMetadata::parse`, src/metadata/table_metadata.rs:51-129. The loop collects the assignments and they are performed in
order at the end. -/
def parseTableMetadata (columnTypes : Bytes) : P TableMetadata := do
  let assigns ← P.whileData (parseMetadataField columnTypes)
  return assigns.foldl (fun t f => f t) TableMetadata.empty

/-- `TableMapEvent`, src/events/table_map_event.rs:11-32 -/
structure TableMapEvent where
  tableId : Nat
  databaseName : RStr
  tableName : RStr
  columnTypes : Bytes
  columnMetadata : List Nat
  nullBitmap : List Bool
  tableMetadata : Option TableMetadata
  deriving DecidableEq, Repr

/-- The body of the loop of `parse_metadata`, src/events/table_map_event.rs:86-110 -/
def parseColumnMetadata (code : UInt8) : P Nat := do
  let columnType ← P.lift (ColumnType.fromCode code.toNat)
  match columnType with
  | .geometry | .json | .tinyBlob | .mediumBlob | .longBlob | .blob | .float | .double | .timeStamp2 | .dateTime2
  | .time2 => P.u8
  | .bit | .varChar | .varString | .newDecimal => P.uLE 2
  | .enum | .set | .string => P.uBE 2
  | _ => return 0

/-- `parse_metadata`, src/events/table_map_event.rs:78-113 -/
def parseMetadata (columnTypes : Bytes) : P (List Nat) := P.forEach columnTypes parseColumnMetadata

/-- `cursor.position() < cursor.get_ref().len() as u64` -/
def P.hasData : P Bool := fun buf pos => .ok (decide (pos < buf.length), pos)

/-- `TableMapEvent::parse`, src/events/table_map_event.rs:36-76 -/
def parseTableMap : P TableMapEvent := do
  let tableId ← P.uLE 6
  P.seekCur 2
  let databaseNameLength ← P.u8
  let databaseName ← readString databaseNameLength
  P.seekCur 1
  let tableNameLength ← P.u8
  let tableName ← readString tableNameLength
  P.seekCur 1
  let columnsNumber ← readLenEncNum
  let columnTypes ← P.readVec columnsNumber
  let _metadataLength ← readLenEncNum
  let columnMetadata ← parseMetadata columnTypes
  let nullBitmap ← readBitmapLittleEndian columnsNumber
  let more ← P.hasData
  if more then
    let tableMetadata ← parseTableMetadata columnTypes
    return { tableId, databaseName, tableName, columnTypes, columnMetadata, nullBitmap,
             tableMetadata := some tableMetadata }
  else
    return { tableId, databaseName, tableName, columnTypes, columnMetadata, nullBitmap, tableMetadata := none }

end MysqlCdc
