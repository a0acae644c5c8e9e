import Verif.Spec.RowSize

/-!
# How large an event is once decoded

As for rows: bytes of text and of byte strings, bits, and one for each entry of a list. Numbers of fixed width are not counted.
-/

namespace MysqlCdc.Spec

/-- A list of texts: one for each and its bytes. -/
def textsSize (names : List RStr) : Nat := (names.map fun s => 1 + (utf8Bytes s).length).sum

/-- The values of several ENUM or SET columns. -/
def valuesSize (values : List (List RStr)) : Nat := (values.map fun ss => 1 + textsSize ss).sum

/-- A list that may be missing. -/
def optSize {α : Type} (size : α → Nat) (x : Option α) : Nat := (x.map size).getD 0

/-- A default character set and the columns that have another one. -/
def charsetSize (c : DefaultCharset) : Nat := 1 + c.charsetCollations.length

/-- The optional metadata of a table. -/
def metadataSize (t : TableMetadata) : Nat :=
  optSize List.length t.signedness + optSize charsetSize t.defaultCharset + optSize List.length t.columnCharsets + optSize textsSize t.columnNames +
    optSize valuesSize t.setStringValues + optSize valuesSize t.enumStringValues + optSize List.length t.geometryTypes +
    optSize List.length t.simplePrimaryKeys + optSize List.length t.primaryKeysWithPrefix + optSize charsetSize t.enumAndSetDefaultCharset +
    optSize List.length t.enumAndSetColumnCharsets + optSize List.length t.columnVisibility

/-- What a table map event holds. -/
def tableMapSize (t : TableMapEvent) : Nat :=
  (utf8Bytes t.databaseName).length + (utf8Bytes t.tableName).length + t.columnTypes.length + t.columnMetadata.length + t.nullBitmap.length +
    optSize metadataSize t.tableMetadata

/-- A uuid: its bytes and its text. -/
def uuidSize (u : Uuid) : Nat := u.data.length + u.uuid.length

/-- An entry of a GTID set: itself, its key, its uuid and its intervals. -/
def entrySize (e : RStr × UuidSet) : Nat := 1 + e.1.length + uuidSize e.2.sourceId + e.2.intervals.length

/-- What an event holds; of row events the rows. -/
def eventSize : BinlogEvent → Nat
  | .userVar e => (utf8Bytes e.name).length + optSize (fun v => (utf8Bytes v.value).length) e.value
  | .query e => e.statusVariables.length + (utf8Bytes e.databaseName).length + (utf8Bytes e.sqlStatement).length
  | .tableMap t => tableMapSize t
  | .rotate e => (utf8Bytes e.binlogFilename).length
  | .rowsQuery e => (utf8Bytes e.query).length
  | .heartbeat e => (utf8Bytes e.binlogFilename).length
  | .formatDescription e => (utf8Bytes e.serverVersion).length
  | .mySqlGtid e => uuidSize e.gtid.sourceId
  | .mySqlPrevGtids e => (e.gtidSet.uuidSets.map entrySize).sum
  | .mariaDbGtidList e => e.gtidList.gtids.length
  | event => decodedSize event

/-- What a decoder keeps: one for each table and its table map. -/
def cacheSize (cache : TableMapCache) : Nat := (cache.map fun e => 1 + tableMapSize e.2).sum

end MysqlCdc.Spec
