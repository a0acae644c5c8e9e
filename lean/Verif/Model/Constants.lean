import Verif.Model.Basic
/-!
# Constants and code tables (src/constants)
-/

namespace MysqlCdc

/-- src/constants/mod.rs:16 -/
def EVENT_HEADER_SIZE : Nat := 19
/-- src/constants/mod.rs:17 -/
def PAYLOAD_BUFFER_SIZE : Nat := 32 * 1024
/-- src/constants/mod.rs:18 -/
def FIRST_EVENT_POSITION : Nat := 4
/-- src/constants/mod.rs:13 -/
def UTF8_MB4_GENERAL_CI : Nat := 45
/-- src/constants/mod.rs:22, in nanoseconds -/
def TIMEOUT_LATENCY_DELTA : Nat := 10 * 10 ^ 9

/-- src/constants/capability_flags.rs:4-23 (the flags the code uses) -/
def CAP_LONG_FLAG : Nat := 1 <<< 2
/-- src/constants/capability_flags.rs:7 -/
def CAP_CONNECT_WITH_DB : Nat := 1 <<< 3
/-- src/constants/capability_flags.rs:13 -/
def CAP_PROTOCOL_41 : Nat := 1 <<< 9
/-- src/constants/capability_flags.rs:15 -/
def CAP_SSL : Nat := 1 <<< 11
/-- src/constants/capability_flags.rs:19 -/
def CAP_SECURE_CONNECTION : Nat := 1 <<< 15
/-- src/constants/capability_flags.rs:23 -/
def CAP_PLUGIN_AUTH : Nat := 1 <<< 19

/-- src/responses/response_type.rs:2-5 -/
def RESP_OK : UInt8 := 0x00
def RESP_ERROR : UInt8 := 0xFF
def RESP_EOF : UInt8 := 0xFE

/-- `ChecksumType`, src/constants/checksum_type.rs:5-11 -/
inductive ChecksumType where
  | none
  | crc32
  deriving DecidableEq, Repr

/-- src/constants/checksum_type.rs:14-22 -/
def ChecksumType.fromCode (code : Nat) : Res ChecksumType :=
  match code with
  | 0 => .ok .none
  | 1 => .ok .crc32
  | _ => .err (.str "The master checksum type is not supported")

/-- src/constants/checksum_type.rs:24-32 -/
def ChecksumType.fromName (name : RStr) : Res ChecksumType :=
  if name = "NONE".toList then .ok .none
  else if name = "CRC32".toList then .ok .crc32
  else .err (.str "The master checksum type is not supported")

/-- `ColumnType`, src/constants/column_type.rs:7-100 -/
inductive ColumnType where
  | decimal | tiny | short | long | float | double | null | timeStamp | longLong | int24
  | date | time | dateTime | year | newDate | varChar | bit | timeStamp2 | dateTime2 | time2
  | json | newDecimal | enum | set | tinyBlob | mediumBlob | longBlob | blob | varString | string | geometry
  deriving DecidableEq, Repr

/-- Discriminants, src/constants/column_type.rs:7-100 (`ColumnType::X as u8`) -/
def ColumnType.code : ColumnType → Nat
  | .decimal => 0 | .tiny => 1 | .short => 2 | .long => 3 | .float => 4 | .double => 5 | .null => 6
  | .timeStamp => 7 | .longLong => 8 | .int24 => 9 | .date => 10 | .time => 11 | .dateTime => 12
  | .year => 13 | .newDate => 14 | .varChar => 15 | .bit => 16 | .timeStamp2 => 17 | .dateTime2 => 18
  | .time2 => 19 | .json => 245 | .newDecimal => 246 | .enum => 247 | .set => 248 | .tinyBlob => 249
  | .mediumBlob => 250 | .longBlob => 251 | .blob => 252 | .varString => 253 | .string => 254
  | .geometry => 255

/-- src/constants/column_type.rs:103-139 -/
def ColumnType.fromCode (code : Nat) : Res ColumnType :=
  match code with
  | 0 => .ok .decimal
  | 1 => .ok .tiny
  | 2 => .ok .short
  | 3 => .ok .long
  | 4 => .ok .float
  | 5 => .ok .double
  | 6 => .ok .null
  | 7 => .ok .timeStamp
  | 8 => .ok .longLong
  | 9 => .ok .int24
  | 10 => .ok .date
  | 11 => .ok .time
  | 12 => .ok .dateTime
  | 13 => .ok .year
  | 14 => .ok .newDate
  | 15 => .ok .varChar
  | 16 => .ok .bit
  | 17 => .ok .timeStamp2
  | 18 => .ok .dateTime2
  | 19 => .ok .time2
  | 245 => .ok .json
  | 246 => .ok .newDecimal
  | 247 => .ok .enum
  | 248 => .ok .set
  | 249 => .ok .tinyBlob
  | 250 => .ok .mediumBlob
  | 251 => .ok .longBlob
  | 252 => .ok .blob
  | 253 => .ok .varString
  | 254 => .ok .string
  | 255 => .ok .geometry
  | _ => .err (.str "Unknown column type")

/-- `EventType`, src/events/event_type.rs:5-85 -/
inductive EventType where
  | unknown | query | stop | rotate | intvar | rand | userVar | formatDescription | xid | tableMap
  | writeRowsV1 | updateRowsV1 | deleteRowsV1 | heartbeat
  | mySqlRowsQuery | mySqlWriteRowsV2 | mySqlUpdateRowsV2 | mySqlDeleteRowsV2 | mySqlGtid | mySqlPreviousGtids
  | mySqlXaPrepare
  | mariaDbAnnotateRows | mariaDbBinlogCheckpoint | mariaDbGtid | mariaDbGtidList | mariaDbStartEncryption
  deriving DecidableEq, Repr

/-- src/events/event_type.rs:88-117 -/
def EventType.fromCode (code : Nat) : EventType :=
  match code with
  | 2 => .query
  | 3 => .stop
  | 4 => .rotate
  | 5 => .intvar
  | 13 => .rand
  | 14 => .userVar
  | 15 => .formatDescription
  | 16 => .xid
  | 19 => .tableMap
  | 23 => .writeRowsV1
  | 24 => .updateRowsV1
  | 25 => .deleteRowsV1
  | 27 => .heartbeat
  | 29 => .mySqlRowsQuery
  | 30 => .mySqlWriteRowsV2
  | 31 => .mySqlUpdateRowsV2
  | 32 => .mySqlDeleteRowsV2
  | 33 => .mySqlGtid
  | 35 => .mySqlPreviousGtids
  | 38 => .mySqlXaPrepare
  | 160 => .mariaDbAnnotateRows
  | 161 => .mariaDbBinlogCheckpoint
  | 162 => .mariaDbGtid
  | 163 => .mariaDbGtidList
  | 164 => .mariaDbStartEncryption
  | _ => .unknown

/-- `EventType::FormatDescriptionEvent as i64`, src/events/event_type.rs:27 -/
def FORMAT_DESCRIPTION_CODE : Nat := 15

/-- `MetadataType`, src/metadata/metadata_type.rs:3-16 -/
inductive MetadataType where
  | signedness | defaultCharset | columnCharset | columnName | setStrValue | enumStrValue | geometryType
  | simplePrimaryKey | primaryKeyWithPrefix | enumAndSetDefaultCharset | enumAndSetColumnCharset | columnVisibility
  deriving DecidableEq, Repr

/-- src/metadata/metadata_type.rs:19-40 -/
def MetadataType.fromCode (code : Nat) : Res MetadataType :=
  match code with
  | 1 => .ok .signedness
  | 2 => .ok .defaultCharset
  | 3 => .ok .columnCharset
  | 4 => .ok .columnName
  | 5 => .ok .setStrValue
  | 6 => .ok .enumStrValue
  | 7 => .ok .geometryType
  | 8 => .ok .simplePrimaryKey
  | 9 => .ok .primaryKeyWithPrefix
  | 10 => .ok .enumAndSetDefaultCharset
  | 11 => .ok .enumAndSetColumnCharset
  | 12 => .ok .columnVisibility
  | _ => .err (.str "Table metadata type is not supported")

/-- `AuthPlugin`, src/constants/auth_plugin_names.rs:7-10 -/
inductive AuthPlugin where
  | mySqlNativePassword
  | cachingSha2Password
  deriving DecidableEq, Repr

/-- src/constants/auth_plugin_names.rs:2 -/
def MY_SQL_NATIVE_PASSWORD : RStr := "mysql_native_password".toList
/-- src/constants/auth_plugin_names.rs:5 -/
def CACHING_SHA2_PASSWORD : RStr := "caching_sha2_password".toList

/-- `DatabaseProvider`, src/constants/database_provider.rs:2-5 -/
inductive DatabaseProvider where
  | mariaDB
  | mySQL
  deriving DecidableEq, Repr

/-- `str::contains` -/
def strContains (needle : RStr) : RStr → Bool
  | [] => needle.isEmpty
  | c :: cs => needle.isPrefixOf (c :: cs) || strContains needle cs

/-- src/constants/database_provider.rs:8-13 -/
def DatabaseProvider.fromServer (server : RStr) : DatabaseProvider :=
  if strContains "MariaDB".toList server then .mariaDB else .mySQL

/-- `SslMode`, src/ssl_mode.rs:3-18 -/
inductive SslMode where
  | disabled | ifAvailable | require | requireVerifyCa | requireVerifyFull
  deriving DecidableEq, Repr

/-- `SslMode as u8`, src/ssl_mode.rs:3-18 -/
def SslMode.code : SslMode → Nat
  | .disabled => 0 | .ifAvailable => 1 | .require => 2 | .requireVerifyCa => 3 | .requireVerifyFull => 4

/-- `StartingStrategy`, src/starting_strategy.rs:2-7 -/
inductive StartingStrategy where
  | fromStart | fromEnd | fromPosition | fromGtid
  deriving DecidableEq, Repr

end MysqlCdc
