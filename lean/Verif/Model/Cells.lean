import Verif.Model.Extensions
import Verif.Model.Strings
/-!
# Column values (src/events/row_events/{mysql_value,col_parser,decimal,actual_string_type}.rs)
-/

namespace MysqlCdc

/-- `Date`, src/events/row_events/mysql_value.rs:1-6 -/
structure Date where
  year : Nat
  month : Nat
  day : Nat
  deriving DecidableEq, Repr

/-- `Time`, src/events/row_events/mysql_value.rs:8-14. `hour` is an `i16`; the code only ever stores 0..1023 in it. -/
structure Time where
  hour : Nat
  minute : Nat
  second : Nat
  millis : Nat
  deriving DecidableEq, Repr

/-- `DateTime`, src/events/row_events/mysql_value.rs:16-25 -/
structure DateTime where
  year : Nat
  month : Nat
  day : Nat
  hour : Nat
  minute : Nat
  second : Nat
  millis : Nat
  deriving DecidableEq, Repr

/-- `MySqlValue`, src/events/row_events/mysql_value.rs:27-47. Floats are kept as their IEEE bit pattern. -/
inductive MySqlValue where
  | tinyInt (n : Nat)
  | smallInt (n : Nat)
  | mediumInt (n : Nat)
  | int (n : Nat)
  | bigInt (n : Nat)
  | float (bits : Nat)
  | double (bits : Nat)
  | decimal (s : RStr)
  | string (s : RStr)
  | bit (bs : List Bool)
  | enum (n : Nat)
  | set (n : Nat)
  | blob (bs : Bytes)
  | year (n : Nat)
  | date (d : Date)
  | time (t : Time)
  | dateTime (d : DateTime)
  | timestamp (n : Nat)
  deriving DecidableEq, Repr

/-- src/events/row_events/actual_string_type.rs:6-26: the new column type and metadata. `byte0` is the high byte. -/
def getActualStringType (columnType metadata : Nat) : Nat × Nat :=
  if metadata < 256 then (columnType, metadata)
  else
    let byte0 := (metadata >>> 8) % 256
    let byte1 := metadata &&& 0xFF
    if byte0 &&& 0x30 ≠ 0x30 then
      (byte0 ||| 0x30, byte1 ||| (((byte0 &&& 0x30) ^^^ 0x30) <<< 4))
    else if byte0 = ColumnType.enum.code ∨ byte0 = ColumnType.set.code then (byte0, byte1)
    else (columnType, byte1)

/-- src/events/row_events/col_parser.rs:7-14 -/
def parseString (metadata : Nat) : P RStr := do
  let length ← if metadata < 256 then P.u8 else P.uLE 2
  readString length

/-- src/events/row_events/col_parser.rs:16-21 (at most 255*8+255, so the `u16` arithmetic cannot overflow) -/
def parseBit (metadata : Nat) : P (List Bool) := do
  let length := (metadata >>> 8) * 8 + (metadata &&& 0xFF)
  let bitmap ← readBitmapBigEndian length
  return bitmap.reverse

/-- src/events/row_events/col_parser.rs:23-28 -/
def parseBlob (metadata : Nat) : P Bytes := do
  let length ← P.uintLE metadata
  P.readVec length

/-- src/events/row_events/col_parser.rs:30-32 -/
def parseYear : P Nat := do
  let y ← P.u8
  return 1900 + y

/-- src/events/row_events/col_parser.rs:34-47 -/
def parseDate : P Date := do
  let value ← P.uLE 3
  let day := value % (1 <<< 5)
  let month := (value >>> 5) % (1 <<< 4)
  let year := value >>> 9
  return { year := year % 2 ^ 16, month := month % 2 ^ 8, day := day % 2 ^ 8 }

/-- src/events/row_events/col_parser.rs:49-69. `read_i24` sign-extends, the shifts by 8 change nothing. -/
def parseTime : P Time := do
  let raw ← P.uLE 3
  -- negative exactly if bit 23 is set
  if raw ≥ 2 ^ 23 then P.fail (.str "Parsing negative TIME values is not supported in this version")
  else
    let value := raw
    let second := value % 100
    let value := value / 100
    let minute := value % 100
    let value := value / 100
    let hour := value
    return { hour, minute := minute % 2 ^ 8, second := second % 2 ^ 8, millis := 0 }

/-- src/events/row_events/col_parser.rs:160-168. For `length > 3` the exponent `3 - length` underflows: a panic with overflow
checks; without them the exponent is `2^32 + 3 - length`, and the power wraps to 0 (`pow100_wraps` in Lemmas/Cells). -/
def parseFractionalPart (m : Mode) (metadata : Nat) : P Nat := do
  let sum ← P.lift (addU m 16 metadata 1)
  let length := sum / 2
  if length = 0 then return 0
  else
    let fraction ← P.uintBE length
    if length ≤ 3 then return fraction * 100 ^ (3 - length)
    else if m.checks then P.panic
    else return 0

/-- src/events/row_events/col_parser.rs:71-97 -/
def parseTime2 (m : Mode) (metadata : Nat) : P Time := do
  let value ← P.uBE 3
  let fraction ← parseFractionalPart m metadata
  let millis := fraction / 1000
  if (value >>> 23) &&& 1 = 0 then
    P.fail (.str "Parsing negative TIME values is not supported in this version")
  else
    let hour := (value >>> 12) % (1 <<< 10)
    let minute := (value >>> 6) % (1 <<< 6)
    let second := value % (1 <<< 6)
    return { hour, minute, second, millis := millis % 2 ^ 32 }

/-- src/events/row_events/col_parser.rs:99-122 -/
def parseDateTime : P DateTime := do
  let value ← P.uLE 8
  let second := value % 100
  let value := value / 100
  let minute := value % 100
  let value := value / 100
  let hour := value % 100
  let value := value / 100
  let day := value % 100
  let value := value / 100
  let month := value % 100
  let value := value / 100
  let year := value
  return { year := year % 2 ^ 16, month, day, hour, minute, second, millis := 0 }

/-- src/events/row_events/col_parser.rs:124-146 -/
def parseDateTime2 (m : Mode) (metadata : Nat) : P DateTime := do
  let value ← P.uintBE 5
  let fraction ← parseFractionalPart m metadata
  let millis := fraction / 1000
  let yearMonth := (value >>> 22) % (1 <<< 17)
  let year := yearMonth / 13
  let month := yearMonth % 13
  let day := (value >>> 17) % (1 <<< 5)
  let hour := (value >>> 12) % (1 <<< 5)
  let minute := (value >>> 6) % (1 <<< 6)
  let second := value % (1 <<< 6)
  return { year := year % 2 ^ 16, month, day, hour, minute, second, millis := millis % 2 ^ 32 }

/-- src/events/row_events/col_parser.rs:148-151 -/
def parseTimestamp : P Nat := do
  let seconds ← P.uLE 4
  return seconds * 1000

/-- src/events/row_events/col_parser.rs:153-158 (the sum stays far below 2^64) -/
def parseTimestamp2 (m : Mode) (metadata : Nat) : P Nat := do
  let seconds ← P.uBE 4
  let fraction ← parseFractionalPart m metadata
  let millisecond := fraction / 1000
  return seconds * 1000 + millisecond

/-! ## DECIMAL -/

/-- src/events/row_events/decimal.rs:7 -/
def DIGITS_PER_INT : Nat := 9

/-- `COMPRESSED_BYTES[i]`, src/events/row_events/decimal.rs:8 (only ever indexed below 9) -/
def compressedBytes : Nat → Nat
  | 0 => 0 | 1 => 1 | 2 => 1 | 3 => 2 | 4 => 2 | 5 => 3 | 6 => 3 | 7 => 4 | 8 => 4 | _ => 4

/-- `format!("{val:0prec$}", ..)`: decimal digits padded with zeros on the left to at least `prec`. -/
def showPadded (prec n : Nat) : RStr := List.replicate (prec - (showNat n).length) '0' ++ showNat n

/-- The loop of src/events/row_events/decimal.rs:54-62 over the state `(started, result)` -/
def integralGroups : Nat → Bool → RStr → P (Bool × RStr)
  | 0, started, result => return (started, result)
  | k + 1, started, result => do
    let number ← P.uBE 4
    if started then integralGroups k true (result ++ showPadded 9 number)
    else if number > 0 then integralGroups k true (result ++ showNat number)
    else integralGroups k false result

/-- The loop of src/events/row_events/decimal.rs:73-76 -/
def fractionalGroups : Nat → RStr → P RStr
  | 0, result => return result
  | k + 1, result => do
    let value ← P.uBE 4
    fractionalGroups k (result ++ showPadded 9 value)

/-- src/events/row_events/decimal.rs:42-82: the text, read from the sign-corrected bytes. -/
def decimalBody (uncompressedIntegral compressedIntegral uncompressedFractional compressedFractional scale : Nat)
    (result : RStr) : P RStr := do
  let size := compressedBytes compressedIntegral
  let (started, result) ← (if size > 0 then do
      let number ← P.uintBE size
      if number > 0 then return (true, result ++ showNat number) else return (false, result)
    else return (false, result) : P (Bool × RStr))
  let (started, result) ← integralGroups uncompressedIntegral started result
  let result := if started then result else result ++ ['0']
  let result := if scale > 0 then result ++ ['.'] else result
  let size := compressedBytes compressedFractional
  let result ← fractionalGroups uncompressedFractional result
  if size > 0 then
    let value ← P.uintBE size
    return result ++ showPadded compressedFractional value
  else return result

/-- src/events/row_events/decimal.rs:10-83. The `u8` sums stay below 256 (at most 28*4+4 twice). -/
def parseDecimal (m : Mode) (metadata : Nat) : P RStr := do
  let precision := metadata &&& 0xFF
  let scale := (metadata >>> 8) % 256
  let difference ← P.lift (subU m 16 precision scale)
  let integral := difference % 256
  let uncompressedIntegral := integral / DIGITS_PER_INT
  let uncompressedFractional := scale / DIGITS_PER_INT
  let compressedIntegral := integral - uncompressedIntegral * DIGITS_PER_INT
  let compressedFractional := scale - uncompressedFractional * DIGITS_PER_INT
  let length := uncompressedIntegral * 4 + compressedBytes compressedIntegral
    + uncompressedFractional * 4 + compressedBytes compressedFractional
  let value ← P.readVec length
  match value with
  | [] => P.panic -- `value[0]`
  | v0 :: vs =>
    let negative := v0 &&& 0x80 == 0
    let value := (v0 ^^^ 0x80) :: vs
    let (result, value) := if negative then (['-'], value.map (· ^^^ 0xFF)) else ([], value)
    P.lift ((decimalBody uncompressedIntegral compressedIntegral uncompressedFractional compressedFractional scale
      result).run value)

end MysqlCdc
