import Verif.Model.Utf8
import Verif.Model.Constants
/-!
# src/extensions.rs
-/

namespace MysqlCdc

/-- `String::from_utf8(vec)?` -/
def fromUtf8 (bs : Bytes) : Res RStr :=
  match utf8Decode bs with
  | some s => .ok s
  | none => .err .fromUtf8

/-- `cursor.read_to_string(&mut s)?`: invalid UTF-8 is an I/O error of kind InvalidData. -/
def readToString : P RStr := do
  let bs ← P.rest
  match utf8Decode bs with
  | some s => return s
  | none => P.fail (.io .invalidData)

/-- src/extensions.rs:46-51. When there is no terminator `vec.pop()` drops the last byte instead. -/
def readNullTermString : P RStr := do
  let vec ← P.readUntil 0
  P.lift (fromUtf8 vec.dropLast)

/-- src/extensions.rs:62-66 -/
def readString (size : Nat) : P RStr := do
  let vec ← P.readVec size
  P.lift (fromUtf8 vec)

/-- src/extensions.rs:78-97 (`usize` is 64 bits, so `as usize` is the identity) -/
def readLenEncNum : P Nat := do
  let first ← P.u8
  if first < 0xFB then return first
  else if first = 0xFB then P.fail (.str "Length encoded integer cannot be NULL.")
  else if first = 0xFC then P.uLE 2
  else if first = 0xFD then P.uLE 3
  else if first = 0xFE then P.uLE 8
  else P.fail (.str "Unexpected length-encoded integer")

/-- src/extensions.rs:68-71 -/
def readLenEncStr : P RStr := do
  let length ← readLenEncNum
  readString length

/-- Bit `y` of a byte: `(value & (1 << y)) > 0`. -/
def bitAt (value : UInt8) (y : Nat) : Bool := value.toNat.testBit y

/-- `for y in ys { .. }` of src/extensions.rs:108-114: sets the bits of byte `i`; `break` at `bits_number`; an index out of
bounds panics. -/
def setBitsLE (bits i : Nat) (value : UInt8) : List Nat → List Bool → Res (List Bool)
  | [], result => .ok result
  | y :: ys, result =>
    let index := i * 8 + y
    if index = bits then .ok result
    else if index < result.length then setBitsLE bits i value ys (result.set index (bitAt value y))
    else .panic

/-- `for y in ys { .. }` of src/extensions.rs:128-134: big-endian byte order, `continue` above `bits_number`. -/
def setBitsBE (bits bytesNumber i : Nat) (value : UInt8) : List Nat → List Bool → Res (List Bool)
  | [], result => .ok result
  | y :: ys, result =>
    let index := (bytesNumber - i - 1) * 8 + y
    if index ≥ bits then setBitsBE bits bytesNumber i value ys result
    else if index < result.length then setBitsBE bits bytesNumber i value ys (result.set index (bitAt value y))
    else .panic

/-- `for y in ys { .. }` of src/metadata/table_metadata.rs:190-198: bits inside a byte reverted. -/
def setBitsRev (bits i : Nat) (value : UInt8) : List Nat → List Bool → Res (List Bool)
  | [], result => .ok result
  | y :: ys, result =>
    let index := i * 8 + y
    if index = bits then .ok result
    else if index < result.length then setBitsRev bits i value ys (result.set index (bitAt value (7 - y)))
    else .panic

/-- `for i in is { let value = cursor.read_u8()?; .. }`: the outer loop shared by the three bitmap readers. -/
def bitmapLoop (setBits : Nat → UInt8 → List Bool → Res (List Bool)) : List Nat → List Bool → P (List Bool)
  | [], result => return result
  | i :: is, result => do
    let value ← P.u8
    let result ← P.lift (setBits i (UInt8.ofNat value) result)
    bitmapLoop setBits is result

/-- src/extensions.rs:100-117. `vec![false; bits_number]` panics above `isize::MAX`, so `bits_number + 7` cannot overflow. -/
def readBitmapLittleEndian (bits : Nat) : P (List Bool) := do
  P.lift (allocZeroed bits)
  let bytesNumber := (bits + 7) / 8
  bitmapLoop (fun i v => setBitsLE bits i v (List.range 8)) (List.range bytesNumber) (List.replicate bits false)

/-- src/extensions.rs:120-137 -/
def readBitmapBigEndian (bits : Nat) : P (List Bool) := do
  P.lift (allocZeroed bits)
  let bytesNumber := (bits + 7) / 8
  bitmapLoop (fun i v => setBitsBE bits bytesNumber i v (List.range 8)) (List.range bytesNumber)
    (List.replicate bits false)

/-- src/metadata/table_metadata.rs:182-201 -/
def readBitmapReverted (bits : Nat) : P (List Bool) := do
  P.lift (allocZeroed bits)
  let bytesNumber := (bits + 7) / 8
  bitmapLoop (fun i v => setBitsRev bits i v (List.range 8)) (List.range bytesNumber) (List.replicate bits false)

end MysqlCdc
