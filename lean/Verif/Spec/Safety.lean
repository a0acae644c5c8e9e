import Verif.Spec.Wire
import Verif.Spec.Rows
import Verif.Spec.Decoder
/-!
# Which bytes and tables are outside what servers send
-/

namespace MysqlCdc.Spec

/-- Somewhere in the bytes there is what reads as a length-encoded integer of 2^63 or more. -/
def AbsurdLength (body : Bytes) : Prop :=
  ∃ l : Bytes, l.length = 8 ∧ 2 ^ 63 ≤ leVal l ∧ ((0xFE : UInt8) :: l) <:+: body

/-- The table map describes columns as servers do: DECIMAL (246) with 1 ≤ precision, scale ≤ precision; fractional times
(17, 18, 19) with at most 6 digits; blobs, JSON, geometry (249-252, 245, 255) with 1 to 4 length bytes; ENUM and SET (247, 248)
of 1 to 8 bytes, also when packed in a STRING column (254), which otherwise is a CHAR of up to 1023 bytes. Any other type,
known or not, with any 16-bit metadata. -/
def SaneColumn (t : UInt8) (md : Nat) : Prop :=
  md < 2 ^ 16 ∧ (t = 246 → 1 ≤ md % 256 ∧ md / 256 ≤ md % 256) ∧
  (t ∈ [17, 18, 19] → md ≤ 6) ∧
  (t ∈ [245, 249, 250, 251, 252, 255] → 1 ≤ md ∧ md ≤ 4) ∧
  (t ∈ [247, 248] → 1 ≤ md ∧ md ≤ 8) ∧
  (t = 254 → (∃ n, n < 1024 ∧ md = charMeta n) ∨ (∃ k, 1 ≤ k ∧ k ≤ 8 ∧ (md = 247 * 256 + k ∨ md = 248 * 256 + k)))

def SaneTable (t : TableMapEvent) : Prop :=
  t.columnMetadata.length = t.columnTypes.length ∧
  ∀ (i : Nat) c md, t.columnTypes[i]? = some c → t.columnMetadata[i]? = some md → SaneColumn c md

/-- `ColumnCountAt version body n next`: a row event of this version announces `n` columns; its first bitmap starts at `next`.
The count follows the table id (6 bytes), the flags (2 bytes) and, in version 2, the extra data with its own length. -/
def ColumnCountAt (version : Nat) (body : Bytes) (n next : Nat) : Prop :=
  ∃ enc, LenEnc n enc ∧
    let start := if version = 2 then 8 + leVal ((body.drop 8).take 2) else 8
    enc <+: body.drop start ∧ next = start + enc.length

/-- The bits stored at an offset of the body. -/
def BitmapAt (body : Bytes) (offset : Nat) (bits : List Bool) : Prop :=
  ∃ enc, BitmapLE bits enc ∧ enc <+: body.drop offset

/-- Row event types of a version. -/
def versionTypes (version : Nat) : List Nat := if version = 2 then [30, 31, 32] else [23, 24, 25]

/-- A row event (any of the six types) that includes no column: no bit is set in its columns bitmap, nor, for updates (24, 31),
in the second one. -/
def IncludesNoColumn (code : Nat) (body : Bytes) : Prop :=
  ∃ version n next, code ∈ versionTypes version ∧ ColumnCountAt version body n next ∧
    (∃ present, present.length = n ∧ BitmapAt body next present ∧ true ∉ present) ∧
    (code = 24 ∨ code = 31 → ∃ after, after.length = n ∧ BitmapAt body (next + bytesFor n) after ∧ true ∉ after)

end MysqlCdc.Spec
