import Verif.Model.MysqlGtid
/-!
# What a MySQL GTID set stands for

Independent of the model's functions: only the data types are used.
-/

namespace MysqlCdc.Spec

/-- Transaction id `n` is in one of the closed intervals. -/
def InIvs (n : Nat) (ivs : List Interval) : Prop := ∃ iv ∈ ivs, iv.start ≤ n ∧ n ≤ iv.end

/-- The set of `(server id, transaction id)` pairs a `GtidSet` stands for. -/
def Has (g : GtidSet) (server : Bytes) (n : Nat) : Prop :=
  ∃ e ∈ g.uuidSets, e.2.sourceId.data = server ∧ InIvs n e.2.intervals

/-- Intervals non-empty, in ascending order and disjoint (neighbours may touch). -/
def Ordered (ivs : List Interval) : Prop :=
  (∀ iv ∈ ivs, iv.start ≤ iv.end) ∧ ivs.Pairwise fun a b => a.end < b.start

/-- Ordered, and between two intervals at least one id is missing. -/
def Canonical (ivs : List Interval) : Prop :=
  (∀ iv ∈ ivs, iv.start ≤ iv.end) ∧ ivs.Pairwise fun a b => a.end + 1 < b.start

/-- All ids are below `u64::MAX`. MySQL issues transaction ids from 1 to 2^63 - 2. -/
def InRange (ivs : List Interval) : Prop := ∀ iv ∈ ivs, iv.end < 2 ^ 64 - 1

/-- An interval up to the largest number of 64 bits is followed by another one. -/
def ReachesTop (ivs : List Interval) : Prop := ∃ iv ∈ ivs.dropLast, iv.end = 2 ^ 64 - 1

/-- The value of a hexadecimal digit. -/
def hexDigit? : Char → Option Nat
  | '0' => some 0 | '1' => some 1 | '2' => some 2 | '3' => some 3 | '4' => some 4
  | '5' => some 5 | '6' => some 6 | '7' => some 7 | '8' => some 8 | '9' => some 9
  | 'a' => some 10 | 'b' => some 11 | 'c' => some 12 | 'd' => some 13 | 'e' => some 14 | 'f' => some 15
  | 'A' => some 10 | 'B' => some 11 | 'C' => some 12 | 'D' => some 13 | 'E' => some 14 | 'F' => some 15
  | _ => none

/-- Two hexadecimal digits per byte. -/
inductive HexPairs : RStr → Bytes → Prop
  | nil : HexPairs [] []
  | byte {a b : Char} {x y : Nat} {s : RStr} {bs : Bytes} : hexDigit? a = some x → hexDigit? b = some y →
      HexPairs s bs → HexPairs (a :: b :: s) (UInt8.ofNat (16 * x + y) :: bs)

/-- `text`, with dashes left out, is the hexadecimal writing of `data`. -/
def HexOf (text : RStr) (data : Bytes) : Prop := HexPairs (text.filter (· ≠ '-')) data

/-- `text` names the server with the 16 bytes `data`: it is a hexadecimal writing of them, possibly followed by more digits
(the library accepts and ignores those). -/
def Names (text : RStr) (data : Bytes) : Prop := data.length = 16 ∧ ∃ extra, HexOf text (data ++ extra)

/-- The text of a uuid names its bytes. -/
def UuidOk (u : Uuid) : Prop := Names u.uuid u.data

/-- Two lower-case hexadecimal digits per byte. -/
def hexText (bs : Bytes) : RStr := bs.flatMap fun b => [Nat.digitChar (b.toNat / 16), Nat.digitChar (b.toNat % 16)]

/-- The usual text of a uuid: lower-case hexadecimal in groups of 8-4-4-4-12 digits. -/
def uuidText (d : Bytes) : RStr :=
  hexText (d.take 4) ++ ['-'] ++ hexText ((d.drop 4).take 2) ++ ['-'] ++ hexText ((d.drop 6).take 2) ++ ['-']
    ++ hexText ((d.drop 8).take 2) ++ ['-'] ++ hexText (d.drop 10)

/-- A uuid in its usual text form. -/
def UuidCanon (u : Uuid) : Prop := u.data.length = 16 ∧ u.uuid = uuidText u.data

/-- A well-formed `GtidSet`: every uuid text is a writing of its bytes, the map key is that text, keys are distinct. -/
structure Wf (g : GtidSet) : Prop where
  uuids : ∀ e ∈ g.uuidSets, UuidOk e.2.sourceId ∧ e.1 = e.2.sourceId.uuid
  keys : (g.uuidSets.map (·.1)).Nodup

end MysqlCdc.Spec
