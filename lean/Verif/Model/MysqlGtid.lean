import Verif.Model.Strings
/-!
# MySQL GTID sets (src/providers/mysql/gtid)
-/

namespace MysqlCdc

/-- `Uuid`, src/providers/mysql/gtid/uuid.rs:7-10. `data` stands for `[u8; 16]`. -/
structure Uuid where
  data : Bytes
  uuid : RStr
  deriving DecidableEq, Repr

/-- `Gtid`, src/providers/mysql/gtid/gtid.rs:6-12 -/
structure Gtid where
  sourceId : Uuid
  transactionId : Nat
  deriving DecidableEq, Repr

/-- `Interval`, src/providers/mysql/gtid/interval.rs:5-11 -/
structure Interval where
  start : Nat
  «end» : Nat
  deriving DecidableEq, Repr

/-- `UuidSet`, src/providers/mysql/gtid/uuid_set.rs:9-15 -/
structure UuidSet where
  sourceId : Uuid
  intervals : List Interval
  deriving DecidableEq, Repr

/-- `GtidSet`, src/providers/mysql/gtid/gtid_set.rs:14-17 -/
structure GtidSet where
  uuidSets : HMap RStr UuidSet
  deriving DecidableEq, Repr

/-! ## Uuid -/

/-- A lower-case hexadecimal digit (hex crate, `HEX_CHARS_LOWER`). -/
def hexChar (n : Nat) : Char := "0123456789abcdef".toList.getD n '0'

/-- `hex::encode` -/
def hexEncode : Bytes → RStr
  | [] => []
  | b :: bs => hexChar (b.toNat / 16) :: hexChar (b.toNat % 16) :: hexEncode bs

/-- hex crate, `val`: both letter cases are accepted. -/
def hexVal (c : Char) : Option Nat :=
  let n := c.toNat
  if 48 ≤ n ∧ n ≤ 57 then some (n - 48)
  else if 97 ≤ n ∧ n ≤ 102 then some (n - 87)
  else if 65 ≤ n ∧ n ≤ 70 then some (n - 55)
  else none

/-- `hex::decode`: an odd length or a non-digit is an error. The crate works on UTF-8 bytes; a string with a non-ASCII
character is an error either way, so working on characters gives the same function. -/
def hexDecode : RStr → Res Bytes
  | [] => .ok []
  | [_] => .err .fromHex
  | a :: b :: rest =>
    match hexVal a, hexVal b with
    | some x, some y => do
      let bs ← hexDecode rest
      return UInt8.ofNat (x * 16 + y) :: bs
    | _, _ => .err .fromHex

/-- `String::insert(idx, '-')` -/
def insertDash (idx : Nat) (s : RStr) : RStr := s.take idx ++ '-' :: s.drop idx

/-- `Uuid::new`, src/providers/mysql/gtid/uuid.rs:13-20 -/
def Uuid.new (data : Bytes) : Uuid :=
  let uuid := hexEncode data
  let uuid := insertDash 20 uuid
  let uuid := insertDash 16 uuid
  let uuid := insertDash 12 uuid
  let uuid := insertDash 8 uuid
  { data, uuid }

/-- `Uuid::parse`, src/providers/mysql/gtid/uuid.rs:23-31. `vec[i]` for `i < 16` panics on a short vector; further bytes are
ignored. -/
def Uuid.parse (uuid : RStr) : Res Uuid := do
  let hex := removeChar '-' uuid
  let vec ← hexDecode hex
  if vec.length < 16 then .panic
  else return { data := vec.take 16, uuid }

/-! ## Intervals -/

/-- `Display for Interval`, src/providers/mysql/gtid/interval.rs:21-27 -/
def Interval.display (i : Interval) : RStr :=
  if i.start = i.end then showNat i.start else showNat i.start ++ '-' :: showNat i.end

/-- The loop of `find_interval_index`, src/providers/mysql/gtid/uuid_set.rs:66-76. Returns `inl` for the early `return`, `inr`
for the value of `result_index` when the loop ends. -/
def findLoop (ivs : List Interval) (t : Nat) (result left right : Nat) : Res (Nat ⊕ Nat) :=
  if _h : left < right then
    let mid := (left + right) / 2
    match ivs[mid]? with
    | none => .panic
    | some iv =>
      if iv.end < t then findLoop ivs t mid (mid + 1) right
      else if t < iv.start then findLoop ivs t mid left mid
      else .ok (.inl mid)
  else .ok (.inr result)
  termination_by right - left
  decreasing_by all_goals omega

/-- `find_interval_index`, src/providers/mysql/gtid/uuid_set.rs:61-81 -/
def findIntervalIndex (ivs : List Interval) (t : Nat) : Res Nat := do
  match ← findLoop ivs t 0 0 ivs.length with
  | .inl i => return i
  | .inr result =>
    if ivs.isEmpty then return result
    else match ivs[result]? with
      | none => .panic
      | some iv => if iv.end < t then return result + 1 else return result

/-- The loop of `collapse_intervals`, src/providers/mysql/gtid/uuid_set.rs:86-97, from a given `index`. -/
def collapseLoop (m : Mode) (ivs : List Interval) (index : Nat) : Res (List Interval) :=
  if h : index < ivs.length - 1 then
    let left := ivs[index]
    let right := ivs[index + 1]
    match addU m 64 left.end 1 with
    | .ok e =>
      if e = right.start then
        collapseLoop m ((ivs.set index { left with «end» := right.end }).eraseIdx (index + 1)) index
      else collapseLoop m ivs (index + 1)
    | .err e => .err e
    | .panic => .panic
    | .hang => .hang
  else .ok ivs
  termination_by ivs.length - index
  decreasing_by
    · rw [List.length_eraseIdx]; split <;> simp at * <;> omega
    · omega

/-- `collapse_intervals`, src/providers/mysql/gtid/uuid_set.rs:83-98. On an empty vector `len() - 1` underflows (checks on) or
`intervals[1]` is out of bounds (checks off): a panic. -/
def collapseIntervals (m : Mode) (ivs : List Interval) : Res (List Interval) :=
  if ivs.isEmpty then .panic else collapseLoop m ivs 0

/-- `UuidSet::new`, src/providers/mysql/gtid/uuid_set.rs:18-26 -/
def UuidSet.new (m : Mode) (sourceId : Uuid) (intervals : List Interval) : Res UuidSet := do
  let intervals ← if intervals.length > 1 then collapseIntervals m intervals else pure intervals
  return { sourceId, intervals }

/-- `UuidSet::add_gtid`, src/providers/mysql/gtid/uuid_set.rs:29-58. Returns the flag and the new value of `self`; on `Err`
`self` is unchanged. `Vec::insert` panics when the index is beyond the end. -/
def UuidSet.addGtid (m : Mode) (s : UuidSet) (gtid : Gtid) : Res (Bool × UuidSet) := do
  if s.sourceId.data ≠ gtid.sourceId.data then
    .err (.str "SourceId of the passed gtid doesn't belong to the UuidSet")
  else
    let t := gtid.transactionId
    let ivs := s.intervals
    let index ← findIntervalIndex ivs t
    let finish (ivs : List Interval) : Res (Bool × UuidSet) := do
      let ivs ← if ivs.length > 1 then collapseIntervals m ivs else pure ivs
      return (true, { s with intervals := ivs })
    let insertNew : Res (Bool × UuidSet) :=
      if index ≤ ivs.length then finish (ivs.insertIdx index { start := t, «end» := t }) else .panic
    match ivs[index]? with
    | none => insertNew
    | some iv =>
      let t1 ← addU m 64 t 1
      if iv.start = t1 then finish (ivs.set index { iv with start := t })
      else
        let e1 ← addU m 64 iv.end 1
        if e1 = t then finish (ivs.set index { iv with «end» := t })
        else if iv.start ≤ t ∧ t ≤ iv.end then return (false, s)
        else insertNew

/-- `Display for UuidSet`, src/providers/mysql/gtid/uuid_set.rs:102-111 -/
def UuidSet.display (s : UuidSet) : RStr :=
  s.sourceId.uuid ++ ':' :: joinWith ':' (s.intervals.map Interval.display)

/-! ## GtidSet -/

/-- `GtidSet::new`, src/providers/mysql/gtid/gtid_set.rs:20-24 -/
def GtidSet.new : GtidSet := { uuidSets := [] }

/-- src/providers/mysql/gtid/gtid_set.rs:9 -/
def UUID_LENGTH : Nat := 36

/-- One interval of the text, src/providers/mysql/gtid/gtid_set.rs:45-51 -/
def parseInterval (token : RStr) : Res Interval :=
  match splitOn '-' token with
  | [a] => do
    let s ← parseUnsigned 64 a
    let e ← parseUnsigned 64 a
    return { start := s, «end» := e }
  | [a, b] => do
    let s ← parseUnsigned 64 a
    let e ← parseUnsigned 64 b
    return { start := s, «end» := e }
  | _ => .err (.str "Invalid interval format")

/-- `for token in ranges { .. }`, src/providers/mysql/gtid/gtid_set.rs:44-52 -/
def parseIntervals : List RStr → Res (List Interval)
  | [] => return []
  | token :: ts => do
    let i ← parseInterval token
    let is ← parseIntervals ts
    return i :: is

/-- `for uuid_set in uuid_sets { .. }`, src/providers/mysql/gtid/gtid_set.rs:36-54 -/
def parseUuidSets (m : Mode) : List RStr → HMap RStr UuidSet → Res (HMap RStr UuidSet)
  | [], result => return result
  | uuidSet :: rest, result => do
    let sourceId ← Uuid.parse (uuidSet.take UUID_LENGTH)
    let ranges := uuidSet.drop (UUID_LENGTH + 1)
    let intervals ← parseIntervals (splitOn ':' ranges)
    let set ← UuidSet.new m sourceId intervals
    parseUuidSets m rest (result.insert sourceId.uuid set)

/-- `GtidSet::parse`, src/providers/mysql/gtid/gtid_set.rs:27-57 -/
def GtidSet.parse (m : Mode) (gtidSet : RStr) : Res GtidSet := do
  if gtidSet.isEmpty then return GtidSet.new
  else
    let gtidSet := removeChar '\n' gtidSet
    let uuidSets := (splitOn ',' gtidSet).map trim
    let result ← parseUuidSets m uuidSets []
    return { uuidSets := result }

/-- `GtidSet::add_gtid`, src/providers/mysql/gtid/gtid_set.rs:60-67. Returns the flag and the new value of `self`. -/
def GtidSet.addGtid (m : Mode) (g : GtidSet) (gtid : Gtid) : Res (Bool × GtidSet) := do
  let fresh ← UuidSet.new m gtid.sourceId []
  let cur := (g.uuidSets.get? gtid.sourceId.uuid).getD fresh
  let (added, s) ← cur.addGtid m gtid
  return (added, { uuidSets := g.uuidSets.insert gtid.sourceId.uuid s })

/-- `Display for GtidSet`, src/providers/mysql/gtid/gtid_set.rs:72-81 -/
def GtidSet.display (g : GtidSet) : RStr :=
  joinWith ',' (sortStrings (g.uuidSets.values.map UuidSet.display))

end MysqlCdc
