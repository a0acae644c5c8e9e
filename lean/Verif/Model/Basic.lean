/-!
# Outcomes, byte cursors and integer arithmetic

Models the vocabulary the crate is written in: `Result`, panics, `std::io::Cursor`, `byteorder`.
-/

namespace MysqlCdc

abbrev Bytes := List UInt8

/-- Rust `String` / `&str`, as its sequence of characters. -/
abbrev RStr := List Char

/-- `std::io::ErrorKind`, the kinds the crate can produce or forward. `other n` stands for any further kind
(connection reset, would-block, timed-out ...) an operating system may report. -/
inductive IoKind where
  | unexpectedEof
  | invalidData
  | invalidInput
  | other (code : Nat)
  deriving DecidableEq, Repr

/-- `Error` of src/errors.rs:7-15. Simplified: the payloads of the wrapped foreign errors are dropped, and texts built by
`format!` are reduced to a fixed tag. `server` is the text `format!("{} {:?}", message, error)` for an error packet sent by the server
(src/extensions.rs:142, src/binlog_events.rs:34): it is kept as the parts that are printed. -/
inductive Err where
  | io (k : IoKind)
  | utf8
  | fromUtf8
  | fromHex
  | parseInt
  | openssl
  | str (tag : String)
  | server (context : String) (code : Nat) (message : List Char) (sqlState : Option (List Char))
  deriving DecidableEq, Repr

/-- What running a piece of Rust code can lead to: a value, an `Err`, a panic, or a loop that never ends. -/
inductive Res (α : Type) where
  | ok (a : α)
  | err (e : Err)
  | panic
  | hang
  deriving DecidableEq, Repr

namespace Res

@[simp] def bind {α β : Type} : Res α → (α → Res β) → Res β
  | ok a, f => f a
  | err e, _ => err e
  | panic, _ => panic
  | hang, _ => hang

instance : Monad Res where
  pure := ok
  bind := bind

@[simp] theorem pure_eq {α : Type} (a : α) : (pure a : Res α) = ok a := rfl
@[simp] theorem bind_ok {α β : Type} (a : α) (f : α → Res β) : (ok a >>= f) = f a := rfl
@[simp] theorem bind_err {α β : Type} (e : Err) (f : α → Res β) : ((err e : Res α) >>= f) = err e := rfl
@[simp] theorem bind_panic {α β : Type} (f : α → Res β) : ((panic : Res α) >>= f) = panic := rfl
@[simp] theorem bind_hang {α β : Type} (f : α → Res β) : ((hang : Res α) >>= f) = hang := rfl

/-- The run returns to its caller (with a value or an `Err`): it neither panics nor loops for ever. -/
def Returns {α : Type} : Res α → Prop
  | ok _ => True
  | err _ => True
  | panic => False
  | hang => False

end Res

/-- Build profile: whether integer overflow panics (`overflow-checks = true`, the debug default) or wraps. -/
structure Mode where
  checks : Bool
  deriving DecidableEq, Repr

/-- `a + b` on an unsigned integer of `bits` bits. -/
def addU (m : Mode) (bits : Nat) (a b : Nat) : Res Nat :=
  if a + b < 2 ^ bits then .ok (a + b) else if m.checks then .panic else .ok ((a + b) % 2 ^ bits)

/-- `a - b` on an unsigned integer of `bits` bits. -/
def subU (m : Mode) (bits : Nat) (a b : Nat) : Res Nat :=
  if b ≤ a then .ok (a - b) else if m.checks then .panic else .ok ((2 ^ bits + a - b) % 2 ^ bits)

/-- Result of `vec![0; n]`: `capacity overflow` panics above `isize::MAX`. Memory exhaustion is not modelled. -/
def allocZeroed (n : Nat) : Res Unit :=
  if n < 2 ^ 63 then .ok () else .panic

/-! ## Numbers in bytes (`byteorder`) -/

/-- Value of a little-endian byte string. -/
def leVal : Bytes → Nat
  | [] => 0
  | b :: bs => b.toNat + 256 * leVal bs

/-- Value of a big-endian byte string. -/
def beVal (bs : Bytes) : Nat := leVal bs.reverse

/-- `k` bytes of `n`, little-endian (high part of `n` dropped). -/
def leBytes : Nat → Nat → Bytes
  | 0, _ => []
  | k + 1, n => UInt8.ofNat n :: leBytes k (n / 256)

/-! ## Cursors -/

/-- A computation reading from `std::io::Cursor<&[u8]>`: a function of the immutable slice and the position, returning a value
and the new position. After an `Err` the crate always drops the cursor, so the position is not kept in that case. -/
def P (α : Type) : Type := Bytes → Nat → Res (α × Nat)

namespace P

def ret {α : Type} (a : α) : P α := fun _ pos => .ok (a, pos)

def seq {α β : Type} (p : P α) (f : α → P β) : P β := fun buf pos =>
  match p buf pos with
  | .ok (a, pos') => f a buf pos'
  | .err e => .err e
  | .panic => .panic
  | .hang => .hang

instance : Monad P where
  pure := ret
  bind := seq

/-- Lifts an outcome that does not touch the cursor. -/
def lift {α : Type} (r : Res α) : P α := fun _ pos =>
  match r with
  | .ok a => .ok (a, pos)
  | .err e => .err e
  | .panic => .panic
  | .hang => .hang

def fail {α : Type} (e : Err) : P α := fun _ _ => .err e
def panic {α : Type} : P α := fun _ _ => .panic

/-- `Read::read_exact` into a buffer of `n` bytes (also the core of every byteorder read). -/
def readExact (n : Nat) : P Bytes := fun buf pos =>
  if n ≤ (buf.drop pos).length then .ok ((buf.drop pos).take n, pos + n) else .err (.io .unexpectedEof)

/-- `vec![0; n]` followed by `read_exact` into it. -/
def readVec (n : Nat) : P Bytes := do
  lift (allocZeroed n)
  readExact n

/-- `ReadBytesExt::read_u8` -/
def u8 : P Nat := do return leVal (← readExact 1)
/-- `read_u16/u24/u32/u48/u64::<LittleEndian>` read `k` = 2, 3, 4, 6, 8 bytes. -/
def uLE (k : Nat) : P Nat := do return leVal (← readExact k)
/-- `read_u16/u24/u32::<BigEndian>` -/
def uBE (k : Nat) : P Nat := do return beVal (← readExact k)

/-- `ReadBytesExt::read_uint::<LittleEndian>(nbytes)`: panics unless `1 ≤ nbytes ≤ 8` (slicing of an 8-byte buffer and
`assert!` in byteorder). -/
def uintLE (nbytes : Nat) : P Nat :=
  if 8 < nbytes then panic
  else do
    let bs ← readExact nbytes
    if nbytes = 0 then panic else return leVal bs

/-- `ReadBytesExt::read_uint::<BigEndian>(nbytes)` -/
def uintBE (nbytes : Nat) : P Nat :=
  if 8 < nbytes then panic
  else do
    let bs ← readExact nbytes
    if nbytes = 0 then panic else return beVal bs

/-- `Seek::seek(SeekFrom::Current(k))`: positions beyond the end are allowed, negative ones are an error. -/
def seekCur (k : Int) : P Unit := fun _ pos =>
  if 0 ≤ (pos : Int) + k then .ok ((), ((pos : Int) + k).toNat) else .err (.io .invalidInput)

/-- The bytes from the position to the end, moving to the end (`read_to_end`; a position beyond the end stays). -/
def rest : P Bytes := fun buf pos => .ok (buf.drop pos, max pos buf.length)

/-- `BufRead::read_until(delim)`: everything up to and including the delimiter, or to the end if there is none. -/
def readUntil (delim : UInt8) : P Bytes := fun buf pos =>
  let t := buf.drop pos
  let k := (t.takeWhile (· != delim)).length
  .ok (t.take (k + 1), pos + (t.take (k + 1)).length)

/-- `while cursor.position() < cursor.get_ref().len() as u64 { v.push(body) }`.
An iteration that leaves the position where it was is repeated for ever: `hang`. -/
def whileData {α : Type} (body : P α) (buf : Bytes) (pos : Nat) : Res (List α × Nat) :=
  if pos < buf.length then
    match body buf pos with
    | .ok (a, pos') =>
      if pos < pos' then
        match whileData body buf pos' with
        | .ok (as, pos'') => .ok (a :: as, pos'')
        | .err e => .err e
        | .panic => .panic
        | .hang => .hang
      else .hang
    | .err e => .err e
    | .panic => .panic
    | .hang => .hang
  else .ok ([], pos)
  termination_by buf.length - pos

/-- `for _ in 0..n { v.push(body) }` -/
def times {α : Type} : Nat → P α → P (List α)
  | 0, _ => ret []
  | n + 1, body => do
    let a ← body
    let as ← times n body
    return a :: as

/-- `for x in xs { v.push(body(x)) }` -/
def forEach {α β : Type} : List α → (α → P β) → P (List β)
  | [], _ => ret []
  | x :: xs, body => do
    let b ← body x
    let bs ← forEach xs body
    return b :: bs

/-- Runs a parser on a fresh cursor over `bs`, keeping only the value. -/
def run {α : Type} (p : P α) (bs : Bytes) : Res α :=
  match p bs 0 with
  | .ok (a, _) => .ok a
  | .err e => .err e
  | .panic => .panic
  | .hang => .hang

end P

end MysqlCdc
