import Verif.Spec.Packets
/-!
# Password checks at the server, and the two hash functions (FIPS 180-4)
-/

namespace MysqlCdc.Spec

/-- `x` is `a` xored with the scramble, repeated as often as needed. -/
def Masked (scramble a x : Bytes) : Prop :=
  x.length = a.length ∧ ∀ (i : Nat) (b k : UInt8), a[i]? = some b → scramble[i % scramble.length]? = some k → x[i]? = some (b ^^^ k)

/-- Byte-wise exclusive or. -/
def xored (a b : Bytes) : Bytes := List.zipWith (· ^^^ ·) a b

/-- What a server stores for a password: nothing for the empty password, otherwise the double hash. -/
def storedHash (hash : Bytes → Bytes) (password : Bytes) : Option Bytes :=
  if password = [] then none else some (hash (hash password))

/-- `mysql_native_password` at the server (sql_authentication.cc, `native_password_authenticate` and password.c,
`check_scramble`): no stored hash wants an empty response; otherwise the response must have 20 bytes, and
`response XOR SHA1(scramble || stored)` must hash to the stored value. -/
def nativeAccepts (sha1 : Bytes → Bytes) (scramble : Bytes) (stored : Option Bytes) (response : Bytes) : Prop :=
  match stored with
  | none => response = []
  | some h => response.length = 20 ∧ sha1 (xored response (sha1 (scramble ++ h))) = h

/-- The fast path of `caching_sha2_password` at the server (sha2_password.cc, `Validate_scramble`): `response XOR
SHA256(stored || scramble)` must hash to the stored value. -/
def sha2Accepts (sha256 : Bytes → Bytes) (scramble : Bytes) (stored : Option Bytes) (response : Bytes) : Prop :=
  match stored with
  | none => response = []
  | some h => response.length = 32 ∧ sha256 (xored response (sha256 (h ++ scramble))) = h

/-! ## SHA-256 and SHA-1, FIPS 180-4 -/

def rotr (n x : Nat) : Nat := (x >>> n ||| x <<< (32 - n)) % 2 ^ 32
def rotl (n x : Nat) : Nat := rotr (32 - n) x
def not32 (x : Nat) : Nat := 2 ^ 32 - 1 - x

/-- Words of four big-endian bytes. -/
def words : Bytes → List Nat
  | a :: b :: c :: d :: rest => (((a.toNat * 256 + b.toNat) * 256 + c.toNat) * 256 + d.toNat) :: words rest
  | _ => []

/-- Padding (5.1.1): the byte 0x80, zeros, the length in bits in eight bytes; a multiple of 64 bytes. -/
def shaPad (msg : Bytes) : Bytes :=
  msg ++ [0x80] ++ List.replicate ((119 - msg.length % 64) % 64) 0 ++ be 8 (8 * msg.length)

def shaBlocks (ws : List Nat) : List (List Nat) := (List.range (ws.length / 16)).map fun i => (ws.drop (16 * i)).take 16

def k256 : List Nat :=
  [0x428a2f98, 0x71374491, 0xb5c0fbcf, 0xe9b5dba5, 0x3956c25b, 0x59f111f1, 0x923f82a4, 0xab1c5ed5,
   0xd807aa98, 0x12835b01, 0x243185be, 0x550c7dc3, 0x72be5d74, 0x80deb1fe, 0x9bdc06a7, 0xc19bf174,
   0xe49b69c1, 0xefbe4786, 0x0fc19dc6, 0x240ca1cc, 0x2de92c6f, 0x4a7484aa, 0x5cb0a9dc, 0x76f988da,
   0x983e5152, 0xa831c66d, 0xb00327c8, 0xbf597fc7, 0xc6e00bf3, 0xd5a79147, 0x06ca6351, 0x14292967,
   0x27b70a85, 0x2e1b2138, 0x4d2c6dfc, 0x53380d13, 0x650a7354, 0x766a0abb, 0x81c2c92e, 0x92722c85,
   0xa2bfe8a1, 0xa81a664b, 0xc24b8b70, 0xc76c51a3, 0xd192e819, 0xd6990624, 0xf40e3585, 0x106aa070,
   0x19a4c116, 0x1e376c08, 0x2748774c, 0x34b0bcb5, 0x391c0cb3, 0x4ed8aa4a, 0x5b9cca4f, 0x682e6ff3,
   0x748f82ee, 0x78a5636f, 0x84c87814, 0x8cc70208, 0x90befffa, 0xa4506ceb, 0xbef9a3f7, 0xc67178f2]

/-- Message schedule of SHA-256 (6.2.2), built with the newest word first. -/
def schedule256 : Nat → List Nat → List Nat
  | 0, ws => ws
  | n + 1, ws =>
    let s1 := fun x => rotr 17 x ^^^ rotr 19 x ^^^ x >>> 10
    let s0 := fun x => rotr 7 x ^^^ rotr 18 x ^^^ x >>> 3
    schedule256 n ((s1 (ws.getD 1 0) + ws.getD 6 0 + s0 (ws.getD 14 0) + ws.getD 15 0) % 2 ^ 32 :: ws)

def round256 (s : List Nat) (kw : Nat × Nat) : List Nat :=
  match s with
  | [a, b, c, d, e, f, g, h] =>
    let t1 := h + (rotr 6 e ^^^ rotr 11 e ^^^ rotr 25 e) + ((e &&& f) ^^^ (not32 e &&& g)) + kw.1 + kw.2
    let t2 := (rotr 2 a ^^^ rotr 13 a ^^^ rotr 22 a) + ((a &&& b) ^^^ (a &&& c) ^^^ (b &&& c))
    [(t1 + t2) % 2 ^ 32, a, b, c, (d + t1) % 2 ^ 32, e, f, g]
  | s => s

def block256 (h ws : List Nat) : List Nat :=
  let w := (schedule256 48 ws.reverse).reverse
  List.zipWith (fun a b => (a + b) % 2 ^ 32) h ((k256.zip w).foldl round256 h)

/-- SHA-256. -/
def sha256 (msg : Bytes) : Bytes :=
  ((shaBlocks (words (shaPad msg))).foldl block256
    [0x6a09e667, 0xbb67ae85, 0x3c6ef372, 0xa54ff53a, 0x510e527f, 0x9b05688c, 0x1f83d9ab, 0x5be0cd19]).flatMap (be 4)

def schedule1 : Nat → List Nat → List Nat
  | 0, ws => ws
  | n + 1, ws => schedule1 n (rotl 1 (ws.getD 2 0 ^^^ ws.getD 7 0 ^^^ ws.getD 13 0 ^^^ ws.getD 15 0) :: ws)

def round1 (s : List Nat) (tw : Nat × Nat) : List Nat :=
  match s with
  | [a, b, c, d, e] =>
    let fk := if tw.1 < 20 then ((b &&& c) ^^^ (not32 b &&& d), 0x5a827999)
      else if tw.1 < 40 then (b ^^^ c ^^^ d, 0x6ed9eba1)
      else if tw.1 < 60 then ((b &&& c) ^^^ (b &&& d) ^^^ (c &&& d), 0x8f1bbcdc)
      else (b ^^^ c ^^^ d, 0xca62c1d6)
    [(rotl 5 a + fk.1 + e + fk.2 + tw.2) % 2 ^ 32, a, rotl 30 b, c, d]
  | s => s

def block1 (h ws : List Nat) : List Nat :=
  let w := (schedule1 64 ws.reverse).reverse
  List.zipWith (fun a b => (a + b) % 2 ^ 32) h (((List.range 80).zip w).foldl round1 h)

/-- SHA-1. -/
def sha1 (msg : Bytes) : Bytes :=
  ((shaBlocks (words (shaPad msg))).foldl block1
    [0x67452301, 0xefcdab89, 0x98badcfe, 0x10325476, 0xc3d2e1f0]).flatMap (be 4)

/-- Published test vectors: "abc". -/
example : sha256 [0x61, 0x62, 0x63] = be 32 0xba7816bf8f01cfea414140de5dae2223b00361a396177a9cb410ff61f20015ad := by
  decide +kernel
example : sha1 [0x61, 0x62, 0x63] = be 20 0xa9993e364706816aba3e25717850c26c9cd0d89d := by decide +kernel
/-- Published test vectors: two blocks. -/
example : sha256 (utf8Bytes "abcdbcdecdefdefgefghfghighijhijkijkljklmklmnlmnomnopnopq".toList)
    = be 32 0x248d6a61d20638b8e5c026930c3e6039a33ce45964ff2167f6ecedd419db06c1 := by decide +kernel
example : sha1 (utf8Bytes "abcdbcdecdefdefgefghfghighijhijkijkljklmklmnlmnomnopnopq".toList)
    = be 20 0x84983e441c3bd26ebaae4aa1f95129e5e54670f1 := by decide +kernel

end MysqlCdc.Spec
