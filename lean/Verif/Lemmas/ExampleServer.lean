import Verif.Spec.Frames
import Verif.Model.Session
/-!
# A concrete server for examples
-/

namespace MysqlCdc

open Spec

/-- Not cryptography, but of the right sizes. -/
def exCrypto : Crypto where
  sha1 _ := List.replicate 20 7
  sha256 _ := List.replicate 32 7
  rsa _ _ := some [1, 2, 3]

/-- The greeting of a server without SSL. -/
def exHello (version plugin : String) (capsLow : Nat) : Bytes :=
  le 1 10 ++ (utf8Bytes version.toList ++ [0]) ++ le 4 77 ++ (utf8Bytes "abcdefgh".toList ++ [0]) ++ le 2 capsLow ++ le 1 255
    ++ le 2 2 ++ le 2 0xc00f ++ le 1 21 ++ List.replicate 6 0 ++ le 4 0 ++ (utf8Bytes "ijklmnopqrst".toList ++ [0])
    ++ (utf8Bytes plugin.toList ++ [0])

def exOk : Bytes := [0, 0, 0, 2, 0, 0, 0]
def exEof : Bytes := [0xFE, 0, 0, 2, 0]
def exCell (s : String) : Bytes := le 1 s.length ++ utf8Bytes s.toList

/-- A result set of one row. -/
def exResult (cells : List String) : List (Bytes × Nat) :=
  [([UInt8.ofNat cells.length], 1), ([3, 100, 101, 102], 2), (exEof, 3), (cells.flatMap exCell, 4), (exEof, 5)]

/-- Greeting and acceptance of the password. -/
def exLogin (version : String) : List (Bytes × Nat) := [(exHello version "mysql_native_password" 0xf7ff, 0), (exOk, 2)]

/-- Answers to the heartbeat and checksum commands. -/
def exConfigured : List (Bytes × Nat) := [(exOk, 1), (exOk, 1)] ++ exResult ["CRC32"]

def exChannel (packets : List (Bytes × Nat)) : Channel :=
  { input := frames packets, ending := .unexpectedEof, output := [], writes := [], readTimeout := 0, trace := [] }

def exUser (binlog : BinlogOptions) : Client :=
  { options := { ReplicaOptions.default with username := "repl".toList, password := "secret".toList, binlog },
    transaction := false, mariaGtid := none, mysqlGtid := none }

end MysqlCdc
