import Verif.Spec.SetUp
import Verif.Spec.GtidText
/-!
# What a server sends while it lets a client log in and sets up replication

From the MySQL internals manual: Connection Phase, and the `caching_sha2_password` pages. Sequence numbers count the packets of both
sides, from 0 for the greeting.
-/

namespace MysqlCdc.Spec

/-- OK_Packet: first byte 0. -/
def IsOk (p : Bytes) : Prop := p.head? = some 0 ∧ p.length < 2 ^ 24

/-- The two methods the client knows. -/
def Known (plugin : RStr) : Prop := plugin = "mysql_native_password".toList ∨ plugin = "caching_sha2_password".toList

/-- How the server ends the log-in. `answered`: an OK packet answers the client's last packet. `hash`: the server needs no more than the
`caching_sha2_password` hash, and says so with the packet 01 03 before its OK packet. `switched`: an OK packet at once in answer to the
response to a switch request to `caching_sha2_password` (such as for an empty password). -/
inductive Way where
  | answered | hash | switched
  deriving DecidableEq, Repr

/-- The packets after the greeting, when the server accepts the client. `key` has, when the client must encrypt the password, the last
scramble sent and the server's key. -/
inductive Accepts (plugin scramble : RStr) : Way → (key : Option (RStr × Bytes)) → List (Bytes × Nat) → Prop
  | ok {p : Bytes} : IsOk p → Accepts plugin scramble .answered none [(p, 2)]
  | fast {p : Bytes} : IsOk p → plugin = "caching_sha2_password".toList → Accepts plugin scramble .hash none [([1, 3], 2), (p, 3)]
  | full {key p : Bytes} : IsOk p → plugin = "caching_sha2_password".toList → key.length < 2 ^ 20 →
      Accepts plugin scramble .answered (some (scramble, key)) [([1, 4], 2), (1 :: key, 4), (p, 6)]
  | switchNative {p body : Bytes} {data : RStr} : IsOk p → SwitchBody ⟨"mysql_native_password".toList, data⟩ body →
      body.length < 2 ^ 20 → Accepts plugin scramble .answered none [(0xFE :: body, 2), (p, 4)]
  | switchFast {p body : Bytes} {data : RStr} : IsOk p → SwitchBody ⟨"caching_sha2_password".toList, data⟩ body →
      body.length < 2 ^ 20 → Accepts plugin scramble .hash none [(0xFE :: body, 2), ([1, 3], 4), (p, 5)]
  | switchOk {p body : Bytes} {data : RStr} : IsOk p → SwitchBody ⟨"caching_sha2_password".toList, data⟩ body →
      body.length < 2 ^ 20 → Accepts plugin scramble .switched none [(0xFE :: body, 2), (p, 4)]
  | switchFull {key p body : Bytes} {data : RStr} : IsOk p → SwitchBody ⟨"caching_sha2_password".toList, data⟩ body →
      body.length < 2 ^ 20 → key.length < 2 ^ 20 →
      Accepts plugin scramble .answered (some (data, key)) [(0xFE :: body, 2), ([1, 4], 4), (1 :: key, 6), (p, 8)]

/-- A result set: number of columns, column definitions, EOF, rows, EOF; none of the number, the definitions and the rows starts like
an EOF or an error packet. -/
inductive IsResultSet (rows : List Bytes) : List (Bytes × Nat) → Prop
  | mk {count eof1 eof2 : Bytes × Nat} {columns numbered : List (Bytes × Nat)} :
      (∀ p ∈ count :: eof1 :: eof2 :: columns ++ numbered, p.1 ≠ [] ∧ p.1.length < 2 ^ 24 ∧ p.2 < 2 ^ 8) →
      count.1.head? ≠ some 0xFE → count.1.head? ≠ some 0xFF → eof1.1.head? = some 0xFE → eof2.1.head? = some 0xFE →
      (∀ p ∈ columns, p.1.head? ≠ some 0xFE ∧ p.1.head? ≠ some 0xFF) →
      (∀ p ∈ numbered, p.1.head? ≠ some 0xFE ∧ p.1.head? ≠ some 0xFF) → rows = numbered.map (·.1) →
      IsResultSet rows (count :: columns ++ eof1 :: numbered ++ [eof2])

/-- The answer to `show master status`, when the client asks for the end of the log: one row with the file name, the position and
further cells. Nothing when the client does not ask. -/
inductive StatusAnswer : Option (RStr × Nat) → List (Bytes × Nat) → Prop
  | notAsked : StatusAnswer none []
  | row {file text : RStr} {position : Nat} {more : List RStr} {row : Bytes} {packets : List (Bytes × Nat)} :
      TextRow ((file :: text :: more).map some) row → Decimal position text → position < 2 ^ 32 →
      (utf8Bytes file).length < 2 ^ 20 → IsResultSet [row] packets → StatusAnswer (some (file, position)) packets

/-- The value of `@@global.binlog_checksum`. -/
def ChecksumName : ChecksumType → RStr → Prop
  | .none, name => name = "NONE".toList
  | .crc32, name => name = "CRC32".toList

/-- What the server sends between the log-in and the event stream: the answer about the end of the log, OK for the heartbeat period,
OK for the checksum setting, its value, and `oks` further OK packets. -/
inductive Answers (asked : Option (RStr × Nat)) (checksum : ChecksumType) (oks : Nat) : List (Bytes × Nat) → Prop
  | mk {status result final : List (Bytes × Nat)} {heartbeat setting : Bytes × Nat} {name : RStr} {row : Bytes} :
      StatusAnswer asked status → IsOk heartbeat.1 → heartbeat.2 < 2 ^ 8 → IsOk setting.1 → setting.2 < 2 ^ 8 →
      ChecksumName checksum name → TextRow [some name] row → IsResultSet [row] result →
      final.length = oks → (∀ p ∈ final, IsOk p.1 ∧ p.2 < 2 ^ 8) →
      Answers asked checksum oks (status ++ heartbeat :: setting :: result ++ final)

end MysqlCdc.Spec
