import Verif.Spec.Packets
import Verif.Model.Session
/-!
# Setting up replication, seen from the packets
-/

namespace MysqlCdc.Spec

/-- Every packet sent answers the packet received just before, with the next sequence number (one byte). -/
def Replies (t : List Packet) : Prop :=
  ∀ pre k p post, t = pre ++ Packet.sent k p :: post →
    ∃ before n q, pre = before ++ [Packet.received n q] ∧ k = (n + 1) % 256

/-- The last request was followed by packets only of which the first is the answer and none of the others is an EOF: in a result
set, this is where column definitions stand. -/
def InColumns (t : List Packet) : Prop :=
  ∃ (before : List Packet) (n : Nat) (request : Bytes) (first : Nat × Bytes) (rest : List (Nat × Bytes)),
    t = before ++ .sent n request :: (first :: rest).map (fun x => .received x.1 x.2) ∧ ∀ x ∈ rest, x.2.head? ≠ some 0xFE

/-- The version text names MariaDB. -/
def IsMariaDb (version : RStr) : Prop := ∃ a b, version = a ++ "MariaDB".toList ++ b

/-- COM_BINLOG_DUMP and COM_BINLOG_DUMP_GTID. -/
def IsDump (packet : Bytes) : Prop := packet.head? = some 18 ∨ packet.head? = some 30

end MysqlCdc.Spec
