import Verif.Spec.Dialogue
import Verif.Spec.Frames
import Verif.Spec.Packets
/-!
# What a MariaDB is told, and what it sends then
-/

namespace MysqlCdc.Spec

/-- The statement that tells the server which GTIDs the client has. -/
def TellsState (gs : List MGtid) (p : Bytes) : Prop :=
  QueryPacket ("SET @slave_connect_state='".toList ++ [','].intercalate (gs.map gtidNumeral) ++ "'".toList) p

/-- The last such statement the client sent lists `gs`. -/
def ToldState (t : List Packet) (gs : List MGtid) : Prop :=
  ∃ front p back, sentOf t = front ++ p :: back ∧ TellsState gs p.1 ∧ ∀ q ∈ back, ∀ gs', ¬TellsState gs' q.1

/-- Of its log, the server sends the transactions for which it finds no listed GTID of their domain, neither their own nor a later one. -/
def toSend (listed log : List MGtid) : List MGtid :=
  log.filter fun g => ¬∃ g' ∈ listed, g' ∈ log ∧ g'.domainId = g.domainId ∧ log.idxOf g ≤ log.idxOf g'

end MysqlCdc.Spec
