import Verif.Spec.Wire
import Verif.Model.Channel
/-!
# Packets on the wire

MySQL internals manual, "MySQL Packets": three bytes of payload length, one byte of sequence number, payload.
-/

namespace MysqlCdc.Spec

/-- One packet as it travels. -/
def frame (payload : Bytes) (seq : Nat) : Bytes := le 3 payload.length ++ le 1 seq ++ payload

/-- Packets one after the other. -/
def frames : List (Bytes × Nat) → Bytes
  | [] => []
  | p :: ps => frame p.1 p.2 ++ frames ps

/-- The length fits the three bytes, the sequence number the one byte. -/
def Framable (p : Bytes × Nat) : Prop := p.1.length < 2 ^ 24 ∧ p.2 < 2 ^ 8

/-- A payload of 2^24 - 1 bytes or more travels in several packets: full ones of 2^24 - 1 bytes, and a last one that is shorter
(MySQL internals manual, "Sending More Than 16Mb"). -/
def physical (p : Bytes) (seq : Nat) : List (Bytes × Nat) :=
  if _h : p.length < 2 ^ 24 - 1 then [(p, seq % 256)]
  else (p.take (2 ^ 24 - 1), seq % 256) :: physical (p.drop (2 ^ 24 - 1)) (seq + 1)
  termination_by p.length
  decreasing_by simp only [List.length_drop]; omega

/-- The packets of a trace that were sent. -/
def sentOf : List Packet → List (Bytes × Nat)
  | [] => []
  | .sent n p :: t => (p, n) :: sentOf t
  | .received _ _ :: t => sentOf t

/-- The packets of a trace that were received. -/
def receivedOf : List Packet → List (Bytes × Nat)
  | [] => []
  | .sent _ _ :: t => receivedOf t
  | .received n p :: t => (p, n) :: receivedOf t

end MysqlCdc.Spec
