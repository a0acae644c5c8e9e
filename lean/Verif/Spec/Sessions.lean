import Verif.Spec.Dialogue
/-!
# Of which kind the server of a conversation is
-/

namespace MysqlCdc.Spec

/-- A conversation with a server of this kind: the first packet is its greeting, which tells. -/
def GreetedBy (t : List Packet) (maria : Bool) : Prop :=
  ∃ n q g rest, t = .received n q :: rest ∧ LooseGreeting g q ∧ (maria = true ↔ IsMariaDb g.serverVersion)

end MysqlCdc.Spec
