import Verif.Spec.Events
/-!
# GTID lists of MariaDB, as the server writes them
-/

namespace MysqlCdc.Spec

/-- GTID_LIST_EVENT as MariaDB writes it: the number of GTIDs in the lower 28 bits of a word, flags in the upper four (`FLAG_UNTIL_REACHED`,
`FLAG_IGN_GTIDS`), then domain, server id and sequence of each. -/
inductive FlaggedList : (flags : Nat) → (gtids : List MGtid) → Bytes → Prop where
  | mk {flags : Nat} {gtids : List MGtid} (h1 : flags < 2 ^ 4) (h2 : gtids.length < 2 ^ 28)
      (h3 : ∀ g ∈ gtids, g.domainId < 2 ^ 32 ∧ g.serverId < 2 ^ 32 ∧ g.sequence < 2 ^ 64) :
      FlaggedList flags gtids
        (le 4 (gtids.length + flags * 2 ^ 28) ++ gtids.flatMap fun g => le 4 g.domainId ++ le 4 g.serverId ++ le 8 g.sequence)

end MysqlCdc.Spec
