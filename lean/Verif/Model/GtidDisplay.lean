import Verif.Model.MysqlGtid
/-!
# Printing one GTID (src/providers/mysql/gtid/gtid.rs)
-/

namespace MysqlCdc

/-- `Display for Uuid`, src/providers/mysql/gtid/uuid.rs:34-39 -/
def Uuid.display (u : Uuid) : RStr := u.uuid

/-- `Display for Gtid`, src/providers/mysql/gtid/gtid.rs:23-28 -/
def Gtid.display (g : Gtid) : RStr := g.sourceId.display ++ ':' :: showNat g.transactionId

end MysqlCdc
