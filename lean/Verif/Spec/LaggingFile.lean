import Verif.Spec.Keyed
import Verif.Spec.Log
/-!
# What each event of a log says of rows
-/

namespace MysqlCdc.Spec

/-- The names of the tables' numbers after events. -/
def namesAfter (names : Nat → Option TableName) : List Ev → Nat → Option TableName
  | [] => names
  | (_, .tableMap t) :: es => namesAfter (fun id => if id = t.tableId then some (t.databaseName, t.tableName) else names id) es
  | _ :: es => namesAfter names es

/-- What each of the events says of rows; table maps are left out. -/
def changesEach (names : Nat → Option TableName) : List Ev → List (List (TableName × RowChange))
  | [] => []
  | (_, .tableMap t) :: es => changesEach (fun id => if id = t.tableId then some (t.databaseName, t.tableName) else names id) es
  | e :: es => changesOf names [e] :: changesEach names es

end MysqlCdc.Spec
