import Verif.Model.Strings
/-!
# MariaDB GTID lists (src/providers/mariadb/gtid)
-/

namespace MysqlCdc

/-- `Gtid`, src/providers/mariadb/gtid/gtid.rs:5-14 -/
structure MGtid where
  domainId : Nat
  serverId : Nat
  sequence : Nat
  deriving DecidableEq, Repr

/-- `GtidList`, src/providers/mariadb/gtid/gtid_list.rs:8-11 -/
structure GtidList where
  gtids : List MGtid
  deriving DecidableEq, Repr

/-- `Display for Gtid`, src/providers/mariadb/gtid/gtid.rs:28-30 -/
def MGtid.display (g : MGtid) : RStr :=
  showNat g.domainId ++ '-' :: (showNat g.serverId ++ '-' :: showNat g.sequence)

/-- `GtidList::new`, src/providers/mariadb/gtid/gtid_list.rs:14-16 -/
def GtidList.new : GtidList := { gtids := [] }

/-- The body of the loop without the uniqueness check, src/providers/mariadb/gtid/gtid_list.rs:31-34. `components[i]` panics when
there are too few components. -/
def parseMGtid (gtid : RStr) : Res MGtid := do
  let components := splitOn '-' gtid
  match components with
  | [] => .panic
  | c0 :: cs =>
    let domainId ← parseUnsigned 32 c0
    match cs with
    | [] => .panic
    | c1 :: cs =>
      let serverId ← parseUnsigned 32 c1
      match cs with
      | [] => .panic
      | c2 :: _ =>
        let sequence ← parseUnsigned 64 c2
        return { domainId, serverId, sequence }

/-- `for gtid in gtid_list { .. }`, src/providers/mariadb/gtid/gtid_list.rs:30-45; `domains` is `domain_map`. -/
def parseMGtids : List RStr → List Nat → Res (List MGtid)
  | [], _ => return []
  | s :: rest, domains => do
    let g ← parseMGtid s
    if domains.contains g.domainId then .err (.str "GtidList must consist of unique domain ids")
    else
      let gs ← parseMGtids rest (g.domainId :: domains)
      return g :: gs

/-- `GtidList::parse`, src/providers/mariadb/gtid/gtid_list.rs:19-48 -/
def GtidList.parse (value : RStr) : Res GtidList := do
  if value.isEmpty then return GtidList.new
  else
    let value := removeChar '\n' value
    let gtidList := (splitOn ',' value).map trim
    let gtids ← parseMGtids gtidList []
    return { gtids }

/-- The loop of `add_gtid`, src/providers/mariadb/gtid/gtid_list.rs:52-59 -/
def addMGtid (g : MGtid) : List MGtid → Bool × List MGtid
  | [] => (true, [g])
  | x :: xs =>
    if x.domainId = g.domainId then (false, g :: xs)
    else
      let (b, ys) := addMGtid g xs
      (b, x :: ys)

/-- `GtidList::add_gtid`, src/providers/mariadb/gtid/gtid_list.rs:51-60 -/
def GtidList.addGtid (l : GtidList) (g : MGtid) : Bool × GtidList :=
  let (b, gs) := addMGtid g l.gtids
  (b, { gtids := gs })

/-- `Display for GtidList`, src/providers/mariadb/gtid/gtid_list.rs:65-74 -/
def GtidList.display (l : GtidList) : RStr := joinWith ',' (l.gtids.map MGtid.display)

end MysqlCdc
