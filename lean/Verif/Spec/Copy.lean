import Verif.Spec.Stream
/-!
# A copy of the server's data, kept from the events

The application takes the events of a transaction together: it applies them to its copy when the last of them has come. What is left over at
the end of a session it forgets.
-/

namespace MysqlCdc.Spec

/-- A transaction of the server: its GTID and its events. -/
abbrev Tx (γ : Type) := γ × List Ev

def Part.txs {γ : Type} : Part γ → List (Tx γ)
  | .tx g es => [(g, es)]
  | .noise _ => []

/-- What the application has got of the present transaction. -/
inductive Pending where
  /-- Between transactions. -/
  | idle
  /-- Behind the GTID; with a MariaDB, behind one that says that a single statement follows. -/
  | opened (events : List Ev)
  /-- Behind BEGIN; a MariaDB leaves it out. -/
  | begun (events : List Ev)

/-- The application's reading of the next event, and the transaction it completes. The lowest bit of the flags of a MariaDB says that
the transaction is a single statement. -/
def Pending.next (p : Pending) (e : Ev) : Option (List Ev) × Pending :=
  match p, e.2 with
  | _, .mySqlGtid _ => (none, .opened [e])
  | _, .mariaDbGtid x => if x.flags % 2 = 1 then (none, .opened [e]) else (none, .begun [e])
  | .idle, _ => (none, .idle)
  | .opened es, .xid _ => (some (es ++ [e]), .idle)
  | .begun es, .xid _ => (some (es ++ [e]), .idle)
  | .opened es, .query q =>
    if q.sqlStatement = [] then (none, .opened (es ++ [e]))
    else if q.sqlStatement = "BEGIN".toList then (none, .begun (es ++ [e]))
    else (some (es ++ [e]), .idle)
  | .begun es, .query q =>
    if q.sqlStatement = "COMMIT".toList ∨ q.sqlStatement = "ROLLBACK".toList then (some (es ++ [e]), .idle)
    else (none, .begun (es ++ [e]))
  | .opened es, _ => (none, .opened (es ++ [e]))
  | .begun es, _ => (none, .begun (es ++ [e]))

/-- The transactions that events complete, each with its events. -/
def wholeFrom : Pending → List Ev → List (List Ev)
  | _, [] => []
  | p, e :: es => (p.next e).1.toList ++ wholeFrom (p.next e).2 es

/-- The transactions that the events of a session complete. -/
def whole (taken : List Ev) : List (List Ev) := wholeFrom .idle taken

/-- The data after transactions, when a transaction does `apply` to it. -/
def dataAfter {σ : Type} (apply : σ → List Ev → σ) (data : σ) {γ : Type} (txs : List (Tx γ)) : σ := txs.foldl (fun d t => apply d t.2) data

/-- A transaction of a MariaDB whose flags say whether it is a single statement. -/
inductive FlaggedTx (g : MGtid) : List Ev → Prop where
  | block {h0 he : EventHeader} {x : MariaGtidEvent} {e : BinlogEvent} {body : List Ev} (hx : x.gtid = g) (hf : x.flags % 2 = 0)
      (hi : ∀ p ∈ body, Inside p.2) (hend : Ends e) : FlaggedTx g ((h0, .mariaDbGtid x) :: body ++ [(he, e)])
  | auto {h0 he : EventHeader} {x : MariaGtidEvent} {e : BinlogEvent} {mid : List Ev} (hx : x.gtid = g) (hf : x.flags % 2 = 1)
      (hm : ∀ p ∈ mid, Neutral p.2) (hauto : AutoCommits e) : FlaggedTx g ((h0, .mariaDbGtid x) :: mid ++ [(he, e)])

end MysqlCdc.Spec
