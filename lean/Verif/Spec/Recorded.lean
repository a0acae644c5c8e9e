import Verif.Spec.Stream
/-!
# When the client takes a transaction for finished

For any sequence of events, also ones no server would write.
-/

namespace MysqlCdc.Spec

/-- After these events a BEGIN is open: no XID, COMMIT or ROLLBACK has come since. -/
def InTransaction (pre : List Ev) : Prop := ∃ a e b, pre = a ++ e :: b ∧ Begins e.2 ∧ ∀ x ∈ b, ¬ Ends x.2

/-- After the events `pre` the event `e` closes a transaction: it is XID, COMMIT or ROLLBACK, or another statement outside of
BEGIN and its end. -/
def Closes (pre : List Ev) (e : Ev) : Prop := Ends e.2 ∨ (AutoCommits e.2 ∧ ¬ InTransaction pre)

/-- The GTID of a MySQL GTID event. -/
def mysqlGtidOf : BinlogEvent → Option Gtid
  | .mySqlGtid x => some x.gtid
  | _ => none

/-- The GTID of a MariaDB GTID event. -/
def mariaGtidOf : BinlogEvent → Option MGtid
  | .mariaDbGtid x => some x.gtid
  | _ => none

/-- The last GTID among the events `pre`. -/
def Latest {γ : Type} (of : BinlogEvent → Option γ) (pre : List Ev) (g : γ) : Prop :=
  ∃ a e b, pre = a ++ e :: b ∧ of e.2 = some g ∧ ∀ x ∈ b, of x.2 = none

/-- After the events `pre` the event `e` finishes the transaction `g`. -/
def RecordedAt {γ : Type} (of : BinlogEvent → Option γ) (pre : List Ev) (e : Ev) (g : γ) : Prop := Closes pre e ∧ Latest of pre g

/-- One of the events finishes the transaction `g`. -/
def Recorded {γ : Type} (of : BinlogEvent → Option γ) (es : List Ev) (g : γ) : Prop :=
  ∃ pre e post, es = pre ++ e :: post ∧ RecordedAt of pre e g

/-- One of the events finishes the transaction `g` and no later one finishes a transaction of the same domain. -/
def RecordedLast (es : List Ev) (g : MGtid) : Prop :=
  ∃ pre e post, es = pre ++ e :: post ∧ RecordedAt mariaGtidOf pre e g ∧
    ∀ mid e' post' g', es = pre ++ e :: mid ++ e' :: post' → RecordedAt mariaGtidOf (pre ++ e :: mid) e' g' →
      g'.domainId ≠ g.domainId

end MysqlCdc.Spec
