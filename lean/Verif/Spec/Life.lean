import Verif.Spec.Recorded
/-!
# What an application does with one client, over any number of sessions
-/

namespace MysqlCdc.Spec

/-- What an application does with a client: commit an event, or call `replicate`, which succeeds or not. -/
inductive Act where
  | commit (e : Ev)
  | attempt (succeeded : Bool)

/-- The events an application commits. -/
def committed (acts : List Act) : List Ev :=
  acts.filterMap fun
    | .commit e => some e
    | .attempt _ => none

/-- The committed events are cut into those of past sessions and those since. Every call of `replicate` that succeeds begins a session.
One that fails may do so or not. -/
inductive Cuts : List Act → List (List Ev) → List Ev → Prop
  | nil : Cuts [] [] []
  | commit {acts : List Act} {past : List (List Ev)} {es : List Ev} (e : Ev) (h : Cuts acts past es) :
      Cuts (acts ++ [.commit e]) past (es ++ [e])
  | failed {acts : List Act} {past : List (List Ev)} {es : List Ev} (h : Cuts acts past es) : Cuts (acts ++ [.attempt false]) past es
  | session {acts : List Act} {past : List (List Ev)} {es : List Ev} (succeeded : Bool) (h : Cuts acts past es) :
      Cuts (acts ++ [.attempt succeeded]) (past ++ [es]) []

/-- The transaction `g` was finished in one of the sessions, and none of its domain was finished later. -/
def RecordedLastOf (sessions : List (List Ev)) (g : MGtid) : Prop :=
  ∃ before es later, sessions = before ++ es :: later ∧ RecordedLast es g ∧
    ∀ es' ∈ later, ∀ g', Recorded mariaGtidOf es' g' → g'.domainId ≠ g.domainId

end MysqlCdc.Spec
