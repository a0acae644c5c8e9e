import Mathlib.Data.List.Induction
import Verif.Spec.Recorded
import Verif.Props.Client
/-!
# C79: what is recorded, for every sequence of events
-/

namespace MysqlCdc
open Spec

/-! ## One more event -/

theorem split_snoc {α : Type} {es : List α} {x : α} {a : List α} {e : α} {b : List α} (h : es ++ [x] = a ++ e :: b) :
    (b = [] ∧ e = x ∧ a = es) ∨ ∃ b', b = b' ++ [x] ∧ es = a ++ e :: b' := by
  rcases List.eq_nil_or_concat b with rfl | ⟨b', y, rfl⟩
  · obtain ⟨h1, h2⟩ := List.append_inj' h rfl
    simp only [List.cons.injEq, and_true] at h2
    exact .inl ⟨rfl, h2.symm, h1.symm⟩
  · rw [List.concat_eq_append, ← List.cons_append, ← List.append_assoc] at h
    obtain ⟨h1, h2⟩ := List.append_inj' h rfl
    simp only [List.cons.injEq, and_true] at h2
    exact .inr ⟨b', by rw [h2, List.concat_eq_append], h1⟩

theorem inTransaction_snoc (es : List Ev) (x : Ev) :
    InTransaction (es ++ [x]) ↔ Begins x.2 ∨ (InTransaction es ∧ ¬ Ends x.2) := by
  constructor
  · rintro ⟨a, e, b, h, hb, hn⟩
    rcases split_snoc h with ⟨rfl, rfl, rfl⟩ | ⟨b', rfl, rfl⟩
    · exact .inl hb
    · exact .inr ⟨⟨a, e, b', rfl, hb, fun y hy => hn y (by simp [hy])⟩, hn x (by simp)⟩
  · rintro (h | ⟨⟨a, e, b, rfl, hb, hn⟩, hx⟩)
    · exact ⟨es, x, [], rfl, h, by simp⟩
    · refine ⟨a, e, b ++ [x], by simp, hb, fun y hy => ?_⟩
      rcases List.mem_append.1 hy with hy | hy
      · exact hn y hy
      · rw [List.mem_singleton.1 hy]; exact hx

theorem latest_snoc {γ : Type} (of : BinlogEvent → Option γ) (es : List Ev) (x : Ev) (g : γ) :
    Latest of (es ++ [x]) g ↔ of x.2 = some g ∨ (of x.2 = none ∧ Latest of es g) := by
  constructor
  · rintro ⟨a, e, b, h, hb, hn⟩
    rcases split_snoc h with ⟨rfl, rfl, rfl⟩ | ⟨b', rfl, rfl⟩
    · exact .inl hb
    · exact .inr ⟨hn x (by simp), a, e, b', rfl, hb, fun y hy => hn y (by simp [hy])⟩
  · rintro (h | ⟨hx, a, e, b, rfl, hb, hn⟩)
    · exact ⟨es, x, [], rfl, h, by simp⟩
    · refine ⟨a, e, b ++ [x], by simp, hb, fun y hy => ?_⟩
      rcases List.mem_append.1 hy with hy | hy
      · exact hn y hy
      · rw [List.mem_singleton.1 hy]; exact hx

theorem recorded_snoc {γ : Type} (of : BinlogEvent → Option γ) (es : List Ev) (x : Ev) (g : γ) :
    Recorded of (es ++ [x]) g ↔ Recorded of es g ∨ RecordedAt of es x g := by
  constructor
  · rintro ⟨a, e, b, h, hr⟩
    rcases split_snoc h with ⟨rfl, rfl, rfl⟩ | ⟨b', rfl, rfl⟩
    · exact .inr hr
    · exact .inl ⟨a, e, b', rfl, hr⟩
  · rintro (⟨a, e, b, rfl, hr⟩ | h)
    · exact ⟨a, e, b ++ [x], by simp, hr⟩
    · exact ⟨es, x, [], rfl, h⟩

theorem recordedLast_snoc (es : List Ev) (x : Ev) (g : MGtid) : RecordedLast (es ++ [x]) g ↔
    RecordedAt mariaGtidOf es x g ∨ (RecordedLast es g ∧ ∀ g', RecordedAt mariaGtidOf es x g' → g'.domainId ≠ g.domainId) := by
  constructor
  · rintro ⟨a, e, b, h, hr, hl⟩
    rcases split_snoc h with ⟨rfl, rfl, rfl⟩ | ⟨b', rfl, rfl⟩
    · exact .inl hr
    · refine .inr ⟨⟨a, e, b', rfl, hr, fun mid e' post' g' hh hr' => ?_⟩, fun g' hr' => ?_⟩
      · exact hl mid e' (post' ++ [x]) g' (by rw [hh]; simp) hr'
      · exact hl b' x [] g' (by simp) hr'
  · rintro (h | ⟨⟨a, e, b, rfl, hr, hl⟩, hx⟩)
    · refine ⟨es, x, [], rfl, h, fun mid e' post' g' hh => ?_⟩
      have := congrArg List.length hh
      simp at this
    · refine ⟨a, e, b ++ [x], by simp, hr, fun mid e' post' g' hh hr' => ?_⟩
      rcases split_snoc hh with ⟨rfl, rfl, he⟩ | ⟨p', rfl, he⟩
      · rw [he] at hr'; exact hx g' hr'
      · exact hl mid e' p' g' he hr'

/-! ## What an event is -/

/-- The kinds of events that matter. -/
inductive Kind (e : BinlogEvent) : Prop
  | mysql (x : MySqlGtidEvent) (h : e = .mySqlGtid x)
  | maria (x : MariaGtidEvent) (h : e = .mariaDbGtid x)
  | ends (h : Ends e) (hb : ¬ Begins e) (ha : ¬ AutoCommits e) (h1 : mysqlGtidOf e = none) (h2 : mariaGtidOf e = none)
  | begins (h : Begins e) (he : ¬ Ends e) (ha : ¬ AutoCommits e) (h1 : mysqlGtidOf e = none) (h2 : mariaGtidOf e = none)
  | auto (h : AutoCommits e) (he : ¬ Ends e) (hb : ¬ Begins e) (h1 : mysqlGtidOf e = none) (h2 : mariaGtidOf e = none)
  | neutral (h : Neutral e) (he : ¬ Ends e) (hb : ¬ Begins e) (ha : ¬ AutoCommits e) (h1 : mysqlGtidOf e = none)
      (h2 : mariaGtidOf e = none)

theorem kind_of (e : BinlogEvent) : Kind e := by
  cases e with
  | mySqlGtid x => exact .mysql x rfl
  | mariaDbGtid x => exact .maria x rfl
  | xid x => exact .ends trivial id id rfl rfl
  | query q =>
    by_cases h0 : q.sqlStatement = []
    · refine .neutral h0 ?_ ?_ ?_ rfl rfl <;> simp only [Ends, Begins, AutoCommits, h0] <;> decide
    · by_cases hb : q.sqlStatement = "BEGIN".toList
      · refine .begins hb ?_ ?_ rfl rfl <;> simp only [Ends, AutoCommits, hb] <;> decide
      · by_cases he : q.sqlStatement = "COMMIT".toList ∨ q.sqlStatement = "ROLLBACK".toList
        · refine .ends he hb ?_ rfl rfl
          rintro ⟨-, -, h1, h2⟩
          exact he.elim h1 h2
        · exact .auto ⟨h0, hb, fun h => he (.inl h), fun h => he (.inr h)⟩ he hb rfl rfl
  | _ => exact .neutral trivial id id id rfl rfl

/-! ## MySQL -/

theorem Mv.maria {c : Client} {tr : Bool} {last : Option Gtid} {set : GtidSet} (hc : Mv c tr last set) (m : Mode)
    (h : EventHeader) (x : MariaGtidEvent) : ∃ c', c.commit m h (.mariaDbGtid x) = .ok c' ∧ Mv c' tr last set := by
  refine ⟨_, commit_eq m c h _ (c1 := { c with mariaGtid := some x.gtid }) ?_, Mv.position ?_ h _⟩
  · unfold Client.updateGtidPosition
    rw [if_neg (by simp [hc.strategy])]
  · exact ⟨hc.strategy, hc.transaction, hc.last, hc.set⟩

/-- Closing a transaction without GTID changes nothing. -/
theorem Mv.closesNone {c : Client} {tr : Bool} {set : GtidSet} (hc : Mv c tr none set) (m : Mode)
    (h : EventHeader) {e : BinlogEvent} (he : Ends e ∨ (AutoCommits e ∧ tr = false)) :
    ∃ c', c.commit m h e = .ok c' ∧ Mv c' false none set := by
  obtain ⟨c1, h1, h2⟩ : ∃ c1, c.commitGtid m = .ok c1 ∧ Mv c1 false none set := by
    refine ⟨{ c with
        transaction := false
        options := { c.options with binlog := { c.options.binlog with
          gtidList := commitMaria c.mariaGtid c.options.binlog.gtidList, gtidSet := some set } } }, ?_, ?_⟩
    · simp [Client.commitGtid, commitMysql, hc.last, hc.set]
    · exact ⟨hc.strategy, rfl, hc.last, rfl⟩
  refine ⟨_, commit_eq m c h _ (c1 := c1) ?_, h2.position h _⟩
  unfold Client.updateGtidPosition
  rw [if_neg (by simp [hc.strategy])]
  rcases he with he | ⟨he, ht⟩
  · cases e with
    | query q =>
      simp only [Ends] at he
      rcases he with he | he <;>
        simp only [he, begin_ne, Bool.false_eq_true, if_false, true_or, or_true, if_true, h1]
    | xid x => exact h1
    | _ => exact he.elim
  · cases e with
    | query q =>
      simp only [AutoCommits] at he
      simp only [List.isEmpty_iff, he.1, he.2.1, he.2.2.1, he.2.2.2, or_self, if_false, hc.transaction, ht, Bool.not_false,
        if_true, h1]
    | _ => exact he.elim

/-- C79, MySQL. Whatever events are committed after `replicate`, in whatever order, the recorded set stands for the initial
transactions and exactly the transactions some event finished: an XID, COMMIT or ROLLBACK, or another statement that is not
between BEGIN and its end, finishes the transaction with the last GTID before it. -/
theorem C79_recorded_set (m : Mode) (c : Client) (set : GtidSet) (hc : FromSet c set) (hlast : c.mysqlGtid = none) (hw : Wf set)
    (ho : AllOrdered set) (es : List Ev) (hg : ∀ e ∈ es, ∀ g, mysqlGtidOf e.2 = some g → GtidOk g) :
    ∃ c' set', commitAll m c es = .ok c' ∧ c'.options.binlog.gtidSet = some set' ∧ Wf set' ∧ AllOrdered set' ∧
      ∀ u n, Has set' u n ↔ Has set u n ∨ ∃ g, Recorded mysqlGtidOf es g ∧ u = g.sourceId.data ∧ n = g.transactionId := by
  suffices H : ∃ c' tr last set', commitAll m c es = .ok c' ∧ Mv c' tr last set' ∧ (tr = true ↔ InTransaction es) ∧
      (∀ g, last = some g ↔ Latest mysqlGtidOf es g) ∧ Wf set' ∧ AllOrdered set' ∧
      ∀ u n, Has set' u n ↔ Has set u n ∨ ∃ g, Recorded mysqlGtidOf es g ∧ u = g.sourceId.data ∧ n = g.transactionId by
    obtain ⟨c', tr, last, set', h1, h2, -, -, h3, h4, h5⟩ := H
    exact ⟨c', set', h1, h2.set, h3, h4, h5⟩
  induction es using List.reverseRecOn with
  | nil =>
    refine ⟨c, false, none, set, rfl, ⟨hc.strategy, hc.idle, hlast, hc.set⟩, ?_, ?_, hw, ho, ?_⟩
    · constructor
      · intro h; cases h
      · rintro ⟨a, e, b, h, -⟩; simp at h
    · intro g
      constructor
      · intro h; cases h
      · rintro ⟨a, e, b, h, -⟩; simp at h
    · intro u n
      constructor
      · exact .inl
      · rintro (h | ⟨g, ⟨a, e, b, h, -⟩, -⟩)
        · exact h
        · simp at h
  | append_singleton es x ih =>
    obtain ⟨c1, tr, last, set1, h1, v1, htr, hl, w1, o1, hh⟩ := ih (fun e he => hg e (by simp [he]))
    have hrun : ∀ c2, c1.commit m x.1 x.2 = .ok c2 → commitAll m c (es ++ [x]) = .ok c2 := by
      intro c2 h2
      rw [commitAll_append, h1]
      simp [commitAll, h2]
    -- an event that closes nothing
    have keep : ∀ c2 tr' last', c1.commit m x.1 x.2 = .ok c2 → Mv c2 tr' last' set1 → ¬ Closes es x →
        (tr' = true ↔ InTransaction (es ++ [x])) → (∀ g, last' = some g ↔ Latest mysqlGtidOf (es ++ [x]) g) →
        ∃ c' tr last set', commitAll m c (es ++ [x]) = .ok c' ∧ Mv c' tr last set' ∧ (tr = true ↔ InTransaction (es ++ [x])) ∧
          (∀ g, last = some g ↔ Latest mysqlGtidOf (es ++ [x]) g) ∧ Wf set' ∧ AllOrdered set' ∧
          ∀ u n, Has set' u n ↔ Has set u n ∨
            ∃ g, Recorded mysqlGtidOf (es ++ [x]) g ∧ u = g.sourceId.data ∧ n = g.transactionId := by
      intro c2 tr' last' h2 v2 hcl t2 l2
      refine ⟨c2, tr', last', set1, hrun c2 h2, v2, t2, l2, w1, o1, fun u n => ?_⟩
      rw [hh]
      have : ∀ g, Recorded mysqlGtidOf (es ++ [x]) g ↔ Recorded mysqlGtidOf es g := fun g => by
        rw [recorded_snoc]
        exact ⟨fun h => h.elim id (fun h => absurd h.1 hcl), .inl⟩
      simp only [this]
    -- an event that closes
    have close : mysqlGtidOf x.2 = none → ¬ Begins x.2 → (Ends x.2 ∨ (AutoCommits x.2 ∧ tr = false)) → ¬ InTransaction (es ++ [x]) →
        ∃ c' tr last set', commitAll m c (es ++ [x]) = .ok c' ∧ Mv c' tr last set' ∧ (tr = true ↔ InTransaction (es ++ [x])) ∧
          (∀ g, last = some g ↔ Latest mysqlGtidOf (es ++ [x]) g) ∧ Wf set' ∧ AllOrdered set' ∧
          ∀ u n, Has set' u n ↔ Has set u n ∨
            ∃ g, Recorded mysqlGtidOf (es ++ [x]) g ∧ u = g.sourceId.data ∧ n = g.transactionId := by
      intro hno hnb hcl hnt
      have hcl' : Closes es x := by
        rcases hcl with h | ⟨h, ht⟩
        · exact .inl h
        · exact .inr ⟨h, fun h' => by rw [htr.2 h'] at ht; cases ht⟩
      have hl' : ∀ g, last = some g ↔ Latest mysqlGtidOf (es ++ [x]) g := fun g => by
        rw [hl, latest_snoc, hno]; simp
      cases hlast' : last with
      | none =>
        subst hlast'
        obtain ⟨c2, h2, v2⟩ := v1.closesNone m x.1 hcl
        refine ⟨c2, false, none, set1, hrun c2 h2, v2, by simpa using hnt, hl', w1, o1, fun u n => ?_⟩
        rw [hh]
        have : ∀ g, Recorded mysqlGtidOf (es ++ [x]) g ↔ Recorded mysqlGtidOf es g := fun g => by
          rw [recorded_snoc]
          refine ⟨fun h => h.elim id (fun h => ?_), .inl⟩
          exact nomatch (hl g).2 h.2
        simp only [this]
      | some g =>
        subst hlast'
        have hgo : GtidOk g := by
          obtain ⟨a, e, b, rfl, h2, -⟩ := (hl g).1 rfl
          exact hg e (by simp) g h2
        obtain ⟨b, set2, a2, w2, o2, f2⟩ := addGtid_has m set1 g w1 o1 hgo
        obtain ⟨c2, h2, v2⟩ : ∃ c2, c1.commit m x.1 x.2 = .ok c2 ∧ Mv c2 false (some g) set2 := by
          rcases hcl with h | ⟨h, ht⟩
          · exact v1.ends m x.1 h a2
          · subst ht; exact v1.auto m x.1 h a2
        refine ⟨c2, false, some g, set2, hrun c2 h2, v2, by simpa using hnt, hl', w2, o2, fun u n => ?_⟩
        rw [f2, hh]
        have : ∀ g', Recorded mysqlGtidOf (es ++ [x]) g' ↔ Recorded mysqlGtidOf es g' ∨ g' = g := fun g' => by
          rw [recorded_snoc]
          refine or_congr_right ⟨fun h => ?_, fun h => ⟨hcl', (hl g').1 (by rw [h])⟩⟩
          have := (hl g').2 h.2
          injection this with this
          exact this.symm
        simp only [this, or_assoc]
        refine or_congr_right ⟨?_, ?_⟩
        · rintro (⟨g', h, h'⟩ | h)
          · exact ⟨g', .inl h, h'⟩
          · exact ⟨g, .inr rfl, h⟩
        · rintro ⟨g', h | rfl, h'⟩
          · exact .inl ⟨g', h, h'⟩
          · exact .inr h'
    obtain ⟨xh, xe⟩ := x
    cases kind_of xe with
    | mysql y hy =>
      subst hy
      obtain ⟨c2, h2, v2⟩ := v1.gtid m xh y
      refine keep c2 _ _ h2 v2 (by rintro (h | ⟨h, -⟩) <;> exact h) ?_ fun g => ?_
      · rw [htr, inTransaction_snoc]; simp [Begins, Ends]
      · rw [latest_snoc]; simp [mysqlGtidOf]
    | maria y hy =>
      subst hy
      obtain ⟨c2, h2, v2⟩ := v1.maria m xh y
      refine keep c2 _ _ h2 v2 (by rintro (h | ⟨h, -⟩) <;> exact h) ?_ fun g => ?_
      · rw [htr, inTransaction_snoc]; simp [Begins, Ends]
      · rw [latest_snoc, hl]; simp [mysqlGtidOf]
    | ends h hb ha n1 n2 =>
      exact close n1 hb (.inl h) (by rw [inTransaction_snoc]; rintro (h' | ⟨-, h'⟩); exacts [hb h', h' h])
    | begins h he ha n1 n2 =>
      obtain ⟨c2, h2, v2⟩ := v1.begins m xh h
      refine keep c2 _ _ h2 v2 (by rintro (h' | ⟨h', -⟩); exacts [he h', ha h']) ?_ fun g => ?_
      · rw [inTransaction_snoc]; simp [h]
      · rw [latest_snoc, hl]; simp [n1]
    | auto h he hb n1 n2 =>
      by_cases ht : tr = true
      · have v1' := v1
        rw [ht] at v1'
        obtain ⟨c2, h2, v2⟩ := v1'.inside m xh (e := xe) ⟨by cases xe <;> first | exact id | exact h.elim, he⟩
        refine keep c2 _ _ h2 v2 (by rintro (h' | ⟨h', h''⟩); exacts [he h', h'' (htr.1 ht)]) ?_ fun g => ?_
        · rw [inTransaction_snoc]; simp [htr.1 ht, he]
        · rw [latest_snoc, hl]; simp [n1]
      · have ht' : tr = false := by simpa using ht
        exact close n1 hb (.inr ⟨h, ht'⟩) (by
          rw [inTransaction_snoc]; rintro (h' | ⟨h', -⟩); exacts [hb h', ht (htr.2 h')])
    | neutral h he hb ha n1 n2 =>
      obtain ⟨c2, h2, v2⟩ := v1.neutral m xh h
      refine keep c2 _ _ h2 v2 (by rintro (h' | ⟨h', -⟩); exacts [he h', ha h']) ?_ fun g => ?_
      · rw [htr, inTransaction_snoc]; simp [hb, he]
      · rw [latest_snoc, hl]; simp [n1]

/-- A stray COMMIT before any GTID, then GTID 5, a statement without BEGIN, another one, then BEGIN, GTID 8 inside it, a statement, and
COMMIT: 5 is recorded by the first statement, 8 by the COMMIT only. -/
def exStray : List Ev :=
  [(exHeader 10, exQuery "COMMIT"), (exHeader 20, exGtid 5), (exHeader 30, exQuery "CREATE"), (exHeader 40, exQuery "BEGIN"),
   (exHeader 50, exGtid 8), (exHeader 60, exQuery "INSERT"), (exHeader 70, exQuery "COMMIT")]

theorem exStray_gtids : ∀ e ∈ exStray, ∀ g, mysqlGtidOf e.2 = some g → GtidOk g := by
  intro e he g hg
  simp only [exStray, List.mem_cons, List.not_mem_nil, or_false] at he
  rcases he with rfl | rfl | rfl | rfl | rfl | rfl | rfl <;> simp [mysqlGtidOf, exQuery, exGtid] at hg <;> subst hg <;>
    exact ⟨UuidCanon_ok exUuid_canon, by decide⟩

example : FromSet exClient exSet ∧ exClient.mysqlGtid = none ∧ Recorded mysqlGtidOf exStray ⟨exUuid, 5⟩ ∧
    Recorded mysqlGtidOf exStray ⟨exUuid, 8⟩ ∧ ¬ Recorded mysqlGtidOf (exStray.take 6) ⟨exUuid, 8⟩ := by
  refine ⟨⟨rfl, rfl, rfl⟩, rfl, ?_, ?_, ?_⟩
  · refine ⟨exStray.take 2, exStray[2], exStray.drop 3, rfl, .inr ⟨?_, ?_⟩, ?_⟩
    · simp [exStray, AutoCommits, exQuery]
    · rintro ⟨a, e, b, h, hb, -⟩
      have : e ∈ exStray.take 2 := by rw [h]; simp
      simp only [exStray, List.take_succ_cons, List.take_zero, List.mem_cons, List.not_mem_nil, or_false] at this
      rcases this with rfl | rfl
      · exact absurd hb (by simp [Begins, exQuery])
      · exact hb
    · exact ⟨[_], _, [], rfl, rfl, by simp⟩
  · refine ⟨exStray.take 6, exStray[6], [], rfl, .inl ?_, ?_⟩
    · simp [exStray, Ends, exQuery]
    · exact ⟨exStray.take 4, _, [_], rfl, rfl, by simp [exQuery, mysqlGtidOf]⟩
  · rintro ⟨pre, e, post, h, hc, a, x, b, ha, hx, -⟩
    -- the GTID is the fifth event, so the closing event is the sixth
    subst ha
    have hlen := congrArg List.length h
    simp [exStray] at hlen
    match a with
    | [] => simp [exStray] at h; obtain ⟨rfl, -⟩ := h; simp [mysqlGtidOf, exQuery] at hx
    | [_] => simp [exStray] at h; obtain ⟨-, rfl, -⟩ := h; simp [mysqlGtidOf, exGtid] at hx
    | [_, _] => simp [exStray] at h; obtain ⟨-, -, rfl, -⟩ := h; simp [mysqlGtidOf, exQuery] at hx
    | [_, _, _] => simp [exStray] at h; obtain ⟨-, -, -, rfl, -⟩ := h; simp [mysqlGtidOf, exQuery] at hx
    | [a1, a2, a3, a4] =>
      simp only [exStray, List.take_succ_cons, List.take_zero, List.cons_append, List.nil_append, List.cons.injEq] at h
      obtain ⟨rfl, rfl, rfl, rfl, rfl, h⟩ := h
      match b with
      | [] =>
        simp only [List.nil_append, List.cons.injEq] at h
        obtain ⟨rfl, -⟩ := h
        rcases hc with hc | ⟨-, hc⟩
        · simp [Ends, exQuery] at hc
        · exact hc ⟨[_, _, _], _, [_], rfl, rfl, by simp [Ends, exGtid]⟩
      | _ :: _ => simp at h
    | [a1, a2, a3, a4, a5] => simp at hlen; omega
    | _ :: _ :: _ :: _ :: _ :: _ :: _ => simp at hlen; omega

/-- C79. The first phase of a distributed transaction is recorded from its second event on, the statement `XA START`: with C67, that
is exactly how far too early. -/
theorem C79_xa_recorded_from_start (g : Gtid) (es : List Ev) (hx : MysqlXa g es) (k : Nat) :
    Recorded mysqlGtidOf (es.take k) g ↔ 2 ≤ k := by
  cases hx with
  | @phase h0 hs he hp x s e body hx hstart hi hend =>
    constructor
    · rintro ⟨pre, y, post, h, -, a, z, b, rfl, -⟩
      have := congrArg List.length h
      simp at this
      omega
    · intro hk
      obtain ⟨j, rfl⟩ : ∃ j, k = j + 2 := ⟨k - 2, by omega⟩
      subst hx
      refine ⟨[(h0, .mySqlGtid x)], (hs, s), (body ++ [(he, e), (hp, .unknown)]).take j, rfl, .inr ⟨?_, ?_⟩, ?_⟩
      · exact autoCommits_of_statement (.inl rfl) hstart
      · rintro ⟨a, y, b, h, hb, -⟩
        have : y ∈ [(h0, BinlogEvent.mySqlGtid x)] := by rw [h]; simp
        rw [List.mem_singleton.1 this] at hb
        exact hb
      · exact ⟨[], _, [], rfl, rfl, by simp⟩

/-! ## MariaDB -/

theorem Mw.mysql {c : Client} {last : Option MGtid} {list : GtidList} (hc : Mw c last list) (m : Mode) (h : EventHeader)
    (x : MySqlGtidEvent) : ∃ c', c.commit m h (.mySqlGtid x) = .ok c' ∧ c'.transaction = c.transaction ∧ Mw c' last list := by
  refine ⟨_, commit_eq m c h _ (c1 := { c with mysqlGtid := some x.gtid }) ?_, ?_, Mw.position ?_ h _⟩
  · unfold Client.updateGtidPosition
    rw [if_neg (by simp [hc.strategy])]
  · rw [(updateBinlogPosition_frame _ h _).2.2.1]
  · exact ⟨hc.strategy, hc.last, hc.list, hc.set⟩

theorem Mw.begins {c : Client} {last : Option MGtid} {list : GtidList} (hc : Mw c last list) (m : Mode)
    (h : EventHeader) {e : BinlogEvent} (he : Begins e) :
    ∃ c', c.commit m h e = .ok c' ∧ c'.transaction = true ∧ Mw c' last list := by
  refine ⟨_, commit_eq m c h _ (c1 := { c with transaction := true }) ?_, ?_, Mw.position ?_ h _⟩
  · unfold Client.updateGtidPosition
    rw [if_neg (by simp [hc.strategy])]
    cases e with
    | query q =>
      simp only [Begins] at he
      simp only [he, begin_ne.2.2.1, Bool.false_eq_true, if_false, if_true]
    | _ => exact he.elim
  · rw [(updateBinlogPosition_frame _ h _).2.2.1]
  · exact ⟨hc.strategy, hc.last, hc.list, hc.set⟩

/-- Inside BEGIN and its end nothing happens. -/
theorem Mw.inside {c : Client} {last : Option MGtid} {list : GtidList} (hc : Mw c last list) (ht : c.transaction = true) (m : Mode)
    (h : EventHeader) {e : BinlogEvent} (he : Inside e) :
    ∃ c', c.commit m h e = .ok c' ∧ c'.transaction = true ∧ Mw c' last list := by
  refine ⟨_, commit_eq m c h _ (c1 := c) ?_, by rw [(updateBinlogPosition_frame _ h _).2.2.1, ht], hc.position h _⟩
  unfold Client.updateGtidPosition
  rw [if_neg (by simp [hc.strategy])]
  cases e with
  | query q =>
    simp only [Inside, Ends, not_or] at he
    simp only [he.2.1, he.2.2, or_self, if_false, ht, Bool.not_true, Bool.false_eq_true]
    split
    · rfl
    · split
      · rw [← ht]
      · rfl
  | mySqlGtid x => exact absurd trivial he.1
  | mariaDbGtid x => exact absurd trivial he.1
  | xid x => exact absurd trivial he.2
  | _ => rfl

/-- A neutral event. -/
theorem Mw.neutral {c : Client} {last : Option MGtid} {list : GtidList} (hc : Mw c last list) (m : Mode)
    (h : EventHeader) {e : BinlogEvent} (he : Neutral e) :
    ∃ c', c.commit m h e = .ok c' ∧ c'.transaction = c.transaction ∧ Mw c' last list := by
  refine ⟨_, commit_eq m c h _ (c1 := c) ?_, by rw [(updateBinlogPosition_frame _ h _).2.2.1], hc.position h _⟩
  unfold Client.updateGtidPosition
  rw [if_neg (by simp [hc.strategy])]
  cases e <;> simp_all [Neutral]

/-- Closing a transaction without GTID changes nothing. -/
theorem Mw.closesNone {c : Client} {list : GtidList} (hc : Mw c none list) (m : Mode)
    (h : EventHeader) {e : BinlogEvent} (he : Ends e ∨ (AutoCommits e ∧ c.transaction = false)) :
    ∃ c', c.commit m h e = .ok c' ∧ c'.transaction = false ∧ Mw c' none list := by
  obtain ⟨c1, h1, h2, h3⟩ : ∃ c1, c.commitGtid m = .ok c1 ∧ c1.transaction = false ∧ Mw c1 none list := by
    refine ⟨{ c with
        transaction := false
        options := { c.options with binlog := { c.options.binlog with gtidList := some list, gtidSet := none } } }, ?_, rfl, ?_⟩
    · have : commitMysql m c.mysqlGtid none = .ok none := by unfold commitMysql; cases c.mysqlGtid <;> rfl
      simp [Client.commitGtid, commitMaria, hc.last, hc.set, hc.list, this]
    · exact ⟨hc.strategy, hc.last, rfl, rfl⟩
  refine ⟨_, commit_eq m c h _ (c1 := c1) ?_, by rw [(updateBinlogPosition_frame _ h _).2.2.1, h2], h3.position h _⟩
  unfold Client.updateGtidPosition
  rw [if_neg (by simp [hc.strategy])]
  rcases he with he | ⟨he, ht⟩
  · cases e with
    | query q =>
      simp only [Ends] at he
      rcases he with he | he <;>
        simp only [he, begin_ne, Bool.false_eq_true, if_false, true_or, or_true, if_true, h1]
    | xid x => exact h1
    | _ => exact he.elim
  · cases e with
    | query q =>
      simp only [AutoCommits] at he
      simp only [List.isEmpty_iff, he.1, he.2.1, he.2.2.1, he.2.2.2, or_self, if_false, ht, Bool.not_false, if_true, h1]
    | _ => exact he.elim

/-- C79, MariaDB. Whatever events are committed after `replicate`, in whatever order, the recorded list holds for each domain the
GTID of the transaction that was finished last, or what it held before: an XID, COMMIT or ROLLBACK, or another statement that is
not between BEGIN and its end, finishes the transaction with the last GTID before it. -/
theorem C79_recorded_list (m : Mode) (c : Client) (list : GtidList) (hc : FromList c list) (hlast : c.mariaGtid = none)
    (hd : (list.gtids.map (·.domainId)).Nodup) (es : List Ev) :
    ∃ c' list', commitAll m c es = .ok c' ∧ c'.options.binlog.gtidList = some list' ∧
      (list'.gtids.map (·.domainId)).Nodup ∧
      ∀ g, g ∈ list'.gtids ↔ RecordedLast es g ∨
        (g ∈ list.gtids ∧ ∀ g', Recorded mariaGtidOf es g' → g'.domainId ≠ g.domainId) := by
  suffices H : ∃ c' last list', commitAll m c es = .ok c' ∧ Mw c' last list' ∧ (c'.transaction = true ↔ InTransaction es) ∧
      (∀ g, last = some g ↔ Latest mariaGtidOf es g) ∧ (list'.gtids.map (·.domainId)).Nodup ∧
      ∀ g, g ∈ list'.gtids ↔ RecordedLast es g ∨
        (g ∈ list.gtids ∧ ∀ g', Recorded mariaGtidOf es g' → g'.domainId ≠ g.domainId) by
    obtain ⟨c', last, list', h1, h2, -, -, h3, h4⟩ := H
    exact ⟨c', list', h1, h2.list, h3, h4⟩
  induction es using List.reverseRecOn with
  | nil =>
    refine ⟨c, none, list, rfl, ⟨hc.strategy, hlast, hc.list, hc.noSet⟩, ?_, ?_, hd, ?_⟩
    · rw [hc.idle]
      constructor
      · intro h; cases h
      · rintro ⟨a, e, b, h, -⟩; simp at h
    · intro g
      constructor
      · intro h; cases h
      · rintro ⟨a, e, b, h, -⟩; simp at h
    · intro g
      constructor
      · intro h
        refine .inr ⟨h, ?_⟩
        rintro g' ⟨a, e, b, h, -⟩
        simp at h
      · rintro (⟨a, e, b, h, -⟩ | h)
        · simp at h
        · exact h.1
  | append_singleton es x ih =>
    obtain ⟨c1, last, list1, h1, v1, htr, hl, d1, hh⟩ := ih
    have hrun : ∀ c2, c1.commit m x.1 x.2 = .ok c2 → commitAll m c (es ++ [x]) = .ok c2 := by
      intro c2 h2
      rw [commitAll_append, h1]
      simp [commitAll, h2]
    -- an event that records nothing
    have same : (∀ g, ¬ RecordedAt mariaGtidOf es x g) → ∀ g, g ∈ list1.gtids ↔ RecordedLast (es ++ [x]) g ∨
        (g ∈ list.gtids ∧ ∀ g', Recorded mariaGtidOf (es ++ [x]) g' → g'.domainId ≠ g.domainId) := by
      intro hno g
      rw [hh, recordedLast_snoc]
      simp only [recorded_snoc, hno, or_false, false_or, false_imp_iff, implies_true, and_true]
    have keep : ∀ c2 last', c1.commit m x.1 x.2 = .ok c2 → Mw c2 last' list1 → (∀ g, ¬ RecordedAt mariaGtidOf es x g) →
        (c2.transaction = true ↔ InTransaction (es ++ [x])) → (∀ g, last' = some g ↔ Latest mariaGtidOf (es ++ [x]) g) →
        ∃ c' last list', commitAll m c (es ++ [x]) = .ok c' ∧ Mw c' last list' ∧
          (c'.transaction = true ↔ InTransaction (es ++ [x])) ∧
          (∀ g, last = some g ↔ Latest mariaGtidOf (es ++ [x]) g) ∧ (list'.gtids.map (·.domainId)).Nodup ∧
          ∀ g, g ∈ list'.gtids ↔ RecordedLast (es ++ [x]) g ∨
            (g ∈ list.gtids ∧ ∀ g', Recorded mariaGtidOf (es ++ [x]) g' → g'.domainId ≠ g.domainId) := by
      intro c2 last' h2 v2 hcl t2 l2
      exact ⟨c2, last', list1, hrun c2 h2, v2, t2, l2, d1, same hcl⟩
    -- an event that closes
    have close : mariaGtidOf x.2 = none → (Ends x.2 ∨ (AutoCommits x.2 ∧ c1.transaction = false)) → ¬ InTransaction (es ++ [x]) →
        ∃ c' last list', commitAll m c (es ++ [x]) = .ok c' ∧ Mw c' last list' ∧
          (c'.transaction = true ↔ InTransaction (es ++ [x])) ∧
          (∀ g, last = some g ↔ Latest mariaGtidOf (es ++ [x]) g) ∧ (list'.gtids.map (·.domainId)).Nodup ∧
          ∀ g, g ∈ list'.gtids ↔ RecordedLast (es ++ [x]) g ∨
            (g ∈ list.gtids ∧ ∀ g', Recorded mariaGtidOf (es ++ [x]) g' → g'.domainId ≠ g.domainId) := by
      intro hno hcl hnt
      have hcl' : Closes es x := by
        rcases hcl with h | ⟨h, ht⟩
        · exact .inl h
        · exact .inr ⟨h, fun h' => by rw [htr.2 h'] at ht; cases ht⟩
      have hl' : ∀ g, last = some g ↔ Latest mariaGtidOf (es ++ [x]) g := fun g => by
        rw [hl, latest_snoc, hno]; simp
      cases hlast' : last with
      | none =>
        subst hlast'
        obtain ⟨c2, h2, t2, v2⟩ := v1.closesNone m x.1 hcl
        exact ⟨c2, none, list1, hrun c2 h2, v2, by rw [t2]; simpa using hnt, hl', d1,
          same fun g hr => nomatch (hl g).2 hr.2⟩
      | some g =>
        subst hlast'
        obtain ⟨c2, h2, t2, v2⟩ : ∃ c2, c1.commit m x.1 x.2 = .ok c2 ∧ c2.transaction = false ∧
            Mw c2 (some g) (list1.addGtid g).2 := by
          rcases hcl with h | ⟨h, ht⟩
          · exact v1.ends m x.1 h
          · exact v1.auto ht m x.1 h
        refine ⟨c2, some g, _, hrun c2 h2, v2, by rw [t2]; simpa using hnt, hl', ?_, fun g' => ?_⟩
        · rw [addGtid_gtids]; exact addMGtid_nodup g _ d1
        · have hat : ∀ y, RecordedAt mariaGtidOf es x y ↔ y = g := fun y => by
            constructor
            · intro h
              have := (hl y).2 h.2
              injection this with this
              exact this.symm
            · rintro rfl; exact ⟨hcl', (hl y).1 rfl⟩
          rw [addGtid_gtids, addMGtid_mem g g' _ d1, hh, recordedLast_snoc]
          simp only [recorded_snoc, hat, forall_eq]
          constructor
          · rintro (rfl | ⟨hne, h | ⟨h, h'⟩⟩)
            · exact .inl (.inl rfl)
            · exact .inl (.inr ⟨h, fun h => hne h.symm⟩)
            · refine .inr ⟨h, ?_⟩
              rintro y (hy | rfl)
              · exact h' y hy
              · exact fun h => hne h.symm
          · rintro ((rfl | ⟨h, hne⟩) | ⟨h, h'⟩)
            · exact .inl rfl
            · exact .inr ⟨fun h => hne h.symm, .inl h⟩
            · exact .inr ⟨fun hh => h' g (.inr rfl) hh.symm, .inr ⟨h, fun y hy => h' y (.inl hy)⟩⟩
    obtain ⟨xh, xe⟩ := x
    cases kind_of xe with
    | mysql y hy =>
      subst hy
      obtain ⟨c2, h2, t2, v2⟩ := v1.mysql m xh y
      refine keep c2 _ h2 v2 (by rintro g ⟨h | ⟨h, -⟩, -⟩ <;> exact h) ?_ fun g => ?_
      · rw [t2, htr, inTransaction_snoc]; simp [Begins, Ends]
      · rw [latest_snoc, hl]; simp [mariaGtidOf]
    | maria y hy =>
      subst hy
      obtain ⟨c2, h2, t2, v2⟩ := v1.gtid m xh y
      refine keep c2 _ h2 v2 (by rintro g ⟨h | ⟨h, -⟩, -⟩ <;> exact h) ?_ fun g => ?_
      · rw [t2, htr, inTransaction_snoc]; simp [Begins, Ends]
      · rw [latest_snoc]; simp [mariaGtidOf]
    | ends h hb ha n1 n2 =>
      exact close n2 (.inl h) (by rw [inTransaction_snoc]; rintro (h' | ⟨-, h'⟩); exacts [hb h', h' h])
    | begins h he ha n1 n2 =>
      obtain ⟨c2, h2, t2, v2⟩ := v1.begins m xh h
      refine keep c2 _ h2 v2 (by rintro g ⟨h' | ⟨h', -⟩, -⟩; exacts [he h', ha h']) ?_ fun g => ?_
      · rw [t2, inTransaction_snoc]; simp [h]
      · rw [latest_snoc, hl]; simp [n2]
    | auto h he hb n1 n2 =>
      by_cases ht : c1.transaction = true
      · obtain ⟨c2, h2, t2, v2⟩ := v1.inside ht m xh (e := xe) ⟨by cases xe <;> first | exact id | exact h.elim, he⟩
        refine keep c2 _ h2 v2 (by rintro g ⟨h' | ⟨h', h''⟩, -⟩; exacts [he h', h'' (htr.1 ht)]) ?_ fun g => ?_
        · rw [t2, inTransaction_snoc]; simp [htr.1 ht, he]
        · rw [latest_snoc, hl]; simp [n2]
      · have ht' : c1.transaction = false := by simpa using ht
        exact close n2 (.inr ⟨h, ht'⟩) (by
          rw [inTransaction_snoc]; rintro (h' | ⟨h', -⟩); exacts [hb h', ht (htr.2 h')])
    | neutral h he hb ha n1 n2 =>
      obtain ⟨c2, h2, t2, v2⟩ := v1.neutral m xh h
      refine keep c2 _ h2 v2 (by rintro g ⟨h' | ⟨h', -⟩, -⟩; exacts [he h', ha h']) ?_ fun g => ?_
      · rw [t2, htr, inTransaction_snoc]; simp [hb, he]
      · rw [latest_snoc, hl]; simp [n2]

/-- C79. A MariaDB transaction without BEGIN is recorded from its first statement or its end on, whichever comes first: with C18,
that is exactly how far too early. -/
theorem C79_maria_recorded_from_first_statement (g : MGtid) (h0 hc : EventHeader) (x : MariaGtidEvent) (c : BinlogEvent)
    (mid rest : List Ev) (hx : x.gtid = g) (hm : ∀ p ∈ mid, Neutral p.2) (hcl : Ends c ∨ AutoCommits c) (k : Nat) :
    Recorded mariaGtidOf (((h0, .mariaDbGtid x) :: mid ++ (hc, c) :: rest).take k) g ↔ mid.length + 2 ≤ k := by
  have hno : ∀ y ∈ (h0, BinlogEvent.mariaDbGtid x) :: mid, ¬ Ends y.2 ∧ ¬ AutoCommits y.2 ∧ ¬ Begins y.2 := by
    intro y hy
    rcases List.mem_cons.1 hy with rfl | hy
    · exact ⟨id, id, id⟩
    · have := neutral_inside (hm y hy)
      refine ⟨this.1.2, this.2, fun hb => ?_⟩
      have hn := hm y hy
      obtain ⟨yh, ye⟩ := y
      cases ye with
      | query q => simp only [Begins, Neutral] at hb hn; rw [hn] at hb; exact absurd hb (by decide)
      | _ => exact hb
  constructor
  · rintro ⟨pre, y, post, h, hcl', -⟩
    apply Classical.byContradiction
    intro hk
    have hy : y ∈ (h0, BinlogEvent.mariaDbGtid x) :: mid := by
      have hmem : y ∈ ((h0, BinlogEvent.mariaDbGtid x) :: mid ++ (hc, c) :: rest).take k := by rw [h]; simp
      rw [List.take_append_of_le_length (by simp; omega)] at hmem
      exact List.mem_of_mem_take hmem
    rcases hcl' with hh | ⟨hh, -⟩
    · exact (hno y hy).1 hh
    · exact (hno y hy).2.1 hh
  · intro hk
    subst hx
    refine ⟨(h0, .mariaDbGtid x) :: mid, (hc, c), rest.take (k - (mid.length + 2)), ?_, ?_, ?_⟩
    · rw [List.take_append, List.take_of_length_le (by simp; omega)]
      obtain ⟨j, rfl⟩ : ∃ j, k = mid.length + 2 + j := ⟨k - (mid.length + 2), by omega⟩
      simp only [List.length_cons]
      rw [show mid.length + 2 + j - (mid.length + 1) = j + 1 by omega, show mid.length + 2 + j - (mid.length + 2) = j by omega,
        List.take_succ_cons]
    · rcases hcl with hh | hh
      · exact .inl hh
      · refine .inr ⟨hh, ?_⟩
        rintro ⟨a, y, b, h, hb, -⟩
        exact (hno y (by rw [h]; simp)).2.2 hb
    · refine ⟨[], _, mid, rfl, rfl, fun y hy => ?_⟩
      obtain ⟨yh, ye⟩ := y
      have := hm _ hy
      cases ye <;> first | rfl | exact this.elim

/-- GTID 0-1-5, a statement, another one, XID; then GTID 0-1-6 with nothing behind it. -/
example : let es : List Ev := [(exHeader 100, exMGtid 5), (exHeader 200, exQuery "INSERT"), (exHeader 300, exQuery "UPDATE"),
      (exHeader 400, .xid ⟨7⟩), (exHeader 500, exMGtid 6)]
    FromList exMClient ⟨[⟨0, 1, 4⟩]⟩ ∧ exMClient.mariaGtid = none ∧ RecordedLast (es.take 2) ⟨0, 1, 5⟩ ∧
    ∀ m, ∃ c', commitAll m exMClient es = .ok c' ∧ c'.options.binlog.gtidList = some ⟨[⟨0, 1, 5⟩]⟩ := by
  refine ⟨⟨rfl, rfl, rfl, rfl⟩, rfl, ?_, ?_⟩
  · refine ⟨[(exHeader 100, exMGtid 5)], (exHeader 200, exQuery "INSERT"), [], rfl, ⟨.inr ⟨?_, ?_⟩, ?_⟩, ?_⟩
    · simp [AutoCommits, exQuery]
    · rintro ⟨a, y, b, h, hb, -⟩
      have : y ∈ [(exHeader 100, exMGtid 5)] := by rw [h]; simp
      rw [List.mem_singleton.1 this] at hb
      exact hb
    · exact ⟨[], _, [], rfl, rfl, by simp⟩
    · intro mid e' post' g' h
      have := congrArg List.length h
      simp at this
  · intro m
    have h : ∃ c', commitAll ⟨true⟩ exMClient [(exHeader 100, exMGtid 5), (exHeader 200, exQuery "INSERT"),
      (exHeader 300, exQuery "UPDATE"), (exHeader 400, .xid ⟨7⟩), (exHeader 500, exMGtid 6)] = .ok c' ∧
        c'.options.binlog.gtidList = some ⟨[⟨0, 1, 5⟩]⟩ :=
      ⟨{ exMClient with
        mariaGtid := some ⟨0, 1, 6⟩
        options := { exMClient.options with binlog := { exMClient.options.binlog with position := 500, gtidList := some ⟨[⟨0, 1, 5⟩]⟩ } } },
        by decide +kernel, rfl⟩
    have h' : ∃ c', commitAll ⟨false⟩ exMClient [(exHeader 100, exMGtid 5), (exHeader 200, exQuery "INSERT"),
      (exHeader 300, exQuery "UPDATE"), (exHeader 400, .xid ⟨7⟩), (exHeader 500, exMGtid 6)] = .ok c' ∧
        c'.options.binlog.gtidList = some ⟨[⟨0, 1, 5⟩]⟩ :=
      ⟨{ exMClient with
        mariaGtid := some ⟨0, 1, 6⟩
        options := { exMClient.options with binlog := { exMClient.options.binlog with position := 500, gtidList := some ⟨[⟨0, 1, 5⟩]⟩ } } },
        by decide +kernel, rfl⟩
    rcases m with ⟨_ | _⟩
    · exact h'
    · exact h

/-- An XA transaction, and the number of events from which on it is recorded. -/
example : let es : List Ev := [(exHeader 100, exGtid 5), (exHeader 200, exQuery "XA START X'01'"), (exHeader 300, .unknown),
      (exHeader 400, exQuery "XA END X'01'"), (exHeader 500, .unknown)]
    MysqlXa ⟨exUuid, 5⟩ es ∧ ¬ Recorded mysqlGtidOf (es.take 1) ⟨exUuid, 5⟩ ∧ Recorded mysqlGtidOf (es.take 2) ⟨exUuid, 5⟩ := by
  intro es
  have h : MysqlXa ⟨exUuid, 5⟩ es :=
    MysqlXa.phase (x := ⟨⟨exUuid, 5⟩, 1⟩) (body := [(exHeader 300, .unknown)]) rfl ⟨" X'01'".toList, by decide⟩
      (by simp [Neutral]) ⟨" X'01'".toList, by decide⟩
  exact ⟨h, fun hr => absurd ((C79_xa_recorded_from_start _ _ h 1).1 hr) (by decide),
    (C79_xa_recorded_from_start _ _ h 2).2 (by decide)⟩

/-- A MariaDB transaction with a row event, a statement and XID: recorded from the third event on. -/
example : (∀ p ∈ [(exHeader 200, BinlogEvent.unknown)], Neutral p.2) ∧ AutoCommits (exQuery "INSERT") := by
  refine ⟨?_, by simp [AutoCommits, exQuery]⟩
  intro p hp
  rw [List.mem_singleton.1 hp]
  trivial

end MysqlCdc
