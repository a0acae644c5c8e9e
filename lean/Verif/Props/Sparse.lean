import Verif.Spec.Sparse
import Verif.Props.DeliveriesMaria
/-!
# C134: applications that commit only some events of a transaction
-/

namespace MysqlCdc

open Spec

/-! ## Single events -/

/-- The same client at another position of the same file. -/
def Client.at (c : Client) (p : Nat) : Client := c.setPosition c.options.binlog.filename p

/-- Also with another transaction flag. -/
def Client.with' (c : Client) (p : Nat) (t : Bool) : Client := { c.at p with transaction := t }

theorem Client.at_at (c : Client) (p q : Nat) : (c.at p).at q = c.at q := rfl

theorem Client.at_self (c : Client) : c.at c.options.binlog.position = c := rfl

/-- An event other than a rotation moves the client within its file. -/
theorem update_at (c : Client) (h : EventHeader) {e : BinlogEvent} (hr : ∀ r, e ≠ .rotate r) :
    ∃ p, c.updateBinlogPosition h e = c.at p := by
  unfold Client.updateBinlogPosition
  split
  · exact ⟨_, c.at_self.symm⟩
  · exact absurd rfl (hr _)
  · split
    · exact ⟨_, rfl⟩
    · exact ⟨_, c.at_self.symm⟩

/-- The event at the end of a transaction. -/
def TxEnd (e : BinlogEvent) : Prop := Spec.Ends e ∨ AutoCommits e

theorem TxEnd.update {e : BinlogEvent} (hl : TxEnd e) (c : Client) {h : EventHeader} (hp : h.nextEventPosition > 0) :
    c.updateBinlogPosition h e = c.at h.nextEventPosition := by
  cases e with
  | query q => exact if_pos hp
  | xid x => exact if_pos hp
  | _ => rcases hl with hl | hl <;> exact hl.elim

theorem neutral_at (m : Mode) (c : Client) (h : EventHeader) {e : BinlogEvent} (hn : Neutral e) (hr : ∀ r, e ≠ .rotate r) :
    ∃ p, c.commit m h e = .ok (c.at p) := by
  obtain ⟨p, hp⟩ := update_at c h hr
  refine ⟨p, hp ▸ commit_eq m c h e ?_⟩
  unfold Client.updateGtidPosition
  split
  · rfl
  · cases e <;> simp_all [Neutral]

theorem neutrals_at (m : Mode) (c : Client) (es : List Ev) (hn : ∀ p ∈ es, Neutral p.2) (hr : ∀ p ∈ es, ∀ r, p.2 ≠ .rotate r) :
    ∃ p, commitAll m c es = .ok (c.at p) := by
  induction es generalizing c with
  | nil => exact ⟨_, by rw [c.at_self]; rfl⟩
  | cons e es ih =>
    obtain ⟨p, hp⟩ := neutral_at m c e.1 (hn e (by simp)) (hr e (by simp))
    obtain ⟨q, hq⟩ := ih (c.at p) (fun p hp => hn p (by simp [hp])) (fun p hp => hr p (by simp [hp]))
    exact ⟨q, by rw [commitAll, hp, Res.bind_ok, hq, c.at_at]⟩

theorem begin_at (m : Mode) (c : Client) (hs : c.options.binlog.startingStrategy = .fromGtid) (h : EventHeader) {e : BinlogEvent}
    (hb : Begins e) : ∃ p, c.commit m h e = .ok (c.with' p true) := by
  cases e with
  | query q =>
    obtain ⟨p, hp⟩ := update_at { c with transaction := true } h (e := .query q) (by simp)
    refine ⟨p, ?_⟩
    have h1 : c.updateGtidPosition m (.query q) = .ok { c with transaction := true } := by
      unfold Client.updateGtidPosition
      rw [if_neg (by simp [hs])]
      simp only [Begins] at hb
      simp only [hb, begin_ne.2.2.1, Bool.false_eq_true, if_false, if_true]
    rw [commit_eq m c h _ h1, hp]
    rfl
  | _ => exact hb.elim

theorem inside_at (m : Mode) (c : Client) (ht : c.transaction = true)
    (h : EventHeader) {e : BinlogEvent} (hi : Inside e) (hr : ∀ r, e ≠ .rotate r) : ∃ p, c.commit m h e = .ok (c.at p) := by
  obtain ⟨p, hp⟩ := update_at c h hr
  refine ⟨p, hp ▸ commit_eq m c h e ?_⟩
  unfold Client.updateGtidPosition
  split
  · rfl
  · cases e with
    | query q =>
      simp only [Inside, Spec.Ends, not_or] at hi
      simp only [hi.2.1, hi.2.2, or_self, if_false, ht, Bool.not_true, Bool.false_eq_true]
      split
      · rfl
      · split
        · rw [← ht]
        · rfl
    | mySqlGtid x => exact absurd trivial hi.1
    | mariaDbGtid x => exact absurd trivial hi.1
    | xid x => exact absurd trivial hi.2
    | _ => rfl

theorem insides_at (m : Mode) (c : Client) (ht : c.transaction = true) (es : List Ev) (hi : ∀ p ∈ es, Inside p.2)
    (hr : ∀ p ∈ es, ∀ r, p.2 ≠ .rotate r) : ∃ p, commitAll m c es = .ok (c.at p) := by
  induction es generalizing c with
  | nil => exact ⟨_, by rw [c.at_self]; rfl⟩
  | cons e es ih =>
    obtain ⟨p, hp⟩ := inside_at m c ht e.1 (hi e (by simp)) (hr e (by simp))
    obtain ⟨q, hq⟩ := ih (c.at p) ht (fun p hp => hi p (by simp [hp])) (fun p hp => hr p (by simp [hp]))
    exact ⟨q, by rw [commitAll, hp, Res.bind_ok, hq, c.at_at]⟩

/-- What the end of a transaction does with GTIDs. -/
theorem ends_gtid (m : Mode) (c : Client) (hs : c.options.binlog.startingStrategy = .fromGtid) {e : BinlogEvent} (he : Spec.Ends e) :
    c.updateGtidPosition m e = c.commitGtid m := by
  unfold Client.updateGtidPosition
  rw [if_neg (by simp [hs])]
  cases e with
  | query q =>
    simp only [Spec.Ends] at he
    rcases he with he | he <;>
      simp only [he, begin_ne, Bool.false_eq_true, if_false, true_or, or_true, if_true]
  | xid x => rfl
  | _ => exact he.elim

/-- The end of a transaction is recorded the same wherever in the file the client was and whether or not it had seen BEGIN. -/
theorem ends_with (m : Mode) (c : Client) (hs : c.options.binlog.startingStrategy = .fromGtid) {h : EventHeader}
    (hp : h.nextEventPosition > 0) {e : BinlogEvent} (he : Spec.Ends e) (p : Nat) (t : Bool) :
    (c.with' p t).commit m h e = c.commit m h e := by
  unfold Client.commit
  rw [ends_gtid m _ hs he, ends_gtid m (c.with' p t) hs he]
  show ((c.with' p t).commitGtid m >>= _) = _
  unfold Client.commitGtid
  show ((commitMysql m c.mysqlGtid c.options.binlog.gtidSet >>= _) >>= _) = ((commitMysql m c.mysqlGtid c.options.binlog.gtidSet >>= _) >>= _)
  cases commitMysql m c.mysqlGtid c.options.binlog.gtidSet with
  | ok set =>
    show Res.ok (Client.updateBinlogPosition _ h e) = Res.ok (Client.updateBinlogPosition _ h e)
    rw [TxEnd.update (Or.inl he) _ hp, TxEnd.update (Or.inl he) _ hp]
    rfl
  | err x => rfl
  | panic => rfl
  | hang => rfl

/-- What a statement of its own does with GTIDs. -/
theorem auto_gtid (m : Mode) (c : Client) (hs : c.options.binlog.startingStrategy = .fromGtid) {e : BinlogEvent} (he : AutoCommits e) :
    c.updateGtidPosition m e = if c.transaction = true then .ok c else c.commitGtid m := by
  unfold Client.updateGtidPosition
  rw [if_neg (by simp [hs])]
  cases e with
  | query q =>
    simp only [AutoCommits] at he
    simp only [List.isEmpty_iff, he.1, he.2.1, he.2.2.1, he.2.2.2, or_self, if_false]
    cases c.transaction <;> rfl
  | _ => exact he.elim

theorem auto_at (m : Mode) (c : Client) (hs : c.options.binlog.startingStrategy = .fromGtid) {h : EventHeader}
    (hp : h.nextEventPosition > 0) {e : BinlogEvent} (he : AutoCommits e) (p : Nat) :
    (c.at p).commit m h e = c.commit m h e := by
  unfold Client.commit
  rw [auto_gtid m _ hs he, auto_gtid m (c.at p) hs he]
  show ((if c.transaction = true then Res.ok (c.at p) else (c.at p).commitGtid m) >>= _) = _
  split
  · show Res.ok (Client.updateBinlogPosition _ h e) = Res.ok (Client.updateBinlogPosition _ h e)
    rw [TxEnd.update (Or.inr he) _ hp, TxEnd.update (Or.inr he) _ hp]
    rfl
  · unfold Client.commitGtid
    show ((commitMysql m c.mysqlGtid c.options.binlog.gtidSet >>= _) >>= _) = ((commitMysql m c.mysqlGtid c.options.binlog.gtidSet >>= _) >>= _)
    cases commitMysql m c.mysqlGtid c.options.binlog.gtidSet with
    | ok set =>
      show Res.ok (Client.updateBinlogPosition _ h e) = Res.ok (Client.updateBinlogPosition _ h e)
      rw [TxEnd.update (Or.inr he) _ hp, TxEnd.update (Or.inr he) _ hp]
      rfl
    | err x => rfl
    | panic => rfl
    | hang => rfl

/-! ## By position -/

/-- Without GTIDs, any event other than a rotation only moves the client within its file. -/
theorem plain_at (m : Mode) (c : Client) (hs : c.options.binlog.startingStrategy ≠ .fromGtid) (es : List Ev)
    (hr : ∀ p ∈ es, ∀ r, p.2 ≠ .rotate r) : ∃ p, commitAll m c es = .ok (c.at p) := by
  induction es generalizing c with
  | nil => exact ⟨_, by rw [c.at_self]; rfl⟩
  | cons e es ih =>
    obtain ⟨p, hp⟩ := update_at c e.1 (hr e (by simp))
    have h1 : c.commit m e.1 e.2 = .ok (c.at p) := by
      rw [← hp]
      exact commit_eq m c e.1 e.2 (by unfold Client.updateGtidPosition; rw [if_pos hs])
    obtain ⟨q, hq⟩ := ih (c.at p) hs (fun p hp => hr p (by simp [hp]))
    exact ⟨q, by rw [commitAll, h1, Res.bind_ok, hq, c.at_at]⟩

/-- The last event decides. -/
theorem plain_last (m : Mode) (c : Client) (hs : c.options.binlog.startingStrategy ≠ .fromGtid) (es : List Ev) (e : Ev)
    (hr : ∀ p ∈ es, ∀ r, p.2 ≠ .rotate r) (hl : TxEnd e.2) (hp : e.1.nextEventPosition > 0) :
    commitAll m c (es ++ [e]) = .ok (c.at e.1.nextEventPosition) := by
  obtain ⟨p, h1⟩ := plain_at m c hs es hr
  have h2 : (c.at p).commit m e.1 e.2 = .ok (c.at e.1.nextEventPosition) := by
    rw [commit_eq m (c.at p) e.1 e.2 (c1 := c.at p) (by unfold Client.updateGtidPosition; exact if_pos hs), hl.update _ hp, c.at_at]
  rw [commitAll_append, h1, Res.bind_ok, commitAll, h2]
  rfl

/-! ## Whole streams -/

theorem firstAndLast_eq (e : Ev) (es : List Ev) (l : Ev) : firstAndLast (e :: es ++ [l]) = [e, l] := by
  cases es with
  | nil => rfl
  | cons a as =>
    show e :: ((a :: as) ++ [l]).getLast?.toList = _
    rw [List.getLast?_concat]
    rfl

theorem lastAlone_eq (es : List Ev) (l : Ev) : lastAlone (es ++ [l]) = [l] := by simp [lastAlone]


theorem choose_all {γ : Type} (m : Mode) (f : List Ev → List Ev) (I : Client → Prop) (parts : List (Part γ))
    (same : ∀ c g es, Part.tx g es ∈ parts → I c → commitAll m c es = commitAll m c (f es))
    (keep : ∀ c c' p, p ∈ parts → I c → commitAll m c p.events = .ok c' → I c') (c : Client) (hc : I c) :
    commitAll m c (flat parts) = commitAll m c (flat (parts.map (Part.choose f))) := by
  induction parts generalizing c with
  | nil => rfl
  | cons p ps ih =>
    have hf : ∀ q : Part γ, ∀ qs, flat (q :: qs) = q.events ++ flat qs := fun q qs => by simp [flat]
    have h1 : commitAll m c (p.choose f).events = commitAll m c p.events := by
      cases p with
      | tx g es => exact (same c g es (by simp) hc).symm
      | noise e => rfl
    rw [List.map_cons, hf, hf, commitAll_append, commitAll_append, h1]
    cases h2 : commitAll m c p.events with
    | ok c' =>
      exact ih (fun c g es h => same c g es (by simp [h])) (fun c c' p h => keep c c' p (by simp [h])) c' (keep c c' p (by simp) hc h2)
    | _ => rfl

/-- By position, the last event alone does. -/
theorem plain_tx (m : Mode) (c : Client) (hs : c.options.binlog.startingStrategy ≠ .fromGtid) (e : Ev) (es : List Ev) (l : Ev)
    (hf : InOneFile (e :: es ++ [l])) (hl : TxEnd l.2) :
    commitAll m c (e :: es ++ [l]) = .ok (c.at l.1.nextEventPosition) ∧ commitAll m c [e, l] = .ok (c.at l.1.nextEventPosition) ∧
      commitAll m c [l] = .ok (c.at l.1.nextEventPosition) := by
  have hp : l.1.nextEventPosition > 0 := hf.2 l List.getLast?_concat
  exact ⟨plain_last m c hs (e :: es) l (fun p hp => hf.1 p (List.mem_append_left _ hp)) hl hp,
    plain_last m c hs [e] l (fun p hp => hf.1 p (by simp_all)) hl hp, plain_last m c hs [] l (by simp) hl hp⟩

theorem mysqlTx_shape {g : Gtid} {es : List Ev} (h : MysqlTx g es) : ∃ e mid l, es = e :: mid ++ [l] ∧ TxEnd l.2 := by
  cases h with
  | block _ _ _ _ hend => exact ⟨_, _, _, rfl, Or.inl hend⟩
  | auto _ _ hauto => exact ⟨_, _, _, rfl, Or.inr hauto⟩

theorem mariaTx_shape {g : MGtid} {es : List Ev} (h : MariaTx g es) : ∃ e mid l, es = e :: mid ++ [l] ∧ TxEnd l.2 := by
  cases h with
  | block _ _ hend => exact ⟨_, _, _, rfl, Or.inl hend⟩
  | auto _ _ hauto => exact ⟨_, _, _, rfl, Or.inr hauto⟩

theorem commit_strategy {m : Mode} {c c' : Client} {h : EventHeader} {e : BinlogEvent} (hc : c.commit m h e = .ok c') :
    c'.options.binlog.startingStrategy = c.options.binlog.startingStrategy :=
  commitAll_keeps (m := m) (es := [(h, e)]) (by rw [commitAll, hc]; rfl)

/-- C134, MySQL. Committing only the first and the last event of each transaction leaves the client exactly as committing all events
does: the same GTIDs, file, position and flag, whatever was recorded before and whether by GTID or by position. (Missing: the last event
alone; see `C134_last_alone_false`.) -/
theorem C134_first_and_last_partial (m : Mode) (c : Client) (parts : List (Part Gtid)) (hp : ∀ p ∈ parts, p.Ok MysqlTx)
    (hf : ∀ p ∈ parts, p.InFile) : commitAll m c (flat parts) = commitAll m c (flat (parts.map (Part.choose firstAndLast))) := by
  refine choose_all m firstAndLast (fun _ => True) parts ?_ (fun _ _ _ _ _ _ => trivial) c trivial
  intro c g es hmem _
  have h1 : MysqlTx g es := hp _ hmem
  have h2 : InOneFile es := hf _ hmem
  by_cases hs : c.options.binlog.startingStrategy = .fromGtid
  · cases h1 with
    | @block h0 hb he x b e mid body hx hm hbegin hi hend =>
      have hpe : he.nextEventPosition > 0 := h2.2 (he, e) List.getLast?_concat
      rw [show (h0, BinlogEvent.mySqlGtid x) :: mid ++ (hb, b) :: body ++ [(he, e)] =
        (h0, BinlogEvent.mySqlGtid x) :: (mid ++ (hb, b) :: body) ++ [(he, e)] from rfl, firstAndLast_eq, List.cons_append,
        commitAll, commitAll]
      cases h3 : c.commit m h0 (.mySqlGtid x) with
      | ok c1 =>
        have hs1 : c1.options.binlog.startingStrategy = .fromGtid := by rw [commit_strategy h3, hs]
        obtain ⟨p, h4⟩ := neutrals_at m c1 mid hm fun p hp => h2.1 p (by simp [hp])
        obtain ⟨q, h5⟩ := begin_at m (c1.at p) hs1 hb hbegin
        obtain ⟨r, h6⟩ := insides_at m ((c1.at p).with' q true) rfl body hi fun p hp => h2.1 p (by simp [hp])
        simp only [Res.bind_ok, commitAll_append, h4, commitAll, h5, h6]
        rw [show ((c1.at p).with' q true).at r = c1.with' r true from rfl, ends_with m c1 hs1 hpe hend r true]
      | _ => rfl
    | @auto h0 he x e mid hx hm hauto =>
      have hpe : he.nextEventPosition > 0 := h2.2 (he, e) List.getLast?_concat
      rw [firstAndLast_eq, List.cons_append, commitAll, commitAll]
      cases h3 : c.commit m h0 (.mySqlGtid x) with
      | ok c1 =>
        have hs1 : c1.options.binlog.startingStrategy = .fromGtid := by rw [commit_strategy h3, hs]
        obtain ⟨p, h4⟩ := neutrals_at m c1 mid hm fun p hp => h2.1 p (by simp [hp])
        simp only [Res.bind_ok, commitAll_append, h4, commitAll]
        rw [auto_at m c1 hs1 hpe hauto p]
      | _ => rfl
  · obtain ⟨e, mid, l, rfl, hl⟩ := mysqlTx_shape h1
    obtain ⟨h3, h4, -⟩ := plain_tx m c hs e mid l h2 hl
    rw [firstAndLast_eq, h3, h4]

/-! ## MariaDB -/

theorem addMGtid_twice (g : MGtid) (l : List MGtid) : (addMGtid g (addMGtid g l).2).2 = (addMGtid g l).2 := by
  induction l with
  | nil => simp [addMGtid]
  | cons x xs ih =>
    by_cases h : x.domainId = g.domainId
    · simp [addMGtid, h]
    · simp only [addMGtid, if_neg h, ih]

theorem commitMaria_twice (g : Option MGtid) (l : Option GtidList) : commitMaria g (commitMaria g l) = commitMaria g l := by
  cases g with
  | none => cases l <;> rfl
  | some g =>
    cases l with
    | none => rfl
    | some l =>
      show some (GtidList.mk _) = some (GtidList.mk _)
      rw [addGtid_gtids, addMGtid_twice]

/-- The same client with another position, flag and list. -/
def Client.listing (c : Client) (p : Nat) (t : Bool) (l : Option GtidList) : Client :=
  { c with
    transaction := t
    options := { c.options with binlog := { c.options.binlog with position := p, gtidList := l } } }

theorem commitMysql_none (m : Mode) (g : Option Gtid) : commitMysql m g none = .ok none := by cases g <;> rfl

theorem listing_commitGtid (m : Mode) (c : Client) (hn : c.options.binlog.gtidSet = none) (p : Nat) (t : Bool) (l : Option GtidList) :
    (c.listing p t l).commitGtid m = .ok (c.listing p false (commitMaria c.mariaGtid l)) := by
  unfold Client.commitGtid
  rw [show (c.listing p t l).options.binlog.gtidSet = none from hn, commitMysql_none]
  show Res.ok _ = _
  unfold Client.listing
  rw [← hn]

/-- The list is as before, or the pending GTID is in it. -/
def Early (c : Client) (l : Option GtidList) : Prop :=
  l = c.options.binlog.gtidList ∨ l = commitMaria c.mariaGtid c.options.binlog.gtidList

theorem inside_early (m : Mode) (c : Client) (hn : c.options.binlog.gtidSet = none) (p : Nat) (t : Bool) {l : Option GtidList}
    (hl : Early c l) (h : EventHeader) {e : BinlogEvent} (hi : Inside e) (hr : ∀ r, e ≠ .rotate r) :
    ∃ p' t' l', (c.listing p t l).commit m h e = .ok (c.listing p' t' l') ∧ Early c l' := by
  obtain ⟨t1, l1, h1, h2⟩ : ∃ t1 l1, (c.listing p t l).updateGtidPosition m e = .ok (c.listing p t1 l1) ∧ Early c l1 := by
    have hcom : Early c (commitMaria c.mariaGtid l) := by
      rcases hl with rfl | rfl
      · exact Or.inr rfl
      · exact Or.inr (commitMaria_twice _ _)
    unfold Client.updateGtidPosition
    split
    · exact ⟨t, l, rfl, hl⟩
    · cases e with
      | query q =>
        simp only [Inside, Spec.Ends, not_or] at hi
        simp only [hi.2.1, hi.2.2, or_self, if_false]
        split
        · exact ⟨t, l, rfl, hl⟩
        · split
          · exact ⟨true, l, rfl, hl⟩
          · split
            · exact ⟨false, _, listing_commitGtid m c hn p t l, hcom⟩
            · exact ⟨t, l, rfl, hl⟩
      | mySqlGtid x => exact absurd trivial hi.1
      | mariaDbGtid x => exact absurd trivial hi.1
      | xid x => exact absurd trivial hi.2
      | _ => exact ⟨t, l, rfl, hl⟩
  obtain ⟨q, hq⟩ := update_at (c.listing p t1 l1) h hr
  exact ⟨q, t1, l1, by rw [commit_eq m _ h e h1, hq]; rfl, h2⟩

theorem insides_early (m : Mode) (c : Client) (hn : c.options.binlog.gtidSet = none) (es : List Ev) (p : Nat) (t : Bool)
    {l : Option GtidList} (hl : Early c l) (hi : ∀ p ∈ es, Inside p.2) (hr : ∀ p ∈ es, ∀ r, p.2 ≠ .rotate r) :
    ∃ p' t' l', commitAll m (c.listing p t l) es = .ok (c.listing p' t' l') ∧ Early c l' := by
  induction es generalizing p t l with
  | nil => exact ⟨p, t, l, rfl, hl⟩
  | cons e es ih =>
    obtain ⟨p1, t1, l1, h1, h2⟩ := inside_early m c hn p t hl e.1 (hi e (by simp)) (hr e (by simp))
    obtain ⟨p2, t2, l2, h3, h4⟩ := ih p1 t1 h2 (fun p hp => hi p (by simp [hp])) (fun p hp => hr p (by simp [hp]))
    exact ⟨p2, t2, l2, by rw [commitAll, h1, Res.bind_ok, h3], h4⟩

theorem ends_early (m : Mode) (c : Client) (hs : c.options.binlog.startingStrategy = .fromGtid) (hn : c.options.binlog.gtidSet = none)
    (p : Nat) (t : Bool) {l : Option GtidList} (hl : Early c l) {h : EventHeader} (hp : h.nextEventPosition > 0) {e : BinlogEvent}
    (he : Spec.Ends e) : (c.listing p t l).commit m h e = c.commit m h e := by
  have h1 : commitMaria c.mariaGtid l = commitMaria c.mariaGtid c.options.binlog.gtidList := by
    rcases hl with rfl | rfl
    · rfl
    · exact commitMaria_twice _ _
  have h2 := listing_commitGtid m c hn p t l
  have h3 := listing_commitGtid m c hn c.options.binlog.position c.transaction c.options.binlog.gtidList
  rw [commit_eq m _ h e ((ends_gtid m (c.listing p t l) hs he).trans h2),
    commit_eq m c h e ((ends_gtid m c hs he).trans h3), h1, TxEnd.update (Or.inl he) _ hp, TxEnd.update (Or.inl he) _ hp]
  rfl

theorem commit_noSet {m : Mode} {c c' : Client} {h : EventHeader} {e : BinlogEvent} (hn : c.options.binlog.gtidSet = none)
    (hc : c.commit m h e = .ok c') : c'.options.binlog.gtidSet = none :=
  commitAll_noSet (m := m) (es := [(h, e)]) (by rw [commitAll, hc]; rfl) hn

/-- C134, MariaDB. The same, also for transactions with statements inside. (Missing: the last event alone.) -/
theorem C134_first_and_last_mariadb_partial (m : Mode) (c : Client) (hn : c.options.binlog.gtidSet = none) (parts : List (Part MGtid))
    (hp : ∀ p ∈ parts, p.Ok MariaTx) (hf : ∀ p ∈ parts, p.InFile) :
    commitAll m c (flat parts) = commitAll m c (flat (parts.map (Part.choose firstAndLast))) := by
  refine choose_all m firstAndLast (fun c => c.options.binlog.gtidSet = none) parts ?_ (fun _ _ _ _ h h' => commitAll_noSet h' h) c hn
  intro c g es hmem hn
  have h1 : MariaTx g es := hp _ hmem
  have h2 : InOneFile es := hf _ hmem
  by_cases hs : c.options.binlog.startingStrategy = .fromGtid
  · cases h1 with
    | @block h0 he x e body hx hi hend =>
      have hpe : he.nextEventPosition > 0 := h2.2 (he, e) List.getLast?_concat
      rw [firstAndLast_eq, List.cons_append, commitAll, commitAll]
      cases h3 : c.commit m h0 (.mariaDbGtid x) with
      | ok c1 =>
        have hs1 : c1.options.binlog.startingStrategy = .fromGtid := by rw [commit_strategy h3, hs]
        have hn1 := commit_noSet hn h3
        obtain ⟨p, t, l, h4, h5⟩ := insides_early m c1 hn1 body c1.options.binlog.position c1.transaction (Or.inl rfl) hi
          fun p hp => h2.1 p (by simp [hp])
        have h4' : commitAll m c1 body = .ok (c1.listing p t l) := h4
        simp only [Res.bind_ok, commitAll_append, h4', commitAll]
        rw [ends_early m c1 hs1 hn1 p t h5 hpe hend]
      | _ => rfl
    | @auto h0 he x e mid hx hm hauto =>
      have hpe : he.nextEventPosition > 0 := h2.2 (he, e) List.getLast?_concat
      rw [firstAndLast_eq, List.cons_append, commitAll, commitAll]
      cases h3 : c.commit m h0 (.mariaDbGtid x) with
      | ok c1 =>
        have hs1 : c1.options.binlog.startingStrategy = .fromGtid := by rw [commit_strategy h3, hs]
        obtain ⟨p, h4⟩ := neutrals_at m c1 mid hm fun p hp => h2.1 p (by simp [hp])
        simp only [Res.bind_ok, commitAll_append, h4, commitAll]
        rw [auto_at m c1 hs1 hpe hauto p]
      | _ => rfl
  · obtain ⟨e, mid, l, rfl, hl⟩ := mariaTx_shape h1
    obtain ⟨h3, h4, -⟩ := plain_tx m c hs e mid l h2 hl
    rw [firstAndLast_eq, h3, h4]

/-- C134, MariaDB. An application that commits only first and last events is at every moment where C18 would have it, also when
transactions have statements inside, where one that commits every event is not (`C18_statement_in_transaction_false`). -/
theorem C134_never_early (m : Mode) (c : Client) (list : GtidList) (hc : FromList c list)
    (hl : (list.gtids.map (·.domainId)).Nodup) (parts : List (Part MGtid)) (hp : ∀ p ∈ parts, p.Ok MariaTx) (k : Nat) :
    ∃ c' list', commitAll m c ((flat (parts.map (Part.choose firstAndLast))).take k) = .ok c' ∧
      c'.options.binlog.gtidList = some list' ∧ (list'.gtids.map (·.domainId)).Nodup ∧
      ∀ g, g ∈ list'.gtids ↔ LastOf (finished k (parts.map (Part.choose firstAndLast))) g ∨
        (g ∈ list.gtids ∧ ∀ y ∈ finished k (parts.map (Part.choose firstAndLast)), y.domainId ≠ g.domainId) := by
  suffices H : (∀ p ∈ parts.map (Part.choose firstAndLast), p.Ok MariaTx) ∧
      ∀ p ∈ parts.map (Part.choose firstAndLast), NoStatementBefore p.events by
    obtain ⟨c', list', h1, h2, -, h3, h4⟩ := C18_exactly_finished_partial m c list hc hl _ H.1 H.2 k
    exact ⟨c', list', h1, h2, h3, h4⟩
  constructor
  · intro p hmem
    obtain ⟨q, hq, rfl⟩ := List.mem_map.1 hmem
    cases q with
    | noise e => exact hp _ hq
    | tx g es =>
      have h1 : MariaTx g es := hp _ hq
      show MariaTx g (firstAndLast es)
      cases h1 with
      | block hx hi hend => rw [firstAndLast_eq]; exact .block (body := []) hx (by simp) hend
      | auto hx hm hauto => rw [firstAndLast_eq]; exact .auto (mid := []) hx (by simp) hauto
  · intro p hmem
    obtain ⟨q, hq, rfl⟩ := List.mem_map.1 hmem
    cases q with
    | noise e => simp [Part.choose, Part.events, NoStatementBefore]
    | tx g es =>
      have h1 : MariaTx g es := hp _ hq
      show NoStatementBefore (firstAndLast es)
      cases h1 <;> rw [firstAndLast_eq] <;> simp [NoStatementBefore, AutoCommits, Begins]

/-! ## The last event alone -/

/-- C134, by position. The last event of each transaction alone is enough, with MySQL .. (Missing: by GTID.) -/
theorem C134_last_alone_partial (m : Mode) (c : Client) (hs : c.options.binlog.startingStrategy ≠ .fromGtid) (parts : List (Part Gtid))
    (hp : ∀ p ∈ parts, p.Ok MysqlTx) (hf : ∀ p ∈ parts, p.InFile) :
    commitAll m c (flat parts) = commitAll m c (flat (parts.map (Part.choose lastAlone))) := by
  refine choose_all m lastAlone (fun c => c.options.binlog.startingStrategy ≠ .fromGtid) parts ?_
    (fun _ _ _ _ h h' => by rw [commitAll_keeps h']; exact h) c hs
  intro c g es hmem hs
  obtain ⟨e, mid, l, rfl, hl⟩ := mysqlTx_shape (show MysqlTx g es from hp _ hmem)
  obtain ⟨h3, -, h4⟩ := plain_tx m c hs e mid l (hf _ hmem) hl
  rw [lastAlone_eq, h3, h4]

/-- .. and with MariaDB. -/
theorem C134_last_alone_mariadb_partial (m : Mode) (c : Client) (hs : c.options.binlog.startingStrategy ≠ .fromGtid)
    (parts : List (Part MGtid)) (hp : ∀ p ∈ parts, p.Ok MariaTx) (hf : ∀ p ∈ parts, p.InFile) :
    commitAll m c (flat parts) = commitAll m c (flat (parts.map (Part.choose lastAlone))) := by
  refine choose_all m lastAlone (fun c => c.options.binlog.startingStrategy ≠ .fromGtid) parts ?_
    (fun _ _ _ _ h h' => by rw [commitAll_keeps h']; exact h) c hs
  intro c g es hmem hs
  obtain ⟨e, mid, l, rfl, hl⟩ := mariaTx_shape (show MariaTx g es from hp _ hmem)
  obtain ⟨h3, -, h4⟩ := plain_tx m c hs e mid l (hf _ hmem) hl
  rw [lastAlone_eq, h3, h4]

/-- Without a GTID event, nothing is recorded. -/
theorem commit_noGtid (m : Mode) (c : Client) (hn : c.mysqlGtid = none) (hm : c.mariaGtid = none) (h : EventHeader) {e : BinlogEvent}
    (he : ¬ IsGtid e) : ∃ c', c.commit m h e = .ok c' ∧ c'.mysqlGtid = none ∧ c'.mariaGtid = none ∧
      c'.options.binlog.gtidSet = c.options.binlog.gtidSet ∧ c'.options.binlog.gtidList = c.options.binlog.gtidList := by
  have hg : ∃ c1, c.commitGtid m = .ok c1 ∧ c1.mysqlGtid = none ∧ c1.mariaGtid = none ∧
      c1.options.binlog.gtidSet = c.options.binlog.gtidSet ∧ c1.options.binlog.gtidList = c.options.binlog.gtidList := by
    unfold Client.commitGtid
    rw [hn, hm]
    exact ⟨_, rfl, rfl, rfl, rfl, rfl⟩
  have hc : ∃ c1, Res.ok c = .ok c1 ∧ c1.mysqlGtid = none ∧ c1.mariaGtid = none ∧
      c1.options.binlog.gtidSet = c.options.binlog.gtidSet ∧ c1.options.binlog.gtidList = c.options.binlog.gtidList :=
    ⟨c, rfl, hn, hm, rfl, rfl⟩
  obtain ⟨c1, h1, h2, h3, h4, h5⟩ : ∃ c1, c.updateGtidPosition m e = .ok c1 ∧ c1.mysqlGtid = none ∧ c1.mariaGtid = none ∧
      c1.options.binlog.gtidSet = c.options.binlog.gtidSet ∧ c1.options.binlog.gtidList = c.options.binlog.gtidList := by
    unfold Client.updateGtidPosition
    split
    · exact hc
    · cases e with
      | query q =>
        simp only
        split
        · exact hc
        · split
          · exact ⟨_, rfl, hn, hm, rfl, rfl⟩
          · split
            · exact hg
            · split
              · exact hg
              · exact hc
      | xid x => exact hg
      | mySqlGtid x => exact absurd trivial he
      | mariaDbGtid x => exact absurd trivial he
      | _ => exact hc
  obtain ⟨f1, f2, f3, f4, f5, f6⟩ := updateBinlogPosition_frame c1 h e
  exact ⟨_, commit_eq m c h e h1, by rw [f1, h2], by rw [f2, h3], by rw [f4, h4], by rw [f5, h5]⟩

theorem commitAll_noGtid (m : Mode) (c : Client) (hn : c.mysqlGtid = none) (hm : c.mariaGtid = none) (es : List Ev)
    (he : ∀ p ∈ es, ¬ IsGtid p.2) : ∃ c', commitAll m c es = .ok c' ∧
      c'.options.binlog.gtidSet = c.options.binlog.gtidSet ∧ c'.options.binlog.gtidList = c.options.binlog.gtidList := by
  induction es generalizing c with
  | nil => exact ⟨c, rfl, rfl, rfl⟩
  | cons e es ih =>
    obtain ⟨c1, h1, h2, h3, h4, h5⟩ := commit_noGtid m c hn hm e.1 (he e (by simp))
    obtain ⟨c2, h6, h7, h8⟩ := ih c1 h2 h3 fun p hp => he p (by simp [hp])
    exact ⟨c2, by rw [commitAll, h1, Res.bind_ok, h6], by rw [h7, h4], by rw [h8, h5]⟩

theorem TxEnd.noGtid {e : BinlogEvent} (h : TxEnd e) : ¬ IsGtid e := by
  cases e <;> simp_all [TxEnd, Spec.Ends, AutoCommits, IsGtid]

theorem neutral_noGtid {e : BinlogEvent} (h : Neutral e) : ¬ IsGtid e := by
  cases e <;> simp_all [Neutral, IsGtid]

theorem lastAlone_noGtid {γ : Type} {T : γ → List Ev → Prop} (shape : ∀ g es, T g es → ∃ e mid l, es = e :: mid ++ [l] ∧ TxEnd l.2)
    (parts : List (Part γ)) (hp : ∀ p ∈ parts, p.Ok T) : ∀ p ∈ flat (parts.map (Part.choose lastAlone)), ¬ IsGtid p.2 := by
  intro p hmem
  obtain ⟨q, hq, hmem⟩ := List.mem_flatMap.1 hmem
  obtain ⟨q, hq', rfl⟩ := List.mem_map.1 hq
  cases q with
  | noise e =>
    rw [List.mem_singleton.1 hmem]
    exact neutral_noGtid (hp _ hq')
  | tx g es =>
    obtain ⟨e, mid, l, rfl, hl⟩ := shape g es (hp _ hq')
    rw [show (Part.choose lastAlone (Part.tx g (e :: mid ++ [l]))).events = [l] from lastAlone_eq (e :: mid) l] at hmem
    rw [List.mem_singleton.1 hmem]
    exact hl.noGtid

/-- By GTID, a client that starts afresh and of which only the last event of each transaction is committed records no GTID, however many
transactions there are. -/
theorem C134_nothing_recorded (m : Mode) (c : Client) (hn : c.mysqlGtid = none) (hm : c.mariaGtid = none) :
    (∀ parts : List (Part Gtid), (∀ p ∈ parts, p.Ok MysqlTx) → ∃ c', commitAll m c (flat (parts.map (Part.choose lastAlone))) = .ok c' ∧
      c'.options.binlog.gtidSet = c.options.binlog.gtidSet ∧ c'.options.binlog.gtidList = c.options.binlog.gtidList) ∧
    ∀ parts : List (Part MGtid), (∀ p ∈ parts, p.Ok MariaTx) → ∃ c', commitAll m c (flat (parts.map (Part.choose lastAlone))) = .ok c' ∧
      c'.options.binlog.gtidSet = c.options.binlog.gtidSet ∧ c'.options.binlog.gtidList = c.options.binlog.gtidList :=
  ⟨fun parts hp => commitAll_noGtid m c hn hm _ (lastAlone_noGtid (fun _ _ => mysqlTx_shape) parts hp),
    fun parts hp => commitAll_noGtid m c hn hm _ (lastAlone_noGtid (fun _ _ => mariaTx_shape) parts hp)⟩

theorem exParts_inFile : ∀ p ∈ exParts, p.InFile := by
  intro p hp
  simp only [exParts, List.mem_cons, List.not_mem_nil, or_false] at hp
  rcases hp with rfl | rfl | rfl
  · exact ⟨by simp [exGtid, exQuery], by simp [exHeader]⟩
  · trivial
  · exact ⟨by simp [exGtid, exQuery], by simp [exHeader]⟩

/-- The hypotheses of `C134_first_and_last_partial` are met; four of the six events of the transactions are committed, and both
GTIDs are recorded. -/
example (m : Mode) : (∀ p ∈ exParts, p.Ok MysqlTx) ∧ (∀ p ∈ exParts, p.InFile) ∧ (flat exParts).length = 7 ∧
    (flat (exParts.map (Part.choose firstAndLast))).length = 5 ∧
    (∃ c', commitAll m exClient (flat (exParts.map (Part.choose firstAndLast))) = .ok c' ∧ c'.options.binlog.position = 600 ∧
      c'.options.binlog.gtidSet ≠ exClient.options.binlog.gtidSet) := by
  refine ⟨exParts_ok.1, exParts_inFile, by decide, by decide, ?_⟩
  revert m
  rintro ⟨_ | _⟩
  · exact ⟨_, by with_unfolding_all rfl, by decide +kernel, by decide +kernel⟩
  · exact ⟨_, by with_unfolding_all rfl, by decide +kernel, by decide +kernel⟩

/-- C134 is false by GTID: of two transactions, committed at their ends only, none is recorded. -/
theorem C134_last_alone_false (m : Mode) : ∃ (c : Client) (parts : List (Part Gtid)),
    FromSet c exSet ∧ c.mysqlGtid = none ∧ (∀ p ∈ parts, p.Ok MysqlTx) ∧ (∀ p ∈ parts, p.InFile) ∧
    commitAll m c (flat parts) ≠ commitAll m c (flat (parts.map (Part.choose lastAlone))) := by
  refine ⟨exClient, exParts, ⟨rfl, rfl, rfl⟩, rfl, exParts_ok.1, exParts_inFile, ?_⟩
  revert m
  rintro ⟨_ | _⟩ <;> decide +kernel

/-- By position. -/
def exByPosition : Client := { exClient with options := { ReplicaOptions.default with binlog := .fromPosition "bin.1".toList 4 } }

example (m : Mode) : exByPosition.options.binlog.startingStrategy ≠ .fromGtid ∧
    ∃ c', commitAll m exByPosition (flat (exParts.map (Part.choose lastAlone))) = .ok c' ∧ c'.options.binlog.position = 600 := by
  revert m
  rintro ⟨_ | _⟩ <;> exact ⟨by decide, _, by with_unfolding_all rfl, by decide +kernel⟩

/-- A MariaDB transaction with two statements inside. -/
def exStatements : List (Part MGtid) :=
  [.tx ⟨0, 1, 5⟩ [(exHeader 100, exMGtid 5), (exHeader 200, exQuery "INSERT"), (exHeader 300, exQuery "UPDATE"), (exHeader 400, .xid ⟨7⟩)]]

/-- The hypotheses of the statements about MariaDB are met. With the first of the two committed events nothing is recorded yet, with
the second the GTID is. -/
example (m : Mode) : FromList exMClient ⟨[⟨0, 1, 4⟩]⟩ ∧ (∀ p ∈ exStatements, p.Ok MariaTx) ∧ (∀ p ∈ exStatements, p.InFile) ∧
    finished 1 (exStatements.map (Part.choose firstAndLast)) = [] ∧
    finished 2 (exStatements.map (Part.choose firstAndLast)) = [⟨0, 1, 5⟩] ∧
    ∃ c', commitAll m exMClient (flat exStatements) = .ok c' ∧ c'.options.binlog.gtidList = some ⟨[⟨0, 1, 5⟩]⟩ := by
  refine ⟨⟨rfl, rfl, rfl, rfl⟩, ?_, ?_, by decide, by decide, ?_⟩
  · intro p hp
    simp only [exStatements, List.mem_singleton] at hp
    subst hp
    exact MariaTx.block (x := ⟨⟨0, 1, 5⟩, 0⟩) (body := [(exHeader 200, exQuery "INSERT"), (exHeader 300, exQuery "UPDATE")]) rfl
      (by simp [Inside, IsGtid, Spec.Ends, exQuery]) trivial
  · intro p hp
    simp only [exStatements, List.mem_singleton] at hp
    subst hp
    exact ⟨by simp [exMGtid, exQuery], by simp [exHeader]⟩
  · revert m
    rintro ⟨_ | _⟩ <;> exact ⟨_, by with_unfolding_all rfl, by decide +kernel⟩

end MysqlCdc
