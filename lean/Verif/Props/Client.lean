import Verif.Lemmas.Client
import Verif.Props.MysqlGtid
import Verif.Props.GtidText
/-!
# Position keeping: C17 - C20, C22, C67
-/

namespace MysqlCdc

open Spec

/-- The position of a client that replicates from a MySQL GTID set: what `replicate` leaves before the first event. -/
structure FromSet (c : Client) (set : GtidSet) : Prop where
  strategy : c.options.binlog.startingStrategy = .fromGtid
  idle : c.transaction = false
  set : c.options.binlog.gtidSet = some set

/-- The position of a client that replicates from a MariaDB GTID list. -/
structure FromList (c : Client) (list : GtidList) : Prop where
  strategy : c.options.binlog.startingStrategy = .fromGtid
  idle : c.transaction = false
  list : c.options.binlog.gtidList = some list
  noSet : c.options.binlog.gtidSet = none

/-! ## Concrete data -/

def exHeader (next : Nat) : EventHeader := ⟨0, 0, 1, 0, next, 0⟩
def exQuery (sql : String) : BinlogEvent := .query ⟨1, 0, 0, [], "db".toList, sql.toList⟩
def exGtid (n : Nat) : BinlogEvent := .mySqlGtid ⟨⟨exUuid, n⟩, 1⟩

/-- GTID 5, BEGIN, INSERT, XID; a heartbeat; GTID 8, CREATE. -/
def exParts : List (Part Gtid) :=
  [.tx ⟨exUuid, 5⟩ [(exHeader 100, exGtid 5), (exHeader 200, exQuery "BEGIN"), (exHeader 300, exQuery "INSERT"),
      (exHeader 400, .xid ⟨7⟩)],
   .noise (exHeader 0, .heartbeat ⟨"bin.1".toList⟩),
   .tx ⟨exUuid, 8⟩ [(exHeader 500, exGtid 8), (exHeader 600, exQuery "CREATE")]]

def exClient : Client :=
  ⟨{ ReplicaOptions.default with binlog := .fromMysqlGtid exSet }, false, none, none⟩

theorem exParts_ok : (∀ p ∈ exParts, p.Ok MysqlTx) ∧ ∀ g ∈ exParts.flatMap Part.gtids, GtidOk g := by
  constructor
  · intro p hp
    simp only [exParts, List.mem_cons, List.not_mem_nil, or_false] at hp
    rcases hp with rfl | rfl | rfl
    · exact MysqlTx.block (mid := []) (body := [(exHeader 300, exQuery "INSERT")]) (x := ⟨⟨exUuid, 5⟩, 1⟩) rfl (by simp) rfl
        (by simp [Inside, IsGtid, Ends, exQuery]) trivial
    · exact trivial
    · exact MysqlTx.auto (mid := []) (x := ⟨⟨exUuid, 8⟩, 1⟩) rfl (by simp) (by simp [AutoCommits, exQuery])
  · intro g hg
    simp only [exParts, List.flatMap_cons, List.flatMap_nil, Part.gtids, List.append_nil, List.cons_append,
      List.nil_append, List.mem_cons, List.not_mem_nil, or_false] at hg
    rcases hg with rfl | rfl <;> exact ⟨UuidCanon_ok exUuid_canon, by decide⟩

/-- `add_gtid` in terms of what the set stands for. -/
theorem addGtid_has (m : Mode) (set : GtidSet) (g : Gtid) (hw : Wf set) (ho : AllOrdered set) (hg : GtidOk g) :
    ∃ b set', set.addGtid m g = .ok (b, set') ∧ Wf set' ∧ AllOrdered set' ∧
      ∀ u n, Has set' u n ↔ Has set u n ∨ (u = g.sourceId.data ∧ n = g.transactionId) := by
  obtain ⟨b, set', h1, h2, h3, h4⟩ := addGtid_full m set g hw ho hg.1 hg.2
  exact ⟨b, set', h1, h2, h3, has_add hw h2 hg.1 h4.2.2.2.1⟩

/-! ## C17 -/

/-- C17. Whatever the stream of transactions, after committing its first `k` events, for every `k`, the recorded set stands for
the initial transactions and the transactions whose last event is among them; nothing else, in particular no transaction still
in progress. -/
theorem C17_exactly_finished (m : Mode) (c : Client) (set : GtidSet) (hc : FromSet c set) (hw : Wf set) (ho : AllOrdered set)
    (parts : List (Part Gtid)) (hp : ∀ p ∈ parts, p.Ok MysqlTx) (hg : ∀ g ∈ parts.flatMap Part.gtids, GtidOk g) (k : Nat) :
    ∃ c' set', commitAll m c ((flat parts).take k) = .ok c' ∧ c'.options.binlog.gtidSet = some set' ∧ Wf set' ∧ AllOrdered set' ∧
      ∀ u n, Has set' u n ↔ Has set u n ∨ ∃ g ∈ finished k parts, u = g.sourceId.data ∧ n = g.transactionId := by
  obtain ⟨c', tr, l', set', h1, h2, h3, h5, h4⟩ := mysql_prefix m parts hp hg k c c.mysqlGtid set
    ⟨hc.strategy, hc.idle, rfl, hc.set⟩ hw ho
  exact ⟨c', set', h1, h2.set, h3, h5, h4⟩

example : FromSet exClient exSet ∧ Wf exSet ∧ AllOrdered exSet ∧ (∀ p ∈ exParts, p.Ok MysqlTx) ∧
    (∀ g ∈ exParts.flatMap Part.gtids, GtidOk g) ∧ finished 3 exParts = [] ∧ finished 4 exParts = [⟨exUuid, 5⟩] ∧
    finished 6 exParts = [⟨exUuid, 5⟩] ∧ finished 7 exParts = [⟨exUuid, 5⟩, ⟨exUuid, 8⟩] :=
  ⟨⟨rfl, rfl, rfl⟩, exSet_wf, exSet_ordered, exParts_ok.1, exParts_ok.2, by decide, by decide, by decide, by decide⟩

/-! ## C22 -/

theorem finished_append_unfinished {γ : Type} (parts : List (Part γ)) (k : Nat) :
    parts.flatMap Part.gtids = finished k parts ++ unfinished k parts := by
  induction parts generalizing k with
  | nil => rfl
  | cons p ps ih =>
    rw [finished, unfinished]
    split
    · rw [List.flatMap_cons, ih (k - p.events.length), List.append_assoc]
    · rfl

open Classical in
/-- C22. For a stream of distinct transactions that are not in the initial set, the transactions missing from the set recorded
after the first `k` events (those the server will send after a reconnection) are exactly the ones with an event that was not
committed, in order: none is lost and none comes twice. -/
theorem C22_no_loss_no_repeat (m : Mode) (c : Client) (set : GtidSet) (hc : FromSet c set) (hw : Wf set) (ho : AllOrdered set)
    (parts : List (Part Gtid)) (hp : ∀ p ∈ parts, p.Ok MysqlTx) (hg : ∀ g ∈ parts.flatMap Part.gtids, GtidOk g)
    (hd : ((parts.flatMap Part.gtids).map fun g => (g.sourceId.data, g.transactionId)).Nodup)
    (hn : ∀ g ∈ parts.flatMap Part.gtids, ¬ Has set g.sourceId.data g.transactionId) (k : Nat) :
    ∃ c' set', commitAll m c ((flat parts).take k) = .ok c' ∧ c'.options.binlog.gtidSet = some set' ∧
      (parts.flatMap Part.gtids).filter (fun g => ¬ Has set' g.sourceId.data g.transactionId) = unfinished k parts := by
  obtain ⟨c', set', h1, h2, _, _, h3⟩ := C17_exactly_finished m c set hc hw ho parts hp hg k
  refine ⟨c', set', h1, h2, ?_⟩
  rw [finished_append_unfinished parts k, List.map_append, List.nodup_append] at hd
  rw [finished_append_unfinished parts k, List.filter_append]
  have e1 : (finished k parts).filter (fun g => ¬ Has set' g.sourceId.data g.transactionId) = [] := by
    rw [List.filter_eq_nil_iff]
    intro g hg'
    simp only [decide_not, Bool.not_eq_eq_eq_not, Bool.not_true, decide_eq_false_iff_not, not_not]
    exact (h3 _ _).2 (Or.inr ⟨g, hg', rfl, rfl⟩)
  have e2 : (unfinished k parts).filter (fun g => ¬ Has set' g.sourceId.data g.transactionId) = unfinished k parts := by
    rw [List.filter_eq_self]
    intro g hg'
    have hmem : g ∈ parts.flatMap Part.gtids := by
      rw [finished_append_unfinished parts k]
      exact List.mem_append_right _ hg'
    simp only [decide_not, Bool.not_eq_eq_eq_not, Bool.not_true, decide_eq_false_iff_not]
    rw [h3]
    rintro (h | ⟨g', hg'', e1, e2⟩)
    · exact hn g hmem h
    · exact hd.2.2 _ (List.mem_map.2 ⟨g', hg'', rfl⟩) _ (List.mem_map.2 ⟨g, hg', rfl⟩) (by rw [e1, e2])
  rw [e1, e2, List.nil_append]

example : ((exParts.flatMap Part.gtids).map fun g => (g.sourceId.data, g.transactionId)).Nodup ∧
    (∀ g ∈ exParts.flatMap Part.gtids, ¬ Has exSet g.sourceId.data g.transactionId) ∧
    unfinished 6 exParts = [⟨exUuid, 8⟩] := by
  refine ⟨by decide, ?_, by decide⟩
  intro g hg
  simp only [exParts, List.flatMap_cons, List.flatMap_nil, Part.gtids, List.append_nil, List.cons_append,
    List.nil_append, List.mem_cons, List.not_mem_nil, or_false] at hg
  rintro ⟨e, he, h1, iv, hiv, h2, h3⟩
  simp only [exSet, List.mem_cons, List.not_mem_nil, or_false] at he
  rcases he with rfl | rfl
  · simp only [List.mem_cons, List.not_mem_nil, or_false] at hiv
    rcases hiv with rfl | rfl <;> rcases hg with rfl | rfl <;> simp at h2 h3
  · rcases hg with rfl | rfl <;> exact absurd h1 (by decide)

/-! ## C18 -/

def exMGtid (n : Nat) : BinlogEvent := .mariaDbGtid ⟨⟨0, 1, n⟩, 0⟩

def exMClient : Client :=
  ⟨{ ReplicaOptions.default with binlog := .fromMariadbGtid ⟨[⟨0, 1, 4⟩]⟩ }, false, none, none⟩

/-- C18 is false: in a MariaDB transaction that contains a statement (statement-based logging, or a mixed transaction), the GTID
is recorded after that statement although the transaction has not ended; after a crash there the rest of it is never sent. -/
theorem C18_statement_in_transaction_false (m : Mode) : ∃ (es : List Ev) (c' : Client),
    MariaTx ⟨0, 1, 5⟩ es ∧ finished 2 [Part.tx (⟨0, 1, 5⟩ : MGtid) es] = [] ∧
      commitAll m exMClient (es.take 2) = .ok c' ∧ c'.options.binlog.gtidList = some ⟨[⟨0, 1, 5⟩]⟩ := by
  refine ⟨[(exHeader 100, exMGtid 5), (exHeader 200, exQuery "INSERT"), (exHeader 300, exQuery "UPDATE"), (exHeader 400, .xid ⟨7⟩)],
    { exMClient with
      mariaGtid := some ⟨0, 1, 5⟩
      options := { exMClient.options with binlog := { exMClient.options.binlog with position := 200, gtidList := some ⟨[⟨0, 1, 5⟩]⟩ } } },
    ?_, by decide, ?_, rfl⟩
  · exact MariaTx.block (x := ⟨⟨0, 1, 5⟩, 0⟩) (body := [(exHeader 200, exQuery "INSERT"), (exHeader 300, exQuery "UPDATE")]) rfl
      (by simp [Inside, IsGtid, Ends, exQuery]) trivial
  · revert m
    rintro ⟨_ | _⟩ <;> decide +kernel

/-- No statement other than the last event: row-based logging, or a statement alone in its transaction. -/
def NoStatementBefore (es : List Ev) : Prop := ∀ p ∈ es.dropLast, ¬ AutoCommits p.2 ∧ ¬ Begins p.2

/-- C18. For MariaDB transactions without statements before the last event, after committing the first `k` events the recorded
list holds for each domain the last finished GTID, or what it held before. (Missing: transactions with statements inside; see
`C18_statement_in_transaction_false`.) -/
theorem C18_exactly_finished_partial (m : Mode) (c : Client) (list : GtidList) (hc : FromList c list)
    (hl : (list.gtids.map (·.domainId)).Nodup) (parts : List (Part MGtid)) (hp : ∀ p ∈ parts, p.Ok MariaTx)
    (hs : ∀ p ∈ parts, NoStatementBefore p.events) (k : Nat) :
    ∃ c' list', commitAll m c ((flat parts).take k) = .ok c' ∧ c'.options.binlog.gtidList = some list' ∧
      c'.options.binlog.gtidSet = none ∧ (list'.gtids.map (·.domainId)).Nodup ∧
      ∀ g, g ∈ list'.gtids ↔
        LastOf (finished k parts) g ∨ (g ∈ list.gtids ∧ ∀ y ∈ finished k parts, y.domainId ≠ g.domainId) := by
  suffices H : ∀ (parts : List (Part MGtid)) (k : Nat) (c : Client) (l : Option MGtid) (list : GtidList),
      (∀ p ∈ parts, p.Ok MariaTx) → (∀ p ∈ parts, NoStatementBefore p.events) → Mw c l list → c.transaction = false →
      ∃ c' l', commitAll m c ((flat parts).take k) = .ok c' ∧ Mw c' l' (addAllM list (finished k parts)) by
    obtain ⟨c', l', h1, h2⟩ := H parts k c c.mariaGtid list hp hs ⟨hc.strategy, rfl, hc.list, hc.noSet⟩ hc.idle
    exact ⟨c', _, h1, h2.list, h2.set, C14_history_distinct list _ hl, fun g => C13_last_of_each_domain list _ hl g⟩
  clear hp hs hl hc c list parts k
  intro parts
  induction parts with
  | nil => intro k c l list _ _ hc _; exact ⟨c, l, by simp [flat, commitAll], hc⟩
  | cons p ps ih =>
    intro k c l list hp hs hc ht
    have hflat : flat (p :: ps) = p.events ++ flat ps := by simp [flat]
    -- a transaction is a quiet front and an event that commits
    have split : ∀ g es, MariaTx g es → NoStatementBefore es → ∃ h0 x mid last, es = (h0, BinlogEvent.mariaDbGtid x) :: mid ++ [last] ∧
        x.gtid = g ∧ (∀ p ∈ mid, Neutral p.2) ∧ (Ends last.2 ∨ AutoCommits last.2) := by
      intro g es h hns
      cases h with
      | @block h0 he x e body hx hi hend =>
        refine ⟨h0, x, body, (he, e), rfl, hx, ?_, Or.inl hend⟩
        intro p hp
        have h1 := hi p hp
        have h2 := hns p (by rw [List.dropLast_concat]; simp [hp])
        obtain ⟨hd, e⟩ := p
        cases e with
        | query q =>
          simp only [Inside, Ends, not_or, AutoCommits, Begins] at h1 h2
          simp only [Neutral]
          exact Classical.byContradiction fun hq => h2.1 ⟨hq, h2.2, h1.2.1, h1.2.2⟩
        | mySqlGtid x => exact absurd trivial h1.1
        | mariaDbGtid x => exact absurd trivial h1.1
        | xid x => exact absurd trivial h1.2
        | _ => trivial
      | @auto h0 he x e mid hx hm hauto => exact ⟨h0, x, mid, (he, e), rfl, hx, hm, Or.inr hauto⟩
    rw [hflat, finished]
    by_cases hk : p.events.length ≤ k
    · rw [if_pos hk, List.take_append, List.take_of_length_le hk, commitAll_append]
      cases p with
      | noise e =>
        have hn : ∀ p ∈ [e], Neutral p.2 := by simpa using (show Neutral e.2 from hp (.noise e) (by simp))
        obtain ⟨c1, h1, h2⟩ := hc.quiets m [e] fun p hp => neutral_inside (hn p hp)
        have h3 := neutral_transaction hn h1
        rw [Part.events, h1]
        exact ih _ c1 l list (fun p hp' => hp p (by simp [hp'])) (fun p hp' => hs p (by simp [hp'])) h2 (by rw [h3, ht])
      | tx g es =>
        obtain ⟨h0, x, mid, last, rfl, rfl, hn, hlast⟩ := split g es (hp (.tx g es) (by simp)) (hs (.tx g es) (by simp))
        obtain ⟨c1, h1, h1t, h2⟩ := hc.gtid m h0 x
        obtain ⟨c2, h3, h4⟩ := h2.quiets m mid fun p hp => neutral_inside (hn p hp)
        have h5 := neutral_transaction hn h3
        obtain ⟨c3, h6, h7, h8⟩ : ∃ c', c2.commit m last.1 last.2 = .ok c' ∧ c'.transaction = false ∧
            Mw c' (some x.gtid) (list.addGtid x.gtid).2 := by
          rcases hlast with hl | hl
          · exact h4.ends m last.1 hl
          · exact h4.auto (by rw [h5, h1t, ht]) m last.1 hl
        have hall : commitAll m c (Part.tx x.gtid ((h0, BinlogEvent.mariaDbGtid x) :: mid ++ [last])).events = .ok c3 := by
          simp only [Part.events, List.cons_append, commitAll, h1, Res.bind_ok, commitAll_append, h3, h6]
        rw [hall]
        exact ih _ c3 (some x.gtid) _ (fun p hp' => hp p (by simp [hp'])) (fun p hp' => hs p (by simp [hp'])) h8 h7
    · rw [if_neg hk, List.take_append_of_le_length (by omega)]
      cases p with
      | noise e =>
        simp only [Part.events, List.length_singleton] at hk
        have : k = 0 := by omega
        subst this
        exact ⟨c, l, by simp [commitAll], hc⟩
      | tx g es =>
        obtain ⟨h0, x, mid, last, rfl, rfl, hn, hlast⟩ := split g es (hp (.tx g es) (by simp)) (hs (.tx g es) (by simp))
        simp only [Part.events, List.length_append, List.length_cons, List.length_nil] at hk
        cases k with
        | zero => exact ⟨c, l, by simp [commitAll], hc⟩
        | succ k =>
          obtain ⟨c1, h1, _, h2⟩ := hc.gtid m h0 x
          obtain ⟨c2, h3, h4⟩ := h2.quiets m (mid.take k) fun p hp => neutral_inside (hn p (List.mem_of_mem_take hp))
          refine ⟨c2, some x.gtid, ?_, h4⟩
          rw [Part.events, List.cons_append, List.take_succ_cons, List.take_append_of_le_length (by omega)]
          simp [commitAll, h1, h3]

/-- GTID 0-1-5, table map, rows, XID; GTID 0-1-6, CREATE. -/
example : let parts : List (Part MGtid) :=
      [.tx ⟨0, 1, 5⟩ [(exHeader 100, exMGtid 5), (exHeader 200, .unknown), (exHeader 400, .xid ⟨7⟩)],
       .tx ⟨0, 1, 6⟩ [(exHeader 500, exMGtid 6), (exHeader 600, exQuery "CREATE")]]
    FromList exMClient ⟨[⟨0, 1, 4⟩]⟩ ∧ (∀ p ∈ parts, p.Ok MariaTx) ∧ (∀ p ∈ parts, NoStatementBefore p.events) ∧
      finished 4 parts = [⟨0, 1, 5⟩] ∧ finished 5 parts = [⟨0, 1, 5⟩, ⟨0, 1, 6⟩] := by
  refine ⟨⟨rfl, rfl, rfl, rfl⟩, ?_, ?_, by decide, by decide⟩
  · intro p hp
    simp only [List.mem_cons, List.not_mem_nil, or_false] at hp
    rcases hp with rfl | rfl
    · exact MariaTx.block (x := ⟨⟨0, 1, 5⟩, 0⟩) (body := [(exHeader 200, .unknown)]) rfl (by simp [Inside, IsGtid, Ends]) trivial
    · exact MariaTx.auto (mid := []) (x := ⟨⟨0, 1, 6⟩, 0⟩) rfl (by simp) (by simp [AutoCommits, exQuery])
  · intro p hp
    simp only [List.mem_cons, List.not_mem_nil, or_false] at hp
    rcases hp with rfl | rfl <;> simp [NoStatementBefore, Part.events, AutoCommits, Begins, exMGtid]

/-! ## C19 -/

/-- Everything `update_gtid_position` may change. -/
def Client.withGtids (c : Client) (tr : Bool) (mg : Option MGtid) (g : Option Gtid) (list : Option GtidList)
    (set : Option GtidSet) : Client :=
  { c with
    transaction := tr
    mariaGtid := mg
    mysqlGtid := g
    options := { c.options with binlog := { c.options.binlog with gtidList := list, gtidSet := set } } }

theorem updateGtidPosition_place (m : Mode) {c c' : Client} {e : BinlogEvent} (h : c.updateGtidPosition m e = .ok c') :
    ∃ tr mg g list set, c' = c.withGtids tr mg g list set ∧
      (c.options.binlog.startingStrategy ≠ .fromGtid → c' = c) := by
  have hcommit : ∀ c', c.commitGtid m = .ok c' → ∃ tr mg g list set, c' = c.withGtids tr mg g list set := by
    intro c' h
    unfold Client.commitGtid at h
    cases hm : commitMysql m c.mysqlGtid c.options.binlog.gtidSet with
    | ok s =>
      rw [hm] at h
      simp only [Res.bind_ok, Res.pure_eq, Res.ok.injEq] at h
      exact ⟨_, _, _, _, _, h.symm⟩
    | err e => simp [hm] at h
    | panic => simp [hm] at h
    | hang => simp [hm] at h
  have hsame : ∃ tr mg g list set, c = c.withGtids tr mg g list set :=
    ⟨c.transaction, c.mariaGtid, c.mysqlGtid, c.options.binlog.gtidList, c.options.binlog.gtidSet, rfl⟩
  unfold Client.updateGtidPosition at h
  split at h
  · simp only [Res.ok.injEq] at h
    subst h
    obtain ⟨tr, mg, g, list, set, h⟩ := hsame
    exact ⟨tr, mg, g, list, set, h, fun _ => rfl⟩
  · rename_i hs
    suffices hh : ∃ tr mg g list set, c' = c.withGtids tr mg g list set by
      obtain ⟨tr, mg, g, list, set, hh⟩ := hh
      exact ⟨tr, mg, g, list, set, hh, fun h => absurd h hs⟩
    split at h
    · simp only [Res.ok.injEq] at h; exact ⟨_, _, _, _, _, h.symm⟩
    · simp only [Res.ok.injEq] at h; exact ⟨_, _, _, _, _, h.symm⟩
    · exact hcommit _ h
    · split at h
      · simp only [Res.ok.injEq] at h; subst h; exact hsame
      · split at h
        · simp only [Res.ok.injEq] at h; exact ⟨_, _, _, _, _, h.symm⟩
        · split at h
          · exact hcommit _ h
          · split at h
            · exact hcommit _ h
            · simp only [Res.ok.injEq] at h; subst h; exact hsame
    · simp only [Res.ok.injEq] at h; subst h; exact hsame

theorem commit_inv {m : Mode} {c c' : Client} {h : EventHeader} {e : BinlogEvent} (hc : c.commit m h e = .ok c') :
    ∃ c1, c.updateGtidPosition m e = .ok c1 ∧ c' = c1.updateBinlogPosition h e := by
  unfold Client.commit at hc
  cases h1 : c.updateGtidPosition m e with
  | ok c1 =>
    rw [h1] at hc
    simp only [Res.bind_ok, Res.pure_eq, Res.ok.injEq] at hc
    exact ⟨c1, rfl, hc.symm⟩
  | err e => simp [h1] at hc
  | panic => simp [h1] at hc
  | hang => simp [h1] at hc

theorem commitAll_cons {m : Mode} {c c' : Client} {e : Ev} {es : List Ev} (h : commitAll m c (e :: es) = .ok c') :
    ∃ c1, c.commit m e.1 e.2 = .ok c1 ∧ commitAll m c1 es = .ok c' := by
  rw [commitAll] at h
  cases h1 : c.commit m e.1 e.2 with
  | ok c1 => rw [h1] at h; exact ⟨c1, rfl, h⟩
  | err e => simp [h1] at h
  | panic => simp [h1] at h
  | hang => simp [h1] at h

theorem lastOr_cons {α : Type} (d x : α) (xs : List α) : lastOr d (x :: xs) = lastOr x xs := by
  cases xs with
  | nil => rfl
  | cons y ys => simp [lastOr, List.getLast?_cons]

/-- Positions in rotate events fit the `u32` of the options. -/
def RotatesFit (es : List Ev) : Prop := ∀ e ∈ es, ∀ r, e.2 = .rotate r → r.binlogPosition < 2 ^ 32

theorem updateBinlogPosition_step (c : Client) (e : Ev) (hf : ∀ r, e.2 = .rotate r → r.binlogPosition < 2 ^ 32) :
    (c.updateBinlogPosition e.1 e.2).options.binlog.filename = (newFile e).getD c.options.binlog.filename ∧
      (c.updateBinlogPosition e.1 e.2).options.binlog.position = (newPosition e).getD c.options.binlog.position := by
  obtain ⟨h, e⟩ := e
  have other : ∀ c : Client,
      (if h.nextEventPosition > 0 then c.setPosition c.options.binlog.filename h.nextEventPosition else c).options.binlog.filename =
        c.options.binlog.filename ∧
      (if h.nextEventPosition > 0 then c.setPosition c.options.binlog.filename h.nextEventPosition else c).options.binlog.position =
        (if h.nextEventPosition = 0 then none else some h.nextEventPosition).getD c.options.binlog.position := by
    intro c
    by_cases hz : h.nextEventPosition = 0
    · simp [hz]
    · rw [if_pos (by omega), if_neg hz]
      exact ⟨rfl, rfl⟩
  cases e with
  | rotate r => exact ⟨rfl, Nat.mod_eq_of_lt (hf r rfl)⟩
  | tableMap t => exact ⟨rfl, rfl⟩
  | _ => exact other c

/-- C19. After committing any events, the recorded file name is that of the last rotate event and the recorded position the last
one carried by an event; without such an event they are the initial ones. (Missing: rotate events with positions from 2^32 on;
see `C19_large_position_false`.) -/
theorem C19_position_follows_partial (m : Mode) (c c' : Client) (es : List Ev) (hf : RotatesFit es) (h : commitAll m c es = .ok c') :
    c'.options.binlog.filename = lastOr c.options.binlog.filename (es.filterMap newFile) ∧
      c'.options.binlog.position = lastOr c.options.binlog.position (es.filterMap newPosition) := by
  induction es generalizing c with
  | nil =>
    simp only [commitAll, Res.ok.injEq] at h
    subst h
    exact ⟨rfl, rfl⟩
  | cons e es ih =>
    obtain ⟨c1, h1, h2⟩ := commitAll_cons h
    obtain ⟨c0, h3, rfl⟩ := commit_inv h1
    obtain ⟨tr, mg, g, list, set, h4, _⟩ := updateGtidPosition_place m h3
    obtain ⟨i1, i2⟩ := ih _ (fun x hx => hf x (by simp [hx])) h2
    have f1 : c0.options.binlog.filename = c.options.binlog.filename := by rw [h4]; rfl
    have f2 : c0.options.binlog.position = c.options.binlog.position := by rw [h4]; rfl
    have step : (c0.updateBinlogPosition e.1 e.2).options.binlog.filename = (newFile e).getD c.options.binlog.filename ∧
        (c0.updateBinlogPosition e.1 e.2).options.binlog.position = (newPosition e).getD c.options.binlog.position := by
      rw [← f1, ← f2]
      exact updateBinlogPosition_step c0 e (hf e (by simp))
    rw [i1, i2, step.1, step.2]
    constructor
    · rw [List.filterMap_cons]
      cases newFile e with
      | none => rfl
      | some f => simp [lastOr_cons]
    · rw [List.filterMap_cons]
      cases newPosition e with
      | none => rfl
      | some f => simp [lastOr_cons]

example : RotatesFit [(exHeader 0, .rotate ⟨"bin.2".toList, 4⟩), (exHeader 123, .unknown), (exHeader 0, .unknown)] ∧
    lastOr "bin.1".toList ([(exHeader 0, BinlogEvent.rotate ⟨"bin.2".toList, 4⟩), (exHeader 123, .unknown),
      (exHeader 0, .unknown)].filterMap newFile) = "bin.2".toList ∧
    lastOr 7 ([(exHeader 0, BinlogEvent.rotate ⟨"bin.2".toList, 4⟩), (exHeader 123, .unknown),
      (exHeader 0, .unknown)].filterMap newPosition) = 123 := by
  refine ⟨?_, by decide, by decide⟩
  intro e he r hr
  simp only [List.mem_cons, List.not_mem_nil, or_false] at he
  rcases he with rfl | rfl | rfl <;> simp_all
  subst hr
  decide

/-- C19 is false for files of 4 GiB and more: the 64-bit position of a rotate event is cut to 32 bits. -/
theorem C19_large_position_false (m : Mode) (c : Client) : ∃ c',
    c.commit m (exHeader 0) (.rotate ⟨"bin.1".toList, 2 ^ 32 + 4⟩) = .ok c' ∧ c'.options.binlog.position = 4 :=
  ⟨_, commit_eq m c _ _ (c1 := c) (by unfold Client.updateGtidPosition; split <;> rfl), rfl⟩

/-- C19, for all positions: the file name is always that of the last rotate event, and the position is the last one carried by an
event, cut to 32 bits. (The positions in headers are 32 bits wide.) -/
theorem C19_position_cut (m : Mode) (c c' : Client) (es : List Ev) (hw : ∀ e ∈ es, e.1.nextEventPosition < 2 ^ 32)
    (h : commitAll m c es = .ok c') :
    c'.options.binlog.filename = lastOr c.options.binlog.filename (es.filterMap newFile) ∧
      c'.options.binlog.position = lastOr c.options.binlog.position ((es.filterMap newPosition).map (· % 2 ^ 32)) := by
  induction es generalizing c with
  | nil =>
    simp only [commitAll, Res.ok.injEq] at h
    subst h
    exact ⟨rfl, rfl⟩
  | cons e es ih =>
    obtain ⟨c1, h1, h2⟩ := commitAll_cons h
    obtain ⟨c0, h3, rfl⟩ := commit_inv h1
    obtain ⟨tr, mg, g, list, set, h4, _⟩ := updateGtidPosition_place m h3
    obtain ⟨i1, i2⟩ := ih _ (fun x hx => hw x (by simp [hx])) h2
    have f1 : c0.options.binlog.filename = c.options.binlog.filename := by rw [h4]; rfl
    have f2 : c0.options.binlog.position = c.options.binlog.position := by rw [h4]; rfl
    have step : (c0.updateBinlogPosition e.1 e.2).options.binlog.filename = (newFile e).getD c.options.binlog.filename ∧
        (c0.updateBinlogPosition e.1 e.2).options.binlog.position =
          ((newPosition e).map (· % 2 ^ 32)).getD c.options.binlog.position := by
      rw [← f1, ← f2]
      by_cases hr : ∃ r, e.2 = .rotate r
      · obtain ⟨r, hr⟩ := hr
        simp [newFile, newPosition, hr, Client.updateBinlogPosition, Client.setPosition]
      · obtain ⟨j1, j2⟩ := updateBinlogPosition_step c0 e (fun r h => absurd ⟨r, h⟩ hr)
        refine ⟨j1, ?_⟩
        rw [j2]
        cases hp : newPosition e with
        | none => rfl
        | some q =>
          have : q = e.1.nextEventPosition := by
            unfold newPosition at hp
            split at hp
            · rename_i r h; exact absurd ⟨r, h⟩ hr
            · cases hp
            · split at hp
              · cases hp
              · injection hp with hp; exact hp.symm
          have := hw e (by simp)
          simp only [Option.map_some, Option.getD_some]
          rw [Nat.mod_eq_of_lt (by omega)]
    rw [i1, i2, step.1, step.2]
    constructor
    · rw [List.filterMap_cons]
      cases newFile e with
      | none => rfl
      | some f => simp [lastOr_cons]
    · rw [List.filterMap_cons]
      cases newPosition e with
      | none => rfl
      | some f => simp [lastOr_cons]

/-- A rotate event beyond 4 GiB, and after it an event without position. -/
example : let es : List Ev := [(exHeader 123, .unknown), (exHeader 0, .rotate ⟨"bin.2".toList, 2 ^ 32 + 9⟩), (exHeader 0, .unknown)]
    (∀ e ∈ es, e.1.nextEventPosition < 2 ^ 32) ∧ lastOr 7 ((es.filterMap newPosition).map (· % 2 ^ 32)) = 9 := by
  refine ⟨?_, by decide⟩
  intro e he
  simp only [List.mem_cons, List.not_mem_nil, or_false] at he
  rcases he with rfl | rfl | rfl <;> decide

/-! ## C67 -/

theorem autoCommits_of_statement {a : String} (ha : a = "XA START" ∨ a = "XA END") {e : BinlogEvent} (h : Statement a e) :
    AutoCommits e := by
  cases e with
  | query q =>
    obtain ⟨rest, h⟩ := h
    simp only [AutoCommits, h]
    rcases ha with rfl | rfl <;> simp
  | _ => exact h.elim

/-- C67, the part that holds: once all events of the first phase of a distributed transaction have been committed, it is recorded.
(It is recorded too early: see `C67_xa_recorded_early_false`.) -/
theorem C67_xa_recorded_partial (m : Mode) (c : Client) (set : GtidSet) (hc : FromSet c set) (hw : Wf set) (ho : AllOrdered set)
    (g : Gtid) (hg : GtidOk g) (es : List Ev) (hx : MysqlXa g es) :
    ∃ c' set', commitAll m c es = .ok c' ∧ c'.options.binlog.gtidSet = some set' ∧
      ∀ u n, Has set' u n ↔ Has set u n ∨ (u = g.sourceId.data ∧ n = g.transactionId) := by
  cases hx with
  | @phase h0 hs he hp x s e body hx hstart hi hend =>
    subst hx
    obtain ⟨c1, h1, v1⟩ := Mv.gtid ⟨hc.strategy, hc.idle, rfl, hc.set⟩ m h0 x
    obtain ⟨b1, s1, a1, w1, o1, f1⟩ := addGtid_has m set x.gtid hw ho hg
    obtain ⟨c2, h2, v2⟩ := v1.auto m hs (autoCommits_of_statement (Or.inl rfl) hstart) a1
    obtain ⟨c3, h3, v3⟩ := keeps_neutral m false _ body hi c2 s1 v2
    obtain ⟨b2, s2, a2, w2, o2, f2⟩ := addGtid_has m s1 x.gtid w1 o1 hg
    obtain ⟨c4, h4, v4⟩ := v3.auto m he (autoCommits_of_statement (Or.inr rfl) hend) a2
    obtain ⟨c5, h5, v5⟩ := v4.neutral m hp (e := .unknown) trivial
    refine ⟨c5, s2, ?_, v5.set, fun u n => ?_⟩
    · simp only [List.cons_append, commitAll, h1, h2, Res.bind_ok, commitAll_append, h3, h4, h5]
    · rw [f2, f1]
      simp only [or_assoc, or_self]

/-- C67 is false: the GTID is recorded after `XA START`, before any of the changes; after a crash they are never sent. -/
theorem C67_xa_recorded_early_false (m : Mode) : ∃ (es : List Ev) (c' : Client) (set' : GtidSet),
    MysqlXa ⟨exUuid, 5⟩ es ∧ es.length = 5 ∧ commitAll m exClient (es.take 2) = .ok c' ∧
      c'.options.binlog.gtidSet = some set' ∧ ¬ Has exSet exUuid.data 5 ∧ Has set' exUuid.data 5 := by
  obtain ⟨b, set', a, _, _, f⟩ := addGtid_has m exSet ⟨exUuid, 5⟩ exSet_wf exSet_ordered ⟨UuidCanon_ok exUuid_canon, by decide⟩
  obtain ⟨c1, h1, v1⟩ := Mv.gtid (c := exClient) (set := exSet) ⟨rfl, rfl, rfl, rfl⟩ m (exHeader 100) ⟨⟨exUuid, 5⟩, 1⟩
  obtain ⟨c2, h2, v2⟩ := v1.auto m (exHeader 200) (e := exQuery "XA START X'01'") (by simp [AutoCommits, exQuery]) a
  refine ⟨[(exHeader 100, exGtid 5), (exHeader 200, exQuery "XA START X'01'"), (exHeader 300, .unknown),
    (exHeader 400, exQuery "XA END X'01'"), (exHeader 500, .unknown)], c2, set', ?_, rfl, ?_, v2.set, ?_, (f _ _).2 (Or.inr ⟨rfl, rfl⟩)⟩
  · exact MysqlXa.phase (x := ⟨⟨exUuid, 5⟩, 1⟩) (body := [(exHeader 300, .unknown)]) rfl ⟨" X'01'".toList, by decide⟩
      (by simp [Neutral]) ⟨" X'01'".toList, by decide⟩
  · simp only [List.take_succ_cons, List.take_zero, commitAll]
    rw [show exGtid 5 = BinlogEvent.mySqlGtid ⟨⟨exUuid, 5⟩, 1⟩ from rfl]
    simp only [h1, h2, Res.bind_ok]
  · rintro ⟨e, he, h1, iv, hiv, h2, h3⟩
    simp only [exSet, List.mem_cons, List.not_mem_nil, or_false] at he
    rcases he with rfl | rfl
    · simp only [List.mem_cons, List.not_mem_nil, or_false] at hiv
      rcases hiv with rfl | rfl <;> simp at h2 h3
    · exact absurd h1 (by decide)

/-! ## C20 -/

/-- C20. `commit` changes no option other than file name, position and GTID position, and without GTID replication it changes
neither `gtid_set` nor `gtid_list`. -/
theorem C20_only_positions_change (m : Mode) (c c' : Client) (es : List Ev) (h : commitAll m c es = .ok c') :
    (∃ filename position gtidSet gtidList, c'.options = { c.options with
      binlog := { c.options.binlog with filename := filename, position := position, gtidSet := gtidSet, gtidList := gtidList } }) ∧
    (c.options.binlog.startingStrategy ≠ .fromGtid →
      c'.options.binlog.gtidSet = c.options.binlog.gtidSet ∧ c'.options.binlog.gtidList = c.options.binlog.gtidList) := by
  induction es generalizing c with
  | nil =>
    simp only [commitAll, Res.ok.injEq] at h
    subst h
    exact ⟨⟨_, _, _, _, rfl⟩, fun _ => ⟨rfl, rfl⟩⟩
  | cons e es ih =>
    obtain ⟨c1, h1, h2⟩ := commitAll_cons h
    obtain ⟨c0, h3, rfl⟩ := commit_inv h1
    obtain ⟨tr, mg, g, list, set, h4, h5⟩ := updateGtidPosition_place m h3
    obtain ⟨⟨f, p, s, l, i1⟩, i2⟩ := ih _ h2
    obtain ⟨f', p', hs⟩ : ∃ f p, (c0.updateBinlogPosition e.1 e.2).options = { c0.options with
        binlog := { c0.options.binlog with filename := f, position := p } } := by
      rcases updateBinlogPosition_cases c0 e.1 e.2 with hh | ⟨f, p, hh⟩
      · exact ⟨c0.options.binlog.filename, c0.options.binlog.position, by rw [hh]⟩
      · exact ⟨f, p, by rw [hh]; rfl⟩
    constructor
    · refine ⟨f, p, s, l, ?_⟩
      rw [i1, hs, h4]; rfl
    · intro hne
      have hc0 := h5 hne
      subst hc0
      have := i2 (by rw [hs]; exact hne)
      rw [this.1, this.2, hs]
      exact ⟨rfl, rfl⟩

example : (BinlogOptions.fromPosition "bin.1".toList 4).startingStrategy ≠ .fromGtid := by decide

end MysqlCdc
