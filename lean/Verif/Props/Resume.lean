import Verif.Props.Deliveries
import Verif.Props.Log
/-!
# C111: reconnecting by MySQL GTIDs to a server that starts at the file and position of the request

A request by MySQL GTIDs carries a file name and a position besides the set. A MySQL server looks for the file by the set only if the
name is empty; otherwise it starts at the named place (and leaves out the transactions the set lists).
-/

namespace MysqlCdc
open Spec

theorem flat_append {γ : Type} (a b : List (Part γ)) : flat (a ++ b) = flat a ++ flat b := by simp [flat]

theorem mysqlTx_cons {g : Gtid} {es : List Ev} (h : MysqlTx g es) : ∃ h0 x es', es = (h0, .mySqlGtid x) :: es' ∧ x.gtid = g ∧
    ∀ e ∈ es', mysqlGtidOf e.2 = none := by
  have k1 : ∀ e : BinlogEvent, Neutral e → mysqlGtidOf e = none := by rintro (_ | _) h <;> first | rfl | exact h.elim
  have k2 : ∀ e : BinlogEvent, Inside e → mysqlGtidOf e = none := by rintro (_ | _) ⟨h, -⟩ <;> first | rfl | exact (h trivial).elim
  have k3 : ∀ e : BinlogEvent, Begins e → mysqlGtidOf e = none := by rintro (_ | _) h <;> first | rfl | exact h.elim
  have k4 : ∀ e : BinlogEvent, Spec.Ends e → mysqlGtidOf e = none := by rintro (_ | _) h <;> first | rfl | exact h.elim
  have k5 : ∀ e : BinlogEvent, AutoCommits e → mysqlGtidOf e = none := by rintro (_ | _) h <;> first | rfl | exact h.elim
  cases h with
  | @block h0 hb' he' x b e mid body hx hm hbegin hin hend =>
    refine ⟨h0, x, mid ++ (hb', b) :: body ++ [(he', e)], by simp, hx, fun p hp => ?_⟩
    simp only [List.append_assoc, List.cons_append, List.mem_append, List.mem_cons, List.not_mem_nil, or_false] at hp
    rcases hp with hp | rfl | hp | rfl
    · exact k1 _ (hm p hp)
    · exact k3 _ hbegin
    · exact k2 _ (hin p hp)
    · exact k4 _ hend
  | @auto h0 he' x e mid hx hm hauto =>
    refine ⟨h0, x, mid ++ [(he', e)], by simp, hx, fun p hp => ?_⟩
    simp only [List.mem_append, List.mem_singleton] at hp
    rcases hp with hp | rfl
    · exact k1 _ (hm p hp)
    · exact k5 _ hauto

/-- **C111**, the part that holds: the application stops between two transactions of the log. The next request names a place from which a
server sends all later transactions whole (after at most some table maps that were already committed). -/
theorem C111_between_partial (m : Mode) {log : Log} (hl : LogOk log) (c c' : Client) (hv : Valid log (c.place log)) {q : Place}
    {sent real : List Ev} (h : Serve log False (c.place log) q sent real) (hc : commitAll m c sent = .ok c') {pre post : List (Part Gtid)}
    (hlog : remaining log (c.place log) = flat (pre ++ post)) (hreal : real = flat pre) :
    ∃ tms, (∀ e ∈ tms, IsTableMap e.2) ∧ tms <:+ flat pre ∧ remaining log (c'.place log) = tms ++ flat post := by
  obtain ⟨tms, front, -, h1, h2, h3, h4, -⟩ := session_of m hl (calm := False) False.elim c c' hv h hc
  refine ⟨tms, h3, ⟨front, by rw [← hreal, h4]⟩, ?_⟩
  rw [h2]
  rw [h1, flat_append, hreal] at hlog
  rw [List.append_cancel_left hlog]

/-- C111. The application stops within a transaction. The next request names a place within that transaction, behind its GTID event: a server
that starts there sends only the rest of it (after at most some table maps that were already committed). -/
theorem C111_cut (m : Mode) {log : Log} (hl : LogOk log) (c c' : Client) (hv : Valid log (c.place log)) {q : Place} {sent real : List Ev}
    (h : Serve log False (c.place log) q sent real) (hc : commitAll m c sent = .ok c') {pre post : List (Part Gtid)} {g : Gtid}
    {cut rest : List Ev} (htx : MysqlTx g (cut ++ rest)) (hlog : remaining log (c.place log) = flat (pre ++ .tx g (cut ++ rest) :: post))
    (hcut : cut ≠ []) (hreal : real = flat pre ++ cut) :
    ∃ tms, (∀ e ∈ tms, IsTableMap e.2) ∧ tms <:+ cut.tail ∧ remaining log (c'.place log) = tms ++ rest ++ flat post := by
  obtain ⟨tms, front, -, h1, h2, h3, h4, -⟩ := session_of m hl (calm := False) False.elim c c' hv h hc
  have hrem : remaining log q = rest ++ flat post := by
    rw [h1, flat_append, hreal, List.append_assoc] at hlog
    have := List.append_cancel_left hlog
    rw [show flat (Part.tx g (cut ++ rest) :: post) = cut ++ (rest ++ flat post) by simp [flat, Part.events]] at this
    exact List.append_cancel_left this
  refine ⟨tms, h3, ?_, by rw [h2, hrem, List.append_assoc]⟩
  obtain ⟨h0, x, es', hes, -, -⟩ := mysqlTx_cons htx
  obtain ⟨e, cut', rfl⟩ := List.exists_cons_of_ne_nil hcut
  have he : e = (h0, .mySqlGtid x) := by simpa using congrArg List.head? hes
  rw [hreal] at h4
  obtain ⟨a, ha⟩ := run_within (P := fun e : Ev => IsTableMap e.2) (front := flat pre ++ [e]) (a := cut') (a' := front) (run := tms) (by simpa using h4) h3
    (by
      intro y hy
      rw [List.getLast?_append] at hy
      simp at hy
      rw [← hy, he]
      exact id)
  exact ⟨a, ha.symm⟩

/-- Committing events none of which is a MySQL GTID `g`, a client whose pending GTID is not `g` does not record `g`. -/
theorem not_recorded (m : Mode) (c : Client) (set : GtidSet) (hc : FromSet c set) (hlast : c.mysqlGtid = none) (hw : Wf set) (ho : AllOrdered set)
    (es : List Ev) (hg : ∀ e ∈ es, ∀ x, mysqlGtidOf e.2 = some x → GtidOk x) (u : Bytes) (n : Nat)
    (hno : ∀ e ∈ es, ∀ x, mysqlGtidOf e.2 = some x → ¬(x.sourceId.data = u ∧ x.transactionId = n)) (hn : ¬ Has set u n) {c' : Client}
    (h : commitAll m c es = .ok c') :
    ∃ set', c'.options.binlog.gtidSet = some set' ∧ Wf set' ∧ AllOrdered set' ∧ ¬ Has set' u n := by
  obtain ⟨c2, set', h1, h2, h3, h4, h5⟩ := C79_recorded_set m c set hc hlast hw ho es hg
  rw [h] at h1
  cases h1
  refine ⟨set', h2, h3, h4, fun hh => ?_⟩
  rcases (h5 u n).1 hh with hh | ⟨x, hx, rfl, rfl⟩
  · exact hn hh
  · obtain ⟨pre, e, post, rfl, -, a, e', b, rfl, h6, -⟩ := hx
    exact hno e' (by simp) x h6 ⟨rfl, rfl⟩

open Classical in
/-- Apart from neutral events a server sends the events of its log. -/
theorem serve_told {log : Log} {calm : Prop} {p q : Place} {sent real : List Ev} (h : Serve log calm p q sent real)
    (hn : ∀ e ∈ sent, e.1.nextEventPosition = 0 → Neutral e.2) :
    (sent.filter fun e => ¬ Neutral e.2) = real.filter fun e => ¬ Neutral e.2 := by
  have skip : ∀ (es : List Ev) (e : Ev), Neutral e.2 → (es ++ [e]).filter (fun e => ¬ Neutral e.2) = es.filter fun e => ¬ Neutral e.2 := by
    intro es e he
    simp [List.filter_append, he]
  induction h with
  | start => rfl
  | event _ _ ih => rw [List.filter_append, List.filter_append, ih fun e he => hn e (List.mem_append_left _ he)]
  | artificial _ h0 _ ih => rw [skip _ _ (hn _ (by simp) h0), ih fun e he => hn e (List.mem_append_left _ he)]
  | heartbeat _ _ _ ih => rw [skip _ (_, .heartbeat _) trivial, ih fun e he => hn e (List.mem_append_left _ he)]
  | announce _ _ ih => rw [skip _ (_, .rotate _) trivial, ih fun e he => hn e (List.mem_append_left _ he)]
  | nextFile _ _ ih => rw [skip _ (_, .rotate _) trivial, ih fun e he => hn e (List.mem_append_left _ he)]

theorem gtid_not_neutral {e : BinlogEvent} {x : Gtid} (h : mysqlGtidOf e = some x) : ¬ Neutral e := by
  cases e <;> first | exact id | cases h

theorem ends_not_neutral {e : BinlogEvent} (h : Spec.Ends e) : ¬ Neutral e := by
  cases e with
  | query q => intro hn; simp only [Neutral] at hn; simp only [Spec.Ends, hn] at h; revert h; decide
  | xid x => exact id
  | _ => exact h.elim

theorem auto_not_neutral {e : BinlogEvent} (h : AutoCommits e) : ¬ Neutral e := by
  cases e with
  | query q => exact h.1
  | _ => exact h.elim

theorem begins_not_neutral {e : BinlogEvent} (h : Begins e) : ¬ Neutral e := by
  cases e with
  | query q => intro hn; simp only [Neutral] at hn; simp only [Begins, hn] at h; revert h; decide
  | _ => exact h.elim

open Classical in
/-- Neutral events do not decide what is recorded. -/
theorem recorded_told {es : List Ev} {g : Gtid} (h : Recorded mysqlGtidOf es g) : Recorded mysqlGtidOf (es.filter fun e => ¬ Neutral e.2) g := by
  obtain ⟨pre, e, post, rfl, hcl, a, e', b, rfl, h1, h2⟩ := h
  have he : ¬ Neutral e.2 := hcl.elim ends_not_neutral fun h => auto_not_neutral h.1
  have he' : ¬ Neutral e'.2 := gtid_not_neutral h1
  refine ⟨(a ++ e' :: b).filter fun e => ¬ Neutral e.2, e, post.filter fun e => ¬ Neutral e.2, ?_, ?_,
    a.filter fun e => ¬ Neutral e.2, e', b.filter fun e => ¬ Neutral e.2, ?_, h1, fun x hx => h2 x (List.mem_filter.1 hx).1⟩
  · rw [List.filter_append, List.filter_cons, if_pos (by simpa using he)]
  · refine hcl.imp id fun ⟨h3, h4⟩ => ⟨h3, fun ⟨u, v, w, h5, h6, h7⟩ => h4 ?_⟩
    obtain ⟨p1, p2, h8, -, h9⟩ := List.filter_eq_append_iff.1 h5
    obtain ⟨p3, p4, h10, -, -, h11⟩ := List.filter_eq_cons_iff.1 h9
    refine ⟨p1 ++ p3, v, p4, by rw [h8, h10, List.append_assoc], h6, fun x hx hend => ?_⟩
    refine h7 x ?_ hend
    rw [← h11]
    exact List.mem_filter.2 ⟨hx, decide_eq_true (ends_not_neutral hend)⟩
  · rw [List.filter_append, List.filter_cons, if_pos (by simpa using he')]

open Classical in
theorem recorded_told' {es : List Ev} {g : Gtid} (h : Recorded mysqlGtidOf (es.filter fun e => ¬ Neutral e.2) g) : Recorded mysqlGtidOf es g := by
  obtain ⟨pre, e, post, h1, hcl, a, e', b, rfl, h2, h3⟩ := h
  obtain ⟨p1, p2, rfl, h4, h5⟩ := List.filter_eq_append_iff.1 h1
  obtain ⟨p3, p4, rfl, h6, -, -⟩ := List.filter_eq_cons_iff.1 h5
  obtain ⟨p5, p6, rfl, h7, h8⟩ := List.filter_eq_append_iff.1 h4
  obtain ⟨p7, p8, rfl, h9, -, h10⟩ := List.filter_eq_cons_iff.1 h8
  refine ⟨p5 ++ (p7 ++ e' :: p8) ++ p3, e, p4, by simp, ?_, p5 ++ p7, e', p8 ++ p3, by simp, h2, fun x hx => ?_⟩
  · refine hcl.imp id fun ⟨i1, i2⟩ => ⟨i1, fun ⟨u, v, w, i3, i4, i5⟩ => i2 ?_⟩
    have hp3 : p3.filter (fun e => decide ¬ Neutral e.2) = [] := List.filter_eq_nil_iff.2 h6
    have hv : ¬ Neutral v.2 := begins_not_neutral i4
    have := congrArg (List.filter fun e : Ev => decide ¬ Neutral e.2) i3
    rw [List.filter_append, h4, hp3, List.append_nil, List.filter_append, List.filter_cons, if_pos (by simpa using hv)] at this
    exact ⟨_, v, _, this, i4, fun x hx => i5 x (List.mem_filter.1 hx).1⟩
  · rcases Option.eq_none_or_eq_some (mysqlGtidOf x.2) with hn | ⟨y, hy⟩
    · exact hn
    · rcases List.mem_append.1 hx with hx | hx
      · exact h3 x (by rw [← h10]; exact List.mem_filter.2 ⟨hx, decide_eq_true (gtid_not_neutral hy)⟩)
      · exact absurd (decide_eq_true (gtid_not_neutral hy)) (h6 x hx)

theorem flat_gtids {parts : List (Part Gtid)} (hp : ∀ p ∈ parts, p.Ok MysqlTx) {e : Ev} (he : e ∈ flat parts) {x : Gtid} (hx : mysqlGtidOf e.2 = some x) :
    x ∈ parts.flatMap Part.gtids := by
  obtain ⟨p, hpm, hep⟩ := List.mem_flatMap.1 he
  refine List.mem_flatMap.2 ⟨p, hpm, ?_⟩
  have := hp p hpm
  cases p with
  | noise y =>
    rw [List.mem_singleton.1 hep] at hx
    exact absurd this (gtid_not_neutral hx)
  | tx g es =>
    obtain ⟨h0, y, es', rfl, rfl, h⟩ := mysqlTx_cons this
    rcases List.mem_cons.1 hep with rfl | hep
    · cases hx; simp [Part.gtids]
    · rw [h e hep] at hx; cases hx

/-- Transactions before, and a transaction without its end: only those before are recorded. -/
theorem recorded_cut {pre : List (Part Gtid)} (hp : ∀ p ∈ pre, p.Ok MysqlTx) {g : Gtid} {cut rest : List Ev} (htx : MysqlTx g (cut ++ rest))
    (hrest : rest ≠ []) (hg : ∀ x ∈ pre.flatMap Part.gtids, GtidOk x) (hgo : GtidOk g) {x : Gtid}
    (h : Recorded mysqlGtidOf (flat pre ++ cut) x) : ∃ y ∈ pre.flatMap Part.gtids, gtidKey y = gtidKey x := by
  have hfin : finished (flat pre ++ cut).length (pre ++ [.tx g (cut ++ rest)]) = pre.flatMap Part.gtids := by
    have hr := List.length_pos_iff.2 hrest
    clear h hp hg
    induction pre with
    | nil => rw [List.nil_append, finished, if_neg (by simp [flat, Part.events]; omega)]; rfl
    | cons p ps ih =>
      rw [List.cons_append, finished, if_pos (by simp [flat]), show (flat (p :: ps) ++ cut).length - p.events.length = (flat ps ++ cut).length by
        simp [flat], ih]
      rfl
  have hparts : ∀ p ∈ pre ++ [Part.tx g (cut ++ rest)], p.Ok MysqlTx := by
    intro p hpm
    rcases List.mem_append.1 hpm with hpm | hpm
    · exact hp p hpm
    · rw [List.mem_singleton.1 hpm]; exact htx
  have hgs : ∀ x ∈ (pre ++ [Part.tx g (cut ++ rest)]).flatMap Part.gtids, GtidOk x := by
    intro x hx
    rw [List.flatMap_append] at hx
    rcases List.mem_append.1 hx with hx | hx
    · exact hg x hx
    · simp [Part.gtids] at hx; rw [hx]; exact hgo
  have htake : (flat (pre ++ [Part.tx g (cut ++ rest)])).take (flat pre ++ cut).length = flat pre ++ cut := by
    rw [flat_append, show flat [Part.tx g (cut ++ rest)] = cut ++ rest by simp [flat, Part.events], ← List.append_assoc, List.take_left]
  have hempty : ∀ u n, ¬ Has ⟨[]⟩ u n := by rintro u n ⟨e, he, -⟩; simp at he
  let c0 : Client := exUser (.fromMysqlGtid ⟨[]⟩)
  have hw0 : Wf ⟨[]⟩ := ⟨by simp, by simp⟩
  have ho0 : AllOrdered ⟨[]⟩ := by intro e he; simp at he
  obtain ⟨c1, tr, l, set1, h1, h2, -, -, h3⟩ := mysql_prefix ⟨true⟩ _ hparts hgs (flat pre ++ cut).length c0 none ⟨[]⟩ ⟨rfl, rfl, rfl, rfl⟩ hw0 ho0
  rw [htake] at h1
  obtain ⟨c2, set2, g1, g2, -, -, g3⟩ := C79_recorded_set ⟨true⟩ c0 ⟨[]⟩ ⟨rfl, rfl, rfl⟩ rfl hw0 ho0 (flat pre ++ cut) (by
    intro e he x hx
    refine hgs x (flat_gtids hparts (e := e) ?_ hx)
    rw [← htake] at he
    exact List.mem_of_mem_take he)
  rw [h1] at g1
  cases g1
  rw [h2.set] at g2
  cases g2
  rcases (h3 _ _).1 ((g3 _ _).2 (.inr ⟨x, h, rfl, rfl⟩)) with hh | ⟨y, hy, e1, e2⟩
  · exact absurd hh (hempty _ _)
  · rw [hfin] at hy
    exact ⟨y, hy, by simp [gtidKey, e1, e2]⟩

/-- Sessions with a server that starts at the place named in the request, and attempts that fail. The events it makes up are neutral. -/
inductive Resumes (m : Mode) (cr : Crypto) (log : Log) : Client → List (List Ev) → Client → Prop
  | stop (c : Client) : Resumes m cr log c [] c
  | failed {c c2 : Client} (net : Except IoKind Channel) {later : List (List Ev)} (h : Resumes m cr log (c.replicate m cr net).2 later c2) :
      Resumes m cr log c later c2
  | session {c c1 c2 : Client} {net : Except IoKind Channel} {stream : BinlogEvents} {q : Place} {sent real : List Ev} {later : List (List Ev)}
      (hr : (c.replicate m cr net).1 = .ok stream) (hs : Serve log False ((c.replicate m cr net).2.place log) q sent real)
      (hg : ∀ e ∈ sent, e.1.nextEventPosition = 0 → Neutral e.2) (hc : commitAll m (c.replicate m cr net).2 sent = .ok c1)
      (h : Resumes m cr log c1 later c2) : Resumes m cr log c (real :: later) c2

theorem Resumes.sessions {m : Mode} {cr : Crypto} {log : Log} {c c' : Client} {got : List (List Ev)} (h : Resumes m cr log c got c') :
    Sessions m cr log c got c' := by
  induction h with
  | stop c => exact .none c
  | failed net _ ih => exact .failed net ih
  | session hr hs _ hc _ ih => exact .more hr hs hc ih

/-- No event that carries the GTID. -/
def Lacks (u : Bytes) (n : Nat) (es : List Ev) : Prop := ∀ e ∈ es, ∀ x, mysqlGtidOf e.2 = some x → ¬(x.sourceId.data = u ∧ x.transactionId = n)

/-- **C111.** A transaction that is neither recorded nor has its GTID event behind the recorded place is never recorded, over any number of sessions
with a server that starts at the place named in the request. -/
theorem C111_never_recorded {m : Mode} {cr : Crypto} {log : Log} (hl : LogOk log) {c c' : Client} {got : List (List Ev)}
    (h : Resumes m cr log c got c') (hs : c.options.binlog.startingStrategy = .fromGtid) (hv : Valid log (c.place log)) (set : GtidSet)
    (hset : c.options.binlog.gtidSet = some set) (hw : Wf set) (ho : AllOrdered set)
    (hg : ∀ e ∈ remaining log (c.place log), ∀ x, mysqlGtidOf e.2 = some x → GtidOk x) (u : Bytes) (n : Nat) (hn : ¬ Has set u n)
    (hno : Lacks u n (remaining log (c.place log))) :
    ∃ set', c'.options.binlog.gtidSet = some set' ∧ Wf set' ∧ AllOrdered set' ∧ ¬ Has set' u n := by
  induction h generalizing set with
  | stop c => exact ⟨set, hset, hw, ho, hn⟩
  | @failed c c2 net later _ ih =>
    have hopt := replicate_keeps_options m cr c net (.inl (by rw [hs]; decide))
    have hpl : (c.replicate m cr net).2.place log = c.place log := by unfold Client.place; rw [hopt]
    exact ih (by rw [hopt]; exact hs) (by rw [hpl]; exact hv) set (by rw [hopt]; exact hset) hw ho (by rw [hpl]; exact hg) hn (by rw [hpl]; exact hno)
  | @session c c1 c2 net stream q sent real later hr hserve hsent hc _ ih =>
    have hopt := replicate_keeps_options m cr c net (.inl (by rw [hs]; decide))
    have hpl : (c.replicate m cr net).2.place log = c.place log := by unfold Client.place; rw [hopt]
    obtain ⟨tms, front, h1, h2, h3, h4, h5, -⟩ := session_of m hl (calm := False) False.elim _ c1 (by rw [hpl]; exact hv) hserve hc
    rw [hpl] at h2
    obtain ⟨hidle, hlast⟩ : (c.replicate m cr net).2.transaction = false ∧ (c.replicate m cr net).2.mysqlGtid = none := by
      rcases C100_attempt m cr c net with ⟨place, h⟩ | ⟨-, h⟩
      · rw [h]; exact ⟨rfl, rfl⟩
      · exact absurd hr (h stream)
    have hmem : ∀ e ∈ sent, ∀ x, mysqlGtidOf e.2 = some x → e ∈ remaining log (c.place log) := by
      intro e he x hx
      classical
      have : e ∈ sent.filter fun e => ¬ Neutral e.2 := List.mem_filter.2 ⟨he, decide_eq_true (gtid_not_neutral hx)⟩
      rw [serve_told hserve hsent] at this
      rw [h2]; exact List.mem_append_left _ (List.mem_filter.1 this).1
    obtain ⟨set1, i1, i2, i3, i4⟩ := not_recorded m _ set ⟨by rw [hopt]; exact hs, hidle, by rw [hopt]; exact hset⟩ hlast hw ho sent
      (fun e he x hx => hg e (hmem e he x hx) x hx) u n (fun e he x hx => hno e (hmem e he x hx) x hx) hn hc
    have hsub : ∀ e ∈ remaining log (c1.place log), e ∈ remaining log (c.place log) := by
      intro e he
      rw [h3] at he
      rw [h2, h5]
      rcases List.mem_append.1 he with he | he
      · simp [he]
      · simp [he]
    have hs1 : c1.options.binlog.startingStrategy = .fromGtid := by
      rw [commitAll_keeps hc, hopt, hs]
    exact ih hs1 h1 set1 i1 i2 i3 (fun e he => hg e (hsub e he)) i4 (fun e he => hno e (hsub e he))

/-- **C111.** A transaction of which some events, but not all, were committed in one session is not recorded in that session nor in any later one, over
which the same client receives and commits every other event of the log. -/
theorem C111_cut_never_recorded {m : Mode} {cr : Crypto} {log : Log} (hl : LogOk log) {c c1 c' : Client} {net : Except IoKind Channel}
    {stream : BinlogEvents} {got : List (List Ev)} (hs : c.options.binlog.startingStrategy = .fromGtid) (hv : Valid log (c.place log)) (set : GtidSet)
    (hset : c.options.binlog.gtidSet = some set) (hw : Wf set) (ho : AllOrdered set) {pre post : List (Part Gtid)}
    (hp : ∀ p ∈ pre ++ post, p.Ok MysqlTx) {g : Gtid} {cut rest : List Ev} (htx : MysqlTx g (cut ++ rest)) (hcut : cut ≠ []) (hrest : rest ≠ [])
    (hlog : remaining log (c.place log) = flat (pre ++ .tx g (cut ++ rest) :: post)) (hg : ∀ x ∈ (pre ++ post).flatMap Part.gtids, GtidOk x ∧
      ¬(x.sourceId.data = g.sourceId.data ∧ x.transactionId = g.transactionId)) (hgo : GtidOk g) (hn : ¬ Has set g.sourceId.data g.transactionId)
    (hr : (c.replicate m cr net).1 = .ok stream) {q : Place} {sent : List Ev}
    (hserve : Serve log False ((c.replicate m cr net).2.place log) q sent (flat pre ++ cut))
    (hsent : ∀ e ∈ sent, e.1.nextEventPosition = 0 → Neutral e.2) (hc : commitAll m (c.replicate m cr net).2 sent = .ok c1)
    (h : Resumes m cr log c1 got c') :
    ∃ set', c'.options.binlog.gtidSet = some set' ∧ ¬ Has set' g.sourceId.data g.transactionId ∧
      noMaps (flat pre ++ cut) ++ noMaps got.flatten ++ noMaps (remaining log (c'.place log)) = noMaps (remaining log (c.place log)) := by
  classical
  have hopt := replicate_keeps_options m cr c net (.inl (by rw [hs]; decide))
  have hpl : (c.replicate m cr net).2.place log = c.place log := by unfold Client.place; rw [hopt]
  obtain ⟨hidle, hlast⟩ : (c.replicate m cr net).2.transaction = false ∧ (c.replicate m cr net).2.mysqlGtid = none := by
    rcases C100_attempt m cr c net with ⟨place, h⟩ | ⟨-, h⟩
    · rw [h]; exact ⟨rfl, rfl⟩
    · exact absurd hr (h stream)
  have hppre : ∀ p ∈ pre, p.Ok MysqlTx := fun p h => hp p (List.mem_append_left _ h)
  have hppost : ∀ p ∈ post, p.Ok MysqlTx := fun p h => hp p (List.mem_append_right _ h)
  rw [List.flatMap_append] at hg
  obtain ⟨h0, y, es', hes, hy, hnone⟩ := mysqlTx_cons htx
  have hall : ∀ e ∈ remaining log (c.place log), ∀ x, mysqlGtidOf e.2 = some x → GtidOk x := by
    intro e he x hx
    rw [hlog] at he
    have := flat_gtids (parts := pre ++ .tx g (cut ++ rest) :: post) (by
      intro p hpm
      rcases List.mem_append.1 hpm with hpm | hpm
      · exact hppre p hpm
      · rcases List.mem_cons.1 hpm with rfl | hpm
        · exact htx
        · exact hppost p hpm) he hx
    rw [List.flatMap_append, List.flatMap_cons] at this
    simp only [List.mem_append, Part.gtids, List.mem_singleton] at this
    rcases this with h | rfl | h
    · exact (hg x (List.mem_append_left _ h)).1
    · exact hgo
    · exact (hg x (List.mem_append_right _ h)).1
  obtain ⟨tms, front, h1, h2, h3, h4, h5, -⟩ := session_of m hl (calm := False) False.elim _ c1 (by rw [hpl]; exact hv) hserve hc
  rw [hpl] at h2
  have hsub : ∀ e ∈ remaining log (c1.place log), e ∈ remaining log (c.place log) := by
    intro e he
    rw [h3] at he
    rw [h2, h5]
    rcases List.mem_append.1 he with he | he
    · simp [he]
    · simp [he]
  have hmem : ∀ e ∈ sent, ∀ x, mysqlGtidOf e.2 = some x → e ∈ remaining log (c.place log) := by
    intro e he x hx
    have : e ∈ sent.filter fun e => ¬ Neutral e.2 := List.mem_filter.2 ⟨he, decide_eq_true (gtid_not_neutral hx)⟩
    rw [serve_told hserve hsent] at this
    rw [h2]; exact List.mem_append_left _ (List.mem_filter.1 this).1
  obtain ⟨c1', set1, i1, i2, i3, i4, i5⟩ := C79_recorded_set m (c.replicate m cr net).2 set ⟨by rw [hopt]; exact hs, hidle, by rw [hopt]; exact hset⟩ hlast
    hw ho sent (fun e he x hx => hall e (hmem e he x hx) x hx)
  rw [hc] at i1
  cases i1
  have hn1 : ¬ Has set1 g.sourceId.data g.transactionId := by
    intro hh
    rcases (i5 _ _).1 hh with hh | ⟨x, hx, e1, e2⟩
    · exact hn hh
    · have := recorded_told hx
      rw [serve_told hserve hsent] at this
      obtain ⟨y, hy, hk⟩ := recorded_cut hppre htx hrest (fun x hx => (hg x (List.mem_append_left _ hx)).1) hgo (recorded_told' this)
      simp only [gtidKey, Prod.mk.injEq] at hk
      exact (hg y (List.mem_append_left _ hy)).2 ⟨by rw [hk.1, e1], by rw [hk.2, e2]⟩
  obtain ⟨tms', j1, j2, j3⟩ := C111_cut m hl _ c1 (by rw [hpl]; exact hv) hserve hc (pre := pre) (post := post) htx (by rw [hpl]; exact hlog) hcut rfl
  have hno : Lacks g.sourceId.data g.transactionId (remaining log (c1.place log)) := by
    intro e he x hx
    rw [j3] at he
    rcases List.mem_append.1 he with he | he
    · rcases List.mem_append.1 he with he | he
      · have := j1 e he
        revert this hx
        cases e.2 <;> first | (intro h; cases h; done) | exact fun _ h => h.elim
      · obtain ⟨e0, cut', rfl⟩ := List.exists_cons_of_ne_nil hcut
        injection hes with _ hes
        rw [hnone e (by rw [← hes]; exact List.mem_append_right _ he)] at hx
        cases hx
    · exact (hg x (List.mem_append_right _ (flat_gtids hppost he hx))).2
  have hs1 : c1.options.binlog.startingStrategy = .fromGtid := by rw [commitAll_keeps hc, hopt, hs]
  obtain ⟨set', k1, -, -, k2⟩ := C111_never_recorded hl h hs1 h1 set1 i2 i3 i4 (fun e he => hall e (hsub e he)) _ _ hn1 hno
  refine ⟨set', k1, k2, ?_⟩
  have := C21_every_event_once hl (c := c) (.inl (by rw [hs]; decide)) hv (Sessions.more hr hserve hc h.sessions)
  rw [List.flatten_cons, noMaps_append] at this
  exact this

/-- C111. Until a file name is recorded the request leaves the place to the set: it names no file. -/
theorem C111_first_partial (m : Mode) (c : Crypto) (client client' : Client) (chan : Channel) (hf : FitsRequests client.options)
    (hs : client.options.binlog.startingStrategy = .fromGtid) (hfile : client.options.binlog.filename = []) {stream : BinlogEvents}
    (h : client.replicate m c (.ok chan) = (.ok stream, client')) :
    ∃ t p maria, stream.channel.trace = chan.trace ++ t ++ [.sent 0 p] ∧ GreetedBy t maria ∧ (maria = false → ∃ set,
      client.options.binlog.gtidSet = some set ∧ DumpGtidPacket 0 (dumpId client.options) [] client.options.binlog.position (setsOf set) p) := by
  obtain ⟨t, p, maria, h1, h2, -, h3, -⟩ := asks_recorded hf h (gtid_not_end hs)
  refine ⟨t, p, maria, h1, h2, fun hm => ?_⟩
  obtain ⟨set, h4, h5⟩ := h3 hs hm
  exact ⟨set, h4, hfile ▸ h5⟩

/-! ## A concrete log -/

def exCutGtid : Ev := (exHeader 100, exGtid 5)
def exCutBegin : Ev := (exHeader 200, exQuery "BEGIN")
def exCutXid : Ev := (exHeader 300, .xid ⟨7⟩)
def exCutRotate (position : Nat) : Ev := (exHeader 0, .rotate ⟨"bin.1".toList, position⟩)

/-- One transaction with GTID 5. -/
def exCutLog : Log := [⟨"bin.1".toList, [exCutGtid, exCutBegin, exCutXid]⟩]

theorem exCutLog_ok : LogOk exCutLog where
  names := by decide
  named := by simp [exCutLog]
  chain := by
    intro f hf
    simp only [exCutLog, List.mem_singleton] at hf
    subst hf
    simp [Chain, exCutGtid, exCutBegin, exCutXid, exHeader]
  rotate := by
    intro pre f post a e b r h1 h2 h3
    rcases pre with _ | ⟨f0, pre⟩
    · simp only [exCutLog, List.nil_append, List.cons.injEq] at h1
      obtain ⟨rfl, rfl⟩ := h1
      have : e ∈ [exCutGtid, exCutBegin, exCutXid] := by simp only at h2; rw [h2]; simp
      simp only [List.mem_cons, List.not_mem_nil, or_false] at this
      rcases this with rfl | rfl | rfl <;> simp [exCutGtid, exCutBegin, exCutXid, exGtid, exQuery] at h3
    · simp [exCutLog] at h1

theorem exCutTx : MysqlTx ⟨exUuid, 5⟩ ([exCutGtid, exCutBegin] ++ [exCutXid]) :=
  MysqlTx.block (mid := []) (body := []) (x := ⟨⟨exUuid, 5⟩, 1⟩) rfl (by simp) rfl (by simp) trivial

theorem exCut_new : ¬ Has exSet exUuid.data 5 := by
  rintro ⟨e, he, h1, h2⟩
  simp only [exSet, List.mem_cons, List.not_mem_nil, or_false] at he
  rcases he with rfl | rfl
  · revert h2; simp [InIvs]
  · revert h1; decide

/-- The client after the first session. -/
def exCutUser : Client := { exGtidUser with
  transaction := true, mysqlGtid := some ⟨exUuid, 5⟩,
  options := { exGtidUser.options with binlog := { exGtidUser.options.binlog with filename := "bin.1".toList, position := 200 } } }

theorem exCutUser_usable : Usable exCrypto exCutUser.options :=
  ⟨exSmall _, ⟨by decide, by decide, by decide +kernel, (fun g h => by cases h; unfold GtidSetFits; decide +kernel), (fun g h => by cases h), by decide⟩, rfl⟩

theorem exCut_first (m : Mode) : commitAll m exGtidUser.afresh [exCutRotate 4, exCutGtid, exCutBegin] = .ok exCutUser := by
  revert m
  rintro ⟨_ | _⟩ <;> decide +kernel

theorem exCut_served : Serve exCutLog False (exGtidUser.place exCutLog) ⟨"bin.1".toList, 200⟩ [exCutRotate 4, exCutGtid, exCutBegin]
    [exCutGtid, exCutBegin] :=
  ((Serve.start.announce (h := exHeader 0) (.inl rfl)).event (e := exCutGtid) ⟨_, List.mem_cons_self, rfl, [], _, rfl, rfl⟩).event
    (e := exCutBegin) ⟨_, List.mem_cons_self, rfl, [exCutGtid], _, rfl, rfl⟩

/-- The application commits the GTID event and BEGIN, the connection breaks, it reconnects and commits the rest. -/
theorem exCut_resumes (m : Mode) : ∃ (net : Except IoKind Channel) (stream : BinlogEvents) (c' : Client),
    exGtidUser.replicate m exCrypto net = (.ok stream, exGtidUser.afresh) ∧ Resumes m exCrypto exCutLog exCutUser [[exCutXid]] c' ∧
      remaining exCutLog (c'.place exCutLog) = [] := by
  obtain ⟨stream, -, -, h1, -⟩ := mysql_asks m exCrypto exGtidUser { exChannel [] with input := _ } exGtidUser_usable rfl .crc32 _ [] (exGtidUser_in _)
    exSet rfl rfl rfl
  obtain ⟨stream2, -, -, h2, -⟩ := mysql_asks m exCrypto exCutUser { exChannel [] with input := _ } exCutUser_usable rfl .crc32 _ [] (exGtidUser_in _)
    exSet rfl rfl rfl
  have hc : ∀ m, commitAll m exCutUser.afresh [exCutRotate 200, exCutXid] = .ok { exCutUser.afresh with
      options := { exCutUser.options with binlog := { exCutUser.options.binlog with position := 300 } } } := by
    rintro ⟨_ | _⟩ <;> decide +kernel
  have hserve : Serve exCutLog False (exCutUser.place exCutLog) ⟨"bin.1".toList, 300⟩ [exCutRotate 200, exCutXid] [exCutXid] :=
    (Serve.start.announce (h := exHeader 0) (.inl rfl)).event (e := exCutXid) ⟨_, List.mem_cons_self, rfl, [exCutGtid, exCutBegin], _, rfl, rfl⟩
  refine ⟨_, stream, _, h1, .session (net := .ok _) (stream := stream2) (q := ⟨"bin.1".toList, 300⟩) (sent := [exCutRotate 200, exCutXid]) (by rw [h2])
    (by rw [h2]; exact hserve) ?_ (by rw [h2]; exact hc m) (.stop _), by decide +kernel⟩
  intro e he h0
  simp only [List.mem_cons, List.not_mem_nil, or_false] at he
  rcases he with rfl | rfl
  · exact trivial
  · exact absurd h0 (by decide)

/-- The hypotheses of `C111_between_partial` are met: the whole transaction is committed. -/
example (m : Mode) : (∃ c', commitAll m exGtidUser [exCutRotate 4, exCutGtid, exCutBegin, exCutXid] = .ok c') ∧ Valid exCutLog (exGtidUser.place exCutLog) ∧
    Serve exCutLog False (exGtidUser.place exCutLog) ⟨"bin.1".toList, 300⟩ [exCutRotate 4, exCutGtid, exCutBegin, exCutXid] [exCutGtid, exCutBegin, exCutXid] ∧
    remaining exCutLog (exGtidUser.place exCutLog) = flat ([.tx ⟨exUuid, 5⟩ [exCutGtid, exCutBegin, exCutXid]] ++ ([] : List (Part Gtid))) := by
  refine ⟨?_, ⟨_, List.mem_cons_self, rfl, [], _, rfl, rfl⟩,
    exCut_served.event (e := exCutXid) ⟨_, List.mem_cons_self, rfl, [exCutGtid, exCutBegin], _, rfl, rfl⟩, by decide +kernel⟩
  obtain ⟨c', -, h, -⟩ := C79_recorded_set m exGtidUser exSet ⟨rfl, rfl, rfl⟩ rfl exSet_wf exSet_ordered [exCutRotate 4, exCutGtid, exCutBegin, exCutXid] (by
    intro e he g hg
    simp only [List.mem_cons, List.not_mem_nil, or_false] at he
    rcases he with rfl | rfl | rfl | rfl <;> cases hg
    exact ⟨UuidCanon_ok exUuid_canon, by decide⟩)
  exact ⟨c', h⟩

/-- The hypotheses of `C111_first_partial` are met. -/
example (m : Mode) : ∃ (chan : Channel) (stream : BinlogEvents), exGtidUser.replicate m exCrypto (.ok chan) = (.ok stream, exGtidUser.afresh) ∧
    FitsRequests exGtidUser.options ∧ exGtidUser.options.binlog.filename = [] := by
  obtain ⟨stream, -, -, h1, -⟩ := mysql_asks m exCrypto exGtidUser { exChannel [] with input := _ } exGtidUser_usable rfl .crc32 _ [] (exGtidUser_in _)
    exSet rfl rfl rfl
  exact ⟨_, stream, h1, small_fits exGtidUser_usable.requests, rfl⟩

/-- The hypotheses of `C111_cut_never_recorded` are met. -/
theorem exCut_never (m : Mode) : ∃ got c' set', (∃ net stream c1, exGtidUser.replicate m exCrypto net = (.ok stream, c1) ∧
    commitAll m c1 [exCutRotate 4, exCutGtid, exCutBegin] = .ok exCutUser) ∧ Resumes m exCrypto exCutLog exCutUser got c' ∧
    remaining exCutLog (c'.place exCutLog) = [] ∧ c'.options.binlog.gtidSet = some set' ∧ ¬ Has set' exUuid.data 5 := by
  obtain ⟨net, stream, c', h1, h2, h3⟩ := exCut_resumes m
  obtain ⟨set', h4, h5, -⟩ := C111_cut_never_recorded exCutLog_ok (c := exGtidUser) (net := net) (stream := stream) rfl
    ⟨_, List.mem_cons_self, rfl, [], _, rfl, rfl⟩ exSet rfl exSet_wf exSet_ordered (pre := []) (post := []) (by simp) exCutTx (by simp) (by simp)
    (by decide +kernel) (by simp) ⟨UuidCanon_ok exUuid_canon, by decide⟩ exCut_new (by rw [h1]) (sent := [exCutRotate 4, exCutGtid, exCutBegin])
    (q := ⟨"bin.1".toList, 200⟩) (by rw [h1]; exact exCut_served) (by
      intro e he h0
      simp only [List.mem_cons, List.not_mem_nil, or_false] at he
      rcases he with rfl | rfl | rfl
      · exact trivial
      · exact absurd h0 (by decide)
      · exact absurd h0 (by decide)) (by rw [h1]; exact exCut_first m) h2
  exact ⟨_, c', set', ⟨net, stream, _, h1, exCut_first m⟩, h2, h3, h4, h5⟩

/-- C111 as stated is false: all events of the log were committed over two sessions, and the transaction is not recorded. -/
theorem C111_false (m : Mode) : ¬ ∀ (cr : Crypto) (log : Log) (c c' : Client) (got : List (List Ev)) (set : GtidSet) (parts : List (Part Gtid)), LogOk log →
    c.options.binlog.startingStrategy = .fromGtid → Valid log (c.place log) → c.options.binlog.gtidSet = some set → Wf set → AllOrdered set →
    (∀ p ∈ parts, p.Ok MysqlTx) → (∀ g ∈ parts.flatMap Part.gtids, GtidOk g) → remaining log (c.place log) = flat parts →
    Resumes m cr log c got c' → remaining log (c'.place log) = [] →
    ∃ set', c'.options.binlog.gtidSet = some set' ∧ ∀ g ∈ parts.flatMap Part.gtids, Has set' g.sourceId.data g.transactionId := by
  intro H
  obtain ⟨got, c', set', ⟨net, stream, c1, h1, h2⟩, h3, h4, h5, h6⟩ := exCut_never m
  have hc1 : c1 = exGtidUser.afresh := by
    have hopt := replicate_keeps_options m exCrypto exGtidUser net (.inl (by decide))
    rcases C100_attempt m exCrypto exGtidUser net with ⟨place, h⟩ | ⟨-, h⟩
    · rw [h1] at h hopt
      simp only at h hopt
      subst h
      show Client.mk _ _ _ _ = Client.mk _ _ _ _
      rw [← hopt]
      rfl
    · exact absurd (by rw [h1]) (h stream)
  subst hc1
  obtain ⟨set2, g1, g2⟩ := H exCrypto exCutLog exGtidUser c' _ exSet [.tx ⟨exUuid, 5⟩ ([exCutGtid, exCutBegin] ++ [exCutXid])] exCutLog_ok rfl
    ⟨_, List.mem_cons_self, rfl, [], _, rfl, rfl⟩ rfl exSet_wf exSet_ordered (by simp only [List.mem_singleton, forall_eq]; exact exCutTx)
    (by simp only [List.flatMap_cons, List.flatMap_nil, Part.gtids, List.append_nil, List.mem_singleton, forall_eq]; exact ⟨UuidCanon_ok exUuid_canon, by decide⟩)
    (by decide +kernel)
    (.session (net := net) (stream := stream) (q := ⟨"bin.1".toList, 200⟩) (sent := [exCutRotate 4, exCutGtid, exCutBegin]) (by rw [h1])
      (by rw [h1]; exact exCut_served) (by
        intro e he h0
        simp only [List.mem_cons, List.not_mem_nil, or_false] at he
        rcases he with rfl | rfl | rfl
        · exact trivial
        · exact absurd h0 (by decide)
        · exact absurd h0 (by decide)) (by rw [h1]; exact h2) h3) h4
  rw [h5] at g1
  cases g1
  exact h6 (g2 ⟨exUuid, 5⟩ (by simp [Part.gtids]))

end MysqlCdc
