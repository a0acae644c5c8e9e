import Verif.Props.Snapshots
import Verif.Props.RestartsMaria
/-!
# C141 with a MariaDB
-/

namespace MysqlCdc

open Spec

/-- The list can be printed, names nothing of the log that is not there yet, and these are left to send. -/
structure StandsMaria (log' : List (Tx MGtid)) (list : GtidList) (log left : List (Tx MGtid)) : Prop where
  one : (list.gtids.map (·.domainId)).Nodup
  range : ∀ g ∈ list.gtids, MGtidRange g
  there : ∀ g ∈ list.gtids, g ∈ log'.map (·.1) → g ∈ log.map (·.1)
  send : toSend list.gtids (log'.map (·.1)) = left.map (·.1)

theorem StandsMaria.longer {log' log more left : List (Tx MGtid)} {list : GtidList} (h : StandsMaria log' list log left) :
    StandsMaria log' list (log ++ more) left :=
  ⟨h.one, h.range, fun g h1 h2 => by rw [List.map_append]; exact List.mem_append_left _ (h.there g h1 h2), h.send⟩

/-! ## One session -/

/-- What a session gives the application, and what is recorded after any first part of the commits. -/
theorem lagging_sessionMaria {m : Mode} {c c1 : Client} {crypto : Crypto} {chan : Channel} {stream : BinlogEvents} {taken : List Ev}
    {log more left : List (Tx MGtid)} {list : GtidList} (hs : c.options.binlog.startingStrategy = .fromGtid) (hlist : c.options.binlog.gtidList = some list)
    (hnone : c.options.binlog.gtidSet = none) (hat : StandsMaria (log ++ more) list log left) (hg : ∀ t ∈ log, MGtidRange t.1)
    (hd : ((log ++ more).map (·.1)).Nodup) (hnew : ∀ t ∈ left, t ∈ log ++ more)
    (hf : FitsRequests c.options) (hr : c.replicate m crypto (.ok chan) = (.ok stream, c1)) (hsess : CopySessionMaria m FlaggedTx log stream taken) :
    ∃ run : List (Tx MGtid), run <+: left ∧ whole taken = run.map (·.2) ∧ ∃ recorded : List Ev → List (Tx MGtid),
      (∀ x y, x <+: y → recorded x <+: recorded y) ∧ ∀ committed c2, committed <+: toCommit taken → commitAll m c1 committed = .ok c2 →
        recorded committed <+: run ∧ c2.options.binlog.startingStrategy = .fromGtid ∧ c2.options.binlog.gtidSet = none ∧
          ∃ list2 left2, c2.options.binlog.gtidList = some list2 ∧ left = recorded committed ++ left2 ∧ StandsMaria (log ++ more) list2 log left2 := by
  obtain ⟨htrace, hrequest, htold, hp, hlog, hmem, hsent, hbytes, hsize, hinput, hy, hl⟩ := id hsess
  rename_i front request id position file listed parts sent slices st n rest stream'
  have htaken := copy_taken hr hsent hbytes hsize hinput hy hl
  obtain ⟨l, g1, g2⟩ := told_recorded hf hr hs htrace hrequest
  obtain rfl : list = l := Option.some.inj (hlist.symm.trans g1)
  obtain rfl := toldState_unique g2 htold
  -- what the server sent is the beginning of what it had to send
  have hfirst : parts.flatMap Part.txs <+: left := by
    refine prefix_of_fst hd (fun t ht => List.mem_append_left _ (hmem t ht)) hnew ?_
    have hd' := hd
    have hin := hat.there
    rw [List.map_append] at hd' hin
    rw [← hat.send, hlog, List.map_append, toSend_grow hd' hin]
    exact List.prefix_append _ _
  have hrun := (finishedTxs_prefix taken.length parts).trans hfirst
  refine ⟨finishedTxs taken.length parts, hrun, by rw [← gathered_finished (fun _ _ h rest => wholeFrom_flagged h rest) parts hp, ← htaken],
    fun committed => (finishedTxs taken.length parts).take (finishedTxs committed.length (bare parts)).length,
    fun x y hxy => List.take_prefix_take_left (finishedTxs_mono hxy.length_le (bare parts)).length_le, fun committed c2 hpre hc => ?_⟩
  refine ⟨List.take_prefix _ _, ?_⟩
  have hopt := replicate_keeps_options m crypto c (.ok chan) (.inl (by rw [hs]; decide))
  rw [hr] at hopt
  have hopt : c1.options = c.options := hopt
  refine ⟨by rw [commitAll_keeps hc, hopt, hs], commitAll_noSet hc (by rw [hopt, hnone]), ?_⟩
  obtain ⟨k1, k2⟩ := toCommit_take hp taken.length
  rw [← htaken] at k1 k2
  have hq := (finishedTxs_mono hpre.length_le (bare parts)).map (·.1)
  rw [finishedTxs_fst, finishedTxs_fst, ← k2, ← finishedTxs_fst taken.length] at hq
  have hlen : (finishedTxs committed.length (bare parts)).length = (finished committed.length (bare parts)).length := by
    rw [← finishedTxs_fst, List.length_map]
  have htm : TakenMaria (log.map (·.1)) stream committed
      (((finishedTxs taken.length parts).take (finishedTxs committed.length (bare parts)).length).map (·.1)) := by
    rw [hlen]
    refine .mk htrace hrequest htold (bare_quiet (flagged_parts hp)) (by rw [bare_gtids, ← parts_fst, hlog]) ?_ ?_
    · rw [k1] at hpre
      exact List.prefix_iff_eq_take.1 (hpre.trans (List.take_prefix _ _))
    · rw [List.map_take]
      exact (List.prefix_iff_eq_take.1 hq).symm
  have hrec : (finishedTxs taken.length parts).take (finishedTxs committed.length (bare parts)).length <+: left := (List.take_prefix _ _).trans hrun
  have hrecmem : ∀ t ∈ (finishedTxs taken.length parts).take (finishedTxs committed.length (bare parts)).length, t ∈ log :=
    fun t ht => hmem t (finishedTxs_mem (List.mem_of_mem_take ht))
  beta_reduce
  generalize (finishedTxs taken.length parts).take (finishedTxs committed.length (bare parts)).length = recorded at htm hrec hrecmem ⊢
  obtain ⟨left2, rfl⟩ := hrec
  have h1 : TakenMarias m c (log.map (·.1)) [recorded.map (·.1)] c2 ((log ++ more).map (·.1)) := by
    rw [List.map_append]
    exact .session hf hr htm hc (.grow _ .stop)
  obtain ⟨list2, e1, e2, e3, e4⟩ := takenMarias_each_once h1 list hs hlist hnone hat.one hat.there hd
  simp only [List.flatten_cons, List.flatten_nil, List.append_nil] at e3 e4
  have hlast : ∀ g ∈ list2.gtids, (∃ t ∈ log, t.1 = g) ∨ g ∈ list.gtids := by
    intro g hg
    rcases (e3 g).1 hg with h6 | h6
    · obtain ⟨t, ht, rfl⟩ := List.mem_map.1 (lastOf_mem h6)
      exact .inl ⟨t, hrecmem t ht, rfl⟩
    · exact .inr h6.1
  refine ⟨list2, left2, e1, rfl, e2, fun g hg' => ?_, fun g h2 h3 => ?_, ?_⟩
  · rcases hlast g hg' with ⟨t, ht, rfl⟩ | h
    · exact hg t ht
    · exact hat.range g h
  · rcases hlast g h2 with ⟨t, ht, rfl⟩ | h
    · exact List.mem_map.2 ⟨t, ht, rfl⟩
    · exact hat.there g h h3
  · rw [hat.send, List.map_append (l₁ := recorded)] at e4
    exact List.append_cancel_left e4

/-! ## Saving and going back -/

/-- Texts that a program saves in a session, the last one first: of the list that is recorded after some first ones of its commits. -/
inductive SavesMaria (m : Mode) (c1 : Client) : (committed : List Ev) → List RStr → Prop where
  | none {committed : List Ev} : SavesMaria m c1 committed []
  | save {committed first : List Ev} {c3 : Client} {list : GtidList} {texts : List RStr} (hf : first <+: committed) (hc : commitAll m c1 first = .ok c3)
      (hlist : c3.options.binlog.gtidList = some list) (h : SavesMaria m c1 first texts) : SavesMaria m c1 committed (list.display :: texts)

/-- As `Snapshots`, with a MariaDB. -/
inductive SnapshotsMaria {σ : Type} (jumps : Prop) (m : Mode) (apply : σ → List Ev → σ) :
    Client → σ → (log : List (Tx MGtid)) → (saved : List RStr) → Client → σ → (log' : List (Tx MGtid)) → (saved' : List RStr) → Prop where
  | stop {c : Client} {data : σ} {log : List (Tx MGtid)} {saved : List RStr} : SnapshotsMaria jumps m apply c data log saved c data log saved
  | grow {c c' : Client} {data data' : σ} {log log' : List (Tx MGtid)} {saved saved' : List RStr} (more : List (Tx MGtid))
      (h : SnapshotsMaria jumps m apply c data (log ++ more) saved c' data' log' saved') : SnapshotsMaria jumps m apply c data log saved c' data' log' saved'
  | failed {c c' : Client} {data data' : σ} {log log' : List (Tx MGtid)} {saved saved' : List RStr} {crypto : Crypto} {net : Except IoKind Channel}
      (h : SnapshotsMaria jumps m apply (c.replicate m crypto net).2 data log saved c' data' log' saved') :
      SnapshotsMaria jumps m apply c data log saved c' data' log' saved'
  | session {c c1 c2 c' : Client} {data data' : σ} {log log' : List (Tx MGtid)} {saved saved' texts : List RStr} {crypto : Crypto} {chan : Channel}
      {stream : BinlogEvents} {taken committed : List Ev} (hf : FitsRequests c.options) (hr : c.replicate m crypto (.ok chan) = (.ok stream, c1))
      (hs : CopySessionMaria m FlaggedTx log stream taken) (hpre : committed <+: toCommit taken) (hc : commitAll m c1 committed = .ok c2)
      (ht : SavesMaria m c1 committed texts)
      (h : SnapshotsMaria jumps m apply c2 ((whole taken).foldl apply data) log (texts ++ saved) c' data' log' saved') :
      SnapshotsMaria jumps m apply c data log saved c' data' log' saved'
  | back {c c2 c' : Client} {data data' : σ} {log log' : List (Tx MGtid)} {newer saved saved' : List RStr} {text : RStr} {list : GtidList} {o : ReplicaOptions}
      (hparse : GtidList.parse text = .ok list) (hbinlog : o.binlog = .fromMariadbGtid list) (hnew : Client.new o = .ok c2)
      (h : SnapshotsMaria jumps m apply c2 data log (text :: saved) c' data' log' saved') :
      SnapshotsMaria jumps m apply c data log (newer ++ text :: saved) c' data' log' saved'
  | jump {c c2 c' : Client} {data data' : σ} {log log' : List (Tx MGtid)} {saved saved' : List RStr} {text : RStr} {list : GtidList} {o : ReplicaOptions}
      (hj : jumps) (htext : text ∈ saved) (hparse : GtidList.parse text = .ok list) (hbinlog : o.binlog = .fromMariadbGtid list)
      (hnew : Client.new o = .ok c2) (h : SnapshotsMaria jumps m apply c2 data log saved c' data' log' saved') :
      SnapshotsMaria jumps m apply c data log saved c' data' log' saved'

theorem SnapshotsMaria.grows {σ : Type} {jumps : Prop} {m : Mode} {apply : σ → List Ev → σ} {c c' : Client} {data data' : σ} {log log' : List (Tx MGtid)}
    {saved saved' : List RStr} (h : SnapshotsMaria jumps m apply c data log saved c' data' log' saved') : log <+: log' := by
  induction h with
  | stop => exact List.prefix_rfl
  | grow more _ ih => exact (List.prefix_append _ _).trans ih
  | failed _ ih => exact ih
  | session _ _ _ _ _ _ _ ih => exact ih
  | back _ _ _ _ ih => exact ih
  | jump _ _ _ _ _ _ ih => exact ih

/-- As `Stack`: each text is that of a list behind which some last ones of `new` are left, and the others have been applied. -/
def StackMaria (jumps : Prop) (log' new log applied : List (Tx MGtid)) : (bound : List (Tx MGtid)) → List RStr → Prop
  | _, [] => True
  | bound, text :: texts => ∃ done left list, (jumps ∨ done <+: bound) ∧ new = done ++ left ∧ (∀ t ∈ done, t ∈ applied) ∧ text = list.display ∧
      StandsMaria log' list log left ∧ StackMaria jumps log' new log applied done texts

theorem StackMaria.weaken {jumps : Prop} {log' new log more applied applied' bound bound' : List (Tx MGtid)} {texts : List RStr}
    (h : StackMaria jumps log' new log applied bound texts) (ha : ∀ t ∈ applied, t ∈ applied') (hb : jumps ∨ bound <+: bound') :
    StackMaria jumps log' new (log ++ more) applied' bound' texts := by
  induction texts generalizing bound bound' with
  | nil => trivial
  | cons text texts ih =>
    obtain ⟨done, left, list, h1, h2, h3, h4, h5, h6⟩ := h
    refine ⟨done, left, list, ?_, h2, fun t ht => ha t (h3 t ht), h4, h5.longer, ih h6 (.inr List.prefix_rfl)⟩
    rcases h1 with h1 | h1
    · exact .inl h1
    · exact hb.imp_right h1.trans

theorem StackMaria.above {jumps : Prop} {log' new log applied applied' bound bound' : List (Tx MGtid)} {texts : List RStr}
    (h : StackMaria jumps log' new log applied bound texts) (ha : ∀ t ∈ applied, t ∈ applied') (hb : jumps ∨ bound <+: bound') :
    StackMaria jumps log' new log applied' bound' texts := by
  have := h.weaken (more := []) ha hb
  rwa [List.append_nil] at this

theorem StackMaria.drop {jumps : Prop} {log' new log applied bound : List (Tx MGtid)} {newer texts : List RStr}
    (h : StackMaria jumps log' new log applied bound (newer ++ texts)) : StackMaria jumps log' new log applied bound texts := by
  induction newer generalizing bound with
  | nil => exact h
  | cons text newer ih =>
    obtain ⟨done, left, list, h1, h2, h3, h4, h5, h6⟩ := h
    exact (ih h6).above (fun t ht => ht) h1

theorem StackMaria.of_mem {jumps : Prop} {log' new log applied bound : List (Tx MGtid)} {texts : List RStr}
    (h : StackMaria jumps log' new log applied bound texts) {text : RStr} (ht : text ∈ texts) :
    ∃ done left list, (jumps ∨ done <+: bound) ∧ new = done ++ left ∧ (∀ t ∈ done, t ∈ applied) ∧ text = list.display ∧ StandsMaria log' list log left := by
  obtain ⟨newer, older, rfl⟩ := List.append_of_mem ht
  obtain ⟨done, left, list, h1, h2, h3, h4, h5, -⟩ := h.drop
  exact ⟨done, left, list, h1, h2, h3, h4, h5⟩

/-- What has been done at the end. `Q` is any relation of recorded transactions and data that giving again keeps. -/
theorem snapshotsMaria_end {σ : Type} {jumps : Prop} {m : Mode} {apply : σ → List Ev → σ} {c c' : Client} {data data' : σ} {log log' : List (Tx MGtid)}
    {saved saved' : List RStr} (h : SnapshotsMaria jumps m apply c data log saved c' data' log' saved') (new : List (Tx MGtid)) (hnew : ∀ t ∈ new, t ∈ log')
    (hg : ∀ t ∈ log', MGtidRange t.1) (hd : (log'.map (·.1)).Nodup) (base : σ) (Q : List (Tx MGtid) → σ → Prop)
    (hQ : ∀ done run d data, Q done data → done ++ run <+: new → d <+: done ++ run → Q d (dataAfter apply data run))
    (done left applied : List (Tx MGtid)) (list : GtidList) (hsplit : new = done ++ left)
    (hs : c.options.binlog.startingStrategy = .fromGtid) (hlist : c.options.binlog.gtidList = some list) (hnone : c.options.binlog.gtidSet = none)
    (hat : StandsMaria log' list log left)
    (hdata : data = dataAfter apply base applied) (hgiven : ∀ t ∈ done, t ∈ applied) (hstack : StackMaria jumps log' new log applied done saved)
    (hq : ¬jumps → Q done data) :
    ∃ done' left' applied' list', new = done' ++ left' ∧ c'.options.binlog.startingStrategy = .fromGtid ∧ c'.options.binlog.gtidList = some list' ∧
      StandsMaria log' list' log' left' ∧ data' = dataAfter apply base applied' ∧ (∀ t ∈ done', t ∈ applied') ∧
      StackMaria jumps log' new log' applied' done' saved' ∧ (¬jumps → Q done' data') := by
  induction h generalizing done left applied list with
  | @stop c data log saved => exact ⟨done, left, applied, list, hsplit, hs, hlist, hat, hdata, hgiven, hstack, hq⟩
  | grow more _ ih =>
    exact ih hnew hg hd done left applied list hsplit hs hlist hnone hat.longer hdata hgiven (hstack.weaken (fun t ht => ht) (.inr List.prefix_rfl)) hq
  | @failed c c' data data' log log' saved saved' crypto net _ ih =>
    have hopt := replicate_keeps_options m crypto c net (.inl (by rw [hs]; decide))
    exact ih hnew hg hd done left applied list hsplit (by rw [hopt]; exact hs) (by rw [hopt]; exact hlist) (by rw [hopt]; exact hnone) hat hdata hgiven
      hstack hq
  | @session c c1 c2 c' data data' log log' saved saved' texts crypto chan stream taken committed hf hr hsess hpre hc ht h ih =>
    obtain ⟨more, rfl⟩ := h.grows
    subst hsplit
    obtain ⟨run, r1, r2, recorded, r3, r4⟩ := lagging_sessionMaria hs hlist hnone hat (fun t ht => hg t (List.mem_append_left _ ht)) hd
      (fun t ht => hnew t (List.mem_append_right _ ht)) hf hr hsess
    have hrun : done ++ run <+: done ++ left := (List.prefix_append_right_inj _).2 r1
    obtain ⟨hrec, e1, e2, list2, left2, e3, e4, e5⟩ := r4 committed c2 hpre hc
    have given : ∀ x, recorded x <+: run → ∀ t ∈ done ++ recorded x, t ∈ applied ++ run := by
      intro x hx t ht
      rcases List.mem_append.1 ht with ht | ht
      · exact List.mem_append_left _ (hgiven t ht)
      · exact List.mem_append_right _ (hx.subset ht)
    refine ih hnew hg hd (done ++ recorded committed) left2 (applied ++ run) list2 (by rw [List.append_assoc, ← e4]) e1 e3 e2 e5 ?_
      (given committed hrec) ?_ fun hj => ?_
    · rw [hdata, dataAfter_append, r2, List.foldl_map]
      rfl
    · have low : StackMaria jumps (log ++ more) (done ++ left) log (applied ++ run) done saved :=
        hstack.above (fun t ht => List.mem_append_left _ ht) (.inr List.prefix_rfl)
      clear hc e1 e2 e3 e4 e5 hrec h ih
      induction ht with
      | none => exact low.above (fun t ht => ht) (.inr (List.prefix_append _ _))
      | @save committed first c3 list3 texts hfirst hc3 hlist3 _ ih' =>
        obtain ⟨hrec3, -, -, list4, left4, g2, g3, g4⟩ := r4 first c3 (hfirst.trans hpre) hc3
        obtain rfl : list3 = list4 := Option.some.inj (hlist3.symm.trans g2)
        exact ⟨done ++ recorded first, left4, list3, .inr ((List.prefix_append_right_inj _).2 (r3 _ _ hfirst)), by rw [List.append_assoc, ← g3],
          given first hrec3, rfl, g4, ih' (hfirst.trans hpre)⟩
    · have := hQ done run (done ++ recorded committed) data (hq hj) hrun ((List.prefix_append_right_inj _).2 hrec)
      rw [r2, List.foldl_map]
      exact this
  | @back c c2 c' data data' log log' newer saved saved' text list2 o hparse hbinlog hc2 h ih =>
    obtain ⟨done2, left2, list3, h1, h2, h3, rfl, h5, h6⟩ := hstack.drop
    obtain rfl : list3 = list2 := Res.ok.inj ((C15_print_parse list3 h5.range h5.one).symm.trans hparse)
    have e1 := client_new_ok hc2
    refine ih hnew hg hd done2 left2 applied list3 h2 (by rw [e1, hbinlog]; rfl) (by rw [e1, hbinlog]; rfl) (by rw [e1, hbinlog]; rfl)
      h5 hdata h3 ⟨done2, left2, list3, .inr List.prefix_rfl, h2, h3, rfl, h5, h6⟩ fun hj => ?_
    exact hQ done [] done2 data (hq hj) (by rw [List.append_nil, hsplit]; exact List.prefix_append _ _) (by rw [List.append_nil]; exact h1.resolve_left hj)
  | @jump c c2 c' data data' log log' saved saved' text list2 o hj htext hparse hbinlog hc2 h ih =>
    obtain ⟨done2, left2, list3, h1, h2, h3, rfl, h5⟩ := hstack.of_mem htext
    obtain rfl : list3 = list2 := Res.ok.inj ((C15_print_parse list3 h5.range h5.one).symm.trans hparse)
    have e1 := client_new_ok hc2
    exact ih hnew hg hd done2 left2 applied list3 h2 (by rw [e1, hbinlog]; rfl) (by rw [e1, hbinlog]; rfl) (by rw [e1, hbinlog]; rfl)
      h5 hdata h3 (hstack.above (fun t ht => ht) (.inl hj)) fun h => absurd hj h

/-- **C141.** With a MariaDB: a program saves the text of the recorded list now and then, and is started again from texts that it has saved, in whatever order.
Whatever is not to be sent at the end has been applied; and every text that it has saved is parsed, to a list behind which some last ones of the transactions
are left, the others having been applied. -/
theorem C141_maria_none_left_out {σ : Type} {jumps : Prop} {m : Mode} {apply : σ → List Ev → σ} {c c' : Client} {data data' : σ} {log log' : List (Tx MGtid)}
    {saved' : List RStr} (h : SnapshotsMaria jumps m apply c data log [] c' data' log' saved') (list : GtidList)
    (hs : c.options.binlog.startingStrategy = .fromGtid)
    (hlist : c.options.binlog.gtidList = some list) (hnone : c.options.binlog.gtidSet = none) (hr : ∀ g ∈ list.gtids, MGtidRange g)
    (hone : (list.gtids.map (·.domainId)).Nodup) (hin : ∀ g ∈ list.gtids, g ∈ log'.map (·.1) → g ∈ log.map (·.1)) (hg : ∀ t ∈ log', MGtidRange t.1)
    (hd : (log'.map (·.1)).Nodup)
    (new : List (Tx MGtid)) (hnew : ∀ t ∈ new, t ∈ log') (hsend : toSend list.gtids (log'.map (·.1)) = new.map (·.1)) :
    ∃ done left applied list', new = done ++ left ∧ c'.options.binlog.gtidList = some list' ∧
      toSend list'.gtids (log'.map (·.1)) = left.map (·.1) ∧ data' = dataAfter apply data applied ∧ (∀ t ∈ done, t ∈ applied) ∧
      ∀ text ∈ saved', ∃ first others list2, new = first ++ others ∧ (∀ t ∈ first, t ∈ applied) ∧ GtidList.parse text = .ok list2 ∧
        toSend list2.gtids (log'.map (·.1)) = others.map (·.1) := by
  obtain ⟨done, left, applied, list', h1, -, h2, h3, h4, h5, h6, -⟩ := snapshotsMaria_end h new hnew hg hd data (fun _ _ => True)
    (fun _ _ _ _ _ _ _ => trivial) [] new [] list rfl hs hlist hnone ⟨hone, hr, hin, hsend⟩ rfl (by simp) trivial fun _ => trivial
  refine ⟨done, left, applied, list', h1, h2, h3.send, h4, h5, fun text ht => ?_⟩
  obtain ⟨first, others, list2, -, k1, k2, rfl, k3⟩ := h6.of_mem ht
  exact ⟨first, others, list2, k1, k2, C15_print_parse list2 k3.range k3.one, k3.send⟩

theorem snapshotsMaria_places {K V : Type} {m : Mode} {apply : (K → V) → List Ev → K → V} {c c' : Client} {data data' : K → V}
    {log log' : List (Tx MGtid)} {saved' : List RStr} (h : SnapshotsMaria False m apply c data log [] c' data' log' saved') (list : GtidList)
    (hs : c.options.binlog.startingStrategy = .fromGtid)
    (hlist : c.options.binlog.gtidList = some list) (hnone : c.options.binlog.gtidSet = none) (hr : ∀ g ∈ list.gtids, MGtidRange g)
    (hone : (list.gtids.map (·.domainId)).Nodup) (hin : ∀ g ∈ list.gtids, g ∈ log'.map (·.1) → g ∈ log.map (·.1)) (hg : ∀ t ∈ log', MGtidRange t.1)
    (hd : (log'.map (·.1)).Nodup)
    (new : List (Tx MGtid)) (hnew : ∀ t ∈ new, t ∈ log') (hsend : toSend list.gtids (log'.map (·.1)) = new.map (·.1))
    (hover : ∀ t ∈ new, Overwrites apply t.2) :
    ∃ done left list', new = done ++ left ∧ c'.options.binlog.startingStrategy = .fromGtid ∧ c'.options.binlog.gtidList = some list' ∧
      toSend list'.gtids (log'.map (·.1)) = left.map (·.1) ∧ SinceDone apply data new done data' := by
  obtain ⟨done, left, applied, list', h1, h2, h3, h4, -, -, -, h5⟩ := snapshotsMaria_end h new hnew hg hd data (SinceDone apply data new)
    (fun done run d data h h1 h2 => h.run hover h1 h2) [] new [] list rfl hs hlist hnone ⟨hone, hr, hin, hsend⟩ rfl (by simp) trivial
    fun _ k => ⟨[], List.prefix_rfl, List.nil_prefix, rfl⟩
  exact ⟨done, left, list', h1, h2, h3, h4.send, h5 id⟩

/-- **C141.** With a MariaDB, a copy of tables by keys, kept by a program that throws away the newer texts when it goes back to an older one: under each key it
has what the server's table had at some time since the transactions that are recorded; when there is nothing left to send, it has exactly the rows of the
server's tables. -/
theorem C141_maria_keyed {κ : Type} [DecidableEq κ] {key : TableName → Cells → κ} {m : Mode} {c c' : Client} {data data' : Keyed κ}
    {log log' : List (Tx MGtid)} {saved' : List RStr} (h : SnapshotsMaria False m (keyedTransaction key) c data log [] c' data' log' saved')
    (list : GtidList)
    (hs : c.options.binlog.startingStrategy = .fromGtid)
    (hlist : c.options.binlog.gtidList = some list) (hnone : c.options.binlog.gtidSet = none) (hr : ∀ g ∈ list.gtids, MGtidRange g)
    (hone : (list.gtids.map (·.domainId)).Nodup) (hin : ∀ g ∈ list.gtids, g ∈ log'.map (·.1) → g ∈ log.map (·.1)) (hg : ∀ t ∈ log', MGtidRange t.1)
    (hd : (log'.map (·.1)).Nodup)
    (new : List (Tx MGtid)) (hnew : ∀ t ∈ new, t ∈ log') (hsend : toSend list.gtids (log'.map (·.1)) = new.map (·.1))
    {columns : TableName → List (UInt8 × Nat)} (hcol : ∀ t, columns t ≠ []) {rows rows' : TableName → List (List Stored)}
    (hist : History columns rows new rows') {shown : TableName → List Cells} (hshown : RowsShown columns rows shown) (hi : Indexes key data shown)
    (hk : KeysHold key shown (changesOfTxs new)) :
    ∃ done left list', new = done ++ left ∧ c'.options.binlog.gtidList = some list' ∧ toSend list'.gtids (log'.map (·.1)) = left.map (·.1) ∧
      (∀ t k, ∃ first between shown', first <+: left ∧ History columns rows (done ++ first) between ∧ RowsShown columns between shown' ∧
        ∀ r, data' (t, k) = some r ↔ r ∈ shown' t ∧ key t r = k) ∧
      (toSend list'.gtids (log'.map (·.1)) = [] → ∃ shown', RowsShown columns rows' shown' ∧ Indexes key data' shown') := by
  obtain ⟨done, left, list', rfl, -, h2, h3, h4⟩ := snapshotsMaria_places h list hs hlist hnone hr hone hin hg hd new hnew hsend
    fun t _ => C138_overwrites key t.2
  refine ⟨done, left, list', rfl, h2, h3, fun t k => ?_, fun hnil => ?_⟩
  · obtain ⟨upto, ⟨first, rfl⟩, k2, k3⟩ := h4 (t, k)
    have h5 := (List.prefix_append_right_inj _).1 k2
    obtain ⟨between, shown', h7, h8, h9⟩ := keyed_place hcol hist hshown hi hk h5
    exact ⟨first, between, shown', h5, h7, h8, fun r => by rw [k3]; exact h9.2 t k r⟩
  · rw [h3, List.map_eq_nil_iff] at hnil
    subst hnil
    have : data' = dataAfter (keyedTransaction key) data (done ++ []) := by
      funext k
      obtain ⟨upto, k1, k2, k3⟩ := h4 k
      rw [List.append_nil] at k2 ⊢
      rw [k3, k2.eq_of_length_le k1.length_le]
    rw [this]
    exact C138_indexes hcol hist hshown hi hk

/-- **C141.** With a MariaDB: after whatever of that, once the program has taken one session whole, the copy has exactly the rows of the server's tables. -/
theorem C141_maria_catches_up {κ : Type} [DecidableEq κ] {key : TableName → Cells → κ} {m : Mode} {c c' : Client} {data data' : Keyed κ}
    {log log' : List (Tx MGtid)} {saved' : List RStr} (h : SnapshotsMaria False m (keyedTransaction key) c data log [] c' data' log' saved')
    (list : GtidList)
    (hs : c.options.binlog.startingStrategy = .fromGtid)
    (hlist : c.options.binlog.gtidList = some list) (hnone : c.options.binlog.gtidSet = none) (hr : ∀ g ∈ list.gtids, MGtidRange g)
    (hone : (list.gtids.map (·.domainId)).Nodup) (hin : ∀ g ∈ list.gtids, g ∈ log'.map (·.1) → g ∈ log.map (·.1)) (hg : ∀ t ∈ log', MGtidRange t.1)
    (hd : (log'.map (·.1)).Nodup)
    (new : List (Tx MGtid)) (hnew : ∀ t ∈ new, t ∈ log') (hsend : toSend list.gtids (log'.map (·.1)) = new.map (·.1))
    {columns : TableName → List (UInt8 × Nat)} (hcol : ∀ t, columns t ≠ []) {rows rows' : TableName → List (List Stored)}
    (hist : History columns rows new rows') {shown : TableName → List Cells} (hshown : RowsShown columns rows shown) (hi : Indexes key data shown)
    (hk : KeysHold key shown (changesOfTxs new))
    (crypto : Crypto) (chan : Channel) (hu : Usable crypto c'.options) (hwr : chan.writes = []) (checksum : ChecksumType) (bytes : Bytes)
    (hlets : LetsIn crypto c'.options True none checksum bytes) (list' : GtidList) (hlist' : c'.options.binlog.gtidList = some list')
    (parts : List (Part MGtid)) (hp : ∀ p ∈ parts, p.Ok FlaggedTx)
    (hlog : (parts.flatMap Part.txs).map (·.1) = toSend list'.gtids (log'.map (·.1))) (hmem : ∀ t ∈ parts.flatMap Part.txs, t ∈ log')
    (slices : List Bytes) (st : LogState) (hbytes : LogOf (.start checksum) (flat parts) slices st)
    (hsize : ∀ x ∈ slices, x.length < 2 ^ 24 - 20) (n : Nat) (rest : Bytes)
    (hinput : chan.input = bytes ++ frames (eventPackets n (flat parts) slices) ++ rest) :
    ∃ stream shown', c'.replicate m crypto (.ok chan) = (.ok stream, c'.afresh) ∧ (∃ stream', stream.Yields m ((flat parts).map .ok) stream') ∧
      RowsShown columns rows' shown' ∧ Indexes key ((whole (flat parts)).foldl (keyedTransaction key) data') shown' := by
  have hover : ∀ t ∈ new, Overwrites (keyedTransaction key) t.2 := fun t _ => C138_overwrites key t.2
  obtain ⟨done, left, list1, h1, hs', h2, h4, h3⟩ := snapshotsMaria_places h list hs hlist hnone hr hone hin hg hd new hnew hsend hover
  obtain rfl : list' = list1 := Option.some.inj (hlist'.symm.trans h2)
  obtain ⟨stream, g1, g2⟩ := C119_session m crypto c' chan hu hwr checksum bytes hlets list' hs' hlist' FlaggedTx log' parts hp hlog hmem slices st
    hbytes hsize n rest hinput
  have g2 := g2 (flat parts).length
  rw [List.take_of_length_le (Nat.le_refl _)] at g2
  have hy : ∃ stream', stream.Yields m ((flat parts).map .ok) stream' := by
    obtain ⟨_, _, _, _, _, _, _, _, _, _, hy, _⟩ := g2
    exact ⟨_, hy⟩
  obtain ⟨shown', h5, h6⟩ := C138_indexes hcol hist hshown hi hk
  refine ⟨stream, shown', g1, hy, h5, ?_⟩
  have hleft : parts.flatMap Part.txs = left := by
    rw [h4] at hlog
    have hl : ∀ t ∈ left, t ∈ log' := fun t ht => hnew t (by rw [h1]; exact List.mem_append_right _ ht)
    have := prefix_of_fst hd hmem hl (by rw [hlog]; exact List.prefix_rfl)
    exact this.eq_of_length (by simpa using congrArg List.length hlog)
  have hwhole : whole (flat parts) = left.map (·.2) := by
    rw [← hleft, ← finishedTxs_all parts _ (Nat.le_refl _), ← gathered_finished (fun _ _ h rest => wholeFrom_flagged h rest) parts hp,
      List.take_of_length_le (Nat.le_refl _)]
  have hend : left.foldl (fun d t => keyedTransaction key d t.2) data' = dataAfter (keyedTransaction key) data new := by
    funext k
    obtain ⟨upto, e1, e2, e3⟩ := (h3.run hover (run := left) (d := new) (h1 ▸ List.prefix_rfl) (h1 ▸ List.prefix_rfl)) k
    rw [e2.eq_of_length_le e1.length_le] at e3
    exact e3
  rw [hwhole, List.foldl_map, hend]
  exact h6

/-- The hypotheses are met: the program commits everything, saves a text before and after that, and goes back to the older one. -/
example (m : Mode) : ∃ t : Tx MGtid, exStatementTx.txs = [t] ∧ (∃ c' text, SnapshotsMaria False m exSeen exListUser (fun k => k = 0)
      (exMariaTxs.take 2 ++ [t]) [] c' (dataAfter exSeen (fun k => k = 0) [t, t]) (exMariaTxs.take 2 ++ [t]) [text]) ∧
    exListUser.options.binlog.startingStrategy = .fromGtid ∧ exListUser.options.binlog.gtidList = some exList ∧
    exListUser.options.binlog.gtidSet = none ∧ (∀ g ∈ exList.gtids, MGtidRange g) ∧ (exList.gtids.map (·.domainId)).Nodup ∧
    (∀ t' ∈ exMariaTxs.take 2 ++ [t], MGtidRange t'.1) ∧ ((exMariaTxs.take 2 ++ [t]).map (·.1)).Nodup ∧
    toSend exList.gtids ((exMariaTxs.take 2 ++ [t]).map (·.1)) = [t].map (·.1) := by
  have hr : ∀ g ∈ exList.gtids, MGtidRange g := by unfold MGtidRange; decide
  refine ⟨_, rfl, ?_, rfl, rfl, rfl, hr, by decide, by unfold MGtidRange; decide +kernel, by decide, by decide⟩
  have ok : ∀ p ∈ [exStatementTx], p.Ok FlaggedTx := by
    intro p hp
    rw [List.mem_singleton.1 hp]
    exact FlaggedTx.block (x := ⟨⟨0, 1, 271⟩, 0⟩) (body := [(exTyped 2, exQuery "INSERT")]) rfl rfl (by simp [Inside, IsGtid, Spec.Ends, exQuery]) trivial
  obtain ⟨stream, h3, h4⟩ := C119_session m exCrypto exListUser { exChannel [] with input := _ } exListUser_usable rfl .crc32 _
    (exListUser_in _ rfl) exList rfl rfl FlaggedTx (exMariaTxs.take 2 ++ exStatementTx.txs) [exStatementTx] ok (by decide) (by
      intro t ht
      exact List.mem_append_right _ (by simpa using ht)) _ _
    (.cons (by unfold HeaderFits; decide) (exMariaTx_written _ rfl 0 271 (by decide) (by decide)).1
      (.cons (by unfold HeaderFits; decide) (exQuery_written _ _)
      (.cons (by unfold HeaderFits; decide) (exMariaTx_written _ rfl 0 271 (by decide) (by decide)).2 .nil))) (by decide +kernel) 1 [] rfl
  have w3 : whole ((flat [exStatementTx]).take 3) = exStatementTx.txs.map (·.2) := by with_unfolding_all rfl
  have hc3 : ∀ m, ∃ c3 l, commitAll m exListUser.afresh (toCommit ((flat [exStatementTx]).take 3)) = .ok c3 ∧ c3.options.binlog.gtidList = some l := by
    rintro ⟨_ | _⟩ <;> exact ⟨_, ⟨[⟨0, 1, 271⟩, ⟨1, 1, 5⟩]⟩, by with_unfolding_all rfl, by with_unfolding_all rfl⟩
  obtain ⟨c3, l, hc3, hl⟩ := hc3 m
  refine ⟨c3, exList.display, .session (small_fits exListUser_usable.requests) h3 (h4 3) List.prefix_rfl hc3
    (.save List.prefix_rfl hc3 hl (.save (first := []) (list := exList) List.nil_prefix rfl rfl .none))
    (.back (newer := [l.display]) (C15_print_parse exList hr (by decide)) (o := exListUser.options) rfl rfl
    (.session (small_fits exListUser_usable.requests) h3 (h4 3) List.prefix_rfl hc3 .none ?_))⟩
  rw [w3]
  exact .stop

end MysqlCdc
