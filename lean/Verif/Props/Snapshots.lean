import Verif.Props.Restarts
/-!
# C141: programs that save the text of the recorded position now and then
-/

namespace MysqlCdc

open Spec

/-! ## One session -/

/-- What a session gives the application, and what is recorded after any first part of the commits. -/
theorem lagging_session {m : Mode} {c c1 : Client} {crypto : Crypto} {chan : Channel} {stream : BinlogEvents} {taken : List Ev}
    {old older more : List (Tx Gtid)} {set : GtidSet} (hs : c.options.binlog.startingStrategy = .fromGtid) (hset : c.options.binlog.gtidSet = some set)
    (hw : Wf set) (ho : AllOrdered set) (hg : ∀ t ∈ old ++ older ++ more, GtidOk t.1) (hd : ((old ++ older ++ more).map fun t => gtidKey t.1).Nodup)
    (hhas : ∀ t ∈ old ++ older ++ more, Has set t.1.sourceId.data t.1.transactionId ↔ t ∈ old)
    (hf : FitsRequests c.options) (hr : c.replicate m crypto (.ok chan) = (.ok stream, c1)) (hsess : CopySession m (old ++ older) stream taken) :
    ∃ run : List (Tx Gtid), run <+: older ∧ whole taken = run.map (·.2) ∧ ∃ recorded : List Ev → List (Tx Gtid),
      (∀ x y, x <+: y → recorded x <+: recorded y) ∧ ∀ committed c2, committed <+: taken → commitAll m c1 committed = .ok c2 →
        recorded committed <+: run ∧ c2.options.binlog.startingStrategy = .fromGtid ∧ ∃ set2, c2.options.binlog.gtidSet = some set2 ∧ Wf set2 ∧
          AllOrdered set2 ∧ ∀ t ∈ old ++ older ++ more, Has set2 t.1.sourceId.data t.1.transactionId ↔ t ∈ old ++ recorded committed := by
  classical
  obtain ⟨parts, hp, hlog, htaken, hts⟩ := copySession_parts hs hset hf hr hsess
  have holder : (old ++ older).filter (fun t => ¬Has set t.1.sourceId.data t.1.transactionId) = older := by
    rw [List.filter_append, List.filter_eq_nil_iff.2, List.filter_eq_self.2, List.nil_append]
    · intro t ht
      simp only [decide_eq_true_eq]
      rw [hhas t (by simp [ht])]
      intro h1
      rw [List.append_assoc, List.map_append, List.nodup_append] at hd
      exact hd.2.2 _ (List.mem_map.2 ⟨t, h1, rfl⟩) _ (List.mem_map.2 ⟨t, List.mem_append_left _ ht, rfl⟩) rfl
    · intro t ht
      simp only [decide_eq_true_eq, not_not]
      exact (hhas t (by simp [ht])).2 ht
  rw [holder] at hlog
  refine ⟨finishedTxs taken.length parts, hlog ▸ finishedTxs_prefix _ parts, by rw [← whole_finished parts hp, ← htaken],
    fun committed => finishedTxs committed.length parts, fun x y hxy => finishedTxs_mono hxy.length_le parts, fun committed c2 hpre hc => ?_⟩
  have hopt := replicate_keeps_options m crypto c (.ok chan) (.inl (by rw [hs]; decide))
  rw [hr] at hopt
  have hopt : c1.options = c.options := hopt
  refine ⟨finishedTxs_mono hpre.length_le parts, by rw [commitAll_keeps hc, hopt, hs], ?_⟩
  have h1 : TakenSessions m c ((old ++ older).map (·.1)) ([finishedTxs committed.length parts].map fun d => d.map (·.1)) c2
      ((old ++ older ++ more).map (·.1)) := by
    rw [List.map_append (l₁ := old ++ older), List.map_singleton, finishedTxs_fst]
    exact .session hf hr (hts committed hpre) hc (.grow _ .stop)
  have hrec : finishedTxs committed.length parts <+: older := hlog ▸ finishedTxs_prefix _ parts
  obtain ⟨later, set2, -, k2, k3, -⟩ := taken_seen h1 (by
    intro t ht
    simp only [List.flatten_cons, List.flatten_nil, List.append_nil] at ht
    simp [hrec.subset ht]) (List.prefix_append _ _) set hs hset hw ho hg hd old (List.prefix_append _ _) hhas
  simp only [List.flatten_cons, List.flatten_nil, List.append_nil] at k3
  obtain ⟨set2', e1, e2, e3, -, -⟩ := taken_each_once h1 set hs hset hw ho (by
    intro g hg'
    obtain ⟨t, ht, rfl⟩ := List.mem_map.1 hg'
    exact hg t ht) (by rw [List.map_map]; exact hd)
  obtain rfl : set2 = set2' := Option.some.inj (k2.symm.trans e1)
  exact ⟨set2, k2, e2, e3, k3⟩

/-- And that can be printed. -/
theorem session_printable {m : Mode} {c c1 c2 : Client} {crypto : Crypto} {chan : Channel} {stream : BinlogEvents} {taken committed : List Ev}
    {log : List (Tx Gtid)} {set set2 : GtidSet} (hs : c.options.binlog.startingStrategy = .fromGtid) (hset : c.options.binlog.gtidSet = some set)
    (hw : Wf set) (ho : AllOrdered set) (hpr : Printable set) (hg : ∀ t ∈ log, Spellable t.1) (hf : FitsRequests c.options)
    (hr : c.replicate m crypto (.ok chan) = (.ok stream, c1)) (hsess : CopySession m log stream taken) (hpre : committed <+: taken)
    (hc : commitAll m c1 committed = .ok c2) (hset2 : c2.options.binlog.gtidSet = some set2) : Printable set2 := by
  have h : LaggingSessions (σ := Unit) m (fun _ _ => ()) c () log c2 () log := .session hf hr hsess hpre hc .stop
  obtain ⟨set3, k1, -, -, k4, -⟩ := lagging_keeps h hs (start := set) ⟨set, hset, hw, ho, hpr, fun u n hn => .inl hn⟩ hg
  obtain rfl : set2 = set3 := Option.some.inj (hset2.symm.trans k1)
  exact k4

/-! ## Saving and going back -/

/-- Texts that a program saves in a session, the last one first: of the set that is recorded after some first ones of its commits. -/
inductive Saves (m : Mode) (c1 : Client) : (committed : List Ev) → List RStr → Prop where
  | none {committed : List Ev} : Saves m c1 committed []
  | save {committed first : List Ev} {c3 : Client} {set : GtidSet} {texts : List RStr} (hf : first <+: committed) (hc : commitAll m c1 first = .ok c3)
      (hset : c3.options.binlog.gtidSet = some set) (h : Saves m c1 first texts) : Saves m c1 committed (set.display :: texts)

/-- A program with a MySQL server, as in C137, that saves the text of the recorded set now and then, in the middle of sessions, and is killed and started again
any number of times, from a text that it has saved: not always the last one. When it goes back to an older text it throws away the newer ones. If `jumps`, it
may also keep them and start from them later. -/
inductive Snapshots {σ : Type} (jumps : Prop) (m : Mode) (apply : σ → List Ev → σ) :
    Client → σ → (log : List (Tx Gtid)) → (saved : List RStr) → Client → σ → (log' : List (Tx Gtid)) → (saved' : List RStr) → Prop where
  | stop {c : Client} {data : σ} {log : List (Tx Gtid)} {saved : List RStr} : Snapshots jumps m apply c data log saved c data log saved
  | grow {c c' : Client} {data data' : σ} {log log' : List (Tx Gtid)} {saved saved' : List RStr} (more : List (Tx Gtid))
      (h : Snapshots jumps m apply c data (log ++ more) saved c' data' log' saved') : Snapshots jumps m apply c data log saved c' data' log' saved'
  | failed {c c' : Client} {data data' : σ} {log log' : List (Tx Gtid)} {saved saved' : List RStr} {crypto : Crypto} {net : Except IoKind Channel}
      (h : Snapshots jumps m apply (c.replicate m crypto net).2 data log saved c' data' log' saved') :
      Snapshots jumps m apply c data log saved c' data' log' saved'
  | session {c c1 c2 c' : Client} {data data' : σ} {log log' : List (Tx Gtid)} {saved saved' texts : List RStr} {crypto : Crypto} {chan : Channel}
      {stream : BinlogEvents} {taken committed : List Ev} (hf : FitsRequests c.options) (hr : c.replicate m crypto (.ok chan) = (.ok stream, c1))
      (hs : CopySession m log stream taken) (hpre : committed <+: taken) (hc : commitAll m c1 committed = .ok c2) (ht : Saves m c1 committed texts)
      (h : Snapshots jumps m apply c2 ((whole taken).foldl apply data) log (texts ++ saved) c' data' log' saved') :
      Snapshots jumps m apply c data log saved c' data' log' saved'
  | back {c c2 c' : Client} {data data' : σ} {log log' : List (Tx Gtid)} {newer saved saved' : List RStr} {text : RStr} {set : GtidSet} {o : ReplicaOptions}
      (hparse : GtidSet.parse m text = .ok set) (hbinlog : o.binlog = .fromMysqlGtid set) (hnew : Client.new o = .ok c2)
      (h : Snapshots jumps m apply c2 data log (text :: saved) c' data' log' saved') :
      Snapshots jumps m apply c data log (newer ++ text :: saved) c' data' log' saved'
  | jump {c c2 c' : Client} {data data' : σ} {log log' : List (Tx Gtid)} {saved saved' : List RStr} {text : RStr} {set : GtidSet} {o : ReplicaOptions}
      (hj : jumps) (htext : text ∈ saved) (hparse : GtidSet.parse m text = .ok set) (hbinlog : o.binlog = .fromMysqlGtid set) (hnew : Client.new o = .ok c2)
      (h : Snapshots jumps m apply c2 data log saved c' data' log' saved') : Snapshots jumps m apply c data log saved c' data' log' saved'

theorem Snapshots.grows {σ : Type} {jumps : Prop} {m : Mode} {apply : σ → List Ev → σ} {c c' : Client} {data data' : σ} {log log' : List (Tx Gtid)}
    {saved saved' : List RStr} (h : Snapshots jumps m apply c data log saved c' data' log' saved') : log <+: log' := by
  induction h with
  | stop => exact List.prefix_rfl
  | grow more _ ih => exact (List.prefix_append _ _).trans ih
  | failed _ ih => exact ih
  | session _ _ _ _ _ _ _ ih => exact ih
  | back _ _ _ _ ih => exact ih
  | jump _ _ _ _ _ _ ih => exact ih

/-- Of the log, the set has exactly these; and it can be printed. -/
structure Stands (log : List (Tx Gtid)) (set : GtidSet) (txs : List (Tx Gtid)) : Prop where
  wf : Wf set
  ordered : AllOrdered set
  printable : Printable set
  has : ∀ t ∈ log, Has set t.1.sourceId.data t.1.transactionId ↔ t ∈ txs

/-- The saved texts, the last one first: each is that of a set that stands at some transactions behind `old`, which have been applied. Without jumps, an older
text stands at fewer transactions. -/
def Stack (jumps : Prop) (log old seen applied : List (Tx Gtid)) : (bound : List (Tx Gtid)) → List RStr → Prop
  | _, [] => True
  | bound, text :: texts => ∃ done set, (jumps ∨ done <+: bound) ∧ done <+: seen ∧ (∀ t ∈ done, t ∈ applied) ∧ text = set.display ∧
      Stands log set (old ++ done) ∧ Stack jumps log old seen applied done texts

theorem Stack.weaken {jumps : Prop} {log old seen seen' applied applied' bound bound' : List (Tx Gtid)} {texts : List RStr}
    (h : Stack jumps log old seen applied bound texts) (hs : seen <+: seen') (ha : ∀ t ∈ applied, t ∈ applied') (hb : jumps ∨ bound <+: bound') :
    Stack jumps log old seen' applied' bound' texts := by
  induction texts generalizing bound bound' with
  | nil => trivial
  | cons text texts ih =>
    obtain ⟨done, set, h1, h2, h3, h4, h5, h6⟩ := h
    refine ⟨done, set, ?_, h2.trans hs, fun t ht => ha t (h3 t ht), h4, h5, ih h6 (.inr List.prefix_rfl)⟩
    rcases h1 with h1 | h1
    · exact .inl h1
    · exact hb.imp_right h1.trans

theorem Stack.drop {jumps : Prop} {log old seen applied bound : List (Tx Gtid)} {newer texts : List RStr}
    (h : Stack jumps log old seen applied bound (newer ++ texts)) : Stack jumps log old seen applied bound texts := by
  induction newer generalizing bound with
  | nil => exact h
  | cons text newer ih =>
    obtain ⟨done, set, h1, h2, h3, h4, h5, h6⟩ := h
    exact (ih h6).weaken List.prefix_rfl (fun t ht => ht) h1

theorem Stack.of_mem {jumps : Prop} {log old seen applied bound : List (Tx Gtid)} {texts : List RStr}
    (h : Stack jumps log old seen applied bound texts) {text : RStr} (ht : text ∈ texts) :
    ∃ done set, (jumps ∨ done <+: bound) ∧ done <+: seen ∧ (∀ t ∈ done, t ∈ applied) ∧ text = set.display ∧ Stands log set (old ++ done) := by
  obtain ⟨newer, older, rfl⟩ := List.append_of_mem ht
  obtain ⟨done, set, h1, h2, h3, h4, h5, -⟩ := h.drop
  exact ⟨done, set, h1, h2, h3, h4, h5⟩

/-- What has been done at the end. `Q` is any relation of recorded transactions and data that giving again keeps. -/
theorem snapshots_end {σ : Type} {jumps : Prop} {m : Mode} {apply : σ → List Ev → σ} {c c' : Client} {data data' : σ} {log log' : List (Tx Gtid)}
    {saved saved' : List RStr} (h : Snapshots jumps m apply c data log saved c' data' log' saved') (old new : List (Tx Gtid)) (hnew : log' = old ++ new)
    (hg : ∀ t ∈ log', Spellable t.1) (hd : (log'.map fun t => gtidKey t.1).Nodup) (base : σ) (Q : List (Tx Gtid) → σ → Prop)
    (hQ : ∀ done run d data, Q done data → done ++ run <+: new → d <+: done ++ run → Q d (dataAfter apply data run))
    (seen : List (Tx Gtid)) (hlog : log = old ++ seen) (done applied : List (Tx Gtid)) (set : GtidSet) (hdone : done <+: seen)
    (hs : c.options.binlog.startingStrategy = .fromGtid) (hset : c.options.binlog.gtidSet = some set) (hat : Stands log' set (old ++ done))
    (hdata : data = dataAfter apply base applied) (hgiven : ∀ t ∈ done, t ∈ applied) (hstack : Stack jumps log' old seen applied done saved)
    (hq : ¬jumps → Q done data) :
    ∃ done' applied' set', done' <+: new ∧ c'.options.binlog.startingStrategy = .fromGtid ∧ c'.options.binlog.gtidSet = some set' ∧
      Stands log' set' (old ++ done') ∧ data' = dataAfter apply base applied' ∧ (∀ t ∈ done', t ∈ applied') ∧
      Stack jumps log' old new applied' done' saved' ∧ (¬jumps → Q done' data') := by
  induction h generalizing seen done applied set with
  | @stop c data log saved =>
    obtain rfl := List.append_cancel_left (hlog.symm.trans hnew)
    exact ⟨done, applied, set, hdone, hs, hset, hat, hdata, hgiven, hstack, hq⟩
  | grow more _ ih =>
    exact ih hnew hg hd (seen ++ more) (by rw [hlog, List.append_assoc]) done applied set (hdone.trans (List.prefix_append _ _)) hs hset hat hdata hgiven
      (hstack.weaken (List.prefix_append _ _) (fun t ht => ht) (.inr List.prefix_rfl)) hq
  | @failed c c' data data' log log' saved saved' crypto net _ ih =>
    have hopt := replicate_keeps_options m crypto c net (.inl (by rw [hs]; decide))
    exact ih hnew hg hd seen hlog done applied set hdone (by rw [hopt]; exact hs) (by rw [hopt]; exact hset) hat hdata hgiven hstack hq
  | @session c c1 c2 c' data data' log log' saved saved' texts crypto chan stream taken committed hf hr hsess hpre hc ht h ih =>
    obtain ⟨more, hmore⟩ := h.grows
    obtain ⟨waiting, rfl⟩ := hdone
    subst hlog
    obtain rfl : new = done ++ waiting ++ more := by
      rw [← hmore, List.append_assoc] at hnew
      exact (List.append_cancel_left hnew).symm
    have hall : log' = old ++ done ++ waiting ++ more := by rw [← hmore]; simp
    obtain ⟨run, r1, r2, recorded, r3, r4⟩ := lagging_session (more := more) (old := old ++ done) (older := waiting) hs hset hat.wf hat.ordered
      (fun t ht => (hg t (hall ▸ ht)).1) (hall ▸ hd) (fun t ht => hat.has t (hall ▸ ht)) hf hr (by rw [List.append_assoc]; exact hsess)
    have hrun : done ++ run <+: done ++ waiting ++ more :=
      ((List.prefix_append_right_inj _).2 r1).trans (List.prefix_append _ _)
    have stands : ∀ first c3, first <+: taken → commitAll m c1 first = .ok c3 → c3.options.binlog.startingStrategy = .fromGtid ∧
        ∃ set3, c3.options.binlog.gtidSet = some set3 ∧ Stands log' set3 (old ++ (done ++ recorded first)) := by
      intro first c3 h1 h2
      obtain ⟨-, e1, set3, e2, e3, e4, e5⟩ := r4 first c3 h1 h2
      refine ⟨e1, set3, e2, e3, e4, session_printable hs hset hat.wf hat.ordered hat.printable
        (fun t ht => hg t (hmore ▸ List.mem_append_left _ ht)) hf hr hsess h1 h2 e2, fun t ht => ?_⟩
      rw [e5 t (hall ▸ ht), List.append_assoc]
    obtain ⟨e1, set2, e2, e3⟩ := stands committed c2 hpre hc
    have hrec := (r4 committed c2 hpre hc).1
    have given : ∀ x, recorded x <+: run → ∀ t ∈ done ++ recorded x, t ∈ applied ++ run := by
      intro x hx t ht
      rcases List.mem_append.1 ht with ht | ht
      · exact List.mem_append_left _ (hgiven t ht)
      · exact List.mem_append_right _ (hx.subset ht)
    refine ih hnew hg hd (done ++ waiting) rfl (done ++ recorded committed) (applied ++ run) set2
      ((List.prefix_append_right_inj _).2 (hrec.trans r1)) e1 e2 e3 ?_ (given committed hrec) ?_ fun hj => ?_
    · rw [hdata, dataAfter_append, r2, List.foldl_map]
      rfl
    · have low : Stack jumps log' old (done ++ waiting) (applied ++ run) done saved :=
        hstack.weaken List.prefix_rfl (fun t ht => List.mem_append_left _ ht) (.inr List.prefix_rfl)
      clear hc e1 e2 e3 hrec h ih
      induction ht with
      | none => exact low.weaken List.prefix_rfl (fun t ht => ht) (.inr (List.prefix_append _ _))
      | @save committed first c3 set3 texts hfirst hc3 hset3 _ ih' =>
        obtain ⟨-, set4, g2, g3⟩ := stands first c3 (hfirst.trans hpre) hc3
        obtain rfl : set3 = set4 := Option.some.inj (hset3.symm.trans g2)
        have hrec3 := (r4 first c3 (hfirst.trans hpre) hc3).1
        exact ⟨done ++ recorded first, set3, .inr ((List.prefix_append_right_inj _).2 (r3 _ _ hfirst)), (List.prefix_append_right_inj _).2 (hrec3.trans r1),
          given first hrec3, rfl, g3, ih' (hfirst.trans hpre) ⟩
    · have := hQ done run (done ++ recorded committed) data (hq hj) hrun ((List.prefix_append_right_inj _).2 hrec)
      rw [r2, List.foldl_map]
      exact this
  | @back c c2 c' data data' log log' newer saved saved' text set2 o hparse hbinlog hc2 h ih =>
    obtain ⟨done2, set3, h1, h2, h3, rfl, h5, h6⟩ := hstack.drop
    obtain ⟨set4, p1, p2, p3, p4, p5⟩ := printable_parse m h5.wf h5.ordered h5.printable
    obtain rfl : set4 = set2 := Res.ok.inj (p1.symm.trans hparse)
    have e1 := client_new_ok hc2
    refine ih hnew hg hd seen hlog done2 applied set4 h2 (by rw [e1, hbinlog]; rfl) (by rw [e1, hbinlog]; rfl)
      ⟨p2, p3, p4, fun t ht => (p5 _ _).trans (h5.has t ht)⟩ hdata h3 ⟨done2, set3, .inr List.prefix_rfl, h2, h3, rfl, h5, h6⟩ fun hj => ?_
    have hin : done <+: new := by
      obtain ⟨more, hmore⟩ := h.grows
      rw [hnew, hlog, List.append_assoc] at hmore
      exact hdone.trans ⟨more, List.append_cancel_left hmore⟩
    exact hQ done [] done2 data (hq hj) (by rwa [List.append_nil]) (by rw [List.append_nil]; exact h1.resolve_left hj)
  | @jump c c2 c' data data' log log' saved saved' text set2 o hj htext hparse hbinlog hc2 h ih =>
    obtain ⟨done2, set3, h1, h2, h3, rfl, h5⟩ := hstack.of_mem htext
    obtain ⟨set4, p1, p2, p3, p4, p5⟩ := printable_parse m h5.wf h5.ordered h5.printable
    obtain rfl : set4 = set2 := Res.ok.inj (p1.symm.trans hparse)
    have e1 := client_new_ok hc2
    exact ih hnew hg hd seen hlog done2 applied set4 h2 (by rw [e1, hbinlog]; rfl) (by rw [e1, hbinlog]; rfl)
      ⟨p2, p3, p4, fun t ht => (p5 _ _).trans (h5.has t ht)⟩ hdata h3 (hstack.weaken List.prefix_rfl (fun t ht => ht) (.inl hj)) fun h => absurd hj h

/-- Each place of the data holds what it held after some of the transactions, at least after `done`. -/
def SinceDone {K V γ : Type} (apply : (K → V) → List Ev → K → V) (base : K → V) (new done : List (Tx γ)) (data : K → V) : Prop :=
  ∀ k, ∃ upto, done <+: upto ∧ upto <+: new ∧ data k = dataAfter apply base upto k

theorem SinceDone.run {K V γ : Type} {apply : (K → V) → List Ev → K → V} {base : K → V} {new : List (Tx γ)} (hover : ∀ t ∈ new, Overwrites apply t.2)
    {done run d : List (Tx γ)} {data : K → V} (h : SinceDone apply base new done data) (hrun : done ++ run <+: new) (hd : d <+: done ++ run) :
    SinceDone apply base new d (dataAfter apply data run) := by
  intro k
  have ho : ∀ t ∈ run, ∀ k, (∃ v, ∀ d, (fun d (t : Tx γ) => apply d t.2) d t k = v) ∨ ∀ d, (fun d (t : Tx γ) => apply d t.2) d t k = d k :=
    fun t ht => hover t (hrun.subset (List.mem_append_right _ ht))
  rcases overwrites_place run ho k with ⟨v, hv⟩ | hnot
  · exact ⟨done ++ run, hd, hrun, by rw [dataAfter_append]; exact (hv _).trans (hv _).symm⟩
  · obtain ⟨upto, h1, h2, h3⟩ := h k
    have hsame : dataAfter apply data run k = data k := untouched run hnot data
    rcases List.prefix_or_prefix_of_prefix h2 hrun with h4 | h4
    · refine ⟨done ++ run, hd, hrun, ?_⟩
      obtain ⟨rest, hrest⟩ := h4
      obtain ⟨some_, rfl⟩ := h1
      rw [List.append_assoc] at hrest
      have hrest := List.append_cancel_left hrest
      rw [hsame, h3, ← hrest, ← List.append_assoc, dataAfter_append apply base (done ++ some_)]
      exact (untouched rest (fun t ht => hnot t (hrest ▸ List.mem_append_right _ ht)) _).symm
    · exact ⟨upto, hd.trans h4, h2, hsame.trans h3⟩

/-- What is not done is left. -/
theorem done_left {log old new done left : List (Tx Gtid)} {set : GtidSet} (hd : (log.map fun t => gtidKey t.1).Nodup) (hnew : log = old ++ new)
    (hsplit : new = done ++ left) (h : ∀ t ∈ log, Has set t.1.sourceId.data t.1.transactionId ↔ t ∈ old ++ done) :
    ∀ t ∈ log, Has set t.1.sourceId.data t.1.transactionId ↔ t ∉ left := by
  have hall : log = (old ++ done) ++ left := by rw [hnew, hsplit, List.append_assoc]
  intro t ht
  rw [h t ht]
  rw [hall, List.map_append, List.nodup_append] at hd
  refine ⟨fun h1 h2 => hd.2.2 _ (List.mem_map.2 ⟨t, h1, rfl⟩) _ (List.mem_map.2 ⟨t, h2, rfl⟩) rfl, fun h1 => ?_⟩
  rw [hall] at ht
  exact (List.mem_append.1 ht).resolve_right h1

theorem snapshots_start {σ : Type} {jumps : Prop} {m : Mode} {apply : σ → List Ev → σ} {c c' : Client} {data data' : σ} {log log' : List (Tx Gtid)}
    {saved' : List RStr} (h : Snapshots jumps m apply c data log [] c' data' log' saved') (set : GtidSet)
    (hs : c.options.binlog.startingStrategy = .fromGtid) (hset : c.options.binlog.gtidSet = some set) (hw : Wf set) (ho : AllOrdered set)
    (hpr : Printable set) (hg : ∀ t ∈ log', GtidOk t.1 ∧ t.1.sourceId.uuid.length = 36)
    (hd : (log'.map fun t => gtidKey t.1).Nodup) (old new : List (Tx Gtid)) (hold : old <+: log) (hnew : log' = old ++ new)
    (hhas : ∀ t ∈ log', Has set t.1.sourceId.data t.1.transactionId ↔ t ∈ old)
    (Q : List (Tx Gtid) → σ → Prop) (hQ : ∀ done run d data, Q done data → done ++ run <+: new → d <+: done ++ run → Q d (dataAfter apply data run))
    (hq : Q [] data) :
    ∃ done left applied set', new = done ++ left ∧ c'.options.binlog.startingStrategy = .fromGtid ∧ c'.options.binlog.gtidSet = some set' ∧
      Stands log' set' (old ++ done) ∧ (∀ t ∈ log', Has set' t.1.sourceId.data t.1.transactionId ↔ t ∉ left) ∧
      data' = dataAfter apply data applied ∧ (∀ t ∈ done, t ∈ applied) ∧ Stack jumps log' old new applied done saved' ∧ (¬jumps → Q done data') := by
  obtain ⟨seen, rfl⟩ := hold
  obtain ⟨done, applied, set', ⟨left, h1⟩, h2, h3, h4, h5⟩ := snapshots_end h old new hnew hg hd data Q hQ seen rfl [] [] set List.nil_prefix hs hset
    ⟨hw, ho, hpr, fun t ht => by rw [List.append_nil]; exact hhas t ht⟩ rfl (by simp) trivial fun _ => hq
  exact ⟨done, left, applied, set', h1.symm, h2, h3, h4, done_left hd hnew h1.symm h4.has, h5⟩

/-- **C141.** A program with a MySQL server saves the text of the recorded set now and then, also in the middle of sessions, and is killed and started again any
number of times from some text that it has saved, also an older one, in whatever order. Whatever is recorded at the end has been applied: no transaction is left
out. And every text that it has saved is parsed, to a set that has a first part of the transactions, which have been applied. -/
theorem C141_none_left_out {σ : Type} {jumps : Prop} {m : Mode} {apply : σ → List Ev → σ} {c c' : Client} {data data' : σ} {log log' : List (Tx Gtid)}
    {saved' : List RStr} (h : Snapshots jumps m apply c data log [] c' data' log' saved') (set : GtidSet)
    (hs : c.options.binlog.startingStrategy = .fromGtid) (hset : c.options.binlog.gtidSet = some set) (hw : Wf set) (ho : AllOrdered set)
    (hpr : Printable set) (hg : ∀ t ∈ log', GtidOk t.1 ∧ t.1.sourceId.uuid.length = 36)
    (hd : (log'.map fun t => gtidKey t.1).Nodup) (old new : List (Tx Gtid)) (hold : old <+: log) (hnew : log' = old ++ new)
    (hhas : ∀ t ∈ log', Has set t.1.sourceId.data t.1.transactionId ↔ t ∈ old) :
    ∃ done left applied set', new = done ++ left ∧ c'.options.binlog.gtidSet = some set' ∧
      (∀ t ∈ log', Has set' t.1.sourceId.data t.1.transactionId ↔ t ∉ left) ∧ data' = dataAfter apply data applied ∧ (∀ t ∈ done, t ∈ applied) ∧
      ∀ text ∈ saved', ∃ first set2, first <+: new ∧ (∀ t ∈ first, t ∈ applied) ∧ GtidSet.parse m text = .ok set2 ∧
        ∀ t ∈ log', Has set2 t.1.sourceId.data t.1.transactionId ↔ t ∈ old ++ first := by
  obtain ⟨done, left, applied, set', h1, -, h2, -, h3, h4, h5, h6, -⟩ := snapshots_start h set hs hset hw ho hpr hg hd old new hold hnew hhas
    (fun _ _ => True) (fun _ _ _ _ _ _ _ => trivial) trivial
  refine ⟨done, left, applied, set', h1, h2, h3, h4, h5, fun text ht => ?_⟩
  obtain ⟨first, set2, -, k1, k2, rfl, k3⟩ := h6.of_mem ht
  obtain ⟨set3, p1, -, -, -, p5⟩ := printable_parse m k3.wf k3.ordered k3.printable
  exact ⟨first, set3, k1, k2, p1, fun t ht => (p5 _ _).trans (k3.has t ht)⟩

theorem snapshots_places {K V : Type} {m : Mode} {apply : (K → V) → List Ev → K → V} {c c' : Client} {data data' : K → V} {log log' : List (Tx Gtid)}
    {saved' : List RStr} (h : Snapshots False m apply c data log [] c' data' log' saved') (set : GtidSet)
    (hs : c.options.binlog.startingStrategy = .fromGtid) (hset : c.options.binlog.gtidSet = some set) (hw : Wf set) (ho : AllOrdered set)
    (hpr : Printable set) (hg : ∀ t ∈ log', GtidOk t.1 ∧ t.1.sourceId.uuid.length = 36)
    (hd : (log'.map fun t => gtidKey t.1).Nodup) (old new : List (Tx Gtid)) (hold : old <+: log) (hnew : log' = old ++ new)
    (hhas : ∀ t ∈ log', Has set t.1.sourceId.data t.1.transactionId ↔ t ∈ old)
    (hover : ∀ t ∈ new, Overwrites apply t.2) :
    ∃ done left set', new = done ++ left ∧ c'.options.binlog.startingStrategy = .fromGtid ∧ c'.options.binlog.gtidSet = some set' ∧
      Stands log' set' (old ++ done) ∧ (∀ t ∈ log', Has set' t.1.sourceId.data t.1.transactionId ↔ t ∉ left) ∧ SinceDone apply data new done data' := by
  obtain ⟨done, left, applied, set', h1, h2, h3, h4, h5, -, -, -, h6⟩ := snapshots_start h set hs hset hw ho hpr hg hd old new hold hnew hhas
    (SinceDone apply data new) (fun done run d data h h1 h2 => h.run hover h1 h2) fun k => ⟨[], List.prefix_rfl, List.nil_prefix, rfl⟩
  exact ⟨done, left, set', h1, h2, h3, h4, h5, h6 id⟩

/-- **C141.** When transactions overwrite, and the program that goes back to an older text throws away the newer ones: each place of the copy holds what it held
on the server after all the recorded transactions and some first ones of the others. If all are recorded, the copy is the server's data. -/
theorem C141_places {K V : Type} {m : Mode} {apply : (K → V) → List Ev → K → V} {c c' : Client} {data data' : K → V} {log log' : List (Tx Gtid)}
    {saved' : List RStr} (h : Snapshots False m apply c data log [] c' data' log' saved') (set : GtidSet)
    (hs : c.options.binlog.startingStrategy = .fromGtid) (hset : c.options.binlog.gtidSet = some set) (hw : Wf set) (ho : AllOrdered set)
    (hpr : Printable set) (hg : ∀ t ∈ log', GtidOk t.1 ∧ t.1.sourceId.uuid.length = 36)
    (hd : (log'.map fun t => gtidKey t.1).Nodup) (old new : List (Tx Gtid)) (hold : old <+: log) (hnew : log' = old ++ new)
    (hhas : ∀ t ∈ log', Has set t.1.sourceId.data t.1.transactionId ↔ t ∈ old)
    (hover : ∀ t ∈ new, Overwrites apply t.2) :
    ∃ done left set', new = done ++ left ∧ c'.options.binlog.gtidSet = some set' ∧
      (∀ t ∈ log', Has set' t.1.sourceId.data t.1.transactionId ↔ t ∉ left) ∧
      (∀ k, ∃ first, first <+: left ∧ data' k = dataAfter apply data (done ++ first) k) ∧
      ((∀ t ∈ log', Has set' t.1.sourceId.data t.1.transactionId) → data' = dataAfter apply data new) := by
  obtain ⟨done, left, set', rfl, -, h2, -, h3, h4⟩ := snapshots_places h set hs hset hw ho hpr hg hd old new hold hnew hhas hover
  have h5 : ∀ k, ∃ first, first <+: left ∧ data' k = dataAfter apply data (done ++ first) k := by
    intro k
    obtain ⟨upto, ⟨first, rfl⟩, k2, k3⟩ := h4 k
    exact ⟨first, (List.prefix_append_right_inj _).1 k2, k3⟩
  refine ⟨done, left, set', rfl, h2, h3, h5, fun hall => funext fun k => ?_⟩
  have hleft : left = [] := by
    rw [List.eq_nil_iff_forall_not_mem]
    intro t ht
    have hmem : t ∈ log' := by rw [hnew]; simp [ht]
    exact (h3 t hmem).1 (hall t hmem) ht
  subst hleft
  obtain ⟨first, h7, h8⟩ := h5 k
  rw [List.prefix_nil] at h7
  rw [h8, h7]

section

variable {κ : Type} [DecidableEq κ]

/-- **C141.** A copy of the tables of a MySQL server by keys, kept by such a program. Under each key the copy has what the server's table had under that key at
some time since the transactions that are recorded; when all are recorded, it has exactly the rows of the server's tables, each under its key. -/
theorem C141_keyed {key : TableName → Cells → κ} {m : Mode} {c c' : Client} {data data' : Keyed κ} {log log' : List (Tx Gtid)}
    {saved' : List RStr} (h : Snapshots False m (keyedTransaction key) c data log [] c' data' log' saved') (set : GtidSet)
    (hs : c.options.binlog.startingStrategy = .fromGtid) (hset : c.options.binlog.gtidSet = some set) (hw : Wf set) (ho : AllOrdered set)
    (hpr : Printable set) (hg : ∀ t ∈ log', GtidOk t.1 ∧ t.1.sourceId.uuid.length = 36)
    (hd : (log'.map fun t => gtidKey t.1).Nodup) (old new : List (Tx Gtid)) (hold : old <+: log) (hnew : log' = old ++ new)
    (hhas : ∀ t ∈ log', Has set t.1.sourceId.data t.1.transactionId ↔ t ∈ old)
    {columns : TableName → List (UInt8 × Nat)} (hcol : ∀ t, columns t ≠ []) {rows rows' : TableName → List (List Stored)}
    (hist : History columns rows new rows') {shown : TableName → List Cells} (hshown : RowsShown columns rows shown) (hi : Indexes key data shown)
    (hk : KeysHold key shown (changesOfTxs new)) :
    ∃ done left set', new = done ++ left ∧ c'.options.binlog.gtidSet = some set' ∧
      (∀ t ∈ log', Has set' t.1.sourceId.data t.1.transactionId ↔ t ∉ left) ∧
      (∀ t k, ∃ first between shown', first <+: left ∧ History columns rows (done ++ first) between ∧ RowsShown columns between shown' ∧
        ∀ r, data' (t, k) = some r ↔ r ∈ shown' t ∧ key t r = k) ∧
      ((∀ t ∈ log', Has set' t.1.sourceId.data t.1.transactionId) → ∃ shown', RowsShown columns rows' shown' ∧ Indexes key data' shown') := by
  obtain ⟨done, left, set', rfl, h1, h2, h3, h4⟩ := C141_places h set hs hset hw ho hpr hg hd old new hold hnew hhas fun t _ => C138_overwrites key t.2
  refine ⟨done, left, set', rfl, h1, h2, fun t k => ?_, fun hall => ?_⟩
  · obtain ⟨first, h5, h6⟩ := h3 (t, k)
    obtain ⟨between, shown', h7, h8, h9⟩ := keyed_place hcol hist hshown hi hk h5
    exact ⟨first, between, shown', h5, h7, h8, fun r => by rw [h6]; exact h9.2 t k r⟩
  · rw [h4 hall]
    exact C138_indexes hcol hist hshown hi hk

open Classical in
/-- **C141.** After whatever of that, once the program has taken one session whole, the copy has exactly the rows of the server's tables. -/
theorem C141_catches_up {key : TableName → Cells → κ} {m : Mode} {c c' : Client} {data data' : Keyed κ} {log log' : List (Tx Gtid)}
    {saved' : List RStr} (h : Snapshots False m (keyedTransaction key) c data log [] c' data' log' saved') (set : GtidSet)
    (hs : c.options.binlog.startingStrategy = .fromGtid) (hset : c.options.binlog.gtidSet = some set) (hw : Wf set) (ho : AllOrdered set)
    (hpr : Printable set) (hg : ∀ t ∈ log', GtidOk t.1 ∧ t.1.sourceId.uuid.length = 36)
    (hd : (log'.map fun t => gtidKey t.1).Nodup) (old new : List (Tx Gtid)) (hold : old <+: log) (hnew : log' = old ++ new)
    (hhas : ∀ t ∈ log', Has set t.1.sourceId.data t.1.transactionId ↔ t ∈ old)
    {columns : TableName → List (UInt8 × Nat)} (hcol : ∀ t, columns t ≠ []) {rows rows' : TableName → List (List Stored)}
    (hist : History columns rows new rows') {shown : TableName → List Cells} (hshown : RowsShown columns rows shown) (hi : Indexes key data shown)
    (hk : KeysHold key shown (changesOfTxs new))
    (crypto : Crypto) (chan : Channel) (hu : Usable crypto c'.options) (hwr : chan.writes = []) (checksum : ChecksumType) (bytes : Bytes)
    (hin : LetsIn crypto c'.options False none checksum bytes) (set' : GtidSet) (hset' : c'.options.binlog.gtidSet = some set')
    (parts : List (Part Gtid)) (hp : ∀ p ∈ parts, p.Ok MysqlTx)
    (hlog : parts.flatMap Part.txs = log'.filter fun t => ¬Has set' t.1.sourceId.data t.1.transactionId)
    (slices : List Bytes) (st : LogState) (hbytes : LogOf (.start checksum) (flat parts) slices st)
    (hsize : ∀ x ∈ slices, x.length < 2 ^ 24 - 20) (n : Nat) (rest : Bytes)
    (hinput : chan.input = bytes ++ frames (eventPackets n (flat parts) slices) ++ rest) :
    ∃ stream shown', c'.replicate m crypto (.ok chan) = (.ok stream, c'.afresh) ∧ (∃ stream', stream.Yields m ((flat parts).map .ok) stream') ∧
      RowsShown columns rows' shown' ∧ Indexes key ((whole (flat parts)).foldl (keyedTransaction key) data') shown' := by
  have hover : ∀ t ∈ new, Overwrites (keyedTransaction key) t.2 := fun t _ => C138_overwrites key t.2
  obtain ⟨done, left, set1, h1, hs', h3, hst, h4, h5⟩ := snapshots_places h set hs hset hw ho hpr hg hd old new hold hnew hhas hover
  obtain rfl : set' = set1 := Option.some.inj (hset'.symm.trans h3)
  obtain ⟨stream, g1, g2, g3⟩ := C117_session (σ := Keyed κ) m crypto c' chan hu hwr checksum bytes hin set' hs' hset' hst.wf hst.ordered log' parts hp hlog
    (fun t ht => (hg t ht).1) slices st hbytes hsize n rest hinput
  have hy : ∃ stream', stream.Yields m ((flat parts).map .ok) stream' := by
    have := (g2 (flat parts).length).1
    rw [List.take_of_length_le (Nat.le_refl _)] at this
    obtain ⟨_, _, _, _, _, _, _, _, hy, _⟩ := this
    exact ⟨_, hy⟩
  obtain ⟨shown', h6, h7⟩ := C138_indexes hcol hist hshown hi hk
  refine ⟨stream, shown', g1, hy, h6, ?_⟩
  have hleft : log'.filter (fun t => ¬Has set' t.1.sourceId.data t.1.transactionId) = left := by
    have hall : log' = (old ++ done) ++ left := by rw [hnew, h1, List.append_assoc]
    have hmem : ∀ t ∈ old ++ done, t ∉ left := fun t ht => (h4 t (hall ▸ List.mem_append_left _ ht)).1
      ((hst.has t (hall ▸ List.mem_append_left _ ht)).2 ht)
    conv_lhs => rw [hall]
    rw [List.filter_append, List.filter_eq_nil_iff.2, List.filter_eq_self.2, List.nil_append]
    · intro t ht
      simp only [decide_eq_true_eq]
      rw [h4 t (hall ▸ List.mem_append_right _ ht), not_not]
      exact ht
    · intro t ht
      simp only [decide_eq_true_eq, not_not]
      exact (hst.has t (hall ▸ List.mem_append_left _ ht)).2 ht
  have hend : dataAfter (keyedTransaction key) data' left = dataAfter (keyedTransaction key) data new := by
    funext k
    obtain ⟨upto, e1, e2, e3⟩ := (h5.run hover (run := left) (d := new) (h1 ▸ List.prefix_rfl) (h1 ▸ List.prefix_rfl)) k
    rw [e3, e2.eq_of_length_le e1.length_le]
  rw [g3, hleft, hend]
  exact h7

end

/-! The sessions of the example of C140. In the first one the program takes all and commits all; it saves a text at its beginning and another at its end. -/

/-- `24bc...01:3-8,24bc...02:9` -/
def exAllSet : GtidSet := ⟨[(exUuid.uuid, ⟨exUuid, [⟨3, 8⟩]⟩), (exUuid2.uuid, ⟨exUuid2, [⟨9, 9⟩]⟩)]⟩

theorem exAllSet_parses (m : Mode) : GtidSet.parse m exAllSet.display = .ok exAllSet := by
  have hd : exAllSet.display = joinWith ',' (exAllSet.uuidSets.values.map UuidSet.display) := by
    unfold GtidSet.display sortStrings
    rw [List.mergeSort_of_pairwise (by decide +kernel)]
  rw [hd]
  revert m
  rintro ⟨_ | _⟩ <;> decide +kernel

theorem exSet_parses (m : Mode) : GtidSet.parse m exSet.display = .ok exSet := by
  have hd : exSet.display = joinWith ',' (exSet.uuidSets.values.map UuidSet.display) := by
    unfold GtidSet.display sortStrings
    rw [List.mergeSort_of_pairwise (by decide +kernel)]
  rw [hd]
  revert m
  rintro ⟨_ | _⟩ <;> decide +kernel

theorem exAll_committed (m : Mode) : ((commitAll m exGtidUser.afresh ((flat exLogParts).take 8)).bind fun c => .ok c.options.binlog.gtidSet) =
    .ok (some exAllSet) := by
  revert m
  rintro ⟨_ | _⟩ <;> decide +kernel

/-- The first session, of which the program has saved both texts. -/
theorem exTxs_saved {σ : Type} (jumps : Prop) (m : Mode) (apply : σ → List Ev → σ) (data : σ) {c' : Client} {data' : σ} {saved' : List RStr}
    (h : ∀ c2, Snapshots jumps m apply c2 (dataAfter apply data (exTxs.drop 1)) exTxs [exAllSet.display, exSet.display] c' data' exTxs saved') :
    Snapshots jumps m apply exGtidUser data exTxs [] c' data' exTxs saved' := by
  obtain ⟨slices, st, h1, h2⟩ := exLogParts_written .crc32
  obtain ⟨stream, h3, h4, -⟩ := C117_session (σ := Unit) m exCrypto exGtidUser { exChannel [] with input := _ } exGtidUser_usable rfl .crc32 _
    (exGtidUser_in _) exSet rfl rfl exSet_wf exSet_ordered exTxs exLogParts exLogParts_ok.1 exTxs_missing exTxs_ok slices st h1 h2 1 [] rfl
  obtain ⟨g4, c3, g5⟩ := h4 8
  have hset := exAll_committed m
  rw [g5] at hset
  obtain ⟨a, b, e0, e0', -⟩ := exTxs_are
  have e2 : whole ((flat exLogParts).take 8) = [a, b] := by
    have h' : finishedTxs 8 exLogParts = exLogParts.flatMap Part.txs := rfl
    rw [whole_finished exLogParts exLogParts_ok.1 8, h', e0']
    rfl
  refine .session (small_fits exGtidUser_usable.requests) h3 g4 List.prefix_rfl g5
    (.save List.prefix_rfl g5 (Res.ok.inj hset) (.save (first := []) (set := exSet) List.nil_prefix rfl rfl .none)) ?_
  have := h c3
  rw [e0] at this ⊢
  rw [e2]
  exact this

/-- From the older text: another session, of which it takes the first transaction. -/
theorem exTxs_older {σ : Type} (jumps : Prop) (m : Mode) (apply : σ → List Ev → σ) (data : σ) (saved : List RStr) {c' : Client} {data' : σ}
    {saved' : List RStr} (h : Snapshots jumps m apply exLagged (dataAfter apply data ((exTxs.drop 1).take 1)) exTxs saved c' data' exTxs saved') :
    Snapshots jumps m apply exGtidUser data exTxs saved c' data' exTxs saved' := by
  have hc : ∀ m, commitAll m exGtidUser.afresh ((flat exLogParts).take 2) = .ok exLagged := by
    rintro ⟨_ | _⟩ <;> decide +kernel
  obtain ⟨slices, st, h1, h2⟩ := exLogParts_written .crc32
  obtain ⟨stream, h3, h4, -⟩ := C117_session (σ := Unit) m exCrypto exGtidUser { exChannel [] with input := _ } exGtidUser_usable rfl .crc32 _
    (exGtidUser_in _) exSet rfl rfl exSet_wf exSet_ordered exTxs exLogParts exLogParts_ok.1 exTxs_missing exTxs_ok slices st h1 h2 1 [] rfl
  obtain ⟨a, b, e0, e0', -⟩ := exTxs_are
  have e1 : whole ((flat exLogParts).take 7) = [a] := by
    have h' : finishedTxs 7 exLogParts = (exLogParts.flatMap Part.txs).take 1 := rfl
    rw [whole_finished exLogParts exLogParts_ok.1 7, h', e0']
    rfl
  refine .session (small_fits exGtidUser_usable.requests) h3 (h4 7).1 (List.take_prefix_take_left (by decide)) (hc m) .none ?_
  rw [e0] at h ⊢
  rw [e1]
  exact h

/-- The hypotheses of C141 are met: everything was recorded, the program went back to the older text, and applied the first transaction again. -/
example (m : Mode) : (∃ c' data', Snapshots False m exSeen exGtidUser (fun k => k = 0) exTxs [] c' data' exTxs [exSet.display]) ∧
    exGtidUser.options.binlog.startingStrategy = .fromGtid ∧ exGtidUser.options.binlog.gtidSet = some exSet ∧ Wf exSet ∧ AllOrdered exSet ∧
    Printable exSet ∧ (∀ t ∈ exTxs, GtidOk t.1 ∧ t.1.sourceId.uuid.length = 36) ∧ (exTxs.map fun t => gtidKey t.1).Nodup ∧ exTxs.take 1 <+: exTxs ∧
    exTxs = exTxs.take 1 ++ exTxs.drop 1 ∧ (∀ t ∈ exTxs, Has exSet t.1.sourceId.data t.1.transactionId ↔ t ∈ exTxs.take 1) ∧
    ∀ t ∈ exTxs.drop 1, Overwrites exSeen t.2 :=
  ⟨⟨_, _, exTxs_saved False m exSeen _ fun c2 => .back (newer := [exAllSet.display]) (exSet_parses m) (o := exGtidUser.options) rfl rfl
      (exTxs_older False m exSeen _ _ .stop)⟩, rfl, rfl, exSet_wf, exSet_ordered, exSet_printable,
    fun t ht => ⟨exTxs_ok t ht, (by decide +kernel : ∀ t ∈ exTxs, t.1.sourceId.uuid.length = 36) t ht⟩, by decide +kernel, List.take_prefix _ _,
    (List.take_append_drop 1 _).symm, exTxs_has, fun t _ => exSeen_overwrites t.2⟩

/-- And those of the theorems on tables by keys. -/
example (m : Mode) : ∃ c' data', Snapshots False m (keyedTransaction fun _ r => r.head?) exGtidUser (fun _ => none) exTxs [] c' data' exTxs [exSet.display] ∧
    data' (exTableName, some (some (.int 258))) = some [some (.int 258), none] :=
  ⟨_, _, exTxs_saved False m _ _ fun c2 => .back (newer := [exAllSet.display]) (exSet_parses m) (o := exGtidUser.options) rfl rfl
      (exTxs_older False m _ _ _ .stop), by with_unfolding_all rfl⟩

/-- The size of the last transaction, in one place. -/
def exLastSize (_ : Unit → Nat) (es : List Ev) : Unit → Nat := fun _ => es.length

/-- **C141.** That the newer texts are thrown away is needed: a program that goes back to an older text, applies a transaction again, and is then started from
the newer text, has recorded everything, and its copy is not the server's data. -/
theorem C141_keeping_newer_false (m : Mode) : ∃ c' data' set', Snapshots True m exLastSize exGtidUser (fun _ => 0) exTxs [] c' data' exTxs
      [exAllSet.display, exSet.display] ∧ c'.options.binlog.gtidSet = some set' ∧ (∀ t ∈ exTxs, Has set' t.1.sourceId.data t.1.transactionId) ∧
      (∀ es, Overwrites exLastSize es) ∧ data' ≠ dataAfter exLastSize (fun _ => 0) (exTxs.drop 1) := by
  refine ⟨exUser (.fromMysqlGtid exAllSet), _, exAllSet, exTxs_saved True m exLastSize _ fun c2 =>
    .jump trivial (text := exSet.display) (by simp) (exSet_parses m) (o := exGtidUser.options) rfl rfl (exTxs_older True m exLastSize _ _
      (.jump trivial (text := exAllSet.display) (by simp) (exAllSet_parses m) (o := (exUser (.fromMysqlGtid exAllSet)).options) rfl rfl .stop)),
    rfl, ?_, fun es k => .inl ⟨es.length, fun _ => rfl⟩, fun h => ?_⟩
  · obtain ⟨a, b, h, -, -⟩ := exTxs_are
    rw [h]
    simp [Has, exAllSet, InIvs, exUuid, exUuid2]
  · exact absurd (congrFun h ()) (by decide +kernel)

end MysqlCdc
