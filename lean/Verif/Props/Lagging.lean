import Verif.Spec.Lagging
import Verif.Props.Copy
/-!
# C137: an application whose commits lag behind what it has applied
-/

namespace MysqlCdc

open Spec

/-! ## Giving again -/

theorem client_new_ok {o : ReplicaOptions} {c : Client} (h : Client.new o = .ok c) : c.options = o := by
  unfold Client.new at h
  split at h
  · cases h
  · obtain rfl := Res.ok.inj h
    rfl

/-- Whatever is not left over has been given. -/
theorem Spec.Redelivered.given {α : Type} {waiting left : List α} {runs : List (List α)} (h : Redelivered waiting runs left) :
    ∃ done, waiting = done ++ left ∧ ∀ t ∈ done, t ∈ runs.flatten := by
  induction h with
  | stop => exact ⟨[], rfl, by simp⟩
  | @run recorded more rest runs left _ ih =>
    obtain ⟨done, h1, h2⟩ := ih
    refine ⟨recorded ++ done, by rw [List.append_assoc, h1, List.append_assoc], fun t ht => ?_⟩
    rw [List.flatten_cons]
    rcases List.mem_append.1 ht with ht | ht
    · exact List.mem_append_left _ (List.mem_append_left _ ht)
    · exact List.mem_append_right _ (h2 t ht)

theorem dataAfter_append {σ γ : Type} (apply : σ → List Ev → σ) (d : σ) (xs ys : List (Tx γ)) :
    dataAfter apply d (xs ++ ys) = dataAfter apply (dataAfter apply d xs) ys := List.foldl_append ..

/-- What steps do to a place: one of them writes it, or none. -/
theorem overwrites_place {K V α : Type} {f : (K → V) → α → K → V} (ts : List α)
    (h : ∀ t ∈ ts, ∀ k, (∃ v, ∀ d, f d t k = v) ∨ ∀ d, f d t k = d k) (k : K) :
    (∃ v, ∀ d, ts.foldl f d k = v) ∨ ∀ t ∈ ts, ∀ d, f d t k = d k := by
  induction ts with
  | nil => exact .inr (by simp)
  | cons t ts ih =>
    rcases ih fun t ht => h t (by simp [ht]) with ⟨v, hv⟩ | hrest
    · exact .inl ⟨v, fun d => hv (f d t)⟩
    · have same : ∀ (us : List α), (∀ u ∈ us, ∀ d, f d u k = d k) → ∀ d, us.foldl f d k = d k := by
        intro us
        induction us with
        | nil => exact fun _ _ => rfl
        | cons u us ih =>
          intro hu d
          rw [List.foldl_cons, ih (fun u hu' => hu u (by simp [hu'])), hu u (by simp)]
      rcases h t (by simp) k with ⟨v, hv⟩ | hsame
      · exact .inl ⟨v, fun d => (same ts hrest (f d t)).trans (hv d)⟩
      · refine .inr fun u hu => ?_
        rcases List.mem_cons.1 hu with rfl | hu
        · exact hsame
        · exact hrest u hu

theorem untouched {K V α : Type} {f : (K → V) → α → K → V} {k : K} (ts : List α) (h : ∀ t ∈ ts, ∀ d, f d t k = d k) (d : K → V) :
    ts.foldl f d k = d k := by
  induction ts generalizing d with
  | nil => rfl
  | cons t ts ih => rw [List.foldl_cons, ih (fun t ht => h t (by simp [ht])), h t (by simp)]

/-- Steps that overwrite, given again and again: each place holds what it held at some time since what is recorded. -/
theorem Spec.Redelivered.foldl_places {K V α : Type} {f : (K → V) → α → K → V} {waiting left : List α} {runs : List (List α)}
    (h : Redelivered waiting runs left) (ho : ∀ t ∈ waiting, ∀ k, (∃ v, ∀ d, f d t k = v) ∨ ∀ d, f d t k = d k) (base data : K → V)
    (hi : ∀ k, ∃ first, first <+: waiting ∧ data k = first.foldl f base k) :
    ∃ done, waiting = done ++ left ∧ ∀ k, ∃ first, first <+: left ∧ runs.flatten.foldl f data k = (done ++ first).foldl f base k := by
  induction h generalizing base data with
  | stop => exact ⟨[], rfl, hi⟩
  | @run recorded more rest runs left _ ih =>
    obtain ⟨done, h1, h2⟩ := ih (fun t ht => ho t (by simp only [List.mem_append] at ht ⊢; tauto)) (recorded.foldl f base)
      ((recorded ++ more).foldl f data) (by
        intro k
        obtain ⟨first, h1, h2⟩ := hi k
        rcases overwrites_place (recorded ++ more) (fun t ht => ho t (List.mem_append_left _ ht)) k with ⟨v, hv⟩ | hnot
        · exact ⟨more, List.prefix_append _ _, by rw [hv, ← List.foldl_append, hv]⟩
        · rw [untouched _ hnot, h2]
          rcases List.prefix_or_prefix_of_prefix h1 (List.prefix_append (recorded ++ more) rest) with h3 | ⟨last, rfl⟩
          · refine ⟨[], List.nil_prefix, ?_⟩
            rw [untouched first (fun t ht => hnot t (h3.subset ht))]
            exact (untouched recorded (fun t ht => hnot t (List.mem_append_left _ ht)) base).symm
          · refine ⟨more ++ last, ?_, by rw [← List.foldl_append, List.append_assoc]⟩
            rw [List.append_assoc, List.append_assoc, List.prefix_append_right_inj] at h1
            exact h1)
    refine ⟨recorded ++ done, by rw [List.append_assoc, h1, List.append_assoc], fun k => ?_⟩
    obtain ⟨first, h3, h4⟩ := h2 k
    refine ⟨first, h3, ?_⟩
    rw [List.flatten_cons, List.foldl_append, h4, List.append_assoc, List.foldl_append (l := recorded)]

/-- The same of transactions. -/
theorem Spec.Redelivered.places {K V γ : Type} {apply : (K → V) → List Ev → K → V} {waiting left : List (Tx γ)} {runs : List (List (Tx γ))}
    (h : Redelivered waiting runs left) (ho : ∀ t ∈ waiting, Overwrites apply t.2) (base data : K → V)
    (hi : ∀ k, ∃ first, first <+: waiting ∧ data k = dataAfter apply base first k) :
    ∃ done, waiting = done ++ left ∧ ∀ k, ∃ first, first <+: left ∧
      dataAfter apply data runs.flatten k = dataAfter apply base (done ++ first) k :=
  h.foldl_places (f := fun d (t : Tx γ) => apply d t.2) (fun t ht => ho t ht) base data hi

/-! ## Sessions with a MySQL server -/

/-- As `CopySessions`; the application has applied all the transactions that it has taken whole, but what it has committed of the events, when the session
ends, are some first ones. -/
inductive LaggingSessions {σ : Type} (m : Mode) (apply : σ → List Ev → σ) :
    Client → σ → (log : List (Tx Gtid)) → Client → σ → (log' : List (Tx Gtid)) → Prop where
  | stop {c : Client} {data : σ} {log : List (Tx Gtid)} : LaggingSessions m apply c data log c data log
  | grow {c c' : Client} {data data' : σ} {log log' : List (Tx Gtid)} (more : List (Tx Gtid))
      (h : LaggingSessions m apply c data (log ++ more) c' data' log') : LaggingSessions m apply c data log c' data' log'
  | failed {c c' : Client} {data data' : σ} {log log' : List (Tx Gtid)} {crypto : Crypto} {net : Except IoKind Channel}
      (h : LaggingSessions m apply (c.replicate m crypto net).2 data log c' data' log') : LaggingSessions m apply c data log c' data' log'
  | session {c c1 c2 c' : Client} {data data' : σ} {log log' : List (Tx Gtid)} {crypto : Crypto} {chan : Channel} {stream : BinlogEvents}
      {taken committed : List Ev} (hf : FitsRequests c.options) (hr : c.replicate m crypto (.ok chan) = (.ok stream, c1))
      (hs : CopySession m log stream taken) (hpre : committed <+: taken) (hc : commitAll m c1 committed = .ok c2)
      (h : LaggingSessions m apply c2 ((whole taken).foldl apply data) log c' data' log') : LaggingSessions m apply c data log c' data' log'

theorem LaggingSessions.grows {σ : Type} {m : Mode} {apply : σ → List Ev → σ} {c c' : Client} {data data' : σ} {log log' : List (Tx Gtid)}
    (h : LaggingSessions m apply c data log c' data' log') : log <+: log' := by
  induction h with
  | stop => exact List.prefix_rfl
  | grow more _ ih => exact (List.prefix_append _ _).trans ih
  | failed _ ih => exact ih
  | session _ _ _ _ _ _ ih => exact ih

theorem finishedTxs_mono {γ : Type} {j k : Nat} (h : j ≤ k) (parts : List (Part γ)) : finishedTxs j parts <+: finishedTxs k parts := by
  induction parts generalizing j k with
  | nil => exact List.prefix_rfl
  | cons p ps ih =>
    rw [finishedTxs, finishedTxs]
    split
    · rw [if_pos (by omega)]
      exact (List.prefix_append_right_inj _).2 (ih (by omega))
    · exact List.nil_prefix

theorem finishedTxs_prefix {γ : Type} (k : Nat) (parts : List (Part γ)) : finishedTxs k parts <+: parts.flatMap Part.txs := by
  rw [← finishedTxs_all parts (max k (flat parts).length) (by omega)]
  exact finishedTxs_mono (by omega) parts

open Classical in
/-- What the server sends is what the recorded set lacks. -/
theorem copySession_parts {m : Mode} {c c1 : Client} {crypto : Crypto} {chan : Channel} {stream : BinlogEvents} {taken : List Ev} {log : List (Tx Gtid)}
    {set : GtidSet} (hs : c.options.binlog.startingStrategy = .fromGtid) (hset : c.options.binlog.gtidSet = some set) (hf : FitsRequests c.options)
    (hr : c.replicate m crypto (.ok chan) = (.ok stream, c1)) (h : CopySession m log stream taken) :
    ∃ parts, (∀ p ∈ parts, p.Ok MysqlTx) ∧ parts.flatMap Part.txs = log.filter (fun t => ¬Has set t.1.sourceId.data t.1.transactionId) ∧
      taken = (flat parts).take taken.length ∧
      ∀ committed, committed <+: taken → TakenSession (log.map (·.1)) stream committed (finished committed.length parts) := by
  obtain ⟨htrace, hrequest, hp, hlog, hsent, hbytes, hsize, hin, hy, hl⟩ := h
  rename_i front request id position file sets parts sent slices st n rest stream'
  have htaken := copy_taken hr hsent hbytes hsize hin hy hl
  obtain ⟨t, p, maria, g1, -, g2, g3, -⟩ := asks_recorded hf hr (gtid_not_end hs)
  have hpr : p = request := by
    rw [htrace] at g1
    have := List.append_inj_right' g1 rfl
    simpa using this.symm
  subst hpr
  have hmaria : maria = false := by
    cases maria with
    | false => rfl
    | true => exact absurd hrequest (dump_not_gtid (g2 (.inr rfl)))
  obtain ⟨set0, g4, g5⟩ := g3 hs hmaria
  obtain rfl : set = set0 := Option.some.inj (hset.symm.trans g4)
  obtain rfl := dumpGtid_read g5 hrequest
  refine ⟨parts, hp, ?_, htaken, fun committed hpre => .mk htrace hrequest hp ?_ ?_ rfl⟩
  · rw [hlog]
    refine List.filter_congr fun t _ => ?_
    simp only [listed_setsOf]
  · rw [← parts_fst, hlog, filter_fst (p := fun g => decide ¬Listed (setsOf set) g)]
  · rw [htaken] at hpre
    exact List.prefix_iff_eq_take.1 (hpre.trans (List.take_prefix _ _))

/-- What the sessions have done. -/
theorem laggingSessions_runs {σ : Type} {m : Mode} {apply : σ → List Ev → σ} {c c' : Client} {data data' : σ} {log log' : List (Tx Gtid)}
    (h : LaggingSessions m apply c data log c' data' log') (set : GtidSet) (hs : c.options.binlog.startingStrategy = .fromGtid)
    (hset : c.options.binlog.gtidSet = some set) (hw : Wf set) (ho : AllOrdered set) (hg : ∀ t ∈ log', GtidOk t.1)
    (hd : (log'.map fun t => gtidKey t.1).Nodup) (old new : List (Tx Gtid)) (hold : old <+: log) (hnew : log' = old ++ new)
    (hhas : ∀ t ∈ log', Has set t.1.sourceId.data t.1.transactionId ↔ t ∈ old) :
    ∃ runs later set', Redelivered new runs later ∧ data' = dataAfter apply data runs.flatten ∧ c'.options.binlog.gtidSet = some set' ∧
      Wf set' ∧ AllOrdered set' ∧ (∀ t ∈ log', Has set' t.1.sourceId.data t.1.transactionId ↔ t ∉ later) ∧
      c'.options.binlog.startingStrategy = .fromGtid := by
  classical
  have hdisj : ∀ xs ys : List (Tx Gtid), log' = xs ++ ys → ∀ t ∈ log', t ∈ xs ↔ t ∉ ys := by
    rintro xs ys rfl t ht
    rw [List.map_append, List.nodup_append] at hd
    refine ⟨fun h1 h2 => hd.2.2 _ (List.mem_map.2 ⟨t, h1, rfl⟩) _ (List.mem_map.2 ⟨t, h2, rfl⟩) rfl, fun h1 => ?_⟩
    rcases List.mem_append.1 ht with h2 | h2
    · exact h2
    · exact absurd h2 h1
  induction h generalizing set old new with
  | stop => exact ⟨[], new, set, .stop, rfl, hset, hw, ho, fun t ht => (hhas t ht).trans (hdisj _ _ hnew t ht), hs⟩
  | grow more _ ih => exact ih set hs hset hw ho hg hd old new (hold.trans (List.prefix_append _ _)) hnew hhas hdisj
  | @failed c c' data data' log log' crypto net _ ih =>
    have hopt := replicate_keeps_options m crypto c net (.inl (by rw [hs]; decide))
    exact ih set (by rw [hopt]; exact hs) (by rw [hopt]; exact hset) hw ho hg hd old new hold hnew hhas hdisj
  | @session c c1 c2 c' data data' log log' crypto chan stream taken committed hf hr hsess hpre hc h ih =>
    obtain ⟨parts, hp, hlog, htaken, hts⟩ := copySession_parts hs hset hf hr hsess
    have hgrow := h.grows
    obtain ⟨more, hmore⟩ := hgrow
    obtain ⟨older, rfl⟩ := hold
    obtain rfl : new = older ++ more := by
      rw [← hmore, List.append_assoc] at hnew
      exact (List.append_cancel_left hnew).symm
    have holder : (old ++ older).filter (fun t => ¬Has set t.1.sourceId.data t.1.transactionId) = older := by
      rw [List.filter_append, List.filter_eq_nil_iff.2, List.filter_eq_self.2, List.nil_append]
      · intro t ht
        have hmem : t ∈ log' := by rw [hnew]; simp [ht]
        simp only [decide_eq_true_eq]
        rw [hhas t hmem, hdisj _ _ hnew t hmem, not_not]
        exact List.mem_append_left _ ht
      · intro t ht
        simp only [decide_eq_true_eq, not_not]
        exact (hhas t (by rw [hnew]; simp [ht])).2 ht
    rw [holder] at hlog
    have h1 : TakenSessions m c ((old ++ older).map (·.1)) ([finishedTxs committed.length parts].map fun d => d.map (·.1)) c2 (log'.map (·.1)) := by
      rw [← hmore, List.map_append (l₁ := old ++ older), List.map_singleton, finishedTxs_fst]
      exact .session hf hr (hts committed hpre) hc (.grow _ .stop)
    have hrec : finishedTxs committed.length parts <+: older := hlog ▸ finishedTxs_prefix _ parts
    obtain ⟨later, set2, k1, k2, k3, -⟩ := taken_seen h1 (by
      intro t ht
      rw [hnew]
      simp only [List.flatten_cons, List.flatten_nil, List.append_nil] at ht
      simp [hrec.subset ht]) ⟨more, hmore⟩ set hs hset hw ho hg hd old (List.prefix_append _ _) hhas
    simp only [List.flatten_cons, List.flatten_nil, List.append_nil] at k1 k3
    obtain ⟨set2', e1, e2, e3, -, -⟩ := taken_each_once h1 set hs hset hw ho (by
      intro g hg'
      obtain ⟨t, ht, rfl⟩ := List.mem_map.1 hg'
      exact hg t ht) (by rw [List.map_map]; exact hd)
    obtain rfl : set2 = set2' := Option.some.inj (k2.symm.trans e1)
    have hopt := replicate_keeps_options m crypto c (.ok chan) (.inl (by rw [hs]; decide))
    rw [hr] at hopt
    have hopt : c1.options = c.options := hopt
    obtain ⟨more', hrun⟩ := finishedTxs_mono hpre.length_le parts
    obtain ⟨rest, hrest⟩ : finishedTxs taken.length parts <+: older := hlog ▸ finishedTxs_prefix _ parts
    have hlater : later = more' ++ (rest ++ more) := by
      rw [hnew] at k1
      have k1 := List.append_cancel_left k1
      rw [← hrest, ← hrun, List.append_assoc, List.append_assoc] at k1
      exact (List.append_cancel_left k1).symm
    obtain ⟨runs, left, set', r1, r2, r3, r4⟩ := ih set2 (by rw [commitAll_keeps hc, hopt, hs]) k2 e2 e3 hg hd (old ++ finishedTxs committed.length parts) later
      (by obtain ⟨x, hx⟩ := hrec; exact ⟨x, by rw [List.append_assoc, hx]⟩) (by rw [k1, List.append_assoc]) k3 hdisj
    refine ⟨finishedTxs taken.length parts :: runs, left, set', ?_, ?_, r3, r4⟩
    · have : older ++ more = finishedTxs committed.length parts ++ more' ++ (rest ++ more) := by
        rw [hrun, ← List.append_assoc, hrest]
      rw [this, ← hrun]
      rw [hlater] at r1
      exact .run r1
    · have hwhole : whole taken = (finishedTxs taken.length parts).map (·.2) := by
        rw [← whole_finished parts hp, ← htaken]
      rw [r2, List.flatten_cons, dataAfter_append, hwhole, List.foldl_map]
      rfl

/-- **C137.** An application applies the transactions of a MySQL server when they have come whole, and its commits lag behind: when a session ends, it has
committed any first part of the events it has taken. Over any number of sessions and failed attempts, while the log grows, it gets the transactions that
it has not recorded again, in order and without leaving one out: what it applies are runs, of which each begins at the first transaction that is not
recorded. The ones that are not recorded at the end are the ones left over. -/
theorem C137_again {σ : Type} {m : Mode} {apply : σ → List Ev → σ} {c c' : Client} {data data' : σ} {log log' : List (Tx Gtid)}
    (h : LaggingSessions m apply c data log c' data' log') (set : GtidSet) (hs : c.options.binlog.startingStrategy = .fromGtid)
    (hset : c.options.binlog.gtidSet = some set) (hw : Wf set) (ho : AllOrdered set) (hg : ∀ t ∈ log', GtidOk t.1)
    (hd : (log'.map fun t => gtidKey t.1).Nodup) (old new : List (Tx Gtid)) (hold : old <+: log) (hnew : log' = old ++ new)
    (hhas : ∀ t ∈ log', Has set t.1.sourceId.data t.1.transactionId ↔ t ∈ old) :
    ∃ runs done left set', Redelivered new runs left ∧ new = done ++ left ∧ (∀ t ∈ done, t ∈ runs.flatten) ∧
      data' = dataAfter apply data runs.flatten ∧ c'.options.binlog.gtidSet = some set' ∧
      ∀ t ∈ log', Has set' t.1.sourceId.data t.1.transactionId ↔ t ∉ left := by
  obtain ⟨runs, left, set', h1, h2, h3, -, -, h4, -⟩ := laggingSessions_runs h set hs hset hw ho hg hd old new hold hnew hhas
  obtain ⟨done, h5, h6⟩ := h1.given
  exact ⟨runs, done, left, set', h1, h5, h6, h2, h3, h4⟩

/-- **C137.** When transactions overwrite, applying some again does little harm: each place of the copy holds what it held on the server after all the
recorded transactions and some first ones of the others. If all are recorded, the copy is the server's data. -/
theorem C137_places {K V : Type} {m : Mode} {apply : (K → V) → List Ev → K → V} {c c' : Client} {data data' : K → V} {log log' : List (Tx Gtid)}
    (h : LaggingSessions m apply c data log c' data' log') (set : GtidSet) (hs : c.options.binlog.startingStrategy = .fromGtid)
    (hset : c.options.binlog.gtidSet = some set) (hw : Wf set) (ho : AllOrdered set) (hg : ∀ t ∈ log', GtidOk t.1)
    (hd : (log'.map fun t => gtidKey t.1).Nodup) (old new : List (Tx Gtid)) (hold : old <+: log) (hnew : log' = old ++ new)
    (hhas : ∀ t ∈ log', Has set t.1.sourceId.data t.1.transactionId ↔ t ∈ old) (hover : ∀ t ∈ new, Overwrites apply t.2) :
    ∃ done left set', new = done ++ left ∧ c'.options.binlog.gtidSet = some set' ∧
      (∀ t ∈ log', Has set' t.1.sourceId.data t.1.transactionId ↔ t ∉ left) ∧
      (∀ k, ∃ first, first <+: left ∧ data' k = dataAfter apply data (done ++ first) k) ∧
      ((∀ t ∈ log', Has set' t.1.sourceId.data t.1.transactionId) → data' = dataAfter apply data new) := by
  obtain ⟨runs, left, set', h1, h2, h3, -, -, h4, -⟩ := laggingSessions_runs h set hs hset hw ho hg hd old new hold hnew hhas
  obtain ⟨done, h5, h6⟩ := h1.places hover data data fun k => ⟨[], List.nil_prefix, rfl⟩
  refine ⟨done, left, set', h5, h3, h4, h2 ▸ h6, fun hall => funext fun k => ?_⟩
  have hleft : left = [] := by
    rw [List.eq_nil_iff_forall_not_mem]
    intro t ht
    have hmem : t ∈ log' := by rw [hnew, h5]; simp [ht]
    exact (h4 t hmem).1 (hall t hmem) ht
  subst hleft
  obtain ⟨first, h7, h8⟩ := h6 k
  rw [List.prefix_nil] at h7
  rw [h2, h8, h7, h5]

theorem Spec.Redelivered.snoc {α : Type} {waiting left recorded more rest : List α} {runs : List (List α)} (h : Redelivered waiting runs left)
    (hl : left = recorded ++ more ++ rest) : Redelivered waiting (runs ++ [recorded ++ more]) (more ++ rest) := by
  induction h with
  | stop =>
    subst hl
    exact .run .stop
  | run _ ih => exact .run (ih hl)

open Classical in
/-- What the recorded set lacks are the ones left over. -/
theorem left_lacks {set : GtidSet} {log old new left : List (Tx Gtid)} {runs : List (List (Tx Gtid))} (hd : (log.map fun t => gtidKey t.1).Nodup)
    (hnew : log = old ++ new) (h1 : Redelivered new runs left)
    (h4 : ∀ t ∈ log, Has set t.1.sourceId.data t.1.transactionId ↔ t ∉ left) :
    log.filter (fun t => ¬Has set t.1.sourceId.data t.1.transactionId) = left := by
  obtain ⟨done, h5, -⟩ := h1.given
  have hsplit : log = (old ++ done) ++ left := by rw [hnew, h5, List.append_assoc]
  have hmem : ∀ t ∈ old ++ done, t ∉ left := by
    intro t ht hl
    rw [hsplit, List.map_append, List.nodup_append] at hd
    exact hd.2.2 _ (List.mem_map.2 ⟨t, ht, rfl⟩) _ (List.mem_map.2 ⟨t, hl, rfl⟩) rfl
  conv_lhs => rw [hsplit]
  rw [List.filter_append, List.filter_eq_nil_iff.2, List.filter_eq_self.2, List.nil_append]
  · intro t ht
    simp only [decide_eq_true_eq]
    rw [h4 t (by rw [hsplit]; exact List.mem_append_right _ ht), not_not]
    exact ht
  · intro t ht
    simp only [decide_eq_true_eq, not_not]
    exact (h4 t (by rw [hsplit]; exact List.mem_append_left _ ht)).2 (hmem t ht)

/-- When transactions overwrite, giving the ones left over makes up for whatever was given twice. -/
theorem redelivered_catches_up {K V γ : Type} {apply : (K → V) → List Ev → K → V} {new left : List (Tx γ)} {runs : List (List (Tx γ))}
    (h1 : Redelivered new runs left) (hover : ∀ t ∈ new, Overwrites apply t.2) (data : K → V) :
    dataAfter apply (dataAfter apply data runs.flatten) left = dataAfter apply data new := by
  rw [← dataAfter_append]
  have h6 := h1.snoc (recorded := left) (more := []) (rest := []) (by simp)
  obtain ⟨done, h7, h8⟩ := h6.places hover data data fun k => ⟨[], List.nil_prefix, rfl⟩
  rw [List.append_nil, List.append_nil] at h7
  funext k
  obtain ⟨first, h9, h10⟩ := h8 k
  obtain rfl : first = [] := by simpa using h9
  rw [List.flatten_append, List.flatten_cons, List.flatten_nil, List.append_nil, List.append_nil] at h10
  rw [h10, h7, List.append_nil]

open Classical in
/-- **C137.** When transactions overwrite, then after whatever sessions, once the application has taken one session whole, its copy is the server's data,
whatever of that session it has committed so far. -/
theorem C137_catches_up {K V : Type} {m : Mode} {apply : (K → V) → List Ev → K → V} {c c' : Client} {data data' : K → V} {log log' : List (Tx Gtid)}
    (h : LaggingSessions m apply c data log c' data' log') (set : GtidSet) (hs : c.options.binlog.startingStrategy = .fromGtid)
    (hset : c.options.binlog.gtidSet = some set) (hw : Wf set) (ho : AllOrdered set) (hg : ∀ t ∈ log', GtidOk t.1)
    (hd : (log'.map fun t => gtidKey t.1).Nodup) (old new : List (Tx Gtid)) (hold : old <+: log) (hnew : log' = old ++ new)
    (hhas : ∀ t ∈ log', Has set t.1.sourceId.data t.1.transactionId ↔ t ∈ old) (hover : ∀ t ∈ new, Overwrites apply t.2)
    (crypto : Crypto) (chan : Channel) (hu : Usable crypto c'.options) (hwr : chan.writes = []) (checksum : ChecksumType) (bytes : Bytes)
    (hin : LetsIn crypto c'.options False none checksum bytes) (set' : GtidSet) (hset' : c'.options.binlog.gtidSet = some set')
    (parts : List (Part Gtid)) (hp : ∀ p ∈ parts, p.Ok MysqlTx)
    (hlog : parts.flatMap Part.txs = log'.filter fun t => ¬Has set' t.1.sourceId.data t.1.transactionId)
    (slices : List Bytes) (st : LogState) (hbytes : LogOf (.start checksum) (flat parts) slices st)
    (hsize : ∀ x ∈ slices, x.length < 2 ^ 24 - 20) (n : Nat) (rest : Bytes)
    (hi : chan.input = bytes ++ frames (eventPackets n (flat parts) slices) ++ rest) :
    ∃ stream, c'.replicate m crypto (.ok chan) = (.ok stream, c'.afresh) ∧ (∃ stream', stream.Yields m ((flat parts).map .ok) stream') ∧
      (∀ k, ∃ c'', commitAll m c'.afresh ((flat parts).take k) = .ok c'') ∧
      (whole (flat parts)).foldl apply data' = dataAfter apply data new := by
  obtain ⟨runs, left, set1, h1, h2, h3, hw', ho', h4, hs'⟩ := laggingSessions_runs h set hs hset hw ho hg hd old new hold hnew hhas
  obtain rfl : set' = set1 := Option.some.inj (hset'.symm.trans h3)
  obtain ⟨stream, g1, g2, g3⟩ := C117_session (σ := K → V) m crypto c' chan hu hwr checksum bytes hin set' hs' hset' hw' ho' log' parts hp hlog hg slices st
    hbytes hsize n rest hi
  have hy : ∃ stream', stream.Yields m ((flat parts).map .ok) stream' := by
    have := (g2 (flat parts).length).1
    rw [List.take_of_length_le (Nat.le_refl _)] at this
    obtain ⟨_, _, _, _, _, _, _, _, hy, _⟩ := this
    exact ⟨_, hy⟩
  refine ⟨stream, g1, hy, fun k => (g2 k).2, ?_⟩
  rw [g3, left_lacks hd hnew h1 h4, h2]
  exact redelivered_catches_up h1 hover data

/-! The sessions of the example of C117; in the first the application commits only the GTID and BEGIN of the transaction that it has applied. -/

/-- What is recorded then. -/
def exLagged : Client := { exGtidUser with
  mysqlGtid := some ⟨exUuid, 5⟩,
  transaction := true,
  options := { exGtidUser.options with binlog := { exGtidUser.options.binlog with position := (exTyped 2).nextEventPosition } } }

theorem exTxs_lagging {σ : Type} (m : Mode) (apply : σ → List Ev → σ) (data : σ) :
    ∃ c', LaggingSessions m apply exGtidUser data exTxs c' (dataAfter apply data ((exTxs.drop 1).take 1 ++ exTxs.drop 1)) exTxs := by
  have hc : ∀ m, commitAll m exGtidUser.afresh ((flat exLogParts).take 2) = .ok exLagged := by
    rintro ⟨_ | _⟩ <;> decide +kernel
  have hu : Usable exCrypto exLagged.options :=
    ⟨exSmall _, ⟨by decide, by decide, by decide +kernel, (fun g h => by cases h; unfold GtidSetFits; decide +kernel),
      (fun g h => by cases h), by decide⟩, rfl⟩
  obtain ⟨slices, st, h1, h2⟩ := exLogParts_written .crc32
  obtain ⟨stream, h3, h4, -⟩ := C117_session (σ := Unit) m exCrypto exGtidUser { exChannel [] with input := _ } exGtidUser_usable rfl .crc32 _
    (exGtidUser_in _) exSet rfl rfl exSet_wf exSet_ordered exTxs exLogParts exLogParts_ok.1 exTxs_missing exTxs_ok slices st h1 h2 1 [] rfl
  obtain ⟨stream2, g3, g4, -⟩ := C117_session (σ := Unit) m exCrypto exLagged { exChannel [] with input := _ } hu rfl .crc32 _
    (exGtidUser_in _) exSet rfl rfl exSet_wf exSet_ordered exTxs exLogParts exLogParts_ok.1 exTxs_missing exTxs_ok slices st h1 h2 1 [] rfl
  obtain ⟨g4, c3, g5⟩ := g4 8
  obtain ⟨a, b, e0, e0', -⟩ := exTxs_are
  have e1 : whole ((flat exLogParts).take 7) = [a] := by
    have h' : finishedTxs 7 exLogParts = (exLogParts.flatMap Part.txs).take 1 := rfl
    rw [whole_finished exLogParts exLogParts_ok.1 7, h', e0']
    rfl
  have e2 : whole ((flat exLogParts).take 8) = [a, b] := by
    have h' : finishedTxs 8 exLogParts = exLogParts.flatMap Part.txs := rfl
    rw [whole_finished exLogParts exLogParts_ok.1 8, h', e0']
    rfl
  refine ⟨c3, .session (small_fits exGtidUser_usable.requests) h3 (h4 7).1 (List.take_prefix_take_left (by decide)) (hc m)
    (.failed (crypto := exCrypto) (net := .error .unexpectedEof) (.session (small_fits hu.requests) g3 g4 List.prefix_rfl g5 ?_))⟩
  rw [e1, e2, e0]
  exact .stop

/-- An application that keeps, for each number of events, whether a transaction had so many. -/
def exSeen (data : Nat → Bool) (es : List Ev) : Nat → Bool := fun k => if k = es.length then true else data k

theorem exSeen_overwrites (es : List Ev) : Overwrites exSeen es := by
  intro k
  by_cases h : k = es.length
  · exact .inl ⟨true, fun d => if_pos h⟩
  · exact .inr fun d => if_neg h

/-- The hypotheses of C137 are met. -/
example (m : Mode) : (∃ c', LaggingSessions m exSeen exGtidUser (fun k => k = 0) exTxs c'
      (dataAfter exSeen (fun k => k = 0) ((exTxs.drop 1).take 1 ++ exTxs.drop 1)) exTxs) ∧
    exGtidUser.options.binlog.startingStrategy = .fromGtid ∧ exGtidUser.options.binlog.gtidSet = some exSet ∧ Wf exSet ∧ AllOrdered exSet ∧
    (∀ t ∈ exTxs, GtidOk t.1) ∧ (exTxs.map fun t => gtidKey t.1).Nodup ∧ exTxs.take 1 <+: exTxs ∧ exTxs = exTxs.take 1 ++ exTxs.drop 1 ∧
    (∀ t ∈ exTxs, Has exSet t.1.sourceId.data t.1.transactionId ↔ t ∈ exTxs.take 1) ∧ ∀ t ∈ exTxs.drop 1, Overwrites exSeen t.2 :=
  ⟨exTxs_lagging m exSeen _, rfl, rfl, exSet_wf, exSet_ordered, exTxs_ok, by decide +kernel, List.take_prefix _ _, (List.take_append_drop 1 _).symm, exTxs_has,
    fun t _ => exSeen_overwrites t.2⟩

/-- **C137.** That transactions overwrite is needed: the application that counts the events of each transaction gets one twice, and its copy is not the server's
data at any time. -/
theorem C137_counts_twice (m : Mode) : ∃ c' data', LaggingSessions m exCount exGtidUser (dataAfter exCount [] (exTxs.take 1)) exTxs c' data' exTxs ∧
    ∀ seen, seen <+: exTxs → data' ≠ dataAfter exCount [] seen := by
  obtain ⟨c', h⟩ := exTxs_lagging m exCount (dataAfter exCount [] (exTxs.take 1))
  refine ⟨c', _, h, fun seen hseen heq => ?_⟩
  have hl : ∀ (ts : List (Tx Gtid)) (d : List Nat), (dataAfter exCount d ts).length = d.length + ts.length := by
    intro ts
    induction ts with
    | nil => exact fun _ => rfl
    | cons t ts ih =>
      intro d
      show (dataAfter exCount (exCount d t.2) ts).length = _
      rw [ih, exCount, List.length_append, List.length_singleton, List.length_cons]
      omega
  have h1 := congrArg List.length heq
  rw [hl, hl, hl] at h1
  have h2 := hseen.length_le
  obtain ⟨a, b, e0, -, -⟩ := exTxs_are
  rw [e0] at h1 h2
  simp at h1 h2
  omega

end MysqlCdc
