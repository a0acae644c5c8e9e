import Verif.Props.LaggingFile
/-!
# C141 by file and position: programs that save the recorded place now and then
-/

namespace MysqlCdc

open Spec

/-! ## Table maps at the end -/

theorem changesEach_maps (names : Nat → Option TableName) {tms : List Ev} (h : ∀ e ∈ tms, IsTableMap e.2) : changesEach names tms = [] := by
  induction tms generalizing names with
  | nil => rfl
  | cons e tms ih =>
    obtain ⟨hd, e⟩ := e
    have h1 := h _ List.mem_cons_self
    cases e with
    | tableMap t => exact ih _ fun x hx => h x (List.mem_cons_of_mem _ hx)
    | _ => exact h1.elim

theorem changesEach_mono (names : Nat → Option TableName) {a b : List Ev} (h : a <+: b) : changesEach names a <+: changesEach names b := by
  obtain ⟨c, rfl⟩ := h
  rw [changesEach_append]
  exact List.prefix_append _ _

/-! ## One session -/

/-- What is recorded after some first commits: some first events of those that were taken, but for table maps. -/
theorem recorded_after {m : Mode} {crypto : Crypto} {log : Log} (hl : LogOk log) {c c1 c2 : Client} {real : List Ev} {chan : Channel}
    {stream : BinlogEvents} {taken committed : List Ev} {q : Place} (hs : c.options.binlog.startingStrategy ≠ .fromGtid) (hk : ¬wantsEnd c.options)
    (hv : Valid log (c.place log)) (hr : c.replicate m crypto (.ok chan) = (.ok stream, c1))
    (hserve : Serve log False (c.place log) q taken real) (hpre : committed <+: taken) (hc : commitAll m c1 committed = .ok c2) :
    c2.options.binlog.startingStrategy ≠ .fromGtid ∧ ¬wantsEnd c2.options ∧ Valid log (c2.place log) ∧
      ∃ front tms q', front ++ tms <+: real ∧ (∀ e ∈ tms, IsTableMap e.2) ∧ Serve log False (c.place log) q' committed (front ++ tms) ∧
        remaining log (c.place log) = front ++ remaining log (c2.place log) := by
  obtain ⟨q', real', hserve', hpre', -⟩ := serve_take hserve committed.length
  rw [← List.prefix_iff_eq_take.1 hpre] at hserve'
  obtain ⟨h1, h2, h3, -, tms, front, h4, h5, h6, h7⟩ := served_step hl hs hk hv hr hserve' hc
  subst h7
  exact ⟨h1, h2, h3, front, tms, q', hpre', h6, hserve', by rw [h4, h5, List.append_assoc]⟩

/-- After fewer commits no more is recorded, as far as rows go. -/
theorem recorded_mono {m : Mode} {crypto : Crypto} {log : Log} (hl : LogOk log) {c c1 c2 c3 : Client} {real : List Ev} {chan : Channel}
    {stream : BinlogEvents} {taken committed first : List Ev} {q : Place} (hs : c.options.binlog.startingStrategy ≠ .fromGtid) (hk : ¬wantsEnd c.options)
    (hv : Valid log (c.place log)) (hr : c.replicate m crypto (.ok chan) = (.ok stream, c1))
    (hserve : Serve log False (c.place log) q taken real) (hpre : committed <+: taken) (hc : commitAll m c1 committed = .ok c2)
    (hfirst : first <+: committed) (hc3 : commitAll m c1 first = .ok c3) {done2 done3 : List Ev} {names : Nat → Option TableName}
    (h2 : remaining log (c.place log) = done2 ++ remaining log (c2.place log))
    (h3 : remaining log (c.place log) = done3 ++ remaining log (c3.place log)) : changesEach names done3 <+: changesEach names done2 := by
  obtain ⟨-, -, -, front2, tms2, q2, -, e2, s2, r2⟩ := recorded_after hl hs hk hv hr hserve hpre hc
  obtain ⟨-, -, -, front3, tms3, q3, p3, e3, -, r3⟩ := recorded_after hl hs hk hv hr s2 hfirst hc3
  obtain rfl := List.append_cancel_right (h2.symm.trans r2)
  obtain rfl := List.append_cancel_right (h3.symm.trans r3)
  have := changesEach_mono names p3
  rwa [changesEach_append, changesEach_append, changesEach_maps _ e2, changesEach_maps _ e3, List.append_nil, List.append_nil] at this

/-! ## Programs -/

variable {κ : Type} [DecidableEq κ]

/-- The places that are saved while the events of a session are committed, the last one first. -/
inductive FileSaves (m : Mode) (c1 : Client) : (committed : List Ev) → List (RStr × Nat) → Prop where
  | none {committed : List Ev} : FileSaves m c1 committed []
  | save {committed first : List Ev} {c3 : Client} {places : List (RStr × Nat)} (hf : first <+: committed) (hc : commitAll m c1 first = .ok c3)
      (h : FileSaves m c1 first places) : FileSaves m c1 committed ((c3.options.binlog.filename, c3.options.binlog.position) :: places)

/-- A program by file and position, as in C139, that saves the recorded file and position now and then, in the middle of sessions, and is killed and started
again any number of times, from a place that it has saved: not always the last one. When it goes back to an older place it throws away the newer ones. If
`jumps`, it may also keep them and start from them later. `got` are all events that it has taken. -/
inductive FileSnapshots (jumps : Prop) (m : Mode) (crypto : Crypto) (log : Log) (key : TableName → Cells → κ) :
    Client → Keyed κ → (got : List Ev) → (saved : List (RStr × Nat)) → Client → Keyed κ → (got' : List Ev) → (saved' : List (RStr × Nat)) → Prop where
  | stop {c : Client} {data : Keyed κ} {got : List Ev} {saved : List (RStr × Nat)} : FileSnapshots jumps m crypto log key c data got saved c data got saved
  | failed {c c' : Client} {data data' : Keyed κ} {got got' : List Ev} {saved saved' : List (RStr × Nat)} {net : Except IoKind Channel}
      (h : FileSnapshots jumps m crypto log key (c.replicate m crypto net).2 data got saved c' data' got' saved') :
      FileSnapshots jumps m crypto log key c data got saved c' data' got' saved'
  | session {c c1 c2 c' : Client} {data data' : Keyed κ} {got got' : List Ev} {saved saved' places : List (RStr × Nat)} {real : List Ev} {chan : Channel}
      {stream : BinlogEvents} {taken committed : List Ev}
      (hf : FitsRequests c.options) (hr : c.replicate m crypto (.ok chan) = (.ok stream, c1)) (hs : FileSession m log stream taken real)
      (hq : ∀ e ∈ taken, e.1.nextEventPosition = 0 → NoRows e.2) (hpre : committed <+: taken) (hc : commitAll m c1 committed = .ok c2)
      (ht : FileSaves m c1 committed places)
      (h : FileSnapshots jumps m crypto log key c2 (keyedTransaction key data taken) (got ++ real) (places ++ saved) c' data' got' saved') :
      FileSnapshots jumps m crypto log key c data got saved c' data' got' saved'
  | back {c c2 c' : Client} {data data' : Keyed κ} {got got' : List Ev} {newer saved saved' : List (RStr × Nat)} {name : RStr} {position : Nat}
      {o : ReplicaOptions} (hbinlog : o.binlog = .fromPosition name position) (hnew : Client.new o = .ok c2)
      (h : FileSnapshots jumps m crypto log key c2 data got ((name, position) :: saved) c' data' got' saved') :
      FileSnapshots jumps m crypto log key c data got (newer ++ (name, position) :: saved) c' data' got' saved'
  | jump {c c2 c' : Client} {data data' : Keyed κ} {got got' : List Ev} {saved saved' : List (RStr × Nat)} {name : RStr} {position : Nat}
      {o : ReplicaOptions} (hj : jumps) (hmem : (name, position) ∈ saved) (hbinlog : o.binlog = .fromPosition name position) (hnew : Client.new o = .ok c2)
      (h : FileSnapshots jumps m crypto log key c2 data got saved c' data' got' saved') :
      FileSnapshots jumps m crypto log key c data got saved c' data' got' saved'

/-- A client made for a place asks for it. -/
theorem started_at (log : Log) {c1 : Client} {o : ReplicaOptions} {name : RStr} {position : Nat} (hbinlog : o.binlog = .fromPosition name position)
    (hnew : Client.new o = .ok c1) :
    c1.options.binlog.startingStrategy ≠ .fromGtid ∧ ¬wantsEnd c1.options ∧ c1.place log = resolve log name position := by
  have h1 := client_new_ok hnew
  refine ⟨by rw [h1, hbinlog]; simp [BinlogOptions.fromPosition], fun h => ?_, by unfold Client.place; rw [h1, hbinlog]; rfl⟩
  rw [wantsEnd, h1, hbinlog] at h
  exact absurd h.1 (by simp [BinlogOptions.fromPosition])

/-- The saved places, the last one first: behind each are the last events of the log, the others have been taken. Without jumps, what is before an older place
says no more of rows. -/
def FileStack (jumps : Prop) (log : Log) (all got : List Ev) : (bound : List (List (TableName × RowChange))) → List (RStr × Nat) → Prop
  | _, [] => True
  | bound, place :: places => ∃ done, (jumps ∨ changesEach (fun _ => none) done <+: bound) ∧ (∀ e ∈ noMaps done, e ∈ got) ∧
      Valid log (resolve log place.1 place.2) ∧ all = done ++ remaining log (resolve log place.1 place.2) ∧
      FileStack jumps log all got (changesEach (fun _ => none) done) places

theorem FileStack.weaken {jumps : Prop} {log : Log} {all got got' : List Ev} {bound bound' : List (List (TableName × RowChange))} {places : List (RStr × Nat)}
    (h : FileStack jumps log all got bound places) (hg : ∀ e ∈ got, e ∈ got') (hb : jumps ∨ bound <+: bound') :
    FileStack jumps log all got' bound' places := by
  induction places generalizing bound bound' with
  | nil => trivial
  | cons place places ih =>
    obtain ⟨done, h1, h2, h3, h4, h5⟩ := h
    refine ⟨done, ?_, fun e he => hg e (h2 e he), h3, h4, ih h5 (.inr List.prefix_rfl)⟩
    rcases h1 with h1 | h1
    · exact .inl h1
    · exact hb.imp_right h1.trans

theorem FileStack.drop {jumps : Prop} {log : Log} {all got : List Ev} {bound : List (List (TableName × RowChange))} {newer places : List (RStr × Nat)}
    (h : FileStack jumps log all got bound (newer ++ places)) : FileStack jumps log all got bound places := by
  induction newer generalizing bound with
  | nil => exact h
  | cons place newer ih =>
    obtain ⟨done, h1, h2, h3, h4, h5⟩ := h
    exact (ih h5).weaken (fun _ h => h) h1

/-- Each place of the data holds what it held after some first changes, at least after `done`. -/
def SinceChanges (key : TableName → Cells → κ) (base : Keyed κ) (all done : List (List (TableName × RowChange))) (data : Keyed κ) : Prop :=
  ∀ k, ∃ upto, done <+: upto ∧ upto <+: all ∧ data k = upto.foldl (fun d cs => cs.foldl (onKeys key) d) base k

theorem SinceChanges.run {key : TableName → Cells → κ} {base data : Keyed κ} {all done run d : List (List (TableName × RowChange))}
    (h : SinceChanges key base all done data) (hrun : done ++ run <+: all) (hd : d <+: done ++ run) :
    SinceChanges key base all d (run.foldl (fun d cs => cs.foldl (onKeys key) d) data) := by
  intro k
  rcases overwrites_place (f := fun d cs => cs.foldl (onKeys key) d) run (fun cs _ place => onKeys_overwrites key cs place) k with ⟨v, hv⟩ | hnot
  · exact ⟨done ++ run, hd, hrun, by rw [List.foldl_append]; exact (hv _).trans (hv _).symm⟩
  · obtain ⟨upto, h1, h2, h3⟩ := h k
    have hsame := untouched run hnot data
    rcases List.prefix_or_prefix_of_prefix h2 hrun with h4 | h4
    · refine ⟨done ++ run, hd, hrun, ?_⟩
      obtain ⟨rest, hrest⟩ := h4
      obtain ⟨some_, rfl⟩ := h1
      rw [List.append_assoc] at hrest
      have hrest := List.append_cancel_left hrest
      rw [hsame, h3, ← hrest, ← List.append_assoc, List.foldl_append (l := done ++ some_)]
      exact (untouched rest (fun t ht => hnot t (hrest ▸ List.mem_append_right _ ht)) _).symm
    · exact ⟨upto, hd.trans h4, h2, hsame.trans h3⟩

theorem noMaps_subset (es : List Ev) : ∀ e ∈ noMaps es, e ∈ es := fun _ h => List.mem_of_mem_filter h

/-- What has been done at the end. -/
theorem fileSnapshots_end {jumps : Prop} {m : Mode} {crypto : Crypto} {log : Log} (hl : LogOk log) {key : TableName → Cells → κ} {c c' : Client}
    {data data' : Keyed κ} {got got' : List Ev} {saved saved' : List (RStr × Nat)}
    (h : FileSnapshots jumps m crypto log key c data got saved c' data' got' saved') (base : Keyed κ) (all done : List Ev)
    (hs : c.options.binlog.startingStrategy ≠ .fromGtid) (hk : ¬wantsEnd c.options) (hv : Valid log (c.place log))
    (hall : all = done ++ remaining log (c.place log)) (hgot : ∀ e ∈ noMaps done, e ∈ got)
    (hstack : FileStack jumps log all got (changesEach (fun _ => none) done) saved)
    (hq : ¬jumps → SinceChanges key base (changesEach (fun _ => none) all) (changesEach (fun _ => none) done) data) :
    ∃ done', c'.options.binlog.startingStrategy ≠ .fromGtid ∧ ¬wantsEnd c'.options ∧ Valid log (c'.place log) ∧
      all = done' ++ remaining log (c'.place log) ∧ (∀ e ∈ noMaps done', e ∈ got') ∧
      FileStack jumps log all got' (changesEach (fun _ => none) done') saved' ∧
      (¬jumps → SinceChanges key base (changesEach (fun _ => none) all) (changesEach (fun _ => none) done') data') := by
  induction h generalizing done with
  | stop => exact ⟨done, hs, hk, hv, hall, hgot, hstack, hq⟩
  | @failed c c' data data' got got' saved saved' net _ ih =>
    have hopt := replicate_keeps_options m crypto c net (not_and_or.1 hk)
    have hpl : (c.replicate m crypto net).2.place log = c.place log := by unfold Client.place; rw [hopt]
    exact ih done (by rw [hopt]; exact hs) (by rw [hopt]; exact hk) (by rw [hpl]; exact hv) (by rw [hpl]; exact hall) hgot hstack hq
  | @session c c1 c2 c' data data' got got' saved saved' places real chan stream taken committed hf hr hsess hn hpre hc ht h ih =>
    obtain ⟨⟨q, hserve⟩, sent, slices, st, hsent, hbytes⟩ := hsess.serve hs hk hf hr
    have ha : Announced taken := by
      refine Announced.prefix (es := sent) (fun a e b id he hrow => ?_) hsent
      rcases logOf_announced hbytes a e b id he hrow with h' | h'
      · cases h'
      · exact h'
    have hreal : real <+: remaining log (c.place log) := by
      have hopt := replicate_keeps_options m crypto c (.ok chan) (not_and_or.1 hk)
      rw [hr] at hopt
      obtain ⟨c3, hc3, -⟩ := commitAll_ok m c1 (by rw [show c1.options = c.options from hopt]; exact hs) taken
      obtain ⟨-, -, -, -, -, -, g4, -⟩ := served_step hl hs hk hv hr hserve hc3
      exact ⟨_, g4.symm⟩
    have given : ∀ front tms, front ++ tms <+: real → ∀ e ∈ noMaps (done ++ front), e ∈ got ++ real := by
      intro front tms h1 e he
      rw [noMaps_append] at he
      rcases List.mem_append.1 he with he | he
      · exact List.mem_append_left _ (hgot e he)
      · exact List.mem_append_right _ (h1.subset (List.mem_append_left _ (noMaps_subset _ e he)))
    obtain ⟨h1, h2, h3, front, tms, q', p1, p2, -, p4⟩ := recorded_after hl hs hk hv hr hserve hpre hc
    refine ih (done ++ front) h1 h2 h3 (by rw [hall, p4, List.append_assoc]) (given _ _ p1) ?_ fun hj => ?_
    · have low : FileStack jumps log all (got ++ real) (changesEach (fun _ => none) done) saved :=
        hstack.weaken (fun _ h => List.mem_append_left _ h) (.inr List.prefix_rfl)
      clear h ih
      induction ht generalizing c2 front tms q' with
      | none => exact low.weaken (fun _ h => h) (.inr (changesEach_mono _ (List.prefix_append _ _)))
      | @save committed first c3 places hfirst hc3 _ ih' =>
        obtain ⟨g1, g2, g3, front3, tms3, q3, r1, r2, r3, r4⟩ := recorded_after hl hs hk hv hr hserve (hfirst.trans hpre) hc3
        refine ⟨done ++ front3, .inr ?_, given _ _ r1, g3, by rw [hall, r4, List.append_assoc]; rfl,
          ih' (hfirst.trans hpre) hc3 g1 g2 g3 _ _ q3 r1 r2 r4⟩
        rw [changesEach_append, changesEach_append, List.prefix_append_right_inj]
        exact recorded_mono hl hs hk hv hr hserve hpre hc hfirst hc3 p4 r4
    · rw [keyed_session key hserve hn ha (namesAfter (fun _ => none) done)]
      refine (hq hj).run ?_ ?_
      · rw [← changesEach_append, hall]
        exact changesEach_mono _ ((List.prefix_append_right_inj _).2 hreal)
      · rw [← changesEach_append]
        exact changesEach_mono _ ((List.prefix_append_right_inj _).2 ((List.prefix_append _ _).trans p1))
  | @back c c2 c' data data' got got' newer saved saved' name position o hbinlog hnew h ih =>
    obtain ⟨done2, h1, h2, h3, h4, h5⟩ := hstack.drop
    obtain ⟨e1, e2, e3⟩ := started_at log hbinlog hnew
    refine ih done2 e1 e2 (by rw [e3]; exact h3) (by rw [e3]; exact h4) h2 ⟨done2, .inr List.prefix_rfl, h2, h3, h4, h5⟩ fun hj => ?_
    have := (hq hj).run (run := []) (d := changesEach (fun _ => none) done2)
      (by rw [List.append_nil, hall]; exact changesEach_mono _ (List.prefix_append _ _)) (by rw [List.append_nil]; exact h1.resolve_left hj)
    exact this
  | @jump c c2 c' data data' got got' saved saved' name position o hj hmem hbinlog hnew h ih =>
    obtain ⟨newer, older, rfl⟩ := List.append_of_mem hmem
    obtain ⟨done2, h1, h2, h3, h4, h5⟩ := hstack.drop
    obtain ⟨e1, e2, e3⟩ := started_at log hbinlog hnew
    exact ih done2 e1 e2 (by rw [e3]; exact h3) (by rw [e3]; exact h4) h2 (hstack.weaken (fun _ h => h) (.inl hj)) fun h => absurd hj h

/-- **C141.** A program by file and position saves the recorded place now and then, also in the middle of sessions, and is killed and started again any number
of times from some place that it has saved, also an older one, in whatever order. All events before the recorded place have been taken, but for table maps; and
every place that it has saved is one of the log, and all events before it have been taken. -/
theorem C141_file_none_left_out {jumps : Prop} {m : Mode} {crypto : Crypto} {log : Log} (hl : LogOk log) {key : TableName → Cells → κ} {c c' : Client}
    {data data' : Keyed κ} {got : List Ev} {saved : List (RStr × Nat)} (hs : c.options.binlog.startingStrategy ≠ .fromGtid) (hk : ¬wantsEnd c.options)
    (hv : Valid log (c.place log)) (h : FileSnapshots jumps m crypto log key c data [] [] c' data' got saved) :
    (∃ done, remaining log (c.place log) = done ++ remaining log (c'.place log) ∧ ∀ e ∈ noMaps done, e ∈ got) ∧
      ∀ place ∈ saved, Valid log (resolve log place.1 place.2) ∧
        ∃ first, remaining log (c.place log) = first ++ remaining log (resolve log place.1 place.2) ∧ ∀ e ∈ noMaps first, e ∈ got := by
  obtain ⟨done, -, -, -, h1, h2, h3, -⟩ := fileSnapshots_end hl h data (remaining log (c.place log)) [] hs hk hv rfl (by simp [noMaps]) trivial
    fun _ k => ⟨[], List.prefix_rfl, List.nil_prefix, rfl⟩
  refine ⟨⟨done, h1, h2⟩, fun place hp => ?_⟩
  obtain ⟨newer, older, rfl⟩ := List.append_of_mem hp
  obtain ⟨first, -, g1, g2, g3, -⟩ := h3.drop
  exact ⟨g2, first, g3, g1⟩

/-- **C141.** A copy of the tables by keys, kept by such a program that throws the newer places away when it goes back to an older one. As in C139: under each
key the copy has what the server's table had under that key at the recorded place, or at some place behind it; when the log has nothing from the recorded place
on, it has exactly the rows of the server's tables, each under its key. -/
theorem C141_file_keyed {m : Mode} {crypto : Crypto} {log : Log} (hl : LogOk log) {key : TableName → Cells → κ} {c c' : Client} {data data' : Keyed κ}
    {got : List Ev} {saved : List (RStr × Nat)} (hs : c.options.binlog.startingStrategy ≠ .fromGtid) (hk : ¬wantsEnd c.options)
    (hv : Valid log (c.place log)) (h : FileSnapshots False m crypto log key c data [] [] c' data' got saved)
    {columns : TableName → List (UInt8 × Nat)} (hcol : ∀ t, columns t ≠ [])
    {checksum : ChecksumType} {slices : List Bytes} {st : LogState} (hw : LogOf (.start checksum) (remaining log (c.place log)) slices st)
    {rows : TableName → List (List Stored)} {images : List (TableName × List Stored)} {server' : Server}
    (hc : Changes columns ⟨.start checksum, fun _ => none, rows⟩ (((remaining log (c.place log)).map (·.1)).zip slices) images server')
    {shown : TableName → List Cells} (hshown : RowsShown columns rows shown) (hi : Indexes key data shown)
    (hkeys : KeysHold key shown (changesOf (fun _ => none) (remaining log (c.place log)))) :
    ∃ done, remaining log (c.place log) = done ++ remaining log (c'.place log) ∧
      (∀ t k, ∃ first slices1 between images1 shown', first <+: remaining log (c'.place log) ∧ slices1 <+: slices ∧
        Changes columns ⟨.start checksum, fun _ => none, rows⟩ (((done ++ first).map (·.1)).zip slices1) images1 between ∧
        RowsShown columns between.rows shown' ∧ ∀ r, data' (t, k) = some r ↔ r ∈ shown' t ∧ key t r = k) ∧
      (remaining log (c'.place log) = [] → ∃ shown', RowsShown columns server'.rows shown' ∧ Indexes key data' shown') := by
  obtain ⟨done, -, -, -, h1, -, -, h5⟩ := fileSnapshots_end hl h data (remaining log (c.place log)) [] hs hk hv rfl (by simp [noMaps]) trivial
    fun _ k => ⟨[], List.prefix_rfl, List.nil_prefix, rfl⟩
  have h5 := h5 id
  -- what the copy has is what it has after some events
  have place : ∀ k, ∃ first, first <+: remaining log (c'.place log) ∧
      data' k = (changesEach (fun _ => none) (done ++ first)).foldl (fun d cs => cs.foldl (onKeys key) d) data k := by
    intro k
    obtain ⟨upto, ⟨first, rfl⟩, h6, h7⟩ := h5 k
    rw [h1, changesEach_append, List.prefix_append_right_inj] at h6
    obtain ⟨es, h8, h9⟩ := changesEach_prefix h6
    exact ⟨es, h8, by rw [h7, changesEach_append, h9]⟩
  refine ⟨done, h1, fun t k => ?_, fun hnil => ?_⟩
  · obtain ⟨first, h6, h7⟩ := place (t, k)
    obtain ⟨rest, hrest⟩ := id h6
    have hall : remaining log (c.place log) = (done ++ first) ++ rest := by rw [h1, ← hrest, List.append_assoc]
    rw [hall] at hw hc hkeys
    obtain ⟨slices1, slices2, between, images1, images2, shown', rfl, g1, -, g3, g4⟩ := keyed_once hcol hw hc hshown hi hkeys
    exact ⟨first, slices1, between, images1, shown', h6, List.prefix_append _ _, g1, g3, fun r => by rw [h7]; exact g4.2 t k r⟩
  · have hdata : data' = (changesEach (fun _ => none) done).foldl (fun d cs => cs.foldl (onKeys key) d) data := by
      funext k
      obtain ⟨first, h6, h7⟩ := place k
      rw [hnil, List.prefix_nil] at h6
      rw [h7, h6, List.append_nil]
    rw [hnil, List.append_nil] at h1
    rw [← List.append_nil (remaining log (c.place log))] at hw hc hkeys
    obtain ⟨slices1, slices2, between, images1, images2, shown', rfl, -, g2, g3, g4⟩ := keyed_once hcol hw hc hshown hi hkeys
    cases g2
    rw [h1] at g4
    exact ⟨shown', g3, hdata ▸ g4⟩

/-- **C141.** After whatever of that, when a conforming server lets the client in and sends the log from the recorded place on to its end, and the program takes
all of it, the copy has exactly the rows of the server's tables, each under its key, whatever is committed of that session. -/
theorem C141_file_catches_up {m : Mode} {crypto : Crypto} {log : Log} (hl : LogOk log) {key : TableName → Cells → κ} {c c' : Client} {data data' : Keyed κ}
    {got : List Ev} {saved : List (RStr × Nat)} (hs : c.options.binlog.startingStrategy ≠ .fromGtid) (hk : ¬wantsEnd c.options)
    (hv : Valid log (c.place log)) (h : FileSnapshots False m crypto log key c data [] [] c' data' got saved)
    {columns : TableName → List (UInt8 × Nat)} (hcol : ∀ t, columns t ≠ [])
    {checksum : ChecksumType} {slices : List Bytes} {st : LogState} (hw : LogOf (.start checksum) (remaining log (c.place log)) slices st)
    {rows : TableName → List (List Stored)} {images : List (TableName × List Stored)} {server' : Server}
    (hc : Changes columns ⟨.start checksum, fun _ => none, rows⟩ (((remaining log (c.place log)).map (·.1)).zip slices) images server')
    {shown : TableName → List Cells} (hshown : RowsShown columns rows shown) (hi : Indexes key data shown)
    (hkeys : KeysHold key shown (changesOf (fun _ => none) (remaining log (c.place log))))
    (chan : Channel) (hu : Usable crypto c'.options) (hwr : chan.writes = []) (mariaDb : Prop) (checksum' : ChecksumType) (bytes : Bytes)
    (hin : LetsIn crypto c'.options mariaDb none checksum' bytes) (q : Place) (sent : List Ev)
    (hserve : Serve log False (c'.place log) q sent (remaining log (c'.place log)))
    (hq : ∀ e ∈ sent, e.1.nextEventPosition = 0 → NoRows e.2)
    (slices' : List Bytes) (st' : LogState) (hbytes : LogOf (.start checksum') sent slices' st') (hsize : ∀ x ∈ slices', x.length < 2 ^ 24 - 20)
    (n : Nat) (rest : Bytes) (hinput : chan.input = bytes ++ frames (eventPackets n sent slices') ++ rest) :
    ∃ stream shown', c'.replicate m crypto (.ok chan) = (.ok stream, c'.afresh) ∧ (∃ stream', stream.Yields m (sent.map .ok) stream') ∧
      (∀ k, ∃ c'', commitAll m c'.afresh (sent.take k) = .ok c'') ∧
      RowsShown columns server'.rows shown' ∧ Indexes key (keyedTransaction key data' sent) shown' := by
  obtain ⟨done, hs', hk', hv', h1, -, -, h5⟩ := fileSnapshots_end hl h data (remaining log (c.place log)) [] hs hk hv rfl (by simp [noMaps]) trivial
    fun _ k => ⟨[], List.prefix_rfl, List.nil_prefix, rfl⟩
  obtain ⟨stream, g1, g2⟩ := C105_session m crypto c' chan hu hwr mariaDb checksum' bytes hin hs' hk' log q sent _ hserve slices' st' hbytes hsize n rest hinput
  have ha : Announced sent := by
    intro a e b id he hrow
    rcases logOf_announced hbytes a e b id he hrow with h' | h'
    · cases h'
    · exact h'
  have hdata : keyedTransaction key data' sent =
      (changesEach (fun _ => none) (remaining log (c.place log))).foldl (fun d cs => cs.foldl (onKeys key) d) data := by
    rw [keyed_session key hserve hq ha (namesAfter (fun _ => none) done)]
    have h6 : changesEach (fun _ => none) done ++ changesEach (namesAfter (fun _ => none) done) (remaining log (c'.place log)) =
        changesEach (fun _ => none) (remaining log (c.place log)) := by rw [← changesEach_append, ← h1]
    funext k
    obtain ⟨upto, h7, h8, h9⟩ := (h5 id).run (d := changesEach (fun _ => none) (remaining log (c.place log))) (by rw [h6]) (by rw [h6]) k
    rw [h9, h8.eq_of_length (Nat.le_antisymm h8.length_le h7.length_le)]
  rw [← List.append_nil (remaining log (c.place log))] at hw hc hkeys
  obtain ⟨slices1, slices2, between, images1, images2, shown', rfl, -, k2, k3, k4⟩ := keyed_once hcol hw hc hshown hi hkeys
  cases k2
  refine ⟨stream, shown', g1, ?_, fun k => ?_, k3, hdata ▸ k4⟩
  · obtain ⟨_, _, g3, -⟩ := g2 sent.length
    rw [List.take_of_length_le (Nat.le_refl _)] at g3
    obtain ⟨_, _, _, _, _, _, hy, _⟩ := g3
    exact ⟨_, hy⟩
  · obtain ⟨_, c'', -, -, -, g3⟩ := g2 k
    exact ⟨c'', g3⟩

/-! ## An example -/

/-- The hypotheses of C141 by file and position are met: the program takes and commits the whole log, saves its place before the rows and at the end, and goes
back to the first place; the rows are inserted again, and the place at the end is thrown away. -/
example (m : Mode) : ∃ c' data' got saved, FileSnapshots False m exCrypto exRowLog (fun _ r => r.head?) exStartUser (fun _ => none) [] [] c' data' got saved ∧
    saved = [("bin.1".toList, 4)] ∧ got = [exMapAt 150, exRowsAt 200, exXidAt 250] ++ [exMapAt 150, exRowsAt 200, exXidAt 250] ∧
    LogOk exRowLog ∧ exStartUser.options.binlog.startingStrategy ≠ .fromGtid ∧ ¬wantsEnd exStartUser.options ∧
    Valid exRowLog (exStartUser.place exRowLog) ∧ (∀ t, exTwoColumns t ≠ []) ∧
    remaining exRowLog (exStartUser.place exRowLog) = [exMapAt 150, exRowsAt 200, exXidAt 250] ∧
    RowsShown exTwoColumns (fun t => if t = exTableName then [] else []) (fun _ => []) ∧
    Indexes (fun _ r => r.head?) (fun _ => none) (fun _ => []) ∧
    KeysHold (fun _ r => r.head?) (fun _ => []) (changesOf (fun _ => none) [exMapAt 150, exRowsAt 200, exXidAt 250]) ∧
    data' (exTableName, some (some (.int 258))) = some [some (.int 258), none] := by
  have hc : ∀ m, commitAll m exStartUser.afresh (exRowsSent.take 2) = .ok exMapUser := by
    rintro ⟨_ | _⟩ <;> decide +kernel
  have hu0 : Usable exCrypto exStartUser.options := exPlaceUser_usable 4 (by decide) [] (by decide)
  obtain ⟨chan1, stream1, c1, h1, h2, h3⟩ := exRows_session m exStartUser
    hu0 (by decide +kernel) (by decide) (by unfold wantsEnd; decide) _ (exGtidUser_in _)
  let again : Client := ⟨{ exMapUser.options with binlog := .fromPosition exMapUser.options.binlog.filename exMapUser.options.binlog.position }, false, none, none⟩
  have hu3 : Usable exCrypto again.options :=
    ⟨exSmall _, ⟨by decide, by decide, by decide +kernel, (fun g h => by cases h), (fun g h => by cases h), by decide⟩, rfl⟩
  obtain ⟨chan3, stream3, c3, k1, k2, k3⟩ := exRows_session m again hu3 (by decide +kernel) (by decide) (by unfold wantsEnd; decide) _ (exGtidUser_in _)
  have hq : ∀ e ∈ exRowsSent, e.1.nextEventPosition = 0 → NoRows e.2 := by simp [exRowsSent, exRotateAt, exMapAt, exRowsAt, exXidAt, NoRows]
  have hch : changesOf (fun _ => none) exRowsSent =
      [(exTableName, .insert [some (.int 258), none]), (exTableName, .insert [some (.int 1), some (.tinyInt 9)])] := by
    with_unfolding_all rfl
  refine ⟨c3, _, _, _, .session (small_fits hu0.requests) h1 h2 hq List.prefix_rfl h3
      (.save List.prefix_rfl h3 (.save (List.take_prefix 2 _) (hc m) .none))
      (.back (newer := [_]) (saved := []) (name := "bin.1".toList) (position := 4) (c2 := again) (o := again.options) rfl rfl
        (.session (small_fits hu3.requests) k1 k2 hq List.prefix_rfl k3 .none .stop)), rfl, rfl,
    exRowLog_ok, by decide, by unfold wantsEnd; decide, ⟨_, List.mem_cons_self, rfl, [], _, rfl, rfl⟩, fun _ => by simp [exTwoColumns], by decide +kernel,
    exEmpty_shown, ⟨by simp, by simp⟩, ?_, ?_⟩
  · rw [show changesOf (fun _ => none) [exMapAt 150, exRowsAt 200, exXidAt 250] = changesOf (fun _ => none) exRowsSent from rfl, hch]
    simp [KeysHold, onBags, RowChange.onBag]
  · rw [keyedTransaction, keyedTransaction, hch]
    simp [onKeys, Keyed.set]

end MysqlCdc
