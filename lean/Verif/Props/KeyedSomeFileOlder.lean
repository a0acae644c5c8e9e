import Verif.Props.KeyedSomeFile
import Verif.Props.SnapshotsFile
/-!
# C144 by file and position: a copy of some of the tables, and going back to older saved places
-/

namespace MysqlCdc

open Spec

variable {κ : Type} [DecidableEq κ]

/-- As `FileSnapshots`, with a copy of the tables that are wanted. -/
inductive FileSnapshotsSome (jumps : Prop) (m : Mode) (crypto : Crypto) (log : Log) (want : TableName → Bool) (key : TableName → Cells → κ) :
    Client → Keyed κ → (got : List Ev) → (saved : List (RStr × Nat)) → Client → Keyed κ → (got' : List Ev) → (saved' : List (RStr × Nat)) → Prop where
  | stop {c : Client} {data : Keyed κ} {got : List Ev} {saved : List (RStr × Nat)} : FileSnapshotsSome jumps m crypto log want key c data got saved c data got saved
  | failed {c c' : Client} {data data' : Keyed κ} {got got' : List Ev} {saved saved' : List (RStr × Nat)} {net : Except IoKind Channel}
      (h : FileSnapshotsSome jumps m crypto log want key (c.replicate m crypto net).2 data got saved c' data' got' saved') :
      FileSnapshotsSome jumps m crypto log want key c data got saved c' data' got' saved'
  | session {c c1 c2 c' : Client} {data data' : Keyed κ} {got got' : List Ev} {saved saved' places : List (RStr × Nat)} {real : List Ev} {chan : Channel}
      {stream : BinlogEvents} {taken committed : List Ev}
      (hf : FitsRequests c.options) (hr : c.replicate m crypto (.ok chan) = (.ok stream, c1)) (hs : FileSession m log stream taken real)
      (hq : ∀ e ∈ taken, e.1.nextEventPosition = 0 → NoRows e.2) (hpre : committed <+: taken) (hc : commitAll m c1 committed = .ok c2)
      (ht : FileSaves m c1 committed places)
      (h : FileSnapshotsSome jumps m crypto log want key c2 (keyedSome want key data taken) (got ++ real) (places ++ saved) c' data' got' saved') :
      FileSnapshotsSome jumps m crypto log want key c data got saved c' data' got' saved'
  | back {c c2 c' : Client} {data data' : Keyed κ} {got got' : List Ev} {newer saved saved' : List (RStr × Nat)} {name : RStr} {position : Nat}
      {o : ReplicaOptions} (hbinlog : o.binlog = .fromPosition name position) (hnew : Client.new o = .ok c2)
      (h : FileSnapshotsSome jumps m crypto log want key c2 data got ((name, position) :: saved) c' data' got' saved') :
      FileSnapshotsSome jumps m crypto log want key c data got (newer ++ (name, position) :: saved) c' data' got' saved'
  | jump {c c2 c' : Client} {data data' : Keyed κ} {got got' : List Ev} {saved saved' : List (RStr × Nat)} {name : RStr} {position : Nat}
      {o : ReplicaOptions} (hj : jumps) (hmem : (name, position) ∈ saved) (hbinlog : o.binlog = .fromPosition name position) (hnew : Client.new o = .ok c2)
      (h : FileSnapshotsSome jumps m crypto log want key c2 data got saved c' data' got' saved') :
      FileSnapshotsSome jumps m crypto log want key c data got saved c' data' got' saved'

/-- As `SinceChanges`, with the changes of the tables that are wanted. -/
def SinceSome (want : TableName → Bool) (key : TableName → Cells → κ) (base : Keyed κ) (all done : List (List (TableName × RowChange))) (data : Keyed κ) : Prop :=
  ∀ k, ∃ upto, done <+: upto ∧ upto <+: all ∧ data k = upto.foldl (fun d cs => (wantedOf want cs).foldl (onKeys key) d) base k

theorem SinceSome.run {want : TableName → Bool} {key : TableName → Cells → κ} {base data : Keyed κ} {all done run d : List (List (TableName × RowChange))}
    (h : SinceSome want key base all done data) (hrun : done ++ run <+: all) (hd : d <+: done ++ run) :
    SinceSome want key base all d (run.foldl (fun d cs => (wantedOf want cs).foldl (onKeys key) d) data) := by
  intro k
  rcases overwrites_place (f := fun d cs => (wantedOf want cs).foldl (onKeys key) d) run (fun cs _ place => onKeys_overwrites key (wantedOf want cs) place) k with ⟨v, hv⟩ | hnot
  · exact ⟨done ++ run, hd, hrun, by rw [List.foldl_append]; exact (hv _).trans (hv _).symm⟩
  · obtain ⟨upto, h1, h2, h3⟩ := h k
    have hsame := untouched run hnot data
    rcases List.prefix_or_prefix_of_prefix h2 hrun with h4 | h4
    · refine ⟨done ++ run, hd, hrun, ?_⟩
      obtain ⟨rest, hrest⟩ := h4
      obtain ⟨some_, rfl⟩ := h1
      rw [List.append_assoc] at hrest
      have hrest := List.append_cancel_left hrest
      rw [hsame, h3, ← hrest, ← List.append_assoc, List.foldl_append (l := done ++ some_)]
      exact (untouched rest (fun t ht => hnot t (hrest ▸ List.mem_append_right _ ht)) _).symm
    · exact ⟨upto, hd.trans h4, h2, hsame.trans h3⟩

/-- What has been done at the end. -/
theorem fileSnapshotsSome_end {jumps : Prop} {m : Mode} {crypto : Crypto} {log : Log} (hl : LogOk log) {want : TableName → Bool} {key : TableName → Cells → κ} {c c' : Client}
    {data data' : Keyed κ} {got got' : List Ev} {saved saved' : List (RStr × Nat)}
    (h : FileSnapshotsSome jumps m crypto log want key c data got saved c' data' got' saved') (base : Keyed κ) (all done : List Ev)
    (hs : c.options.binlog.startingStrategy ≠ .fromGtid) (hk : ¬wantsEnd c.options) (hv : Valid log (c.place log))
    (hall : all = done ++ remaining log (c.place log)) (hgot : ∀ e ∈ noMaps done, e ∈ got)
    (hstack : FileStack jumps log all got (changesEach (fun _ => none) done) saved)
    (hq : ¬jumps → SinceSome want key base (changesEach (fun _ => none) all) (changesEach (fun _ => none) done) data) :
    ∃ done', c'.options.binlog.startingStrategy ≠ .fromGtid ∧ ¬wantsEnd c'.options ∧ Valid log (c'.place log) ∧
      all = done' ++ remaining log (c'.place log) ∧ (∀ e ∈ noMaps done', e ∈ got') ∧
      FileStack jumps log all got' (changesEach (fun _ => none) done') saved' ∧
      (¬jumps → SinceSome want key base (changesEach (fun _ => none) all) (changesEach (fun _ => none) done') data') := by
  induction h generalizing done with
  | stop => exact ⟨done, hs, hk, hv, hall, hgot, hstack, hq⟩
  | @failed c c' data data' got got' saved saved' net _ ih =>
    have hopt := replicate_keeps_options m crypto c net (not_and_or.1 hk)
    have hpl : (c.replicate m crypto net).2.place log = c.place log := by unfold Client.place; rw [hopt]
    exact ih done (by rw [hopt]; exact hs) (by rw [hopt]; exact hk) (by rw [hpl]; exact hv) (by rw [hpl]; exact hall) hgot hstack hq
  | @session c c1 c2 c' data data' got got' saved saved' places real chan stream taken committed hf hr hsess hn hpre hc ht h ih =>
    obtain ⟨⟨q, hserve⟩, sent, slices, st, hsent, hbytes⟩ := hsess.serve hs hk hf hr
    have ha : Announced taken := by
      refine Announced.prefix (es := sent) (fun a e b id he hrow => ?_) hsent
      rcases logOf_announced hbytes a e b id he hrow with h' | h'
      · cases h'
      · exact h'
    have hreal : real <+: remaining log (c.place log) := by
      have hopt := replicate_keeps_options m crypto c (.ok chan) (not_and_or.1 hk)
      rw [hr] at hopt
      obtain ⟨c3, hc3, -⟩ := commitAll_ok m c1 (by rw [show c1.options = c.options from hopt]; exact hs) taken
      obtain ⟨-, -, -, -, -, -, g4, -⟩ := served_step hl hs hk hv hr hserve hc3
      exact ⟨_, g4.symm⟩
    have given : ∀ front tms, front ++ tms <+: real → ∀ e ∈ noMaps (done ++ front), e ∈ got ++ real := by
      intro front tms h1 e he
      rw [noMaps_append] at he
      rcases List.mem_append.1 he with he | he
      · exact List.mem_append_left _ (hgot e he)
      · exact List.mem_append_right _ (h1.subset (List.mem_append_left _ (noMaps_subset _ e he)))
    obtain ⟨h1, h2, h3, front, tms, q', p1, p2, -, p4⟩ := recorded_after hl hs hk hv hr hserve hpre hc
    refine ih (done ++ front) h1 h2 h3 (by rw [hall, p4, List.append_assoc]) (given _ _ p1) ?_ fun hj => ?_
    · have low : FileStack jumps log all (got ++ real) (changesEach (fun _ => none) done) saved :=
        hstack.weaken (fun _ h => List.mem_append_left _ h) (.inr List.prefix_rfl)
      clear h ih
      induction ht generalizing c2 front tms q' with
      | none => exact low.weaken (fun _ h => h) (.inr (changesEach_mono _ (List.prefix_append _ _)))
      | @save committed first c3 places hfirst hc3 _ ih' =>
        obtain ⟨g1, g2, g3, front3, tms3, q3, r1, r2, r3, r4⟩ := recorded_after hl hs hk hv hr hserve (hfirst.trans hpre) hc3
        refine ⟨done ++ front3, .inr ?_, given _ _ r1, g3, by rw [hall, r4, List.append_assoc]; rfl,
          ih' (hfirst.trans hpre) hc3 g1 g2 g3 _ _ q3 r1 r2 r4⟩
        rw [changesEach_append, changesEach_append, List.prefix_append_right_inj]
        exact recorded_mono hl hs hk hv hr hserve hpre hc hfirst hc3 p4 r4
    · rw [keyedSome_session want key hserve hn ha (namesAfter (fun _ => none) done)]
      refine (hq hj).run ?_ ?_
      · rw [← changesEach_append, hall]
        exact changesEach_mono _ ((List.prefix_append_right_inj _).2 hreal)
      · rw [← changesEach_append]
        exact changesEach_mono _ ((List.prefix_append_right_inj _).2 ((List.prefix_append _ _).trans p1))
  | @back c c2 c' data data' got got' newer saved saved' name position o hbinlog hnew h ih =>
    obtain ⟨done2, h1, h2, h3, h4, h5⟩ := hstack.drop
    obtain ⟨e1, e2, e3⟩ := started_at log hbinlog hnew
    refine ih done2 e1 e2 (by rw [e3]; exact h3) (by rw [e3]; exact h4) h2 ⟨done2, .inr List.prefix_rfl, h2, h3, h4, h5⟩ fun hj => ?_
    have := (hq hj).run (run := []) (d := changesEach (fun _ => none) done2)
      (by rw [List.append_nil, hall]; exact changesEach_mono _ (List.prefix_append _ _)) (by rw [List.append_nil]; exact h1.resolve_left hj)
    exact this
  | @jump c c2 c' data data' got got' saved saved' name position o hj hmem hbinlog hnew h ih =>
    obtain ⟨newer, older, rfl⟩ := List.append_of_mem hmem
    obtain ⟨done2, h1, h2, h3, h4, h5⟩ := hstack.drop
    obtain ⟨e1, e2, e3⟩ := started_at log hbinlog hnew
    exact ih done2 e1 e2 (by rw [e3]; exact h3) (by rw [e3]; exact h4) h2 (hstack.weaken (fun _ h => h) (.inl hj)) fun h => absurd hj h

/-- **C144.** A copy of some of the tables by keys, kept by a program by file and position that is killed and started again from any place it has saved, as in
C141. -/
theorem C144_file_older {m : Mode} {crypto : Crypto} {log : Log} (hl : LogOk log) {want : TableName → Bool} {key : TableName → Cells → κ} {c c' : Client} {data data' : Keyed κ}
    {got : List Ev} {saved : List (RStr × Nat)} (hs : c.options.binlog.startingStrategy ≠ .fromGtid) (hk : ¬wantsEnd c.options)
    (hv : Valid log (c.place log)) (h : FileSnapshotsSome False m crypto log want key c data [] [] c' data' got saved)
    {columns : TableName → List (UInt8 × Nat)} (hcol : ∀ t, columns t ≠ [])
    {checksum : ChecksumType} {slices : List Bytes} {st : LogState} (hw : LogOf (.start checksum) (remaining log (c.place log)) slices st)
    {rows : TableName → List (List Stored)} {images : List (TableName × List Stored)} {server' : Server}
    (hc : Changes columns ⟨.start checksum, fun _ => none, rows⟩ (((remaining log (c.place log)).map (·.1)).zip slices) images server')
    {shown : TableName → List Cells} (hshown : RowsShown columns rows shown) (hi : Indexes key data (onlyTables want shown))
    (hkeys : KeysHold key (onlyTables want shown) (wantedOf want (changesOf (fun _ => none) (remaining log (c.place log))))) :
    ∃ done, remaining log (c.place log) = done ++ remaining log (c'.place log) ∧
      (∀ t, want t → ∀ k, ∃ first slices1 between images1 shown', first <+: remaining log (c'.place log) ∧ slices1 <+: slices ∧
        Changes columns ⟨.start checksum, fun _ => none, rows⟩ (((done ++ first).map (·.1)).zip slices1) images1 between ∧
        RowsShown columns between.rows shown' ∧ ∀ r, data' (t, k) = some r ↔ r ∈ shown' t ∧ key t r = k) ∧
      (remaining log (c'.place log) = [] → ∃ shown', RowsShown columns server'.rows shown' ∧ Indexes key data' (onlyTables want shown')) := by
  obtain ⟨done, -, -, -, h1, -, -, h5⟩ := fileSnapshotsSome_end hl h data (remaining log (c.place log)) [] hs hk hv rfl (by simp [noMaps]) trivial
    fun _ k => ⟨[], List.prefix_rfl, List.nil_prefix, rfl⟩
  have h5 := h5 id
  -- what the copy has is what it has after some events
  have place : ∀ k, ∃ first, first <+: remaining log (c'.place log) ∧
      data' k = (changesEach (fun _ => none) (done ++ first)).foldl (fun d cs => (wantedOf want cs).foldl (onKeys key) d) data k := by
    intro k
    obtain ⟨upto, ⟨first, rfl⟩, h6, h7⟩ := h5 k
    rw [h1, changesEach_append, List.prefix_append_right_inj] at h6
    obtain ⟨es, h8, h9⟩ := changesEach_prefix h6
    exact ⟨es, h8, by rw [h7, changesEach_append, h9]⟩
  refine ⟨done, h1, fun t ht k => ?_, fun hnil => ?_⟩
  · obtain ⟨first, h6, h7⟩ := place (t, k)
    obtain ⟨rest, hrest⟩ := id h6
    have hall : remaining log (c.place log) = (done ++ first) ++ rest := by rw [h1, ← hrest, List.append_assoc]
    rw [hall] at hw hc hkeys
    obtain ⟨slices1, slices2, between, images1, images2, shown', rfl, g1, -, g3, g4⟩ := keyedSome_once hcol hw hc hshown hi hkeys
    exact ⟨first, slices1, between, images1, shown', h6, List.prefix_append _ _, g1, g3, fun r => by rw [h7]; simpa only [onlyTables, ht, if_true] using g4.2 t k r⟩
  · have hdata : data' = (changesEach (fun _ => none) done).foldl (fun d cs => (wantedOf want cs).foldl (onKeys key) d) data := by
      funext k
      obtain ⟨first, h6, h7⟩ := place k
      rw [hnil, List.prefix_nil] at h6
      rw [h7, h6, List.append_nil]
    rw [hnil, List.append_nil] at h1
    rw [← List.append_nil (remaining log (c.place log))] at hw hc hkeys
    obtain ⟨slices1, slices2, between, images1, images2, shown', rfl, -, g2, g3, g4⟩ := keyedSome_once hcol hw hc hshown hi hkeys
    cases g2
    rw [h1] at g4
    exact ⟨shown', g3, hdata ▸ g4⟩

/-- **C144.** After whatever of that, when a conforming server lets the client in and sends the log from the recorded place on to its end, and the program takes
all of it, the copy has exactly the rows of the wanted tables, each under its key. -/
theorem C144_file_older_catches_up {m : Mode} {crypto : Crypto} {log : Log} (hl : LogOk log) {want : TableName → Bool} {key : TableName → Cells → κ} {c c' : Client} {data data' : Keyed κ}
    {got : List Ev} {saved : List (RStr × Nat)} (hs : c.options.binlog.startingStrategy ≠ .fromGtid) (hk : ¬wantsEnd c.options)
    (hv : Valid log (c.place log)) (h : FileSnapshotsSome False m crypto log want key c data [] [] c' data' got saved)
    {columns : TableName → List (UInt8 × Nat)} (hcol : ∀ t, columns t ≠ [])
    {checksum : ChecksumType} {slices : List Bytes} {st : LogState} (hw : LogOf (.start checksum) (remaining log (c.place log)) slices st)
    {rows : TableName → List (List Stored)} {images : List (TableName × List Stored)} {server' : Server}
    (hc : Changes columns ⟨.start checksum, fun _ => none, rows⟩ (((remaining log (c.place log)).map (·.1)).zip slices) images server')
    {shown : TableName → List Cells} (hshown : RowsShown columns rows shown) (hi : Indexes key data (onlyTables want shown))
    (hkeys : KeysHold key (onlyTables want shown) (wantedOf want (changesOf (fun _ => none) (remaining log (c.place log)))))
    (chan : Channel) (hu : Usable crypto c'.options) (hwr : chan.writes = []) (mariaDb : Prop) (checksum' : ChecksumType) (bytes : Bytes)
    (hin : LetsIn crypto c'.options mariaDb none checksum' bytes) (q : Place) (sent : List Ev)
    (hserve : Serve log False (c'.place log) q sent (remaining log (c'.place log)))
    (hq : ∀ e ∈ sent, e.1.nextEventPosition = 0 → NoRows e.2)
    (slices' : List Bytes) (st' : LogState) (hbytes : LogOf (.start checksum') sent slices' st') (hsize : ∀ x ∈ slices', x.length < 2 ^ 24 - 20)
    (n : Nat) (rest : Bytes) (hinput : chan.input = bytes ++ frames (eventPackets n sent slices') ++ rest) :
    ∃ stream shown', c'.replicate m crypto (.ok chan) = (.ok stream, c'.afresh) ∧ (∃ stream', stream.Yields m (sent.map .ok) stream') ∧
      (∀ k, ∃ c'', commitAll m c'.afresh (sent.take k) = .ok c'') ∧
      RowsShown columns server'.rows shown' ∧ Indexes key (keyedSome want key data' sent) (onlyTables want shown') := by
  obtain ⟨done, hs', hk', hv', h1, -, -, h5⟩ := fileSnapshotsSome_end hl h data (remaining log (c.place log)) [] hs hk hv rfl (by simp [noMaps]) trivial
    fun _ k => ⟨[], List.prefix_rfl, List.nil_prefix, rfl⟩
  obtain ⟨stream, g1, g2⟩ := C105_session m crypto c' chan hu hwr mariaDb checksum' bytes hin hs' hk' log q sent _ hserve slices' st' hbytes hsize n rest hinput
  have ha : Announced sent := by
    intro a e b id he hrow
    rcases logOf_announced hbytes a e b id he hrow with h' | h'
    · cases h'
    · exact h'
  have hdata : keyedSome want key data' sent =
      (changesEach (fun _ => none) (remaining log (c.place log))).foldl (fun d cs => (wantedOf want cs).foldl (onKeys key) d) data := by
    rw [keyedSome_session want key hserve hq ha (namesAfter (fun _ => none) done)]
    have h6 : changesEach (fun _ => none) done ++ changesEach (namesAfter (fun _ => none) done) (remaining log (c'.place log)) =
        changesEach (fun _ => none) (remaining log (c.place log)) := by rw [← changesEach_append, ← h1]
    funext k
    obtain ⟨upto, h7, h8, h9⟩ := (h5 id).run (d := changesEach (fun _ => none) (remaining log (c.place log))) (by rw [h6]) (by rw [h6]) k
    rw [h9, h8.eq_of_length (Nat.le_antisymm h8.length_le h7.length_le)]
  rw [← List.append_nil (remaining log (c.place log))] at hw hc hkeys
  obtain ⟨slices1, slices2, between, images1, images2, shown', rfl, -, k2, k3, k4⟩ := keyedSome_once hcol hw hc hshown hi hkeys
  cases k2
  refine ⟨stream, shown', g1, ?_, fun k => ?_, k3, hdata ▸ k4⟩
  · obtain ⟨_, _, g3, -⟩ := g2 sent.length
    rw [List.take_of_length_le (Nat.le_refl _)] at g3
    obtain ⟨_, _, _, _, _, _, hy, _⟩ := g3
    exact ⟨_, hy⟩
  · obtain ⟨_, c'', -, -, -, g3⟩ := g2 k
    exact ⟨c'', g3⟩

/-- The hypotheses are met: as in C141, of the tables only one is wanted. -/
example (m : Mode) : ∃ c' data' got saved, FileSnapshotsSome False m exCrypto exRowLog (fun t => t = exTableName) (fun _ r => r.head?) exStartUser (fun _ => none) [] [] c' data' got saved ∧
    saved = [("bin.1".toList, 4)] ∧ got = [exMapAt 150, exRowsAt 200, exXidAt 250] ++ [exMapAt 150, exRowsAt 200, exXidAt 250] ∧
    LogOk exRowLog ∧ exStartUser.options.binlog.startingStrategy ≠ .fromGtid ∧ ¬wantsEnd exStartUser.options ∧
    Valid exRowLog (exStartUser.place exRowLog) ∧ (∀ t, exTwoColumns t ≠ []) ∧
    remaining exRowLog (exStartUser.place exRowLog) = [exMapAt 150, exRowsAt 200, exXidAt 250] ∧
    RowsShown exTwoColumns (fun t => if t = exTableName then [] else []) (fun _ => []) ∧
    Indexes (fun _ r => r.head?) (fun _ => none) (onlyTables (fun t => t = exTableName) fun _ => []) ∧
    KeysHold (fun _ r => r.head?) (onlyTables (fun t => t = exTableName) fun _ => [])
      (wantedOf (fun t => t = exTableName) (changesOf (fun _ => none) [exMapAt 150, exRowsAt 200, exXidAt 250])) ∧
    data' (exTableName, some (some (.int 258))) = some [some (.int 258), none] := by
  have hc : ∀ m, commitAll m exStartUser.afresh (exRowsSent.take 2) = .ok exMapUser := by
    rintro ⟨_ | _⟩ <;> decide +kernel
  have hu0 : Usable exCrypto exStartUser.options := exPlaceUser_usable 4 (by decide) [] (by decide)
  obtain ⟨chan1, stream1, c1, h1, h2, h3⟩ := exRows_session m exStartUser
    hu0 (by decide +kernel) (by decide) (by unfold wantsEnd; decide) _ (exGtidUser_in _)
  let again : Client := ⟨{ exMapUser.options with binlog := .fromPosition exMapUser.options.binlog.filename exMapUser.options.binlog.position }, false, none, none⟩
  have hu3 : Usable exCrypto again.options :=
    ⟨exSmall _, ⟨by decide, by decide, by decide +kernel, (fun g h => by cases h), (fun g h => by cases h), by decide⟩, rfl⟩
  obtain ⟨chan3, stream3, c3, k1, k2, k3⟩ := exRows_session m again hu3 (by decide +kernel) (by decide) (by unfold wantsEnd; decide) _ (exGtidUser_in _)
  have hq : ∀ e ∈ exRowsSent, e.1.nextEventPosition = 0 → NoRows e.2 := by simp [exRowsSent, exRotateAt, exMapAt, exRowsAt, exXidAt, NoRows]
  have hch : changesOf (fun _ => none) exRowsSent =
      [(exTableName, .insert [some (.int 258), none]), (exTableName, .insert [some (.int 1), some (.tinyInt 9)])] := by
    with_unfolding_all rfl
  refine ⟨c3, _, _, _, .session (small_fits hu0.requests) h1 h2 hq List.prefix_rfl h3
      (.save List.prefix_rfl h3 (.save (List.take_prefix 2 _) (hc m) .none))
      (.back (newer := [_]) (saved := []) (name := "bin.1".toList) (position := 4) (c2 := again) (o := again.options) rfl rfl
        (.session (small_fits hu3.requests) k1 k2 hq List.prefix_rfl k3 .none .stop)), rfl, rfl,
    exRowLog_ok, by decide, by unfold wantsEnd; decide, ⟨_, List.mem_cons_self, rfl, [], _, rfl, rfl⟩, fun _ => by simp [exTwoColumns], by decide +kernel,
    exEmpty_shown, ⟨by simp [onlyTables], by simp [onlyTables]⟩, ?_, ?_⟩
  · rw [show changesOf (fun _ => none) [exMapAt 150, exRowsAt 200, exXidAt 250] = changesOf (fun _ => none) exRowsSent from rfl, hch]
    simp [wantedOf, KeysHold, onBags, RowChange.onBag, onlyTables]
  · rw [keyedSome, keyedSome, hch]
    simp [onKeys, Keyed.set]

end MysqlCdc
