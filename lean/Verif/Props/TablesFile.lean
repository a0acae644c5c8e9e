import Verif.Props.TablesSessions
import Verif.Props.DeliveriesFile
/-!
# C123: a copy of the tables over broken sessions by file and position
-/

namespace MysqlCdc

open Spec

/-- Any number of sessions by file and position, and attempts that fail. With each event that it takes and commits in a session, the application brings
its copy of the tables up to date. The artificial events of a server do not speak of rows. -/
inductive TableSessions (m : Mode) (crypto : Crypto) (log : Log) : Client → Kept → Client → Kept → Prop where
  | stop {c : Client} {copy : Kept} : TableSessions m crypto log c copy c copy
  | failed {c c' : Client} {copy copy' : Kept} {net : Except IoKind Channel}
      (h : TableSessions m crypto log (c.replicate m crypto net).2 copy c' copy') : TableSessions m crypto log c copy c' copy'
  | session {c c1 c2 c' : Client} {copy copy' : Kept} {chan : Channel} {stream : BinlogEvents} {taken real : List Ev}
      (hf : FitsRequests c.options) (hr : c.replicate m crypto (.ok chan) = (.ok stream, c1)) (hs : FileSession m log stream taken real)
      (hq : ∀ e ∈ taken, e.1.nextEventPosition = 0 → NoRows e.2) (hc : commitAll m c1 taken = .ok c2)
      (h : TableSessions m crypto log c2 (copy.takeAll taken) c' copy') : TableSessions m crypto log c copy c' copy'

theorem Spec.Kept.take_noRows (c : Kept) {e : BinlogEvent} (h : NoRows e) : c.take e = c := by
  cases e <;> first | rfl | exact h.elim

theorem Spec.Kept.takeAll_append (c : Kept) (a b : List Ev) : c.takeAll (a ++ b) = (c.takeAll a).takeAll b := by
  unfold Kept.takeAll
  rw [List.foldl_append]

/-- What the server adds to the events of its log does nothing to the copy. -/
theorem serve_taken {log : Log} {p q : Place} {taken real : List Ev} (h : Serve log False p q taken real)
    (hq : ∀ e ∈ taken, e.1.nextEventPosition = 0 → NoRows e.2) (c : Kept) : c.takeAll taken = c.takeAll real := by
  have add : ∀ {sent real : List Ev} {e : Ev}, (∀ x ∈ sent ++ [e], x.1.nextEventPosition = 0 → NoRows x.2) → NoRows e.2 →
      ((∀ x ∈ sent, x.1.nextEventPosition = 0 → NoRows x.2) → c.takeAll sent = c.takeAll real) → c.takeAll (sent ++ [e]) = c.takeAll real := by
    intro sent real e hq he ih
    rw [Kept.takeAll_append, ih fun x hx => hq x (by simp [hx])]
    exact Kept.take_noRows _ he
  induction h with
  | start => rfl
  | event _ _ ih => rw [Kept.takeAll_append, Kept.takeAll_append, ih fun x hx => hq x (by simp [hx])]
  | artificial _ h0 _ ih => exact add hq (hq _ (by simp) h0) ih
  | heartbeat _ _ _ ih => exact add hq trivial ih
  | announce _ _ ih => exact add hq trivial ih
  | nextFile _ _ ih => exact add hq trivial ih

/-- Table maps give names, and nothing else. -/
theorem maps_taken {maps : List Ev} (h : ∀ e ∈ maps, IsTableMap e.2) :
    ∃ names : Nat → Option TableName, ∀ c : Kept, c.takeAll maps = { c with names := fun id => (names id).or (c.names id) } := by
  induction maps with
  | nil => exact ⟨fun _ => none, fun c => rfl⟩
  | cons e maps ih =>
    obtain ⟨names, ih⟩ := ih fun e he => h e (by simp [he])
    obtain ⟨h, e⟩ := e
    cases e with
    | tableMap t =>
      refine ⟨fun id => (names id).or (if id = t.tableId then some (t.databaseName, t.tableName) else none), fun c => ?_⟩
      show ((c.take (.tableMap t)).takeAll maps) = _
      rw [ih]
      simp only [Kept.take]
      congr
      funext id
      by_cases hid : id = t.tableId
      · simp [hid]
      · simp [hid]
    | _ => exact (h _ List.mem_cons_self).elim

theorem maps_again {maps : List Ev} (h : ∀ e ∈ maps, IsTableMap e.2) (c : Kept) : (c.takeAll maps).takeAll maps = c.takeAll maps := by
  obtain ⟨names, hn⟩ := maps_taken h
  rw [hn, hn]
  congr
  funext id
  cases hx : names id <;> simp [hx]

theorem maps_rows {maps : List Ev} (h : ∀ e ∈ maps, IsTableMap e.2) (c : Kept) : (c.takeAll maps).rows = c.rows := by
  obtain ⟨names, hn⟩ := maps_taken h
  rw [hn]

/-- What the sessions do to the copy: it has the events before those that the log has from the recorded place on. -/
theorem TableSessions.took {m : Mode} {crypto : Crypto} {log : Log} (hl : LogOk log) {c c' : Client} {copy copy' : Kept}
    (hs : c.options.binlog.startingStrategy ≠ .fromGtid) (hk : ¬wantsEnd c.options) (hv : Valid log (c.place log))
    (h : TableSessions m crypto log c copy c' copy') {first : Kept} {all done maps later : List Ev} (hall : all = done ++ (maps ++ later))
    (hm : ∀ e ∈ maps, IsTableMap e.2) (hrem : remaining log (c.place log) = maps ++ later) (hrows : copy.rows = (first.takeAll done).rows)
    (hnames : copy.takeAll maps = first.takeAll (done ++ maps)) :
    ∃ done' later', all = done' ++ later' ∧ remaining log (c'.place log) = later' ∧ copy'.rows = (first.takeAll done').rows := by
  induction h generalizing done maps later with
  | stop => exact ⟨done, maps ++ later, hall, hrem, hrows⟩
  | @failed c c' copy copy' net h ih =>
    have hopt := replicate_keeps_options m crypto c net (not_and_or.1 hk)
    exact ih (by rw [hopt]; exact hs) (by rw [hopt]; exact hk) (by unfold Client.place; rw [hopt]; exact hv) hall hm
      (by unfold Client.place; rw [hopt]; exact hrem) hrows hnames
  | @session c c1 c2 c' copy copy' chan stream taken real hf hr hsess hq hc h ih =>
    obtain ⟨h1, h2, h3, h4, q, tms, front, h5, h6, h7, h8, rfl⟩ := hsess.step hl hs hk hv hf hr hc
    rw [serve_taken h5 hq] at ih
    rw [hrem] at h6
    generalize remaining log q = rest at h6 h7
    rcases List.append_eq_append_iff.1 h6 with ⟨x, e1, e2⟩ | ⟨x, e1, e2⟩
    · -- the session has gone beyond the maps
      subst e2
      have hcopy : copy.takeAll (front ++ tms) = first.takeAll (done ++ (front ++ tms)) := by
        rw [e1, Kept.takeAll_append, hnames, ← Kept.takeAll_append, List.append_assoc]
      refine ih h1 h2 h3 (done := done ++ front) (maps := tms) (later := rest) ?_ h8 h7 ?_ ?_
      · rw [hall, ← List.append_assoc maps, ← e1]
        simp
      · rw [hcopy, ← List.append_assoc, Kept.takeAll_append _ _ tms, maps_rows h8]
      · rw [hcopy, ← List.append_assoc, Kept.takeAll_append _ _ tms, maps_again h8]
    · -- it has ended within the maps
      subst e1
      subst e2
      have hfm : ∀ e ∈ front, IsTableMap e.2 := fun e he => hm e (by simp [he])
      have hxm : ∀ e ∈ x, IsTableMap e.2 := fun e he => hm e (by simp [he])
      refine ih h1 h2 h3 (done := done ++ front) (maps := tms ++ x) (later := later) ?_ ?_ ?_ ?_ ?_
      · rw [hall]
        simp
      · intro e he
        rcases List.mem_append.1 he with he | he
        · exact h8 e he
        · exact hxm e he
      · rw [h7]
        simp
      · rw [Kept.takeAll_append, Kept.takeAll_append, maps_rows h8, maps_rows hfm, maps_rows hfm, hrows]
      · rw [Kept.takeAll_append, Kept.takeAll_append, maps_again h8, ← Kept.takeAll_append, ← Kept.takeAll_append, ← List.append_assoc, hnames]
        simp

theorem changes_split {columns : TableName → List (UInt8 × Nat)} {s s' : Server} {a b : List (EventHeader × Bytes)}
    {images : List (TableName × List Stored)} (h : Changes columns s (a ++ b) images s') :
    ∃ between images1 images2, Changes columns s a images1 between ∧ Changes columns between b images2 s' := by
  induction a generalizing s images with
  | nil => exact ⟨s, [], images, .nil, h⟩
  | cons r a ih =>
    cases h with
    | cons hf hc ht =>
      obtain ⟨between, i1, i2, h1, h2⟩ := ih ht
      exact ⟨between, _, i2, .cons hf hc h1, h2⟩

theorem logOf_split {a b : List Ev} {slices : List Bytes} {st st' : LogState} (h : LogOf st (a ++ b) slices st') :
    ∃ slices1 slices2 st1, slices = slices1 ++ slices2 ∧ LogOf st a slices1 st1 ∧ LogOf st1 b slices2 st' := by
  induction a generalizing st slices with
  | nil => exact ⟨[], slices, st, rfl, .nil, h⟩
  | cons e a ih =>
    cases h with
    | cons hf hw ht =>
      obtain ⟨s1, s2, st1, rfl, h1, h2⟩ := ih ht
      exact ⟨_ :: s1, s2, st1, rfl, .cons hf hw h1, h2⟩

/-- **C123.** Replication by file and position: an application has a copy of the tables as they were at the place the client begins at, and does to it
what each event says when it comes, and commits it. `slices` are the records of the log from there on: they are the written form of its events, and what the
server writes when it changes its tables from `rows` to those of `server'`. After any number of sessions, broken anywhere, and of failed attempts, the
copy shows the tables as they were at the recorded place (`between`), and when the log has nothing from there on, the tables as they are. -/
theorem C123_copy {m : Mode} {crypto : Crypto} {log : Log} (hl : LogOk log) {c c' : Client} {copy copy' : Kept}
    (hs : c.options.binlog.startingStrategy ≠ .fromGtid) (hk : ¬wantsEnd c.options) (hv : Valid log (c.place log))
    (h : TableSessions m crypto log c copy c' copy') {columns : TableName → List (UInt8 × Nat)} (hcol : ∀ t, columns t ≠ [])
    {checksum : ChecksumType} {slices : List Bytes} {st : LogState} (hw : LogOf (.start checksum) (remaining log (c.place log)) slices st)
    {rows : TableName → List (List Stored)} {images : List (TableName × List Stored)} {server' : Server}
    (hc : Changes columns ⟨.start checksum, fun _ => none, rows⟩ (((remaining log (c.place log)).map (·.1)).zip slices) images server')
    (hn : copy.names = fun _ => none) (hcopy : RowsShown columns rows copy.rows) :
    ∃ done slices1 slices2 between images1 images2, remaining log (c.place log) = done ++ remaining log (c'.place log) ∧ slices = slices1 ++ slices2 ∧
      Changes columns ⟨.start checksum, fun _ => none, rows⟩ ((done.map (·.1)).zip slices1) images1 between ∧
      Changes columns between (((remaining log (c'.place log)).map (·.1)).zip slices2) images2 server' ∧ RowsShown columns between.rows copy'.rows ∧
      (remaining log (c'.place log) = [] → RowsShown columns server'.rows copy'.rows) := by
  obtain ⟨done, later, h1, rfl, h3⟩ := h.took hl hs hk hv (first := copy) (done := []) (maps := []) (later := remaining log (c.place log)) rfl (by simp) rfl rfl rfl
  rw [List.nil_append, List.nil_append] at h1
  rw [h1] at hw hc
  obtain ⟨slices1, slices2, st1, rfl, g1, g2⟩ := logOf_split hw
  rw [List.map_append, List.zip_append (headers_length g1)] at hc
  obtain ⟨between, images1, images2, i1, i2⟩ := changes_split hc
  have hshow : RowsShown columns between.rows copy'.rows := by
    rw [h3]
    exact (changes_taken hcol g1 i1 (Knows.start _) (Knows.start _) (fun _ _ h => by cases h) ⟨hn, hcopy⟩).rows
  refine ⟨done, slices1, slices2, between, images1, images2, h1, rfl, i1, i2, hshow, fun hnil => ?_⟩
  rw [hnil] at i2
  cases i2
  exact hshow

/-! ## An example -/

/-- The log: a table map, the insertion of two rows, the end of the transaction. -/
def exMapAt (next : Nat) : Ev := (⟨0, 19, 1, 0, next, 0⟩, .tableMap ⟨7, "db".toList, "t".toList, [3, 1], [0, 0], [false, true], none⟩)

def exRowsAt (next : Nat) : Ev :=
  (⟨0, 30, 1, 0, next, 0⟩, .writeRows ⟨7, 1, 2, [true, true], [⟨[some (.int 258), none]⟩, ⟨[some (.int 1), some (.tinyInt 9)]⟩]⟩)

def exRowLog : Log := [⟨"bin.1".toList, [exMapAt 150, exRowsAt 200, exXidAt 250]⟩]

theorem exRowLog_ok : LogOk exRowLog where
  names := by decide
  named := by simp [exRowLog]
  chain := by
    intro f hf
    simp only [exRowLog, List.mem_cons, List.not_mem_nil, or_false] at hf
    rcases hf with rfl
    simp [Chain, exMapAt, exRowsAt, exXidAt]
  rotate := by
    intro pre f post a e b r h1 h2 h3
    have hf : f ∈ exRowLog := by rw [h1]; simp
    simp only [exRowLog, List.mem_cons, List.not_mem_nil, or_false] at hf
    subst hf
    have he : e ∈ [exMapAt 150, exRowsAt 200, exXidAt 250] := by rw [show [exMapAt 150, exRowsAt 200, exXidAt 250] = _ from h2]; simp
    simp only [List.mem_cons, List.not_mem_nil, or_false] at he
    rcases he with rfl | rfl | rfl <;> simp [exMapAt, exRowsAt, exXidAt] at h3

theorem exRowLog_written : LogOf (.start .crc32) [exMapAt 150, exRowsAt 200, exXidAt 250] exInsertSlices
    ((LogState.start .crc32).announce 7 [(3, 0), (1, 0)]) :=
  .cons (by unfold HeaderFits; decide) (.tableMap (columns := [(3, 0), (1, 0)]) rfl exTableMap_body (exSums _) (.inl ⟨rfl, rfl⟩))
    (.cons (by unfold HeaderFits; decide) (.writeRows (version := 2) (columns := [(3, 0), (1, 0)]) (.inr ⟨rfl, rfl⟩) rfl (.inl (by decide)) sampleRowsBody (exSums _))
    (.cons (by unfold HeaderFits; decide) (.plain (.xid (xid := 7) (extra := []) (by decide)) (exSums _)) .nil))

theorem exRowLog_made : ∃ log names images, Changes exTwoColumns (exHolder (.start .crc32) (fun _ => none) [])
    (([exMapAt 150, exRowsAt 200, exXidAt 250].map (·.1)).zip exInsertSlices) images (exHolder log names [exRowA, exRowB]) := by
  refine ⟨_, _, _, .cons (by unfold HeaderFits; decide) (.announce (t := ⟨7, "db".toList, "t".toList, [3, 1], [0, 0], [false, true], none⟩)
    (.tableMap (columns := [(3, 0), (1, 0)]) rfl exTableMap_body (exSums _) (.inl ⟨rfl, rfl⟩)) ⟨rfl, rfl⟩)
    (.cons (by unfold HeaderFits; decide) (.insert (version := 2) (tableId := 7) (flags := 1) (table := exTableName)
      (rows := [exRowA, exRowB]) (rows' := [exRowA, exRowB]) (body := exInsertRows) (.inr ⟨rfl, rfl⟩) rfl ?_ (exSums _) (.refl _) exHolder_sets)
    (.cons (by unfold HeaderFits; decide) (.other (e := .xid ⟨7⟩) (.plain (.xid (xid := 7) (extra := []) (by decide)) (exSums _)) trivial) .nil))⟩
  exact .mk rfl (.v2 (extra := [1, 2, 3]) (count := [2]) (by decide) (by decide) (by decide) (lenEnc_one (by decide) rfl))
    (bitmapLE_of_check rfl (by decide)) (.cons exRowA_image (.cons exRowB_image .nil))

/-- The hypotheses of C123 are met: the first session ends behind the table map, which comes again in the second session. -/
example (m : Mode) : ∃ c' copy', TableSessions m exCrypto exRowLog exStartUser ⟨fun _ => none, fun _ => []⟩ c' copy' ∧
    exStartUser.options.binlog.startingStrategy ≠ .fromGtid ∧ ¬wantsEnd exStartUser.options ∧ Valid exRowLog (exStartUser.place exRowLog) ∧
    remaining exRowLog (exStartUser.place exRowLog) = [exMapAt 150, exRowsAt 200, exXidAt 250] ∧
    RowsShown exTwoColumns (fun t => if t = exTableName then [] else []) (fun _ => []) ∧ copy'.rows exTableName = [exCellsA, exCellsB] := by
  have s1 := ((Serve.start (log := exRowLog) (calm := False) (p := ⟨"bin.1".toList, 4⟩)).announce (h := ⟨0, 4, 1, 0, 0, 0⟩) (Or.inl rfl)).event
    (e := exMapAt 150) ⟨_, List.mem_cons_self, rfl, [], _, rfl, rfl⟩
  obtain ⟨stream, h1, h2⟩ := C105_session m exCrypto exStartUser { exChannel [] with input := _ } (exPlaceUser_usable 4 (by decide) [] (by decide)) rfl False
    .crc32 _ (exGtidUser_in _) (by decide) (by unfold wantsEnd; decide) exRowLog _ [exRotateAt 0 "bin.1" 4, exMapAt 150] [exMapAt 150] s1 _ _
    (.cons (by unfold HeaderFits; decide) (exRotateAt_written _ _ _ (by decide)) (.cons (by unfold HeaderFits; decide)
      (.tableMap (columns := [(3, 0), (1, 0)]) rfl exTableMap_body (exSums _) (.inl ⟨rfl, rfl⟩)) .nil))
    (by decide +kernel) 1 [] rfl
  obtain ⟨real1, -, h3, -, h4, -⟩ := h2 2
  obtain rfl := h4 (by decide)
  have hc : ∀ m, commitAll m exStartUser.afresh ([exRotateAt 0 "bin.1" 4, exMapAt 150].take 2) = .ok { exStartUser with
      options := { exStartUser.options with binlog := { exStartUser.options.binlog with filename := "bin.1".toList, position := 4 } } } := by
    rintro ⟨_ | _⟩ <;> decide +kernel
  have s2 := ((((Serve.start (log := exRowLog) (calm := False) (p := ⟨"bin.1".toList, 4⟩)).announce (h := ⟨0, 4, 1, 0, 0, 0⟩) (Or.inl rfl)).event
    (e := exMapAt 150) ⟨_, List.mem_cons_self, rfl, [], _, rfl, rfl⟩).event
    (e := exRowsAt 200) ⟨_, List.mem_cons_self, rfl, [exMapAt 150], _, rfl, rfl⟩).event
    (e := exXidAt 250) ⟨_, List.mem_cons_self, rfl, [exMapAt 150, exRowsAt 200], _, rfl, rfl⟩
  have hu := exPlaceUser_usable 4 (by decide) "bin.1".toList (by decide +kernel)
  obtain ⟨stream2, g1, g2⟩ := C105_session m exCrypto { exStartUser with
      options := { exStartUser.options with binlog := { exStartUser.options.binlog with filename := "bin.1".toList, position := 4 } } }
    { exChannel [] with input := _ } hu rfl False .crc32 _ (exGtidUser_in _) (by decide) (by unfold wantsEnd; decide) exRowLog _
    [exRotateAt 0 "bin.1" 4, exMapAt 150, exRowsAt 200, exXidAt 250] [exMapAt 150, exRowsAt 200, exXidAt 250] s2 _ _
    (.cons (by unfold HeaderFits; decide) (exRotateAt_written _ _ _ (by decide)) exRowLog_written) (by decide +kernel) 1 [] rfl
  obtain ⟨real2, c3, g3, -, g4, g5⟩ := g2 4
  obtain rfl := g4 (by decide)
  have hn : ∀ n p, NoRows (exRotateAt n "bin.1" p).2 := fun _ _ => trivial
  refine ⟨c3, _, .session (small_fits (exPlaceUser_usable 4 (by decide) [] (by decide)).requests) h1 h3 ?_ (hc m) (.failed (net := .error .unexpectedEof)
    (.session (small_fits hu.requests) g1 g3 ?_ g5 .stop)), by decide, by unfold wantsEnd; decide, ⟨_, List.mem_cons_self, rfl, [], _, rfl, rfl⟩, ?_,
    exEmpty_shown, ?_⟩
  · simp [exRotateAt, exMapAt, NoRows]
  · simp [exRotateAt, exMapAt, exRowsAt, exXidAt, NoRows]
  · decide +kernel
  · decide +kernel

end MysqlCdc
