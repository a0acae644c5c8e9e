import Verif.Props.KeyedSome
import Verif.Props.LaggingFile
/-!
# C144 by file and position: a copy of some of the tables
-/

namespace MysqlCdc

open Spec

variable {κ : Type} [DecidableEq κ]

/-- The changes of the tables that are wanted. -/
def wantedOf (want : TableName → Bool) (cs : List (TableName × RowChange)) : List (TableName × RowChange) := cs.filter fun c => want c.1

theorem foldl_wanted (want : TableName → Bool) (key : TableName → Cells → κ) (data : Keyed κ) (css : List (List (TableName × RowChange))) :
    css.foldl (fun d cs => (wantedOf want cs).foldl (onKeys key) d) data = (wantedOf want css.flatten).foldl (onKeys key) data := by
  induction css generalizing data with
  | nil => rfl
  | cons cs css ih =>
    rw [List.foldl_cons, ih, List.flatten_cons, wantedOf, wantedOf, wantedOf, List.filter_append, List.foldl_append]

/-- As `LaggingKeyed`, with a copy of the tables that are wanted. -/
inductive LaggingSome (m : Mode) (crypto : Crypto) (log : Log) (want : TableName → Bool) (key : TableName → Cells → κ) : Client → Keyed κ → Client → Keyed κ → Prop where
  | stop {c : Client} {data : Keyed κ} : LaggingSome m crypto log want key c data c data
  | failed {c c' : Client} {data data' : Keyed κ} {net : Except IoKind Channel}
      (h : LaggingSome m crypto log want key (c.replicate m crypto net).2 data c' data') : LaggingSome m crypto log want key c data c' data'
  | again {c c1 c' : Client} {data data' : Keyed κ} {o : ReplicaOptions}
      (hbinlog : o.binlog = .fromPosition c.options.binlog.filename c.options.binlog.position) (hnew : Client.new o = .ok c1)
      (h : LaggingSome m crypto log want key c1 data c' data') : LaggingSome m crypto log want key c data c' data'
  | session {c c1 c2 c' : Client} {data data' : Keyed κ} {real : List Ev} {chan : Channel} {stream : BinlogEvents} {taken committed : List Ev}
      (hf : FitsRequests c.options) (hr : c.replicate m crypto (.ok chan) = (.ok stream, c1)) (hs : FileSession m log stream taken real)
      (hq : ∀ e ∈ taken, e.1.nextEventPosition = 0 → NoRows e.2) (hpre : committed <+: taken) (hc : commitAll m c1 committed = .ok c2)
      (h : LaggingSome m crypto log want key c2 (keyedSome want key data taken) c' data') : LaggingSome m crypto log want key c data c' data'

/-- What the events of one session do to the copy. -/
theorem keyedSome_session (want : TableName → Bool) (key : TableName → Cells → κ) {log : Log} {p q : Place} {taken real : List Ev} (h : Serve log False p q taken real)
    (hq : ∀ e ∈ taken, e.1.nextEventPosition = 0 → NoRows e.2) (ha : Announced taken) (names : Nat → Option TableName) (data : Keyed κ) :
    keyedSome want key data taken = (changesEach names real).foldl (fun d cs => (wantedOf want cs).foldl (onKeys key) d) data := by
  obtain ⟨h1, h2, -⟩ := serve_changes h hq ha
  rw [foldl_wanted, h2.names names (fun _ => none), changesEach_flatten, ← (h1 _).1]
  rfl

/-- What the sessions do. -/
theorem LaggingSome.runs {m : Mode} {crypto : Crypto} {log : Log} (hl : LogOk log) {want : TableName → Bool} {key : TableName → Cells → κ} {c c' : Client} {data data' : Keyed κ}
    (hs : c.options.binlog.startingStrategy ≠ .fromGtid) (hk : ¬wantsEnd c.options) (hv : Valid log (c.place log))
    (h : LaggingSome m crypto log want key c data c' data') {names : Nat → Option TableName} :
    (c'.options.binlog.startingStrategy ≠ .fromGtid ∧ ¬wantsEnd c'.options ∧ Valid log (c'.place log)) ∧
    ∃ done runs, remaining log (c.place log) = done ++ remaining log (c'.place log) ∧
      Redelivered (changesEach names (remaining log (c.place log))) runs (changesEach (namesAfter names done) (remaining log (c'.place log))) ∧
      data' = runs.flatten.foldl (fun d cs => (wantedOf want cs).foldl (onKeys key) d) data := by
  induction h generalizing names with
  | stop => exact ⟨⟨hs, hk, hv⟩, [], [], rfl, .stop, rfl⟩
  | @failed c c' data data' net h ih =>
    have hopt := replicate_keeps_options m crypto c net (not_and_or.1 hk)
    have hpl : (c.replicate m crypto net).2.place log = c.place log := by unfold Client.place; rw [hopt]
    have := ih (by rw [hopt]; exact hs) (by rw [hopt]; exact hk) (by rw [hpl]; exact hv) (names := names)
    rw [hpl] at this
    exact this
  | @again c c1 c' data data' o hbinlog hnew h ih =>
    obtain ⟨e1, e2, e3⟩ := restarted_at log hbinlog hnew
    have := ih e1 e2 (by rw [e3]; exact hv) (names := names)
    rw [e3] at this
    exact this
  | @session c c1 c2 c' data data' real chan stream taken committed hf hr hsess hq hpre hc h ih =>
    obtain ⟨h1, h2, h3, front, more, rest, hreal, h4, h5⟩ := lagging_step hl hs hk hv hf hr hsess hpre hc
    obtain ⟨⟨q, hserve⟩, sent, slices, st, hsent, hbytes⟩ := hsess.serve hs hk hf hr
    have ha : Announced taken := by
      refine Announced.prefix (es := sent) (fun a e b id he hrow => ?_) hsent
      rcases logOf_announced hbytes a e b id he hrow with h' | h'
      · cases h'
      · exact h'
    obtain ⟨k1, done, runs, k2, k3, k4⟩ := ih h1 h2 h3 (names := namesAfter names front)
    refine ⟨k1, front ++ done, changesEach names real :: runs, ?_, ?_, ?_⟩
    · rw [h4, List.append_assoc, ← h5, k2, List.append_assoc]
    · rw [namesAfter_append]
      rw [h5, changesEach_append] at k3
      rw [h4, hreal, List.append_assoc, changesEach_append, changesEach_append, changesEach_append, ← List.append_assoc]
      exact .run k3
    · rw [k4, keyedSome_session want key hserve hq ha names, List.flatten_cons, List.foldl_append]

/-- The copy that has the events once. -/
theorem keyedSome_once {want : TableName → Bool} {key : TableName → Cells → κ} {columns : TableName → List (UInt8 × Nat)} (hcol : ∀ t, columns t ≠ []) {es rest : List Ev}
    {checksum : ChecksumType} {slices : List Bytes} {st : LogState} (hw : LogOf (.start checksum) (es ++ rest) slices st)
    {rows : TableName → List (List Stored)} {images : List (TableName × List Stored)} {server' : Server}
    (hc : Changes columns ⟨.start checksum, fun _ => none, rows⟩ (((es ++ rest).map (·.1)).zip slices) images server')
    {data : Keyed κ} {shown : TableName → List Cells} (hshown : RowsShown columns rows shown) (hi : Indexes key data (onlyTables want shown))
    (hkeys : KeysHold key (onlyTables want shown) (wantedOf want (changesOf (fun _ => none) (es ++ rest)))) :
    ∃ slices1 slices2 between images1 images2 shown', slices = slices1 ++ slices2 ∧
      Changes columns ⟨.start checksum, fun _ => none, rows⟩ ((es.map (·.1)).zip slices1) images1 between ∧
      Changes columns between ((rest.map (·.1)).zip slices2) images2 server' ∧
      RowsShown columns between.rows shown' ∧ Indexes key ((changesEach (fun _ => none) es).foldl (fun d cs => (wantedOf want cs).foldl (onKeys key) d) data) (onlyTables want shown') := by
  obtain ⟨slices1, slices2, st1, rfl, g1, g2⟩ := logOf_split hw
  rw [List.map_append, List.zip_append (headers_length g1)] at hc
  obtain ⟨between, images1, images2, i1, i2⟩ := changes_split hc
  have hshow := (changes_taken hcol g1 i1 (Knows.start _) (Knows.start _) (fun _ _ h => by cases h) (c := ⟨fun _ => none, shown⟩) ⟨rfl, hshown⟩).rows
  refine ⟨slices1, slices2, between, images1, images2, _, rfl, i1, i2, hshow, ?_⟩
  rw [takeAll_changes, foldl_wanted, changesEach_flatten, wantedOf, ← onlyTables_changes]
  rw [wantedOf, changesOf_append, List.filter_append] at hkeys
  exact hi.changes (keysHold_prefix hkeys)

/-- **C144.** Replication by file and position: a copy of some of the tables by keys, kept as in C139 by an application that may stop anywhere. Under each key of
a wanted table the copy has what the server's table had under that key at the recorded place, or at some place behind it; when the log has nothing from the
recorded place on, it has exactly the rows of the wanted tables, each under its key. The other tables need not have keys. -/
theorem C144_file_keyed {m : Mode} {crypto : Crypto} {log : Log} (hl : LogOk log) {want : TableName → Bool} {key : TableName → Cells → κ} {c c' : Client} {data data' : Keyed κ}
    (hs : c.options.binlog.startingStrategy ≠ .fromGtid) (hk : ¬wantsEnd c.options) (hv : Valid log (c.place log))
    (h : LaggingSome m crypto log want key c data c' data') {columns : TableName → List (UInt8 × Nat)} (hcol : ∀ t, columns t ≠ [])
    {checksum : ChecksumType} {slices : List Bytes} {st : LogState} (hw : LogOf (.start checksum) (remaining log (c.place log)) slices st)
    {rows : TableName → List (List Stored)} {images : List (TableName × List Stored)} {server' : Server}
    (hc : Changes columns ⟨.start checksum, fun _ => none, rows⟩ (((remaining log (c.place log)).map (·.1)).zip slices) images server')
    {shown : TableName → List Cells} (hshown : RowsShown columns rows shown) (hi : Indexes key data (onlyTables want shown))
    (hkeys : KeysHold key (onlyTables want shown) (wantedOf want (changesOf (fun _ => none) (remaining log (c.place log))))) :
    ∃ done, remaining log (c.place log) = done ++ remaining log (c'.place log) ∧
      (∀ t, want t → ∀ k, ∃ first slices1 between images1 shown', first <+: remaining log (c'.place log) ∧ slices1 <+: slices ∧
        Changes columns ⟨.start checksum, fun _ => none, rows⟩ (((done ++ first).map (·.1)).zip slices1) images1 between ∧
        RowsShown columns between.rows shown' ∧ ∀ r, data' (t, k) = some r ↔ r ∈ shown' t ∧ key t r = k) ∧
      (remaining log (c'.place log) = [] → ∃ shown', RowsShown columns server'.rows shown' ∧ Indexes key data' (onlyTables want shown')) := by
  obtain ⟨-, done, runs, h1, h2, h3⟩ := h.runs hl hs hk hv (names := fun _ => none)
  obtain ⟨d, h4, h5⟩ := h2.foldl_places (f := fun d cs => (wantedOf want cs).foldl (onKeys key) d) (fun cs _ place => onKeys_overwrites key (wantedOf want cs) place) data data
    fun k => ⟨[], List.nil_prefix, rfl⟩
  have hd : d = changesEach (fun _ => none) done := by
    rw [h1, changesEach_append] at h4
    exact (List.append_cancel_right h4).symm
  subst hd
  -- what the copy has is what it has after some events
  have place : ∀ k, ∃ first, first <+: remaining log (c'.place log) ∧
      data' k = (changesEach (fun _ => none) (done ++ first)).foldl (fun d cs => (wantedOf want cs).foldl (onKeys key) d) data k := by
    intro k
    obtain ⟨first, h6, h7⟩ := h5 k
    obtain ⟨es, h8, h9⟩ := changesEach_prefix h6
    exact ⟨es, h8, by rw [h3, h7, changesEach_append, h9]⟩
  refine ⟨done, h1, fun t ht k => ?_, fun hnil => ?_⟩
  · obtain ⟨first, h6, h7⟩ := place (t, k)
    obtain ⟨rest, hrest⟩ := id h6
    have hall : remaining log (c.place log) = (done ++ first) ++ rest := by rw [h1, ← hrest, List.append_assoc]
    rw [hall] at hw hc hkeys
    obtain ⟨slices1, slices2, between, images1, images2, shown', rfl, g1, -, g3, g4⟩ := keyedSome_once hcol hw hc hshown hi hkeys
    exact ⟨first, slices1, between, images1, shown', h6, List.prefix_append _ _, g1, g3, fun r => by rw [h7]; simpa only [onlyTables, ht, if_true] using g4.2 t k r⟩
  · have hdata : data' = (changesEach (fun _ => none) done).foldl (fun d cs => (wantedOf want cs).foldl (onKeys key) d) data := by
      funext k
      obtain ⟨first, h6, h7⟩ := place k
      rw [hnil, List.prefix_nil] at h6
      rw [h7, h6, List.append_nil]
    rw [hnil, List.append_nil] at h1
    rw [← List.append_nil (remaining log (c.place log))] at hw hc hkeys
    obtain ⟨slices1, slices2, between, images1, images2, shown', rfl, -, g2, g3, g4⟩ := keyedSome_once hcol hw hc hshown hi hkeys
    cases g2
    rw [h1] at g4
    exact ⟨shown', g3, hdata ▸ g4⟩

/-- **C144.** After whatever of that, when a conforming server lets the client in and sends the log from the recorded place on to its end, the copy has exactly the
rows of the wanted tables. -/
theorem C144_file_catches_up {m : Mode} {crypto : Crypto} {log : Log} (hl : LogOk log) {want : TableName → Bool} {key : TableName → Cells → κ} {c c' : Client} {data data' : Keyed κ}
    (hs : c.options.binlog.startingStrategy ≠ .fromGtid) (hk : ¬wantsEnd c.options) (hv : Valid log (c.place log))
    (h : LaggingSome m crypto log want key c data c' data') {columns : TableName → List (UInt8 × Nat)} (hcol : ∀ t, columns t ≠ [])
    {checksum : ChecksumType} {slices : List Bytes} {st : LogState} (hw : LogOf (.start checksum) (remaining log (c.place log)) slices st)
    {rows : TableName → List (List Stored)} {images : List (TableName × List Stored)} {server' : Server}
    (hc : Changes columns ⟨.start checksum, fun _ => none, rows⟩ (((remaining log (c.place log)).map (·.1)).zip slices) images server')
    {shown : TableName → List Cells} (hshown : RowsShown columns rows shown) (hi : Indexes key data (onlyTables want shown))
    (hkeys : KeysHold key (onlyTables want shown) (wantedOf want (changesOf (fun _ => none) (remaining log (c.place log)))))
    (chan : Channel) (hu : Usable crypto c'.options) (hwr : chan.writes = []) (mariaDb : Prop) (checksum' : ChecksumType) (bytes : Bytes)
    (hin : LetsIn crypto c'.options mariaDb none checksum' bytes) (q : Place) (sent : List Ev)
    (hserve : Serve log False (c'.place log) q sent (remaining log (c'.place log)))
    (hq : ∀ e ∈ sent, e.1.nextEventPosition = 0 → NoRows e.2)
    (slices' : List Bytes) (st' : LogState) (hbytes : LogOf (.start checksum') sent slices' st') (hsize : ∀ x ∈ slices', x.length < 2 ^ 24 - 20)
    (n : Nat) (rest : Bytes) (hinput : chan.input = bytes ++ frames (eventPackets n sent slices') ++ rest) :
    ∃ stream shown', c'.replicate m crypto (.ok chan) = (.ok stream, c'.afresh) ∧ (∃ stream', stream.Yields m (sent.map .ok) stream') ∧
      (∀ k, ∃ c'', commitAll m c'.afresh (sent.take k) = .ok c'') ∧
      RowsShown columns server'.rows shown' ∧ Indexes key (keyedSome want key data' sent) (onlyTables want shown') := by
  obtain ⟨⟨hs', hk', hv'⟩, done, runs, h1, h2, h3⟩ := h.runs hl hs hk hv (names := fun _ => none)
  obtain ⟨stream, g1, g2⟩ := C105_session m crypto c' chan hu hwr mariaDb checksum' bytes hin hs' hk' log q sent _ hserve slices' st' hbytes hsize n rest hinput
  have ha : Announced sent := by
    intro a e b id he hrow
    rcases logOf_announced hbytes a e b id he hrow with h' | h'
    · cases h'
    · exact h'
  have hdata : keyedSome want key data' sent =
      (changesEach (fun _ => none) (remaining log (c.place log))).foldl (fun d cs => (wantedOf want cs).foldl (onKeys key) d) data := by
    rw [keyedSome_session want key hserve hq ha (namesAfter (fun _ => none) done), h3, ← List.foldl_append]
    have h4 := h2.snoc (recorded := changesEach (namesAfter (fun _ => none) done) (remaining log (c'.place log))) (more := []) (rest := []) (by simp)
    obtain ⟨d, h5, h6⟩ := h4.foldl_places (f := fun d cs => (wantedOf want cs).foldl (onKeys key) d) (fun cs _ place => onKeys_overwrites key (wantedOf want cs) place) data data
      fun k => ⟨[], List.nil_prefix, rfl⟩
    rw [List.append_nil, List.append_nil] at h5
    funext k
    obtain ⟨first, h7, h8⟩ := h6 k
    obtain rfl : first = [] := by simpa using h7
    rw [List.flatten_append, List.flatten_cons, List.flatten_nil, List.append_nil, List.append_nil] at h8
    rw [h8, h5, List.append_nil]
  rw [← List.append_nil (remaining log (c.place log))] at hw hc hkeys
  obtain ⟨slices1, slices2, between, images1, images2, shown', rfl, -, k2, k3, k4⟩ := keyedSome_once hcol hw hc hshown hi hkeys
  cases k2
  refine ⟨stream, shown', g1, ?_, fun k => ?_, k3, hdata ▸ k4⟩
  · obtain ⟨_, _, g3, -⟩ := g2 sent.length
    rw [List.take_of_length_le (Nat.le_refl _)] at g3
    obtain ⟨_, _, _, _, _, _, hy, _⟩ := g3
    exact ⟨_, hy⟩
  · obtain ⟨_, c'', -, -, -, g3⟩ := g2 k
    exact ⟨c'', g3⟩

/-- The hypotheses of C144 are met by file and position: in the first session the application takes the whole log, but commits only what comes before the rows; they are inserted again
in the second session, with the client of a program that has been started again. -/
example (m : Mode) : ∃ c'' data', LaggingSome m exCrypto exRowLog (fun t => t = exTableName) (fun _ r => r.head?) exStartUser (fun _ => none) c'' data' ∧
    LogOk exRowLog ∧ exStartUser.options.binlog.startingStrategy ≠ .fromGtid ∧ ¬wantsEnd exStartUser.options ∧
    Valid exRowLog (exStartUser.place exRowLog) ∧ (∀ t, exTwoColumns t ≠ []) ∧
    remaining exRowLog (exStartUser.place exRowLog) = [exMapAt 150, exRowsAt 200, exXidAt 250] ∧
    RowsShown exTwoColumns (fun t => if t = exTableName then [] else []) (fun _ => []) ∧
    Indexes (fun _ r => r.head?) (fun _ => none) (onlyTables (fun t => t = exTableName) fun _ => []) ∧
    KeysHold (fun _ r => r.head?) (onlyTables (fun t => t = exTableName) fun _ => [])
      (wantedOf (fun t => t = exTableName) (changesOf (fun _ => none) [exMapAt 150, exRowsAt 200, exXidAt 250])) ∧
    data' (exTableName, some (some (.int 258))) = some [some (.int 258), none] := by
  have hc : ∀ m, commitAll m exStartUser.afresh (exRowsSent.take 2) = .ok exMapUser := by
    rintro ⟨_ | _⟩ <;> decide +kernel
  have hu0 : Usable exCrypto exStartUser.options := exPlaceUser_usable 4 (by decide) [] (by decide)
  obtain ⟨chan1, stream1, c1, h1, h2, -⟩ := exRows_session m exStartUser
    hu0 (by decide +kernel) (by decide) (by unfold wantsEnd; decide) _ (exGtidUser_in _)
  let again : Client := ⟨{ exMapUser.options with binlog := .fromPosition exMapUser.options.binlog.filename exMapUser.options.binlog.position }, false, none, none⟩
  have hu3 : Usable exCrypto again.options :=
    ⟨exSmall _, ⟨by decide, by decide, by decide +kernel, (fun g h => by cases h), (fun g h => by cases h), by decide⟩, rfl⟩
  obtain ⟨chan3, stream3, c3, k1, k2, k3⟩ := exRows_session m again hu3 (by decide +kernel) (by decide) (by unfold wantsEnd; decide) _ (exGtidUser_in _)
  have hq : ∀ e ∈ exRowsSent, e.1.nextEventPosition = 0 → NoRows e.2 := by simp [exRowsSent, exRotateAt, exMapAt, exRowsAt, exXidAt, NoRows]
  have hch : changesOf (fun _ => none) exRowsSent =
      [(exTableName, .insert [some (.int 258), none]), (exTableName, .insert [some (.int 1), some (.tinyInt 9)])] := by
    with_unfolding_all rfl
  refine ⟨c3, _, .session (small_fits hu0.requests) h1 h2 hq (List.take_prefix 2 _) (hc m) (.again (c1 := again) (o := again.options) rfl rfl
      (.session (small_fits hu3.requests) k1 k2 hq List.prefix_rfl k3 .stop)),
    exRowLog_ok, by decide, by unfold wantsEnd; decide, ⟨_, List.mem_cons_self, rfl, [], _, rfl, rfl⟩, fun _ => by simp [exTwoColumns], by decide +kernel,
    exEmpty_shown, ⟨by simp [onlyTables], by simp [onlyTables]⟩, ?_, ?_⟩
  · rw [show changesOf (fun _ => none) [exMapAt 150, exRowsAt 200, exXidAt 250] = changesOf (fun _ => none) exRowsSent from rfl, hch]
    simp [wantedOf, KeysHold, onBags, RowChange.onBag, onlyTables]
  · rw [keyedSome, keyedSome, hch]
    simp [onKeys, Keyed.set]

end MysqlCdc
