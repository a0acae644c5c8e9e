import Verif.Props.CatchUp
import Verif.Props.ImagesSessions
/-!
# C124 and C126: one whole session brings a copy of the tables up to date, from partial images and from a MariaDB
-/

namespace MysqlCdc

open Spec

open Classical in
/-- C124 with C125, where C124 holds: as `C125_tables`, with images that show some columns. Missing: as in `C124_copy_partial`. -/
theorem C124_catches_up_partial {m : Mode} {c c' : Client} {copy copy' : Kept} {log log' : List (Tx Gtid)}
    {cells : TableName → List (Option MySqlValue)} (h : CopySessions m (Kept.transactionPart cells) c copy log c' copy' log') (set : GtidSet)
    (hs : c.options.binlog.startingStrategy = .fromGtid) (hset : c.options.binlog.gtidSet = some set) (hw : Wf set) (ho : AllOrdered set)
    (hg : ∀ t ∈ log', GtidOk t.1) (hd : (log'.map fun t => gtidKey t.1).Nodup)
    {columns : TableName → List (UInt8 × Nat)} {key : TableName → List Bool} (hkey : ∀ t, KeySeen (columns t) (key t))
    {defaults : TableName → List Stored} (hdef : ∀ t, RowShown (columns t) (defaults t) (cells t))
    (old new : List (Tx Gtid)) (hold : old <+: log) (hnew : log' = old ++ new)
    (hhas : ∀ t ∈ log', Has set t.1.sourceId.data t.1.transactionId ↔ t ∈ old)
    {rows rows' : TableName → List (List Stored)} (hist : PartHistory columns key defaults rows new rows') (hcopy : RowsShown columns rows copy.rows)
    (crypto : Crypto) (chan : Channel) (hu : Usable crypto c'.options) (hwr : chan.writes = []) (checksum : ChecksumType) (bytes : Bytes)
    (hin : LetsIn crypto c'.options False none checksum bytes) (set' : GtidSet) (hset' : c'.options.binlog.gtidSet = some set')
    (parts : List (Part Gtid)) (hp : ∀ p ∈ parts, p.Ok MysqlTx)
    (hlog : parts.flatMap Part.txs = log'.filter fun t => ¬Has set' t.1.sourceId.data t.1.transactionId)
    (slices : List Bytes) (st : LogState) (hbytes : LogOf (.start checksum) (flat parts) slices st)
    (hsize : ∀ x ∈ slices, x.length < 2 ^ 24 - 20) (n : Nat) (rest : Bytes)
    (hi : chan.input = bytes ++ frames (eventPackets n (flat parts) slices) ++ rest) :
    ∃ stream c'' set'', c'.replicate m crypto (.ok chan) = (.ok stream, c'.afresh) ∧
      (∃ stream', stream.Yields m ((flat parts).map .ok) stream') ∧ commitAll m c'.afresh (flat parts) = .ok c'' ∧
      RowsShown columns rows' ((whole (flat parts)).foldl (Kept.transactionPart cells) copy').rows ∧ c''.options.binlog.gtidSet = some set'' ∧
      ∀ t ∈ log', Has set'' t.1.sourceId.data t.1.transactionId := by
  obtain ⟨stream, c'', set'', g1, g2, g3, g4, -, g5, g6⟩ := C125_catches_up h set hs hset hw ho hg hd old new hold hnew hhas crypto chan hu hwr checksum bytes
    hin set' hset' parts hp hlog slices st hbytes hsize n rest hi
  refine ⟨stream, c'', set'', g1, g2, g3, ?_, g5, g6⟩
  rw [g4]
  exact hist.shown hkey hdef hcopy

/-- C124 over broken sessions with a MariaDB: as `C122_copy_partial`, with images that show some columns. Missing: as in `C122_copy_partial` and
`C124_copy_partial`. -/
theorem C124_maria_partial {m : Mode} {c c' : Client} {copy copy' : Kept} {log log' : List (Tx MGtid)}
    {cells : TableName → List (Option MySqlValue)} (h : CopySessionsMaria m QuietFlaggedTx (Kept.transactionPart cells) c copy log c' copy' log')
    (list : GtidList) (hs : c.options.binlog.startingStrategy = .fromGtid) (hlist : c.options.binlog.gtidList = some list)
    (hnone : c.options.binlog.gtidSet = none) (hone : (list.gtids.map (·.domainId)).Nodup)
    (hin : ∀ g ∈ list.gtids, g ∈ log'.map (·.1) → g ∈ log.map (·.1)) (hd : (log'.map (·.1)).Nodup)
    {columns : TableName → List (UInt8 × Nat)} {key : TableName → List Bool} (hkey : ∀ t, KeySeen (columns t) (key t))
    {defaults : TableName → List Stored} (hdef : ∀ t, RowShown (columns t) (defaults t) (cells t))
    (old new : List (Tx MGtid)) (hnew : log' = old ++ new) (hsend : toSend list.gtids (log'.map (·.1)) = new.map (·.1))
    {rows rows' : TableName → List (List Stored)} (hist : PartHistory columns key defaults rows new rows') (hcopy : RowsShown columns rows copy.rows) :
    ∃ done later between list', new = done ++ later ∧ PartHistory columns key defaults rows done between ∧
      PartHistory columns key defaults between later rows' ∧ RowsShown columns between copy'.rows ∧ c'.options.binlog.gtidList = some list' ∧
      toSend list'.gtids (log'.map (·.1)) = later.map (·.1) ∧
      (toSend list'.gtids (log'.map (·.1)) = [] → RowsShown columns rows' copy'.rows) := by
  obtain ⟨done, later, list', rfl, h1, h2, h3⟩ := copySessionsMaria_seen h list hs hlist hnone hone hin hd old new hnew hsend
  obtain ⟨between, g1, g2⟩ := hist.split
  have hshow : RowsShown columns between copy'.rows := by
    rw [h1]
    exact g1.shown hkey hdef hcopy
  refine ⟨done, later, between, list', rfl, g1, g2, hshow, h2, h3, fun hnil => ?_⟩
  rw [h3, List.map_eq_nil_iff] at hnil
  subst hnil
  cases g2
  exact hshow

/-- C126 for a copy of the tables, where it holds: as in C122, and after one whole session the copy shows the tables as they are. Missing: as in
`C126_catches_up_partial`. -/
theorem C126_tables_partial {m : Mode} {c c' : Client} {copy copy' : Kept} {log log' : List (Tx MGtid)}
    (h : CopySessionsMaria m QuietFlaggedTx Kept.transaction c copy log c' copy' log')
    (list : GtidList) (hs : c.options.binlog.startingStrategy = .fromGtid) (hlist : c.options.binlog.gtidList = some list)
    (hnone : c.options.binlog.gtidSet = none) (hone : (list.gtids.map (·.domainId)).Nodup)
    (hin : ∀ g ∈ list.gtids, g ∈ log'.map (·.1) → g ∈ log.map (·.1)) (hd : (log'.map (·.1)).Nodup)
    {columns : TableName → List (UInt8 × Nat)} (hcol : ∀ t, columns t ≠ [])
    (old new : List (Tx MGtid)) (hnew : log' = old ++ new) (hsend : toSend list.gtids (log'.map (·.1)) = new.map (·.1))
    {rows rows' : TableName → List (List Stored)} (hist : History columns rows new rows') (hcopy : RowsShown columns rows copy.rows)
    (crypto : Crypto) (chan : Channel) (hu : Usable crypto c'.options) (hwr : chan.writes = []) (checksum : ChecksumType) (bytes : Bytes)
    (hlets : LetsIn crypto c'.options True none checksum bytes) (list' : GtidList) (hlist' : c'.options.binlog.gtidList = some list')
    (parts : List (Part MGtid)) (hp : ∀ p ∈ parts, p.Ok QuietFlaggedTx)
    (hlog : (parts.flatMap Part.txs).map (·.1) = toSend list'.gtids (log'.map (·.1))) (hmem : ∀ t ∈ parts.flatMap Part.txs, t ∈ log')
    (slices : List Bytes) (st : LogState) (hbytes : LogOf (.start checksum) (flat parts) slices st)
    (hsize : ∀ x ∈ slices, x.length < 2 ^ 24 - 20) (n : Nat) (rest : Bytes)
    (hi : chan.input = bytes ++ frames (eventPackets n (flat parts) slices) ++ rest) :
    ∃ stream c'' list'', c'.replicate m crypto (.ok chan) = (.ok stream, c'.afresh) ∧
      (∃ stream', stream.Yields m ((flat parts).map .ok) stream') ∧ commitAll m c'.afresh (flat parts) = .ok c'' ∧
      RowsShown columns rows' ((whole (flat parts)).foldl Kept.transaction copy').rows ∧
      c''.options.binlog.gtidList = some list'' ∧ toSend list''.gtids (log'.map (·.1)) = [] := by
  obtain ⟨stream, c'', list'', g1, g2, g3, g4, -, g5, g6⟩ := C126_catches_up_partial h list hs hlist hnone hone hin hd old new hnew hsend crypto chan hu hwr
    checksum bytes hlets list' hlist' parts hp hlog hmem slices st hbytes hsize n rest hi
  refine ⟨stream, c'', list'', g1, g2, g3, ?_, g5, g6⟩
  rw [g4]
  exact hist.shown hcol hcopy

/-- C126 for a copy of the tables kept from images that show some columns. Missing: as in `C126_catches_up_partial` and `C124_copy_partial`. -/
theorem C126_images_partial {m : Mode} {c c' : Client} {copy copy' : Kept} {log log' : List (Tx MGtid)}
    {cells : TableName → List (Option MySqlValue)} (h : CopySessionsMaria m QuietFlaggedTx (Kept.transactionPart cells) c copy log c' copy' log')
    (list : GtidList) (hs : c.options.binlog.startingStrategy = .fromGtid) (hlist : c.options.binlog.gtidList = some list)
    (hnone : c.options.binlog.gtidSet = none) (hone : (list.gtids.map (·.domainId)).Nodup)
    (hin : ∀ g ∈ list.gtids, g ∈ log'.map (·.1) → g ∈ log.map (·.1)) (hd : (log'.map (·.1)).Nodup)
    {columns : TableName → List (UInt8 × Nat)} {key : TableName → List Bool} (hkey : ∀ t, KeySeen (columns t) (key t))
    {defaults : TableName → List Stored} (hdef : ∀ t, RowShown (columns t) (defaults t) (cells t))
    (old new : List (Tx MGtid)) (hnew : log' = old ++ new) (hsend : toSend list.gtids (log'.map (·.1)) = new.map (·.1))
    {rows rows' : TableName → List (List Stored)} (hist : PartHistory columns key defaults rows new rows') (hcopy : RowsShown columns rows copy.rows)
    (crypto : Crypto) (chan : Channel) (hu : Usable crypto c'.options) (hwr : chan.writes = []) (checksum : ChecksumType) (bytes : Bytes)
    (hlets : LetsIn crypto c'.options True none checksum bytes) (list' : GtidList) (hlist' : c'.options.binlog.gtidList = some list')
    (parts : List (Part MGtid)) (hp : ∀ p ∈ parts, p.Ok QuietFlaggedTx)
    (hlog : (parts.flatMap Part.txs).map (·.1) = toSend list'.gtids (log'.map (·.1))) (hmem : ∀ t ∈ parts.flatMap Part.txs, t ∈ log')
    (slices : List Bytes) (st : LogState) (hbytes : LogOf (.start checksum) (flat parts) slices st)
    (hsize : ∀ x ∈ slices, x.length < 2 ^ 24 - 20) (n : Nat) (rest : Bytes)
    (hi : chan.input = bytes ++ frames (eventPackets n (flat parts) slices) ++ rest) :
    ∃ stream c'' list'', c'.replicate m crypto (.ok chan) = (.ok stream, c'.afresh) ∧
      (∃ stream', stream.Yields m ((flat parts).map .ok) stream') ∧ commitAll m c'.afresh (flat parts) = .ok c'' ∧
      RowsShown columns rows' ((whole (flat parts)).foldl (Kept.transactionPart cells) copy').rows ∧
      c''.options.binlog.gtidList = some list'' ∧ toSend list''.gtids (log'.map (·.1)) = [] := by
  obtain ⟨stream, c'', list'', g1, g2, g3, g4, -, g5, g6⟩ := C126_catches_up_partial h list hs hlist hnone hone hin hd old new hnew hsend crypto chan hu hwr
    checksum bytes hlets list' hlist' parts hp hlog hmem slices st hbytes hsize n rest hi
  refine ⟨stream, c'', list'', g1, g2, g3, ?_, g5, g6⟩
  rw [g4]
  exact hist.shown hkey hdef hcopy

/-! ## Examples -/

theorem exKey_seen : ∀ t, KeySeen (exTwoColumns t) [true, false] := by
  refine fun t => .inl fun c hc h x hx ht => ?_
  simp only [exTwoColumns, List.zip_cons_cons, List.zip_nil_right, List.mem_cons, List.not_mem_nil, or_false] at hc
  rw [List.mem_singleton] at hx
  subst hx
  rcases hc with rfl | rfl <;> simp at ht

/-- A transaction that inserts two rows, after events that do not speak of rows. -/
theorem exInsert_history_part {γ : Type} (g : γ) {front : List Ev} {slices : List Bytes} (hw : LogOf (.start .crc32) front slices (.start .crc32))
    (hn : ∀ e ∈ front, NoRows e.2) :
    PartHistory exTwoColumns (fun _ => [true, false]) exDefaults (fun t => if t = exTableName then [] else []) [(g, front ++ exInsert)]
      (fun t => if t = exTableName then [exRowA, exRowB] else []) := by
  obtain ⟨st, h1⟩ := exInsert_written
  obtain ⟨log, names, images, h2⟩ := exInsert_made_part
  refine .cons (logOf_append hw h1) (images := images) (s := exHolder log names [exRowA, exRowB]) ?_ .nil
  rw [List.map_append, List.zip_append (headers_length hw)]
  exact exOthers_part hw hn h2

/-- The hypotheses of `C124_catches_up_partial` are met: the first session ended within the second transaction, an attempt failed, the log grew. Those about
the session that follows are as in the example of C125. -/
example (m : Mode) : ∃ copy' rows', CopySessions m (Kept.transactionPart fun _ => [some (.int 0), none]) exGtidUser ⟨fun _ => none, fun _ => []⟩ (exTxs.take 2)
      exHalfwayUser copy' exTxs ∧
    (∀ t, KeySeen (exTwoColumns t) [true, false]) ∧ (∀ t, RowShown (exTwoColumns t) (exDefaults t) [some (.int 0), none]) ∧
    PartHistory exTwoColumns (fun _ => [true, false]) exDefaults (fun t => if t = exTableName then [] else []) (exTxs.drop 1) rows' ∧
    rows' exTableName = [exRowA, exRowB] ∧ RowsShown exTwoColumns (fun t => if t = exTableName then [] else []) (fun _ => []) ∧
    Usable exCrypto exHalfwayUser.options ∧ (∃ bytes, LetsIn exCrypto exHalfwayUser.options False none .crc32 bytes) ∧
    ∃ slices st, LogOf (.start .crc32) (flat (exLogParts.drop 2)) slices st ∧ ∀ x ∈ slices, x.length < 2 ^ 24 - 20 := by
  have w1 : LogOf (.start .crc32) [(exTyped 33, exGtid 5), (exTyped 2, exQuery "BEGIN")] _ (.start .crc32) :=
    .cons (by unfold HeaderFits; decide) (exGtid_written _ 5 (by decide)) (.cons (by unfold HeaderFits; decide) (exQuery_written _ _) .nil)
  have w2 : LogOf (.start .crc32) [(exTyped 33, exGtid 8), (exTyped 2, exQuery "CREATE")] _ (.start .crc32) :=
    .cons (by unfold HeaderFits; decide) (exGtid_written _ 8 (by decide)) (.cons (by unfold HeaderFits; decide) (exQuery_written _ _) .nil)
  obtain ⟨st, h1⟩ := exInsert_written
  obtain ⟨log, names, images, h2⟩ := exInsert_made_part
  refine ⟨_, _, exTxs_broken m _ _, exKey_seen, fun _ => exDefaults_shown, .cons (logOf_append w1 h1) (images := images)
    (s := exHolder log names [exRowA, exRowB]) ?_ (.cons w2 (images := [])
      (s := ⟨.start .crc32, fun _ => none, fun t => if t = exTableName then [exRowA, exRowB] else []⟩) ?_ .nil), rfl, exEmpty_shown, exHalfwayUser_usable,
    ⟨_, exGtidUser_in _⟩, exHalfway_rest⟩
  · have := exOthers_part w1 (by simp [NoRows, exGtid, exQuery]) h2
    exact this
  · have := exOthers_part (columns := exTwoColumns) (key := fun _ => [true, false]) (defaults := exDefaults) (names := fun _ => none)
      (rows := fun t => if t = exTableName then [exRowA, exRowB] else []) w2 (by simp [NoRows, exGtid, exQuery]) .nil
    rwa [List.append_nil] at this

/-- The hypotheses of `C124_maria_partial`, `C126_tables_partial` and `C126_images_partial` are met: an attempt has failed, the server has a transaction to send, which inserts two
rows. -/
example (m : Mode) (apply : Kept → List Ev → Kept) : ∃ c' log, log = exMariaTxs.take 2 ++ (exInsertTx []).txs ∧
    CopySessionsMaria m QuietFlaggedTx apply exListUser ⟨fun _ => none, fun _ => []⟩ log c'
      ⟨fun _ => none, fun _ => []⟩ log ∧
    exListUser.options.binlog.startingStrategy = .fromGtid ∧ exListUser.options.binlog.gtidList = some exList ∧
    exListUser.options.binlog.gtidSet = none ∧ (exList.gtids.map (·.domainId)).Nodup ∧ (log.map (·.1)).Nodup ∧
    toSend exList.gtids (log.map (·.1)) = (exInsertTx []).txs.map (·.1) ∧
    PartHistory exTwoColumns (fun _ => [true, false]) exDefaults (fun t => if t = exTableName then [] else []) (exInsertTx []).txs
      (fun t => if t = exTableName then [exRowA, exRowB] else []) ∧
    History exTwoColumns (fun t => if t = exTableName then [] else []) (exInsertTx []).txs
      (fun t => if t = exTableName then [] ++ [exRowA, exRowB] else []) ∧
    Usable exCrypto c'.options ∧ (∃ bytes, LetsIn exCrypto c'.options True none .crc32 bytes) ∧ c'.options.binlog.gtidList = some exList ∧
    (exInsertTx []).Ok QuietFlaggedTx ∧ (∀ t ∈ (exInsertTx []).txs, t ∈ log) ∧
    ∃ slices st, LogOf (.start .crc32) (flat [exInsertTx []]) slices st ∧ ∀ x ∈ slices, x.length < 2 ^ 24 - 20 := by
  have hopt := replicate_keeps_options m exCrypto exListUser (.error .unexpectedEof) (.inl (by decide))
  have w1 : LogOf (.start .crc32) [(exTyped 162, .mariaDbGtid ⟨⟨0, 1, 271⟩, 0⟩)] _ (.start .crc32) :=
    .cons (by unfold HeaderFits; decide) (exMariaTx_written _ rfl 0 271 (by decide) (by decide)).1 .nil
  have hist := exInsert_history_part (⟨0, 1, 271⟩ : MGtid) w1 (by simp [NoRows])
  have hist' := exInsert_history (⟨0, 1, 271⟩ : MGtid) w1 (by simp [NoRows]) []
  obtain ⟨st, h1⟩ := exInsert_written
  refine ⟨_, _, rfl, .failed (crypto := exCrypto) (net := .error .unexpectedEof) .stop, rfl, rfl, rfl, by decide, by decide, by decide, hist, hist',
    by rw [hopt]; exact exListUser_usable, by rw [hopt]; exact ⟨_, exListUser_in _ rfl⟩, by rw [hopt]; rfl,
    ⟨FlaggedTx.block (x := ⟨⟨0, 1, 271⟩, 0⟩) (body := exInsert.take 2) rfl rfl (by simp [exInsert, Inside, IsGtid, Spec.Ends]) trivial,
      by simp [NoStatementBefore, AutoCommits, Begins, exInsert]⟩, fun t ht => List.mem_append_right _ ht,
    (le 8 271 ++ le 4 0 ++ le 1 0 ++ [] ++ exSum) :: exInsertSlices, st, ?_, ?_⟩
  · have := logOf_append w1 h1
    simpa [flat, exInsertTx, Part.events] using this
  · intro x hx
    rw [List.mem_cons] at hx
    rcases hx with rfl | hx
    · simp [le_length, exSum]
    · revert x
      decide +kernel

end MysqlCdc
