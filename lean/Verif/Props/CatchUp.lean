import Verif.Props.TablesSessions
/-!
# C125: after whatever happened, one whole session brings a copy up to date
-/

namespace MysqlCdc

open Spec

theorem CopySessions.strategy {σ : Type} {m : Mode} {apply : σ → List Ev → σ} {c c' : Client} {data data' : σ} {log log' : List (Tx Gtid)}
    (h : CopySessions m apply c data log c' data' log') (hs : c.options.binlog.startingStrategy = .fromGtid) :
    c'.options.binlog.startingStrategy = .fromGtid := by
  induction h with
  | stop => exact hs
  | grow more _ ih => exact ih hs
  | @failed c c' data data' log log' crypto net _ ih =>
    exact ih (by rw [replicate_keeps_options m crypto c net (.inl (by rw [hs]; decide))]; exact hs)
  | @session c c1 c2 c' data data' log log' crypto chan stream taken hf hr hsess hc _ ih =>
    have hopt := replicate_keeps_options m crypto c (.ok chan) (.inl (by rw [hs]; decide))
    rw [hr] at hopt
    exact ih ((commitAll_keeps hc).trans (by rw [hopt]; exact hs))

theorem CopySessions.trans {σ : Type} {m : Mode} {apply : σ → List Ev → σ} {c c1 c' : Client} {data data1 data' : σ} {log log1 log' : List (Tx Gtid)}
    (h : CopySessions m apply c data log c1 data1 log1) (h' : CopySessions m apply c1 data1 log1 c' data' log') :
    CopySessions m apply c data log c' data' log' := by
  induction h with
  | stop => exact h'
  | grow more _ ih => exact .grow more (ih h')
  | failed _ ih => exact .failed (ih h')
  | session hf hr hs hc _ ih => exact .session hf hr hs hc (ih h')

open Classical in
/-- **C125.** As in C117, an application keeps a copy of the data of a MySQL server over any number of broken sessions and failed attempts, while the log
grows. When then a conforming server lets the client in and sends all the transactions that the recorded set does not have, and the application takes and
commits all of it, the copy is the server's data (the initial copy and all the transactions it did not have, `new`), and all transactions are recorded. -/
theorem C125_catches_up {σ : Type} {m : Mode} {apply : σ → List Ev → σ} {c c' : Client} {data data' : σ} {log log' : List (Tx Gtid)}
    (h : CopySessions m apply c data log c' data' log') (set : GtidSet) (hs : c.options.binlog.startingStrategy = .fromGtid)
    (hset : c.options.binlog.gtidSet = some set) (hw : Wf set) (ho : AllOrdered set) (hg : ∀ t ∈ log', GtidOk t.1)
    (hd : (log'.map fun t => gtidKey t.1).Nodup) (old new : List (Tx Gtid)) (hold : old <+: log) (hnew : log' = old ++ new)
    (hhas : ∀ t ∈ log', Has set t.1.sourceId.data t.1.transactionId ↔ t ∈ old)
    (crypto : Crypto) (chan : Channel) (hu : Usable crypto c'.options) (hwr : chan.writes = []) (checksum : ChecksumType) (bytes : Bytes)
    (hin : LetsIn crypto c'.options False none checksum bytes) (set' : GtidSet) (hset' : c'.options.binlog.gtidSet = some set')
    (parts : List (Part Gtid)) (hp : ∀ p ∈ parts, p.Ok MysqlTx)
    (hlog : parts.flatMap Part.txs = log'.filter fun t => ¬Has set' t.1.sourceId.data t.1.transactionId)
    (slices : List Bytes) (st : LogState) (hbytes : LogOf (.start checksum) (flat parts) slices st)
    (hsize : ∀ x ∈ slices, x.length < 2 ^ 24 - 20) (n : Nat) (rest : Bytes)
    (hi : chan.input = bytes ++ frames (eventPackets n (flat parts) slices) ++ rest) :
    ∃ stream c'' set'', c'.replicate m crypto (.ok chan) = (.ok stream, c'.afresh) ∧
      (∃ stream', stream.Yields m ((flat parts).map .ok) stream') ∧ commitAll m c'.afresh (flat parts) = .ok c'' ∧
      (whole (flat parts)).foldl apply data' = dataAfter apply data new ∧
      CopySessions m apply c data log c'' (dataAfter apply data new) log' ∧ c''.options.binlog.gtidSet = some set'' ∧
      ∀ t ∈ log', Has set'' t.1.sourceId.data t.1.transactionId := by
  have hs' := h.strategy hs
  obtain ⟨dones, h1, -, -, -⟩ := copySessions_mysql h
  obtain ⟨set1, k1, hw', ho', -, -⟩ := C103_mysql_each_once h1 set hs hset hw ho (by
    intro g hg'
    obtain ⟨t, ht, rfl⟩ := List.mem_map.1 hg'
    exact hg t ht) (by rw [List.map_map]; exact hd)
  obtain rfl : set' = set1 := Option.some.inj (hset'.symm.trans k1)
  obtain ⟨stream, g1, g2, g3⟩ := C117_session (σ := σ) m crypto c' chan hu hwr checksum bytes hin set' hs' hset' hw' ho' log' parts hp hlog hg slices st
    hbytes hsize n rest hi
  obtain ⟨g4, c'', g5⟩ := g2 (flat parts).length
  rw [List.take_of_length_le (Nat.le_refl _)] at g4 g5
  have hgtids : ∀ g ∈ parts.flatMap Part.gtids, GtidOk g := fun g hg' => by
    rw [← parts_fst, hlog] at hg'
    obtain ⟨t, ht, rfl⟩ := List.mem_map.1 hg'
    exact hg t (List.mem_filter.1 ht).1
  obtain ⟨c2, set'', g6, g7, -, -, g8⟩ := C17_exactly_finished m c'.afresh set' ⟨hs', rfl, hset'⟩ hw' ho' parts hp hgtids (flat parts).length
  rw [List.take_of_length_le (Nat.le_refl _), g5] at g6
  obtain rfl := Res.ok.inj g6
  have hall : ∀ t ∈ log', Has set'' t.1.sourceId.data t.1.transactionId := by
    intro t ht
    rw [g8]
    by_cases hb : Has set' t.1.sourceId.data t.1.transactionId
    · exact .inl hb
    · refine .inr ⟨t.1, ?_, rfl, rfl⟩
      rw [finished_all _ _ (Nat.le_refl _), ← parts_fst, hlog]
      exact List.mem_map.2 ⟨t, List.mem_filter.2 ⟨ht, by simpa using hb⟩, rfl⟩
  have hwhole := h.trans (.session (small_fits hu.requests) g1 g4 g5 .stop)
  obtain ⟨done, later, set3, e1, e2, e3, -, e5⟩ := copySessions_seen hwhole set hs hset hw ho hg hd old hold hhas
  obtain rfl : set'' = set3 := Option.some.inj (g7.symm.trans e3)
  have hdone : new = done := by
    have := List.append_cancel_left (hnew.symm.trans e1)
    rw [this, e5 hall, List.append_nil]
  subst hdone
  have hy : ∃ stream', stream.Yields m ((flat parts).map .ok) stream' := by
    obtain ⟨_, _, _, _, _, _, _, _, hy, _⟩ := g4
    exact ⟨_, hy⟩
  rw [e2] at hwhole
  exact ⟨stream, c'', set'', g1, hy, g5, e2, hwhole, g7, hall⟩

open Classical in
/-- **C125.** As in C121, the copy is one of the tables: whatever sessions and failed attempts there were, after one whole session it shows the tables
as they are. -/
theorem C125_tables {m : Mode} {c c' : Client} {copy copy' : Kept} {log log' : List (Tx Gtid)}
    (h : CopySessions m Kept.transaction c copy log c' copy' log') (set : GtidSet) (hs : c.options.binlog.startingStrategy = .fromGtid)
    (hset : c.options.binlog.gtidSet = some set) (hw : Wf set) (ho : AllOrdered set) (hg : ∀ t ∈ log', GtidOk t.1)
    (hd : (log'.map fun t => gtidKey t.1).Nodup) {columns : TableName → List (UInt8 × Nat)} (hcol : ∀ t, columns t ≠ [])
    (old new : List (Tx Gtid)) (hold : old <+: log) (hnew : log' = old ++ new)
    (hhas : ∀ t ∈ log', Has set t.1.sourceId.data t.1.transactionId ↔ t ∈ old)
    {rows rows' : TableName → List (List Stored)} (hist : History columns rows new rows') (hcopy : RowsShown columns rows copy.rows)
    (crypto : Crypto) (chan : Channel) (hu : Usable crypto c'.options) (hwr : chan.writes = []) (checksum : ChecksumType) (bytes : Bytes)
    (hin : LetsIn crypto c'.options False none checksum bytes) (set' : GtidSet) (hset' : c'.options.binlog.gtidSet = some set')
    (parts : List (Part Gtid)) (hp : ∀ p ∈ parts, p.Ok MysqlTx)
    (hlog : parts.flatMap Part.txs = log'.filter fun t => ¬Has set' t.1.sourceId.data t.1.transactionId)
    (slices : List Bytes) (st : LogState) (hbytes : LogOf (.start checksum) (flat parts) slices st)
    (hsize : ∀ x ∈ slices, x.length < 2 ^ 24 - 20) (n : Nat) (rest : Bytes)
    (hi : chan.input = bytes ++ frames (eventPackets n (flat parts) slices) ++ rest) :
    ∃ stream c'' set'', c'.replicate m crypto (.ok chan) = (.ok stream, c'.afresh) ∧
      (∃ stream', stream.Yields m ((flat parts).map .ok) stream') ∧ commitAll m c'.afresh (flat parts) = .ok c'' ∧
      RowsShown columns rows' ((whole (flat parts)).foldl Kept.transaction copy').rows ∧ c''.options.binlog.gtidSet = some set'' ∧
      ∀ t ∈ log', Has set'' t.1.sourceId.data t.1.transactionId := by
  obtain ⟨stream, c'', set'', g1, g2, g3, g4, -, g5, g6⟩ := C125_catches_up h set hs hset hw ho hg hd old new hold hnew hhas crypto chan hu hwr checksum bytes
    hin set' hset' parts hp hlog slices st hbytes hsize n rest hi
  refine ⟨stream, c'', set'', g1, g2, g3, ?_, g5, g6⟩
  rw [g4]
  exact hist.shown hcol hcopy

/-! ## With a MariaDB -/

theorem CopySessionsMaria.stays {σ : Type} {m : Mode} {apply : σ → List Ev → σ} {c c' : Client} {data data' : σ} {log log' : List (Tx MGtid)}
    (h : CopySessionsMaria m QuietFlaggedTx apply c data log c' data' log') (hs : c.options.binlog.startingStrategy = .fromGtid)
    (hnone : c.options.binlog.gtidSet = none) (hlist : ∃ list, c.options.binlog.gtidList = some list ∧ (list.gtids.map (·.domainId)).Nodup) :
    c'.options.binlog.startingStrategy = .fromGtid ∧ c'.options.binlog.gtidSet = none ∧
      ∃ list, c'.options.binlog.gtidList = some list ∧ (list.gtids.map (·.domainId)).Nodup := by
  induction h with
  | stop => exact ⟨hs, hnone, hlist⟩
  | grow more _ ih => exact ih hs hnone hlist
  | @failed c c' data data' log log' crypto net _ ih =>
    have hopt := replicate_keeps_options m crypto c net (.inl (by rw [hs]; decide))
    exact ih (by rw [hopt]; exact hs) (by rw [hopt]; exact hnone) (by rw [hopt]; exact hlist)
  | @session c c1 c2 c' data data' log log' crypto chan stream taken hf hr hsess hc _ ih =>
    obtain ⟨htrace, hrequest, htold, hp, hlog, hin, hsent, hbytes, hsize, hinput, hy, hl⟩ := hsess
    rename_i front request id position file listed parts sent slices st n rest stream'
    have htaken := copy_taken hr hsent hbytes hsize hinput hy hl
    obtain ⟨list, hlist, hone⟩ := hlist
    have hfrom : FromList c1 list := by
      rcases C100_attempt m crypto c (.ok chan) with ⟨place, h'⟩ | ⟨-, h'⟩
      · rw [hr] at h'
        obtain rfl : c1 = _ := h'
        exact ⟨hs, rfl, hlist, hnone⟩
      · rw [hr] at h'; exact absurd rfl (h' stream)
    have hq := quiet_parts (parts := parts) fun p hpm => by
      have := hp p hpm
      cases p with
      | tx g es => exact ⟨this.1.tx, this.2⟩
      | noise e => exact this
    obtain ⟨c2', list2, h1, h2, h3, h4, -⟩ := C18_exactly_finished_partial m c1 list hfrom hone parts hq.1 hq.2 taken.length
    rw [← htaken, hc] at h1
    obtain rfl : c2 = c2' := Res.ok.inj h1
    exact ih ((commitAll_keeps hc).trans hfrom.strategy) h3 ⟨list2, h2, h4⟩

theorem CopySessionsMaria.trans {σ : Type} {m : Mode} {T : MGtid → List Ev → Prop} {apply : σ → List Ev → σ} {c c1 c' : Client} {data data1 data' : σ}
    {log log1 log' : List (Tx MGtid)} (h : CopySessionsMaria m T apply c data log c1 data1 log1)
    (h' : CopySessionsMaria m T apply c1 data1 log1 c' data' log') : CopySessionsMaria m T apply c data log c' data' log' := by
  induction h with
  | stop => exact h'
  | grow more _ ih => exact .grow more (ih h')
  | failed _ ih => exact .failed (ih h')
  | session hf hr hs hc _ ih => exact .session hf hr hs hc (ih h')

/-- C126, where it holds (where C119 does): a copy of the data of a MariaDB is brought up to date by one whole session, and then the server has nothing to
send. Missing: transactions with statements before the last event, see `C126_false`. -/
theorem C126_catches_up_partial {σ : Type} {m : Mode} {apply : σ → List Ev → σ} {c c' : Client} {data data' : σ} {log log' : List (Tx MGtid)}
    (h : CopySessionsMaria m QuietFlaggedTx apply c data log c' data' log') (list : GtidList) (hs : c.options.binlog.startingStrategy = .fromGtid)
    (hlist : c.options.binlog.gtidList = some list) (hnone : c.options.binlog.gtidSet = none)
    (hone : (list.gtids.map (·.domainId)).Nodup) (hin : ∀ g ∈ list.gtids, g ∈ log'.map (·.1) → g ∈ log.map (·.1)) (hd : (log'.map (·.1)).Nodup)
    (old new : List (Tx MGtid)) (hnew : log' = old ++ new) (hsend : toSend list.gtids (log'.map (·.1)) = new.map (·.1))
    (crypto : Crypto) (chan : Channel) (hu : Usable crypto c'.options) (hwr : chan.writes = []) (checksum : ChecksumType) (bytes : Bytes)
    (hlets : LetsIn crypto c'.options True none checksum bytes) (list' : GtidList) (hlist' : c'.options.binlog.gtidList = some list')
    (parts : List (Part MGtid)) (hp : ∀ p ∈ parts, p.Ok QuietFlaggedTx)
    (hlog : (parts.flatMap Part.txs).map (·.1) = toSend list'.gtids (log'.map (·.1))) (hmem : ∀ t ∈ parts.flatMap Part.txs, t ∈ log')
    (slices : List Bytes) (st : LogState) (hbytes : LogOf (.start checksum) (flat parts) slices st)
    (hsize : ∀ x ∈ slices, x.length < 2 ^ 24 - 20) (n : Nat) (rest : Bytes)
    (hi : chan.input = bytes ++ frames (eventPackets n (flat parts) slices) ++ rest) :
    ∃ stream c'' list'', c'.replicate m crypto (.ok chan) = (.ok stream, c'.afresh) ∧
      (∃ stream', stream.Yields m ((flat parts).map .ok) stream') ∧ commitAll m c'.afresh (flat parts) = .ok c'' ∧
      (whole (flat parts)).foldl apply data' = dataAfter apply data new ∧
      CopySessionsMaria m QuietFlaggedTx apply c data log c'' (dataAfter apply data new) log' ∧
      c''.options.binlog.gtidList = some list'' ∧ toSend list''.gtids (log'.map (·.1)) = [] := by
  obtain ⟨hs', hnone', l, hl1, hone'⟩ := h.stays hs hnone ⟨list, hlist, hone⟩
  obtain rfl : list' = l := Option.some.inj (hlist'.symm.trans hl1)
  obtain ⟨stream, g1, g2⟩ := C119_session m crypto c' chan hu hwr checksum bytes hlets list' hs' hlist' QuietFlaggedTx log' parts hp hlog hmem slices st
    hbytes hsize n rest hi
  have g4 := g2 (flat parts).length
  rw [List.take_of_length_le (Nat.le_refl _)] at g4
  have hquiet : ∀ p ∈ parts, p.Ok QuietTx := fun p hpm => by
    have := hp p hpm
    cases p with
    | tx g es => exact ⟨this.1.tx, this.2⟩
    | noise e => exact this
  have hq := quiet_parts hquiet
  obtain ⟨c'', list'', g5, g6, -, -, -⟩ := C18_exactly_finished_partial m c'.afresh list' ⟨hs', rfl, hlist', hnone'⟩ hone' parts hq.1 hq.2
    (flat parts).length
  rw [List.take_of_length_le (Nat.le_refl _)] at g5
  have hy : ∃ stream', stream.Yields m ((flat parts).map .ok) stream' := by
    obtain ⟨_, _, _, _, _, _, _, _, _, _, hy, _⟩ := g4
    exact ⟨_, hy⟩
  -- the server has nothing left to send
  have hnil : toSend list''.gtids (log'.map (·.1)) = [] := by
    obtain ⟨stream2, e1, e2, -⟩ := C104_mariadb_session m crypto c' chan hu hwr checksum bytes hlets list' hs' hlist' QuietTx (log'.map (·.1)) parts hquiet
      (by rw [← parts_fst, hlog]) slices st hbytes hsize n rest hi
    have e3 := e2 (flat parts).length
    rw [List.take_of_length_le (Nat.le_refl _), finished_all _ _ (Nat.le_refl _)] at e3
    have := MariaSessions.session (small_fits hu.requests) e1 e3 g5 .stop
    obtain ⟨l, k1, -, -, k4⟩ := C104_mariadb_each_once_partial this list' hs' hlist' hnone' hone' (fun _ _ h => h) hd
    obtain rfl : list'' = l := Option.some.inj (g6.symm.trans k1)
    rw [← hlog, ← parts_fst] at k4
    simpa using k4
  have hwhole := h.trans (.session (small_fits hu.requests) g1 g4 g5 .stop)
  obtain ⟨done, later, l, e1, e2, e3, e4⟩ := copySessionsMaria_seen hwhole list hs hlist hnone hone hin hd old new hnew hsend
  obtain rfl : list'' = l := Option.some.inj (g6.symm.trans e3)
  have hlater : later = [] := by
    rw [hnil] at e4
    exact List.map_eq_nil_iff.1 e4.symm
  obtain rfl : new = done := by rw [e1, hlater, List.append_nil]
  rw [e2] at hwhole
  exact ⟨stream, c'', list'', g1, hy, g5, e2, hwhole, g6, hnil⟩

/-- **C126** is false: the application has stopped within a transaction, after a statement. Whatever a whole session then brings, the copy stays without the
transaction. -/
theorem C126_false (m : Mode) : ∃ (c' : Client) (list' : GtidList) (old : List (Tx MGtid)) (t : Tx MGtid) (data : List Nat),
    CopySessionsMaria m FlaggedTx exCount exListUser data (old ++ [t]) c' data (old ++ [t]) ∧
    toSend exList.gtids ((old ++ [t]).map (·.1)) = [t.1] ∧ c'.options.binlog.gtidList = some list' ∧
    ∀ parts : List (Part MGtid), (∀ p ∈ parts, p.Ok FlaggedTx) → (parts.flatMap Part.txs).map (·.1) = toSend list'.gtids ((old ++ [t]).map (·.1)) →
      (whole (flat parts)).foldl exCount data ≠ dataAfter exCount data [t] := by
  obtain ⟨c', list', old, t, h1, h2, h3, h4, h5⟩ := C119_false m
  refine ⟨c', list', old, t, _, h1, h2, h3, fun parts hp hlog => ?_⟩
  rw [h4, List.map_eq_nil_iff] at hlog
  have := gathered_finished (fun _ _ h rest => wholeFrom_flagged h rest) parts hp (flat parts).length
  rw [List.take_of_length_le (Nat.le_refl _), finishedTxs_all _ _ (Nat.le_refl _), hlog] at this
  rw [this]
  rw [dataAfter, dataAfter, List.foldl_append] at h5
  exact h5

/-! ## Examples -/

/-- The client of the example of C117 after the first session, which ended within the second transaction. -/
def exHalfwayUser : Client :=
  { exGtidUser with
    mysqlGtid := some ⟨exUuid, 8⟩,
    options := { exGtidUser.options with binlog := { exGtidUser.options.binlog with
      filename := "bin.2".toList, position := (exTyped 33).nextEventPosition, gtidSet := some exHalfway } } }

theorem exHalfwayUser_usable : Usable exCrypto exHalfwayUser.options :=
  ⟨exSmall _, ⟨by decide, by decide, by decide +kernel, (fun g h => by cases h; unfold GtidSetFits; decide +kernel), (fun g h => by cases h), by decide⟩, rfl⟩

theorem exTxs_broken {σ : Type} (m : Mode) (apply : σ → List Ev → σ) (data : σ) :
    CopySessions m apply exGtidUser data (exTxs.take 2) exHalfwayUser (dataAfter apply data ((exTxs.drop 1).take 1)) exTxs := by
  obtain ⟨slices, st, h1, h2⟩ := exLogParts_written .crc32
  obtain ⟨stream, h3, h4, -⟩ := C117_session (σ := Unit) m exCrypto exGtidUser { exChannel [] with input := _ } exGtidUser_usable rfl .crc32 _
    (exGtidUser_in _) exSet rfl rfl exSet_wf exSet_ordered exTxs exLogParts exLogParts_ok.1 exTxs_missing exTxs_ok slices st h1 h2 1 [] rfl
  have h : ∀ m, commitAll m exGtidUser.afresh ((flat exLogParts).take 7) = .ok exHalfwayUser := by
    rintro ⟨_ | _⟩ <;> decide +kernel
  obtain ⟨a, b, e0, e0', -⟩ := exTxs_are
  have e1 : whole ((flat exLogParts).take 7) = [a] := by
    have h := whole_finished exLogParts exLogParts_ok.1 7
    have h' : finishedTxs 7 exLogParts = (exLogParts.flatMap Part.txs).take 1 := rfl
    rw [h, h', e0']
    rfl
  refine .grow (exTxs.drop 2) (.session (small_fits exGtidUser_usable.requests) h3 (h4 7).1 (h m) ?_)
  rw [e1, e0]
  exact .stop

theorem exHalfway_rest : ∃ slices st, LogOf (.start .crc32) (flat (exLogParts.drop 2)) slices st ∧ ∀ x ∈ slices, x.length < 2 ^ 24 - 20 :=
  ⟨_, _, .cons (by unfold HeaderFits; decide) (exGtid_written _ 8 (by decide)) (.cons (by unfold HeaderFits; decide) (exQuery_written _ _) .nil),
    by decide +kernel⟩

/-- The hypotheses of C125 are met, with the copy of the example of C117. -/
example (m : Mode) : CopySessions m exCount exGtidUser [0] (exTxs.take 2) exHalfwayUser [0, 5] exTxs ∧
    exGtidUser.options.binlog.startingStrategy = .fromGtid ∧ exGtidUser.options.binlog.gtidSet = some exSet ∧ Wf exSet ∧ AllOrdered exSet ∧
    (∀ t ∈ exTxs, GtidOk t.1) ∧ (exTxs.map fun t => gtidKey t.1).Nodup ∧ exTxs.take 1 <+: exTxs.take 2 ∧ exTxs = exTxs.take 1 ++ exTxs.drop 1 ∧
    (∀ t ∈ exTxs, Has exSet t.1.sourceId.data t.1.transactionId ↔ t ∈ exTxs.take 1) ∧ Usable exCrypto exHalfwayUser.options ∧
    (∃ bytes, LetsIn exCrypto exHalfwayUser.options False none .crc32 bytes) ∧ exHalfwayUser.options.binlog.gtidSet = some exHalfway ∧
    (∀ p ∈ exLogParts.drop 2, p.Ok MysqlTx) ∧
    ((exLogParts.drop 2).flatMap Part.txs = open Classical in exTxs.filter fun t => ¬Has exHalfway t.1.sourceId.data t.1.transactionId) ∧
    (∃ slices st, LogOf (.start .crc32) (flat (exLogParts.drop 2)) slices st ∧ ∀ x ∈ slices, x.length < 2 ^ 24 - 20) ∧
    dataAfter exCount [0] (exTxs.drop 1) = [0, 5, 2] :=
  ⟨exTxs_broken m exCount [0], rfl, rfl, exSet_wf, exSet_ordered, exTxs_ok, by decide +kernel, ⟨(exTxs.drop 1).take 1, rfl⟩, rfl, exTxs_has,
    exHalfwayUser_usable, ⟨_, exGtidUser_in _⟩, rfl, fun p hp => exLogParts_ok.1 p (List.mem_of_mem_drop hp), exTxs_halfway, exHalfway_rest, by decide +kernel⟩

/-- The hypotheses of `C126_catches_up_partial` are met: an attempt has failed, the server has a transaction to send. -/
example (m : Mode) : ∃ c', CopySessionsMaria m QuietFlaggedTx exCount exListUser [2, 2] (exMariaTxs.take 3) c' [2, 2] (exMariaTxs.take 3) ∧
    exListUser.options.binlog.startingStrategy = .fromGtid ∧ exListUser.options.binlog.gtidList = some exList ∧
    exListUser.options.binlog.gtidSet = none ∧ (exList.gtids.map (·.domainId)).Nodup ∧ ((exMariaTxs.take 3).map (·.1)).Nodup ∧
    exMariaTxs.take 3 = exMariaTxs.take 2 ++ [exMariaTxs[2]] ∧ toSend exList.gtids ((exMariaTxs.take 3).map (·.1)) = [exMariaTxs[2]].map (·.1) ∧
    Usable exCrypto c'.options ∧ (∃ bytes, LetsIn exCrypto c'.options True none .crc32 bytes) ∧ c'.options.binlog.gtidList = some exList ∧
    (exMariaTx 0 271).Ok QuietFlaggedTx ∧ (exMariaTx 0 271).txs.map (·.1) = toSend exList.gtids ((exMariaTxs.take 3).map (·.1)) ∧
    (∀ t ∈ (exMariaTx 0 271).txs, t ∈ exMariaTxs.take 3) ∧
    ∃ slices st, LogOf (.start .crc32) (flat [exMariaTx 0 271]) slices st ∧ ∀ x ∈ slices, x.length < 2 ^ 24 - 20 := by
  have hopt := replicate_keeps_options m exCrypto exListUser (.error .unexpectedEof) (.inl (by decide))
  refine ⟨_, .failed (crypto := exCrypto) (net := .error .unexpectedEof) .stop, rfl, rfl, rfl, by decide, by decide, rfl, by decide,
    by rw [hopt]; exact exListUser_usable, by rw [hopt]; exact ⟨_, exListUser_in _ rfl⟩, by rw [hopt]; rfl,
    ⟨FlaggedTx.block (body := []) rfl rfl (by simp) trivial, (exMariaTx_ok _ _).2⟩, by decide, ?_, ?_⟩
  · intro t ht
    rw [List.mem_singleton.1 ht]
    exact .tail _ (.tail _ (.head _))
  · have f1 : HeaderFits (exTyped 162) := by unfold HeaderFits; decide
    have f2 : HeaderFits (exTyped 16) := by unfold HeaderFits; decide
    refine ⟨_, _, .cons f1 (exMariaTx_written _ rfl 0 271 (by decide) (by decide)).1 (.cons f2 (exMariaTx_written _ rfl 0 271 (by decide) (by decide)).2
      .nil), ?_⟩
    simp [le_length, exSum]

end MysqlCdc
