import Verif.Props.KeyedSome
import Verif.Props.Snapshots
import Verif.Props.SnapshotsMaria
/-!
# C144: a copy of some of the tables, and going back to older saved places
-/

namespace MysqlCdc

open Spec

variable {κ : Type} [DecidableEq κ]

/-- **C144.** A copy of some of the tables of a MySQL server by keys, kept by a program that is killed and started again from any text it has saved, as in C141. -/
theorem C144_mysql_older {want : TableName → Bool} {key : TableName → Cells → κ} {m : Mode} {c c' : Client} {data data' : Keyed κ} {log log' : List (Tx Gtid)}
    {saved' : List RStr} (h : Snapshots False m (keyedSome want key) c data log [] c' data' log' saved') (set : GtidSet)
    (hs : c.options.binlog.startingStrategy = .fromGtid) (hset : c.options.binlog.gtidSet = some set) (hw : Wf set) (ho : AllOrdered set)
    (hpr : Printable set) (hg : ∀ t ∈ log', GtidOk t.1 ∧ t.1.sourceId.uuid.length = 36)
    (hd : (log'.map fun t => gtidKey t.1).Nodup) (old new : List (Tx Gtid)) (hold : old <+: log) (hnew : log' = old ++ new)
    (hhas : ∀ t ∈ log', Has set t.1.sourceId.data t.1.transactionId ↔ t ∈ old)
    {columns : TableName → List (UInt8 × Nat)} (hcol : ∀ t, columns t ≠ []) {rows rows' : TableName → List (List Stored)}
    (hist : History columns rows new rows') {shown : TableName → List Cells} (hshown : RowsShown columns rows shown) (hi : Indexes key data (onlyTables want shown))
    (hk : KeysHold key (onlyTables want shown) (wantedChanges want new)) :
    ∃ done left set', new = done ++ left ∧ c'.options.binlog.gtidSet = some set' ∧
      (∀ t ∈ log', Has set' t.1.sourceId.data t.1.transactionId ↔ t ∉ left) ∧
      (∀ t, want t → ∀ k, ∃ first between shown', first <+: left ∧ History columns rows (done ++ first) between ∧ RowsShown columns between shown' ∧
        ∀ r, data' (t, k) = some r ↔ r ∈ shown' t ∧ key t r = k) ∧
      ((∀ t ∈ log', Has set' t.1.sourceId.data t.1.transactionId) → ∃ shown', RowsShown columns rows' shown' ∧ Indexes key data' (onlyTables want shown')) := by
  obtain ⟨done, left, set', rfl, h1, h2, h3, h4⟩ := C141_places h set hs hset hw ho hpr hg hd old new hold hnew hhas fun t _ => keyedSome_overwrites want key t.2
  refine ⟨done, left, set', rfl, h1, h2, fun t ht k => ?_, fun hall => ?_⟩
  · obtain ⟨first, h5, h6⟩ := h3 (t, k)
    obtain ⟨between, shown', h7, h8, h9⟩ := keyedSome_place hcol hist hshown hi hk h5
    exact ⟨first, between, shown', h5, h7, h8, fun r => by rw [h6]; simpa only [onlyTables, ht, if_true] using h9.2 t k r⟩
  · rw [h4 hall]
    exact C144_indexes hcol hist hshown hi hk

open Classical in
/-- **C144.** After whatever of that, once the program has taken one session whole, the copy has exactly the rows of the wanted tables. -/
theorem C144_mysql_older_catches_up {want : TableName → Bool} {key : TableName → Cells → κ} {m : Mode} {c c' : Client} {data data' : Keyed κ} {log log' : List (Tx Gtid)}
    {saved' : List RStr} (h : Snapshots False m (keyedSome want key) c data log [] c' data' log' saved') (set : GtidSet)
    (hs : c.options.binlog.startingStrategy = .fromGtid) (hset : c.options.binlog.gtidSet = some set) (hw : Wf set) (ho : AllOrdered set)
    (hpr : Printable set) (hg : ∀ t ∈ log', GtidOk t.1 ∧ t.1.sourceId.uuid.length = 36)
    (hd : (log'.map fun t => gtidKey t.1).Nodup) (old new : List (Tx Gtid)) (hold : old <+: log) (hnew : log' = old ++ new)
    (hhas : ∀ t ∈ log', Has set t.1.sourceId.data t.1.transactionId ↔ t ∈ old)
    {columns : TableName → List (UInt8 × Nat)} (hcol : ∀ t, columns t ≠ []) {rows rows' : TableName → List (List Stored)}
    (hist : History columns rows new rows') {shown : TableName → List Cells} (hshown : RowsShown columns rows shown) (hi : Indexes key data (onlyTables want shown))
    (hk : KeysHold key (onlyTables want shown) (wantedChanges want new))
    (crypto : Crypto) (chan : Channel) (hu : Usable crypto c'.options) (hwr : chan.writes = []) (checksum : ChecksumType) (bytes : Bytes)
    (hin : LetsIn crypto c'.options False none checksum bytes) (set' : GtidSet) (hset' : c'.options.binlog.gtidSet = some set')
    (parts : List (Part Gtid)) (hp : ∀ p ∈ parts, p.Ok MysqlTx)
    (hlog : parts.flatMap Part.txs = log'.filter fun t => ¬Has set' t.1.sourceId.data t.1.transactionId)
    (slices : List Bytes) (st : LogState) (hbytes : LogOf (.start checksum) (flat parts) slices st)
    (hsize : ∀ x ∈ slices, x.length < 2 ^ 24 - 20) (n : Nat) (rest : Bytes)
    (hinput : chan.input = bytes ++ frames (eventPackets n (flat parts) slices) ++ rest) :
    ∃ stream shown', c'.replicate m crypto (.ok chan) = (.ok stream, c'.afresh) ∧ (∃ stream', stream.Yields m ((flat parts).map .ok) stream') ∧
      RowsShown columns rows' shown' ∧ Indexes key ((whole (flat parts)).foldl (keyedSome want key) data') (onlyTables want shown') := by
  have hover : ∀ t ∈ new, Overwrites (keyedSome want key) t.2 := fun t _ => keyedSome_overwrites want key t.2
  obtain ⟨done, left, set1, h1, hs', h3, hst, h4, h5⟩ := snapshots_places h set hs hset hw ho hpr hg hd old new hold hnew hhas hover
  obtain rfl : set' = set1 := Option.some.inj (hset'.symm.trans h3)
  obtain ⟨stream, g1, g2, g3⟩ := C117_session (σ := Keyed κ) m crypto c' chan hu hwr checksum bytes hin set' hs' hset' hst.wf hst.ordered log' parts hp hlog
    (fun t ht => (hg t ht).1) slices st hbytes hsize n rest hinput
  have hy : ∃ stream', stream.Yields m ((flat parts).map .ok) stream' := by
    have := (g2 (flat parts).length).1
    rw [List.take_of_length_le (Nat.le_refl _)] at this
    obtain ⟨_, _, _, _, _, _, _, _, hy, _⟩ := this
    exact ⟨_, hy⟩
  obtain ⟨shown', h6, h7⟩ := C144_indexes hcol hist hshown hi hk
  refine ⟨stream, shown', g1, hy, h6, ?_⟩
  have hleft : log'.filter (fun t => ¬Has set' t.1.sourceId.data t.1.transactionId) = left := by
    have hall : log' = (old ++ done) ++ left := by rw [hnew, h1, List.append_assoc]
    have hmem : ∀ t ∈ old ++ done, t ∉ left := fun t ht => (h4 t (hall ▸ List.mem_append_left _ ht)).1
      ((hst.has t (hall ▸ List.mem_append_left _ ht)).2 ht)
    conv_lhs => rw [hall]
    rw [List.filter_append, List.filter_eq_nil_iff.2, List.filter_eq_self.2, List.nil_append]
    · intro t ht
      simp only [decide_eq_true_eq]
      rw [h4 t (hall ▸ List.mem_append_right _ ht), not_not]
      exact ht
    · intro t ht
      simp only [decide_eq_true_eq, not_not]
      exact (hst.has t (hall ▸ List.mem_append_left _ ht)).2 ht
  have hend : dataAfter (keyedSome want key) data' left = dataAfter (keyedSome want key) data new := by
    funext k
    obtain ⟨upto, e1, e2, e3⟩ := (h5.run hover (run := left) (d := new) (h1 ▸ List.prefix_rfl) (h1 ▸ List.prefix_rfl)) k
    rw [e3, e2.eq_of_length_le e1.length_le]
  rw [g3, hleft, hend]
  exact h7

/-- **C144.** The same with a MariaDB. -/
theorem C144_mariadb_older {want : TableName → Bool} {key : TableName → Cells → κ} {m : Mode} {c c' : Client} {data data' : Keyed κ}
    {log log' : List (Tx MGtid)} {saved' : List RStr} (h : SnapshotsMaria False m (keyedSome want key) c data log [] c' data' log' saved')
    (list : GtidList)
    (hs : c.options.binlog.startingStrategy = .fromGtid)
    (hlist : c.options.binlog.gtidList = some list) (hnone : c.options.binlog.gtidSet = none) (hr : ∀ g ∈ list.gtids, MGtidRange g)
    (hone : (list.gtids.map (·.domainId)).Nodup) (hin : ∀ g ∈ list.gtids, g ∈ log'.map (·.1) → g ∈ log.map (·.1)) (hg : ∀ t ∈ log', MGtidRange t.1)
    (hd : (log'.map (·.1)).Nodup)
    (new : List (Tx MGtid)) (hnew : ∀ t ∈ new, t ∈ log') (hsend : toSend list.gtids (log'.map (·.1)) = new.map (·.1))
    {columns : TableName → List (UInt8 × Nat)} (hcol : ∀ t, columns t ≠ []) {rows rows' : TableName → List (List Stored)}
    (hist : History columns rows new rows') {shown : TableName → List Cells} (hshown : RowsShown columns rows shown) (hi : Indexes key data (onlyTables want shown))
    (hk : KeysHold key (onlyTables want shown) (wantedChanges want new)) :
    ∃ done left list', new = done ++ left ∧ c'.options.binlog.gtidList = some list' ∧ toSend list'.gtids (log'.map (·.1)) = left.map (·.1) ∧
      (∀ t, want t → ∀ k, ∃ first between shown', first <+: left ∧ History columns rows (done ++ first) between ∧ RowsShown columns between shown' ∧
        ∀ r, data' (t, k) = some r ↔ r ∈ shown' t ∧ key t r = k) ∧
      (toSend list'.gtids (log'.map (·.1)) = [] → ∃ shown', RowsShown columns rows' shown' ∧ Indexes key data' (onlyTables want shown')) := by
  obtain ⟨done, left, list', rfl, -, h2, h3, h4⟩ := snapshotsMaria_places h list hs hlist hnone hr hone hin hg hd new hnew hsend
    fun t _ => keyedSome_overwrites want key t.2
  refine ⟨done, left, list', rfl, h2, h3, fun t ht k => ?_, fun hnil => ?_⟩
  · obtain ⟨upto, ⟨first, rfl⟩, k2, k3⟩ := h4 (t, k)
    have h5 := (List.prefix_append_right_inj _).1 k2
    obtain ⟨between, shown', h7, h8, h9⟩ := keyedSome_place hcol hist hshown hi hk h5
    exact ⟨first, between, shown', h5, h7, h8, fun r => by rw [k3]; simpa only [onlyTables, ht, if_true] using h9.2 t k r⟩
  · rw [h3, List.map_eq_nil_iff] at hnil
    subst hnil
    have : data' = dataAfter (keyedSome want key) data (done ++ []) := by
      funext k
      obtain ⟨upto, k1, k2, k3⟩ := h4 k
      rw [List.append_nil] at k2 ⊢
      rw [k3, k2.eq_of_length_le k1.length_le]
    rw [this]
    exact C144_indexes hcol hist hshown hi hk

/-- **C144.** With a MariaDB: after whatever of that, once the program has taken one session whole, the copy has exactly the rows of the wanted tables. -/
theorem C144_mariadb_older_catches_up {want : TableName → Bool} {key : TableName → Cells → κ} {m : Mode} {c c' : Client} {data data' : Keyed κ}
    {log log' : List (Tx MGtid)} {saved' : List RStr} (h : SnapshotsMaria False m (keyedSome want key) c data log [] c' data' log' saved')
    (list : GtidList)
    (hs : c.options.binlog.startingStrategy = .fromGtid)
    (hlist : c.options.binlog.gtidList = some list) (hnone : c.options.binlog.gtidSet = none) (hr : ∀ g ∈ list.gtids, MGtidRange g)
    (hone : (list.gtids.map (·.domainId)).Nodup) (hin : ∀ g ∈ list.gtids, g ∈ log'.map (·.1) → g ∈ log.map (·.1)) (hg : ∀ t ∈ log', MGtidRange t.1)
    (hd : (log'.map (·.1)).Nodup)
    (new : List (Tx MGtid)) (hnew : ∀ t ∈ new, t ∈ log') (hsend : toSend list.gtids (log'.map (·.1)) = new.map (·.1))
    {columns : TableName → List (UInt8 × Nat)} (hcol : ∀ t, columns t ≠ []) {rows rows' : TableName → List (List Stored)}
    (hist : History columns rows new rows') {shown : TableName → List Cells} (hshown : RowsShown columns rows shown) (hi : Indexes key data (onlyTables want shown))
    (hk : KeysHold key (onlyTables want shown) (wantedChanges want new))
    (crypto : Crypto) (chan : Channel) (hu : Usable crypto c'.options) (hwr : chan.writes = []) (checksum : ChecksumType) (bytes : Bytes)
    (hlets : LetsIn crypto c'.options True none checksum bytes) (list' : GtidList) (hlist' : c'.options.binlog.gtidList = some list')
    (parts : List (Part MGtid)) (hp : ∀ p ∈ parts, p.Ok FlaggedTx)
    (hlog : (parts.flatMap Part.txs).map (·.1) = toSend list'.gtids (log'.map (·.1))) (hmem : ∀ t ∈ parts.flatMap Part.txs, t ∈ log')
    (slices : List Bytes) (st : LogState) (hbytes : LogOf (.start checksum) (flat parts) slices st)
    (hsize : ∀ x ∈ slices, x.length < 2 ^ 24 - 20) (n : Nat) (rest : Bytes)
    (hinput : chan.input = bytes ++ frames (eventPackets n (flat parts) slices) ++ rest) :
    ∃ stream shown', c'.replicate m crypto (.ok chan) = (.ok stream, c'.afresh) ∧ (∃ stream', stream.Yields m ((flat parts).map .ok) stream') ∧
      RowsShown columns rows' shown' ∧ Indexes key ((whole (flat parts)).foldl (keyedSome want key) data') (onlyTables want shown') := by
  have hover : ∀ t ∈ new, Overwrites (keyedSome want key) t.2 := fun t _ => keyedSome_overwrites want key t.2
  obtain ⟨done, left, list1, h1, hs', h2, h4, h3⟩ := snapshotsMaria_places h list hs hlist hnone hr hone hin hg hd new hnew hsend hover
  obtain rfl : list' = list1 := Option.some.inj (hlist'.symm.trans h2)
  obtain ⟨stream, g1, g2⟩ := C119_session m crypto c' chan hu hwr checksum bytes hlets list' hs' hlist' FlaggedTx log' parts hp hlog hmem slices st
    hbytes hsize n rest hinput
  have g2 := g2 (flat parts).length
  rw [List.take_of_length_le (Nat.le_refl _)] at g2
  have hy : ∃ stream', stream.Yields m ((flat parts).map .ok) stream' := by
    obtain ⟨_, _, _, _, _, _, _, _, _, _, hy, _⟩ := g2
    exact ⟨_, hy⟩
  obtain ⟨shown', h5, h6⟩ := C144_indexes hcol hist hshown hi hk
  refine ⟨stream, shown', g1, hy, h5, ?_⟩
  have hleft : parts.flatMap Part.txs = left := by
    rw [h4] at hlog
    have hl : ∀ t ∈ left, t ∈ log' := fun t ht => hnew t (by rw [h1]; exact List.mem_append_right _ ht)
    have := prefix_of_fst hd hmem hl (by rw [hlog]; exact List.prefix_rfl)
    exact this.eq_of_length (by simpa using congrArg List.length hlog)
  have hwhole : whole (flat parts) = left.map (·.2) := by
    rw [← hleft, ← finishedTxs_all parts _ (Nat.le_refl _), ← gathered_finished (fun _ _ h rest => wholeFrom_flagged h rest) parts hp,
      List.take_of_length_le (Nat.le_refl _)]
  have hend : left.foldl (fun d t => keyedSome want key d t.2) data' = dataAfter (keyedSome want key) data new := by
    funext k
    obtain ⟨upto, e1, e2, e3⟩ := (h3.run hover (run := left) (d := new) (h1 ▸ List.prefix_rfl) (h1 ▸ List.prefix_rfl)) k
    rw [e2.eq_of_length_le e1.length_le] at e3
    exact e3
  rw [hwhole, List.foldl_map, hend]
  exact h6

/-- The hypotheses are met: as in C141, of the tables only one is wanted. (Those on the tables are in the example of C144.) -/
example (m : Mode) : ∃ c' data', Snapshots False m (keyedSome (fun t => t = exTableName) fun _ r => r.head?) exGtidUser (fun _ => none) exTxs [] c' data' exTxs
      [exSet.display] ∧ Printable exSet ∧ (∀ t ∈ exTxs, GtidOk t.1 ∧ t.1.sourceId.uuid.length = 36) ∧
    data' (exTableName, some (some (.int 258))) = some [some (.int 258), none] :=
  ⟨_, _, exTxs_saved False m _ _ fun c2 => .back (newer := [exAllSet.display]) (exSet_parses m) (o := exGtidUser.options) rfl rfl
      (exTxs_older False m _ _ _ .stop), exSet_printable,
    fun t ht => ⟨exTxs_ok t ht, (by decide +kernel : ∀ t ∈ exTxs, t.1.sourceId.uuid.length = 36) t ht⟩, by with_unfolding_all rfl⟩

end MysqlCdc
