import Verif.Props.Keyed
import Verif.Spec.KeyedSome
/-!
# C144: a copy of some of the tables
-/

namespace MysqlCdc

open Spec

variable {κ : Type} [DecidableEq κ]

/-- The changes of the tables that are wanted. -/
def wantedChanges {γ : Type} (want : TableName → Bool) (txs : List (Tx γ)) : List (TableName × RowChange) := (changesOfTxs txs).filter fun c => want c.1

theorem onlyTables_changes (want : TableName → Bool) (rows : TableName → List Cells) (cs : List (TableName × RowChange)) :
    (cs.filter fun c => want c.1).foldl onBags (onlyTables want rows) = onlyTables want (cs.foldl onBags rows) := by
  induction cs generalizing rows with
  | nil => rfl
  | cons c cs ih =>
    rw [List.foldl_cons, ← ih, List.filter_cons]
    split
    · next hw =>
      rw [List.foldl_cons]
      congr 1
      funext t
      simp only [onBags, onlyTables]
      by_cases ht : t = c.1
      · subst ht; simp [hw]
      · simp [ht]
    · next hw =>
      congr 1
      funext t
      simp only [onBags, onlyTables]
      by_cases ht : t = c.1
      · subst ht; simp [hw]
      · simp [ht]

theorem keyedSome_overwrites (want : TableName → Bool) (key : TableName → Cells → κ) (es : List Ev) : Overwrites (keyedSome want key) es :=
  onKeys_overwrites key _

theorem dataAfter_some {γ : Type} (want : TableName → Bool) (key : TableName → Cells → κ) (data : Keyed κ) (txs : List (Tx γ)) :
    dataAfter (keyedSome want key) data txs = (wantedChanges want txs).foldl (onKeys key) data := by
  induction txs generalizing data with
  | nil => rfl
  | cons t txs ih =>
    rw [wantedChanges, changesOfTxs, List.flatMap_cons, List.filter_append, List.foldl_append]
    exact ih _

/-- **C144.** Where no two rows of a wanted table have the same key, a copy of the wanted tables by keys that applies each transaction once has exactly the rows
of these tables, each under its key, and none of other tables, whatever happens to those. -/
theorem C144_indexes {γ : Type} {want : TableName → Bool} {key : TableName → Cells → κ} {columns : TableName → List (UInt8 × Nat)} (hcol : ∀ t, columns t ≠ [])
    {rows rows' : TableName → List (List Stored)} {txs : List (Tx γ)} (hist : History columns rows txs rows') {data : Keyed κ}
    {shown : TableName → List Cells} (hshown : RowsShown columns rows shown) (hi : Indexes key data (onlyTables want shown)) (hk : KeysHold key (onlyTables want shown) (wantedChanges want txs)) :
    ∃ shown', RowsShown columns rows' shown' ∧ Indexes key (dataAfter (keyedSome want key) data txs) (onlyTables want shown') := by
  refine ⟨(dataAfter Kept.transaction ⟨fun _ => none, shown⟩ txs).rows, hist.shown hcol hshown, ?_⟩
  rw [dataAfter_some, dataAfter_bags, ← onlyTables_changes]
  exact hi.changes hk

/-- What a place held after some of the transactions. -/
theorem keyedSome_place {γ : Type} {want : TableName → Bool} {key : TableName → Cells → κ} {columns : TableName → List (UInt8 × Nat)} (hcol : ∀ t, columns t ≠ [])
    {rows rows' : TableName → List (List Stored)} {done left first : List (Tx γ)} (hist : History columns rows (done ++ left) rows') {data : Keyed κ}
    {shown : TableName → List Cells} (hshown : RowsShown columns rows shown) (hi : Indexes key data (onlyTables want shown))
    (hk : KeysHold key (onlyTables want shown) (wantedChanges want (done ++ left))) (hf : first <+: left) :
    ∃ between shown', History columns rows (done ++ first) between ∧ RowsShown columns between shown' ∧
      Indexes key (dataAfter (keyedSome want key) data (done ++ first)) (onlyTables want shown') := by
  obtain ⟨last, rfl⟩ := hf
  rw [← List.append_assoc] at hist hk
  obtain ⟨between, h1, -⟩ := hist.split
  rw [wantedChanges, changesOfTxs, List.flatMap_append, List.filter_append] at hk
  obtain ⟨shown', h2, h3⟩ := C144_indexes hcol h1 hshown hi (keysHold_prefix hk)
  exact ⟨between, shown', h1, h2, h3⟩

/-- **C144.** A copy of some of the tables of a MySQL server by keys, kept by an application that may stop anywhere, also between applying and committing. Under
each key of a wanted table the copy has what the server's table had under that key at some time since the transactions that are recorded; when all are recorded,
it has exactly the rows of the wanted tables, each under its key. The other tables need not have keys. -/
theorem C144_mysql {want : TableName → Bool} {key : TableName → Cells → κ} {m : Mode} {c c' : Client} {data data' : Keyed κ} {log log' : List (Tx Gtid)}
    (h : LaggingSessions m (keyedSome want key) c data log c' data' log') (set : GtidSet) (hs : c.options.binlog.startingStrategy = .fromGtid)
    (hset : c.options.binlog.gtidSet = some set) (hw : Wf set) (ho : AllOrdered set) (hg : ∀ t ∈ log', GtidOk t.1)
    (hd : (log'.map fun t => gtidKey t.1).Nodup) (old new : List (Tx Gtid)) (hold : old <+: log) (hnew : log' = old ++ new)
    (hhas : ∀ t ∈ log', Has set t.1.sourceId.data t.1.transactionId ↔ t ∈ old)
    {columns : TableName → List (UInt8 × Nat)} (hcol : ∀ t, columns t ≠ []) {rows rows' : TableName → List (List Stored)}
    (hist : History columns rows new rows') {shown : TableName → List Cells} (hshown : RowsShown columns rows shown) (hi : Indexes key data (onlyTables want shown))
    (hk : KeysHold key (onlyTables want shown) (wantedChanges want new)) :
    ∃ done left set', new = done ++ left ∧ c'.options.binlog.gtidSet = some set' ∧
      (∀ t ∈ log', Has set' t.1.sourceId.data t.1.transactionId ↔ t ∉ left) ∧
      (∀ t, want t → ∀ k, ∃ first between shown', first <+: left ∧ History columns rows (done ++ first) between ∧ RowsShown columns between shown' ∧
        ∀ r, data' (t, k) = some r ↔ r ∈ shown' t ∧ key t r = k) ∧
      ((∀ t ∈ log', Has set' t.1.sourceId.data t.1.transactionId) → ∃ shown', RowsShown columns rows' shown' ∧ Indexes key data' (onlyTables want shown')) := by
  obtain ⟨done, left, set', rfl, h1, h2, h3, h4⟩ := C137_places h set hs hset hw ho hg hd old new hold hnew hhas fun t _ => keyedSome_overwrites want key t.2
  refine ⟨done, left, set', rfl, h1, h2, fun t ht k => ?_, fun hall => ?_⟩
  · obtain ⟨first, h5, h6⟩ := h3 (t, k)
    obtain ⟨between, shown', h7, h8, h9⟩ := keyedSome_place hcol hist hshown hi hk h5
    exact ⟨first, between, shown', h5, h7, h8, fun r => by rw [h6]; simpa only [onlyTables, ht, if_true] using h9.2 t k r⟩
  · rw [h4 hall]
    exact C144_indexes hcol hist hshown hi hk

open Classical in
/-- **C144.** Once the application has taken one session whole, the copy has exactly the rows of the wanted tables, whatever was applied twice before. -/
theorem C144_mysql_catches_up {want : TableName → Bool} {key : TableName → Cells → κ} {m : Mode} {c c' : Client} {data data' : Keyed κ} {log log' : List (Tx Gtid)}
    (h : LaggingSessions m (keyedSome want key) c data log c' data' log') (set : GtidSet) (hs : c.options.binlog.startingStrategy = .fromGtid)
    (hset : c.options.binlog.gtidSet = some set) (hw : Wf set) (ho : AllOrdered set) (hg : ∀ t ∈ log', GtidOk t.1)
    (hd : (log'.map fun t => gtidKey t.1).Nodup) (old new : List (Tx Gtid)) (hold : old <+: log) (hnew : log' = old ++ new)
    (hhas : ∀ t ∈ log', Has set t.1.sourceId.data t.1.transactionId ↔ t ∈ old)
    {columns : TableName → List (UInt8 × Nat)} (hcol : ∀ t, columns t ≠ []) {rows rows' : TableName → List (List Stored)}
    (hist : History columns rows new rows') {shown : TableName → List Cells} (hshown : RowsShown columns rows shown) (hi : Indexes key data (onlyTables want shown))
    (hk : KeysHold key (onlyTables want shown) (wantedChanges want new))
    (crypto : Crypto) (chan : Channel) (hu : Usable crypto c'.options) (hwr : chan.writes = []) (checksum : ChecksumType) (bytes : Bytes)
    (hin : LetsIn crypto c'.options False none checksum bytes) (set' : GtidSet) (hset' : c'.options.binlog.gtidSet = some set')
    (parts : List (Part Gtid)) (hp : ∀ p ∈ parts, p.Ok MysqlTx)
    (hlog : parts.flatMap Part.txs = log'.filter fun t => ¬Has set' t.1.sourceId.data t.1.transactionId)
    (slices : List Bytes) (st : LogState) (hbytes : LogOf (.start checksum) (flat parts) slices st)
    (hsize : ∀ x ∈ slices, x.length < 2 ^ 24 - 20) (n : Nat) (rest : Bytes)
    (hinput : chan.input = bytes ++ frames (eventPackets n (flat parts) slices) ++ rest) :
    ∃ stream shown', c'.replicate m crypto (.ok chan) = (.ok stream, c'.afresh) ∧ (∃ stream', stream.Yields m ((flat parts).map .ok) stream') ∧
      RowsShown columns rows' shown' ∧ Indexes key ((whole (flat parts)).foldl (keyedSome want key) data') (onlyTables want shown') := by
  obtain ⟨stream, h1, h2, -, h3⟩ := C137_catches_up h set hs hset hw ho hg hd old new hold hnew hhas (fun t _ => keyedSome_overwrites want key t.2) crypto chan hu hwr
    checksum bytes hin set' hset' parts hp hlog slices st hbytes hsize n rest hinput
  obtain ⟨shown', h4, h5⟩ := C144_indexes hcol hist hshown hi hk
  exact ⟨stream, shown', h1, h2, h4, by rw [h3]; exact h5⟩

/-- **C144.** The same of some of the tables of a MariaDB, with an application that commits the first and the last event of each transaction. -/
theorem C144_mariadb {want : TableName → Bool} {key : TableName → Cells → κ} {m : Mode} {c c' : Client} {data data' : Keyed κ} {log log' : List (Tx MGtid)}
    (h : LaggingSessionsMaria m (keyedSome want key) c data log c' data' log') (list : GtidList) (hs : c.options.binlog.startingStrategy = .fromGtid)
    (hlist : c.options.binlog.gtidList = some list) (hnone : c.options.binlog.gtidSet = none)
    (hone : (list.gtids.map (·.domainId)).Nodup) (hin : ∀ g ∈ list.gtids, g ∈ log'.map (·.1) → g ∈ log.map (·.1)) (hd : (log'.map (·.1)).Nodup)
    (new : List (Tx MGtid)) (hnew : ∀ t ∈ new, t ∈ log') (hsend : toSend list.gtids (log'.map (·.1)) = new.map (·.1))
    {columns : TableName → List (UInt8 × Nat)} (hcol : ∀ t, columns t ≠ []) {rows rows' : TableName → List (List Stored)}
    (hist : History columns rows new rows') {shown : TableName → List Cells} (hshown : RowsShown columns rows shown) (hi : Indexes key data (onlyTables want shown))
    (hk : KeysHold key (onlyTables want shown) (wantedChanges want new)) :
    ∃ done left list', new = done ++ left ∧ c'.options.binlog.gtidList = some list' ∧ toSend list'.gtids (log'.map (·.1)) = left.map (·.1) ∧
      (∀ t, want t → ∀ k, ∃ first between shown', first <+: left ∧ History columns rows (done ++ first) between ∧ RowsShown columns between shown' ∧
        ∀ r, data' (t, k) = some r ↔ r ∈ shown' t ∧ key t r = k) ∧
      (toSend list'.gtids (log'.map (·.1)) = [] → ∃ shown', RowsShown columns rows' shown' ∧ Indexes key data' (onlyTables want shown')) := by
  obtain ⟨done, left, list', rfl, h1, h2, h3, h4⟩ := C137_maria_places h list hs hlist hnone hone hin hd new hnew hsend fun t _ => keyedSome_overwrites want key t.2
  refine ⟨done, left, list', rfl, h1, h2, fun t ht k => ?_, fun hall => ?_⟩
  · obtain ⟨first, h5, h6⟩ := h3 (t, k)
    obtain ⟨between, shown', h7, h8, h9⟩ := keyedSome_place hcol hist hshown hi hk h5
    exact ⟨first, between, shown', h5, h7, h8, fun r => by rw [h6]; simpa only [onlyTables, ht, if_true] using h9.2 t k r⟩
  · rw [h4 hall]
    exact C144_indexes hcol hist hshown hi hk

/-- **C144.** With a MariaDB, once the application has taken one session whole, the copy has exactly the rows of the wanted tables. -/
theorem C144_mariadb_catches_up {want : TableName → Bool} {key : TableName → Cells → κ} {m : Mode} {c c' : Client} {data data' : Keyed κ} {log log' : List (Tx MGtid)}
    (h : LaggingSessionsMaria m (keyedSome want key) c data log c' data' log') (list : GtidList) (hs : c.options.binlog.startingStrategy = .fromGtid)
    (hlist : c.options.binlog.gtidList = some list) (hnone : c.options.binlog.gtidSet = none)
    (hone : (list.gtids.map (·.domainId)).Nodup) (hin : ∀ g ∈ list.gtids, g ∈ log'.map (·.1) → g ∈ log.map (·.1)) (hd : (log'.map (·.1)).Nodup)
    (new : List (Tx MGtid)) (hnew : ∀ t ∈ new, t ∈ log') (hsend : toSend list.gtids (log'.map (·.1)) = new.map (·.1))
    {columns : TableName → List (UInt8 × Nat)} (hcol : ∀ t, columns t ≠ []) {rows rows' : TableName → List (List Stored)}
    (hist : History columns rows new rows') {shown : TableName → List Cells} (hshown : RowsShown columns rows shown) (hi : Indexes key data (onlyTables want shown))
    (hk : KeysHold key (onlyTables want shown) (wantedChanges want new))
    (crypto : Crypto) (chan : Channel) (hu : Usable crypto c'.options) (hwr : chan.writes = []) (checksum : ChecksumType) (bytes : Bytes)
    (hlets : LetsIn crypto c'.options True none checksum bytes) (list' : GtidList) (hlist' : c'.options.binlog.gtidList = some list')
    (parts : List (Part MGtid)) (hp : ∀ p ∈ parts, p.Ok FlaggedTx)
    (hlog : (parts.flatMap Part.txs).map (·.1) = toSend list'.gtids (log'.map (·.1))) (hmem : ∀ t ∈ parts.flatMap Part.txs, t ∈ log')
    (slices : List Bytes) (st : LogState) (hbytes : LogOf (.start checksum) (flat parts) slices st)
    (hsize : ∀ x ∈ slices, x.length < 2 ^ 24 - 20) (n : Nat) (rest : Bytes)
    (hinput : chan.input = bytes ++ frames (eventPackets n (flat parts) slices) ++ rest) :
    ∃ stream shown', c'.replicate m crypto (.ok chan) = (.ok stream, c'.afresh) ∧ (∃ stream', stream.Yields m ((flat parts).map .ok) stream') ∧
      RowsShown columns rows' shown' ∧ Indexes key ((whole (flat parts)).foldl (keyedSome want key) data') (onlyTables want shown') := by
  obtain ⟨stream, h1, h2, h3⟩ := C137_maria_catches_up h list hs hlist hnone hone hin hd new hnew hsend (fun t _ => keyedSome_overwrites want key t.2) crypto chan hu hwr
    checksum bytes hlets list' hlist' parts hp hlog hmem slices st hbytes hsize n rest hinput
  obtain ⟨shown', h4, h5⟩ := C144_indexes hcol hist hshown hi hk
  exact ⟨stream, shown', h1, h2, h4, by rw [h3]; exact h5⟩

omit [DecidableEq κ] in
/-- The tables that are not wanted stay out of such a copy. -/
theorem C144_others {want : TableName → Bool} {key : TableName → Cells → κ} {data : Keyed κ} {shown : TableName → List Cells}
    (h : Indexes key data (onlyTables want shown)) {t : TableName} (ht : want t = false) (k : κ) : data (t, k) = none := by
  cases hd : data (t, k) with
  | none => rfl
  | some r => have := ((h.2 t k r).mp hd).1; simp [onlyTables, ht] at this

/-- The hypotheses of C144 are met: as in C138, of the tables only one is wanted. -/
example (m : Mode) : ∃ c' data', LaggingSessions m (keyedSome (fun t => t = exTableName) fun _ r => r.head?) exGtidUser (fun _ => none) exTxs c' data' exTxs ∧
    (∀ t, exTwoColumns t ≠ []) ∧
    History exTwoColumns (fun t => if t = exTableName then [] else []) (exTxs.drop 1)
      (fun t => if t = exTableName then [] ++ [exRowA, exRowB] else []) ∧
    RowsShown exTwoColumns (fun t => if t = exTableName then [] else []) (fun _ => []) ∧
    Indexes (fun _ r => r.head?) (fun _ => none) (onlyTables (fun t => t = exTableName) fun _ => []) ∧
    KeysHold (fun _ r => r.head?) (onlyTables (fun t => t = exTableName) fun _ => []) (wantedChanges (fun t => t = exTableName) (exTxs.drop 1)) ∧
    data' (exTableName, some (some (.int 258))) = some [some (.int 258), none] := by
  obtain ⟨c', hc'⟩ := exTxs_lagging m (keyedSome (fun t => t = exTableName) fun _ r => r.head?) (fun _ => none)
  have hist : History exTwoColumns (fun t => if t = exTableName then [] else []) (exTxs.drop 1)
      (fun t => if t = exTableName then [] ++ [exRowA, exRowB] else []) := exTxs_history
  have hch : wantedChanges (fun t => t = exTableName) (exTxs.drop 1) =
      [(exTableName, .insert [some (.int 258), none]), (exTableName, .insert [some (.int 1), some (.tinyInt 9)])] := by
    with_unfolding_all rfl
  refine ⟨c', _, hc', fun _ => by simp [exTwoColumns], hist, exEmpty_shown, ⟨by simp [onlyTables], by simp [onlyTables]⟩, ?_, ?_⟩
  · rw [hch]
    simp [KeysHold, onBags, RowChange.onBag, onlyTables]
  · rw [dataAfter_append, dataAfter_some, dataAfter_some, hch]
    simp [onKeys, Keyed.set]

/-- A log that C138 does not allow and C144 does: a table without keys has the same row twice. -/
example : let t1 : TableName := (['d'], ['a']); let t2 : TableName := (['d'], ['b'])
    let cs : List (TableName × RowChange) := [(t2, .insert [some (.int 1)]), (t1, .insert [some (.int 1)]), (t2, .insert [some (.int 1)])]
    ¬KeysHold (fun _ r => r.head?) (fun _ => []) cs ∧
      KeysHold (fun _ r => r.head?) (onlyTables (fun t => t = t1) fun _ => []) (cs.filter fun c => c.1 = t1) := by
  simp [KeysHold, onBags, RowChange.onBag, onlyTables, List.filter]

end MysqlCdc
