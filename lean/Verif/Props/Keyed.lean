import Verif.Spec.Keyed
import Verif.Props.LaggingMaria
/-!
# C138: a copy of the tables by keys, kept by an application that may be interrupted anywhere
-/

namespace MysqlCdc

open Spec

/-- The bags are those of the reader that applies events to bags. -/
theorem takeAll_changes (names : Nat → Option TableName) (rows : TableName → List Cells) (es : List Ev) :
    (Kept.takeAll ⟨names, rows⟩ es).rows = (changesOf names es).foldl onBags rows := by
  induction es generalizing names rows with
  | nil => rfl
  | cons e es ih =>
    obtain ⟨h, ev⟩ := e
    have step : ∀ c : Kept, Kept.takeAll c ((h, ev) :: es) = Kept.takeAll (c.take ev) es := fun _ => rfl
    rw [step]
    -- the rows of one event
    have one : ∀ (id : Nat) (cs : List RowChange), ((names id).toList.flatMap fun t => cs.map fun c => (t, c)).foldl onBags rows =
        (Kept.onTable ⟨names, rows⟩ id fun rows => cs.foldl RowChange.onBag rows).rows := by
      intro id cs
      cases hn : names id with
      | none => simp [Kept.onTable, hn]
      | some table =>
        simp only [Kept.onTable, hn, Option.toList, List.flatMap_cons, List.flatMap_nil, List.append_nil, List.foldl_map]
        clear ih step
        induction cs generalizing rows with
        | nil => funext t; simp
        | cons c cs ih =>
          rw [List.foldl_cons, ih]
          funext t
          by_cases ht : t = table <;> simp [onBags, ht]
    have names_same : ∀ (id : Nat) f, (Kept.onTable ⟨names, rows⟩ id f).names = names := by
      intro id f
      unfold Kept.onTable
      split <;> rfl
    have go : ∀ (id : Nat) (cs : List RowChange), (Kept.takeAll (Kept.onTable ⟨names, rows⟩ id fun rows => cs.foldl RowChange.onBag rows) es).rows =
        (((names id).toList.flatMap fun t => cs.map fun c => (t, c)) ++ changesOf names es).foldl onBags rows := by
      intro id cs
      rw [List.foldl_append, one]
      have := ih (Kept.onTable ⟨names, rows⟩ id fun rows => cs.foldl RowChange.onBag rows).names
        (Kept.onTable ⟨names, rows⟩ id fun rows => cs.foldl RowChange.onBag rows).rows
      rw [names_same] at this
      rw [← this]
      congr 2
      exact congrArg (fun n => (⟨n, _⟩ : Kept)) (names_same id fun rows => cs.foldl RowChange.onBag rows)
    cases ev with
    | tableMap t => exact ih _ _
    | writeRows e =>
      have := go e.tableId (e.rows.map fun r => .insert r.cells)
      simp only [List.map_map, Function.comp_def] at this
      rw [changesOf, ← this]
      congr 2
      rw [Kept.take]
      congr 1
      funext rows
      rw [List.foldl_map]
      induction e.rows generalizing rows with
      | nil => simp
      | cons r rs ih => rw [List.foldl_cons, ← ih]; simp [RowChange.onBag]
    | deleteRows e =>
      have := go e.tableId (e.rows.map fun r => .delete r.cells)
      simp only [List.map_map, Function.comp_def, List.foldl_map] at this
      rw [changesOf, ← this]
      rfl
    | updateRows e =>
      have := go e.tableId (e.rows.map fun u => .update u.beforeUpdate.cells u.afterUpdate.cells)
      simp only [List.map_map, Function.comp_def, List.foldl_map] at this
      rw [changesOf, ← this]
      rfl
    | _ => exact ih _ _

variable {κ : Type} [DecidableEq κ]

/-- Changes overwrite the places of a copy that is kept by keys. -/
theorem onKeys_overwrites (key : TableName → Cells → κ) (cs : List (TableName × RowChange)) (place : TableName × κ) :
    (∃ v, ∀ d, cs.foldl (onKeys key) d place = v) ∨ ∀ d, cs.foldl (onKeys key) d place = d place := by
  induction cs with
  | nil => exact .inr fun _ => rfl
  | cons c cs ih =>
    have one : (∃ v, ∀ d, onKeys key d c place = v) ∨ ∀ d, onKeys key d c place = d place := by
      obtain ⟨t, ch⟩ := c
      cases ch with
      | insert r =>
        by_cases h : place = (t, key t r)
        · exact .inl ⟨some r, fun d => if_pos h⟩
        · exact .inr fun d => if_neg h
      | delete r =>
        by_cases h : place = (t, key t r)
        · exact .inl ⟨none, fun d => if_pos h⟩
        · exact .inr fun d => if_neg h
      | update b a =>
        by_cases h : place = (t, key t a)
        · exact .inl ⟨some a, fun d => if_pos h⟩
        · by_cases h' : place = (t, key t b)
          · exact .inl ⟨none, fun d => (if_neg h).trans (if_pos h')⟩
          · exact .inr fun d => (if_neg h).trans (if_neg h')
    rcases ih with ⟨v, hv⟩ | hsame
    · exact .inl ⟨v, fun d => hv (onKeys key d c)⟩
    · rcases one with ⟨v, hv⟩ | hone
      · exact .inl ⟨v, fun d => (hsame (onKeys key d c)).trans (hv d)⟩
      · exact .inr fun d => (hsame (onKeys key d c)).trans (hone d)

/-- **C138.** A transaction overwrites the places of a copy that is kept by keys. -/
theorem C138_overwrites (key : TableName → Cells → κ) (es : List Ev) : Overwrites (keyedTransaction key) es :=
  onKeys_overwrites key (changesOf (fun _ => none) es)

/-- One change. -/
theorem Spec.Indexes.change {key : TableName → Cells → κ} {data : Keyed κ} {rows : TableName → List Cells} (h : Indexes key data rows)
    {c : TableName × RowChange} (hk : KeysHold key rows [c]) : Indexes key (onKeys key data c) (onBags rows c) := by
  obtain ⟨table, ch⟩ := c
  obtain ⟨hn, hi⟩ := h
  have inj : ∀ t a b, a ∈ rows t → b ∈ rows t → key t a = key t b → a = b := fun t a b ha hb he => List.inj_on_of_nodup_map (hn t) ha hb he
  have nd : ∀ t, (rows t).Nodup := fun t => .of_map _ (hn t)
  -- taking a row out
  have out : ∀ r, r ∈ rows table → (((rows table).erase r).map (key table)).Nodup ∧
      ∀ k x, data.set table (key table r) none (table, k) = some x ↔ x ∈ (rows table).erase r ∧ key table x = k := by
    intro r hr
    refine ⟨(List.erase_sublist.map _).nodup (hn table), fun k x => ?_⟩
    rw [(nd table).mem_erase_iff]
    by_cases hkr : k = key table r
    · subst hkr
      simp only [Keyed.set, if_true]
      constructor
      · intro h; cases h
      · rintro ⟨⟨h1, h2⟩, h3⟩
        exact absurd (inj table x r h2 hr h3) h1
    · rw [Keyed.set, if_neg (by simpa using hkr), hi]
      constructor
      · rintro ⟨h1, h2⟩
        exact ⟨⟨fun h => hkr (h ▸ h2.symm), h1⟩, h2⟩
      · rintro ⟨⟨-, h1⟩, h2⟩
        exact ⟨h1, h2⟩
  -- putting a row in
  have into : ∀ (d : Keyed κ) (bag bag' : List Cells) (r : Cells), (bag.map (key table)).Nodup → (∀ k x, d (table, k) = some x ↔ x ∈ bag ∧ key table x = k) →
      key table r ∉ bag.map (key table) → bag'.Perm (r :: bag) → (bag'.map (key table)).Nodup ∧
      ∀ k x, d.set table (key table r) (some r) (table, k) = some x ↔ x ∈ bag' ∧ key table x = k := by
    intro d bag bag' r hb hd hr hp
    refine ⟨(hp.map _).nodup_iff.2 (by rw [List.map_cons, List.nodup_cons]; exact ⟨hr, hb⟩), fun k x => ?_⟩
    rw [hp.mem_iff, List.mem_cons]
    by_cases hkr : k = key table r
    · subst hkr
      simp only [Keyed.set, if_true]
      constructor
      · intro h
        obtain rfl := Option.some.inj h
        exact ⟨.inl rfl, rfl⟩
      · rintro ⟨rfl | h1, h2⟩
        · rfl
        · exact absurd (List.mem_map.2 ⟨x, h1, h2⟩) hr
    · rw [Keyed.set, if_neg (by simpa using hkr), hd]
      constructor
      · rintro ⟨h1, h2⟩
        exact ⟨.inr h1, h2⟩
      · rintro ⟨rfl | h1, h2⟩
        · exact absurd h2.symm hkr
        · exact ⟨h1, h2⟩
  have other : ∀ (d : Keyed κ) k v t, t ≠ table → ∀ k', d.set table k v (t, k') = d (t, k') := by
    intro d k v t ht k'
    exact if_neg (by simp [ht])
  have fin : ∀ (d : Keyed κ) (bag : List Cells), (∀ t, t ≠ table → ∀ k, d (t, k) = data (t, k)) → (onBags rows (table, ch)) table = bag →
      (bag.map (key table)).Nodup → (∀ k x, d (table, k) = some x ↔ x ∈ bag ∧ key table x = k) → Indexes key d (onBags rows (table, ch)) := by
    intro d bag h1 h2 h3 h4
    constructor
    · intro t
      by_cases ht : t = table
      · subst ht; rw [h2]; exact h3
      · rw [onBags, if_neg ht]; exact hn t
    · intro t k r
      by_cases ht : t = table
      · subst ht; rw [h2]; exact h4 k r
      · rw [onBags, if_neg ht, h1 t ht]; exact hi t k r
  cases ch with
  | insert r =>
    obtain ⟨h1, h2⟩ := into data (rows table) (rows table ++ [r]) r (hn table) (hi table) hk.1 (List.perm_append_singleton _ _)
    exact fin _ _ (other data _ _) (if_pos rfl) h1 h2
  | delete r =>
    obtain ⟨h1, h2⟩ := out r hk.1
    exact fin _ _ (other data _ _) (if_pos rfl) h1 h2
  | update b a =>
    obtain ⟨h1, h2⟩ := out b hk.1.1
    obtain ⟨h3, h4⟩ := into _ _ (a :: (rows table).erase b) a h1 h2 hk.1.2 (.refl _)
    exact fin _ _ (fun t ht k => (other _ _ _ t ht k).trans (other _ _ _ t ht k)) (if_pos rfl) h3 h4

theorem Spec.Indexes.changes {key : TableName → Cells → κ} {data : Keyed κ} {rows : TableName → List Cells} (h : Indexes key data rows)
    {cs : List (TableName × RowChange)} (hk : KeysHold key rows cs) : Indexes key (cs.foldl (onKeys key) data) (cs.foldl onBags rows) := by
  induction cs generalizing data rows with
  | nil => exact h
  | cons c cs ih => exact ih (h.change ⟨hk.1, trivial⟩) hk.2

/-- The changes that transactions make. -/
def changesOfTxs {γ : Type} (txs : List (Tx γ)) : List (TableName × RowChange) := txs.flatMap fun t => changesOf (fun _ => none) t.2

theorem dataAfter_keyed {γ : Type} (key : TableName → Cells → κ) (data : Keyed κ) (txs : List (Tx γ)) :
    dataAfter (keyedTransaction key) data txs = (changesOfTxs txs).foldl (onKeys key) data := by
  induction txs generalizing data with
  | nil => rfl
  | cons t txs ih =>
    rw [changesOfTxs, List.flatMap_cons, List.foldl_append]
    exact ih _

theorem dataAfter_bags {γ : Type} (copy : Kept) (txs : List (Tx γ)) :
    (dataAfter Kept.transaction copy txs).rows = (changesOfTxs txs).foldl onBags copy.rows := by
  induction txs generalizing copy with
  | nil => rfl
  | cons t txs ih =>
    rw [changesOfTxs, List.flatMap_cons, List.foldl_append, ← takeAll_changes]
    exact ih _

omit [DecidableEq κ] in
theorem keysHold_prefix {key : TableName → Cells → κ} {rows : TableName → List Cells} {cs ds : List (TableName × RowChange)}
    (h : KeysHold key rows (cs ++ ds)) : KeysHold key rows cs := by
  induction cs generalizing rows with
  | nil => trivial
  | cons c cs ih => exact ⟨h.1, ih h.2⟩

/-- **C138.** Where no two rows of a table have the same key, a copy by keys that applies each transaction once has exactly the rows of the server's tables, each
under its key. -/
theorem C138_indexes {γ : Type} {key : TableName → Cells → κ} {columns : TableName → List (UInt8 × Nat)} (hcol : ∀ t, columns t ≠ [])
    {rows rows' : TableName → List (List Stored)} {txs : List (Tx γ)} (hist : History columns rows txs rows') {data : Keyed κ}
    {shown : TableName → List Cells} (hshown : RowsShown columns rows shown) (hi : Indexes key data shown) (hk : KeysHold key shown (changesOfTxs txs)) :
    ∃ shown', RowsShown columns rows' shown' ∧ Indexes key (dataAfter (keyedTransaction key) data txs) shown' := by
  refine ⟨(dataAfter Kept.transaction ⟨fun _ => none, shown⟩ txs).rows, hist.shown hcol hshown, ?_⟩
  rw [dataAfter_keyed, dataAfter_bags]
  exact hi.changes hk

/-- What a place held after some of the transactions. -/
theorem keyed_place {γ : Type} {key : TableName → Cells → κ} {columns : TableName → List (UInt8 × Nat)} (hcol : ∀ t, columns t ≠ [])
    {rows rows' : TableName → List (List Stored)} {done left first : List (Tx γ)} (hist : History columns rows (done ++ left) rows') {data : Keyed κ}
    {shown : TableName → List Cells} (hshown : RowsShown columns rows shown) (hi : Indexes key data shown)
    (hk : KeysHold key shown (changesOfTxs (done ++ left))) (hf : first <+: left) :
    ∃ between shown', History columns rows (done ++ first) between ∧ RowsShown columns between shown' ∧
      Indexes key (dataAfter (keyedTransaction key) data (done ++ first)) shown' := by
  obtain ⟨last, rfl⟩ := hf
  rw [← List.append_assoc] at hist hk
  obtain ⟨between, h1, -⟩ := hist.split
  rw [changesOfTxs, List.flatMap_append] at hk
  obtain ⟨shown', h2, h3⟩ := C138_indexes hcol h1 hshown hi (keysHold_prefix hk)
  exact ⟨between, shown', h1, h2, h3⟩

/-- **C138.** A copy of the tables of a MySQL server by keys, kept by an application that may stop anywhere, also between applying and committing. Under each key the
copy has what the server's table had under that key at some time since the transactions that are recorded; when all are recorded, it has exactly the rows of
the server's tables, each under its key. -/
theorem C138_mysql {key : TableName → Cells → κ} {m : Mode} {c c' : Client} {data data' : Keyed κ} {log log' : List (Tx Gtid)}
    (h : LaggingSessions m (keyedTransaction key) c data log c' data' log') (set : GtidSet) (hs : c.options.binlog.startingStrategy = .fromGtid)
    (hset : c.options.binlog.gtidSet = some set) (hw : Wf set) (ho : AllOrdered set) (hg : ∀ t ∈ log', GtidOk t.1)
    (hd : (log'.map fun t => gtidKey t.1).Nodup) (old new : List (Tx Gtid)) (hold : old <+: log) (hnew : log' = old ++ new)
    (hhas : ∀ t ∈ log', Has set t.1.sourceId.data t.1.transactionId ↔ t ∈ old)
    {columns : TableName → List (UInt8 × Nat)} (hcol : ∀ t, columns t ≠ []) {rows rows' : TableName → List (List Stored)}
    (hist : History columns rows new rows') {shown : TableName → List Cells} (hshown : RowsShown columns rows shown) (hi : Indexes key data shown)
    (hk : KeysHold key shown (changesOfTxs new)) :
    ∃ done left set', new = done ++ left ∧ c'.options.binlog.gtidSet = some set' ∧
      (∀ t ∈ log', Has set' t.1.sourceId.data t.1.transactionId ↔ t ∉ left) ∧
      (∀ t k, ∃ first between shown', first <+: left ∧ History columns rows (done ++ first) between ∧ RowsShown columns between shown' ∧
        ∀ r, data' (t, k) = some r ↔ r ∈ shown' t ∧ key t r = k) ∧
      ((∀ t ∈ log', Has set' t.1.sourceId.data t.1.transactionId) → ∃ shown', RowsShown columns rows' shown' ∧ Indexes key data' shown') := by
  obtain ⟨done, left, set', rfl, h1, h2, h3, h4⟩ := C137_places h set hs hset hw ho hg hd old new hold hnew hhas fun t _ => C138_overwrites key t.2
  refine ⟨done, left, set', rfl, h1, h2, fun t k => ?_, fun hall => ?_⟩
  · obtain ⟨first, h5, h6⟩ := h3 (t, k)
    obtain ⟨between, shown', h7, h8, h9⟩ := keyed_place hcol hist hshown hi hk h5
    exact ⟨first, between, shown', h5, h7, h8, fun r => by rw [h6]; exact h9.2 t k r⟩
  · rw [h4 hall]
    exact C138_indexes hcol hist hshown hi hk

open Classical in
/-- **C138.** Once the application has taken one session whole, the copy has exactly the rows of the server's tables, whatever was applied twice before. -/
theorem C138_mysql_catches_up {key : TableName → Cells → κ} {m : Mode} {c c' : Client} {data data' : Keyed κ} {log log' : List (Tx Gtid)}
    (h : LaggingSessions m (keyedTransaction key) c data log c' data' log') (set : GtidSet) (hs : c.options.binlog.startingStrategy = .fromGtid)
    (hset : c.options.binlog.gtidSet = some set) (hw : Wf set) (ho : AllOrdered set) (hg : ∀ t ∈ log', GtidOk t.1)
    (hd : (log'.map fun t => gtidKey t.1).Nodup) (old new : List (Tx Gtid)) (hold : old <+: log) (hnew : log' = old ++ new)
    (hhas : ∀ t ∈ log', Has set t.1.sourceId.data t.1.transactionId ↔ t ∈ old)
    {columns : TableName → List (UInt8 × Nat)} (hcol : ∀ t, columns t ≠ []) {rows rows' : TableName → List (List Stored)}
    (hist : History columns rows new rows') {shown : TableName → List Cells} (hshown : RowsShown columns rows shown) (hi : Indexes key data shown)
    (hk : KeysHold key shown (changesOfTxs new))
    (crypto : Crypto) (chan : Channel) (hu : Usable crypto c'.options) (hwr : chan.writes = []) (checksum : ChecksumType) (bytes : Bytes)
    (hin : LetsIn crypto c'.options False none checksum bytes) (set' : GtidSet) (hset' : c'.options.binlog.gtidSet = some set')
    (parts : List (Part Gtid)) (hp : ∀ p ∈ parts, p.Ok MysqlTx)
    (hlog : parts.flatMap Part.txs = log'.filter fun t => ¬Has set' t.1.sourceId.data t.1.transactionId)
    (slices : List Bytes) (st : LogState) (hbytes : LogOf (.start checksum) (flat parts) slices st)
    (hsize : ∀ x ∈ slices, x.length < 2 ^ 24 - 20) (n : Nat) (rest : Bytes)
    (hinput : chan.input = bytes ++ frames (eventPackets n (flat parts) slices) ++ rest) :
    ∃ stream shown', c'.replicate m crypto (.ok chan) = (.ok stream, c'.afresh) ∧ (∃ stream', stream.Yields m ((flat parts).map .ok) stream') ∧
      RowsShown columns rows' shown' ∧ Indexes key ((whole (flat parts)).foldl (keyedTransaction key) data') shown' := by
  obtain ⟨stream, h1, h2, -, h3⟩ := C137_catches_up h set hs hset hw ho hg hd old new hold hnew hhas (fun t _ => C138_overwrites key t.2) crypto chan hu hwr
    checksum bytes hin set' hset' parts hp hlog slices st hbytes hsize n rest hinput
  obtain ⟨shown', h4, h5⟩ := C138_indexes hcol hist hshown hi hk
  exact ⟨stream, shown', h1, h2, h4, by rw [h3]; exact h5⟩

/-- **C138.** The same of the tables of a MariaDB, with an application that commits the first and the last event of each transaction. -/
theorem C138_mariadb {key : TableName → Cells → κ} {m : Mode} {c c' : Client} {data data' : Keyed κ} {log log' : List (Tx MGtid)}
    (h : LaggingSessionsMaria m (keyedTransaction key) c data log c' data' log') (list : GtidList) (hs : c.options.binlog.startingStrategy = .fromGtid)
    (hlist : c.options.binlog.gtidList = some list) (hnone : c.options.binlog.gtidSet = none)
    (hone : (list.gtids.map (·.domainId)).Nodup) (hin : ∀ g ∈ list.gtids, g ∈ log'.map (·.1) → g ∈ log.map (·.1)) (hd : (log'.map (·.1)).Nodup)
    (new : List (Tx MGtid)) (hnew : ∀ t ∈ new, t ∈ log') (hsend : toSend list.gtids (log'.map (·.1)) = new.map (·.1))
    {columns : TableName → List (UInt8 × Nat)} (hcol : ∀ t, columns t ≠ []) {rows rows' : TableName → List (List Stored)}
    (hist : History columns rows new rows') {shown : TableName → List Cells} (hshown : RowsShown columns rows shown) (hi : Indexes key data shown)
    (hk : KeysHold key shown (changesOfTxs new)) :
    ∃ done left list', new = done ++ left ∧ c'.options.binlog.gtidList = some list' ∧ toSend list'.gtids (log'.map (·.1)) = left.map (·.1) ∧
      (∀ t k, ∃ first between shown', first <+: left ∧ History columns rows (done ++ first) between ∧ RowsShown columns between shown' ∧
        ∀ r, data' (t, k) = some r ↔ r ∈ shown' t ∧ key t r = k) ∧
      (toSend list'.gtids (log'.map (·.1)) = [] → ∃ shown', RowsShown columns rows' shown' ∧ Indexes key data' shown') := by
  obtain ⟨done, left, list', rfl, h1, h2, h3, h4⟩ := C137_maria_places h list hs hlist hnone hone hin hd new hnew hsend fun t _ => C138_overwrites key t.2
  refine ⟨done, left, list', rfl, h1, h2, fun t k => ?_, fun hall => ?_⟩
  · obtain ⟨first, h5, h6⟩ := h3 (t, k)
    obtain ⟨between, shown', h7, h8, h9⟩ := keyed_place hcol hist hshown hi hk h5
    exact ⟨first, between, shown', h5, h7, h8, fun r => by rw [h6]; exact h9.2 t k r⟩
  · rw [h4 hall]
    exact C138_indexes hcol hist hshown hi hk

/-- **C138.** With a MariaDB, once the application has taken one session whole, the copy has exactly the rows of the server's tables. -/
theorem C138_mariadb_catches_up {key : TableName → Cells → κ} {m : Mode} {c c' : Client} {data data' : Keyed κ} {log log' : List (Tx MGtid)}
    (h : LaggingSessionsMaria m (keyedTransaction key) c data log c' data' log') (list : GtidList) (hs : c.options.binlog.startingStrategy = .fromGtid)
    (hlist : c.options.binlog.gtidList = some list) (hnone : c.options.binlog.gtidSet = none)
    (hone : (list.gtids.map (·.domainId)).Nodup) (hin : ∀ g ∈ list.gtids, g ∈ log'.map (·.1) → g ∈ log.map (·.1)) (hd : (log'.map (·.1)).Nodup)
    (new : List (Tx MGtid)) (hnew : ∀ t ∈ new, t ∈ log') (hsend : toSend list.gtids (log'.map (·.1)) = new.map (·.1))
    {columns : TableName → List (UInt8 × Nat)} (hcol : ∀ t, columns t ≠ []) {rows rows' : TableName → List (List Stored)}
    (hist : History columns rows new rows') {shown : TableName → List Cells} (hshown : RowsShown columns rows shown) (hi : Indexes key data shown)
    (hk : KeysHold key shown (changesOfTxs new))
    (crypto : Crypto) (chan : Channel) (hu : Usable crypto c'.options) (hwr : chan.writes = []) (checksum : ChecksumType) (bytes : Bytes)
    (hlets : LetsIn crypto c'.options True none checksum bytes) (list' : GtidList) (hlist' : c'.options.binlog.gtidList = some list')
    (parts : List (Part MGtid)) (hp : ∀ p ∈ parts, p.Ok FlaggedTx)
    (hlog : (parts.flatMap Part.txs).map (·.1) = toSend list'.gtids (log'.map (·.1))) (hmem : ∀ t ∈ parts.flatMap Part.txs, t ∈ log')
    (slices : List Bytes) (st : LogState) (hbytes : LogOf (.start checksum) (flat parts) slices st)
    (hsize : ∀ x ∈ slices, x.length < 2 ^ 24 - 20) (n : Nat) (rest : Bytes)
    (hinput : chan.input = bytes ++ frames (eventPackets n (flat parts) slices) ++ rest) :
    ∃ stream shown', c'.replicate m crypto (.ok chan) = (.ok stream, c'.afresh) ∧ (∃ stream', stream.Yields m ((flat parts).map .ok) stream') ∧
      RowsShown columns rows' shown' ∧ Indexes key ((whole (flat parts)).foldl (keyedTransaction key) data') shown' := by
  obtain ⟨stream, h1, h2, h3⟩ := C137_maria_catches_up h list hs hlist hnone hone hin hd new hnew hsend (fun t _ => C138_overwrites key t.2) crypto chan hu hwr
    checksum bytes hlets list' hlist' parts hp hlog hmem slices st hbytes hsize n rest hinput
  obtain ⟨shown', h4, h5⟩ := C138_indexes hcol hist hshown hi hk
  exact ⟨stream, shown', h1, h2, h4, by rw [h3]; exact h5⟩

/-- The hypotheses of C138 are met: the key is the first column; the transaction that inserts two rows is applied twice, since after the first time only its
first two events were committed. -/
example (m : Mode) : ∃ c' data', LaggingSessions m (keyedTransaction fun _ r => r.head?) exGtidUser (fun _ => none) exTxs c' data' exTxs ∧
    exGtidUser.options.binlog.startingStrategy = .fromGtid ∧ exGtidUser.options.binlog.gtidSet = some exSet ∧ Wf exSet ∧ AllOrdered exSet ∧
    (∀ t ∈ exTxs, GtidOk t.1) ∧ (exTxs.map fun t => gtidKey t.1).Nodup ∧ (∀ t, exTwoColumns t ≠ []) ∧ exTxs.take 1 <+: exTxs ∧
    exTxs = exTxs.take 1 ++ exTxs.drop 1 ∧ (∀ t ∈ exTxs, Has exSet t.1.sourceId.data t.1.transactionId ↔ t ∈ exTxs.take 1) ∧
    History exTwoColumns (fun t => if t = exTableName then [] else []) (exTxs.drop 1)
      (fun t => if t = exTableName then [] ++ [exRowA, exRowB] else []) ∧
    RowsShown exTwoColumns (fun t => if t = exTableName then [] else []) (fun _ => []) ∧
    Indexes (fun _ r => r.head?) (fun _ => none) (fun _ => []) ∧ KeysHold (fun _ r => r.head?) (fun _ => []) (changesOfTxs (exTxs.drop 1)) ∧
    data' (exTableName, some (some (.int 258))) = some [some (.int 258), none] := by
  obtain ⟨c', hc'⟩ := exTxs_lagging m (keyedTransaction fun _ r => r.head?) (fun _ => none)
  have hist : History exTwoColumns (fun t => if t = exTableName then [] else []) (exTxs.drop 1)
      (fun t => if t = exTableName then [] ++ [exRowA, exRowB] else []) := exTxs_history
  have hch : changesOfTxs (exTxs.drop 1) = [(exTableName, .insert [some (.int 258), none]), (exTableName, .insert [some (.int 1), some (.tinyInt 9)])] := by
    with_unfolding_all rfl
  refine ⟨c', _, hc', rfl, rfl, exSet_wf, exSet_ordered, exTxs_ok, by decide +kernel, fun _ => by simp [exTwoColumns], List.take_prefix _ _,
    (List.take_append_drop 1 _).symm, exTxs_has, hist, exEmpty_shown, ⟨by simp, by simp⟩, ?_, ?_⟩
  · rw [hch]
    simp [KeysHold, onBags, RowChange.onBag]
  · rw [dataAfter_append, dataAfter_keyed, dataAfter_keyed, hch]
    simp [onKeys, Keyed.set]

end MysqlCdc
