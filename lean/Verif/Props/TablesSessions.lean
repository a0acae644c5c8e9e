import Verif.Props.Tables
import Verif.Props.CopyMaria
/-!
# C121, C122: a copy of the tables over broken sessions
-/

namespace MysqlCdc

open Spec

/-- Events that are written as the records of changes do to a copy what the changes do to the tables. -/
theorem changes_taken {columns : TableName → List (UInt8 × Nat)} (hcol : ∀ t, columns t ≠ []) {es : List Ev} {slices : List Bytes} {st st' : LogState}
    (hw : LogOf st es slices st') {s s' : Server} {images : List (TableName × List Stored)}
    (hc : Changes columns s ((es.map (·.1)).zip slices) images s') {p : EventParser} (k : Knows st p) (k' : Knows s.log p) (hn : s.Named columns)
    {c : Kept} (h : Shows columns s c) : Shows columns s' (c.takeAll es) := by
  induction hw generalizing s images p c with
  | nil =>
    cases hc
    exact h
  | @cons st st1 st2 e slice es slices _ hw _ ih =>
    rw [List.map_cons, List.zip_cons_cons] at hc
    cases hc with
    | cons _ hx ht =>
      obtain ⟨p1, g1, g2⟩ := k.decode ⟨true⟩ hw
      obtain ⟨r, p2, i1, i2, i3, -, i4⟩ := change_decoded hcol hx ⟨true⟩ k' hn
      simp only at i1
      rw [g1] at i1
      cases r with
      | error e' => simp at i1
      | ok e' =>
        simp only [Prod.mk.injEq, Res.ok.injEq] at i1
        obtain ⟨rfl, rfl⟩ := i1
        have := ih ht g2 i2 i3 (i4 _ _ rfl h)
        exact this

/-- What a transaction does to the copy is what it does to the tables. -/
theorem Spec.History.shown {γ : Type} {columns : TableName → List (UInt8 × Nat)} (hcol : ∀ t, columns t ≠ []) {txs : List (Tx γ)}
    {rows rows' : TableName → List (List Stored)} (h : History columns rows txs rows') {c : Kept} (hc : RowsShown columns rows c.rows) :
    RowsShown columns rows' (dataAfter Kept.transaction c txs).rows := by
  induction h generalizing c with
  | nil => exact hc
  | cons hw hch _ ih =>
    have := changes_taken hcol hw hch (Knows.start _) (Knows.start _) (fun _ _ h => by cases h) (c := { c with names := fun _ => none }) ⟨rfl, hc⟩
    exact ih this.rows

theorem Spec.History.split {γ : Type} {columns : TableName → List (UInt8 × Nat)} {txs more : List (Tx γ)} {rows rows' : TableName → List (List Stored)}
    (h : History columns rows (txs ++ more) rows') : ∃ between, History columns rows txs between ∧ History columns between more rows' := by
  induction txs generalizing rows with
  | nil => exact ⟨rows, .nil, h⟩
  | cons t txs ih =>
    cases h with
    | cons hw hc ht =>
      obtain ⟨between, h1, h2⟩ := ih ht
      exact ⟨between, .cons hw hc h1, h2⟩

theorem Spec.History.append {γ : Type} {columns : TableName → List (UInt8 × Nat)} {txs more : List (Tx γ)} {rows between rows' : TableName → List (List Stored)}
    (h : History columns rows txs between) (h' : History columns between more rows') : History columns rows (txs ++ more) rows' := by
  induction h with
  | nil => exact h'
  | cons hw hc _ ih => exact .cons hw hc (ih h')

/-- **C121.** An application has a copy of the tables of a MySQL server as they were after some first transactions of the log (`old`), which are the
ones recorded in its GTID set. It keeps the copy by doing to it what the events of a transaction say when the last of them has come, and commits every event. After any
number of sessions, broken anywhere, and of failed attempts, while the log grows, the copy shows the tables as they were after some first
transactions (`old` and `done`), and these are exactly the ones recorded; if all transactions of the log are recorded, it shows the tables as they are. -/
theorem C121_copy {m : Mode} {c c' : Client} {copy copy' : Kept} {log log' : List (Tx Gtid)}
    (h : CopySessions m Kept.transaction c copy log c' copy' log') (set : GtidSet) (hs : c.options.binlog.startingStrategy = .fromGtid)
    (hset : c.options.binlog.gtidSet = some set) (hw : Wf set) (ho : AllOrdered set) (hg : ∀ t ∈ log', GtidOk t.1)
    (hd : (log'.map fun t => gtidKey t.1).Nodup) {columns : TableName → List (UInt8 × Nat)} (hcol : ∀ t, columns t ≠ [])
    (old new : List (Tx Gtid)) (hold : old <+: log) (hnew : log' = old ++ new)
    (hhas : ∀ t ∈ log', Has set t.1.sourceId.data t.1.transactionId ↔ t ∈ old)
    {rows rows' : TableName → List (List Stored)} (hist : History columns rows new rows') (hcopy : RowsShown columns rows copy.rows) :
    ∃ done later between set', new = done ++ later ∧ History columns rows done between ∧ History columns between later rows' ∧
      RowsShown columns between copy'.rows ∧ c'.options.binlog.gtidSet = some set' ∧
      (∀ t ∈ log', Has set' t.1.sourceId.data t.1.transactionId ↔ t ∈ old ++ done) ∧
      ((∀ t ∈ log', Has set' t.1.sourceId.data t.1.transactionId) → RowsShown columns rows' copy'.rows) := by
  obtain ⟨done, later, set', h0, h1, h2, h3, h4⟩ := copySessions_seen h set hs hset hw ho hg hd old hold hhas
  have hsplit : new = done ++ later := List.append_cancel_left (hnew.symm.trans h0)
  rw [hsplit] at hist
  obtain ⟨between, g1, g2⟩ := hist.split
  have hshow : RowsShown columns between copy'.rows := by
    rw [h1]
    exact g1.shown hcol hcopy
  refine ⟨done, later, between, set', hsplit, g1, g2, hshow, h2, h3, fun hall => ?_⟩
  rw [h4 hall] at g2
  cases g2
  exact hshow

/-- C122, where it holds (where C119 does): the server, told the recorded list, would send exactly the transactions that the copy does not have. Missing:
transactions with statements before the last event, see `C122_false`. -/
theorem C122_copy_partial {m : Mode} {c c' : Client} {copy copy' : Kept} {log log' : List (Tx MGtid)}
    (h : CopySessionsMaria m QuietFlaggedTx Kept.transaction c copy log c' copy' log') (list : GtidList)
    (hs : c.options.binlog.startingStrategy = .fromGtid) (hlist : c.options.binlog.gtidList = some list) (hnone : c.options.binlog.gtidSet = none)
    (hone : (list.gtids.map (·.domainId)).Nodup) (hin : ∀ g ∈ list.gtids, g ∈ log'.map (·.1) → g ∈ log.map (·.1)) (hd : (log'.map (·.1)).Nodup)
    {columns : TableName → List (UInt8 × Nat)} (hcol : ∀ t, columns t ≠ []) (old new : List (Tx MGtid)) (hnew : log' = old ++ new)
    (hsend : toSend list.gtids (log'.map (·.1)) = new.map (·.1))
    {rows rows' : TableName → List (List Stored)} (hist : History columns rows new rows') (hcopy : RowsShown columns rows copy.rows) :
    ∃ done later between list', new = done ++ later ∧ History columns rows done between ∧ History columns between later rows' ∧
      RowsShown columns between copy'.rows ∧ c'.options.binlog.gtidList = some list' ∧ toSend list'.gtids (log'.map (·.1)) = later.map (·.1) ∧
      (toSend list'.gtids (log'.map (·.1)) = [] → RowsShown columns rows' copy'.rows) := by
  obtain ⟨done, later, list', rfl, h1, h2, h3⟩ := copySessionsMaria_seen h list hs hlist hnone hone hin hd old new hnew hsend
  obtain ⟨between, g1, g2⟩ := hist.split
  have hshow : RowsShown columns between copy'.rows := by
    rw [h1]
    exact g1.shown hcol hcopy
  refine ⟨done, later, between, list', rfl, g1, g2, hshow, h2, h3, fun hnil => ?_⟩
  rw [h3, List.map_eq_nil_iff] at hnil
  subst hnil
  cases g2
  exact hshow

/-! ## Examples -/

/-- The events of the insertion of two rows and the end of the transaction, and their records. -/
def exInsert : List Ev :=
  [(exTyped 19, .tableMap ⟨7, "db".toList, "t".toList, [3, 1], [0, 0], [false, true], none⟩),
    (exTyped 30, .writeRows ⟨7, 1, 2, [true, true], [⟨[some (.int 258), none]⟩, ⟨[some (.int 1), some (.tinyInt 9)]⟩]⟩), (exTyped 16, .xid ⟨7⟩)]

def exInsertRows : Bytes := [7, 0, 0, 0, 0, 0] ++ [1, 0] ++ [5, 0, 1, 2, 3] ++ [2] ++ [3] ++ ([2, 2, 1, 0, 0] ++ [0, 1, 0, 0, 0, 9])

def exInsertSlices : List Bytes := [exTableMap ++ exSum, exInsertRows ++ exSum, (le 8 7 ++ []) ++ exSum]

theorem exSums (body : Bytes) : WithChecksum .crc32 body (body ++ exSum) := ⟨exSum, rfl, rfl⟩

theorem exInsert_written : ∃ st, LogOf (.start .crc32) exInsert exInsertSlices st :=
  ⟨_, .cons (by unfold HeaderFits; decide) (.tableMap (columns := [(3, 0), (1, 0)]) rfl exTableMap_body (exSums _) (.inl ⟨rfl, rfl⟩))
    (.cons (by unfold HeaderFits; decide) (.writeRows (version := 2) (columns := [(3, 0), (1, 0)]) (.inr ⟨rfl, rfl⟩) rfl (.inl (by decide)) sampleRowsBody (exSums _))
    (.cons (by unfold HeaderFits; decide) (.plain (.xid (xid := 7) (extra := []) (by decide)) (exSums _)) .nil))⟩

theorem exInsert_made (rows : List (List Stored)) : ∃ log names images,
    Changes exTwoColumns (exHolder (.start .crc32) (fun _ => none) rows) ((exInsert.map (·.1)).zip exInsertSlices) images
      (exHolder log names (rows ++ [exRowA, exRowB])) := by
  refine ⟨_, _, _, .cons (by unfold HeaderFits; decide) (.announce (t := ⟨7, "db".toList, "t".toList, [3, 1], [0, 0], [false, true], none⟩)
    (.tableMap (columns := [(3, 0), (1, 0)]) rfl exTableMap_body (exSums _) (.inl ⟨rfl, rfl⟩)) ⟨rfl, rfl⟩)
    (.cons (by unfold HeaderFits; decide) (.insert (version := 2) (tableId := 7) (flags := 1) (table := exTableName)
      (rows := [exRowA, exRowB]) (rows' := rows ++ [exRowA, exRowB]) (body := exInsertRows) (.inr ⟨rfl, rfl⟩) rfl ?_ (exSums _) ?_ exHolder_sets)
    (.cons (by unfold HeaderFits; decide) (.other (e := .xid ⟨7⟩) (.plain (.xid (xid := 7) (extra := []) (by decide)) (exSums _)) trivial) .nil))⟩
  · exact .mk rfl (.v2 (extra := [1, 2, 3]) (count := [2]) (by decide) (by decide) (by decide) (lenEnc_one (by decide) rfl))
      (bitmapLE_of_check rfl (by decide)) (.cons exRowA_image (.cons exRowB_image .nil))
  · exact .of_eq (by rw [exHolder]; simp)

/-- Events that do not speak of rows, before other records. -/
theorem exOthers {columns : TableName → List (UInt8 × Nat)} {front : List Ev} {slices : List Bytes} {st st' : LogState} (hw : LogOf st front slices st')
    (hn : ∀ e ∈ front, NoRows e.2) {names : Nat → Option TableName} {rows : TableName → List (List Stored)} {records : List (EventHeader × Bytes)}
    {images : List (TableName × List Stored)} {s : Server} (h : Changes columns ⟨st', names, rows⟩ records images s) :
    Changes columns ⟨st, names, rows⟩ ((front.map (·.1)).zip slices ++ records) images s := by
  induction hw with
  | nil => exact h
  | cons hf hw _ ih =>
    have := Changes.cons hf (.other (s := ⟨_, names, rows⟩) hw (hn _ (by simp))) (ih (fun e he => hn e (by simp [he])) h)
    exact this

theorem logOf_append {a b : List Ev} {sa sb : List Bytes} {st st1 st2 : LogState} (h : LogOf st a sa st1) (h' : LogOf st1 b sb st2) :
    LogOf st (a ++ b) (sa ++ sb) st2 := by
  induction h with
  | nil => exact h'
  | cons hf hw _ ih => exact .cons hf hw (ih h')

theorem headers_length {a : List Ev} {sa : List Bytes} {st st1 : LogState} (h : LogOf st a sa st1) : (a.map (·.1)).length = sa.length := by
  induction h with
  | nil => rfl
  | cons hf hw _ ih => simpa using ih

/-- A transaction that inserts two rows, after events that do not speak of rows. -/
theorem exInsert_history {γ : Type} (g : γ) {front : List Ev} {slices : List Bytes} (hw : LogOf (.start .crc32) front slices (.start .crc32))
    (hn : ∀ e ∈ front, NoRows e.2) (rows : List (List Stored)) :
    History exTwoColumns (fun t => if t = exTableName then rows else []) [(g, front ++ exInsert)]
      (fun t => if t = exTableName then rows ++ [exRowA, exRowB] else []) := by
  obtain ⟨st, h1⟩ := exInsert_written
  obtain ⟨log, names, images, h2⟩ := exInsert_made rows
  refine .cons (logOf_append hw h1) (images := images) (s := exHolder log names (rows ++ [exRowA, exRowB])) ?_ .nil
  rw [List.map_append, List.zip_append (headers_length hw)]
  exact exOthers hw hn h2

theorem exEmpty_shown : RowsShown exTwoColumns (fun t => if t = exTableName then [] else []) (fun _ => []) := fun t => ⟨[], by simp, .refl _⟩

theorem exInsert_not_shown : ¬RowsShown exTwoColumns (fun t => if t = exTableName then [] ++ [exRowA, exRowB] else []) (fun _ => []) := by
  intro h
  obtain ⟨shown, h1, h2⟩ := h exTableName
  simp only [if_pos] at h1
  have := h1.length_eq
  rw [h2.length_eq] at this
  simp at this

/-- What the transactions of the example do to the rows. -/
theorem exTxs_history : History exTwoColumns (fun t => if t = exTableName then [] else []) (exTxs.drop 1)
    (fun t => if t = exTableName then [] ++ [exRowA, exRowB] else []) := by
  have h1 := exInsert_history (⟨exUuid, 5⟩ : Gtid) (front := [(exTyped 33, exGtid 5), (exTyped 2, exQuery "BEGIN")])
    (.cons (by unfold HeaderFits; decide) (exGtid_written _ 5 (by decide)) (.cons (by unfold HeaderFits; decide) (exQuery_written _ _) .nil))
    (by simp [NoRows, exGtid, exQuery]) []
  have w2 : LogOf (.start .crc32) [(exTyped 33, exGtid 8), (exTyped 2, exQuery "CREATE")] _ (.start .crc32) :=
    .cons (by unfold HeaderFits; decide) (exGtid_written _ 8 (by decide)) (.cons (by unfold HeaderFits; decide) (exQuery_written _ _) .nil)
  have h2 : History exTwoColumns (fun t => if t = exTableName then [] ++ [exRowA, exRowB] else [])
      [((⟨exUuid, 8⟩ : Gtid), [(exTyped 33, exGtid 8), (exTyped 2, exQuery "CREATE")])]
      (fun t => if t = exTableName then [] ++ [exRowA, exRowB] else []) := by
    refine .cons w2 (images := []) (s := ⟨.start .crc32, fun _ => none, _⟩) ?_ .nil
    have := exOthers (columns := exTwoColumns) (names := fun _ => none) (rows := fun t => if t = exTableName then [] ++ [exRowA, exRowB] else [])
      w2 (by simp [NoRows, exGtid, exQuery]) .nil
    rwa [List.append_nil] at this
  have := h1.append h2
  exact this

/-- The sessions of the example of C117: the first ends within the second transaction, an attempt fails, the log grows. The transactions insert two rows and
create a table. -/
example (m : Mode) : ∃ c' copy', CopySessions m Kept.transaction exGtidUser ⟨fun _ => none, fun _ => []⟩ (exTxs.take 2) c' copy' exTxs ∧
    exGtidUser.options.binlog.startingStrategy = .fromGtid ∧ exGtidUser.options.binlog.gtidSet = some exSet ∧ Wf exSet ∧ AllOrdered exSet ∧
    (∀ t ∈ exTxs, GtidOk t.1) ∧ (exTxs.map fun t => gtidKey t.1).Nodup ∧ (∀ t, exTwoColumns t ≠ []) ∧ exTxs.take 1 <+: exTxs.take 2 ∧
    exTxs = exTxs.take 1 ++ exTxs.drop 1 ∧ (∀ t ∈ exTxs, Has exSet t.1.sourceId.data t.1.transactionId ↔ t ∈ exTxs.take 1) ∧
    History exTwoColumns (fun t => if t = exTableName then [] else []) (exTxs.drop 1)
      (fun t => if t = exTableName then [] ++ [exRowA, exRowB] else []) ∧
    RowsShown exTwoColumns (fun t => if t = exTableName then [] else []) (fun _ => []) ∧
    RowsShown exTwoColumns (fun t => if t = exTableName then [] ++ [exRowA, exRowB] else []) copy'.rows := by
  obtain ⟨c', hc'⟩ := exTxs_sessions m Kept.transaction ⟨fun _ => none, fun _ => []⟩
  have hist := exTxs_history
  refine ⟨c', _, hc', rfl, rfl, exSet_wf, exSet_ordered, exTxs_ok, by decide +kernel, fun _ => by simp [exTwoColumns], ⟨(exTxs.drop 1).take 1, rfl⟩, rfl,
    exTxs_has, hist, exEmpty_shown, ?_⟩
  exact hist.shown (fun _ => by simp [exTwoColumns]) exEmpty_shown

/-- A transaction of a MariaDB that inserts two rows. -/
def exInsertTx (front : List Ev) : Part MGtid := .tx ⟨0, 1, 271⟩ (((exTyped 162, .mariaDbGtid ⟨⟨0, 1, 271⟩, 0⟩) :: front) ++ exInsert)

theorem exInsertTx_session (m : Mode) (T : MGtid → List Ev → Prop) (front : List Ev) (slices : List Bytes)
    (hw : LogOf (.start .crc32) front slices (.start .crc32)) (hsize : ∀ x ∈ slices, x.length < 2 ^ 24 - 20) (hT : (exInsertTx front).Ok T) :
    ∃ stream bytes, exListUser.replicate m exCrypto (.ok { exChannel [] with input := bytes }) = (.ok stream, exListUser.afresh) ∧
      ∀ k, CopySessionMaria m T (exMariaTxs.take 2 ++ (exInsertTx front).txs) stream ((flat [exInsertTx front]).take k) := by
  obtain ⟨st, h1⟩ := exInsert_written
  obtain ⟨stream, h3, h4⟩ := C119_session m exCrypto exListUser { exChannel [] with input := _ } exListUser_usable rfl .crc32 _
    (exListUser_in _ rfl) exList rfl rfl T (exMariaTxs.take 2 ++ (exInsertTx front).txs) [exInsertTx front]
    (by simpa using hT) (show [(⟨0, 1, 271⟩ : MGtid)] = toSend exList.gtids (exMariaLog.take 3) by decide) (by
      intro t ht
      exact List.mem_append_right _ (by simpa using ht)) (_ :: (slices ++ exInsertSlices)) st
    (by
      have := logOf_append (.cons (by unfold HeaderFits; decide) (exMariaTx_written _ rfl 0 271 (by decide) (by decide)).1 hw) h1
      simpa [flat, exInsertTx, Part.events] using this)
    (by
      intro x hx
      rw [List.mem_cons, List.mem_append] at hx
      rcases hx with rfl | hx | hx
      · simp [le_length, exSum]
      · exact hsize x hx
      · revert x
        decide +kernel) 1 [] rfl
  exact ⟨stream, _, h3, h4⟩

/-- The hypotheses of `C122_copy_partial` are met: the copy gets the rows. -/
example (m : Mode) : ∃ c' copy' log, log = exMariaTxs.take 2 ++ (exInsertTx []).txs ∧
    CopySessionsMaria m QuietFlaggedTx Kept.transaction exListUser ⟨fun _ => none, fun _ => []⟩ log c' copy' log ∧
    exListUser.options.binlog.startingStrategy = .fromGtid ∧ exListUser.options.binlog.gtidList = some exList ∧
    exListUser.options.binlog.gtidSet = none ∧ (exList.gtids.map (·.domainId)).Nodup ∧ (log.map (·.1)).Nodup ∧
    toSend exList.gtids (log.map (·.1)) = (exInsertTx []).txs.map (·.1) ∧
    History exTwoColumns (fun t => if t = exTableName then [] else []) (exInsertTx []).txs
      (fun t => if t = exTableName then [] ++ [exRowA, exRowB] else []) ∧
    RowsShown exTwoColumns (fun t => if t = exTableName then [] else []) (fun _ => []) ∧
    RowsShown exTwoColumns (fun t => if t = exTableName then [] ++ [exRowA, exRowB] else []) copy'.rows := by
  obtain ⟨stream, bytes, h1, h2⟩ := exInsertTx_session m QuietFlaggedTx [] [] .nil (by simp)
    ⟨FlaggedTx.block (x := ⟨⟨0, 1, 271⟩, 0⟩) (body := exInsert.take 2) rfl rfl (by simp [exInsert, Inside, IsGtid, Spec.Ends]) trivial,
      by simp [NoStatementBefore, AutoCommits, Begins, exInsert]⟩
  obtain ⟨c', hc⟩ : ∃ c', commitAll m exListUser.afresh ((flat [exInsertTx []]).take 4) = .ok c' := by
    clear h1 h2
    revert m
    rintro ⟨_ | _⟩ <;> exact ⟨_, by with_unfolding_all rfl⟩
  have hist := exInsert_history (⟨0, 1, 271⟩ : MGtid) (front := [(exTyped 162, .mariaDbGtid ⟨⟨0, 1, 271⟩, 0⟩)])
    (.cons (by unfold HeaderFits; decide) (exMariaTx_written _ rfl 0 271 (by decide) (by decide)).1 .nil) (by simp [NoRows]) []
  have e : whole ((flat [exInsertTx []]).take 4) = [(exTyped 162, .mariaDbGtid ⟨⟨0, 1, 271⟩, 0⟩) :: exInsert] := by with_unfolding_all rfl
  refine ⟨c', _, _, rfl, .session (small_fits exListUser_usable.requests) h1 (h2 4) hc .stop, rfl, rfl, rfl, by decide, by decide, by decide, hist,
    exEmpty_shown, ?_⟩
  rw [e]
  exact hist.shown (fun _ => by simp [exTwoColumns]) exEmpty_shown

/-- **C122** is false: the transaction sets a savepoint and inserts two rows. The application stops after the statement that sets the savepoint; then
the server has nothing left to send, and the copy stays without the rows. -/
theorem C122_false (m : Mode) : ∃ (c' : Client) (list' : GtidList) (old : List (Tx MGtid)) (t : Tx MGtid) (copy : Kept)
    (rows rows' : TableName → List (List Stored)),
    CopySessionsMaria m FlaggedTx Kept.transaction exListUser copy (old ++ [t]) c' copy (old ++ [t]) ∧
    toSend exList.gtids ((old ++ [t]).map (·.1)) = [t.1] ∧ History exTwoColumns rows [t] rows' ∧ RowsShown exTwoColumns rows copy.rows ∧
    c'.options.binlog.gtidList = some list' ∧ toSend list'.gtids ((old ++ [t]).map (·.1)) = [] ∧ ¬RowsShown exTwoColumns rows' copy.rows := by
  obtain ⟨stream, bytes, h1, h2⟩ := exInsertTx_session m FlaggedTx [(exTyped 2, exQuery "SAVEPOINT")] _
    (.cons (by unfold HeaderFits; decide) (exQuery_written _ _) .nil) (by decide +kernel)
    (FlaggedTx.block (x := ⟨⟨0, 1, 271⟩, 0⟩) (body := (exTyped 2, exQuery "SAVEPOINT") :: exInsert.take 2) rfl rfl
      (by simp [exInsert, exQuery, Inside, IsGtid, Spec.Ends]) trivial)
  have hc : ∀ m, commitAll m exListUser.afresh ((flat [exInsertTx [(exTyped 2, exQuery "SAVEPOINT")]]).take 2) = .ok { exListUser with
      mariaGtid := some ⟨0, 1, 271⟩,
      options := { exListUser.options with binlog := { exListUser.options.binlog with
        position := 500, gtidList := some ⟨[⟨0, 1, 271⟩, ⟨1, 1, 5⟩]⟩ } } } := by
    rintro ⟨_ | _⟩ <;> decide +kernel
  have e : whole ((flat [exInsertTx [(exTyped 2, exQuery "SAVEPOINT")]]).take 2) = [] := by with_unfolding_all rfl
  have hist := exInsert_history (⟨0, 1, 271⟩ : MGtid) (front := [(exTyped 162, .mariaDbGtid ⟨⟨0, 1, 271⟩, 0⟩), (exTyped 2, exQuery "SAVEPOINT")])
    (.cons (by unfold HeaderFits; decide) (exMariaTx_written _ rfl 0 271 (by decide) (by decide)).1
      (.cons (by unfold HeaderFits; decide) (exQuery_written _ _) .nil)) (by simp [NoRows, exQuery]) []
  have h := CopySessionsMaria.session (apply := Kept.transaction) (data := ⟨fun _ => none, fun _ => []⟩) (small_fits exListUser_usable.requests) h1
    (h2 2) (hc m) .stop
  rw [e] at h
  refine ⟨_, _, exMariaTxs.take 2, _, _, _, _, h, ?_, hist, exEmpty_shown, rfl, ?_, exInsert_not_shown⟩ <;> decide

end MysqlCdc
