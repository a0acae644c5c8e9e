import Verif.Props.Images
import Verif.Props.TablesSessions
/-!
# C124 over broken sessions
-/

namespace MysqlCdc

open Spec

/-- As `changes_taken`. -/
theorem partChanges_taken {columns : TableName → List (UInt8 × Nat)} {key : TableName → List Bool} (hkey : ∀ t, KeySeen (columns t) (key t))
    {defaults : TableName → List Stored} {cells : TableName → List (Option MySqlValue)} (hdef : ∀ t, RowShown (columns t) (defaults t) (cells t))
    {es : List Ev} {slices : List Bytes} {st st' : LogState} (hw : LogOf st es slices st') {s s' : Server} {images : List (TableName × List Stored)}
    (hc : PartChanges columns key defaults s ((es.map (·.1)).zip slices) images s') {p : EventParser} (k : Knows st p) (k' : Knows s.log p)
    (hn : s.Named columns) {c : Kept} (h : Shows columns s c) : Shows columns s' (c.takeParts cells es) := by
  induction hw generalizing s images p c with
  | nil =>
    cases hc
    exact h
  | @cons st st1 st2 e slice es slices _ hw _ ih =>
    rw [List.map_cons, List.zip_cons_cons] at hc
    cases hc with
    | cons _ hx ht =>
      obtain ⟨p1, g1, g2⟩ := k.decode ⟨true⟩ hw
      obtain ⟨r, p2, i1, i2, i3, -, i4⟩ := partChange_decoded hkey hdef hx ⟨true⟩ k' hn
      simp only at i1
      rw [g1] at i1
      cases r with
      | error e' => simp at i1
      | ok e' =>
        simp only [Prod.mk.injEq, Res.ok.injEq] at i1
        obtain ⟨rfl, rfl⟩ := i1
        have := ih ht g2 i2 i3 (i4 _ _ rfl h)
        exact this

theorem Spec.PartHistory.shown {γ : Type} {columns : TableName → List (UInt8 × Nat)} {key : TableName → List Bool}
    (hkey : ∀ t, KeySeen (columns t) (key t)) {defaults : TableName → List Stored} {cells : TableName → List (Option MySqlValue)}
    (hdef : ∀ t, RowShown (columns t) (defaults t) (cells t)) {txs : List (Tx γ)} {rows rows' : TableName → List (List Stored)}
    (h : PartHistory columns key defaults rows txs rows') {c : Kept} (hc : RowsShown columns rows c.rows) :
    RowsShown columns rows' (dataAfter (Kept.transactionPart cells) c txs).rows := by
  induction h generalizing c with
  | nil => exact hc
  | cons hw hch _ ih =>
    have := partChanges_taken hkey hdef hw hch (Knows.start _) (Knows.start _) (fun _ _ h => by cases h) (c := { c with names := fun _ => none }) ⟨rfl, hc⟩
    exact ih this.rows

theorem Spec.PartHistory.split {γ : Type} {columns : TableName → List (UInt8 × Nat)} {key : TableName → List Bool} {defaults : TableName → List Stored}
    {txs more : List (Tx γ)} {rows rows' : TableName → List (List Stored)} (h : PartHistory columns key defaults rows (txs ++ more) rows') :
    ∃ between, PartHistory columns key defaults rows txs between ∧ PartHistory columns key defaults between more rows' := by
  induction txs generalizing rows with
  | nil => exact ⟨rows, .nil, h⟩
  | cons t txs ih =>
    cases h with
    | cons hw hc ht =>
      obtain ⟨between, h1, h2⟩ := ih ht
      exact ⟨between, .cons hw hc h1, h2⟩

/-- C124 over broken sessions, where it holds: as C121, with images that show some columns. Missing: as in `C124_copy_partial`. -/
theorem C124_sessions_partial {m : Mode} {c c' : Client} {copy copy' : Kept} {log log' : List (Tx Gtid)} {cells : TableName → List (Option MySqlValue)}
    (h : CopySessions m (Kept.transactionPart cells) c copy log c' copy' log') (set : GtidSet) (hs : c.options.binlog.startingStrategy = .fromGtid)
    (hset : c.options.binlog.gtidSet = some set) (hw : Wf set) (ho : AllOrdered set) (hg : ∀ t ∈ log', GtidOk t.1)
    (hd : (log'.map fun t => gtidKey t.1).Nodup) {columns : TableName → List (UInt8 × Nat)} {key : TableName → List Bool}
    (hkey : ∀ t, KeySeen (columns t) (key t)) {defaults : TableName → List Stored} (hdef : ∀ t, RowShown (columns t) (defaults t) (cells t))
    (old new : List (Tx Gtid)) (hold : old <+: log) (hnew : log' = old ++ new)
    (hhas : ∀ t ∈ log', Has set t.1.sourceId.data t.1.transactionId ↔ t ∈ old)
    {rows rows' : TableName → List (List Stored)} (hist : PartHistory columns key defaults rows new rows') (hcopy : RowsShown columns rows copy.rows) :
    ∃ done later between set', new = done ++ later ∧ PartHistory columns key defaults rows done between ∧
      PartHistory columns key defaults between later rows' ∧ RowsShown columns between copy'.rows ∧ c'.options.binlog.gtidSet = some set' ∧
      (∀ t ∈ log', Has set' t.1.sourceId.data t.1.transactionId ↔ t ∈ old ++ done) ∧
      ((∀ t ∈ log', Has set' t.1.sourceId.data t.1.transactionId) → RowsShown columns rows' copy'.rows) := by
  obtain ⟨done, later, set', h0, h1, h2, h3, h4⟩ := copySessions_seen h set hs hset hw ho hg hd old hold hhas
  have hsplit : new = done ++ later := List.append_cancel_left (hnew.symm.trans h0)
  rw [hsplit] at hist
  obtain ⟨between, g1, g2⟩ := hist.split
  have hshow : RowsShown columns between copy'.rows := by
    rw [h1]
    exact g1.shown hkey hdef hcopy
  refine ⟨done, later, between, set', hsplit, g1, g2, hshow, h2, h3, fun hall => ?_⟩
  rw [h4 hall] at g2
  cases g2
  exact hshow

/-! ## An example -/

theorem exOthers_part {columns : TableName → List (UInt8 × Nat)} {key : TableName → List Bool} {defaults : TableName → List Stored} {front : List Ev}
    {slices : List Bytes} {st st' : LogState} (hw : LogOf st front slices st') (hn : ∀ e ∈ front, NoRows e.2) {names : Nat → Option TableName}
    {rows : TableName → List (List Stored)} {records : List (EventHeader × Bytes)} {images : List (TableName × List Stored)} {s : Server}
    (h : PartChanges columns key defaults ⟨st', names, rows⟩ records images s) :
    PartChanges columns key defaults ⟨st, names, rows⟩ ((front.map (·.1)).zip slices ++ records) images s := by
  induction hw with
  | nil => exact h
  | cons hf hw _ ih =>
    have := PartChanges.cons hf (.other (s := ⟨_, names, rows⟩) hw (hn _ (by simp))) (ih (fun e he => hn e (by simp [he])) h)
    exact this

/-- The insertion of two rows, all of whose columns are given a value. -/
theorem exInsert_made_part : ∃ log names images, PartChanges exTwoColumns (fun _ => [true, false]) exDefaults
    (exHolder (.start .crc32) (fun _ => none) []) ((exInsert.map (·.1)).zip exInsertSlices) images (exHolder log names [exRowA, exRowB]) := by
  refine ⟨_, _, _, .cons (by unfold HeaderFits; decide) (.announce (t := ⟨7, "db".toList, "t".toList, [3, 1], [0, 0], [false, true], none⟩)
    (.tableMap (columns := [(3, 0), (1, 0)]) rfl exTableMap_body (exSums _) (.inl ⟨rfl, rfl⟩)) ⟨rfl, rfl⟩)
    (.cons (by unfold HeaderFits; decide) (.insert (version := 2) (tableId := 7) (flags := 1) (table := exTableName) (shown := [true, true])
      (rows := [exRowA, exRowB]) (rows' := [exRowA, exRowB]) (body := exInsertRows) (.inr ⟨rfl, rfl⟩) rfl (by decide) (by decide) ?_ (exSums _) (.refl _)
      exHolder_sets)
    (.cons (by unfold HeaderFits; decide) (.other (e := .xid ⟨7⟩) (.plain (.xid (xid := 7) (extra := []) (by decide)) (exSums _)) trivial) .nil))⟩
  exact .mk rfl (.v2 (extra := [1, 2, 3]) (count := [2]) (by decide) (by decide) (by decide) (lenEnc_one (by decide) rfl))
    (bitmapLE_of_check rfl (by decide)) (.cons exRowA_image (.cons exRowB_image .nil))

/-- The sessions of the example of C121, with a table whose first column is the key. -/
example (m : Mode) : ∃ c' copy', CopySessions m (Kept.transactionPart fun _ => [some (.int 0), none]) exGtidUser ⟨fun _ => none, fun _ => []⟩ (exTxs.take 2)
      c' copy' exTxs ∧
    (∀ t, KeySeen (exTwoColumns t) [true, false]) ∧ (∀ t, RowShown (exTwoColumns t) (exDefaults t) [some (.int 0), none]) ∧
    PartHistory exTwoColumns (fun _ => [true, false]) exDefaults (fun t => if t = exTableName then [] else []) (exTxs.drop 1)
      (fun t => if t = exTableName then [exRowA, exRowB] else []) ∧
    RowsShown exTwoColumns (fun t => if t = exTableName then [] else []) (fun _ => []) ∧
    RowsShown exTwoColumns (fun t => if t = exTableName then [exRowA, exRowB] else []) copy'.rows := by
  obtain ⟨c', hc'⟩ := exTxs_sessions m (Kept.transactionPart fun _ => [some (.int 0), none]) ⟨fun _ => none, fun _ => []⟩
  have hkey : ∀ t, KeySeen (exTwoColumns t) [true, false] := by
    refine fun t => .inl fun c hc h x hx ht => ?_
    simp only [exTwoColumns, List.zip_cons_cons, List.zip_nil_right, List.mem_cons, List.not_mem_nil, or_false] at hc
    rw [List.mem_singleton] at hx
    subst hx
    rcases hc with rfl | rfl <;> simp at ht
  have hist : PartHistory exTwoColumns (fun _ => [true, false]) exDefaults (fun t => if t = exTableName then [] else []) (exTxs.drop 1)
      (fun t => if t = exTableName then [exRowA, exRowB] else []) := by
    have w1 : LogOf (.start .crc32) [(exTyped 33, exGtid 5), (exTyped 2, exQuery "BEGIN")] _ (.start .crc32) :=
      .cons (by unfold HeaderFits; decide) (exGtid_written _ 5 (by decide)) (.cons (by unfold HeaderFits; decide) (exQuery_written _ _) .nil)
    have w2 : LogOf (.start .crc32) [(exTyped 33, exGtid 8), (exTyped 2, exQuery "CREATE")] _ (.start .crc32) :=
      .cons (by unfold HeaderFits; decide) (exGtid_written _ 8 (by decide)) (.cons (by unfold HeaderFits; decide) (exQuery_written _ _) .nil)
    obtain ⟨st, h1⟩ := exInsert_written
    obtain ⟨log, names, images, h2⟩ := exInsert_made_part
    refine .cons (logOf_append w1 h1) (images := images) (s := exHolder log names [exRowA, exRowB]) ?_
      (.cons w2 (images := []) (s := ⟨.start .crc32, fun _ => none, fun t => if t = exTableName then [exRowA, exRowB] else []⟩) ?_ .nil)
    · have := exOthers_part w1 (by simp [NoRows, exGtid, exQuery]) h2
      exact this
    · have := exOthers_part (columns := exTwoColumns) (key := fun _ => [true, false]) (defaults := exDefaults) (names := fun _ => none)
        (rows := fun t => if t = exTableName then [exRowA, exRowB] else []) w2 (by simp [NoRows, exGtid, exQuery]) .nil
      rwa [List.append_nil] at this
  exact ⟨c', _, hc', hkey, fun _ => exDefaults_shown, hist, exEmpty_shown, hist.shown hkey (fun _ => exDefaults_shown) exEmpty_shown⟩

end MysqlCdc
