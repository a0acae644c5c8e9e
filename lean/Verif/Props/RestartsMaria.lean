import Verif.Props.Restarts
/-!
# C140 with a MariaDB
-/

namespace MysqlCdc

open Spec

/-! ## What sessions record -/

/-- The client records a list whose GTIDs are those of `start` or of `from_`. -/
def RecordsFrom (start : GtidList) (from_ : List MGtid) (c : Client) : Prop :=
  ∃ list, c.options.binlog.gtidList = some list ∧ ∀ g ∈ list.gtids, g ∈ start.gtids ∨ g ∈ from_

/-- And the GTID that it holds is one of `from_`. -/
structure KeepsFrom (start : GtidList) (from_ : List MGtid) (c : Client) : Prop where
  list : RecordsFrom start from_ c
  last : ∀ g, c.mariaGtid = some g → g ∈ from_

theorem addMGtid_subset {g x : MGtid} {l : List MGtid} (h : x ∈ (addMGtid g l).2) : x = g ∨ x ∈ l := by
  induction l with
  | nil => simpa [addMGtid] using h
  | cons y ys ih =>
    simp only [addMGtid] at h
    split at h
    · rcases List.mem_cons.1 h with h | h
      · exact .inl h
      · exact .inr (List.mem_cons_of_mem _ h)
    · rcases List.mem_cons.1 h with rfl | h
      · exact .inr List.mem_cons_self
      · rcases ih h with h | h
        · exact .inl h
        · exact .inr (List.mem_cons_of_mem _ h)

theorem KeepsFrom.commitGtid {m : Mode} {start : GtidList} {xs : List MGtid} {c c' : Client} (h : KeepsFrom start xs c) (hc : c.commitGtid m = .ok c') :
    KeepsFrom start xs c' := by
  obtain ⟨⟨list, h1, h2⟩, h3⟩ := h
  unfold Client.commitGtid at hc
  cases hm : commitMysql m c.mysqlGtid c.options.binlog.gtidSet with
  | ok set =>
    rw [hm] at hc
    obtain rfl := Res.ok.inj hc
    refine ⟨?_, fun g hg => h3 g hg⟩
    cases hl : c.mariaGtid with
    | none => exact ⟨list, by simp only [commitMaria]; exact h1, h2⟩
    | some g =>
      refine ⟨(list.addGtid g).2, by simp only [commitMaria, h1], fun x hx => ?_⟩
      rw [addGtid_gtids] at hx
      rcases addMGtid_subset hx with rfl | hx
      · exact .inr (h3 _ hl)
      · exact h2 x hx
  | err x => rw [hm] at hc; cases hc
  | panic => rw [hm] at hc; cases hc
  | hang => rw [hm] at hc; cases hc

theorem KeepsFrom.commit {m : Mode} {start : GtidList} {xs : List MGtid} {c c' : Client} (h : KeepsFrom start xs c) {hd : EventHeader} {e : BinlogEvent}
    (he : ∀ x, e = .mariaDbGtid x → x.gtid ∈ xs) (hc : c.commit m hd e = .ok c') : KeepsFrom start xs c' := by
  have place : ∀ c1, KeepsFrom start xs c1 → KeepsFrom start xs (c1.updateBinlogPosition hd e) := by
    intro c1 h1
    have hpos : ∀ f p, KeepsFrom start xs (c1.setPosition f p) := fun f p => ⟨h1.list, h1.last⟩
    unfold Client.updateBinlogPosition
    split
    · exact h1
    · exact hpos _ _
    · split
      · exact hpos _ _
      · exact h1
  unfold Client.commit at hc
  cases hu : c.updateGtidPosition m e with
  | ok c1 =>
    rw [hu] at hc
    obtain rfl := Res.ok.inj hc
    refine place c1 ?_
    unfold Client.updateGtidPosition at hu
    split at hu
    · obtain rfl := Res.ok.inj hu
      exact h
    · split at hu
      · obtain rfl := Res.ok.inj hu
        refine ⟨h.list, fun g hg => ?_⟩
        obtain rfl := Option.some.inj hg
        exact he _ rfl
      · obtain rfl := Res.ok.inj hu
        exact ⟨h.list, h.last⟩
      · exact h.commitGtid hu
      · split at hu
        · obtain rfl := Res.ok.inj hu
          exact h
        · split at hu
          · obtain rfl := Res.ok.inj hu
            exact ⟨h.list, h.last⟩
          · split at hu
            · exact h.commitGtid hu
            · split at hu
              · exact h.commitGtid hu
              · obtain rfl := Res.ok.inj hu
                exact h
      · obtain rfl := Res.ok.inj hu
        exact h
  | err x => rw [hu] at hc; cases hc
  | panic => rw [hu] at hc; cases hc
  | hang => rw [hu] at hc; cases hc

theorem KeepsFrom.commitAll {m : Mode} {start : GtidList} {xs : List MGtid} {c c' : Client} (h : KeepsFrom start xs c) {es : List Ev}
    (he : ∀ e ∈ es, ∀ x, e.2 = .mariaDbGtid x → x.gtid ∈ xs) (hc : commitAll m c es = .ok c') : KeepsFrom start xs c' := by
  induction es generalizing c with
  | nil =>
    obtain rfl := Res.ok.inj hc
    exact h
  | cons e es ih =>
    rw [MysqlCdc.commitAll] at hc
    cases hu : c.commit m e.1 e.2 with
    | ok c1 =>
      rw [hu] at hc
      exact ih (h.commit (fun x hx => he e (by simp) x hx) hu) (fun e' he' => he e' (by simp [he'])) hc
    | err x => rw [hu] at hc; cases hc
    | panic => rw [hu] at hc; cases hc
    | hang => rw [hu] at hc; cases hc

/-- The GTID events of a stream are those of its transactions. -/
theorem flat_mgtid {parts : List (Part MGtid)} (hp : ∀ p ∈ parts, p.Ok MariaTx) {e : Ev} (he : e ∈ flat parts) {x : MariaGtidEvent}
    (hx : e.2 = .mariaDbGtid x) : x.gtid ∈ parts.flatMap Part.gtids := by
  obtain ⟨p, h1, h2⟩ := List.mem_flatMap.1 he
  have h3 := hp p h1
  have neutral : ∀ {b : BinlogEvent}, Neutral b → b ≠ .mariaDbGtid x := by rintro b hb rfl; exact hb
  obtain ⟨hd, b⟩ := e
  obtain rfl : b = .mariaDbGtid x := hx
  cases p with
  | noise e' =>
    obtain rfl : _ = e' := List.mem_singleton.1 h2
    exact absurd rfl (neutral h3)
  | tx g es =>
    have h3 : MariaTx g es := h3
    have h2 : (hd, BinlogEvent.mariaDbGtid x) ∈ es := h2
    suffices hg : x.gtid = g by
      rw [hg]
      exact List.mem_flatMap.2 ⟨_, h1, by simp [Part.gtids]⟩
    cases h3 with
    | @block h0 he x' e body hx' hi hend =>
      simp only [List.cons_append, List.mem_cons, List.mem_append, List.not_mem_nil, or_false, Prod.mk.injEq] at h2
      rcases h2 with ⟨-, h2⟩ | h2 | ⟨-, rfl⟩
      · obtain rfl := BinlogEvent.mariaDbGtid.inj h2
        exact hx'
      · exact absurd trivial (hi _ h2).1
      · exact hend.elim
    | @auto h0 he x' e mid hx' hm hauto =>
      simp only [List.cons_append, List.mem_cons, List.mem_append, List.not_mem_nil, or_false, Prod.mk.injEq] at h2
      rcases h2 with ⟨-, h2⟩ | h2 | ⟨-, rfl⟩
      · obtain rfl := BinlogEvent.mariaDbGtid.inj h2
        exact hx'
      · exact absurd rfl (neutral (hm _ h2))
      · exact hauto.elim

/-- What sessions record comes from the log. -/
theorem laggingMaria_keeps {σ : Type} {m : Mode} {apply : σ → List Ev → σ} {c c' : Client} {data data' : σ} {log log' : List (Tx MGtid)}
    (h : LaggingSessionsMaria m apply c data log c' data' log') (hs : c.options.binlog.startingStrategy = .fromGtid) {start : GtidList}
    (hk : RecordsFrom start (log'.map (·.1)) c) : RecordsFrom start (log'.map (·.1)) c' := by
  induction h with
  | stop => exact hk
  | grow more _ ih => exact ih hs hk
  | @failed c c' data data' log log' crypto net _ ih =>
    have hopt := replicate_keeps_options m crypto c net (.inl (by rw [hs]; decide))
    exact ih (by rw [hopt]; exact hs) (by rw [RecordsFrom, hopt]; exact hk)
  | @session c c1 c2 c' data data' log log' crypto chan stream taken committed hf hr hsess hpre hc h ih =>
    obtain ⟨list, hlist, -⟩ := id hk
    obtain ⟨parts, hp, -, hmem, htaken, -⟩ := copySessionMaria_parts hs hlist hf hr hsess
    have hopt := replicate_keeps_options m crypto c (.ok chan) (.inl (by rw [hs]; decide))
    rw [hr] at hopt
    have hopt : c1.options = c.options := hopt
    have hk1 : KeepsFrom start (log'.map (·.1)) c1 := by
      rcases C100_attempt m crypto c (.ok chan) with ⟨place, h'⟩ | ⟨-, h'⟩ <;> rw [hr] at h'
      · obtain rfl : c1 = _ := h'
        exact ⟨hk, fun g hg => by cases hg⟩
      · exact absurd rfl (h' stream)
    refine ih (by rw [commitAll_keeps hc, hopt, hs]) (hk1.commitAll ?_ hc).list
    intro e he x hx
    obtain ⟨k1, -⟩ := toCommit_take hp taken.length
    rw [← htaken] at k1
    have he' : e ∈ flat (bare parts) := List.mem_of_mem_take (k1 ▸ hpre.subset he)
    have hg := flat_mgtid (quiet_parts (bare_quiet (flagged_parts hp))).1 he' hx
    rw [bare_gtids, ← parts_fst] at hg
    obtain ⟨t, ht, hxt⟩ := List.mem_map.1 hg
    exact List.mem_map.2 ⟨t, h.grows.subset (hmem t ht), hxt⟩

/-! ## Programs that are started again -/

/-- A program with a MariaDB, as in C137, that is stopped, or killed, and started again, any number of times, from the text of the recorded list. -/
inductive RestartsMaria {σ : Type} (m : Mode) (apply : σ → List Ev → σ) :
    Client → σ → (log : List (Tx MGtid)) → Client → σ → (log' : List (Tx MGtid)) → Prop where
  | last {c c' : Client} {data data' : σ} {log log' : List (Tx MGtid)} (h : LaggingSessionsMaria m apply c data log c' data' log') :
      RestartsMaria m apply c data log c' data' log'
  | again {c c1 c2 c' : Client} {data data1 data' : σ} {log log1 log' : List (Tx MGtid)} {saved : GtidList} {text : RStr} {list : GtidList}
      {o : ReplicaOptions}
      (h : LaggingSessionsMaria m apply c data log c1 data1 log1) (hsaved : c1.options.binlog.gtidList = some saved) (htext : text = saved.display)
      (hparse : GtidList.parse text = .ok list) (hbinlog : o.binlog = .fromMariadbGtid list)
      (hnew : Client.new o = .ok c2) (more : RestartsMaria m apply c2 data1 log1 c' data' log') : RestartsMaria m apply c data log c' data' log'

theorem RestartsMaria.grows {σ : Type} {m : Mode} {apply : σ → List Ev → σ} {c c' : Client} {data data' : σ} {log log' : List (Tx MGtid)}
    (h : RestartsMaria m apply c data log c' data' log') : log <+: log' := by
  induction h with
  | last h => exact h.grows
  | again h _ _ _ _ _ _ ih => exact h.grows.trans ih

theorem LaggingSessionsMaria.longer {σ : Type} {m : Mode} {apply : σ → List Ev → σ} {c c' : Client} {data data' : σ} {log log' : List (Tx MGtid)}
    (h : LaggingSessionsMaria m apply c data log c' data' log') (more : List (Tx MGtid)) :
    LaggingSessionsMaria m apply c data log c' data' (log' ++ more) := by
  induction h with
  | stop => exact .grow more .stop
  | grow x _ ih => exact .grow x ih
  | failed _ ih => exact .failed ih
  | session hf hr hs hpre hc _ ih => exact .session hf hr hs hpre hc ih

/-- What the programs have done. -/
theorem restartsMaria_runs {σ : Type} {m : Mode} {apply : σ → List Ev → σ} {c c' : Client} {data data' : σ} {log log' : List (Tx MGtid)}
    (h : RestartsMaria m apply c data log c' data' log') (list : GtidList) (hs : c.options.binlog.startingStrategy = .fromGtid)
    (hlist : c.options.binlog.gtidList = some list) (hnone : c.options.binlog.gtidSet = none) (hr : ∀ g ∈ list.gtids, MGtidRange g)
    (hone : (list.gtids.map (·.domainId)).Nodup) (hin : ∀ g ∈ list.gtids, g ∈ log'.map (·.1) → g ∈ log.map (·.1)) (hg : ∀ t ∈ log', MGtidRange t.1)
    (hd : (log'.map (·.1)).Nodup)
    (new : List (Tx MGtid)) (hnew : ∀ t ∈ new, t ∈ log') (hsend : toSend list.gtids (log'.map (·.1)) = new.map (·.1)) :
    ∃ runs left list', Redelivered new runs left ∧ data' = dataAfter apply data runs.flatten ∧ c'.options.binlog.gtidList = some list' ∧
      (list'.gtids.map (·.domainId)).Nodup ∧ (∀ g ∈ list'.gtids, MGtidRange g) ∧ toSend list'.gtids (log'.map (·.1)) = left.map (·.1) ∧
      c'.options.binlog.startingStrategy = .fromGtid ∧ c'.options.binlog.gtidSet = none := by
  have ranges : ∀ {c1 : Client} {l : GtidList} {log1 : List (Tx MGtid)}, log1 <+: log' → ∀ {list : GtidList}, (∀ g ∈ list.gtids, MGtidRange g) →
      RecordsFrom list (log1.map (·.1)) c1 → c1.options.binlog.gtidList = some l → ∀ g ∈ l.gtids, MGtidRange g := by
    intro c1 l log1 hpre list hr hk hl g hgl
    obtain ⟨l', k1, k2⟩ := hk
    obtain rfl : l = l' := Option.some.inj (hl.symm.trans k1)
    rcases k2 g hgl with h | h
    · exact hr g h
    · obtain ⟨t, ht, rfl⟩ := List.mem_map.1 h
      exact hg t (hpre.subset ht)
  induction h generalizing list new with
  | @last c c' data data' log log' h =>
    obtain ⟨runs, left, list', r1, r2, r3, r4, r5⟩ := laggingSessionsMaria_runs h list hs hlist hnone hone hin hd new hnew hsend
    have hk := laggingMaria_keeps h hs (start := list) ⟨list, hlist, fun g hg => .inl hg⟩
    exact ⟨runs, left, list', r1, r2, r3, r4, ranges List.prefix_rfl hr hk r3, r5⟩
  | @again c c1 c2 c' data data1 data' log log1 log' saved text list2 o h hsaved htext hparse hbinlog hc2 more ih =>
    have hgrow := more.grows
    obtain ⟨extra, rfl⟩ := hgrow
    obtain ⟨runs1, left1, saved', r1, r2, r3, r4, r5, -, -⟩ := laggingSessionsMaria_runs (h.longer extra) list hs hlist hnone hone hin hd new hnew hsend
    obtain rfl : saved = saved' := Option.some.inj (hsaved.symm.trans r3)
    have hk := laggingMaria_keeps h hs (start := list) ⟨list, hlist, fun g hg => .inl hg⟩
    have hrange := ranges (List.prefix_append _ _) hr hk hsaved
    obtain rfl : list2 = saved := by
      rw [htext, C15_print_parse saved hrange r4] at hparse
      exact (Res.ok.inj hparse).symm
    have e1 := client_new_ok hc2
    obtain ⟨done, q1, -⟩ := r1.given
    obtain ⟨runs, left, list', s1, s2, s3⟩ := ih list2 (by rw [e1, hbinlog]; rfl) (by rw [e1, hbinlog]; rfl) (by rw [e1, hbinlog]; rfl) hrange r4 (by
        intro g h1 h2
        obtain ⟨l', k1, k2⟩ := hk
        obtain rfl : list2 = l' := Option.some.inj (hsaved.symm.trans k1)
        rcases k2 g h1 with h3 | h3
        · obtain ⟨t, ht, hgt⟩ := List.mem_map.1 (hin g h3 h2)
          exact List.mem_map.2 ⟨t, h.grows.subset ht, hgt⟩
        · exact h3) hg hd left1 (fun t ht => hnew t (by rw [q1]; exact List.mem_append_right _ ht)) r5 ranges
    refine ⟨runs1 ++ runs, left, list', r1.trans s1, ?_, s3⟩
    rw [s2, r2, List.flatten_append, dataAfter_append]

/-- **C140.** With a MariaDB: the program, started again any number of times from the text of the recorded list, gets the transactions that it has not
recorded again, in order and without leaving one out. -/
theorem C140_maria_again {σ : Type} {m : Mode} {apply : σ → List Ev → σ} {c c' : Client} {data data' : σ} {log log' : List (Tx MGtid)}
    (h : RestartsMaria m apply c data log c' data' log') (list : GtidList) (hs : c.options.binlog.startingStrategy = .fromGtid)
    (hlist : c.options.binlog.gtidList = some list) (hnone : c.options.binlog.gtidSet = none) (hr : ∀ g ∈ list.gtids, MGtidRange g)
    (hone : (list.gtids.map (·.domainId)).Nodup) (hin : ∀ g ∈ list.gtids, g ∈ log'.map (·.1) → g ∈ log.map (·.1)) (hg : ∀ t ∈ log', MGtidRange t.1)
    (hd : (log'.map (·.1)).Nodup)
    (new : List (Tx MGtid)) (hnew : ∀ t ∈ new, t ∈ log') (hsend : toSend list.gtids (log'.map (·.1)) = new.map (·.1)) :
    ∃ runs done left list', Redelivered new runs left ∧ new = done ++ left ∧ (∀ t ∈ done, t ∈ runs.flatten) ∧
      data' = dataAfter apply data runs.flatten ∧ c'.options.binlog.gtidList = some list' ∧ GtidList.parse list'.display = .ok list' ∧
      toSend list'.gtids (log'.map (·.1)) = left.map (·.1) := by
  obtain ⟨runs, left, list', h1, h2, h3, h4, h5, h6, -⟩ := restartsMaria_runs h list hs hlist hnone hr hone hin hg hd new hnew hsend
  obtain ⟨done, h7, h8⟩ := h1.given
  exact ⟨runs, done, left, list', h1, h7, h8, h2, h3, C15_print_parse list' h5 h4, h6⟩

/-- **C140.** With a MariaDB, a copy of tables by keys, whatever restarts there were: under each key it has what the server's table had at some time since the
transactions that are recorded; when there is nothing left to send, it has exactly the rows of the server's tables. -/
theorem C140_maria_keyed {κ : Type} [DecidableEq κ] {key : TableName → Cells → κ} {m : Mode} {c c' : Client} {data data' : Keyed κ}
    {log log' : List (Tx MGtid)}
    (h : RestartsMaria m (keyedTransaction key) c data log c' data' log') (list : GtidList) (hs : c.options.binlog.startingStrategy = .fromGtid)
    (hlist : c.options.binlog.gtidList = some list) (hnone : c.options.binlog.gtidSet = none) (hr : ∀ g ∈ list.gtids, MGtidRange g)
    (hone : (list.gtids.map (·.domainId)).Nodup) (hin : ∀ g ∈ list.gtids, g ∈ log'.map (·.1) → g ∈ log.map (·.1)) (hg : ∀ t ∈ log', MGtidRange t.1)
    (hd : (log'.map (·.1)).Nodup)
    (new : List (Tx MGtid)) (hnew : ∀ t ∈ new, t ∈ log') (hsend : toSend list.gtids (log'.map (·.1)) = new.map (·.1))
    {columns : TableName → List (UInt8 × Nat)} (hcol : ∀ t, columns t ≠ []) {rows rows' : TableName → List (List Stored)}
    (hist : History columns rows new rows') {shown : TableName → List Cells} (hshown : RowsShown columns rows shown) (hi : Indexes key data shown)
    (hk : KeysHold key shown (changesOfTxs new)) :
    ∃ done left list', new = done ++ left ∧ c'.options.binlog.gtidList = some list' ∧ toSend list'.gtids (log'.map (·.1)) = left.map (·.1) ∧
      (∀ t k, ∃ first between shown', first <+: left ∧ History columns rows (done ++ first) between ∧ RowsShown columns between shown' ∧
        ∀ r, data' (t, k) = some r ↔ r ∈ shown' t ∧ key t r = k) ∧
      (toSend list'.gtids (log'.map (·.1)) = [] → ∃ shown', RowsShown columns rows' shown' ∧ Indexes key data' shown') := by
  obtain ⟨runs, left, list', h1, h2, h3, -, -, h4, -⟩ := restartsMaria_runs h list hs hlist hnone hr hone hin hg hd new hnew hsend
  obtain ⟨done, rfl, h6⟩ := h1.places (fun t _ => C138_overwrites key t.2) data data fun k => ⟨[], List.nil_prefix, rfl⟩
  refine ⟨done, left, list', rfl, h3, h4, fun t k => ?_, fun hnil => ?_⟩
  · obtain ⟨first, h5, h6⟩ := h6 (t, k)
    obtain ⟨between, shown', h7, h8, h9⟩ := keyed_place hcol hist hshown hi hk h5
    exact ⟨first, between, shown', h5, h7, h8, fun r => by rw [h2, h6]; exact h9.2 t k r⟩
  · rw [h4, List.map_eq_nil_iff] at hnil
    subst hnil
    have : data' = dataAfter (keyedTransaction key) data (done ++ []) := by
      funext k
      obtain ⟨first, h7, h8⟩ := h6 k
      rw [List.prefix_nil] at h7
      rw [h2, h8, h7]
    rw [this]
    exact C138_indexes hcol hist hshown hi hk

/-- **C140.** With a MariaDB: after whatever restarts, once the program has taken one session whole, the copy has exactly the rows of the server's tables. -/
theorem C140_maria_catches_up {κ : Type} [DecidableEq κ] {key : TableName → Cells → κ} {m : Mode} {c c' : Client} {data data' : Keyed κ}
    {log log' : List (Tx MGtid)}
    (h : RestartsMaria m (keyedTransaction key) c data log c' data' log') (list : GtidList) (hs : c.options.binlog.startingStrategy = .fromGtid)
    (hlist : c.options.binlog.gtidList = some list) (hnone : c.options.binlog.gtidSet = none) (hr : ∀ g ∈ list.gtids, MGtidRange g)
    (hone : (list.gtids.map (·.domainId)).Nodup) (hin : ∀ g ∈ list.gtids, g ∈ log'.map (·.1) → g ∈ log.map (·.1)) (hg : ∀ t ∈ log', MGtidRange t.1)
    (hd : (log'.map (·.1)).Nodup)
    (new : List (Tx MGtid)) (hnew : ∀ t ∈ new, t ∈ log') (hsend : toSend list.gtids (log'.map (·.1)) = new.map (·.1))
    {columns : TableName → List (UInt8 × Nat)} (hcol : ∀ t, columns t ≠ []) {rows rows' : TableName → List (List Stored)}
    (hist : History columns rows new rows') {shown : TableName → List Cells} (hshown : RowsShown columns rows shown) (hi : Indexes key data shown)
    (hk : KeysHold key shown (changesOfTxs new))
    (crypto : Crypto) (chan : Channel) (hu : Usable crypto c'.options) (hwr : chan.writes = []) (checksum : ChecksumType) (bytes : Bytes)
    (hlets : LetsIn crypto c'.options True none checksum bytes) (list' : GtidList) (hlist' : c'.options.binlog.gtidList = some list')
    (parts : List (Part MGtid)) (hp : ∀ p ∈ parts, p.Ok FlaggedTx)
    (hlog : (parts.flatMap Part.txs).map (·.1) = toSend list'.gtids (log'.map (·.1))) (hmem : ∀ t ∈ parts.flatMap Part.txs, t ∈ log')
    (slices : List Bytes) (st : LogState) (hbytes : LogOf (.start checksum) (flat parts) slices st)
    (hsize : ∀ x ∈ slices, x.length < 2 ^ 24 - 20) (n : Nat) (rest : Bytes)
    (hinput : chan.input = bytes ++ frames (eventPackets n (flat parts) slices) ++ rest) :
    ∃ stream shown', c'.replicate m crypto (.ok chan) = (.ok stream, c'.afresh) ∧ (∃ stream', stream.Yields m ((flat parts).map .ok) stream') ∧
      RowsShown columns rows' shown' ∧ Indexes key ((whole (flat parts)).foldl (keyedTransaction key) data') shown' := by
  obtain ⟨runs, left, list1, h1, h2, h3, -, -, h4, hs', -⟩ := restartsMaria_runs h list hs hlist hnone hr hone hin hg hd new hnew hsend
  obtain rfl : list' = list1 := Option.some.inj (hlist'.symm.trans h3)
  obtain ⟨stream, g1, g2⟩ := C119_session m crypto c' chan hu hwr checksum bytes hlets list' hs' hlist' FlaggedTx log' parts hp hlog hmem slices st
    hbytes hsize n rest hinput
  have g2 := g2 (flat parts).length
  rw [List.take_of_length_le (Nat.le_refl _)] at g2
  have hy : ∃ stream', stream.Yields m ((flat parts).map .ok) stream' := by
    obtain ⟨_, _, _, _, _, _, _, _, _, _, hy, _⟩ := g2
    exact ⟨_, hy⟩
  obtain ⟨shown', h5, h6⟩ := C138_indexes hcol hist hshown hi hk
  refine ⟨stream, shown', g1, hy, h5, ?_⟩
  obtain ⟨done, h7, -⟩ := h1.given
  have hleft : parts.flatMap Part.txs = left := by
    rw [h4] at hlog
    have hl : ∀ t ∈ left, t ∈ log' := fun t ht => hnew t (by rw [h7]; exact List.mem_append_right _ ht)
    have := prefix_of_fst hd hmem hl (by rw [hlog]; exact List.prefix_rfl)
    exact this.eq_of_length (by simpa using congrArg List.length hlog)
  have hwhole : whole (flat parts) = left.map (·.2) := by
    rw [← hleft, ← finishedTxs_all parts _ (Nat.le_refl _), ← gathered_finished (fun _ _ h rest => wholeFrom_flagged h rest) parts hp,
      List.take_of_length_le (Nat.le_refl _)]
  have hend : left.foldl (fun d t => keyedTransaction key d t.2) data' = dataAfter (keyedTransaction key) data new := by
    rw [h2]
    exact redelivered_catches_up h1 (fun t _ => C138_overwrites key t.2) data
  rw [hwhole, List.foldl_map, hend]
  exact h6

/-- The hypotheses are met: the program applies the transaction, commits nothing of it and is killed; started again from the text of the list, it gets the
transaction again. -/
example (m : Mode) : ∃ t : Tx MGtid, exStatementTx.txs = [t] ∧ (∃ c', RestartsMaria m exSeen exListUser (fun k => k = 0)
      (exMariaTxs.take 2 ++ [t]) c' (dataAfter exSeen (fun k => k = 0) [t, t]) (exMariaTxs.take 2 ++ [t])) ∧
    exListUser.options.binlog.startingStrategy = .fromGtid ∧ exListUser.options.binlog.gtidList = some exList ∧
    exListUser.options.binlog.gtidSet = none ∧ (∀ g ∈ exList.gtids, MGtidRange g) ∧ (exList.gtids.map (·.domainId)).Nodup ∧
    (∀ t' ∈ exMariaTxs.take 2 ++ [t], MGtidRange t'.1) ∧ ((exMariaTxs.take 2 ++ [t]).map (·.1)).Nodup ∧
    toSend exList.gtids ((exMariaTxs.take 2 ++ [t]).map (·.1)) = [t].map (·.1) := by
  have hr : ∀ g ∈ exList.gtids, MGtidRange g := by unfold MGtidRange; decide
  refine ⟨_, rfl, ?_, rfl, rfl, rfl, hr, by decide, by unfold MGtidRange; decide +kernel, by decide, by decide⟩
  have ok : ∀ p ∈ [exStatementTx], p.Ok FlaggedTx := by
    intro p hp
    rw [List.mem_singleton.1 hp]
    exact FlaggedTx.block (x := ⟨⟨0, 1, 271⟩, 0⟩) (body := [(exTyped 2, exQuery "INSERT")]) rfl rfl (by simp [Inside, IsGtid, Spec.Ends, exQuery]) trivial
  obtain ⟨stream, h3, h4⟩ := C119_session m exCrypto exListUser { exChannel [] with input := _ } exListUser_usable rfl .crc32 _
    (exListUser_in _ rfl) exList rfl rfl FlaggedTx (exMariaTxs.take 2 ++ exStatementTx.txs) [exStatementTx] ok (by decide) (by
      intro t ht
      exact List.mem_append_right _ (by simpa using ht)) _ _
    (.cons (by unfold HeaderFits; decide) (exMariaTx_written _ rfl 0 271 (by decide) (by decide)).1
      (.cons (by unfold HeaderFits; decide) (exQuery_written _ _)
      (.cons (by unfold HeaderFits; decide) (exMariaTx_written _ rfl 0 271 (by decide) (by decide)).2 .nil))) (by decide +kernel) 1 [] rfl
  have w3 : whole ((flat [exStatementTx]).take 3) = exStatementTx.txs.map (·.2) := by with_unfolding_all rfl
  have hc3 : ∀ m, ∃ c3, commitAll m exListUser.afresh (toCommit ((flat [exStatementTx]).take 3)) = .ok c3 := by
    rintro ⟨_ | _⟩ <;> exact ⟨_, by with_unfolding_all rfl⟩
  obtain ⟨c3, hc3⟩ := hc3 m
  refine ⟨c3, .again (.session (small_fits exListUser_usable.requests) h3 (h4 3) List.nil_prefix (c2 := exListUser) rfl .stop) (saved := exList) rfl rfl
    (C15_print_parse exList hr (by decide)) (o := exListUser.options) rfl rfl
    (.last (.session (small_fits exListUser_usable.requests) h3 (h4 3) List.prefix_rfl hc3 ?_))⟩
  rw [w3]
  exact .stop

end MysqlCdc
