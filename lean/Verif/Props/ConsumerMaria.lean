import Verif.Props.SparseMaria
import Verif.Props.TablesSessions
import Verif.Props.CatchUp
/-!
# C136: an application that applies whole transactions of a MariaDB and then commits their first and last event
-/

namespace MysqlCdc

open Spec

/-- What the application commits of what it has taken: the first and the last event of each transaction that has come whole. -/
def Spec.toCommit (taken : List Ev) : List Ev := (whole taken).flatMap firstAndLast

/-- Any number of sessions with a MariaDB and attempts that fail, while its log grows. The application gathers the events of a transaction; when it has
them all, it brings its copy `data` up to date and commits the first and the last of them. What it has gathered when a session ends it forgets. -/
inductive ConsumerSessions {σ : Type} (m : Mode) (apply : σ → List Ev → σ) :
    Client → σ → (log : List (Tx MGtid)) → Client → σ → (log' : List (Tx MGtid)) → Prop where
  | stop {c : Client} {data : σ} {log : List (Tx MGtid)} : ConsumerSessions m apply c data log c data log
  | grow {c c' : Client} {data data' : σ} {log log' : List (Tx MGtid)} (more : List (Tx MGtid))
      (h : ConsumerSessions m apply c data (log ++ more) c' data' log') : ConsumerSessions m apply c data log c' data' log'
  | failed {c c' : Client} {data data' : σ} {log log' : List (Tx MGtid)} {crypto : Crypto} {net : Except IoKind Channel}
      (h : ConsumerSessions m apply (c.replicate m crypto net).2 data log c' data' log') : ConsumerSessions m apply c data log c' data' log'
  | session {c c1 c2 c' : Client} {data data' : σ} {log log' : List (Tx MGtid)} {crypto : Crypto} {chan : Channel} {stream : BinlogEvents} {taken : List Ev}
      (hf : FitsRequests c.options) (hr : c.replicate m crypto (.ok chan) = (.ok stream, c1)) (hs : CopySessionMaria m FlaggedTx log stream taken)
      (hc : commitAll m c1 (toCommit taken) = .ok c2) (h : ConsumerSessions m apply c2 ((whole taken).foldl apply data) log c' data' log') :
      ConsumerSessions m apply c data log c' data' log'

theorem ConsumerSessions.trans {σ : Type} {m : Mode} {apply : σ → List Ev → σ} {c c1 c' : Client} {data data1 data' : σ}
    {log log1 log' : List (Tx MGtid)} (h : ConsumerSessions m apply c data log c1 data1 log1)
    (h' : ConsumerSessions m apply c1 data1 log1 c' data' log') : ConsumerSessions m apply c data log c' data' log' := by
  induction h with
  | stop => exact h'
  | grow more _ ih => exact .grow more (ih h')
  | failed _ ih => exact .failed (ih h')
  | session hf hr hs hc _ ih => exact .session hf hr hs hc (ih h')

/-! ## The transactions alone -/

/-- The transactions of a stream, with their first and last event. -/
def bare (parts : List (Part MGtid)) : List (Part MGtid) := (parts.flatMap Part.txs).map fun t => .tx t.1 (firstAndLast t.2)

theorem bare_cons (p : Part MGtid) (ps : List (Part MGtid)) :
    bare (p :: ps) = (p.txs.map fun t => .tx t.1 (firstAndLast t.2)) ++ bare ps := by
  rw [bare, List.flatMap_cons, List.map_append]
  rfl

theorem bare_gtids (parts : List (Part MGtid)) : (bare parts).flatMap Part.gtids = parts.flatMap Part.gtids := by
  induction parts with
  | nil => rfl
  | cons p ps ih =>
    rw [bare_cons, List.flatMap_append, ih, List.flatMap_cons]
    cases p <;> rfl

theorem bare_quiet {parts : List (Part MGtid)} (hp : ∀ p ∈ parts, p.Ok MariaTx) : ∀ p ∈ bare parts, p.Ok QuietTx := by
  intro p hmem
  obtain ⟨t, ht, rfl⟩ := List.mem_map.1 hmem
  obtain ⟨q, hq, ht⟩ := List.mem_flatMap.1 ht
  cases q with
  | noise e => cases ht
  | tx g es =>
    rw [List.mem_singleton.1 ht]
    exact chosen_quiet hp (Part.choose firstAndLast (.tx g es)) (List.mem_map.2 ⟨_, hq, rfl⟩)

theorem flagged_parts {parts : List (Part MGtid)} (hp : ∀ p ∈ parts, p.Ok FlaggedTx) : ∀ p ∈ parts, p.Ok MariaTx := by
  intro p hpm
  have := hp p hpm
  cases p with
  | tx g es => exact this.tx
  | noise e => exact this

/-- What is committed is a beginning of the bare transactions, with the same ones finished. -/
theorem toCommit_take {parts : List (Part MGtid)} (hp : ∀ p ∈ parts, p.Ok FlaggedTx) (k : Nat) :
    toCommit ((flat parts).take k) = (flat (bare parts)).take (toCommit ((flat parts).take k)).length ∧
      finished k parts = finished (toCommit ((flat parts).take k)).length (bare parts) := by
  have h1 : toCommit ((flat parts).take k) = (finishedTxs k parts).flatMap fun t => firstAndLast t.2 := by
    rw [toCommit, gathered_finished (fun _ _ h rest => wholeFrom_flagged h rest) parts hp, List.flatMap_map]
  rw [h1]
  replace hp := flagged_parts hp
  clear h1
  induction parts generalizing k with
  | nil => exact ⟨rfl, rfl⟩
  | cons p ps ih =>
    obtain ⟨h1, h2⟩ := ih (k - p.events.length) fun q hq => hp q (by simp [hq])
    rw [finishedTxs, finished, bare_cons]
    cases p with
    | noise e =>
      split
      · exact ⟨h1, h2⟩
      · refine ⟨rfl, ?_⟩
        rw [List.flatMap_nil, List.length_nil]
        show [] = finished 0 (bare ps)
        cases h : bare ps with
        | nil => rfl
        | cons q qs =>
          have hq := bare_quiet (fun q hq => hp q (by simp [hq]) : ∀ p ∈ ps, p.Ok MariaTx) q (by rw [h]; simp)
          obtain ⟨t, -, rfl⟩ := List.mem_map.1 (show q ∈ bare ps by rw [h]; simp)
          obtain ⟨e, mid, l, he, -⟩ := mariaTx_shape hq.1
          rw [finished, Part.events, he]
          rfl
    | tx g es =>
      obtain ⟨e, mid, l, rfl, -⟩ := mariaTx_shape (show MariaTx g es from hp (.tx g es) (by simp))
      have hf : ∀ q : Part MGtid, ∀ qs, flat (q :: qs) = q.events ++ flat qs := fun q qs => by simp [flat]
      have h3 : (Part.tx g (e :: mid ++ [l])).txs.map (fun t => Part.tx t.1 (firstAndLast t.2)) = [.tx g [e, l]] := by
        show [Part.tx g (firstAndLast (e :: mid ++ [l]))] = _
        rw [firstAndLast_eq]
      rw [h3, List.singleton_append, hf]
      split
      · rw [Part.txs, List.singleton_append, List.flatMap_cons, firstAndLast_eq]
        have hev : (Part.tx g [e, l]).events = [e, l] := rfl
        rw [hev, finished, hev, List.length_append]
        constructor
        · rw [List.take_append, List.take_of_length_le (Nat.le_add_right _ _), Nat.add_sub_cancel_left, ← h1]
        · rw [if_pos (Nat.le_add_right _ _), Nat.add_sub_cancel_left, ← h2]
          rfl
      · exact ⟨rfl, rfl⟩

/-- The sessions as C104 sees them, and what they do to the copy. -/
theorem consumerSessions_taken {σ : Type} {m : Mode} {apply : σ → List Ev → σ} {c c' : Client} {data data' : σ} {log log' : List (Tx MGtid)}
    (h : ConsumerSessions m apply c data log c' data' log') :
    ∃ dones : List (List (Tx MGtid)), TakenMarias m c (log.map (·.1)) (dones.map fun d => d.map (·.1)) c' (log'.map (·.1)) ∧
      data' = dataAfter apply data dones.flatten ∧ (∀ t ∈ dones.flatten, t ∈ log') ∧ log <+: log' := by
  induction h with
  | stop => exact ⟨[], .stop, rfl, by simp, List.prefix_rfl⟩
  | grow more _ ih =>
    obtain ⟨dones, h1, h2, h3, h4⟩ := ih
    exact ⟨dones, .grow (more.map (·.1)) (by rw [← List.map_append]; exact h1), h2, h3, (List.prefix_append _ _).trans h4⟩
  | failed _ ih =>
    obtain ⟨dones, h1, h2, h3, h4⟩ := ih
    exact ⟨dones, .failed h1, h2, h3, h4⟩
  | @session c c1 c2 c' data data' log log' crypto chan stream taken hf hr hs hc _ ih =>
    obtain ⟨dones, h1, h2, h3, h4⟩ := ih
    obtain ⟨htrace, hrequest, htold, hp, hlog, hin, hsent, hbytes, hsize, hinput, hy, hl⟩ := hs
    rename_i front request id position file listed parts sent slices st n rest stream'
    have htaken := copy_taken hr hsent hbytes hsize hinput hy hl
    obtain ⟨k1, k2⟩ := toCommit_take hp taken.length
    rw [← htaken] at k1 k2
    refine ⟨finishedTxs taken.length parts :: dones, ?_, ?_, ?_, h4⟩
    · rw [List.map_cons, finishedTxs_fst]
      exact .session hf hr (.mk htrace hrequest htold (bare_quiet (flagged_parts hp)) (by rw [bare_gtids, ← parts_fst, hlog]) k1 k2) hc h1
    · rw [h2, List.flatten_cons, dataAfter, dataAfter, List.foldl_append]
      have : whole taken = (finishedTxs taken.length parts).map (·.2) := by
        rw [← gathered_finished (fun _ _ h rest => wholeFrom_flagged h rest) parts hp, ← htaken]
      rw [this, List.foldl_map]
    · rw [List.flatten_cons]
      intro t ht
      rcases List.mem_append.1 ht with ht | ht
      · exact h4.subset (hin t (finishedTxs_mem ht))
      · exact h3 t ht

theorem consumerSessions_seen {σ : Type} {m : Mode} {apply : σ → List Ev → σ} {c c' : Client} {data data' : σ} {log log' : List (Tx MGtid)}
    (h : ConsumerSessions m apply c data log c' data' log') (list : GtidList) (hs : c.options.binlog.startingStrategy = .fromGtid)
    (hlist : c.options.binlog.gtidList = some list) (hnone : c.options.binlog.gtidSet = none)
    (hone : (list.gtids.map (·.domainId)).Nodup) (hin : ∀ g ∈ list.gtids, g ∈ log'.map (·.1) → g ∈ log.map (·.1)) (hd : (log'.map (·.1)).Nodup)
    (old new : List (Tx MGtid)) (hold : log' = old ++ new) (hsend : toSend list.gtids (log'.map (·.1)) = new.map (·.1)) :
    ∃ done later list', new = done ++ later ∧ data' = dataAfter apply data done ∧ c'.options.binlog.gtidList = some list' ∧
      (list'.gtids.map (·.domainId)).Nodup ∧ toSend list'.gtids (log'.map (·.1)) = later.map (·.1) := by
  obtain ⟨dones, h1, h2, h3, -⟩ := consumerSessions_taken h
  obtain ⟨list', k1, k2, -, k4⟩ := takenMarias_each_once h1 list hs hlist hnone hone hin hd
  rw [hsend, ← List.map_flatten] at k4
  subst hold
  obtain ⟨later, rfl⟩ : dones.flatten <+: new := prefix_of_fst hd h3 (fun t ht => by simp [ht]) ⟨_, k4⟩
  exact ⟨dones.flatten, later, list', rfl, h2, k1, k2, List.append_cancel_left (k4.trans List.map_append)⟩

/-- **C136.** A copy kept by applying whole transactions and committing the first and last event of each: what C119 says, for transactions with any
statements inside. A copy that begins as the data after some first transactions (`old`), when the server would send the others, is always the data
after some first transactions (`seen`), and the server would send the others when told the recorded list. When there is nothing to send, the copy is the
server's data. -/
theorem C136_copy {σ : Type} {m : Mode} {apply : σ → List Ev → σ} {c c' : Client} {data data' : σ} {log log' : List (Tx MGtid)}
    (h : ConsumerSessions m apply c data log c' data' log') (list : GtidList) (hs : c.options.binlog.startingStrategy = .fromGtid)
    (hlist : c.options.binlog.gtidList = some list) (hnone : c.options.binlog.gtidSet = none)
    (hone : (list.gtids.map (·.domainId)).Nodup) (hin : ∀ g ∈ list.gtids, g ∈ log'.map (·.1) → g ∈ log.map (·.1)) (hd : (log'.map (·.1)).Nodup)
    (init : σ) (old new : List (Tx MGtid)) (hold : log' = old ++ new) (hsend : toSend list.gtids (log'.map (·.1)) = new.map (·.1))
    (hdata : data = dataAfter apply init old) :
    ∃ seen later list', log' = seen ++ later ∧ old <+: seen ∧ data' = dataAfter apply init seen ∧ c'.options.binlog.gtidList = some list' ∧
      toSend list'.gtids (log'.map (·.1)) = later.map (·.1) ∧
      (toSend list'.gtids (log'.map (·.1)) = [] → data' = dataAfter apply init log') := by
  obtain ⟨done, later, list', rfl, h2, k1, -, k5⟩ := consumerSessions_seen h list hs hlist hnone hone hin hd old new hold hsend
  subst hold
  have hseen : data' = dataAfter apply init (old ++ done) := by
    rw [h2, hdata, dataAfter, dataAfter, dataAfter, List.foldl_append]
  refine ⟨old ++ done, later, list', by simp, List.prefix_append _ _, hseen, k1, k5, fun hnil => ?_⟩
  rw [k5, List.map_eq_nil_iff] at hnil
  rw [hseen, hnil, List.append_nil]

/-- **C136.** A copy of the tables, kept so, shows the tables after some first transactions, and the server, told the recorded list, would send exactly
the others: what C122 says, for transactions with any statements inside. -/
theorem C136_tables {m : Mode} {c c' : Client} {copy copy' : Kept} {log log' : List (Tx MGtid)}
    (h : ConsumerSessions m Kept.transaction c copy log c' copy' log') (list : GtidList)
    (hs : c.options.binlog.startingStrategy = .fromGtid) (hlist : c.options.binlog.gtidList = some list) (hnone : c.options.binlog.gtidSet = none)
    (hone : (list.gtids.map (·.domainId)).Nodup) (hin : ∀ g ∈ list.gtids, g ∈ log'.map (·.1) → g ∈ log.map (·.1)) (hd : (log'.map (·.1)).Nodup)
    {columns : TableName → List (UInt8 × Nat)} (hcol : ∀ t, columns t ≠ []) (old new : List (Tx MGtid)) (hnew : log' = old ++ new)
    (hsend : toSend list.gtids (log'.map (·.1)) = new.map (·.1))
    {rows rows' : TableName → List (List Stored)} (hist : History columns rows new rows') (hcopy : RowsShown columns rows copy.rows) :
    ∃ done later between list', new = done ++ later ∧ History columns rows done between ∧ History columns between later rows' ∧
      RowsShown columns between copy'.rows ∧ c'.options.binlog.gtidList = some list' ∧ toSend list'.gtids (log'.map (·.1)) = later.map (·.1) ∧
      (toSend list'.gtids (log'.map (·.1)) = [] → RowsShown columns rows' copy'.rows) := by
  obtain ⟨done, later, list', rfl, h1, h2, -, h3⟩ := consumerSessions_seen h list hs hlist hnone hone hin hd old new hnew hsend
  obtain ⟨between, g1, g2⟩ := hist.split
  have hshow : RowsShown columns between copy'.rows := by
    rw [h1]
    exact g1.shown hcol hcopy
  refine ⟨done, later, between, list', rfl, g1, g2, hshow, h2, h3, fun hnil => ?_⟩
  rw [h3, List.map_eq_nil_iff] at hnil
  subst hnil
  cases g2
  exact hshow

theorem ConsumerSessions.stays {σ : Type} {m : Mode} {apply : σ → List Ev → σ} {c c' : Client} {data data' : σ} {log log' : List (Tx MGtid)}
    (h : ConsumerSessions m apply c data log c' data' log') (hs : c.options.binlog.startingStrategy = .fromGtid)
    (hnone : c.options.binlog.gtidSet = none) : c'.options.binlog.startingStrategy = .fromGtid ∧ c'.options.binlog.gtidSet = none := by
  induction h with
  | stop => exact ⟨hs, hnone⟩
  | grow more _ ih => exact ih hs hnone
  | @failed c c' data data' log log' crypto net _ ih =>
    have hopt := replicate_keeps_options m crypto c net (.inl (by rw [hs]; decide))
    exact ih (by rw [hopt]; exact hs) (by rw [hopt]; exact hnone)
  | @session c c1 c2 c' data data' log log' crypto chan stream taken hf hr hsess hc _ ih =>
    have hopt := replicate_keeps_options m crypto c (.ok chan) (.inl (by rw [hs]; decide))
    rw [hr] at hopt
    have hopt : c1.options = c.options := hopt
    exact ih (by rw [commitAll_keeps hc, hopt, hs]) (commitAll_noSet hc (by rw [hopt, hnone]))

/-- **C136.** After whatever sessions, one whole session brings the copy up to date, and then the server has nothing left to send: what C126 says, for transactions
with any statements inside. -/
theorem C136_catches_up {σ : Type} {m : Mode} {apply : σ → List Ev → σ} {c c' : Client} {data data' : σ} {log log' : List (Tx MGtid)}
    (h : ConsumerSessions m apply c data log c' data' log') (list : GtidList) (hs : c.options.binlog.startingStrategy = .fromGtid)
    (hlist : c.options.binlog.gtidList = some list) (hnone : c.options.binlog.gtidSet = none)
    (hone : (list.gtids.map (·.domainId)).Nodup) (hin : ∀ g ∈ list.gtids, g ∈ log'.map (·.1) → g ∈ log.map (·.1)) (hd : (log'.map (·.1)).Nodup)
    (old new : List (Tx MGtid)) (hnew : log' = old ++ new) (hsend : toSend list.gtids (log'.map (·.1)) = new.map (·.1))
    (crypto : Crypto) (chan : Channel) (hu : Usable crypto c'.options) (hwr : chan.writes = []) (checksum : ChecksumType) (bytes : Bytes)
    (hlets : LetsIn crypto c'.options True none checksum bytes) (list' : GtidList) (hlist' : c'.options.binlog.gtidList = some list')
    (parts : List (Part MGtid)) (hp : ∀ p ∈ parts, p.Ok FlaggedTx)
    (hlog : (parts.flatMap Part.txs).map (·.1) = toSend list'.gtids (log'.map (·.1))) (hmem : ∀ t ∈ parts.flatMap Part.txs, t ∈ log')
    (slices : List Bytes) (st : LogState) (hbytes : LogOf (.start checksum) (flat parts) slices st)
    (hsize : ∀ x ∈ slices, x.length < 2 ^ 24 - 20) (n : Nat) (rest : Bytes)
    (hi : chan.input = bytes ++ frames (eventPackets n (flat parts) slices) ++ rest) :
    ∃ stream c'' list'', c'.replicate m crypto (.ok chan) = (.ok stream, c'.afresh) ∧
      (∃ stream', stream.Yields m ((flat parts).map .ok) stream') ∧ commitAll m c'.afresh (toCommit (flat parts)) = .ok c'' ∧
      (whole (flat parts)).foldl apply data' = dataAfter apply data new ∧
      ConsumerSessions m apply c data log c'' (dataAfter apply data new) log' ∧
      c''.options.binlog.gtidList = some list'' ∧ toSend list''.gtids (log'.map (·.1)) = [] := by
  obtain ⟨hs', hnone'⟩ := h.stays hs hnone
  obtain ⟨-, -, l, -, -, hl1, hone', -⟩ := consumerSessions_seen h list hs hlist hnone hone hin hd old new hnew hsend
  obtain rfl : list' = l := Option.some.inj (hlist'.symm.trans hl1)
  obtain ⟨stream, g1, g2⟩ := C119_session m crypto c' chan hu hwr checksum bytes hlets list' hs' hlist' FlaggedTx log' parts hp hlog hmem slices st
    hbytes hsize n rest hi
  have g4 := g2 (flat parts).length
  rw [List.take_of_length_le (Nat.le_refl _)] at g4
  obtain ⟨t1, t2⟩ := toCommit_take hp (flat parts).length
  rw [List.take_of_length_le (Nat.le_refl _)] at t1 t2
  have hq := quiet_parts (bare_quiet (flagged_parts hp))
  obtain ⟨c'', list'', g5, g6, -, -, -⟩ := C18_exactly_finished_partial m c'.afresh list' ⟨hs', rfl, hlist', hnone'⟩ hone' (bare parts) hq.1 hq.2
    (toCommit (flat parts)).length
  rw [← t1] at g5
  have hy : ∃ stream', stream.Yields m ((flat parts).map .ok) stream' := by
    obtain ⟨_, _, _, _, _, _, _, _, _, _, hy, _⟩ := g4
    exact ⟨_, hy⟩
  -- the server has nothing left to send
  have hnil : toSend list''.gtids (log'.map (·.1)) = [] := by
    obtain ⟨stream2, front, cmd, e1, e2, e3, e4, -, -⟩ := maria_asks m crypto c' chan hu hwr checksum bytes _ hlets list' hs' hlist'
      (by rw [hi, List.append_assoc])
    have e5 : TakenMarias m c' (log'.map (·.1)) [finished (flat parts).length parts] c'' (log'.map (·.1)) :=
      .session (small_fits hu.requests) e1 (.mk e2 e3 e4 (bare_quiet (flagged_parts hp)) (by rw [bare_gtids, ← parts_fst, hlog]) t1 t2) g5 .stop
    obtain ⟨l, k1, -, -, k4⟩ := takenMarias_each_once e5 list' hs' hlist' hnone' hone' (fun _ _ h => h) hd
    obtain rfl : list'' = l := Option.some.inj (g6.symm.trans k1)
    rw [← hlog, finished_all _ _ (Nat.le_refl _), ← parts_fst] at k4
    simpa using k4
  have hwhole := h.trans (.session (small_fits hu.requests) g1 g4 g5 .stop)
  obtain ⟨done, later, l, e1, e2, e3, -, e4⟩ := consumerSessions_seen hwhole list hs hlist hnone hone hin hd old new hnew hsend
  obtain rfl : list'' = l := Option.some.inj (g6.symm.trans e3)
  have hlater : later = [] := by
    rw [hnil] at e4
    exact List.map_eq_nil_iff.1 e4.symm
  obtain rfl : new = done := by rw [e1, hlater, List.append_nil]
  rw [e2] at hwhole
  exact ⟨stream, c'', list'', g1, hy, g5, e2, hwhole, g6, hnil⟩

/-- The hypotheses of C136 are met, by the transaction of `C119_false`: the first session ends behind the statement, with nothing applied or committed. The
second brings the transaction. -/
example (m : Mode) : ∃ t : Tx MGtid, exStatementTx.txs = [t] ∧ (∃ c', ConsumerSessions m exCount exListUser (dataAfter exCount [] (exMariaTxs.take 2))
      (exMariaTxs.take 2 ++ [t]) c' (dataAfter exCount [] (exMariaTxs.take 2 ++ [t])) (exMariaTxs.take 2 ++ [t])) ∧
    exListUser.options.binlog.startingStrategy = .fromGtid ∧ exListUser.options.binlog.gtidList = some exList ∧
    exListUser.options.binlog.gtidSet = none ∧ (exList.gtids.map (·.domainId)).Nodup ∧ ((exMariaTxs.take 2 ++ [t]).map (·.1)).Nodup ∧
    toSend exList.gtids ((exMariaTxs.take 2 ++ [t]).map (·.1)) = [t].map (·.1) := by
  refine ⟨_, rfl, ?_, rfl, rfl, rfl, by decide, by decide, by decide⟩
  have ok : ∀ p ∈ [exStatementTx], p.Ok FlaggedTx := by
    intro p hp
    rw [List.mem_singleton.1 hp]
    exact FlaggedTx.block (x := ⟨⟨0, 1, 271⟩, 0⟩) (body := [(exTyped 2, exQuery "INSERT")]) rfl rfl (by simp [Inside, IsGtid, Spec.Ends, exQuery]) trivial
  obtain ⟨stream, h3, h4⟩ := C119_session m exCrypto exListUser { exChannel [] with input := _ } exListUser_usable rfl .crc32 _
    (exListUser_in _ rfl) exList rfl rfl FlaggedTx (exMariaTxs.take 2 ++ exStatementTx.txs) [exStatementTx] ok (by decide) (by
      intro t ht
      exact List.mem_append_right _ (by simpa using ht)) _ _
    (.cons (by unfold HeaderFits; decide) (exMariaTx_written _ rfl 0 271 (by decide) (by decide)).1
      (.cons (by unfold HeaderFits; decide) (exQuery_written _ _)
      (.cons (by unfold HeaderFits; decide) (exMariaTx_written _ rfl 0 271 (by decide) (by decide)).2 .nil))) (by decide +kernel) 1 [] rfl
  have w2 : whole ((flat [exStatementTx]).take 2) = [] := by with_unfolding_all rfl
  have c2 : commitAll m exListUser.afresh (toCommit ((flat [exStatementTx]).take 2)) = .ok exListUser := by
    rw [toCommit, w2]
    rfl
  have hc3 : ∀ m, ∃ c3, commitAll m exListUser.afresh (toCommit ((flat [exStatementTx]).take 3)) = .ok c3 := by
    rintro ⟨_ | _⟩ <;> exact ⟨_, by with_unfolding_all rfl⟩
  obtain ⟨c3, hc3⟩ := hc3 m
  refine ⟨c3, .session (small_fits exListUser_usable.requests) h3 (h4 2) c2 (.session (small_fits exListUser_usable.requests) h3 (h4 3) hc3 ?_)⟩
  rw [w2, show ((whole ((flat [exStatementTx]).take 3)).foldl exCount (([] : List (List Ev)).foldl exCount (dataAfter exCount [] (exMariaTxs.take 2)))) =
    dataAfter exCount [] (exMariaTxs.take 2 ++ exStatementTx.txs) by decide +kernel]
  exact .stop

end MysqlCdc
