import Verif.Props.Lagging
import Verif.Props.ConsumerMaria
/-!
# C137 with a MariaDB
-/

namespace MysqlCdc

open Spec

/-- As `ConsumerSessions`; when a session ends, the application has applied all the transactions that it has taken whole, but of their first and last
events it has committed some first ones only. -/
inductive LaggingSessionsMaria {σ : Type} (m : Mode) (apply : σ → List Ev → σ) :
    Client → σ → (log : List (Tx MGtid)) → Client → σ → (log' : List (Tx MGtid)) → Prop where
  | stop {c : Client} {data : σ} {log : List (Tx MGtid)} : LaggingSessionsMaria m apply c data log c data log
  | grow {c c' : Client} {data data' : σ} {log log' : List (Tx MGtid)} (more : List (Tx MGtid))
      (h : LaggingSessionsMaria m apply c data (log ++ more) c' data' log') : LaggingSessionsMaria m apply c data log c' data' log'
  | failed {c c' : Client} {data data' : σ} {log log' : List (Tx MGtid)} {crypto : Crypto} {net : Except IoKind Channel}
      (h : LaggingSessionsMaria m apply (c.replicate m crypto net).2 data log c' data' log') : LaggingSessionsMaria m apply c data log c' data' log'
  | session {c c1 c2 c' : Client} {data data' : σ} {log log' : List (Tx MGtid)} {crypto : Crypto} {chan : Channel} {stream : BinlogEvents}
      {taken committed : List Ev} (hf : FitsRequests c.options) (hr : c.replicate m crypto (.ok chan) = (.ok stream, c1))
      (hs : CopySessionMaria m FlaggedTx log stream taken) (hpre : committed <+: toCommit taken) (hc : commitAll m c1 committed = .ok c2)
      (h : LaggingSessionsMaria m apply c2 ((whole taken).foldl apply data) log c' data' log') : LaggingSessionsMaria m apply c data log c' data' log'

theorem LaggingSessionsMaria.grows {σ : Type} {m : Mode} {apply : σ → List Ev → σ} {c c' : Client} {data data' : σ} {log log' : List (Tx MGtid)}
    (h : LaggingSessionsMaria m apply c data log c' data' log') : log <+: log' := by
  induction h with
  | stop => exact List.prefix_rfl
  | grow more _ ih => exact (List.prefix_append _ _).trans ih
  | failed _ ih => exact ih
  | session _ _ _ _ _ _ ih => exact ih

/-- What the server sends is what is behind the recorded list, and what a part of the commits records. -/
theorem copySessionMaria_parts {m : Mode} {c c1 : Client} {crypto : Crypto} {chan : Channel} {stream : BinlogEvents} {taken : List Ev}
    {log : List (Tx MGtid)} {list : GtidList} (hs : c.options.binlog.startingStrategy = .fromGtid) (hlist : c.options.binlog.gtidList = some list)
    (hf : FitsRequests c.options) (hr : c.replicate m crypto (.ok chan) = (.ok stream, c1)) (h : CopySessionMaria m FlaggedTx log stream taken) :
    ∃ parts, (∀ p ∈ parts, p.Ok FlaggedTx) ∧ (parts.flatMap Part.txs).map (·.1) = toSend list.gtids (log.map (·.1)) ∧
      (∀ t ∈ parts.flatMap Part.txs, t ∈ log) ∧ taken = (flat parts).take taken.length ∧
      ∀ committed, committed <+: toCommit taken → ∃ recorded, recorded <+: finishedTxs taken.length parts ∧
        TakenMaria (log.map (·.1)) stream committed (recorded.map (·.1)) := by
  obtain ⟨htrace, hrequest, htold, hp, hlog, hin, hsent, hbytes, hsize, hinput, hy, hl⟩ := h
  rename_i front request id position file listed parts sent slices st n rest stream'
  have htaken := copy_taken hr hsent hbytes hsize hinput hy hl
  obtain ⟨l, g1, g2⟩ := told_recorded hf hr hs htrace hrequest
  obtain rfl : list = l := Option.some.inj (hlist.symm.trans g1)
  obtain rfl := toldState_unique g2 htold
  refine ⟨parts, hp, hlog, hin, htaken, fun committed hpre => ?_⟩
  obtain ⟨k1, k2⟩ := toCommit_take hp taken.length
  rw [← htaken] at k1 k2
  have hq := finishedTxs_mono hpre.length_le (bare parts)
  have hq := hq.map (·.1)
  rw [finishedTxs_fst, finishedTxs_fst, ← k2, ← finishedTxs_fst taken.length] at hq
  refine ⟨(finishedTxs taken.length parts).take (finished committed.length (bare parts)).length, List.take_prefix _ _, ?_⟩
  refine .mk htrace hrequest htold (bare_quiet (flagged_parts hp)) (by rw [bare_gtids, ← parts_fst, hlog]) ?_ ?_
  · rw [k1] at hpre
    exact List.prefix_iff_eq_take.1 (hpre.trans (List.take_prefix _ _))
  · rw [List.map_take]
    exact (List.prefix_iff_eq_take.1 hq).symm

/-- What the sessions have done. -/
theorem laggingSessionsMaria_runs {σ : Type} {m : Mode} {apply : σ → List Ev → σ} {c c' : Client} {data data' : σ} {log log' : List (Tx MGtid)}
    (h : LaggingSessionsMaria m apply c data log c' data' log') (list : GtidList) (hs : c.options.binlog.startingStrategy = .fromGtid)
    (hlist : c.options.binlog.gtidList = some list) (hnone : c.options.binlog.gtidSet = none)
    (hone : (list.gtids.map (·.domainId)).Nodup) (hin : ∀ g ∈ list.gtids, g ∈ log'.map (·.1) → g ∈ log.map (·.1)) (hd : (log'.map (·.1)).Nodup)
    (new : List (Tx MGtid)) (hnew : ∀ t ∈ new, t ∈ log') (hsend : toSend list.gtids (log'.map (·.1)) = new.map (·.1)) :
    ∃ runs left list', Redelivered new runs left ∧ data' = dataAfter apply data runs.flatten ∧ c'.options.binlog.gtidList = some list' ∧
      (list'.gtids.map (·.domainId)).Nodup ∧ toSend list'.gtids (log'.map (·.1)) = left.map (·.1) ∧
      c'.options.binlog.startingStrategy = .fromGtid ∧ c'.options.binlog.gtidSet = none := by
  induction h generalizing list new with
  | stop => exact ⟨[], new, list, .stop, rfl, hlist, hone, hsend, hs, hnone⟩
  | grow more _ ih =>
    exact ih list hs hlist hnone hone (fun g h1 h2 => by rw [List.map_append]; exact List.mem_append_left _ (hin g h1 h2)) hd new hnew hsend
  | @failed c c' data data' log log' crypto net _ ih =>
    have hopt := replicate_keeps_options m crypto c net (.inl (by rw [hs]; decide))
    exact ih list (by rw [hopt]; exact hs) (by rw [hopt]; exact hlist) (by rw [hopt]; exact hnone) hone hin hd new hnew hsend
  | @session c c1 c2 c' data data' log log' crypto chan stream taken committed hf hr hsess hpre hc h ih =>
    obtain ⟨parts, hp, hlog, hmem, htaken, hts⟩ := copySessionMaria_parts hs hlist hf hr hsess
    obtain ⟨recorded, hrec, htm⟩ := hts committed hpre
    obtain ⟨more, rfl⟩ := h.grows
    have hopt := replicate_keeps_options m crypto c (.ok chan) (.inl (by rw [hs]; decide))
    rw [hr] at hopt
    have hopt : c1.options = c.options := hopt
    have h1 : TakenMarias m c (log.map (·.1)) [recorded.map (·.1)] c2 ((log ++ more).map (·.1)) := by
      rw [List.map_append]
      exact .session hf hr htm hc (.grow _ .stop)
    obtain ⟨list2, k1, k2, k3, k4⟩ := takenMarias_each_once h1 list hs hlist hnone hone hin hd
    simp only [List.flatten_cons, List.flatten_nil, List.append_nil] at k3 k4
    -- what the server sent is the beginning of what it had to send
    have hfirst : parts.flatMap Part.txs <+: new := by
      refine prefix_of_fst hd (fun t ht => List.mem_append_left _ (hmem t ht)) hnew ?_
      rw [← hsend, hlog, List.map_append]
      rw [List.map_append] at hd hin
      rw [toSend_grow hd hin]
      exact List.prefix_append _ _
    obtain ⟨more', hmore⟩ := hrec
    obtain ⟨rest, hrest⟩ := (finishedTxs_prefix taken.length parts).trans hfirst
    subst hrest
    rw [hsend, ← hmore, List.append_assoc, List.map_append (l₁ := recorded)] at k4
    have hleft := List.append_cancel_left k4
    have hmemr : ∀ t ∈ finishedTxs taken.length parts, t ∈ log := fun t ht => hmem t (finishedTxs_mem ht)
    obtain ⟨runs, left, list', r1, r2, r3⟩ := ih list2 (by rw [commitAll_keeps hc, hopt, hs]) k1 (commitAll_noSet hc (by rw [hopt, hnone])) k2 (by
        intro g hg hg'
        rcases (k3 g).1 hg with h6 | h6
        · obtain ⟨t, ht, rfl⟩ := List.mem_map.1 (lastOf_mem h6)
          exact List.mem_map.2 ⟨t, hmemr t (by rw [← hmore]; exact List.mem_append_left _ ht), rfl⟩
        · exact hin g h6.1 hg') hd (more' ++ rest) (by
        intro t ht
        refine hnew t ?_
        rw [← hmore, List.append_assoc]
        exact List.mem_append_right _ ht) hleft
    refine ⟨finishedTxs taken.length parts :: runs, left, list', ?_, ?_, r3⟩
    · rw [← hmore]
      exact .run r1
    · have hwhole : whole taken = (finishedTxs taken.length parts).map (·.2) := by
        rw [← gathered_finished (fun _ _ h rest => wholeFrom_flagged h rest) parts hp, ← htaken]
      rw [r2, List.flatten_cons, dataAfter_append, hwhole, List.foldl_map]
      rfl

/-- **C137.** With a MariaDB: an application applies whole transactions and commits the first and the last event of each, but the commits lag behind: when a
session ends, any first part of them has been done. It gets the transactions that it has not recorded again, in order and without leaving one out. -/
theorem C137_maria_again {σ : Type} {m : Mode} {apply : σ → List Ev → σ} {c c' : Client} {data data' : σ} {log log' : List (Tx MGtid)}
    (h : LaggingSessionsMaria m apply c data log c' data' log') (list : GtidList) (hs : c.options.binlog.startingStrategy = .fromGtid)
    (hlist : c.options.binlog.gtidList = some list) (hnone : c.options.binlog.gtidSet = none)
    (hone : (list.gtids.map (·.domainId)).Nodup) (hin : ∀ g ∈ list.gtids, g ∈ log'.map (·.1) → g ∈ log.map (·.1)) (hd : (log'.map (·.1)).Nodup)
    (new : List (Tx MGtid)) (hnew : ∀ t ∈ new, t ∈ log') (hsend : toSend list.gtids (log'.map (·.1)) = new.map (·.1)) :
    ∃ runs done left list', Redelivered new runs left ∧ new = done ++ left ∧ (∀ t ∈ done, t ∈ runs.flatten) ∧
      data' = dataAfter apply data runs.flatten ∧ c'.options.binlog.gtidList = some list' ∧
      toSend list'.gtids (log'.map (·.1)) = left.map (·.1) := by
  obtain ⟨runs, left, list', h1, h2, h3, -, h4, -⟩ := laggingSessionsMaria_runs h list hs hlist hnone hone hin hd new hnew hsend
  obtain ⟨done, h5, h6⟩ := h1.given
  exact ⟨runs, done, left, list', h1, h5, h6, h2, h3, h4⟩

/-- **C137.** With a MariaDB, when transactions overwrite: each place of the copy holds what it held on the server after all the recorded transactions and some
first ones of the others. When there is nothing left to send, the copy is the server's data. -/
theorem C137_maria_places {K V : Type} {m : Mode} {apply : (K → V) → List Ev → K → V} {c c' : Client} {data data' : K → V} {log log' : List (Tx MGtid)}
    (h : LaggingSessionsMaria m apply c data log c' data' log') (list : GtidList) (hs : c.options.binlog.startingStrategy = .fromGtid)
    (hlist : c.options.binlog.gtidList = some list) (hnone : c.options.binlog.gtidSet = none)
    (hone : (list.gtids.map (·.domainId)).Nodup) (hin : ∀ g ∈ list.gtids, g ∈ log'.map (·.1) → g ∈ log.map (·.1)) (hd : (log'.map (·.1)).Nodup)
    (new : List (Tx MGtid)) (hnew : ∀ t ∈ new, t ∈ log') (hsend : toSend list.gtids (log'.map (·.1)) = new.map (·.1))
    (hover : ∀ t ∈ new, Overwrites apply t.2) :
    ∃ done left list', new = done ++ left ∧ c'.options.binlog.gtidList = some list' ∧
      toSend list'.gtids (log'.map (·.1)) = left.map (·.1) ∧
      (∀ k, ∃ first, first <+: left ∧ data' k = dataAfter apply data (done ++ first) k) ∧
      (toSend list'.gtids (log'.map (·.1)) = [] → data' = dataAfter apply data new) := by
  obtain ⟨runs, left, list', h1, h2, h3, -, h4, -⟩ := laggingSessionsMaria_runs h list hs hlist hnone hone hin hd new hnew hsend
  obtain ⟨done, h5, h6⟩ := h1.places hover data data fun k => ⟨[], List.nil_prefix, rfl⟩
  refine ⟨done, left, list', h5, h3, h4, h2 ▸ h6, fun hnil => funext fun k => ?_⟩
  rw [h4, List.map_eq_nil_iff] at hnil
  subst hnil
  obtain ⟨first, h7, h8⟩ := h6 k
  rw [List.prefix_nil] at h7
  rw [h2, h8, h7, h5]

/-- **C137.** With a MariaDB, when transactions overwrite: after whatever sessions, once the application has taken one session whole, its copy is the server's
data, whatever of that session it has committed so far. -/
theorem C137_maria_catches_up {K V : Type} {m : Mode} {apply : (K → V) → List Ev → K → V} {c c' : Client} {data data' : K → V} {log log' : List (Tx MGtid)}
    (h : LaggingSessionsMaria m apply c data log c' data' log') (list : GtidList) (hs : c.options.binlog.startingStrategy = .fromGtid)
    (hlist : c.options.binlog.gtidList = some list) (hnone : c.options.binlog.gtidSet = none)
    (hone : (list.gtids.map (·.domainId)).Nodup) (hin : ∀ g ∈ list.gtids, g ∈ log'.map (·.1) → g ∈ log.map (·.1)) (hd : (log'.map (·.1)).Nodup)
    (new : List (Tx MGtid)) (hnew : ∀ t ∈ new, t ∈ log') (hsend : toSend list.gtids (log'.map (·.1)) = new.map (·.1))
    (hover : ∀ t ∈ new, Overwrites apply t.2)
    (crypto : Crypto) (chan : Channel) (hu : Usable crypto c'.options) (hwr : chan.writes = []) (checksum : ChecksumType) (bytes : Bytes)
    (hlets : LetsIn crypto c'.options True none checksum bytes) (list' : GtidList) (hlist' : c'.options.binlog.gtidList = some list')
    (parts : List (Part MGtid)) (hp : ∀ p ∈ parts, p.Ok FlaggedTx)
    (hlog : (parts.flatMap Part.txs).map (·.1) = toSend list'.gtids (log'.map (·.1))) (hmem : ∀ t ∈ parts.flatMap Part.txs, t ∈ log')
    (slices : List Bytes) (st : LogState) (hbytes : LogOf (.start checksum) (flat parts) slices st)
    (hsize : ∀ x ∈ slices, x.length < 2 ^ 24 - 20) (n : Nat) (rest : Bytes)
    (hi : chan.input = bytes ++ frames (eventPackets n (flat parts) slices) ++ rest) :
    ∃ stream, c'.replicate m crypto (.ok chan) = (.ok stream, c'.afresh) ∧ (∃ stream', stream.Yields m ((flat parts).map .ok) stream') ∧
      (whole (flat parts)).foldl apply data' = dataAfter apply data new := by
  obtain ⟨runs, left, list1, h1, h2, h3, hone', h4, hs', hnone'⟩ := laggingSessionsMaria_runs h list hs hlist hnone hone hin hd new hnew hsend
  obtain rfl : list' = list1 := Option.some.inj (hlist'.symm.trans h3)
  obtain ⟨stream, g1, g2⟩ := C119_session m crypto c' chan hu hwr checksum bytes hlets list' hs' hlist' FlaggedTx log' parts hp hlog hmem slices st
    hbytes hsize n rest hi
  have g2 := g2 (flat parts).length
  rw [List.take_of_length_le (Nat.le_refl _)] at g2
  have hy : ∃ stream', stream.Yields m ((flat parts).map .ok) stream' := by
    obtain ⟨_, _, _, _, _, _, _, _, _, _, hy, _⟩ := g2
    exact ⟨_, hy⟩
  refine ⟨stream, g1, hy, ?_⟩
  obtain ⟨done0, h5, -⟩ := h1.given
  have hleft : parts.flatMap Part.txs = left := by
    rw [h4] at hlog
    have hl : ∀ t ∈ left, t ∈ log' := fun t ht => hnew t (by rw [h5]; exact List.mem_append_right _ ht)
    have := prefix_of_fst hd hmem hl (by rw [hlog]; exact List.prefix_rfl)
    exact this.eq_of_length (by simpa using congrArg List.length hlog)
  have hwhole : whole (flat parts) = left.map (·.2) := by
    rw [← hleft, ← finishedTxs_all parts _ (Nat.le_refl _), ← gathered_finished (fun _ _ h rest => wholeFrom_flagged h rest) parts hp,
      List.take_of_length_le (Nat.le_refl _)]
  rw [hwhole, List.foldl_map, h2]
  show dataAfter apply (dataAfter apply data runs.flatten) left = _
  rw [← dataAfter_append]
  have h6 := h1.snoc (recorded := left) (more := []) (rest := []) (by simp)
  obtain ⟨done, h7, h8⟩ := h6.places hover data data fun k => ⟨[], List.nil_prefix, rfl⟩
  rw [List.append_nil, List.append_nil] at h7
  funext k
  obtain ⟨first, h9, h10⟩ := h8 k
  obtain rfl : first = [] := by simpa using h9
  rw [List.flatten_append, List.flatten_cons, List.flatten_nil, List.append_nil, List.append_nil] at h10
  rw [h10, h7, List.append_nil]

/-- The hypotheses are met: in the first session the application applies the transaction and commits nothing of it; in the second it gets it again. -/
example (m : Mode) : ∃ t : Tx MGtid, exStatementTx.txs = [t] ∧ (∃ c', LaggingSessionsMaria m exSeen exListUser (fun k => k = 0)
      (exMariaTxs.take 2 ++ [t]) c' (dataAfter exSeen (fun k => k = 0) [t, t]) (exMariaTxs.take 2 ++ [t])) ∧
    exListUser.options.binlog.startingStrategy = .fromGtid ∧ exListUser.options.binlog.gtidList = some exList ∧
    exListUser.options.binlog.gtidSet = none ∧ (exList.gtids.map (·.domainId)).Nodup ∧ ((exMariaTxs.take 2 ++ [t]).map (·.1)).Nodup ∧
    toSend exList.gtids ((exMariaTxs.take 2 ++ [t]).map (·.1)) = [t].map (·.1) ∧ ∀ t' ∈ [t], Overwrites exSeen t'.2 := by
  refine ⟨_, rfl, ?_, rfl, rfl, rfl, by decide, by decide, by decide, fun t _ => exSeen_overwrites t.2⟩
  have ok : ∀ p ∈ [exStatementTx], p.Ok FlaggedTx := by
    intro p hp
    rw [List.mem_singleton.1 hp]
    exact FlaggedTx.block (x := ⟨⟨0, 1, 271⟩, 0⟩) (body := [(exTyped 2, exQuery "INSERT")]) rfl rfl (by simp [Inside, IsGtid, Spec.Ends, exQuery]) trivial
  obtain ⟨stream, h3, h4⟩ := C119_session m exCrypto exListUser { exChannel [] with input := _ } exListUser_usable rfl .crc32 _
    (exListUser_in _ rfl) exList rfl rfl FlaggedTx (exMariaTxs.take 2 ++ exStatementTx.txs) [exStatementTx] ok (by decide) (by
      intro t ht
      exact List.mem_append_right _ (by simpa using ht)) _ _
    (.cons (by unfold HeaderFits; decide) (exMariaTx_written _ rfl 0 271 (by decide) (by decide)).1
      (.cons (by unfold HeaderFits; decide) (exQuery_written _ _)
      (.cons (by unfold HeaderFits; decide) (exMariaTx_written _ rfl 0 271 (by decide) (by decide)).2 .nil))) (by decide +kernel) 1 [] rfl
  have w3 : whole ((flat [exStatementTx]).take 3) = exStatementTx.txs.map (·.2) := by with_unfolding_all rfl
  have hc3 : ∀ m, ∃ c3, commitAll m exListUser.afresh (toCommit ((flat [exStatementTx]).take 3)) = .ok c3 := by
    rintro ⟨_ | _⟩ <;> exact ⟨_, by with_unfolding_all rfl⟩
  obtain ⟨c3, hc3⟩ := hc3 m
  refine ⟨c3, .session (small_fits exListUser_usable.requests) h3 (h4 3) List.nil_prefix (c2 := exListUser) rfl
    (.session (small_fits exListUser_usable.requests) h3 (h4 3) List.prefix_rfl hc3 ?_)⟩
  rw [w3]
  exact .stop

end MysqlCdc
