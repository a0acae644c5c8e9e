import Verif.Props.Copy
import Verif.Props.DeliveriesMaria
/-!
# C119: a copy of the data of a MariaDB
-/

namespace MysqlCdc

open Spec

theorem Spec.FlaggedTx.tx {g : MGtid} {es : List Ev} (h : FlaggedTx g es) : MariaTx g es := by
  cases h with
  | block hx _ hi hend => exact .block hx hi hend
  | auto hx _ hm hauto => exact .auto hx hm hauto

/-- A complete transaction is gathered. -/
theorem wholeFrom_flagged {g : MGtid} {es : List Ev} (h : FlaggedTx g es) (rest : List Ev) :
    wholeFrom .idle (es ++ rest) = es :: wholeFrom .idle rest := by
  cases h with
  | @block h0 he x e body hx hf hi hend =>
    have h1 : Pending.idle.next (h0, .mariaDbGtid x) = (none, .begun [(h0, .mariaDbGtid x)]) := if_neg (by omega)
    have h2 : ∀ es, (Pending.begun es).next (he, e) = (some (es ++ [(he, e)]), .idle) := by
      intro es
      cases e with
      | query q => exact if_pos hend
      | xid x => rfl
      | _ => exact hend.elim
    simp only [List.cons_append, List.append_assoc]
    rw [wholeFrom, h1, Option.toList, List.nil_append, wholeFrom_body _ _ _ hi, List.nil_append, wholeFrom, h2]
    simp
  | @auto h0 he x e mid hx hf hm hauto =>
    have h1 : Pending.idle.next (h0, .mariaDbGtid x) = (none, .opened [(h0, .mariaDbGtid x)]) := if_pos hf
    have h2 : ∀ es, (Pending.opened es).next (he, e) = (some (es ++ [(he, e)]), .idle) := by
      intro es
      cases e with
      | query q => exact (if_neg hauto.1).trans (if_neg hauto.2.1)
      | _ => exact hauto.elim
    simp only [List.cons_append, List.append_assoc]
    rw [wholeFrom, h1, Option.toList, List.nil_append, wholeFrom_mid _ _ _ hm, List.nil_append, wholeFrom, h2]
    simp

/-- What a session brings, as `MariaSession`, with the events of the transactions: the server sends what is after the GTIDs it was told, as it is in its
log. -/
inductive CopySessionMaria (m : Mode) (T : MGtid → List Ev → Prop) (log : List (Tx MGtid)) (stream : BinlogEvents) (taken : List Ev) : Prop where
  | mk {front : List Packet} {request : Bytes} {id position : Nat} {file : RStr} {listed : List MGtid}
      (htrace : stream.channel.trace = front ++ [.sent 0 request]) (hrequest : DumpPacket 0 id file position request)
      (htold : ToldState stream.channel.trace listed) {parts : List (Part MGtid)} (hp : ∀ p ∈ parts, p.Ok T)
      (hlog : (parts.flatMap Part.txs).map (·.1) = toSend listed (log.map (·.1))) (hin : ∀ t ∈ parts.flatMap Part.txs, t ∈ log)
      {sent : List Ev} (hsent : sent <+: flat parts) {slices : List Bytes} {st : LogState}
      (hbytes : LogOf (.start stream.parser.checksumType) sent slices st) (hsize : ∀ x ∈ slices, x.length < 2 ^ 24 - 20)
      {n : Nat} {rest : Bytes} (hinput : stream.channel.input = frames (eventPackets n sent slices) ++ rest)
      {stream' : BinlogEvents} (hy : stream.Yields m (taken.map .ok) stream') (hl : taken.length ≤ sent.length) : CopySessionMaria m T log stream taken

/-- Any number of sessions with a MariaDB and attempts that fail, while its log grows. With what it takes and commits in a session, the application
brings its copy `data` up to date. -/
inductive CopySessionsMaria {σ : Type} (m : Mode) (T : MGtid → List Ev → Prop) (apply : σ → List Ev → σ) :
    Client → σ → (log : List (Tx MGtid)) → Client → σ → (log' : List (Tx MGtid)) → Prop where
  | stop {c : Client} {data : σ} {log : List (Tx MGtid)} : CopySessionsMaria m T apply c data log c data log
  | grow {c c' : Client} {data data' : σ} {log log' : List (Tx MGtid)} (more : List (Tx MGtid))
      (h : CopySessionsMaria m T apply c data (log ++ more) c' data' log') : CopySessionsMaria m T apply c data log c' data' log'
  | failed {c c' : Client} {data data' : σ} {log log' : List (Tx MGtid)} {crypto : Crypto} {net : Except IoKind Channel}
      (h : CopySessionsMaria m T apply (c.replicate m crypto net).2 data log c' data' log') : CopySessionsMaria m T apply c data log c' data' log'
  | session {c c1 c2 c' : Client} {data data' : σ} {log log' : List (Tx MGtid)} {crypto : Crypto} {chan : Channel} {stream : BinlogEvents} {taken : List Ev}
      (hf : FitsRequests c.options) (hr : c.replicate m crypto (.ok chan) = (.ok stream, c1)) (hs : CopySessionMaria m T log stream taken)
      (hc : commitAll m c1 taken = .ok c2) (h : CopySessionsMaria m T apply c2 ((whole taken).foldl apply data) log c' data' log') :
      CopySessionsMaria m T apply c data log c' data' log'

/-- A transaction with right flags and without statements before its last event. -/
def QuietFlaggedTx (g : MGtid) (es : List Ev) : Prop := FlaggedTx g es ∧ NoStatementBefore es

/-- The sessions as C104 sees them, and what they do to the copy. -/
theorem copySessions_maria {σ : Type} {m : Mode} {apply : σ → List Ev → σ} {c c' : Client} {data data' : σ} {log log' : List (Tx MGtid)}
    (h : CopySessionsMaria m QuietFlaggedTx apply c data log c' data' log') :
    ∃ dones : List (List (Tx MGtid)), MariaSessions m QuietTx c (log.map (·.1)) (dones.map fun d => d.map (·.1)) c' (log'.map (·.1)) ∧
      data' = dataAfter apply data dones.flatten ∧ (∀ t ∈ dones.flatten, t ∈ log') ∧ log <+: log' := by
  induction h with
  | stop => exact ⟨[], .stop, rfl, by simp, List.prefix_rfl⟩
  | grow more _ ih =>
    obtain ⟨dones, h1, h2, h3, h4⟩ := ih
    exact ⟨dones, .grow (more.map (·.1)) (by rw [← List.map_append]; exact h1), h2, h3, (List.prefix_append _ _).trans h4⟩
  | failed _ ih =>
    obtain ⟨dones, h1, h2, h3, h4⟩ := ih
    exact ⟨dones, .failed h1, h2, h3, h4⟩
  | @session c c1 c2 c' data data' log log' crypto chan stream taken hf hr hs hc _ ih =>
    obtain ⟨dones, h1, h2, h3, h4⟩ := ih
    obtain ⟨htrace, hrequest, htold, hp, hlog, hin, hsent, hbytes, hsize, hinput, hy, hl⟩ := hs
    rename_i front request id position file listed parts sent slices st n rest stream'
    have htaken := copy_taken hr hsent hbytes hsize hinput hy hl
    refine ⟨finishedTxs taken.length parts :: dones, ?_, ?_, ?_, h4⟩
    · rw [List.map_cons, finishedTxs_fst]
      refine .session hf hr (.mk htrace hrequest htold (fun p hpm => ?_) ?_ hsent hbytes hsize hinput hy hl rfl) hc h1
      · have := hp p hpm
        cases p with
        | tx g es => exact ⟨this.1.tx, this.2⟩
        | noise e => exact this
      · rw [← parts_fst, hlog]
    · rw [h2, List.flatten_cons, dataAfter, dataAfter, List.foldl_append]
      have : whole taken = (finishedTxs taken.length parts).map (·.2) := by
        rw [← gathered_finished (fun _ _ h rest => wholeFrom_flagged h.1 rest) parts hp, ← htaken]
      rw [this, List.foldl_map]
    · rw [List.flatten_cons]
      intro t ht
      rcases List.mem_append.1 ht with ht | ht
      · exact h4.subset (hin t (finishedTxs_mem ht))
      · exact h3 t ht

/-- What the sessions have done to the copy: the next transactions of the log behind the ones that were recorded. -/
theorem copySessionsMaria_seen {σ : Type} {m : Mode} {apply : σ → List Ev → σ} {c c' : Client} {data data' : σ} {log log' : List (Tx MGtid)}
    (h : CopySessionsMaria m QuietFlaggedTx apply c data log c' data' log') (list : GtidList) (hs : c.options.binlog.startingStrategy = .fromGtid)
    (hlist : c.options.binlog.gtidList = some list) (hnone : c.options.binlog.gtidSet = none)
    (hone : (list.gtids.map (·.domainId)).Nodup) (hin : ∀ g ∈ list.gtids, g ∈ log'.map (·.1) → g ∈ log.map (·.1)) (hd : (log'.map (·.1)).Nodup)
    (old new : List (Tx MGtid)) (hold : log' = old ++ new) (hsend : toSend list.gtids (log'.map (·.1)) = new.map (·.1)) :
    ∃ done later list', new = done ++ later ∧ data' = dataAfter apply data done ∧ c'.options.binlog.gtidList = some list' ∧
      toSend list'.gtids (log'.map (·.1)) = later.map (·.1) := by
  obtain ⟨dones, h1, h2, h3, -⟩ := copySessions_maria h
  obtain ⟨list', k1, -, -, k4⟩ := C104_mariadb_each_once_partial h1 list hs hlist hnone hone hin hd
  rw [hsend, ← List.map_flatten] at k4
  subst hold
  obtain ⟨later, rfl⟩ : dones.flatten <+: new := prefix_of_fst hd h3 (fun t ht => by simp [ht]) ⟨_, k4⟩
  exact ⟨dones.flatten, later, list', rfl, h2, k1, List.append_cancel_left (k4.trans List.map_append)⟩

/-- C119, where it holds: with a MariaDB whose transactions have no statement before their last event, a copy that begins as the data after some first transactions
(`old`), when the server would send the others, is always the data after some first transactions (`seen`), and the server would send the others when told the recorded list.
When there is nothing to send, the copy is the server's data. (Missing: transactions with statements before the last event; see `C119_false`.) -/
theorem C119_copy_partial {σ : Type} {m : Mode} {apply : σ → List Ev → σ} {c c' : Client} {data data' : σ} {log log' : List (Tx MGtid)}
    (h : CopySessionsMaria m QuietFlaggedTx apply c data log c' data' log') (list : GtidList) (hs : c.options.binlog.startingStrategy = .fromGtid)
    (hlist : c.options.binlog.gtidList = some list) (hnone : c.options.binlog.gtidSet = none)
    (hone : (list.gtids.map (·.domainId)).Nodup) (hin : ∀ g ∈ list.gtids, g ∈ log'.map (·.1) → g ∈ log.map (·.1)) (hd : (log'.map (·.1)).Nodup)
    (init : σ) (old new : List (Tx MGtid)) (hold : log' = old ++ new) (hsend : toSend list.gtids (log'.map (·.1)) = new.map (·.1))
    (hdata : data = dataAfter apply init old) :
    ∃ seen later list', log' = seen ++ later ∧ old <+: seen ∧ data' = dataAfter apply init seen ∧ c'.options.binlog.gtidList = some list' ∧
      toSend list'.gtids (log'.map (·.1)) = later.map (·.1) ∧
      (toSend list'.gtids (log'.map (·.1)) = [] → data' = dataAfter apply init log') := by
  obtain ⟨done, later, list', rfl, h2, k1, k5⟩ := copySessionsMaria_seen h list hs hlist hnone hone hin hd old new hold hsend
  subst hold
  have hseen : data' = dataAfter apply init (old ++ done) := by
    rw [h2, hdata, dataAfter, dataAfter, dataAfter, List.foldl_append]
  refine ⟨old ++ done, later, list', by simp, List.prefix_append _ _, hseen, k1, k5, fun hnil => ?_⟩
  rw [k5, List.map_eq_nil_iff] at hnil
  rw [hseen, hnil, List.append_nil]

/-- **C119.** Such sessions come about, for any transactions: with a conforming MariaDB that lets the client in and sends what comes after the GTIDs it was told, the
application can take any number of the events. -/
theorem C119_session (m : Mode) (c : Crypto) (client : Client) (chan : Channel) (hu : Usable c client.options)
    (hw : chan.writes = []) (checksum : ChecksumType) (bytes : Bytes) (hin : LetsIn c client.options True none checksum bytes)
    (list : GtidList) (hs : client.options.binlog.startingStrategy = .fromGtid) (hlist : client.options.binlog.gtidList = some list)
    (T : MGtid → List Ev → Prop) (log : List (Tx MGtid)) (parts : List (Part MGtid)) (hp : ∀ p ∈ parts, p.Ok T)
    (hlog : (parts.flatMap Part.txs).map (·.1) = toSend list.gtids (log.map (·.1))) (hmem : ∀ t ∈ parts.flatMap Part.txs, t ∈ log)
    (slices : List Bytes) (st : LogState) (hbytes : LogOf (.start checksum) (flat parts) slices st)
    (hsize : ∀ x ∈ slices, x.length < 2 ^ 24 - 20) (n : Nat) (rest : Bytes)
    (hi : chan.input = bytes ++ frames (eventPackets n (flat parts) slices) ++ rest) :
    ∃ stream, client.replicate m c (.ok chan) = (.ok stream, client.afresh) ∧ ∀ k, CopySessionMaria m T log stream ((flat parts).take k) := by
  obtain ⟨stream, front, cmd, h1, h2, h3, h4, h5, h6⟩ := maria_asks m c client chan hu hw checksum bytes _ hin list hs hlist
    (by rw [hi, List.append_assoc])
  refine ⟨stream, h1, fun k => ?_⟩
  have hb : LogOf (.start stream.parser.checksumType) (flat parts) slices st := by rw [h6]; exact hbytes
  obtain ⟨stream', h7, -, -⟩ := Knows.stream hbytes m stream (by rw [h6]; exact Knows.start checksum) n rest hsize h5
  obtain ⟨stream1, h8⟩ := h7.take k
  rw [← List.map_take] at h8
  exact .mk h2 h3 h4 hp hlog hmem List.prefix_rfl hb hsize h5 h8 (by simp)

/-! ## Concrete sessions -/

/-- The log of the example of C104, with the events. -/
def exMariaTxs : List (Tx MGtid) := exMariaLog.flatMap fun g => (exMariaTx g.domainId g.sequence).txs

/-- The sessions of the example of C104, with a copy of the data that is a count of the events of each transaction. -/
example (m : Mode) : (∃ c', CopySessionsMaria m QuietFlaggedTx exCount exListUser [2, 2] (exMariaTxs.take 4) c' [2, 2, 2, 2, 2] exMariaTxs) ∧
    exListUser.options.binlog.startingStrategy = .fromGtid ∧ exListUser.options.binlog.gtidList = some exList ∧
    exListUser.options.binlog.gtidSet = none ∧ (exList.gtids.map (·.domainId)).Nodup ∧
    (∀ g ∈ exList.gtids, g ∈ exMariaTxs.map (·.1) → g ∈ (exMariaTxs.take 4).map (·.1)) ∧ (exMariaTxs.map (·.1)).Nodup ∧
    exMariaTxs = exMariaTxs.take 2 ++ exMariaTxs.drop 2 ∧ toSend exList.gtids (exMariaTxs.map (·.1)) = (exMariaTxs.drop 2).map (·.1) ∧
    [2, 2] = dataAfter exCount [] (exMariaTxs.take 2) := by
  refine ⟨?_, rfl, rfl, rfl, by decide, by decide, by decide, rfl, by decide, rfl⟩
  have ok : ∀ d n d' n', ∀ p ∈ [exMariaTx d n, exMariaTx d' n'], p.Ok QuietFlaggedTx := by
    intro d n d' n' p hp
    simp only [List.mem_cons, List.not_mem_nil, or_false] at hp
    rcases hp with rfl | rfl <;> exact ⟨FlaggedTx.block (body := []) rfl rfl (by simp) trivial, (exMariaTx_ok _ _).2⟩
  have written : ∀ d n d' n', d < 2 ^ 32 → n < 2 ^ 64 → d' < 2 ^ 32 → n' < 2 ^ 64 → ∃ slices st,
      LogOf (.start .crc32) (flat [exMariaTx d n, exMariaTx d' n']) slices st ∧ ∀ x ∈ slices, x.length < 2 ^ 24 - 20 := by
    intro d n d' n' h1 h2 h3 h4
    have f1 : HeaderFits (exTyped 162) := by unfold HeaderFits; decide
    have f2 : HeaderFits (exTyped 16) := by unfold HeaderFits; decide
    refine ⟨_, _, .cons f1 (exMariaTx_written _ rfl d n h1 h2).1 (.cons f2 (exMariaTx_written _ rfl d n h1 h2).2
      (.cons f1 (exMariaTx_written _ rfl d' n' h3 h4).1 (.cons f2 (exMariaTx_written _ rfl d' n' h3 h4).2 .nil))), ?_⟩
    simp [le_length, exSum]
  obtain ⟨slices, st, h1, h2⟩ := written 0 271 1 6 (by decide) (by decide) (by decide) (by decide)
  obtain ⟨stream, h3, h4⟩ := C119_session m exCrypto exListUser { exChannel [] with input := _ } exListUser_usable rfl .crc32 _
    (exListUser_in _ rfl) exList rfl rfl QuietFlaggedTx (exMariaTxs.take 4) _ (ok _ _ _ _) (by decide) (by
      intro t ht
      rcases List.mem_cons.1 ht with rfl | ht
      · exact .tail _ (.tail _ (.head _))
      · rw [List.mem_singleton.1 ht]
        exact .tail _ (.tail _ (.tail _ (.head _)))) slices st h1 h2 1 [] rfl
  have hc : ∀ m, commitAll m exListUser.afresh ((flat [exMariaTx 0 271, exMariaTx 1 6]).take 3) = .ok { exListUser with
      mariaGtid := some ⟨1, 1, 6⟩,
      options := { exListUser.options with binlog := { exListUser.options.binlog with
        position := 500, gtidList := some ⟨[⟨0, 1, 271⟩, ⟨1, 1, 5⟩]⟩ } } } := by
    rintro ⟨_ | _⟩ <;> decide +kernel
  obtain ⟨slices', st', g1, g2⟩ := written 1 6 0 272 (by decide) (by decide) (by decide) (by decide)
  have hu : Usable exCrypto { exListUser.options with binlog := { exListUser.options.binlog with
        position := 500, gtidList := some ⟨[⟨0, 1, 271⟩, ⟨1, 1, 5⟩]⟩ } } :=
    ⟨exSmall _, ⟨by decide, by decide, by decide, (fun g h => by cases h), (fun g h => by cases h; decide +kernel), by decide⟩, rfl⟩
  obtain ⟨stream2, g3, g4⟩ := C119_session m exCrypto { exListUser with
      mariaGtid := some ⟨1, 1, 6⟩,
      options := { exListUser.options with binlog := { exListUser.options.binlog with
        position := 500, gtidList := some ⟨[⟨0, 1, 271⟩, ⟨1, 1, 5⟩]⟩ } } } { exChannel [] with input := _ } hu rfl .crc32 _
    (exListUser_in _ rfl) _ rfl rfl QuietFlaggedTx exMariaTxs _ (ok _ _ _ _) (by decide) (by
      intro t ht
      rcases List.mem_cons.1 ht with rfl | ht
      · exact .tail _ (.tail _ (.tail _ (.head _)))
      · rw [List.mem_singleton.1 ht]
        exact .tail _ (.tail _ (.tail _ (.tail _ (.head _))))) slices' st' g1 g2 1 [] rfl
  obtain ⟨c3, hc3⟩ : ∃ c3, commitAll m { exListUser with
      mariaGtid := none,
      options := { exListUser.options with binlog := { exListUser.options.binlog with
        position := 500, gtidList := some ⟨[⟨0, 1, 271⟩, ⟨1, 1, 5⟩]⟩ } } } ((flat [exMariaTx 1 6, exMariaTx 0 272]).take 4) = .ok c3 := by
    clear h3 h4 g3 g4
    revert m
    rintro ⟨_ | _⟩ <;> exact ⟨_, by with_unfolding_all rfl⟩
  have e1 : (whole ((flat [exMariaTx 0 271, exMariaTx 1 6]).take 3)).foldl exCount [2, 2] = [2, 2, 2] := by decide +kernel
  have e2 : (whole ((flat [exMariaTx 1 6, exMariaTx 0 272]).take 4)).foldl exCount [2, 2, 2] = [2, 2, 2, 2, 2] := by decide +kernel
  refine ⟨c3, .session (small_fits exListUser_usable.requests) h3 (h4 3) (hc m)
    (.grow (exMariaTxs.drop 4) (.failed (crypto := exCrypto) (net := .error .unexpectedEof)
      (.session (small_fits hu.requests) g3 (g4 4) hc3 ?_)))⟩
  rw [e1, e2]
  exact .stop

/-- **C119** is false: when a transaction has a statement before its end and the application stops after that statement, the copy stays without the
transaction, although the server has nothing left to send. -/
theorem C119_false (m : Mode) : ∃ (c' : Client) (list' : GtidList) (old : List (Tx MGtid)) (t : Tx MGtid),
    CopySessionsMaria m FlaggedTx exCount exListUser (dataAfter exCount [] old) (old ++ [t]) c' (dataAfter exCount [] old) (old ++ [t]) ∧
    toSend exList.gtids ((old ++ [t]).map (·.1)) = [t.1] ∧
    c'.options.binlog.gtidList = some list' ∧ toSend list'.gtids ((old ++ [t]).map (·.1)) = [] ∧
    dataAfter exCount [] old ≠ dataAfter exCount [] (old ++ [t]) := by
  have ok : ∀ p ∈ [exStatementTx], p.Ok FlaggedTx := by
    intro p hp
    rw [List.mem_singleton.1 hp]
    exact FlaggedTx.block (x := ⟨⟨0, 1, 271⟩, 0⟩) (body := [(exTyped 2, exQuery "INSERT")]) rfl rfl (by simp [Inside, IsGtid, Spec.Ends, exQuery]) trivial
  obtain ⟨t, ht⟩ : ∃ t, exStatementTx.txs = [t] := ⟨_, rfl⟩
  obtain ⟨stream, h3, h4⟩ := C119_session m exCrypto exListUser { exChannel [] with input := _ } exListUser_usable rfl .crc32 _
    (exListUser_in _ rfl) exList rfl rfl FlaggedTx (exMariaTxs.take 2 ++ exStatementTx.txs) [exStatementTx] ok (by decide) (by
      intro t ht
      exact List.mem_append_right _ (by simpa using ht)) _ _
    (.cons (by unfold HeaderFits; decide) (exMariaTx_written _ rfl 0 271 (by decide) (by decide)).1
      (.cons (by unfold HeaderFits; decide) (exQuery_written _ _)
      (.cons (by unfold HeaderFits; decide) (exMariaTx_written _ rfl 0 271 (by decide) (by decide)).2 .nil))) (by decide +kernel) 1 [] rfl
  have hc : ∀ m, commitAll m exListUser.afresh ((flat [exStatementTx]).take 2) = .ok { exListUser with
      mariaGtid := some ⟨0, 1, 271⟩,
      options := { exListUser.options with binlog := { exListUser.options.binlog with
        position := 500, gtidList := some ⟨[⟨0, 1, 271⟩, ⟨1, 1, 5⟩]⟩ } } } := by
    rintro ⟨_ | _⟩ <;> decide +kernel
  have e : ∀ data : List Nat, (whole ((flat [exStatementTx]).take 2)).foldl exCount data = data := by
    intro data
    have : whole ((flat [exStatementTx]).take 2) = [] := by with_unfolding_all rfl
    rw [this]
    rfl
  rw [ht] at h4
  have h := CopySessionsMaria.session (apply := exCount) (data := dataAfter exCount [] (exMariaTxs.take 2)) (small_fits exListUser_usable.requests) h3
    (h4 2) (hc m) .stop
  rw [e] at h
  refine ⟨_, _, exMariaTxs.take 2, t, h, ?_, rfl, ?_, ?_⟩
  · rw [← ht]
    have : t.1 = ⟨0, 1, 271⟩ := by cases ht; rfl
    rw [this]
    decide
  · rw [← ht]
    decide
  · rw [← ht]
    decide +kernel

end MysqlCdc
