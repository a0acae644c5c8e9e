import Verif.Props.Refused
import Verif.Props.CopyMaria
/-!
# C127, C128 with a MariaDB
-/

namespace MysqlCdc

open Spec

/-- What a session with a MariaDB brings, as `CopySessionMaria`, when its log may have records the library refuses: the iterator gives `items`. -/
inductive RecSessionMaria (m : Mode) (T : MGtid → List Rec → Prop) (log : List (MGtid × List Rec)) (stream : BinlogEvents) (items : List Item) : Prop where
  | mk {front : List Packet} {request : Bytes} {id position : Nat} {file : RStr} {listed : List MGtid}
      (htrace : stream.channel.trace = front ++ [.sent 0 request]) (hrequest : DumpPacket 0 id file position request)
      (htold : ToldState stream.channel.trace listed) {parts : List (RecPart MGtid)} (hp : ∀ p ∈ parts, p.Ok T)
      (hlog : (parts.flatMap RecPart.txs).map (·.1) = toSend listed (log.map (·.1))) (hin : ∀ t ∈ parts.flatMap RecPart.txs, t ∈ log)
      {sent : List Rec} (hsent : sent <+: parts.flatMap RecPart.records) {slices : List Bytes} {st : LogState}
      (hbytes : RecordsOf (.start stream.parser.checksumType) sent slices st) (hsize : ∀ x ∈ slices, x.length < 2 ^ 24 - 20)
      {n : Nat} {rest : Bytes} (hinput : stream.channel.input = frames (recPackets n sent slices) ++ rest)
      {stream' : BinlogEvents} (hy : stream.Yields m items stream') (hl : items.length ≤ sent.length) : RecSessionMaria m T log stream items

/-- As `RecSessions`. -/
inductive RecSessionsMaria {σ : Type} (m : Mode) (T : MGtid → List Rec → Prop) (use : List Item → List Ev) (apply : σ → List Ev → σ) :
    Client → σ → (log : List (MGtid × List Rec)) → Client → σ → (log' : List (MGtid × List Rec)) → Prop where
  | stop {c : Client} {data : σ} {log : List (MGtid × List Rec)} : RecSessionsMaria m T use apply c data log c data log
  | grow {c c' : Client} {data data' : σ} {log log' : List (MGtid × List Rec)} (more : List (MGtid × List Rec))
      (h : RecSessionsMaria m T use apply c data (log ++ more) c' data' log') : RecSessionsMaria m T use apply c data log c' data' log'
  | failed {c c' : Client} {data data' : σ} {log log' : List (MGtid × List Rec)} {crypto : Crypto} {net : Except IoKind Channel}
      (h : RecSessionsMaria m T use apply (c.replicate m crypto net).2 data log c' data' log') : RecSessionsMaria m T use apply c data log c' data' log'
  | session {c c1 c2 c' : Client} {data data' : σ} {log log' : List (MGtid × List Rec)} {crypto : Crypto} {chan : Channel} {stream : BinlogEvents}
      {items : List Item} (hf : FitsRequests c.options) (hr : c.replicate m crypto (.ok chan) = (.ok stream, c1)) (hs : RecSessionMaria m T log stream items)
      (hc : commitAll m c1 (use items) = .ok c2) (h : RecSessionsMaria m T use apply c2 ((whole (use items)).foldl apply data) log c' data' log') :
      RecSessionsMaria m T use apply c data log c' data' log'

theorem recSessionsMaria_taken {σ : Type} {m : Mode} {T : MGtid → List Rec → Prop} {use : List Item → List Ev} {apply : σ → List Ev → σ}
    (read : RecPart MGtid → Part MGtid) (good : MGtid × List Rec → Prop) (hread : ∀ parts, (∀ p ∈ parts, p.Ok T) → ReadsAs use read good parts)
    (hok : ∀ p, p.Ok T → (read p).Ok QuietFlaggedTx) (hfst : ∀ p, (read p).gtids = p.txs.map (·.1))
    {c c' : Client} {data data' : σ} {log log' : List (MGtid × List Rec)} (h : RecSessionsMaria m T use apply c data log c' data' log') :
    ∃ dones : List (List (MGtid × List Rec)), TakenMarias m c (log.map (·.1)) (dones.map fun d => d.map (·.1)) c' (log'.map (·.1)) ∧
      data' = dataAfter apply data (dones.flatten.map fun t => (t.1, shownEvents t.2)) ∧ (∀ t ∈ dones.flatten, t ∈ log' ∧ good t) ∧ log <+: log' := by
  induction h with
  | stop => exact ⟨[], .stop, rfl, by simp, List.prefix_rfl⟩
  | grow more _ ih =>
    obtain ⟨dones, h1, h2, h3, h4⟩ := ih
    exact ⟨dones, .grow (more.map (·.1)) (by rw [← List.map_append]; exact h1), h2, h3, (List.prefix_append _ _).trans h4⟩
  | failed _ ih =>
    obtain ⟨dones, h1, h2, h3, h4⟩ := ih
    exact ⟨dones, .failed h1, h2, h3, h4⟩
  | @session c c1 c2 c' data data' log log' crypto chan stream items hf hr hs hc _ ih =>
    obtain ⟨dones, h1, h2, h3, h4⟩ := ih
    obtain ⟨htrace, hrequest, htold, hp, hlog, hin, hsent, hbytes, hsize, hinput, hy, hl⟩ := hs
    rename_i front request id position file listed parts sent slices st n rest stream'
    obtain ⟨j, k1, k2, done, k3, k4, k5⟩ := hread parts hp items.length
    rw [← rec_taken hr hsent hbytes hsize hinput hy hl] at k1
    have hj : (use items).length = j := by rw [k1, List.length_take, Nat.min_eq_left k2]
    have hparts : ∀ p ∈ parts.map read, p.Ok QuietFlaggedTx := by
      intro p hp'
      obtain ⟨q, hq, rfl⟩ := List.mem_map.1 hp'
      exact hok q (hp q hq)
    have hgt : (parts.map read).flatMap Part.gtids = (parts.flatMap RecPart.txs).map (·.1) := by
      rw [List.flatMap_map, List.map_flatMap]
      exact List.flatMap_congr fun p _ => hfst p
    refine ⟨done :: dones, ?_, ?_, ?_, h4⟩
    · rw [List.map_cons]
      refine .session hf hr (.mk (parts := parts.map read) htrace hrequest htold (fun p hpm => ?_) (hgt.trans hlog) (by rw [hj]; exact k1) ?_) hc h1
      · have := hparts p hpm
        cases p with
        | tx g es => exact ⟨this.1.tx, this.2⟩
        | noise e => exact this
      · rw [hj, ← finishedTxs_fst, k5, List.map_map]
        rfl
    · rw [h2, List.flatten_cons, dataAfter, dataAfter, List.map_append, List.foldl_append]
      have : whole (use items) = (done.map fun t => (t.1, shownEvents t.2)).map (·.2) := by
        rw [k1, gathered_finished (fun _ _ h rest => wholeFrom_flagged h.1 rest) _ hparts, k5]
      rw [this]
      simp only [List.foldl_map]
    · rw [List.flatten_cons]
      intro t ht
      rcases List.mem_append.1 ht with ht | ht
      · exact ⟨h4.subset (hin t (k3.subset ht)), k4 t ht⟩
      · exact h3 t ht

/-- What sessions have done: the transactions they brought are the next ones to be sent. -/
theorem takenMarias_seen {α : Type} {m : Mode} {c c' : Client} {log log' : List (MGtid × α)} {dones : List (List (MGtid × α))}
    (h1 : TakenMarias m c (log.map (·.1)) (dones.map fun d => d.map (·.1)) c' (log'.map (·.1))) (h3 : ∀ t ∈ dones.flatten, t ∈ log')
    (list : GtidList) (hs : c.options.binlog.startingStrategy = .fromGtid)
    (hlist : c.options.binlog.gtidList = some list) (hnone : c.options.binlog.gtidSet = none)
    (hone : (list.gtids.map (·.domainId)).Nodup) (hin : ∀ g ∈ list.gtids, g ∈ log'.map (·.1) → g ∈ log.map (·.1)) (hd : (log'.map (·.1)).Nodup)
    (new : List (MGtid × α)) (hmem : ∀ t ∈ new, t ∈ log') (hsend : toSend list.gtids (log'.map (·.1)) = new.map (·.1)) :
    ∃ later list', new = dones.flatten ++ later ∧ c'.options.binlog.gtidList = some list' ∧
      toSend list'.gtids (log'.map (·.1)) = later.map (·.1) := by
  obtain ⟨list', k1, -, -, k4⟩ := takenMarias_each_once h1 list hs hlist hnone hone hin hd
  rw [hsend, ← List.map_flatten] at k4
  obtain ⟨later, rfl⟩ : dones.flatten <+: new := prefix_of_fst hd h3 hmem ⟨_, k4⟩
  exact ⟨later, list', rfl, k1, List.append_cancel_left (k4.trans List.map_append)⟩

/-- **C127**, with a MariaDB whose transactions have no statement before their last event. `new` is what the server would send after the initial list. An
application that stops at every error and connects again applies a beginning of it and nothing with an error; the rest is what the server would send again. So it
never gets past the first transaction with an error. -/
theorem C127_mariadb_never_past {σ : Type} {m : Mode} {apply : σ → List Ev → σ} {c c' : Client} {data data' : σ} {log log' : List (MGtid × List Rec)}
    (h : RecSessionsMaria m (Spoilt QuietFlaggedTx) upToError apply c data log c' data' log') (list : GtidList)
    (hs : c.options.binlog.startingStrategy = .fromGtid) (hlist : c.options.binlog.gtidList = some list) (hnone : c.options.binlog.gtidSet = none)
    (hone : (list.gtids.map (·.domainId)).Nodup) (hin : ∀ g ∈ list.gtids, g ∈ log'.map (·.1) → g ∈ log.map (·.1)) (hd : (log'.map (·.1)).Nodup)
    (new : List (MGtid × List Rec)) (hmem : ∀ t ∈ new, t ∈ log') (hsend : toSend list.gtids (log'.map (·.1)) = new.map (·.1)) :
    ∃ done later list', new = done ++ later ∧ (∀ t ∈ done, AllShown t.2) ∧ data' = dataAfter apply data (done.map fun t => (t.1, shownEvents t.2)) ∧
      c'.options.binlog.gtidList = some list' ∧ toSend list'.gtids (log'.map (·.1)) = later.map (·.1) := by
  obtain ⟨dones, h1, h2, h3, -⟩ := recSessionsMaria_taken (RecPart.ideal QuietFlaggedTx) (fun t => AllShown t.2) reads_upToError
    (fun p hp => (ideal_spec hp).2) (fun p => by cases p <;> rfl) h
  obtain ⟨later, list', k1, k2, k3⟩ := takenMarias_seen h1 (fun t ht => (h3 t ht).1) list hs hlist hnone hone hin hd new hmem hsend
  exact ⟨dones.flatten, later, list', k1, fun t ht => (h3 t ht).2, h2, k2, k3⟩

/-- **C128**, with a MariaDB: an application that passes over errors applies a beginning of what the server would send after the initial list, without the records
with errors; the server would send only the rest again, so these records never come again. -/
theorem C128_mariadb_lost_for_good {σ : Type} {m : Mode} {apply : σ → List Ev → σ} {c c' : Client} {data data' : σ} {log log' : List (MGtid × List Rec)}
    (h : RecSessionsMaria m (Holed QuietFlaggedTx) passOver apply c data log c' data' log') (list : GtidList)
    (hs : c.options.binlog.startingStrategy = .fromGtid) (hlist : c.options.binlog.gtidList = some list) (hnone : c.options.binlog.gtidSet = none)
    (hone : (list.gtids.map (·.domainId)).Nodup) (hin : ∀ g ∈ list.gtids, g ∈ log'.map (·.1) → g ∈ log.map (·.1)) (hd : (log'.map (·.1)).Nodup)
    (new : List (MGtid × List Rec)) (hmem : ∀ t ∈ new, t ∈ log') (hsend : toSend list.gtids (log'.map (·.1)) = new.map (·.1)) :
    ∃ done later list', new = done ++ later ∧ data' = dataAfter apply data (done.map fun t => (t.1, shownEvents t.2)) ∧
      c'.options.binlog.gtidList = some list' ∧ toSend list'.gtids (log'.map (·.1)) = later.map (·.1) := by
  obtain ⟨dones, h1, h2, h3, -⟩ := recSessionsMaria_taken RecPart.holed (fun _ => True) (fun parts _ => reads_passOver parts)
    (fun p hp => by cases p <;> exact hp) (fun p => by cases p <;> rfl) h
  obtain ⟨later, list', k1, k2, k3⟩ := takenMarias_seen h1 (fun t ht => (h3 t ht).1) list hs hlist hnone hone hin hd new hmem hsend
  exact ⟨dones.flatten, later, list', k1, h2, k2, k3⟩

/-! ## Sessions with such a server -/

theorem rec_session_maria (m : Mode) (c : Crypto) (client : Client) (chan : Channel) (hu : Usable c client.options)
    (hw : chan.writes = []) (checksum : ChecksumType) (bytes : Bytes) (hin : LetsIn c client.options True none checksum bytes)
    (list : GtidList) (hs : client.options.binlog.startingStrategy = .fromGtid) (hlist : client.options.binlog.gtidList = some list)
    {T : MGtid → List Rec → Prop} (log : List (MGtid × List Rec)) (parts : List (RecPart MGtid)) (hp : ∀ p ∈ parts, p.Ok T)
    (hlog : (parts.flatMap RecPart.txs).map (·.1) = toSend list.gtids (log.map (·.1))) (hmem : ∀ t ∈ parts.flatMap RecPart.txs, t ∈ log)
    (slices : List Bytes) (st : LogState) (hbytes : RecordsOf (.start checksum) (parts.flatMap RecPart.records) slices st)
    (hsize : ∀ x ∈ slices, x.length < 2 ^ 24 - 20) (n : Nat) (rest : Bytes)
    (hi : chan.input = bytes ++ frames (recPackets n (parts.flatMap RecPart.records) slices) ++ rest) :
    ∃ stream, client.replicate m c (.ok chan) = (.ok stream, client.afresh) ∧
      (∃ stream', stream.Yields m ((parts.flatMap RecPart.records).map Rec.item) stream') ∧
      ∀ k, RecSessionMaria m T log stream (((parts.flatMap RecPart.records).take k).map Rec.item) := by
  obtain ⟨stream, front, cmd, h1, h2, h3, h4, h5, h6⟩ := maria_asks m c client chan hu hw checksum bytes _ hin list hs hlist
    (by rw [hi, List.append_assoc])
  have hb : RecordsOf (.start stream.parser.checksumType) (parts.flatMap RecPart.records) slices st := by rw [h6]; exact hbytes
  obtain ⟨stream', h7, -, -⟩ := Knows.records hbytes m stream (by rw [h6]; exact Knows.start checksum) n rest hsize h5
  refine ⟨stream, h1, ⟨stream', h7⟩, fun k => ?_⟩
  obtain ⟨stream1, h8⟩ := h7.take k
  rw [← List.map_take] at h8
  exact .mk h2 h3 h4 hp hlog hmem List.prefix_rfl hb hsize h5 h8 (by simp)

/-- One session in which the application makes of all the items a beginning of the events of `parts` read as `read`. -/
theorem rec_maria_whole {σ : Type} (m : Mode) (c : Crypto) (client : Client) (chan : Channel) (hu : Usable c client.options)
    (hw : chan.writes = []) (checksum : ChecksumType) (bytes : Bytes) (hin : LetsIn c client.options True none checksum bytes)
    (list : GtidList) (hs : client.options.binlog.startingStrategy = .fromGtid) (hlist : client.options.binlog.gtidList = some list)
    (hnone : client.options.binlog.gtidSet = none) (hone : (list.gtids.map (·.domainId)).Nodup)
    {T : MGtid → List Rec → Prop} {use : List Item → List Ev} {read : RecPart MGtid → Part MGtid}
    (log : List (MGtid × List Rec)) (parts : List (RecPart MGtid)) (hp : ∀ p ∈ parts, p.Ok T) (hd : (log.map (·.1)).Nodup)
    (hlog : (parts.flatMap RecPart.txs).map (·.1) = toSend list.gtids (log.map (·.1))) (hmem : ∀ t ∈ parts.flatMap RecPart.txs, t ∈ log)
    (slices : List Bytes) (st : LogState) (hbytes : RecordsOf (.start checksum) (parts.flatMap RecPart.records) slices st)
    (hsize : ∀ x ∈ slices, x.length < 2 ^ 24 - 20) (n : Nat) (rest : Bytes)
    (hi : chan.input = bytes ++ frames (recPackets n (parts.flatMap RecPart.records) slices) ++ rest) (apply : σ → List Ev → σ) (data : σ)
    {j : Nat} (k1 : use ((parts.flatMap RecPart.records).map Rec.item) = (flat (parts.map read)).take j)
    (hok : ∀ p, p.Ok T → (read p).Ok QuietFlaggedTx) {done later : List (MGtid × List Rec)} (hsplit : parts.flatMap RecPart.txs = done ++ later)
    (hfin : finishedTxs j (parts.map read) = done.map fun t => (t.1, shownEvents t.2)) :
    ∃ stream client' list', client.replicate m c (.ok chan) = (.ok stream, client.afresh) ∧
      (∃ stream', stream.Yields m ((parts.flatMap RecPart.records).map Rec.item) stream') ∧
      commitAll m client.afresh (use ((parts.flatMap RecPart.records).map Rec.item)) = .ok client' ∧
      RecSessionsMaria m T use apply client data log client' (dataAfter apply data (done.map fun t => (t.1, shownEvents t.2))) log ∧
      client'.options.binlog.gtidList = some list' ∧ toSend list'.gtids (log.map (·.1)) = later.map (·.1) := by
  obtain ⟨stream, h1, h2, h3⟩ := rec_session_maria m c client chan hu hw checksum bytes hin list hs hlist log parts hp hlog hmem slices st hbytes hsize n rest hi
  have hall := h3 (parts.flatMap RecPart.records).length
  rw [List.take_of_length_le (Nat.le_refl _)] at hall
  have hparts : ∀ p ∈ parts.map read, p.Ok QuietFlaggedTx := by
    intro p hp'
    obtain ⟨q, hq, rfl⟩ := List.mem_map.1 hp'
    exact hok q (hp q hq)
  have hq := quiet_parts (parts := parts.map read) fun p hpm => by
    have := hparts p hpm
    cases p with
    | tx g es => exact ⟨this.1.tx, this.2⟩
    | noise e => exact this
  obtain ⟨client', list', g1, g2, -, -, g3⟩ := C18_exactly_finished_partial m client.afresh list ⟨hs, rfl, hlist, hnone⟩ hone (parts.map read) hq.1 hq.2 j
  rw [← k1] at g1
  refine ⟨stream, client', list', h1, h2, g1, ?_, g2, ?_⟩
  · have := RecSessionsMaria.session (apply := apply) (data := data) (small_fits hu.requests) h1 hall g1 .stop
    rwa [k1, gathered_finished (fun _ _ h rest => wholeFrom_flagged h.1 rest) _ hparts, hfin, List.foldl_map] at this
  · refine toSend_after (listed := list.gtids) hd (got := done.map (·.1)) ?_ ?_
    · rw [← hlog, hsplit, List.map_append]
    · have : finished j (parts.map read) = done.map (·.1) := by
        rw [← finishedTxs_fst, hfin, List.map_map]
        rfl
      rwa [this] at g3

open Classical in
/-- **C127** with a MariaDB, what holds: when a conforming server lets the client in and sends all that comes after the list, and the application takes and commits
all up to the first error, only the first transaction with an error and what is behind it remains to be sent. Missing: these, see `C127_mariadb_never_past`. -/
theorem C127_mariadb_reaches_partial {σ : Type} (m : Mode) (c : Crypto) (client : Client) (chan : Channel) (hu : Usable c client.options)
    (hw : chan.writes = []) (checksum : ChecksumType) (bytes : Bytes) (hin : LetsIn c client.options True none checksum bytes)
    (list : GtidList) (hs : client.options.binlog.startingStrategy = .fromGtid) (hlist : client.options.binlog.gtidList = some list)
    (hnone : client.options.binlog.gtidSet = none) (hone : (list.gtids.map (·.domainId)).Nodup)
    (log : List (MGtid × List Rec)) (parts : List (RecPart MGtid)) (hp : ∀ p ∈ parts, p.Ok (Spoilt QuietFlaggedTx)) (hd : (log.map (·.1)).Nodup)
    (hlog : (parts.flatMap RecPart.txs).map (·.1) = toSend list.gtids (log.map (·.1))) (hmem : ∀ t ∈ parts.flatMap RecPart.txs, t ∈ log)
    (slices : List Bytes) (st : LogState) (hbytes : RecordsOf (.start checksum) (parts.flatMap RecPart.records) slices st)
    (hsize : ∀ x ∈ slices, x.length < 2 ^ 24 - 20) (n : Nat) (rest : Bytes)
    (hi : chan.input = bytes ++ frames (recPackets n (parts.flatMap RecPart.records) slices) ++ rest) (apply : σ → List Ev → σ) (data : σ) :
    ∃ stream client' list', client.replicate m c (.ok chan) = (.ok stream, client.afresh) ∧
      (∃ stream', stream.Yields m ((parts.flatMap RecPart.records).map Rec.item) stream') ∧
      commitAll m client.afresh (upToError ((parts.flatMap RecPart.records).map Rec.item)) = .ok client' ∧
      RecSessionsMaria m (Spoilt QuietFlaggedTx) upToError apply client data log client' (dataAfter apply data
        (((parts.flatMap RecPart.txs).takeWhile fun t => AllShown t.2).map fun t => (t.1, shownEvents t.2))) log ∧
      client'.options.binlog.gtidList = some list' ∧
      toSend list'.gtids (log.map (·.1)) = ((parts.flatMap RecPart.txs).dropWhile fun t => AllShown t.2).map (·.1) := by
  obtain ⟨j, k1, k2, -⟩ := reads_upToError parts hp (parts.flatMap RecPart.records).length
  rw [List.take_of_length_le (Nat.le_refl _)] at k1
  have hj : (upToError ((parts.flatMap RecPart.records).map Rec.item)).length = j := by rw [k1, List.length_take, Nat.min_eq_left k2]
  have hfin := finished_upToError parts hp
  rw [hj] at hfin
  exact rec_maria_whole m c client chan hu hw checksum bytes hin list hs hlist hnone hone log parts hp hd hlog hmem slices st hbytes hsize n rest hi apply data
    k1 (fun p hp => (ideal_spec hp).2) List.takeWhile_append_dropWhile.symm hfin

/-- **C128** with a MariaDB, what holds: such sessions come about. When the application takes and commits all the events it is given, nothing remains to be sent, and
its copy has all the transactions without the records that show errors. Missing: these records, which never come again (`C128_mariadb_lost_for_good`). -/
theorem C128_mariadb_session_partial {σ : Type} (m : Mode) (c : Crypto) (client : Client) (chan : Channel) (hu : Usable c client.options)
    (hw : chan.writes = []) (checksum : ChecksumType) (bytes : Bytes) (hin : LetsIn c client.options True none checksum bytes)
    (list : GtidList) (hs : client.options.binlog.startingStrategy = .fromGtid) (hlist : client.options.binlog.gtidList = some list)
    (hnone : client.options.binlog.gtidSet = none) (hone : (list.gtids.map (·.domainId)).Nodup)
    (log : List (MGtid × List Rec)) (parts : List (RecPart MGtid)) (hp : ∀ p ∈ parts, p.Ok (Holed QuietFlaggedTx)) (hd : (log.map (·.1)).Nodup)
    (hlog : (parts.flatMap RecPart.txs).map (·.1) = toSend list.gtids (log.map (·.1))) (hmem : ∀ t ∈ parts.flatMap RecPart.txs, t ∈ log)
    (slices : List Bytes) (st : LogState) (hbytes : RecordsOf (.start checksum) (parts.flatMap RecPart.records) slices st)
    (hsize : ∀ x ∈ slices, x.length < 2 ^ 24 - 20) (n : Nat) (rest : Bytes)
    (hi : chan.input = bytes ++ frames (recPackets n (parts.flatMap RecPart.records) slices) ++ rest) (apply : σ → List Ev → σ) (data : σ) :
    ∃ stream client' list', client.replicate m c (.ok chan) = (.ok stream, client.afresh) ∧
      (∃ stream', stream.Yields m ((parts.flatMap RecPart.records).map Rec.item) stream') ∧
      commitAll m client.afresh (passOver ((parts.flatMap RecPart.records).map Rec.item)) = .ok client' ∧
      RecSessionsMaria m (Holed QuietFlaggedTx) passOver apply client data log client' (dataAfter apply data
        ((parts.flatMap RecPart.txs).map fun t => (t.1, shownEvents t.2))) log ∧
      client'.options.binlog.gtidList = some list' ∧ toSend list'.gtids (log.map (·.1)) = [] := by
  have hfin := finishedTxs_all (parts.map RecPart.holed) _ (Nat.le_refl _)
  rw [txs_holed] at hfin
  refine rec_maria_whole m c client chan hu hw checksum bytes hin list hs hlist hnone hone log parts hp hd hlog hmem slices st hbytes hsize n rest hi apply data
    (j := (flat (parts.map RecPart.holed)).length) ?_ (fun p hp => by cases p <;> exact hp) (List.append_nil _).symm hfin
  rw [List.take_of_length_le (Nat.le_refl _), passOver_shown, flat_holed]

/-! ## A log with text in Latin-1

0-1-271: a table map, a row with Latin-1 text and one without inserted, XID; a rotation; 1-1-6: XID. 0-1-270 and 1-1-5 are recorded. -/

def exSpoiltMariaTx : List Rec :=
  [(exTyped 162, .ok (.mariaDbGtid ⟨⟨0, 1, 271⟩, 0⟩)), (exTyped 19, .ok (.tableMap exTextTable)), (exTyped 30, .error .fromUtf8), (exTyped 16, .ok (.xid ⟨7⟩))]

def exPlainMariaTx : List Rec := [(exTyped 162, .ok (.mariaDbGtid ⟨⟨1, 1, 6⟩, 0⟩)), (exTyped 16, .ok (.xid ⟨7⟩))]

def exSpoiltMariaParts : List (RecPart MGtid) :=
  [.tx ⟨0, 1, 271⟩ exSpoiltMariaTx, .noise (exTyped 4, .rotate ⟨"bin.2".toList, 4⟩), .tx ⟨1, 1, 6⟩ exPlainMariaTx]

def exSpoiltMariaLog : List (MGtid × List Rec) :=
  [(⟨0, 1, 270⟩, []), (⟨1, 1, 5⟩, []), (⟨0, 1, 271⟩, exSpoiltMariaTx), (⟨1, 1, 6⟩, exPlainMariaTx)]

theorem exSpoiltMaria_written (checksum : ChecksumType) : ∃ slices st,
    RecordsOf (.start checksum) (exSpoiltMariaParts.flatMap RecPart.records) slices st ∧ ∀ x ∈ slices, x.length < 2 ^ 24 - 20 := by
  have sum : ∀ body, WithChecksum checksum body (body ++ match checksum with | .none => [] | .crc32 => exSum) :=
    fun body => ⟨_, by cases checksum <;> rfl, rfl⟩
  have hrow : InTurn ShownRow [[.value (.text [0xE9]), .null], [.value (.text [111, 107]), .value (.value (.time ⟨1, 2, 3, 0⟩))]] (.error .fromUtf8) :=
    .here (.refused (.here (.refused (.noText fun s hs => exLatin_no ⟨s, hs⟩))))
  refine ⟨_, _, .event (e := (exTyped 162, .mariaDbGtid ⟨⟨0, 1, 271⟩, 0⟩)) (by unfold HeaderFits; decide)
      (.maria (.gtid (header := exTyped 162) (sequence := 271) (domain := 0) (flags := 0) (extra := []) (by decide) (by decide) (by decide)) (sum _))
    (.event (e := (exTyped 19, .tableMap exTextTable)) (by unfold HeaderFits; decide)
      (.tableMap (columns := [(15, 20), (19, 0)]) rfl exTextMap_body (sum _) (.inl ⟨rfl, rfl⟩))
    (.refused (h := exTyped 30) (by unfold HeaderFits; decide)
      (.rows (version := 2) (columns := [(15, 20), (19, 0)]) (.inr ⟨rfl, .inl rfl⟩) rfl (by decide) (exText_rows (.cons exText_latin (.cons exText_fine .nil))) (sum _) hrow)
    (.event (e := (exTyped 16, .xid ⟨7⟩)) (by unfold HeaderFits; decide) (.plain (.xid (xid := 7) (extra := []) (by decide)) (sum _))
    (.event (e := (exTyped 4, .rotate ⟨"bin.2".toList, 4⟩)) (by unfold HeaderFits; decide)
      (.plain (.rotate (name := "bin.2".toList) (position := 4) (by decide)) (sum _))
    (.event (e := (exTyped 162, .mariaDbGtid ⟨⟨1, 1, 6⟩, 0⟩)) (by unfold HeaderFits; decide)
      (.maria (.gtid (header := exTyped 162) (sequence := 6) (domain := 1) (flags := 0) (extra := []) (by decide) (by decide) (by decide)) (sum _))
    (.event (e := (exTyped 16, .xid ⟨7⟩)) (by unfold HeaderFits; decide) (.plain (.xid (xid := 7) (extra := []) (by decide)) (sum _)) .nil)))))), ?_⟩
  cases checksum <;> decide +kernel

theorem exPlainMaria_tx : QuietFlaggedTx ⟨1, 1, 6⟩ [(exTyped 162, .mariaDbGtid ⟨⟨1, 1, 6⟩, 0⟩), (exTyped 16, .xid ⟨7⟩)] :=
  ⟨.block (body := []) rfl rfl (by simp) trivial, by simp [NoStatementBefore, AutoCommits, Begins]⟩

theorem exSpoiltMaria_ok : (∀ p ∈ exSpoiltMariaParts, p.Ok (Spoilt QuietFlaggedTx)) ∧ (∀ p ∈ exSpoiltMariaParts, p.Ok (Holed QuietFlaggedTx)) := by
  constructor <;> intro p hp <;> simp only [exSpoiltMariaParts, List.mem_cons, List.not_mem_nil, or_false] at hp <;> rcases hp with rfl | rfl | rfl
  · refine ⟨[(exTyped 162, .mariaDbGtid ⟨⟨0, 1, 271⟩, 0⟩), (exTyped 19, .tableMap exTextTable), (exTyped 30, .unknown), (exTyped 16, .xid ⟨7⟩)],
      ⟨.block (body := [(exTyped 19, .tableMap exTextTable), (exTyped 30, .unknown)]) rfl rfl (by simp [Inside, IsGtid, Spec.Ends]) trivial,
        by simp [NoStatementBefore, AutoCommits, Begins]⟩, ?_⟩
    exact .cons (.inl rfl) (.cons (.inl rfl) (.cons (.inr ⟨_, rfl⟩) (.cons (.inl rfl) .nil)))
  · trivial
  · exact ⟨_, exPlainMaria_tx, .cons (.inl rfl) (.cons (.inl rfl) .nil)⟩
  · exact ⟨.block (body := [(exTyped 19, .tableMap exTextTable)]) rfl rfl (by simp [Inside, IsGtid, Spec.Ends]) trivial,
      by simp [NoStatementBefore, AutoCommits, Begins, shownEvents, exSpoiltMariaTx]⟩
  · trivial
  · exact exPlainMaria_tx

theorem exSpoiltMaria_send : toSend exList.gtids (exSpoiltMariaLog.map (·.1)) = (exSpoiltMariaLog.drop 2).map (·.1) := by decide

theorem exSpoiltMaria_mem : ∀ t ∈ exSpoiltMariaParts.flatMap RecPart.txs, t ∈ exSpoiltMariaLog := by
  intro t ht
  have h : exSpoiltMariaParts.flatMap RecPart.txs = exSpoiltMariaLog.drop 2 := rfl
  rw [h] at ht
  exact List.mem_of_mem_drop ht

theorem exSpoiltMaria_not : ¬AllShown exSpoiltMariaTx := fun h => by
  obtain ⟨e, he⟩ := h (exTyped 30, .error .fromUtf8) (by simp [exSpoiltMariaTx])
  cases he

open Classical in
/-- **C127** is false of the code with a MariaDB too: after however many sessions, 0-1-271 and 1-1-6 are still to be sent. -/
theorem C127_mariadb_false (m : Mode) :
    (∃ c', RecSessionsMaria m (Spoilt QuietFlaggedTx) upToError (fun _ _ => ()) exListUser () exSpoiltMariaLog c' () exSpoiltMariaLog ∧
      c'.mariaGtid = some ⟨0, 1, 271⟩) ∧
    ∀ c', RecSessionsMaria m (Spoilt QuietFlaggedTx) upToError (fun _ _ => ()) exListUser () exSpoiltMariaLog c' () exSpoiltMariaLog →
      ∃ list', c'.options.binlog.gtidList = some list' ∧ toSend list'.gtids (exSpoiltMariaLog.map (·.1)) = [⟨0, 1, 271⟩, ⟨1, 1, 6⟩] := by
  constructor
  · obtain ⟨slices, st, h1, h2⟩ := exSpoiltMaria_written .crc32
    obtain ⟨stream, c', list', -, -, g1, g2, -, -⟩ := C127_mariadb_reaches_partial m exCrypto exListUser { exChannel [] with input := _ } exListUser_usable rfl .crc32 _
      (exListUser_in _ rfl) exList rfl rfl rfl (by decide) exSpoiltMariaLog exSpoiltMariaParts exSpoiltMaria_ok.1 (by decide) exSpoiltMaria_send.symm exSpoiltMaria_mem
      slices st h1 h2 1 [] rfl (fun (_ : Unit) _ => ()) ()
    refine ⟨c', g2, ?_⟩
    have h : ∀ m, (match commitAll m exListUser.afresh (upToError ((exSpoiltMariaParts.flatMap RecPart.records).map Rec.item)) with
        | .ok c => c.mariaGtid
        | _ => none) = some ⟨0, 1, 271⟩ := by
      rintro ⟨_ | _⟩ <;> decide +kernel
    have h' := h m
    rw [g1] at h'
    exact h'
  · intro c' h
    obtain ⟨done, later, list', h1, h2, -, h3, h4⟩ := C127_mariadb_never_past h exList rfl rfl rfl (by decide) (by decide) (by decide)
      (exSpoiltMariaLog.drop 2) (fun t ht => List.mem_of_mem_drop ht) exSpoiltMaria_send
    cases done with
    | nil =>
      rw [List.nil_append] at h1
      exact ⟨list', h3, by rw [h4, ← h1]; rfl⟩
    | cons t ts =>
      have ht : (⟨0, 1, 271⟩, exSpoiltMariaTx) = t := (List.cons.inj h1).1
      exact absurd (h2 t (by simp)) (by rw [← ht]; exact exSpoiltMaria_not)

/-- **C128** is false of the code with a MariaDB too: after a whole session nothing is left to be sent, and the copy, which is the number of inserts, is 0. -/
theorem C128_mariadb_false (m : Mode) : ∃ c' list', RecSessionsMaria m (Holed QuietFlaggedTx) passOver (fun n es => n + insertsIn es) exListUser 0
      exSpoiltMariaLog c' 0 exSpoiltMariaLog ∧ c'.options.binlog.gtidList = some list' ∧ toSend list'.gtids (exSpoiltMariaLog.map (·.1)) = [] := by
  obtain ⟨slices, st, h1, h2⟩ := exSpoiltMaria_written .crc32
  obtain ⟨stream, c', list', -, -, -, g2, g3, g4⟩ := C128_mariadb_session_partial m exCrypto exListUser { exChannel [] with input := _ } exListUser_usable rfl .crc32 _
    (exListUser_in _ rfl) exList rfl rfl rfl (by decide) exSpoiltMariaLog exSpoiltMariaParts exSpoiltMaria_ok.2 (by decide) exSpoiltMaria_send.symm exSpoiltMaria_mem
    slices st h1 h2 1 [] rfl (fun n es => n + insertsIn es) 0
  exact ⟨c', list', g2, g3, g4⟩

/-- The hypotheses of `C127_mariadb_never_past` and `C128_mariadb_lost_for_good` are met by these sessions. -/
example (m : Mode) :
    (∃ c', RecSessionsMaria m (Spoilt QuietFlaggedTx) upToError (fun _ _ => ()) exListUser () exSpoiltMariaLog c' () exSpoiltMariaLog) ∧
    (∃ c', RecSessionsMaria m (Holed QuietFlaggedTx) passOver (fun n es => n + insertsIn es) exListUser 0 exSpoiltMariaLog c' 0 exSpoiltMariaLog) ∧
    exListUser.options.binlog.startingStrategy = .fromGtid ∧ exListUser.options.binlog.gtidList = some exList ∧ exListUser.options.binlog.gtidSet = none ∧
    (exList.gtids.map (·.domainId)).Nodup ∧ (∀ g ∈ exList.gtids, g ∈ exSpoiltMariaLog.map (·.1) → g ∈ exSpoiltMariaLog.map (·.1)) ∧
    (exSpoiltMariaLog.map (·.1)).Nodup ∧ (∀ t ∈ exSpoiltMariaLog.drop 2, t ∈ exSpoiltMariaLog) ∧
    toSend exList.gtids (exSpoiltMariaLog.map (·.1)) = (exSpoiltMariaLog.drop 2).map (·.1) :=
  ⟨(C127_mariadb_false m).1.imp fun _ h => h.1, (C128_mariadb_false m).imp fun _ ⟨_, h, _⟩ => h, rfl, rfl, rfl, by decide, fun _ _ h => h, by decide,
    fun t ht => List.mem_of_mem_drop ht, exSpoiltMaria_send⟩

end MysqlCdc
