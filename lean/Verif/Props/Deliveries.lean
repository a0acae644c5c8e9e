import Verif.Lemmas.DumpRead
import Verif.Props.EndToEnd
import Verif.Props.Life
/-!
# C103: every transaction once, over any number of sessions
-/

namespace MysqlCdc

open Spec

theorem BinlogEvents.Yields.prefix {m : Mode} {s s1 s2 : BinlogEvents} {xs ys : List Item} (h : s.Yields m xs s1) (h' : s.Yields m ys s2)
    (hl : xs.length ≤ ys.length) : xs = ys.take xs.length := by
  induction h generalizing ys with
  | nil => rfl
  | item h _ ih =>
    cases h' with
    | nil => simp at hl
    | item h' h2 =>
      rw [h] at h'
      obtain ⟨h3, h4⟩ := Prod.mk.inj h'
      obtain rfl := Option.some.inj (Res.ok.inj h3)
      subst h4
      rw [List.length_cons, List.take_succ_cons, ← ih h2 (by simpa using hl)]

theorem BinlogEvents.Yields.take {m : Mode} {s s1 : BinlogEvents} {xs : List Item} (h : s.Yields m xs s1) (k : Nat) :
    ∃ s2, s.Yields m (xs.take k) s2 := by
  induction h generalizing k with
  | nil => exact ⟨_, by rw [List.take_nil]; exact .nil⟩
  | item h _ ih =>
    cases k with
    | zero => exact ⟨_, .nil⟩
    | succ k =>
      obtain ⟨s2, h2⟩ := ih k
      exact ⟨s2, .item h h2⟩

open Classical in
/-- What a session brings. The server reads the dump request (`request`, the last packet the client sent), and sends of its log the
transactions the request does not list, in the order of the log, with any neutral events in between: `parts`. The connection holds out
for `sent`. The application calls the iterator for `taken`, commits them, and stops for whatever reason. `done` are the transactions of
which it has committed all events. -/
inductive MysqlSession (m : Mode) (log : List Gtid) (stream : BinlogEvents) (taken : List Ev) (done : List Gtid) : Prop where
  | mk {front : List Packet} {request : Bytes} {id position : Nat} {file : RStr} {sets : List (Bytes × List Interval)}
      (htrace : stream.channel.trace = front ++ [.sent 0 request]) (hrequest : DumpGtidPacket 0 id file position sets request)
      {parts : List (Part Gtid)} (hp : ∀ p ∈ parts, p.Ok MysqlTx)
      (hlog : parts.flatMap Part.gtids = log.filter fun g => ¬Listed sets g)
      {sent : List Ev} (hsent : sent <+: flat parts) {slices : List Bytes} {st : LogState}
      (hbytes : LogOf (.start stream.parser.checksumType) sent slices st) (hsize : ∀ x ∈ slices, x.length < 2 ^ 24 - 20)
      {n : Nat} {rest : Bytes} (hin : stream.channel.input = frames (eventPackets n sent slices) ++ rest)
      {stream' : BinlogEvents} (hy : stream.Yields m (taken.map .ok) stream') (hl : taken.length ≤ sent.length)
      (hdone : done = finished taken.length parts) : MysqlSession m log stream taken done

/-- Any number of sessions with a MySQL server and attempts that fail, while its log grows. `got` are the transactions of which all events
were committed, session by session. -/
inductive MysqlSessions (m : Mode) : Client → (log : List Gtid) → (got : List (List Gtid)) → Client → (log' : List Gtid) → Prop where
  | stop {c : Client} {log : List Gtid} : MysqlSessions m c log [] c log
  | grow {c c' : Client} {log log' : List Gtid} {got : List (List Gtid)} (more : List Gtid) (h : MysqlSessions m c (log ++ more) got c' log') :
      MysqlSessions m c log got c' log'
  | failed {c c' : Client} {log log' : List Gtid} {got : List (List Gtid)} {crypto : Crypto} {net : Except IoKind Channel}
      (h : MysqlSessions m (c.replicate m crypto net).2 log got c' log') : MysqlSessions m c log got c' log'
  | session {c c1 c2 c' : Client} {log log' done : List Gtid} {got : List (List Gtid)} {crypto : Crypto} {chan : Channel}
      {stream : BinlogEvents} {taken : List Ev} (hf : FitsRequests c.options)
      (hr : c.replicate m crypto (.ok chan) = (.ok stream, c1)) (hs : MysqlSession m log stream taken done)
      (hc : commitAll m c1 taken = .ok c2) (h : MysqlSessions m c2 log got c' log') : MysqlSessions m c log (done :: got) c' log'

theorem MysqlSessions.grows {m : Mode} {c c' : Client} {log log' : List Gtid} {got : List (List Gtid)}
    (h : MysqlSessions m c log got c' log') : log <+: log' := by
  induction h with
  | stop => exact List.prefix_rfl
  | grow more _ ih => exact (List.prefix_append _ _).trans ih
  | failed _ ih => exact ih
  | session _ _ _ _ _ ih => exact ih

/-- A transaction as the sets know it. -/
def gtidKey (g : Gtid) : Bytes × Nat := (g.sourceId.data, g.transactionId)

open Classical in
/-- As `MysqlSession`, with only what the client and the application see of it: of what the server has to send, the application has got the beginning. -/
inductive TakenSession (log : List Gtid) (stream : BinlogEvents) (taken : List Ev) (done : List Gtid) : Prop where
  | mk {front : List Packet} {request : Bytes} {id position : Nat} {file : RStr} {sets : List (Bytes × List Interval)}
      (htrace : stream.channel.trace = front ++ [.sent 0 request]) (hrequest : DumpGtidPacket 0 id file position sets request)
      {parts : List (Part Gtid)} (hp : ∀ p ∈ parts, p.Ok MysqlTx) (hlog : parts.flatMap Part.gtids = log.filter fun g => ¬Listed sets g)
      (htaken : taken = (flat parts).take taken.length) (hdone : done = finished taken.length parts) : TakenSession log stream taken done

/-- As `MysqlSessions`. -/
inductive TakenSessions (m : Mode) : Client → (log : List Gtid) → (got : List (List Gtid)) → Client → (log' : List Gtid) → Prop where
  | stop {c : Client} {log : List Gtid} : TakenSessions m c log [] c log
  | grow {c c' : Client} {log log' : List Gtid} {got : List (List Gtid)} (more : List Gtid) (h : TakenSessions m c (log ++ more) got c' log') :
      TakenSessions m c log got c' log'
  | failed {c c' : Client} {log log' : List Gtid} {got : List (List Gtid)} {crypto : Crypto} {net : Except IoKind Channel}
      (h : TakenSessions m (c.replicate m crypto net).2 log got c' log') : TakenSessions m c log got c' log'
  | session {c c1 c2 c' : Client} {log log' done : List Gtid} {got : List (List Gtid)} {crypto : Crypto} {chan : Channel}
      {stream : BinlogEvents} {taken : List Ev} (hf : FitsRequests c.options)
      (hr : c.replicate m crypto (.ok chan) = (.ok stream, c1)) (hs : TakenSession log stream taken done)
      (hc : commitAll m c1 taken = .ok c2) (h : TakenSessions m c2 log got c' log') : TakenSessions m c log (done :: got) c' log'

theorem TakenSessions.grows {m : Mode} {c c' : Client} {log log' : List Gtid} {got : List (List Gtid)}
    (h : TakenSessions m c log got c' log') : log <+: log' := by
  induction h with
  | stop => exact List.prefix_rfl
  | grow more _ ih => exact (List.prefix_append _ _).trans ih
  | failed _ ih => exact ih
  | session _ _ _ _ _ ih => exact ih

theorem MysqlSessions.takes {m : Mode} {c c' : Client} {log log' : List Gtid} {got : List (List Gtid)} (h : MysqlSessions m c log got c' log') :
    TakenSessions m c log got c' log' := by
  induction h with
  | stop => exact .stop
  | grow more _ ih => exact .grow more ih
  | failed _ ih => exact .failed ih
  | @session c c1 c2 c' log log' done got crypto chan stream taken hf hr hsess hc _ ih =>
    obtain ⟨htrace, hrequest, hp, hlog, hsent, hbytes, hsize, hin, hy, hl, rfl⟩ := hsess
    rename_i front request id position file sets parts sent slices st n rest stream'
    have hparser : stream.parser = ⟨stream.parser.checksumType, []⟩ := by
      obtain ⟨_, _, _, -, -, h'⟩ := replicate_ok (m := m) (cr := crypto) (c := c) (net := .ok chan) (events := stream) (by rw [hr])
      rw [h']
      rfl
    obtain ⟨s', g6, -, -⟩ := Knows.stream hbytes m stream (by rw [hparser]; exact Knows.start _) n rest hsize hin
    refine .session hf hr (.mk htrace hrequest hp hlog ?_ rfl) hc ih
    have := hy.prefix g6 (by simpa using hl)
    rw [List.length_map, ← List.map_take] at this
    have := List.map_injective_iff.2 (fun a b h => Except.ok.inj h) this
    obtain ⟨more, hmore⟩ := hsent
    rw [← hmore, List.take_append_of_le_length hl]
    exact this

open Classical in
theorem taken_each_once {m : Mode} {c c' : Client} {log log' : List Gtid} {got : List (List Gtid)}
    (h : TakenSessions m c log got c' log') (set : GtidSet) (hs : c.options.binlog.startingStrategy = .fromGtid)
    (hset : c.options.binlog.gtidSet = some set) (hw : Wf set) (ho : AllOrdered set) (hg : ∀ g ∈ log', GtidOk g)
    (hd : (log'.map gtidKey).Nodup) :
    ∃ set', c'.options.binlog.gtidSet = some set' ∧ Wf set' ∧ AllOrdered set' ∧
      (∀ u n, Has set' u n ↔ Has set u n ∨ ∃ g ∈ got.flatten, u = g.sourceId.data ∧ n = g.transactionId) ∧
      got.flatten ++ log'.filter (fun g => ¬Has set' g.sourceId.data g.transactionId) =
        log'.filter fun g => ¬Has set g.sourceId.data g.transactionId := by
  induction h generalizing set with
  | stop => exact ⟨set, hset, hw, ho, by simp, by simp⟩
  | grow more _ ih => exact ih set hs hset hw ho hg hd
  | @failed c c' log log' got crypto net h ih =>
    have key : (c.replicate m crypto net).2.options.binlog.startingStrategy = .fromGtid ∧
        (c.replicate m crypto net).2.options.binlog.gtidSet = some set := by
      rcases C100_attempt m crypto c net with ⟨place, h'⟩ | ⟨h', -⟩
      · rw [h']; exact ⟨hs, hset⟩
      · rw [h']; exact ⟨hs, hset⟩
    exact ih set key.1 key.2 hw ho hg hd
  | @session c c1 c2 c' log log' done got crypto chan stream taken hf hr hsess hc h ih =>
    obtain ⟨htrace, hrequest, hp, hlog, htaken, rfl⟩ := hsess
    rename_i front request id position file sets parts
    -- the request is for the recorded set
    obtain ⟨t, p, maria, g1, -, g2, g3, -⟩ := asks_recorded hf hr (gtid_not_end hs)
    have hpr : p = request := by
      rw [htrace] at g1
      have := List.append_inj_right' g1 rfl
      simpa using this.symm
    subst hpr
    have hmaria : maria = false := by
      cases maria with
      | false => rfl
      | true => exact absurd hrequest (dump_not_gtid (g2 (.inr rfl)))
    obtain ⟨set0, g4, g5⟩ := g3 hs hmaria
    obtain rfl : set = set0 := Option.some.inj (hset.symm.trans g4)
    obtain rfl := dumpGtid_read g5 hrequest
    have hlog : parts.flatMap Part.gtids = log.filter fun g => ¬Has set g.sourceId.data g.transactionId := by
      rw [hlog]
      refine List.filter_congr fun g _ => ?_
      simp only [listed_setsOf]
    have hfrom : FromSet c1 set := by
      rcases C100_attempt m crypto c (.ok chan) with ⟨place, h'⟩ | ⟨-, h'⟩
      · rw [hr] at h'
        obtain rfl : c1 = _ := h'
        exact ⟨hs, rfl, hset⟩
      · rw [hr] at h'; exact absurd rfl (h' stream)
    have hpre := h.grows
    obtain ⟨more, rfl⟩ := hpre
    obtain ⟨c2', set2, h1, h2, h3, h4, h5⟩ := C17_exactly_finished m c1 set hfrom hw ho parts hp
      (fun g hg' => hg g (by rw [hlog] at hg'; simp at hg'; simp [hg'.1])) taken.length
    rw [← htaken, hc] at h1
    obtain rfl : c2 = c2' := Res.ok.inj h1
    obtain ⟨set', k1, k2, k3, k4, k5⟩ := ih set2 ((commitAll_keeps hc).trans hfrom.strategy) h2 h3 h4 hg hd
    refine ⟨set', k1, k2, k3, fun u n => ?_, ?_⟩
    · rw [k4, h5, List.flatten_cons]
      simp only [List.mem_append, or_and_right, exists_or, or_assoc]
    · rw [List.flatten_cons, List.append_assoc, k5]
      have hall : (log ++ more).filter (fun g => ¬Has set g.sourceId.data g.transactionId) =
          finished taken.length parts ++ (unfinished taken.length parts ++ more.filter fun g => ¬Has set g.sourceId.data g.transactionId) := by
        rw [List.filter_append, ← hlog, finished_append_unfinished parts taken.length, List.append_assoc]
      have hsplit : (log ++ more).filter (fun g => ¬Has set2 g.sourceId.data g.transactionId) =
          ((log ++ more).filter fun g => ¬Has set g.sourceId.data g.transactionId).filter
            fun g => ¬∃ g' ∈ finished taken.length parts, gtidKey g = gtidKey g' := by
        rw [List.filter_filter]
        refine List.filter_congr fun g _ => ?_
        simp only [h5, gtidKey, Prod.mk.injEq, ← Bool.decide_and, decide_eq_decide]
        rw [not_or, and_comm]
      have hnodup := ((List.filter_sublist (l := log ++ more) (p := fun g => ¬Has set g.sourceId.data g.transactionId)).map gtidKey).nodup hd
      rw [hsplit, hall, List.filter_append]
      rw [hall, List.map_append, List.nodup_append] at hnodup
      have e1 : (finished taken.length parts).filter (fun g => ¬∃ g' ∈ finished taken.length parts, gtidKey g = gtidKey g') = [] := by
        rw [List.filter_eq_nil_iff]
        intro g hg'
        simp only [decide_eq_true_eq, not_not]
        exact ⟨g, hg', rfl⟩
      rw [e1, List.nil_append, List.filter_eq_self.2]
      intro g hg'
      simp only [decide_eq_true_eq]
      rintro ⟨g', h6, h7⟩
      exact hnodup.2.2 _ (List.mem_map.2 ⟨g', h6, rfl⟩) _ (List.mem_map.2 ⟨g, hg', rfl⟩) h7.symm

open Classical in
/-- **C103.** Replication by MySQL GTIDs, over any number of sessions and failed attempts, while the log of the server grows. The
transactions of which all events were committed, session after session, followed by those the recorded set leaves to ask for, are exactly the
transactions of the log that the initial set did not have: each once, in the order of the log. The recorded set is the initial one and those. -/
theorem C103_mysql_each_once {m : Mode} {c c' : Client} {log log' : List Gtid} {got : List (List Gtid)}
    (h : MysqlSessions m c log got c' log') (set : GtidSet) (hs : c.options.binlog.startingStrategy = .fromGtid)
    (hset : c.options.binlog.gtidSet = some set) (hw : Wf set) (ho : AllOrdered set) (hg : ∀ g ∈ log', GtidOk g)
    (hd : (log'.map gtidKey).Nodup) :
    ∃ set', c'.options.binlog.gtidSet = some set' ∧ Wf set' ∧ AllOrdered set' ∧
      (∀ u n, Has set' u n ↔ Has set u n ∨ ∃ g ∈ got.flatten, u = g.sourceId.data ∧ n = g.transactionId) ∧
      got.flatten ++ log'.filter (fun g => ¬Has set' g.sourceId.data g.transactionId) =
        log'.filter fun g => ¬Has set g.sourceId.data g.transactionId :=
  taken_each_once h.takes set hs hset hw ho hg hd

theorem small_fits {o : ReplicaOptions} (h : SmallRequests o) : FitsRequests o :=
  ⟨h.serverId, h.position, by have := h.filename; omega, fun g hg => ⟨(h.gtidSet g hg).1, by have := (h.gtidSet g hg).2; omega⟩⟩

open Classical in
/-- **C103.** Such sessions come about: with a conforming server that lets the client in and sends the transactions the recorded set does
not have, the application can take and commit any number of the events. When it takes all, the session brings all those transactions. -/
theorem C103_mysql_session (m : Mode) (c : Crypto) (client : Client) (chan : Channel) (hu : Usable c client.options)
    (hw : chan.writes = []) (checksum : ChecksumType) (bytes : Bytes) (hin : LetsIn c client.options False none checksum bytes)
    (set : GtidSet) (hs : client.options.binlog.startingStrategy = .fromGtid) (hset : client.options.binlog.gtidSet = some set)
    (hwf : Wf set) (ho : AllOrdered set) (log : List Gtid) (parts : List (Part Gtid)) (hp : ∀ p ∈ parts, p.Ok MysqlTx)
    (hlog : parts.flatMap Part.gtids = log.filter fun g => ¬Has set g.sourceId.data g.transactionId) (hg : ∀ g ∈ log, GtidOk g)
    (slices : List Bytes) (st : LogState) (hbytes : LogOf (.start checksum) (flat parts) slices st)
    (hsize : ∀ x ∈ slices, x.length < 2 ^ 24 - 20) (n : Nat) (rest : Bytes)
    (hi : chan.input = bytes ++ frames (eventPackets n (flat parts) slices) ++ rest) :
    ∃ stream, client.replicate m c (.ok chan) = (.ok stream, client.afresh) ∧
      (∀ k, MysqlSession m log stream ((flat parts).take k) (finished k parts) ∧
        ∃ client', commitAll m client.afresh ((flat parts).take k) = .ok client') ∧
      finished (flat parts).length parts = log.filter fun g => ¬Has set g.sourceId.data g.transactionId := by
  obtain ⟨stream, front, cmd, h1, h2, h3, h4, h5⟩ := mysql_asks m c client chan hu hw checksum bytes _ hin set hs hset
    (by rw [hi, List.append_assoc])
  refine ⟨stream, h1, fun k => ?_, ?_⟩
  · have hb : LogOf (.start stream.parser.checksumType) (flat parts) slices st := by rw [h5]; exact hbytes
    obtain ⟨stream', h6, -, -⟩ := Knows.stream hbytes m stream (by rw [h5]; exact Knows.start checksum) n rest hsize h4
    obtain ⟨stream1, h7⟩ := h6.take k
    rw [← List.map_take] at h7
    obtain ⟨c', _, h8, -⟩ := C17_exactly_finished m client.afresh set ⟨hs, rfl, hset⟩ hwf ho parts hp
      (fun g hg' => hg g (by rw [hlog] at hg'; simp at hg'; exact hg'.1)) k
    refine ⟨.mk h2 h3 hp ?_ List.prefix_rfl hb hsize h4 h7 (by simp) ?_, c', h8⟩
    · rw [hlog]
      refine List.filter_congr fun g _ => ?_
      simp only [listed_setsOf]
    · rw [List.length_take]
      rcases Nat.le_total k (flat parts).length with hk | hk
      · rw [Nat.min_eq_left hk]
      · rw [Nat.min_eq_right hk, finished_all parts k hk, finished_all parts _ (Nat.le_refl _)]
  · rw [finished_all parts _ (Nat.le_refl _), hlog]

/-! Two sessions: in the first, the application commits a transaction, a rotation, and nothing of the second transaction; in the second, the
rest. In between, an attempt fails. -/

def exLogged : List Gtid := [⟨exUuid, 7⟩, ⟨exUuid, 5⟩, ⟨exUuid, 8⟩]

theorem exLogged_missing : (exLogParts.flatMap Part.gtids = open Classical in exLogged.filter fun g => ¬Has exSet g.sourceId.data g.transactionId) := by
  rw [exLogParts_ok.2]
  simp [exLogged, Has, exSet, InIvs, exUuid, exUuid2]

/-- What is recorded after the first session. -/
def exHalfway : GtidSet := ⟨[(exUuid.uuid, ⟨exUuid, [⟨3, 7⟩]⟩), (exUuid2.uuid, ⟨exUuid2, [⟨9, 9⟩]⟩)]⟩

theorem exHalfway_missing : ((exLogParts.drop 2).flatMap Part.gtids =
    open Classical in exLogged.filter fun g => ¬Has exHalfway g.sourceId.data g.transactionId) := by
  have h : (exLogParts.drop 2).flatMap Part.gtids = [⟨exUuid, 8⟩] := rfl
  rw [h]
  simp [exLogged, Has, exHalfway, InIvs, exUuid, exUuid2]

theorem exLogged_ok : ∀ g ∈ exLogged, GtidOk g := by
  intro g hg
  simp only [exLogged, List.mem_cons, List.not_mem_nil, or_false] at hg
  rcases hg with rfl | rfl | rfl <;> exact ⟨UuidCanon_ok exUuid_canon, by decide⟩

example (m : Mode) : (∃ c', MysqlSessions m exGtidUser (exLogged.take 2) [[⟨exUuid, 5⟩], [⟨exUuid, 8⟩]] c' exLogged) ∧
    exGtidUser.options.binlog.startingStrategy = .fromGtid ∧ exGtidUser.options.binlog.gtidSet = some exSet ∧ Wf exSet ∧ AllOrdered exSet ∧
    (∀ g ∈ exLogged, GtidOk g) ∧ (exLogged.map gtidKey).Nodup := by
  refine ⟨?_, rfl, rfl, exSet_wf, exSet_ordered, exLogged_ok, by decide⟩
  obtain ⟨slices, st, h1, h2⟩ := exLogParts_written .crc32
  obtain ⟨stream, h3, h4, -⟩ := C103_mysql_session m exCrypto exGtidUser { exChannel [] with input := _ } exGtidUser_usable rfl .crc32 _
    (exGtidUser_in _) exSet rfl rfl exSet_wf exSet_ordered exLogged exLogParts exLogParts_ok.1 exLogged_missing exLogged_ok slices st h1 h2 1 [] rfl
  obtain ⟨h4, c2, h5⟩ := h4 6
  obtain ⟨_, set2, h6, h7, h8, h9, -⟩ := C17_exactly_finished m exGtidUser.afresh exSet ⟨rfl, rfl, rfl⟩ exSet_wf exSet_ordered exLogParts exLogParts_ok.1
    (by rw [exLogParts_ok.2]; exact fun g hg => exLogged_ok g (List.mem_cons_of_mem _ hg)) 6
  have hc2 : c2 = { exGtidUser with
      mysqlGtid := some ⟨exUuid, 5⟩,
      options := { exGtidUser.options with binlog := { exGtidUser.options.binlog with
        filename := "bin.2".toList, position := 4, gtidSet := some exHalfway } } } := by
    have h : ∀ m, commitAll m exGtidUser.afresh ((flat exLogParts).take 6) = .ok { exGtidUser with
        mysqlGtid := some ⟨exUuid, 5⟩,
        options := { exGtidUser.options with binlog := { exGtidUser.options.binlog with
          filename := "bin.2".toList, position := 4, gtidSet := some exHalfway } } } := by
      rintro ⟨_ | _⟩ <;> decide +kernel
    exact Res.ok.inj (h5.symm.trans (h m))
  obtain rfl : set2 = exHalfway := by
    obtain rfl := Res.ok.inj (h5.symm.trans h6)
    rw [hc2] at h7
    exact (Option.some.inj h7).symm
  obtain ⟨slices', st', h10, h11⟩ : ∃ slices st, LogOf (.start .crc32) (flat (exLogParts.drop 2)) slices st ∧
      ∀ x ∈ slices, x.length < 2 ^ 24 - 20 :=
    ⟨_, _, .cons (by unfold HeaderFits; decide) (exGtid_written _ 8 (by decide)) (.cons (by unfold HeaderFits; decide) (exQuery_written _ _) .nil),
      by decide +kernel⟩
  have hu : Usable exCrypto c2.options := by
    rw [hc2]
    exact ⟨exSmall _, ⟨by decide, by decide, by decide +kernel, (fun g h => by cases h; unfold GtidSetFits; decide +kernel),
      (fun g h => by cases h), by decide⟩, rfl⟩
  obtain ⟨stream2, g3, g4, -⟩ := C103_mysql_session m exCrypto c2 { exChannel [] with input := _ } hu rfl .crc32 _
    (exGtidUser_in _) exHalfway (by rw [hc2]; rfl) (by rw [hc2]) h8 h9 exLogged (exLogParts.drop 2)
    (fun p hp => exLogParts_ok.1 p (List.mem_of_mem_drop hp)) exHalfway_missing exLogged_ok slices' st' h10 h11 1 [] rfl
  obtain ⟨g4, c3, g5⟩ := g4 2
  exact ⟨c3, .grow [⟨exUuid, 8⟩] (.session (small_fits exGtidUser_usable.requests) h3 h4 h5
    (.failed (crypto := exCrypto) (net := .error .unexpectedEof) (.session (small_fits hu.requests) g3 g4 g5 .stop)))⟩

end MysqlCdc
