import Verif.Lemmas.Resume
import Verif.Props.Deliveries
import Verif.Props.Plans
/-!
# C104: every transaction once, over any number of sessions with a MariaDB
-/

namespace MysqlCdc

open Spec

theorem not_tells {gs : List MGtid} {p : Bytes} {sql : String} (h : QueryPacket sql.toList p)
    (hn : ¬"SET @slave_connect_state='".toList <+: sql.toList) : ¬TellsState gs p := by
  intro ht
  unfold TellsState QueryPacket at *
  rw [h] at ht
  have := utf8Bytes_inj (List.append_cancel_left ht)
  exact hn (by rw [this, List.append_assoc]; exact List.prefix_append _ _)

/-- In GTID mode, a MariaDB is told the recorded list. -/
theorem told_recorded {m : Mode} {c : Crypto} {client client' : Client} {chan : Channel} {stream : BinlogEvents}
    (hf : FitsRequests client.options) (h : client.replicate m c (.ok chan) = (.ok stream, client'))
    (hs : client.options.binlog.startingStrategy = .fromGtid) {front : List Packet} {request : Bytes} {id position : Nat} {file : RStr}
    (htrace : stream.channel.trace = front ++ [.sent 0 request]) (hrequest : DumpPacket 0 id file position request) :
    ∃ l, client.options.binlog.gtidList = some l ∧ ToldState stream.channel.trace l.gtids := by
  obtain ⟨chan', t, p, k, login, ps, maria, place, checksum, h1, -, h2, -, h3, -, h4, -, -⟩ :=
    C93_requests m c client client' (fun _ => .ok chan) stream hf h
  obtain rfl : chan = chan' := Except.ok.inj h1
  have hsent : sentOf stream.channel.trace = sentOf chan.trace ++ (p, k) :: login ++ fresh ps := by
    rw [h2, sentOf_append, h3, List.append_assoc]
  have hlast : ∃ ps', ps = ps' ++ [request] ∨ ps = [] := by
    rw [htrace, sentOf_append] at hsent
    rcases List.eq_nil_or_concat ps with h | ⟨ps', a, rfl⟩
    · exact ⟨[], .inr h⟩
    · refine ⟨ps', .inl ?_⟩
      simp only [fresh, List.concat_eq_append, List.map_append, List.map_cons, List.map_nil, ← List.append_assoc, sentOf] at hsent
      have := List.append_inj_right' hsent rfl
      simp at this
      rw [List.concat_eq_append, this]
  cases maria with
  | false =>
    simp only [plan, hs, reduceCtorEq, false_and, if_false, Bool.false_eq_true, List.nil_append, List.append_nil, List.cons_append] at h4
    obtain ⟨a1, _, -, e1, rfl⟩ := List.forall₂_cons_left_iff.1 h4
    obtain ⟨a2, _, -, e2, rfl⟩ := List.forall₂_cons_left_iff.1 e1
    obtain ⟨a3, _, -, e3, rfl⟩ := List.forall₂_cons_left_iff.1 e2
    obtain ⟨a4, _, ⟨i, h5, h6, -⟩, e4, rfl⟩ := List.forall₂_cons_left_iff.1 e3
    cases e4
    obtain rfl : a4 = request := by
      obtain ⟨ps', h | h⟩ := hlast
      · have := List.append_inj_right' (show [a1, a2, a3] ++ [a4] = ps' ++ [request] from h) rfl
        simpa using this
      · cases h
    cases h5 with
    | dump hs' =>
      rw [h6] at hs'
      simp [hs] at hs'
    | dumpGtid _ _ _ h5 => exact absurd h5 (dump_not_gtid hrequest)
  | true =>
    simp only [plan, hs, reduceCtorEq, false_and, if_false, if_true, List.nil_append, List.cons_append] at h4
    obtain ⟨a1, _, -, e1, rfl⟩ := List.forall₂_cons_left_iff.1 h4
    obtain ⟨a2, _, -, e2, rfl⟩ := List.forall₂_cons_left_iff.1 e1
    obtain ⟨a3, _, -, e3, rfl⟩ := List.forall₂_cons_left_iff.1 e2
    obtain ⟨a4, _, -, e4, rfl⟩ := List.forall₂_cons_left_iff.1 e3
    obtain ⟨a5, _, ⟨_, h5, -, -⟩, e5, rfl⟩ := List.forall₂_cons_left_iff.1 e4
    obtain ⟨a6, _, ⟨_, h6, -, -⟩, e6, rfl⟩ := List.forall₂_cons_left_iff.1 e5
    obtain ⟨a7, _, ⟨_, h7, -, -⟩, e7, rfl⟩ := List.forall₂_cons_left_iff.1 e6
    obtain ⟨a8, _, ⟨_, h8, -, -⟩, e8, rfl⟩ := List.forall₂_cons_left_iff.1 e7
    obtain ⟨a9, _, -, e9, rfl⟩ := List.forall₂_cons_left_iff.1 e8
    cases e9
    obtain rfl : a9 = request := by
      obtain ⟨ps', h | h⟩ := hlast
      · have := List.append_inj_right' (show [a1, a2, a3, a4, a5, a6, a7, a8] ++ [a9] = ps' ++ [request] from h) rfl
        simpa using this
      · cases h
    cases h5 with
    | @connectState l _ hl h5 =>
      refine ⟨l, hl, sentOf chan.trace ++ (p, k) :: login ++ fresh [a1, a2, a3, a4], (a5, 0), fresh [a6, a7, a8, a9], ?_, h5, ?_⟩
      · rw [hsent]
        simp [fresh]
      · intro q hq gs'
        simp only [fresh, List.map_cons, List.map_nil, List.mem_cons, List.not_mem_nil, or_false] at hq
        rcases hq with rfl | rfl | rfl | rfl
        · cases h6 with
          | strict h6 => exact not_tells h6 (by decide)
        · cases h7 with
          | duplicates h7 => exact not_tells h7 (by decide)
        · cases h8 with
          | register h8 =>
            rintro ht
            unfold TellsState QueryPacket at ht
            simp only at ht
            rw [ht] at h8
            generalize hq : le 1 3 ++ utf8Bytes _ = q at h8
            cases h8
            simp only [List.append_assoc] at hq
            have := (le_append_inj (by decide) (by decide) hq).1
            omega
        · rintro ht
          unfold TellsState QueryPacket at ht
          simp only at ht
          rw [ht] at hrequest
          generalize hq : le 1 3 ++ utf8Bytes _ = q at hrequest
          cases hrequest
          simp only [List.append_assoc] at hq
          have := (le_append_inj (by decide) (by decide) hq).1
          omega

/-- What a session with a MariaDB brings, whose transactions have the shape `T`. The server sends of its log what is after the GTIDs it was
told, in the order of the log, with any neutral events in between: `parts`. The connection holds out for `sent`. The application calls the
iterator for `taken`, commits them, and stops for whatever reason. `done` are the transactions of which it has committed all events. -/
inductive MariaSession (m : Mode) (T : MGtid → List Ev → Prop) (log : List MGtid) (stream : BinlogEvents) (taken : List Ev) (done : List MGtid) :
    Prop where
  | mk {front : List Packet} {request : Bytes} {id position : Nat} {file : RStr} {listed : List MGtid}
      (htrace : stream.channel.trace = front ++ [.sent 0 request]) (hrequest : DumpPacket 0 id file position request)
      (htold : ToldState stream.channel.trace listed) {parts : List (Part MGtid)} (hp : ∀ p ∈ parts, p.Ok T)
      (hlog : parts.flatMap Part.gtids = toSend listed log)
      {sent : List Ev} (hsent : sent <+: flat parts) {slices : List Bytes} {st : LogState}
      (hbytes : LogOf (.start stream.parser.checksumType) sent slices st) (hsize : ∀ x ∈ slices, x.length < 2 ^ 24 - 20)
      {n : Nat} {rest : Bytes} (hin : stream.channel.input = frames (eventPackets n sent slices) ++ rest)
      {stream' : BinlogEvents} (hy : stream.Yields m (taken.map .ok) stream') (hl : taken.length ≤ sent.length)
      (hdone : done = finished taken.length parts) : MariaSession m T log stream taken done

/-- Any number of sessions with a MariaDB and attempts that fail, while its log grows. `got` are the transactions of which all events
were committed, session by session. -/
inductive MariaSessions (m : Mode) (T : MGtid → List Ev → Prop) :
    Client → (log : List MGtid) → (got : List (List MGtid)) → Client → (log' : List MGtid) → Prop where
  | stop {c : Client} {log : List MGtid} : MariaSessions m T c log [] c log
  | grow {c c' : Client} {log log' : List MGtid} {got : List (List MGtid)} (more : List MGtid)
      (h : MariaSessions m T c (log ++ more) got c' log') : MariaSessions m T c log got c' log'
  | failed {c c' : Client} {log log' : List MGtid} {got : List (List MGtid)} {crypto : Crypto} {net : Except IoKind Channel}
      (h : MariaSessions m T (c.replicate m crypto net).2 log got c' log') : MariaSessions m T c log got c' log'
  | session {c c1 c2 c' : Client} {log log' done : List MGtid} {got : List (List MGtid)} {crypto : Crypto} {chan : Channel}
      {stream : BinlogEvents} {taken : List Ev} (hf : FitsRequests c.options)
      (hr : c.replicate m crypto (.ok chan) = (.ok stream, c1)) (hs : MariaSession m T log stream taken done)
      (hc : commitAll m c1 taken = .ok c2) (h : MariaSessions m T c2 log got c' log') : MariaSessions m T c log (done :: got) c' log'

theorem MariaSessions.grows {m : Mode} {T : MGtid → List Ev → Prop} {c c' : Client} {log log' : List MGtid} {got : List (List MGtid)}
    (h : MariaSessions m T c log got c' log') : log <+: log' := by
  induction h with
  | stop => exact List.prefix_rfl
  | grow more _ ih => exact (List.prefix_append _ _).trans ih
  | failed _ ih => exact ih
  | session _ _ _ _ _ ih => exact ih

/-- A transaction without statements before its last event. -/
def QuietTx (g : MGtid) (es : List Ev) : Prop := MariaTx g es ∧ NoStatementBefore es

theorem quiet_parts {parts : List (Part MGtid)} (h : ∀ p ∈ parts, p.Ok QuietTx) :
    (∀ p ∈ parts, p.Ok MariaTx) ∧ ∀ p ∈ parts, NoStatementBefore p.events := by
  refine ⟨fun p hp => ?_, fun p hp => ?_⟩ <;> have := h p hp <;> cases p with
  | tx g es => first | exact this.1 | exact this.2
  | noise e => first | exact this | simp [NoStatementBefore, Part.events]

/-- A session as `MariaSession`, when it is known what was taken: a beginning of what the server has to send. -/
inductive TakenMaria (log : List MGtid) (stream : BinlogEvents) (taken : List Ev) (done : List MGtid) : Prop where
  | mk {front : List Packet} {request : Bytes} {id position : Nat} {file : RStr} {listed : List MGtid}
      (htrace : stream.channel.trace = front ++ [.sent 0 request]) (hrequest : DumpPacket 0 id file position request)
      (htold : ToldState stream.channel.trace listed) {parts : List (Part MGtid)} (hp : ∀ p ∈ parts, p.Ok QuietTx)
      (hlog : parts.flatMap Part.gtids = toSend listed log) (htaken : taken = (flat parts).take taken.length)
      (hdone : done = finished taken.length parts) : TakenMaria log stream taken done

/-- As `MariaSessions`. -/
inductive TakenMarias (m : Mode) : Client → (log : List MGtid) → (got : List (List MGtid)) → Client → (log' : List MGtid) → Prop where
  | stop {c : Client} {log : List MGtid} : TakenMarias m c log [] c log
  | grow {c c' : Client} {log log' : List MGtid} {got : List (List MGtid)} (more : List MGtid)
      (h : TakenMarias m c (log ++ more) got c' log') : TakenMarias m c log got c' log'
  | failed {c c' : Client} {log log' : List MGtid} {got : List (List MGtid)} {crypto : Crypto} {net : Except IoKind Channel}
      (h : TakenMarias m (c.replicate m crypto net).2 log got c' log') : TakenMarias m c log got c' log'
  | session {c c1 c2 c' : Client} {log log' done : List MGtid} {got : List (List MGtid)} {crypto : Crypto} {chan : Channel}
      {stream : BinlogEvents} {taken : List Ev} (hf : FitsRequests c.options)
      (hr : c.replicate m crypto (.ok chan) = (.ok stream, c1)) (hs : TakenMaria log stream taken done)
      (hc : commitAll m c1 taken = .ok c2) (h : TakenMarias m c2 log got c' log') : TakenMarias m c log (done :: got) c' log'

theorem TakenMarias.grows {m : Mode} {c c' : Client} {log log' : List MGtid} {got : List (List MGtid)}
    (h : TakenMarias m c log got c' log') : log <+: log' := by
  induction h with
  | stop => exact List.prefix_rfl
  | grow more _ ih => exact (List.prefix_append _ _).trans ih
  | failed _ ih => exact ih
  | session _ _ _ _ _ ih => exact ih

theorem MariaSessions.takes {m : Mode} {c c' : Client} {log log' : List MGtid} {got : List (List MGtid)}
    (h : MariaSessions m QuietTx c log got c' log') : TakenMarias m c log got c' log' := by
  induction h with
  | stop => exact .stop
  | grow more _ ih => exact .grow more ih
  | failed _ ih => exact .failed ih
  | @session c c1 c2 c' log log' done got crypto chan stream taken hf hr hsess hc h ih =>
    obtain ⟨htrace, hrequest, htold, hp, hlog, hsent, hbytes, hsize, hinput, hy, hl, rfl⟩ := hsess
    rename_i front request id position file listed parts sent slices st n rest stream'
    refine .session hf hr (.mk htrace hrequest htold hp hlog ?_ rfl) hc ih
    have hparser : stream.parser = ⟨stream.parser.checksumType, []⟩ := by
      obtain ⟨_, _, _, -, -, h'⟩ := replicate_ok (m := m) (cr := crypto) (c := c) (net := .ok chan) (events := stream) (by rw [hr])
      rw [h']
      rfl
    obtain ⟨s', g6, -, -⟩ := Knows.stream hbytes m stream (by rw [hparser]; exact Knows.start _) n rest hsize hinput
    have := hy.prefix g6 (by simpa using hl)
    rw [List.length_map, ← List.map_take] at this
    have := List.map_injective_iff.2 (fun a b h => Except.ok.inj h) this
    obtain ⟨more, hmore⟩ := hsent
    rw [← hmore, List.take_append_of_le_length hl]
    exact this

theorem takenMarias_each_once {m : Mode} {c c' : Client} {log log' : List MGtid} {got : List (List MGtid)}
    (h : TakenMarias m c log got c' log') (list : GtidList) (hs : c.options.binlog.startingStrategy = .fromGtid)
    (hlist : c.options.binlog.gtidList = some list) (hnone : c.options.binlog.gtidSet = none)
    (hone : (list.gtids.map (·.domainId)).Nodup) (hin : ∀ g ∈ list.gtids, g ∈ log' → g ∈ log) (hd : log'.Nodup) :
    ∃ list', c'.options.binlog.gtidList = some list' ∧ (list'.gtids.map (·.domainId)).Nodup ∧
      (∀ g, g ∈ list'.gtids ↔ LastOf got.flatten g ∨ (g ∈ list.gtids ∧ ∀ y ∈ got.flatten, y.domainId ≠ g.domainId)) ∧
      got.flatten ++ toSend list'.gtids log' = toSend list.gtids log' := by
  induction h generalizing list with
  | stop => exact ⟨list, hlist, hone, by simp [LastOf], by simp⟩
  | grow more h ih => exact ih list hs hlist hnone hone (fun g h1 h2 => List.mem_append_left _ (hin g h1 h2)) hd
  | @failed c c' log log' got crypto net h ih =>
    have key : (c.replicate m crypto net).2.options.binlog.startingStrategy = .fromGtid ∧
        (c.replicate m crypto net).2.options.binlog.gtidList = some list ∧ (c.replicate m crypto net).2.options.binlog.gtidSet = none := by
      rcases C100_attempt m crypto c net with ⟨place, h'⟩ | ⟨h', -⟩
      · rw [h']; exact ⟨hs, hlist, hnone⟩
      · rw [h']; exact ⟨hs, hlist, hnone⟩
    exact ih list key.1 key.2.1 key.2.2 hone hin hd
  | @session c c1 c2 c' log log' done got crypto chan stream taken hf hr hsess hc h ih =>
    obtain ⟨htrace, hrequest, htold, hp, hlog, htaken, rfl⟩ := hsess
    rename_i front request id position file listed parts
    -- the server was told the recorded list
    obtain ⟨l, g1, g2⟩ := told_recorded hf hr hs htrace hrequest
    obtain rfl : list = l := Option.some.inj (hlist.symm.trans g1)
    obtain rfl := toldState_unique g2 htold
    have hfrom : FromList c1 list := by
      rcases C100_attempt m crypto c (.ok chan) with ⟨place, h'⟩ | ⟨-, h'⟩
      · rw [hr] at h'
        obtain rfl : c1 = _ := h'
        exact ⟨hs, rfl, hlist, hnone⟩
      · rw [hr] at h'; exact absurd rfl (h' stream)
    obtain ⟨more, rfl⟩ := h.grows
    obtain ⟨c2', list2, h1, h2, h3, h4, h5⟩ := C18_exactly_finished_partial m c1 list hfrom hone parts (quiet_parts hp).1 (quiet_parts hp).2 taken.length
    rw [← htaken, hc] at h1
    obtain rfl : c2 = c2' := Res.ok.inj h1
    have hfin : ∀ g ∈ finished taken.length parts, g ∈ log := by
      intro g hg
      have : g ∈ toSend list.gtids log := by
        rw [← hlog, finished_append_unfinished parts taken.length]
        exact List.mem_append_left _ hg
      exact (List.mem_filter.1 this).1
    obtain ⟨list', k1, k2, k3, k4⟩ := ih list2 ((commitAll_keeps hc).trans hfrom.strategy) h2 h3 h4 (by
      intro g hg hg'
      rcases (h5 g).1 hg with h6 | h6
      · exact hfin g (lastOf_mem h6)
      · exact hin g h6.1 hg') hd
    refine ⟨list', k1, k2, fun g => ?_, ?_⟩
    · rw [k3, h5, List.flatten_cons, lastOf_append]
      simp only [List.mem_append, or_imp, forall_and]
      constructor
      · rintro (h | ⟨h | h, h'⟩)
        · exact .inl (.inl h)
        · exact .inl (.inr ⟨h, h'⟩)
        · exact .inr ⟨h.1, h.2, h'⟩
      · rintro ((h | h) | h)
        · exact .inl h
        · exact .inr ⟨.inl h.1, h.2⟩
        · exact .inr ⟨.inr ⟨h.1, h.2.1⟩, h.2.2⟩
    · have hall : toSend list.gtids (log ++ more) = finished taken.length parts ++ (unfinished taken.length parts ++ more) := by
        rw [toSend_grow hd hin, ← hlog, finished_append_unfinished parts taken.length, List.append_assoc]
      rw [List.flatten_cons, List.append_assoc, k4, toSend_after hd hall h5, hall]

/-- **C104.** Replication by MariaDB GTIDs, over any number of sessions and failed attempts, while the log of the server grows. The
transactions of which all events were committed, session after session, followed by those the server has still to send after being told the
recorded list, are exactly the transactions it had to send after the initial list: each once, in the order of the log. The recorded list has for each domain
the last of those, or the initial one. (Missing: transactions with statements before the last event; see `C104_false`.) -/
theorem C104_mariadb_each_once_partial {m : Mode} {c c' : Client} {log log' : List MGtid} {got : List (List MGtid)}
    (h : MariaSessions m QuietTx c log got c' log') (list : GtidList) (hs : c.options.binlog.startingStrategy = .fromGtid)
    (hlist : c.options.binlog.gtidList = some list) (hnone : c.options.binlog.gtidSet = none)
    (hone : (list.gtids.map (·.domainId)).Nodup) (hin : ∀ g ∈ list.gtids, g ∈ log' → g ∈ log) (hd : log'.Nodup) :
    ∃ list', c'.options.binlog.gtidList = some list' ∧ (list'.gtids.map (·.domainId)).Nodup ∧
      (∀ g, g ∈ list'.gtids ↔ LastOf got.flatten g ∨ (g ∈ list.gtids ∧ ∀ y ∈ got.flatten, y.domainId ≠ g.domainId)) ∧
      got.flatten ++ toSend list'.gtids log' = toSend list.gtids log' :=
  takenMarias_each_once h.takes list hs hlist hnone hone hin hd

/-- A client in GTID mode lets a conforming MariaDB know its recorded list. -/
theorem maria_asks (m : Mode) (c : Crypto) (client : Client) (chan : Channel) (hu : Usable c client.options)
    (hw : chan.writes = []) (checksum : ChecksumType) (bytes rest : Bytes) (hin : LetsIn c client.options True none checksum bytes)
    (list : GtidList) (hs : client.options.binlog.startingStrategy = .fromGtid) (hlist : client.options.binlog.gtidList = some list)
    (hi : chan.input = bytes ++ rest) :
    ∃ stream front cmd, client.replicate m c (.ok chan) = (.ok stream, client.afresh) ∧ stream.channel.trace = front ++ [.sent 0 cmd] ∧
      DumpPacket 0 (if client.options.blocking then client.options.serverId else 0) client.options.binlog.filename
        client.options.binlog.position cmd ∧ ToldState stream.channel.trace list.gtids ∧ stream.channel.input = rest ∧
      stream.parser = ⟨checksum, []⟩ := by
  cases hin with
  | @mk g greeting way key packets replies oks hg hversion hlen hknown hway haccepts hkey hmaria hanswers hoks =>
    obtain ⟨stream, client', h1, h2, -, h3, rfl⟩ := C73_replicate_partial m c client chan hu.login hu.requests g (.inl hu.plain) hw greeting hg
      hversion hlen hknown way hway key packets haccepts hkey none (by simp [hs]) checksum oks replies hanswers (by rw [← hmaria]; exact hoks)
      (by rw [← hmaria]; exact fun _ => .inl ⟨trivial, by rw [hlist]; rfl⟩) rest hi
    obtain ⟨chan', checksum', s', h4, h5, h6⟩ := replicate_ok (m := m) (cr := c) (c := client) (net := .ok chan) (events := stream) (by rw [h1])
    have h7 := replicate_of h4 h5
    rw [h1] at h7
    have hcl : s'.client = client.afresh := (Prod.mk.inj h7).2.symm
    obtain ⟨t, h8⟩ := open_succeeds hu.requests.heartbeat chan
    rw [h8] at h4
    obtain rfl := Res.ok.inj h4
    obtain ⟨n, q, tr, cmd, h9, h10, h11⟩ := C60_dump_request m c _ s' checksum' h5 (by rw [hcl]; exact hu.requests.serverId)
      (by rw [hcl]; exact hu.requests.position)
    obtain rfl := h10 greeting 0 (frames (packets ++ replies) ++ rest) hlen (by decide) (by
      show chan.input = _
      rw [hi, List.cons_append, frames, List.append_assoc])
    obtain ⟨h12, -, -⟩ := h11 g hg
    rw [hcl] at h12
    have h13 := h12 (.inl (hmaria.1 trivial))
    obtain ⟨front, h14⟩ : ∃ front, stream.channel.trace = front ++ [.sent 0 cmd] := ⟨_, by rw [h6]; exact h9⟩
    obtain ⟨l, h15, h16⟩ := told_recorded (small_fits hu.requests) h1 hs h14 h13
    obtain rfl : list = l := Option.some.inj (hlist.symm.trans h15)
    exact ⟨stream, _, cmd, h1, h14, h13, h16, h2, h3⟩

/-- **C104.** Such sessions come about: with a conforming MariaDB that lets the client in and sends what comes after the GTIDs it was told,
the application can take any number of the events. When it takes all, the session brings all those transactions. -/
theorem C104_mariadb_session (m : Mode) (c : Crypto) (client : Client) (chan : Channel) (hu : Usable c client.options)
    (hw : chan.writes = []) (checksum : ChecksumType) (bytes : Bytes) (hin : LetsIn c client.options True none checksum bytes)
    (list : GtidList) (hs : client.options.binlog.startingStrategy = .fromGtid) (hlist : client.options.binlog.gtidList = some list)
    (T : MGtid → List Ev → Prop) (log : List MGtid) (parts : List (Part MGtid)) (hp : ∀ p ∈ parts, p.Ok T)
    (hlog : parts.flatMap Part.gtids = toSend list.gtids log)
    (slices : List Bytes) (st : LogState) (hbytes : LogOf (.start checksum) (flat parts) slices st)
    (hsize : ∀ x ∈ slices, x.length < 2 ^ 24 - 20) (n : Nat) (rest : Bytes)
    (hi : chan.input = bytes ++ frames (eventPackets n (flat parts) slices) ++ rest) :
    ∃ stream, client.replicate m c (.ok chan) = (.ok stream, client.afresh) ∧
      (∀ k, MariaSession m T log stream ((flat parts).take k) (finished k parts)) ∧
      finished (flat parts).length parts = toSend list.gtids log := by
  obtain ⟨stream, front, cmd, h1, h2, h3, h4, h5, h6⟩ := maria_asks m c client chan hu hw checksum bytes _ hin list hs hlist
    (by rw [hi, List.append_assoc])
  refine ⟨stream, h1, fun k => ?_, ?_⟩
  · have hb : LogOf (.start stream.parser.checksumType) (flat parts) slices st := by rw [h6]; exact hbytes
    obtain ⟨stream', h7, -, -⟩ := Knows.stream hbytes m stream (by rw [h6]; exact Knows.start checksum) n rest hsize h5
    obtain ⟨stream1, h8⟩ := h7.take k
    rw [← List.map_take] at h8
    refine .mk h2 h3 h4 hp hlog List.prefix_rfl hb hsize h5 h8 (by simp) ?_
    rw [List.length_take]
    rcases Nat.le_total k (flat parts).length with hk | hk
    · rw [Nat.min_eq_left hk]
    · rw [Nat.min_eq_right hk, finished_all parts k hk, finished_all parts _ (Nat.le_refl _)]
  · rw [finished_all parts _ (Nat.le_refl _), hlog]

/-! ## Concrete sessions -/

def exListUser : Client := exUser (.fromMariadbGtid exList)

theorem exListUser_usable : Usable exCrypto exListUser.options :=
  ⟨exSmall _, ⟨by decide, by decide, by decide, (fun g h => by cases h), (fun g h => by cases h; decide +kernel), by decide⟩, rfl⟩

/-- Two domains. -/
def exMariaLog : List MGtid := [⟨0, 1, 270⟩, ⟨1, 1, 5⟩, ⟨0, 1, 271⟩, ⟨1, 1, 6⟩, ⟨0, 1, 272⟩]

def exMariaTx (d n : Nat) : Part MGtid := .tx ⟨d, 1, n⟩ [(exTyped 162, .mariaDbGtid ⟨⟨d, 1, n⟩, 0⟩), (exTyped 16, .xid ⟨7⟩)]

theorem exMariaTx_ok (d n : Nat) : (exMariaTx d n).Ok QuietTx :=
  ⟨MariaTx.block (x := ⟨⟨d, 1, n⟩, 0⟩) (body := []) rfl (by simp) trivial, by simp [NoStatementBefore, AutoCommits, Begins]⟩

theorem exMariaTx_written (st : LogState) (hst : st.checksum = .crc32) (d n : Nat) (hd : d < 2 ^ 32) (hn : n < 2 ^ 64) :
    Written st (exTyped 162, .mariaDbGtid ⟨⟨d, 1, n⟩, 0⟩) ((le 8 n ++ le 4 d ++ le 1 0 ++ []) ++ exSum) st ∧
      Written st (exTyped 16, .xid ⟨7⟩) ((le 8 7 ++ []) ++ exSum) st := by
  have sum : ∀ body, WithChecksum st.checksum body (body ++ exSum) := fun body => ⟨_, by rw [hst]; rfl, rfl⟩
  exact ⟨.maria (.gtid (header := exTyped 162) (sequence := n) (domain := d) (flags := 0) (extra := []) hn hd (by decide)) (sum _),
    .plain (.xid (xid := 7) (extra := []) (by decide)) (sum _)⟩

/-- The hypotheses of C104 are met: in the first session, the application commits 0-1-271 and the GTID event of 1-1-6, but no more of it. An
attempt fails, the log grows; the second session brings 1-1-6 and 0-1-272. -/
example (m : Mode) : (∃ c', MariaSessions m QuietTx exListUser (exMariaLog.take 4) [[⟨0, 1, 271⟩], [⟨1, 1, 6⟩, ⟨0, 1, 272⟩]] c' exMariaLog) ∧
    exListUser.options.binlog.startingStrategy = .fromGtid ∧ exListUser.options.binlog.gtidList = some exList ∧
    exListUser.options.binlog.gtidSet = none ∧ (exList.gtids.map (·.domainId)).Nodup ∧
    (∀ g ∈ exList.gtids, g ∈ exMariaLog → g ∈ exMariaLog.take 4) ∧ exMariaLog.Nodup := by
  refine ⟨?_, rfl, rfl, rfl, by decide, by decide, by decide⟩
  have ok : ∀ d n d' n', ∀ p ∈ [exMariaTx d n, exMariaTx d' n'], p.Ok QuietTx := by
    intro d n d' n' p hp
    simp only [List.mem_cons, List.not_mem_nil, or_false] at hp
    rcases hp with rfl | rfl <;> exact exMariaTx_ok _ _
  have written : ∀ d n d' n', d < 2 ^ 32 → n < 2 ^ 64 → d' < 2 ^ 32 → n' < 2 ^ 64 → ∃ slices st,
      LogOf (.start .crc32) (flat [exMariaTx d n, exMariaTx d' n']) slices st ∧ ∀ x ∈ slices, x.length < 2 ^ 24 - 20 := by
    intro d n d' n' h1 h2 h3 h4
    have f1 : HeaderFits (exTyped 162) := by unfold HeaderFits; decide
    have f2 : HeaderFits (exTyped 16) := by unfold HeaderFits; decide
    refine ⟨_, _, .cons f1 (exMariaTx_written _ rfl d n h1 h2).1 (.cons f2 (exMariaTx_written _ rfl d n h1 h2).2
      (.cons f1 (exMariaTx_written _ rfl d' n' h3 h4).1 (.cons f2 (exMariaTx_written _ rfl d' n' h3 h4).2 .nil))), ?_⟩
    simp [le_length, exSum]
  obtain ⟨slices, st, h1, h2⟩ := written 0 271 1 6 (by decide) (by decide) (by decide) (by decide)
  obtain ⟨stream, h3, h4, -⟩ := C104_mariadb_session m exCrypto exListUser { exChannel [] with input := _ } exListUser_usable rfl .crc32 _
    (exListUser_in _ rfl) exList rfl rfl QuietTx (exMariaLog.take 4) _ (ok _ _ _ _) (by decide) slices st h1 h2 1 [] rfl
  have hc : ∀ m, commitAll m exListUser.afresh ((flat [exMariaTx 0 271, exMariaTx 1 6]).take 3) = .ok { exListUser with
      mariaGtid := some ⟨1, 1, 6⟩,
      options := { exListUser.options with binlog := { exListUser.options.binlog with
        position := 500, gtidList := some ⟨[⟨0, 1, 271⟩, ⟨1, 1, 5⟩]⟩ } } } := by
    rintro ⟨_ | _⟩ <;> decide +kernel
  obtain ⟨slices', st', g1, g2⟩ := written 1 6 0 272 (by decide) (by decide) (by decide) (by decide)
  have hu : Usable exCrypto { exListUser.options with binlog := { exListUser.options.binlog with
        position := 500, gtidList := some ⟨[⟨0, 1, 271⟩, ⟨1, 1, 5⟩]⟩ } } :=
    ⟨exSmall _, ⟨by decide, by decide, by decide, (fun g h => by cases h), (fun g h => by cases h; decide +kernel), by decide⟩, rfl⟩
  obtain ⟨stream2, g3, g4, -⟩ := C104_mariadb_session m exCrypto { exListUser with
      mariaGtid := some ⟨1, 1, 6⟩,
      options := { exListUser.options with binlog := { exListUser.options.binlog with
        position := 500, gtidList := some ⟨[⟨0, 1, 271⟩, ⟨1, 1, 5⟩]⟩ } } } { exChannel [] with input := _ } hu rfl .crc32 _
    (exListUser_in _ rfl) _ rfl rfl QuietTx exMariaLog _ (ok _ _ _ _) (by decide) slices' st' g1 g2 1 [] rfl
  obtain ⟨c3, hc3⟩ : ∃ c3, commitAll m { exListUser with
      mariaGtid := none,
      options := { exListUser.options with binlog := { exListUser.options.binlog with
        position := 500, gtidList := some ⟨[⟨0, 1, 271⟩, ⟨1, 1, 5⟩]⟩ } } } ((flat [exMariaTx 1 6, exMariaTx 0 272]).take 4) = .ok c3 := by
    have := C18_exactly_finished_partial m { exListUser with
      mariaGtid := none,
      options := { exListUser.options with binlog := { exListUser.options.binlog with
        position := 500, gtidList := some ⟨[⟨0, 1, 271⟩, ⟨1, 1, 5⟩]⟩ } } } _ ⟨rfl, rfl, rfl, rfl⟩ (by decide) [exMariaTx 1 6, exMariaTx 0 272]
      (quiet_parts (ok _ _ _ _)).1 (quiet_parts (ok _ _ _ _)).2 4
    obtain ⟨c3, _, h, -⟩ := this
    exact ⟨c3, h⟩
  exact ⟨c3, .session (small_fits exListUser_usable.requests) h3 (h4 3) (hc m)
    (.grow [⟨0, 1, 272⟩] (.failed (crypto := exCrypto) (net := .error .unexpectedEof)
      (.session (small_fits hu.requests) g3 (g4 4) hc3 .stop)))⟩

/-- GTID 0-1-271, a statement, XID. -/
def exStatementTx : Part MGtid :=
  .tx ⟨0, 1, 271⟩ [(exTyped 162, .mariaDbGtid ⟨⟨0, 1, 271⟩, 0⟩), (exTyped 2, exQuery "INSERT"), (exTyped 16, .xid ⟨7⟩)]

/-- **C104** is false: when a transaction has a statement before its end and the application stops after that statement, the transaction is
lost. Its events were not all committed, and yet the server does not have it to send after being told the recorded list. -/
theorem C104_false (m : Mode) : ∃ c' list', MariaSessions m MariaTx exListUser (exMariaLog.take 3) [[]] c' (exMariaLog.take 3) ∧
    c'.options.binlog.gtidList = some list' ∧ toSend exList.gtids (exMariaLog.take 3) = [⟨0, 1, 271⟩] ∧
    toSend list'.gtids (exMariaLog.take 3) = [] := by
  have ok : ∀ p ∈ [exStatementTx], p.Ok MariaTx := by
    intro p hp
    rw [List.mem_singleton.1 hp]
    exact MariaTx.block (x := ⟨⟨0, 1, 271⟩, 0⟩) (body := [(exTyped 2, exQuery "INSERT")]) rfl (by simp [Inside, IsGtid, Spec.Ends, exQuery]) trivial
  obtain ⟨stream, h3, h4, -⟩ := C104_mariadb_session m exCrypto exListUser { exChannel [] with input := _ } exListUser_usable rfl .crc32 _
    (exListUser_in _ rfl) exList rfl rfl MariaTx (exMariaLog.take 3) [exStatementTx] ok (by decide) _ _
    (.cons (by unfold HeaderFits; decide) (exMariaTx_written _ rfl 0 271 (by decide) (by decide)).1
      (.cons (by unfold HeaderFits; decide) (exQuery_written _ _)
      (.cons (by unfold HeaderFits; decide) (exMariaTx_written _ rfl 0 271 (by decide) (by decide)).2 .nil))) (by decide +kernel) 1 [] rfl
  have hc : ∀ m, commitAll m exListUser.afresh ((flat [exStatementTx]).take 2) = .ok { exListUser with
      mariaGtid := some ⟨0, 1, 271⟩,
      options := { exListUser.options with binlog := { exListUser.options.binlog with
        position := 500, gtidList := some ⟨[⟨0, 1, 271⟩, ⟨1, 1, 5⟩]⟩ } } } := by
    rintro ⟨_ | _⟩ <;> decide +kernel
  exact ⟨_, _, .session (small_fits exListUser_usable.requests) h3 (h4 2) (hc m) .stop, rfl, by decide, by decide⟩

end MysqlCdc
