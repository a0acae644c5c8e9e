import Verif.Props.Deliveries
import Verif.Props.Log
/-!
# C105: every event once, over any number of sessions by file and position, from bytes to commits
-/

namespace MysqlCdc

open Spec

/-- A dump request can be read in one way only. -/
theorem dump_read {flags id flags' id' position position' : Nat} {file file' : RStr} {p : Bytes}
    (h : DumpPacket flags id file position p) (h' : DumpPacket flags' id' file' position' p) : file = file' ∧ position = position' := by
  generalize hp : p = q at h'
  cases h with
  | mk h1 h2 h3 =>
    cases h' with
    | mk g1 g2 g3 =>
      simp only [List.append_assoc] at hp
      obtain ⟨-, hp⟩ := le_append_inj (by decide) (by decide) hp
      obtain ⟨e, hp⟩ := le_append_inj (k := 4) h1 g1 hp
      obtain ⟨-, hp⟩ := le_append_inj (k := 2) h2 g2 hp
      obtain ⟨-, hp⟩ := le_append_inj (k := 4) h3 g3 hp
      exact ⟨utf8Bytes_inj hp, e⟩

/-- What a session brings. The server reads the dump request (`request`, the last packet the client sent), and serves its log from the place
the request names. Of what it has sent, `sent`, the application takes the events `taken` from the iterator, commits them, and stops for
whatever reason. `real` are the events of the log among them. -/
inductive FileSession (m : Mode) (log : Log) (stream : BinlogEvents) (taken real : List Ev) : Prop where
  | mk {front : List Packet} {request : Bytes} {id position : Nat} {file : RStr}
      (htrace : stream.channel.trace = front ++ [.sent 0 request]) (hrequest : DumpPacket 0 id file position request)
      {sent : List Ev} {q : Place} (hserve : Serve log False (resolve log file position) q (sent.take taken.length) real)
      {slices : List Bytes} {st : LogState} (hbytes : LogOf (.start stream.parser.checksumType) sent slices st)
      (hsize : ∀ x ∈ slices, x.length < 2 ^ 24 - 20) {n : Nat} {rest : Bytes}
      (hin : stream.channel.input = frames (eventPackets n sent slices) ++ rest)
      {stream' : BinlogEvents} (hy : stream.Yields m (taken.map .ok) stream') (hl : taken.length ≤ sent.length) :
      FileSession m log stream taken real

/-- Any number of sessions by file and position, and attempts that fail. `got` are the events of the log that were committed, session by
session. The log is the one there is in the end; in the sessions the server served what it had of it. -/
inductive FileSessions (m : Mode) (crypto : Crypto) (log : Log) : Client → (got : List (List Ev)) → Client → Prop where
  | stop {c : Client} : FileSessions m crypto log c [] c
  | failed {c c' : Client} {got : List (List Ev)} {net : Except IoKind Channel}
      (h : FileSessions m crypto log (c.replicate m crypto net).2 got c') : FileSessions m crypto log c got c'
  | session {c c1 c2 c' : Client} {real : List Ev} {got : List (List Ev)} {chan : Channel} {stream : BinlogEvents} {taken : List Ev}
      (hf : FitsRequests c.options) (hr : c.replicate m crypto (.ok chan) = (.ok stream, c1)) (hs : FileSession m log stream taken real)
      (hc : commitAll m c1 taken = .ok c2) (h : FileSessions m crypto log c2 got c') : FileSessions m crypto log c (real :: got) c'

/-- A dump request names the recorded place. -/
theorem request_read {m : Mode} {crypto : Crypto} {c c1 : Client} {chan : Channel} {stream : BinlogEvents} (hs : c.options.binlog.startingStrategy ≠ .fromGtid)
    (hk : ¬wantsEnd c.options) (hf : FitsRequests c.options) (hr : c.replicate m crypto (.ok chan) = (.ok stream, c1)) {front : List Packet}
    {request : Bytes} {id position : Nat} {file : RStr} (htrace : stream.channel.trace = front ++ [.sent 0 request])
    (hrequest : DumpPacket 0 id file position request) : c.options.binlog.filename = file ∧ c.options.binlog.position = position := by
  obtain ⟨t, p, maria, g1, -, g2, -, -⟩ := asks_recorded hf hr hk
  have hpr : p = request := by
    rw [htrace] at g1
    have := List.append_inj_right' g1 rfl
    simpa using this.symm
  subst hpr
  exact dump_read (g2 (.inl hs)) hrequest

/-- A session in which the client is served from where it is leaves it at a place that it can ask for. -/
theorem served_step {m : Mode} {crypto : Crypto} {log : Log} (hl : LogOk log) {c c1 c2 : Client} {real : List Ev} {net : Except IoKind Channel}
    {stream : BinlogEvents} {taken : List Ev} (hs : c.options.binlog.startingStrategy ≠ .fromGtid) (hk : ¬wantsEnd c.options)
    (hv : Valid log (c.place log)) (hr : c.replicate m crypto net = (.ok stream, c1)) {q : Place}
    (hserve : Serve log False (c.place log) q taken real) (hc : commitAll m c1 taken = .ok c2) :
    c2.options.binlog.startingStrategy ≠ .fromGtid ∧ ¬wantsEnd c2.options ∧ Valid log (c2.place log) ∧
      (c.replicate m crypto net).2.place log = c.place log ∧
      ∃ tms front, remaining log (c.place log) = real ++ remaining log q ∧
        remaining log (c2.place log) = tms ++ remaining log q ∧ (∀ e ∈ tms, IsTableMap e.2) ∧ real = front ++ tms := by
  have hopt := replicate_keeps_options m crypto c net (not_and_or.1 hk)
  have hpl : (c.replicate m crypto net).2.place log = c.place log := by unfold Client.place; rw [hopt]
  have hserve' : Serve log False ((c.replicate m crypto net).2.place log) q taken real := by rw [hpl]; exact hserve
  obtain ⟨c2', tms, front', h1, h2, h3, h4', h5', h6', h7', -⟩ := MysqlCdc.session m hl (calm := False) False.elim (c.replicate m crypto net).2
    (by rw [hopt]; exact hs) (by rw [hpl]; exact hv) hserve'
  have hc' : commitAll m (c.replicate m crypto net).2 taken = .ok c2 := by rw [hr]; exact hc
  rw [hc', Res.ok.injEq] at h1
  subst h1
  rw [hpl] at h4'
  refine ⟨by rw [h2, hopt]; exact hs, ?_, h3, hpl, tms, front', h4', h5', h6', h7'⟩
  -- a name once recorded never becomes empty again
  rintro ⟨e1, e2⟩
  rw [h2, hopt] at e1
  have hn : c.options.binlog.filename ≠ [] := fun e => hk ⟨e1, e⟩
  obtain ⟨⟨pre, f, post, done, tms', todo, hb⟩, hf'⟩ := serve_behind hl (calm := False) False.elim
    (name := c.options.binlog.filename) (pos := c.options.binlog.position) (p := c.place log) rfl hv hserve
  have h4 := (C19_position_follows_partial m _ c2 taken hf' hc').1
  rw [hopt] at h4
  rw [h4] at e2
  simp only [lastOr] at e2
  cases hg : (taken.filterMap newFile).getLast? with
  | none => rw [hg] at e2; exact hn e2
  | some x =>
    rw [hg] at e2
    obtain ⟨e, he, hx⟩ := List.mem_filterMap.1 (List.mem_of_getLast? hg)
    exact serve_names hl hv hserve e he x hx e2

/-- One session: the client is served from where it is, and the application takes what it is sent. -/
theorem FileSession.serve {m : Mode} {crypto : Crypto} {log : Log} {c c1 : Client} {real : List Ev} {chan : Channel} {stream : BinlogEvents} {taken : List Ev}
    (hs : c.options.binlog.startingStrategy ≠ .fromGtid) (hk : ¬wantsEnd c.options) (hf : FitsRequests c.options)
    (hr : c.replicate m crypto (.ok chan) = (.ok stream, c1)) (hsess : FileSession m log stream taken real) :
    (∃ q, Serve log False (c.place log) q taken real) ∧
      ∃ sent slices st, taken <+: sent ∧ LogOf (.start stream.parser.checksumType) sent slices st := by
  obtain ⟨htrace, hrequest, hserve, hbytes, hsize, hin, hy, hlen⟩ := hsess
  rename_i front request id position file sent q slices st n rest stream'
  -- the request is for the recorded place
  obtain ⟨rfl, rfl⟩ := request_read hs hk hf hr htrace hrequest
  -- what was taken
  have hparser : stream.parser = ⟨stream.parser.checksumType, []⟩ := by
    obtain ⟨_, _, _, -, -, h'⟩ := replicate_ok (m := m) (cr := crypto) (c := c) (net := .ok chan) (events := stream) (by rw [hr])
    rw [h']
    rfl
  obtain ⟨s', g6, -, -⟩ := Knows.stream hbytes m stream (by rw [hparser]; exact Knows.start _) n rest hsize hin
  have htaken : taken = sent.take taken.length := by
    have := hy.prefix g6 (by simpa using hlen)
    rw [List.length_map, ← List.map_take] at this
    exact List.map_injective_iff.2 (fun a b h => Except.ok.inj h) this
  rw [← htaken] at hserve
  exact ⟨⟨q, hserve⟩, sent, slices, st, htaken ▸ List.take_prefix _ _, hbytes⟩

/-- One session: it is served from where the client is, and leaves the client at a place that it can ask for. -/
theorem FileSession.step {m : Mode} {crypto : Crypto} {log : Log} (hl : LogOk log) {c c1 c2 : Client} {real : List Ev} {chan : Channel}
    {stream : BinlogEvents} {taken : List Ev} (hs : c.options.binlog.startingStrategy ≠ .fromGtid) (hk : ¬wantsEnd c.options)
    (hv : Valid log (c.place log)) (hf : FitsRequests c.options) (hr : c.replicate m crypto (.ok chan) = (.ok stream, c1))
    (hsess : FileSession m log stream taken real) (hc : commitAll m c1 taken = .ok c2) :
    c2.options.binlog.startingStrategy ≠ .fromGtid ∧ ¬wantsEnd c2.options ∧ Valid log (c2.place log) ∧
      (c.replicate m crypto (.ok chan)).2.place log = c.place log ∧
      ∃ q tms front, Serve log False (c.place log) q taken real ∧ remaining log (c.place log) = real ++ remaining log q ∧
        remaining log (c2.place log) = tms ++ remaining log q ∧ (∀ e ∈ tms, IsTableMap e.2) ∧ real = front ++ tms := by
  obtain ⟨⟨q, hserve⟩, -⟩ := hsess.serve hs hk hf hr
  obtain ⟨h1, h2, h3, h4, tms, front', h5, h6, h7, h8⟩ := served_step hl hs hk hv hr hserve hc
  exact ⟨h1, h2, h3, h4, q, tms, front', hserve, h5, h6, h7, h8⟩

/-- The sessions are served from where the client is. -/
theorem FileSessions.served {m : Mode} {crypto : Crypto} {log : Log} (hl : LogOk log) {c c' : Client} {got : List (List Ev)}
    (hs : c.options.binlog.startingStrategy ≠ .fromGtid) (hk : ¬wantsEnd c.options) (hv : Valid log (c.place log))
    (h : FileSessions m crypto log c got c') : Sessions m crypto log c got c' := by
  induction h with
  | stop => exact .none _
  | @failed c c' got net h ih =>
    have hopt := replicate_keeps_options m crypto c net (not_and_or.1 hk)
    exact .failed net (ih (by rw [hopt]; exact hs) (by rw [hopt]; exact hk) (by unfold Client.place; rw [hopt]; exact hv))
  | @session c c1 c2 c' real got chan stream taken hf hr hsess hc h ih =>
    obtain ⟨h1, h2, h3, h4, q, tms, front, h5, -⟩ := hsess.step hl hs hk hv hf hr hc
    exact .more (by rw [hr]) (by rw [h4]; exact h5) (by rw [hr]; exact hc) (ih h1 h2 h3)

/-- **C105.** Replication by file and position, over any number of sessions and failed attempts: the events of the log that were committed,
session after session (table maps left out), and what the log has from the recorded place on, are the events the log has from the first place on, each
once and in order. -/
theorem C105_each_event_once {m : Mode} {crypto : Crypto} {log : Log} (hl : LogOk log) {c c' : Client} {got : List (List Ev)}
    (hs : c.options.binlog.startingStrategy ≠ .fromGtid) (hk : ¬wantsEnd c.options) (hv : Valid log (c.place log))
    (h : FileSessions m crypto log c got c') :
    noMaps got.flatten ++ noMaps (remaining log (c'.place log)) = noMaps (remaining log (c.place log)) :=
  C21_every_event_once hl (not_and_or.1 hk) hv (h.served hl hs hk hv)

theorem serve_take {log : Log} {calm : Prop} {p q : Place} {sent real : List Ev} (h : Serve log calm p q sent real) (k : Nat) :
    ∃ q' real', Serve log calm p q' (sent.take k) real' ∧ real' <+: real ∧ (sent.length ≤ k → real' = real) := by
  have step : ∀ {q q2 : Place} {sent real real2 : List Ev} {e : Ev}, Serve log calm p q2 (sent ++ [e]) real2 → real <+: real2 →
      (∃ q' real', Serve log calm p q' (sent.take k) real' ∧ real' <+: real ∧ (sent.length ≤ k → real' = real)) →
      ∃ q' real', Serve log calm p q' ((sent ++ [e]).take k) real' ∧ real' <+: real2 ∧ ((sent ++ [e]).length ≤ k → real' = real2) := by
    intro q q2 sent real real2 e h hp ih
    rcases Nat.lt_or_ge k (sent ++ [e]).length with hk | hk
    · obtain ⟨q', real', h1, h2, -⟩ := ih
      rw [List.length_append, List.length_singleton] at hk
      refine ⟨q', real', ?_, h2.trans hp, fun h => ?_⟩
      · rw [List.take_append_of_le_length (by omega)]
        exact h1
      · rw [List.length_append, List.length_singleton] at h
        omega
    · exact ⟨q2, real2, by rw [List.take_of_length_le hk]; exact h, List.prefix_rfl, fun _ => rfl⟩
  induction h with
  | start => exact ⟨p, [], by rw [List.take_nil]; exact .start, List.prefix_rfl, fun _ => rfl⟩
  | @event q sent real e hs hst ih => exact step (q := q) (hs.event hst) (List.prefix_append _ _) ih
  | @artificial q sent real e hs h1 h2 ih => exact step (q := q) (hs.artificial h1 h2) List.prefix_rfl ih
  | @heartbeat q sent real h x hs h1 h2 ih => exact step (q := q) (hs.heartbeat h1 h2) List.prefix_rfl ih
  | @announce q sent real h hs h1 ih => exact step (q := q) (hs.announce h1) List.prefix_rfl ih
  | @nextFile sent real h pre post f g hl hs ih => exact step (q := q) (hs.nextFile hl) List.prefix_rfl ih

/-- **C105.** Such sessions come about: with a conforming server that lets the client in and serves its log from the place it is asked for, the
application can take and commit any number of the events. -/
theorem C105_session (m : Mode) (c : Crypto) (client : Client) (chan : Channel) (hu : Usable c client.options)
    (hw : chan.writes = []) (mariaDb : Prop) (checksum : ChecksumType) (bytes : Bytes)
    (hin : LetsIn c client.options mariaDb none checksum bytes) (hs : client.options.binlog.startingStrategy ≠ .fromGtid)
    (hk : ¬wantsEnd client.options) (log : Log) (q : Place) (sent real : List Ev)
    (hserve : Serve log False (client.place log) q sent real)
    (slices : List Bytes) (st : LogState) (hbytes : LogOf (.start checksum) sent slices st)
    (hsize : ∀ x ∈ slices, x.length < 2 ^ 24 - 20) (n : Nat) (rest : Bytes)
    (hi : chan.input = bytes ++ frames (eventPackets n sent slices) ++ rest) :
    ∃ stream, client.replicate m c (.ok chan) = (.ok stream, client.afresh) ∧
      ∀ k, ∃ real' client', FileSession m log stream (sent.take k) real' ∧ real' <+: real ∧
        (sent.length ≤ k → real' = real) ∧ commitAll m client.afresh (sent.take k) = .ok client' := by
  cases hin with
  | @mk g greeting way key packets replies oks hg hversion hlen hknown hway haccepts hkey hmaria hanswers hoks =>
    obtain ⟨stream, client', h1, h2, -, h3, rfl⟩ := C73_replicate_partial m c client chan hu.login hu.requests g (.inl hu.plain) hw greeting hg
      hversion hlen hknown way hway key packets haccepts hkey none (by simpa using fun h => (not_and.1 hk) h) checksum oks replies hanswers
      (by rw [← hmaria]; exact hoks) (fun h => absurd h hs) (frames (eventPackets n sent slices) ++ rest) (by rw [hi, List.append_assoc])
    refine ⟨stream, h1, fun k => ?_⟩
    obtain ⟨t, p, maria, g1, -, g2, -, -⟩ := asks_recorded (small_fits hu.requests) h1 hk
    obtain ⟨q', real', h4, h5, h6⟩ := serve_take hserve k
    have hb : LogOf (.start stream.parser.checksumType) sent slices st := by rw [h3]; exact hbytes
    obtain ⟨stream', h7, -, -⟩ := Knows.stream hbytes m stream (by rw [h3]; exact Knows.start checksum) n rest hsize h2
    obtain ⟨stream1, h8⟩ := h7.take k
    rw [← List.map_take] at h8
    obtain ⟨client', h9, -⟩ := commitAll_ok m client.afresh hs (sent.take k)
    refine ⟨real', client', .mk g1 (g2 (.inl hs)) (q := q') ?_ hb hsize h2 h8 (by simp), h5, h6, h9⟩
    rw [List.length_take]
    rcases Nat.le_total k sent.length with hk | hk
    · rw [Nat.min_eq_left hk]
      exact h4
    · rw [Nat.min_eq_right hk, List.take_of_length_le (Nat.le_refl _)]
      rw [List.take_of_length_le hk] at h4
      exact h4

/-! ## Concrete sessions -/

def exXidAt (next : Nat) : Ev := (⟨0, 16, 1, 0, next, 0⟩, .xid ⟨7⟩)

def exRotateAt (next : Nat) (name : String) (position : Nat) : Ev := (⟨0, 4, 1, 0, next, 0⟩, .rotate ⟨name.toList, position⟩)

def exShortLog : Log := [⟨"bin.1".toList, [exXidAt 150, exXidAt 200, exRotateAt 250 "bin.2" 4]⟩, ⟨"bin.2".toList, [exXidAt 150]⟩]

theorem exShortLog_ok : LogOk exShortLog where
  names := by decide
  named := by simp [exShortLog]
  chain := by
    intro f hf
    simp only [exShortLog, List.mem_cons, List.not_mem_nil, or_false] at hf
    rcases hf with rfl | rfl <;> simp [Chain, exXidAt, exRotateAt]
  rotate := by
    intro pre f post a e b r h1 h2 h3
    rcases pre with _ | ⟨f0, _ | ⟨f1, pre⟩⟩
    · simp only [exShortLog, List.nil_append, List.cons.injEq] at h1
      obtain ⟨rfl, rfl⟩ := h1
      rcases a with _ | ⟨_, _ | ⟨_, _ | ⟨_, a⟩⟩⟩ <;> simp only [List.nil_append, List.cons_append, List.cons.injEq] at h2
      · obtain ⟨rfl, _⟩ := h2; simp [exXidAt] at h3
      · obtain ⟨_, rfl, _⟩ := h2; simp [exXidAt] at h3
      · obtain ⟨_, _, rfl, rfl⟩ := h2
        simp only [exRotateAt, BinlogEvent.rotate.injEq] at h3
        subst h3
        exact ⟨rfl, _, [], rfl, rfl, rfl⟩
      · simp at h2
    · simp only [exShortLog, List.nil_append, List.cons_append, List.cons.injEq] at h1
      obtain ⟨_, rfl, rfl⟩ := h1
      rcases a with _ | ⟨_, a⟩ <;> simp only [List.nil_append, List.cons_append, List.cons.injEq] at h2
      · obtain ⟨rfl, _⟩ := h2; simp [exXidAt] at h3
      · simp at h2
    · simp [exShortLog] at h1

theorem exXidAt_written (next : Nat) : Written (.start .crc32) (exXidAt next) ((le 8 7 ++ []) ++ exSum) (.start .crc32) :=
  .plain (.xid (xid := 7) (extra := []) (by decide)) ⟨_, rfl, rfl⟩

theorem exRotateAt_written (next : Nat) (name : String) (position : Nat) (h : position < 2 ^ 64) :
    Written (.start .crc32) (exRotateAt next name position) ((le 8 position ++ utf8Bytes name.toList) ++ exSum) (.start .crc32) :=
  .plain (.rotate (name := name.toList) (position := position) h) ⟨_, rfl, rfl⟩

def exStartUser : Client := exUser .fromStart

theorem exPlaceUser_usable (position : Nat) (h : position < 2 ^ 32) (file : RStr) (hfile : (utf8Bytes file).length < 100) :
    Usable exCrypto { exStartUser.options with binlog := { exStartUser.options.binlog with filename := file, position := position } } :=
  ⟨exSmall _, ⟨by show exStartUser.options.serverId < _; decide, h, by show _ < _; have : (utf8Bytes file).length < 100 := hfile; simp only; omega, (fun g h => by cases h), (fun g h => by cases h), by show exStartUser.options.heartbeatInterval < _; decide⟩, rfl⟩

/-- The hypotheses of C105 are met: in the first session the application commits the announcement of the file and the first event; the second
session brings the rest of the log, of two files. In between, an attempt fails. -/
example (m : Mode) : (∃ c', FileSessions m exCrypto exShortLog exStartUser
      [[exXidAt 150], [exXidAt 200, exRotateAt 250 "bin.2" 4, exXidAt 150]] c') ∧
    exStartUser.options.binlog.startingStrategy ≠ .fromGtid ∧ ¬wantsEnd exStartUser.options ∧ Valid exShortLog (exStartUser.place exShortLog) := by
  refine ⟨?_, by decide, by unfold wantsEnd; decide, ⟨_, List.mem_cons_self, rfl, [], _, rfl, rfl⟩⟩
  have s1 := ((Serve.start (log := exShortLog) (calm := False) (p := ⟨"bin.1".toList, 4⟩)).announce (h := ⟨0, 4, 1, 0, 0, 0⟩) (Or.inl rfl)).event
    (e := exXidAt 150) ⟨_, List.mem_cons_self, rfl, [], _, rfl, rfl⟩
  obtain ⟨stream, h1, h2⟩ := C105_session m exCrypto exStartUser { exChannel [] with input := _ } (exPlaceUser_usable 4 (by decide) [] (by decide)) rfl False
    .crc32 _ (exGtidUser_in _) (by decide) (by unfold wantsEnd; decide) exShortLog _ [exRotateAt 0 "bin.1" 4, exXidAt 150] [exXidAt 150] s1 _ _
    (.cons (by unfold HeaderFits; decide) (exRotateAt_written _ _ _ (by decide)) (.cons (by unfold HeaderFits; decide) (exXidAt_written _) .nil))
    (by decide +kernel) 1 [] rfl
  obtain ⟨real1, -, h3, -, h4, -⟩ := h2 2
  obtain rfl := h4 (by decide)
  have hc : ∀ m, commitAll m exStartUser.afresh ([exRotateAt 0 "bin.1" 4, exXidAt 150].take 2) = .ok { exStartUser with
      options := { exStartUser.options with binlog := { exStartUser.options.binlog with filename := "bin.1".toList, position := 150 } } } := by
    rintro ⟨_ | _⟩ <;> decide +kernel
  have s2 := ((((Serve.start (log := exShortLog) (calm := False) (p := ⟨"bin.1".toList, 150⟩)).announce (h := ⟨0, 4, 1, 0, 0, 0⟩) (Or.inl rfl)).event
    (e := exXidAt 200) ⟨_, List.mem_cons_self, rfl, [exXidAt 150], _, rfl, rfl⟩).event
    (e := exRotateAt 250 "bin.2" 4) ⟨_, List.mem_cons_self, rfl, [exXidAt 150, exXidAt 200], _, rfl, rfl⟩).event
    (e := exXidAt 150) ⟨_, List.mem_cons_of_mem _ List.mem_cons_self, rfl, [], _, rfl, rfl⟩
  have hu := exPlaceUser_usable 150 (by decide) "bin.1".toList (by decide +kernel)
  obtain ⟨stream2, g1, g2⟩ := C105_session m exCrypto { exStartUser with
      options := { exStartUser.options with binlog := { exStartUser.options.binlog with filename := "bin.1".toList, position := 150 } } }
    { exChannel [] with input := _ } hu rfl False .crc32 _ (exGtidUser_in _) (by decide) (by unfold wantsEnd; decide) exShortLog _
    [exRotateAt 0 "bin.1" 150, exXidAt 200, exRotateAt 250 "bin.2" 4, exXidAt 150] [exXidAt 200, exRotateAt 250 "bin.2" 4, exXidAt 150] s2 _ _
    (.cons (by unfold HeaderFits; decide) (exRotateAt_written _ _ _ (by decide)) (.cons (by unfold HeaderFits; decide) (exXidAt_written _)
      (.cons (by unfold HeaderFits; decide) (exRotateAt_written _ _ _ (by decide)) (.cons (by unfold HeaderFits; decide) (exXidAt_written _) .nil))))
    (by decide +kernel) 1 [] rfl
  obtain ⟨real2, c3, g3, -, g4, g5⟩ := g2 4
  obtain rfl := g4 (by decide)
  exact ⟨c3, .session (small_fits (exPlaceUser_usable 4 (by decide) [] (by decide)).requests) h1 h3 (hc m) (.failed (net := .error .unexpectedEof)
    (.session (small_fits hu.requests) g1 g3 g5 .stop))⟩

end MysqlCdc
