import Verif.Props.Sparse
/-!
# C135: applications that commit the first and the last event of each transaction, over any number of sessions with a MariaDB
-/

namespace MysqlCdc

open Spec

/-- What a session with a MariaDB brings, as `MariaSession`, but of the events it takes the application commits only those that are first or last
in their transaction and those between transactions: `committed`. The transactions may have any statements inside. `done` are those whose last event it
has committed. -/
inductive SparseSession (m : Mode) (log : List MGtid) (stream : BinlogEvents) (committed : List Ev) (done : List MGtid) : Prop where
  | mk {front : List Packet} {request : Bytes} {id position : Nat} {file : RStr} {listed : List MGtid}
      (htrace : stream.channel.trace = front ++ [.sent 0 request]) (hrequest : DumpPacket 0 id file position request)
      (htold : ToldState stream.channel.trace listed) {parts : List (Part MGtid)} (hp : ∀ p ∈ parts, p.Ok MariaTx)
      (hlog : parts.flatMap Part.gtids = toSend listed log)
      {sent : List Ev} (hsent : sent <+: flat parts) {slices : List Bytes} {st : LogState}
      (hbytes : LogOf (.start stream.parser.checksumType) sent slices st) (hsize : ∀ x ∈ slices, x.length < 2 ^ 24 - 20)
      {n : Nat} {rest : Bytes} (hin : stream.channel.input = frames (eventPackets n sent slices) ++ rest)
      {taken : List Ev} {stream' : BinlogEvents} (hy : stream.Yields m (taken.map .ok) stream') (hl : taken.length ≤ sent.length)
      (hcommitted : committed = firstAndLastOf taken.length parts) (hdone : done = finished taken.length parts) :
      SparseSession m log stream committed done

/-- Any number of such sessions and attempts that fail, while the log grows. -/
inductive SparseSessions (m : Mode) :
    Client → (log : List MGtid) → (got : List (List MGtid)) → Client → (log' : List MGtid) → Prop where
  | stop {c : Client} {log : List MGtid} : SparseSessions m c log [] c log
  | grow {c c' : Client} {log log' : List MGtid} {got : List (List MGtid)} (more : List MGtid)
      (h : SparseSessions m c (log ++ more) got c' log') : SparseSessions m c log got c' log'
  | failed {c c' : Client} {log log' : List MGtid} {got : List (List MGtid)} {crypto : Crypto} {net : Except IoKind Channel}
      (h : SparseSessions m (c.replicate m crypto net).2 log got c' log') : SparseSessions m c log got c' log'
  | session {c c1 c2 c' : Client} {log log' done : List MGtid} {got : List (List MGtid)} {crypto : Crypto} {chan : Channel}
      {stream : BinlogEvents} {committed : List Ev} (hf : FitsRequests c.options)
      (hr : c.replicate m crypto (.ok chan) = (.ok stream, c1)) (hs : SparseSession m log stream committed done)
      (hc : commitAll m c1 committed = .ok c2) (h : SparseSessions m c2 log got c' log') : SparseSessions m c log (done :: got) c' log'

theorem choose_gtids {γ : Type} (f : List Ev → List Ev) (parts : List (Part γ)) :
    (parts.map (Part.choose f)).flatMap Part.gtids = parts.flatMap Part.gtids := by
  induction parts with
  | nil => rfl
  | cons p ps ih =>
    rw [List.map_cons, List.flatMap_cons, List.flatMap_cons, ih]
    cases p <;> rfl

theorem chosen_quiet {parts : List (Part MGtid)} (hp : ∀ p ∈ parts, p.Ok MariaTx) :
    ∀ p ∈ parts.map (Part.choose firstAndLast), p.Ok QuietTx := by
  intro p hmem
  obtain ⟨q, hq, rfl⟩ := List.mem_map.1 hmem
  cases q with
  | noise e => exact hp _ hq
  | tx g es =>
    have h1 : MariaTx g es := hp _ hq
    show QuietTx g (firstAndLast es)
    cases h1 with
    | block hx hi hend =>
      rw [firstAndLast_eq]
      exact ⟨.block (body := []) hx (by simp) hend, by simp [NoStatementBefore, AutoCommits, Begins]⟩
    | auto hx hm hauto =>
      rw [firstAndLast_eq]
      exact ⟨.auto (mid := []) hx (by simp) hauto, by simp [NoStatementBefore, AutoCommits, Begins]⟩

/-- What is committed is a beginning of what would be committed of the whole stream, with the same transactions finished. -/
theorem firstAndLastOf_take {parts : List (Part MGtid)} (hp : ∀ p ∈ parts, p.Ok MariaTx) (k : Nat) :
    firstAndLastOf k parts = (flat (parts.map (Part.choose firstAndLast))).take (firstAndLastOf k parts).length ∧
      finished (firstAndLastOf k parts).length (parts.map (Part.choose firstAndLast)) = finished k parts := by
  induction parts generalizing k with
  | nil => exact ⟨rfl, rfl⟩
  | cons p ps ih =>
    have hf : ∀ q : Part MGtid, ∀ qs, flat (q :: qs) = q.events ++ flat qs := fun q qs => by simp [flat]
    obtain ⟨h1, h2⟩ := ih (fun q hq => hp q (by simp [hq])) (k - p.events.length)
    rw [firstAndLastOf, List.map_cons, hf, finished, finished]
    by_cases hk : p.events.length ≤ k
    · rw [if_pos hk, if_pos hk]
      constructor
      · rw [List.length_append, List.take_append, List.take_of_length_le (by omega), Nat.add_sub_cancel_left, ← h1]
      · rw [if_pos (by rw [List.length_append]; omega), List.length_append, Nat.add_sub_cancel_left, h2]
        cases p <;> rfl
    · rw [if_neg hk, if_neg hk]
      cases p with
      | noise e =>
        have : k = 0 := by simp only [Part.events, List.length_singleton] at hk; omega
        subst this
        exact ⟨rfl, rfl⟩
      | tx g es =>
        obtain ⟨e, mid, l, rfl, -⟩ := mariaTx_shape (show MariaTx g es from hp (.tx g es) (by simp))
        have h3 : (Part.choose firstAndLast (Part.tx g (e :: mid ++ [l]))).events = [e, l] := firstAndLast_eq e mid l
        rw [h3]
        cases k with
        | zero => exact ⟨rfl, rfl⟩
        | succ k => exact ⟨rfl, rfl⟩

theorem SparseSessions.takes {m : Mode} {c c' : Client} {log log' : List MGtid} {got : List (List MGtid)}
    (h : SparseSessions m c log got c' log') : TakenMarias m c log got c' log' := by
  induction h with
  | stop => exact .stop
  | grow more _ ih => exact .grow more ih
  | failed _ ih => exact .failed ih
  | @session c c1 c2 c' log log' done got crypto chan stream committed hf hr hsess hc h ih =>
    obtain ⟨htrace, hrequest, htold, hp, hlog, hsent, hbytes, hsize, hinput, hy, hl, rfl, rfl⟩ := hsess
    rename_i front request id position file listed parts sent slices st n rest taken stream'
    obtain ⟨h1, h2⟩ := firstAndLastOf_take hp taken.length
    exact .session hf hr (.mk htrace hrequest htold (chosen_quiet hp) (by rw [choose_gtids, hlog]) h1 h2.symm) hc ih

/-- **C135.** Replication by MariaDB GTIDs, over any number of sessions and failed attempts, while the log grows, with an application that commits the
first and the last event of each transaction: what C104 says, for transactions with any statements inside. The transactions whose last event was
committed, followed by those the server has still to send, are exactly those it had to send: each once, in the order of the log. -/
theorem C135_each_once {m : Mode} {c c' : Client} {log log' : List MGtid} {got : List (List MGtid)}
    (h : SparseSessions m c log got c' log') (list : GtidList) (hs : c.options.binlog.startingStrategy = .fromGtid)
    (hlist : c.options.binlog.gtidList = some list) (hnone : c.options.binlog.gtidSet = none)
    (hone : (list.gtids.map (·.domainId)).Nodup) (hin : ∀ g ∈ list.gtids, g ∈ log' → g ∈ log) (hd : log'.Nodup) :
    ∃ list', c'.options.binlog.gtidList = some list' ∧ (list'.gtids.map (·.domainId)).Nodup ∧
      (∀ g, g ∈ list'.gtids ↔ LastOf got.flatten g ∨ (g ∈ list.gtids ∧ ∀ y ∈ got.flatten, y.domainId ≠ g.domainId)) ∧
      got.flatten ++ toSend list'.gtids log' = toSend list.gtids log' :=
  takenMarias_each_once h.takes list hs hlist hnone hone hin hd

/-- **C135.** What the application takes of a session are the first events of what the server has to send, so with a transaction whose last event it
commits it has had all of its events. -/
theorem C135_whole (m : Mode) (c : Crypto) (client c1 : Client) (chan : Channel) (stream : BinlogEvents)
    (hr : client.replicate m c (.ok chan) = (.ok stream, c1)) {parts : List (Part MGtid)} {sent : List Ev} (hsent : sent <+: flat parts)
    {slices : List Bytes} {st : LogState} (hbytes : LogOf (.start stream.parser.checksumType) sent slices st)
    (hsize : ∀ x ∈ slices, x.length < 2 ^ 24 - 20) {n : Nat} {rest : Bytes}
    (hin : stream.channel.input = frames (eventPackets n sent slices) ++ rest) {taken : List Ev} {stream' : BinlogEvents}
    (hy : stream.Yields m (taken.map .ok) stream') (hl : taken.length ≤ sent.length) :
    taken = (flat parts).take taken.length := by
  have hparser : stream.parser = ⟨stream.parser.checksumType, []⟩ := by
    obtain ⟨_, _, _, -, -, h'⟩ := replicate_ok (m := m) (cr := c) (c := client) (net := .ok chan) (events := stream) (by rw [hr])
    rw [h']
    rfl
  obtain ⟨s', g6, -, -⟩ := Knows.stream hbytes m stream (by rw [hparser]; exact Knows.start _) n rest hsize hin
  have := hy.prefix g6 (by simpa using hl)
  rw [List.length_map, ← List.map_take] at this
  have := List.map_injective_iff.2 (fun a b h => Except.ok.inj h) this
  obtain ⟨more, hmore⟩ := hsent
  rw [← hmore, List.take_append_of_le_length hl]
  exact this

/-- **C135.** Such sessions come about, with any number of events taken. -/
theorem C135_session (m : Mode) (c : Crypto) (client : Client) (chan : Channel) (hu : Usable c client.options)
    (hw : chan.writes = []) (checksum : ChecksumType) (bytes : Bytes) (hin : LetsIn c client.options True none checksum bytes)
    (list : GtidList) (hs : client.options.binlog.startingStrategy = .fromGtid) (hlist : client.options.binlog.gtidList = some list)
    (log : List MGtid) (parts : List (Part MGtid)) (hp : ∀ p ∈ parts, p.Ok MariaTx)
    (hlog : parts.flatMap Part.gtids = toSend list.gtids log)
    (slices : List Bytes) (st : LogState) (hbytes : LogOf (.start checksum) (flat parts) slices st)
    (hsize : ∀ x ∈ slices, x.length < 2 ^ 24 - 20) (n : Nat) (rest : Bytes)
    (hi : chan.input = bytes ++ frames (eventPackets n (flat parts) slices) ++ rest) :
    ∃ stream, client.replicate m c (.ok chan) = (.ok stream, client.afresh) ∧
      (∀ k ≤ (flat parts).length, SparseSession m log stream (firstAndLastOf k parts) (finished k parts)) ∧
      finished (flat parts).length parts = toSend list.gtids log := by
  obtain ⟨stream, front, cmd, h1, h2, h3, h4, h5, h6⟩ := maria_asks m c client chan hu hw checksum bytes _ hin list hs hlist
    (by rw [hi, List.append_assoc])
  refine ⟨stream, h1, fun k hk => ?_, ?_⟩
  · have hb : LogOf (.start stream.parser.checksumType) (flat parts) slices st := by rw [h6]; exact hbytes
    obtain ⟨stream', h7, -, -⟩ := Knows.stream hbytes m stream (by rw [h6]; exact Knows.start checksum) n rest hsize h5
    obtain ⟨stream1, h8⟩ := h7.take k
    rw [← List.map_take] at h8
    have hlen : ((flat parts).take k).length = k := by rw [List.length_take, Nat.min_eq_left hk]
    exact .mk h2 h3 h4 hp hlog List.prefix_rfl hb hsize h5 h8 (by simp) (by rw [hlen]) (by rw [hlen])
  · rw [finished_all parts _ (Nat.le_refl _), hlog]

/-- The hypotheses of C135 are met, by the transaction of `C104_false`: the application stops behind the statement, having committed the GTID event only.
The second session brings the transaction. -/
example (m : Mode) : (∃ c', SparseSessions m exListUser (exMariaLog.take 3) [[], [⟨0, 1, 271⟩]] c' (exMariaLog.take 3)) ∧
    exListUser.options.binlog.startingStrategy = .fromGtid ∧ exListUser.options.binlog.gtidList = some exList ∧
    exListUser.options.binlog.gtidSet = none ∧ (exList.gtids.map (·.domainId)).Nodup ∧ (exMariaLog.take 3).Nodup ∧
    toSend exList.gtids (exMariaLog.take 3) = [⟨0, 1, 271⟩] ∧ ¬ NoStatementBefore exStatementTx.events := by
  refine ⟨?_, rfl, rfl, rfl, by decide, by decide, by decide, ?_⟩
  · have ok : ∀ p ∈ [exStatementTx], p.Ok MariaTx := by
      intro p hp
      rw [List.mem_singleton.1 hp]
      exact MariaTx.block (x := ⟨⟨0, 1, 271⟩, 0⟩) (body := [(exTyped 2, exQuery "INSERT")]) rfl (by simp [Inside, IsGtid, Spec.Ends, exQuery]) trivial
    obtain ⟨slices, st, hwritten, hsize⟩ : ∃ slices st, LogOf (.start .crc32) (flat [exStatementTx]) slices st ∧
        ∀ x ∈ slices, x.length < 2 ^ 24 - 20 :=
      ⟨_, _, .cons (by unfold HeaderFits; decide) (exMariaTx_written _ rfl 0 271 (by decide) (by decide)).1
        (.cons (by unfold HeaderFits; decide) (exQuery_written _ _)
        (.cons (by unfold HeaderFits; decide) (exMariaTx_written _ rfl 0 271 (by decide) (by decide)).2 .nil)), by decide +kernel⟩
    obtain ⟨stream, h3, h4, -⟩ := C135_session m exCrypto exListUser { exChannel [] with input := _ } exListUser_usable rfl .crc32 _
      (exListUser_in _ rfl) exList rfl rfl (exMariaLog.take 3) [exStatementTx] ok (by decide) _ _ hwritten hsize 1 [] rfl
    have hc : ∀ m, commitAll m exListUser.afresh (firstAndLastOf 2 [exStatementTx]) = .ok { exListUser with
        mariaGtid := some ⟨0, 1, 271⟩,
        options := { exListUser.options with binlog := { exListUser.options.binlog with position := 500 } } } := by
      rintro ⟨_ | _⟩ <;> decide +kernel
    have hu : Usable exCrypto { exListUser.options with binlog := { exListUser.options.binlog with position := 500 } } :=
      ⟨exSmall _, ⟨by decide, by decide, by decide, (fun g h => by cases h), (fun g h => by cases h; decide +kernel), by decide⟩, rfl⟩
    obtain ⟨stream2, g3, g4, -⟩ := C135_session m exCrypto { exListUser with
        mariaGtid := some ⟨0, 1, 271⟩,
        options := { exListUser.options with binlog := { exListUser.options.binlog with position := 500 } } } { exChannel [] with input := _ } hu rfl .crc32 _
      (exListUser_in _ rfl) exList rfl rfl (exMariaLog.take 3) [exStatementTx] ok (by decide) _ _ hwritten hsize 1 [] rfl
    have hc3 : ∀ m, ∃ c3, commitAll m { exListUser with
        options := { exListUser.options with binlog := { exListUser.options.binlog with position := 500 } } }
        (firstAndLastOf 3 [exStatementTx]) = .ok c3 := by
      rintro ⟨_ | _⟩ <;> exact ⟨_, by with_unfolding_all rfl⟩
    obtain ⟨c3, hc3⟩ := hc3 m
    exact ⟨c3, .session (small_fits exListUser_usable.requests) h3 (h4 2 (by decide)) (hc m)
      (.session (small_fits hu.requests) g3 (g4 3 (by decide)) hc3 .stop)⟩
  · intro h
    exact (h (exTyped 2, exQuery "INSERT") (by simp [exStatementTx, Part.events])).1 (by simp [AutoCommits, exQuery])

end MysqlCdc
