import Verif.Props.DumpRequest
/-!
# C61, C62: which requests are sent, and the timeout
-/

namespace MysqlCdc

open Spec

/-! ## C61: whether the position is asked for -/

/-- No packet with the payload `X` was sent in between. -/
def NotSent (X : Bytes) (s s' : Sess) : Prop := ∃ t, s'.chan.trace = s.chan.trace ++ t ∧ ∀ x ∈ sentOf t, x.1 ≠ X

theorem notSent_preorder (X : Bytes) : Preorder' (NotSent X) where
  refl s := ⟨[], by simp, by simp [sentOf]⟩
  trans := by
    rintro a b c ⟨t, h1, h2⟩ ⟨t', h3, h4⟩
    refine ⟨t ++ t', by rw [h3, h1, List.append_assoc], fun x hx => ?_⟩
    rw [sentOf_append, List.mem_append] at hx
    exact hx.elim (h2 x) (h4 x)

section
variable {X : Bytes}

theorem notSent_read : SRel (NotSent X) S.readPacket := by
  intro s
  rcases h : S.readPacket s with ⟨r, s'⟩
  cases r with
  | ok x => exact ⟨_, (read_ok h).2, by simp [sentOf]⟩
  | err e => exact ⟨[], by simpa using (read_fail h (by simp)).2, by simp [sentOf]⟩
  | panic => exact ⟨[], by simpa using (read_fail h (by simp)).2, by simp [sentOf]⟩
  | hang => exact ⟨[], by simpa using (read_fail h (by simp)).2, by simp [sentOf]⟩

theorem notSent_write {p : Bytes} {k : Nat} (h : p ≠ X) : SRel (NotSent X) (S.writePacket p k) :=
  fun s => ⟨_, (write_trace s p k).2, by simp [sentOf, h]⟩

end

theorem notSent_frame (X : Bytes) : ReadFrame (NotSent X) where
  toPreorder' := notSent_preorder X
  read := notSent_read

theorem queryCommand_ne {s t : RStr} (h : s ≠ t) : queryCommand s ≠ queryCommand t := by
  intro he
  exact h (utf8Bytes_inj (List.append_cancel_left he))

theorem head_ne {a b : Bytes} (h : a.head? ≠ b.head?) : a ≠ b := fun he => h (by rw [he])

theorem notSent_simpleQuery {X : Bytes} {sql : RStr} {message : String} (h : queryCommand sql ≠ X) :
    SRel (NotSent X) (simpleQuery sql message) := by
  have hP := notSent_preorder X
  exact .bind hP (notSent_write h) fun _ => .bind hP notSent_read fun _ => .lift hP _

/-- C61. When the position is known (another strategy than `from_end`, or a file name recorded), no request of the set-up asks for the
position of the server, whatever the server does: after the packets of the connection phase, which are replies, no packet sent is
the query `show master status`. -/
theorem C61_not_asked (m : Mode) (c : Crypto) (s : Sess)
    (h : s.client.options.binlog.startingStrategy ≠ .fromEnd ∨ s.client.options.binlog.filename ≠ []) (request : Bytes)
    (hq : QueryPacket "show master status".toList request) :
    ∃ t t', (setUp m c s).2.chan.trace = s.chan.trace ++ t ++ t' ∧ Replies t ∧ ∀ x ∈ sentOf t', x.1 ≠ request := by
  have hX : request = queryCommand "show master status".toList := hq
  subst hX
  have hP := notSent_preorder (queryCommand "show master status".toList)
  have hF := notSent_frame (queryCommand "show master status".toList)
  obtain ⟨t, ht, hr⟩ := C63_handshake_sequence_numbers m c s
  have hc := frame_client.connect m c s
  unfold setUp
  rw [S.bind_eq]
  rcases hcon : connect m c s with ⟨r, s1⟩
  rw [hcon] at ht hc
  simp only at ht hc
  have stop : ∃ t t', s1.chan.trace = s.chan.trace ++ t ++ t' ∧ Replies t ∧
      ∀ x ∈ sentOf t', x.1 ≠ queryCommand "show master status".toList := ⟨t, [], by simpa using ht, hr, by simp [sentOf]⟩
  cases r with
  | ok p =>
    simp only
    suffices H : NotSent (queryCommand "show master status".toList) s1 _ by
      obtain ⟨t', h1, h2⟩ := H
      exact ⟨t, t', by rw [h1, ht], hr, h2⟩
    rw [S.bind_eq]
    simp only [resetOnReconnect]
    rw [S.bind_eq, C61_known_position_kept _ (by simpa only [hc] using h)]
    simp only
    refine hP.trans ⟨[], by simp, by simp [sentOf]⟩ ((?_ : SRel _ _) _)
    have hdump : ∀ id f p, dumpBinlogCommand id f p ≠ queryCommand "show master status".toList :=
      fun id f p => head_ne (by simp [dumpBinlogCommand, queryCommand, leBytes, COM_BINLOG_DUMP, COM_QUERY])
    refine .bind hP ?_ fun _ => .bind hP ?_ fun _ => .bind hP (.client hP) fun self => ?_
    · refine .bind hP (.client hP) fun _ => .bind hP (notSent_write (queryCommand_ne ?_)) fun _ => .bind hP hF.read fun _ => .lift hP _
      simp
    · exact .bind hP (notSent_write (queryCommand_ne (by decide))) fun _ => .bind hP hF.read fun _ => .bind hP (.lift hP _) fun _ =>
        .bind hP (notSent_write (queryCommand_ne (by decide))) fun _ => .bind hP hF.readResultSet fun _ => .bind hP (.lift hP _) fun _ =>
        .lift hP _
    · cases p
      · refine .bind hP ?_ fun _ => .pure hP _
        refine .bind hP (notSent_simpleQuery (queryCommand_ne (by decide))) fun _ => .bind hP (.client hP) fun self => ?_
        dsimp only
        split
        · split
          · refine .bind hP ?_ fun _ => notSent_write (hdump _ _ _)
            refine .bind hP (notSent_simpleQuery (queryCommand_ne ?_)) fun _ =>
              .bind hP (notSent_simpleQuery (queryCommand_ne (by decide))) fun _ =>
              .bind hP (notSent_simpleQuery (queryCommand_ne (by decide))) fun _ =>
              .bind hP (notSent_write (head_ne ?_)) fun _ => .bind hP hF.read fun _ => .lift hP _
            · simp
            · simp [registerSlaveCommand, queryCommand, leBytes, COM_REGISTER_SLAVE, COM_QUERY]
          · exact .fail hP _
        · exact notSent_write (hdump _ _ _)
      · refine .bind hP ?_ fun _ => .pure hP _
        refine .bind hP (.client hP) fun self => ?_
        dsimp only
        split
        · split
          · intro s3
            rw [S.bind_eq]
            simp only [S.lift]
            cases hcmd : dumpBinlogGtidCommand m _ self.options.binlog.filename self.options.binlog.position _ with
            | ok cmd =>
              refine notSent_write (head_ne ?_) s3
              unfold dumpBinlogGtidCommand at hcmd
              simp only at hcmd
              revert hcmd
              cases dumpUuidSets m _ with
              | ok body =>
                intro hcmd
                have : cmd = _ := (Res.ok.inj hcmd).symm
                rw [this]
                simp [queryCommand, leBytes, COM_BINLOG_DUMP_GTID, COM_QUERY]
              | err e => intro h; cases h
              | panic => intro h; cases h
              | hang => intro h; cases h
            | err e => exact hP.refl _
            | panic => exact hP.refl _
            | hang => exact hP.refl _
          · exact .fail hP _
        · exact notSent_write (hdump _ _ _)
  | err e => exact stop
  | panic => exact stop
  | hang => exact stop

/-- Connecting again with a recorded position: five requests after the login, and the query is not among them. -/
example (m : Mode) : (exUser (BinlogOptions.fromPosition "bin.000003".toList 157)).options.binlog.filename ≠ [] ∧
    (setUp m exCrypto ⟨exUser (BinlogOptions.fromPosition "bin.000003".toList 157),
      exChannel (exLogin "8.0.30" ++ exConfigured)⟩).1 = .ok .crc32 := by
  revert m
  rintro ⟨_ | _⟩ <;> decide +kernel

/-- A first connection with `from_end`: the position of the server is asked for and recorded. From then on `C61_resumes` applies. -/
example (m : Mode) :
    let r := (exUser BinlogOptions.fromEnd).replicate m exCrypto
      (.ok (exChannel (exLogin "8.0.30" ++ exResult ["bin.000003", "157"] ++ exConfigured)))
    r.2.options.binlog.filename = "bin.000003".toList ∧ r.2.options.binlog.position = 157 ∧
      Uses m exCrypto (exUser BinlogOptions.fromEnd) r.2 := by
  refine ⟨?_, ?_, .replicate _ (.none _)⟩
  · revert m
    rintro ⟨_ | _⟩ <;> decide +kernel
  · revert m
    rintro ⟨_ | _⟩ <;> decide +kernel

/-- The step of set-up itself. -/
example : (adjustStartingPosition ⟨exUser BinlogOptions.fromEnd, exChannel (exResult ["bin.000003", "157"])⟩).1 = .ok () := by
  decide +kernel

/-! ## C62 -/

/-- A session's timeout is set when the connection is opened. -/
theorem frame_timeout : Frame fun s s' => s'.chan.readTimeout = s.chan.readTimeout where
  refl _ := rfl
  trans h1 h2 := h2.trans h1
  read s := by
    show (s.chan.readPacket).2.readTimeout = _
    rcases hr : s.chan.readPacket with ⟨r, ch⟩
    cases r with
    | ok x => obtain ⟨-, -, rest, -, rfl⟩ := readPacket_inv hr; rfl
    | err e => obtain ⟨-, rfl⟩ := readPacket_fail hr (by simp); rfl
    | panic => obtain ⟨-, rfl⟩ := readPacket_fail hr (by simp); rfl
    | hang => obtain ⟨-, rfl⟩ := readPacket_fail hr (by simp); rfl
  write p n s := by
    obtain ⟨out, ws, hw⟩ := writePacket_frame s.chan p n
    show (s.chan.writePacket p n).2.readTimeout = _
    rw [hw]

theorem fullFrame_timeout : FullFrame fun s s' => s'.chan.readTimeout = s.chan.readTimeout where
  toFrame := frame_timeout
  reset _ := rfl
  adjust := frame_timeout.adjustStartingPosition fun _ _ _ => rfl

theorem frame_interval : Frame fun s s' => s'.client.options.heartbeatInterval = s.client.options.heartbeatInterval where
  refl _ := rfl
  trans h1 h2 := h2.trans h1
  read _ := rfl
  write _ _ _ := rfl

/-- Asking for the heartbeat, as a packet. -/
theorem heartbeat_ok {s s' : Sess} {u : Unit} (h : setMasterHeartbeat s = (.ok u, s')) :
    ∃ t, s'.chan.trace = s.chan.trace ++ .sent 0 (queryCommand ("set @master_heartbeat_period=".toList ++
      showNat (s.client.options.heartbeatInterval / 10 ^ 6 * 1000 * 1000))) :: t := by
  unfold setMasterHeartbeat at h
  obtain ⟨self, s0, h3, h4⟩ := S.bind_ok h
  simp only [S.client, Prod.mk.injEq, Res.ok.injEq] at h3
  obtain ⟨rfl, rfl⟩ := h3
  obtain ⟨_, s1, h5, h6⟩ := S.bind_ok h4
  obtain ⟨-, b1⟩ := write_ok h5
  obtain ⟨x, s2, h7, h8⟩ := S.bind_ok h6
  obtain ⟨-, b2⟩ := read_ok h7
  obtain ⟨-, rfl⟩ := lift_ok h8
  exact ⟨[.received x.2 x.1], by rw [b2, b1]; simp⟩

theorem ite_ok {α : Type} {p : Prop} [Decidable p] {a t : α} (h : (if p then Res.ok a else .panic) = .ok t) : a = t := by
  split at h
  · exact Res.ok.inj h
  · cases h

theorem readTimeoutOf_ok {o : ReplicaOptions} {t : Nat} (h : readTimeoutOf o = .ok t) :
    o.heartbeatInterval + TIMEOUT_LATENCY_DELTA = t := ite_ok h

theorem withTimeout_ok {r : Res Nat} {net chan : Channel} (h : net.withTimeout r = .ok chan) :
    ∃ t, r = .ok t ∧ chan = { net with readTimeout := t } := by
  unfold Channel.withTimeout at h
  cases r with
  | ok t =>
    simp only [Res.ok.injEq] at h
    exact ⟨t, rfl, h.symm⟩
  | err e => simp at h
  | panic => simp at h
  | hang => simp at h

theorem delta_eq : TIMEOUT_LATENCY_DELTA = 10 * 10 ^ 9 := rfl

theorem open_eq (o : ReplicaOptions) (net : Channel) : Channel.open o (.ok net) = net.withTimeout (readTimeoutOf o) := rfl

/-- What opening a connection gives. -/
theorem open_ok {o : ReplicaOptions} {net chan : Channel} (h : Channel.open o (.ok net) = .ok chan) :
    chan.trace = net.trace ∧ chan.readTimeout = o.heartbeatInterval + 10 * 10 ^ 9 := by
  rw [open_eq] at h
  obtain ⟨t, h1, rfl⟩ := withTimeout_ok h
  rw [← delta_eq]
  exact ⟨rfl, (readTimeoutOf_ok h1).symm⟩

/-- A successful `replicate` is a successful set-up on a new connection. -/
theorem replicate_ok {m : Mode} {cr : Crypto} {c : Client} {net : Except IoKind Channel} {events : BinlogEvents}
    (h : (c.replicate m cr net).1 = .ok events) : ∃ chan checksum s', Channel.open c.options net = .ok chan ∧
      setUp m cr ⟨c, chan⟩ = (.ok checksum, s') ∧ events = BinlogEvents.new s'.chan checksum := by
  unfold Client.replicate at h
  revert h
  generalize Channel.open c.options net = o
  intro h
  cases o with
  | ok chan =>
    simp only at h
    rcases hs : setUp m cr ⟨c, chan⟩ with ⟨r, s'⟩
    rw [hs] at h
    cases r with
    | ok checksum =>
      simp only [Res.ok.injEq] at h
      exact ⟨chan, checksum, s', rfl, hs, h.symm⟩
    | err e => simp at h
    | panic => simp at h
    | hang => simp at h
  | err e => simp at h
  | panic => simp at h
  | hang => simp at h

/-- A successful set-up has sent the heartbeat request. -/
theorem setUp_heartbeat {m : Mode} {cr : Crypto} {s s' : Sess} {checksum : ChecksumType} (hs : setUp m cr s = (.ok checksum, s')) :
    ∃ t t', s'.chan.trace = s.chan.trace ++ t ++ .sent 0 (queryCommand ("set @master_heartbeat_period=".toList ++
      showNat (s.client.options.heartbeatInterval / 10 ^ 6 * 1000 * 1000))) :: t' := by
  unfold setUp at hs
  obtain ⟨provider, s1, h1, h2⟩ := S.bind_ok hs
  have g1 := frame_grows.connect m cr s
  have i1 := frame_interval.connect m cr s
  rw [h1] at g1 i1
  obtain ⟨_, s2, h3, h4⟩ := S.bind_ok h2
  have g2 := fullFrame_grows.reset s1
  have i2 : s2.client.options.heartbeatInterval = s1.client.options.heartbeatInterval := by
    simp only [resetOnReconnect, Prod.mk.injEq] at h3
    rw [← h3.2]
  rw [h3] at g2
  obtain ⟨_, s3, h5, h6⟩ := S.bind_ok h4
  have g3 := fullFrame_grows.adjust s2
  have i3 := frame_interval.adjustStartingPosition (fun _ _ _ => rfl) s2
  rw [h5] at g3 i3
  obtain ⟨_, s4, h7, h8⟩ := S.bind_ok h6
  obtain ⟨t1, ht1⟩ := heartbeat_ok h7
  simp only at i1 i3
  rw [i3, i2, i1] at ht1
  have g4 : Grows s4 s' := by
    obtain ⟨checksum', s5, h9, h10⟩ := S.bind_ok h8
    have g4 := frame_grows.setMasterBinlogChecksum s4
    rw [h9] at g4
    obtain ⟨self, s6, h11, h12⟩ := S.bind_ok h10
    simp only [S.client, Prod.mk.injEq, Res.ok.injEq] at h11
    obtain ⟨rfl, rfl⟩ := h11
    refine g4.trans ?_
    cases provider with
    | mariaDB =>
      obtain ⟨_, s7, h13, h14⟩ := S.bind_ok h12
      have g := frame_grows.replicateMariadb (if s5.client.options.blocking then s5.client.options.serverId else 0) s5
      rw [h13] at g
      cases h14
      exact g
    | mySQL =>
      obtain ⟨_, s7, h13, h14⟩ := S.bind_ok h12
      have g := frame_grows.replicateMysql m (if s5.client.options.blocking then s5.client.options.serverId else 0) s5
      rw [h13] at g
      cases h14
      exact g
  obtain ⟨t0, ht0⟩ := (g1.trans g2).trans g3
  obtain ⟨t2, ht2⟩ := g4
  simp only at ht0
  refine ⟨t0, t1 ++ t2, ?_⟩
  rw [← ht2, ht1, ← ht0]
  simp only [List.append_assoc, List.cons_append]

/-- C62. When `replicate` succeeds, it has asked the server for heartbeats with a period `n` in nanoseconds, which is the configured
interval rounded down to milliseconds, and reads time out after the interval plus ten seconds. So the timeout is longer than the
period by at least ten seconds; but see `C62_false`. -/
theorem C62_heartbeat_and_timeout_partial (m : Mode) (cr : Crypto) (c : Client) (net : Channel) (events : BinlogEvents)
    (h : (c.replicate m cr (.ok net)).1 = .ok events) :
    ∃ t request n digits, events.channel.trace = net.trace ++ t ∧ Packet.sent 0 request ∈ t ∧
      QueryPacket ("set @master_heartbeat_period=".toList ++ digits) request ∧ Decimal n digits ∧
      n ≤ c.options.heartbeatInterval ∧ c.options.heartbeatInterval < n + 10 ^ 6 ∧
      (10 ^ 6 ∣ c.options.heartbeatInterval → n = c.options.heartbeatInterval) ∧
      events.channel.readTimeout = c.options.heartbeatInterval + 10 * 10 ^ 9 := by
  obtain ⟨chan, checksum, s', ho, hs, rfl⟩ := replicate_ok h
  have hopen := open_ok ho
  have htime := fullFrame_timeout.setUp m cr ⟨c, chan⟩
  rw [hs] at htime
  obtain ⟨t, t', ht⟩ := setUp_heartbeat hs
  simp only at ht htime
  rw [hopen.1] at ht
  rw [hopen.2] at htime
  obtain ⟨n, hn⟩ : ∃ n, n = c.options.heartbeatInterval / 10 ^ 6 * 1000 * 1000 := ⟨_, rfl⟩
  rw [← hn, List.append_assoc] at ht
  exact ⟨_, _, n, _, ht, by simp, C55_query _, decimal_showNat n, by omega, by omega, fun hd => by omega, htime⟩

/-- With the default interval of 30 seconds. -/
example (m : Mode) : (match (exUser (BinlogOptions.fromPosition "bin.000003".toList 157)).replicate m exCrypto
      (.ok (exChannel (exLogin "8.0.30" ++ exConfigured))) with
    | (.ok e, _) => e.channel.readTimeout == 40 * 10 ^ 9 &&
        e.channel.trace.contains (.sent 0 (3 :: utf8Bytes "set @master_heartbeat_period=30000000000".toList))
    | _ => false) = true := by
  revert m
  rintro ⟨_ | _⟩ <;> decide +kernel

/-- C62 does not hold of the code: an interval below a millisecond (here 999999 ns) is sent as the period 0, which asks the server for
no heartbeats at all; an idle server then runs into the timeout. -/
theorem C62_false (m : Mode) :
    let user := exUser (BinlogOptions.fromPosition "bin.000003".toList 157)
    let c := { user with options := { user.options with heartbeatInterval := 999999 } }
    (match c.replicate m exCrypto (.ok (exChannel (exLogin "8.0.30" ++ exConfigured))) with
    | (.ok e, _) => e.channel.trace.contains (.sent 0 (3 :: utf8Bytes "set @master_heartbeat_period=0".toList))
    | _ => false) = true := by
  revert m
  rintro ⟨_ | _⟩ <;> decide +kernel

theorem replicate_open_panic {m : Mode} {cr : Crypto} {c : Client} {net : Except IoKind Channel}
    (h : Channel.open c.options net = .panic) : c.replicate m cr net = (.panic, c) := by
  unfold Client.replicate
  revert h
  generalize Channel.open c.options net = o
  rintro rfl
  rfl

/-- And an interval within ten seconds of the largest `Duration` makes `replicate` panic. -/
theorem C62_longest_interval_panics (m : Mode) (cr : Crypto) (c : Client) (net : Channel)
    (h : 2 ^ 64 * 10 ^ 9 ≤ c.options.heartbeatInterval + 10 * 10 ^ 9) : c.replicate m cr (.ok net) = (.panic, c) := by
  have h1 : readTimeoutOf c.options = .panic := by
    unfold readTimeoutOf
    rw [if_neg]
    rw [delta_eq]
    omega
  exact replicate_open_panic ((open_eq c.options net).trans (by rw [h1, Channel.withTimeout]))

/-- The longest duration there is. -/
example : 2 ^ 64 * 10 ^ 9 ≤ (2 ^ 64 * 10 ^ 9 - 1) + 10 * 10 ^ 9 := by omega

end MysqlCdc
