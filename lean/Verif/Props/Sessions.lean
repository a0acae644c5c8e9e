import Verif.Spec.Sessions
import Verif.Props.Dialogue
import Verif.Props.Endings
import Verif.Props.EndToEnd
import Verif.Props.Iteration
import Verif.Props.Recorded
/-!
# Whole sessions with any server: `replicate`, iterating, `commit`, and `replicate` again (C90, C91)
-/

namespace MysqlCdc

open Spec

/-! ## C90 -/

/-- **C90.** A session in which `replicate` succeeds and the stream is iterated over: the server first held a complete conversation, and
the items are those of the packets that follow it. -/
theorem C90_session_sound (m : Mode) (c : Crypto) (client client' : Client) (chan : Channel) (hf : FitsRequests client.options)
    {stream : BinlogEvents} {items : List Item} {halt : Halt}
    (h : client.replicate m c (.ok chan) = (.ok stream, client')) (hi : Iterates (BinlogEvents.next m) stream items halt) :
    ∃ t maria place checksum rest, Spec.At m c client.options (.asked ⟨maria, place, some checksum⟩ .dump) t ∧
      chan.input = frames (receivedOf t) ++ rest ∧ (∀ x ∈ receivedOf t, Framable x) ∧ (∀ x ∈ sentOf t, Sendable x.1) ∧
      (∃ wire ws', Carries chan.writes (sentOf t) wire ws' ∧ stream.channel.output = chan.output ++ wire) ∧ stream.channel.trace = chan.trace ++ t ∧ client' = restarted client place ∧
      LiveRun m (chan.ending, chan.later) (.start checksum) rest items halt := by
  obtain ⟨chan1, checksum, s', h1, h2, h3⟩ := replicate_ok (by rw [h])
  have h4 := replicate_of h1 h2
  rw [h] at h4
  obtain ⟨rt, hch⟩ : ∃ rt, chan1 = { chan with readTimeout := rt } := by
    rw [open_eq] at h1
    revert h1
    generalize readTimeoutOf client.options = r
    intro h1
    cases r with
    | ok v => exact ⟨_, (Res.ok.inj h1).symm⟩
    | _ => cases h1
  subst hch
  have h5 := C95_total m c ⟨client, { chan with readTimeout := rt }⟩ hf
  rw [h2] at h5
  generalize hx : (Res.ok checksum, s') = x at h5
  cases h5 with
  | @done t maria place ck rest wire ws' g1 g2 g3 g4 g5 =>
    obtain ⟨ga, gb⟩ := Prod.mk.inj hx
    obtain rfl := Res.ok.inj ga
    subst gb
    subst h3
    refine ⟨t, maria, place, checksum, rest, g1, g2, g3, g4, ⟨wire, ws', g5, rfl⟩, rfl, (Prod.mk.inj h4).2, ?_⟩
    exact C89_live_sound hi
  | @stops _ _ _ _ _ _ e _ _ _ _ _ _ _ he =>
    obtain ⟨ga, -⟩ := Prod.mk.inj hx
    subst ga
    cases e with
    | malformed => obtain ⟨_, g5, _⟩ := he; cases g5
    | _ => cases he
  | breaks => exact absurd (Prod.mk.inj hx).1 (by simp)

/-- **C90.** With a server that holds such a conversation and a connection that takes something of every packet, `replicate` succeeds, and the
stream gives the items of the packets that follow. -/
theorem C90_session_complete (m : Mode) (c : Crypto) (client : Client) (chan : Channel)
    (hh : client.options.heartbeatInterval < 2 ^ 64 * 10 ^ 9 - 10 * 10 ^ 9) (t : List Packet) (rest : Bytes) (maria : Bool)
    (place : RStr × Nat) (checksum : ChecksumType) (items : List Item) (halt : Halt)
    (ht : Spec.At m c client.options (.asked ⟨maria, place, some checksum⟩ .dump) t) (hi : chan.input = frames (receivedOf t) ++ rest)
    (hr : ∀ x ∈ receivedOf t, Framable x) (hs : ∀ x ∈ sentOf t, Sendable x.1) (hrun : LiveRun m (chan.ending, chan.later) (.start checksum) rest items halt)
    {wire : Bytes} {ws' : List WriteStep} (hc : Carries chan.writes (sentOf t) wire ws') :
    ∃ stream items', client.replicate m c (.ok chan) = (.ok stream, restarted client place) ∧
      stream.channel.output = chan.output ++ wire ∧ stream.channel.trace = chan.trace ++ t ∧
      Iterates (BinlogEvents.next m) stream items' halt ∧
      List.Forall₂ SameItem items items' := by
  obtain ⟨rt, ho⟩ := open_succeeds hh chan
  have h := reached (c0 := client) (ch := { chan with readTimeout := rt }) rfl ht hr (sends_carries hc { chan with readTimeout := rt } rfl hs).1 rest
  have h0 : after client { chan with readTimeout := rt } (frames (receivedOf t) ++ rest) .start [] = ⟨client, { chan with readTimeout := rt }⟩ := by
    unfold after
    rw [← hi]
    simp [sentOf, Stage.client, Channel.sends]
  rw [h0] at h
  have h2 : setUp m c ⟨client, { chan with readTimeout := rt }⟩ = (.ok checksum, ⟨restarted client place,
      { chan with readTimeout := rt, input := rest, output := chan.output ++ wire, writes := ws', trace := chan.trace ++ t }⟩) := by
    rw [h, after_carries (ch := { chan with readTimeout := rt }) hc hs]; rfl
  have h3 := replicate_of ho h2
  obtain ⟨items', g1, g2⟩ := C89_live_complete (ch := { chan with readTimeout := rt, input := rest, output := chan.output ++ wire, writes := ws', trace := chan.trace ++ t }) hrun
  exact ⟨_, items', h3, rfl, rfl, g1, g2⟩

/-! ## What a conversation says -/

section

variable {m : Mode} {c : Crypto} {o : ReplicaOptions}

/-- What is known about the server at a stage, if anything. -/
def Spec.Stage.known : Stage → Option Known'
  | .ready i _ | .asked i _ | .columns i _ | .rows i _ _ | .result i _ _ => some i
  | _ => none

/-- The request at a stage, if any. -/
def Spec.Stage.request : Stage → Option Request
  | .ready _ r => r
  | .asked _ r | .columns _ r | .rows _ r _ | .result _ r _ => some r
  | _ => none

/-- The greeting at a stage of the log-in. -/
def Spec.Stage.greeting : Stage → Option HandshakePacket
  | .greeted g _ | .responded g | .switching g _ _ | .switched g _ | .sha2 g _ _ _ | .keyAsked g _ | .keyed g _ _ | .proved g | .loggedIn g => some g
  | _ => none

theorem Spec.GreetedBy.append {t t' : List Packet} {maria : Bool} (h : GreetedBy t maria) : GreetedBy (t ++ t') maria := by
  obtain ⟨n, q, g, rest, rfl, h⟩ := h
  exact ⟨n, q, g, rest ++ t', rfl, h⟩

theorem at_greeting {st : Stage} {t : List Packet} (h : Spec.At m c o st t) :
    (∀ g, st.greeting = some g → ∃ n q rest, t = .received n q :: rest ∧ LooseGreeting g q) ∧ ∀ i, st.known = some i → GreetedBy t i.maria := by
  have grow : ∀ {t : List Packet} {x : Packet} {g : HandshakePacket}, (∃ n q rest, t = .received n q :: rest ∧ LooseGreeting g q) →
      ∃ n q rest, t ++ [x] = .received n q :: rest ∧ LooseGreeting g q := by
    rintro t x g ⟨n, q, rest, rfl, h⟩
    exact ⟨n, q, rest ++ [x], rfl, h⟩
  induction h with
  | start => simp [Stage.greeting, Stage.known]
  | greeting he hg hm hk =>
    simp only [Stage.greeting, Stage.known, Option.some.injEq]
    exact ⟨by rintro _ rfl; exact ⟨_, _, _, rfl, hg⟩, by simp⟩
  | encrypt => simp [Stage.greeting, Stage.known]
  | fast ht ih => exact ih
  | @login t g maria ht hm ih =>
    simp only [Stage.greeting, Stage.known, Option.some.injEq]
    refine ⟨by simp, ?_⟩
    rintro _ rfl
    obtain ⟨n, q, rest, rfl, h⟩ := ih.1 g rfl
    exact ⟨n, q, g, rest, rfl, h, hm⟩
  | @«end» t i file text more position ht hp ih =>
    refine ⟨by simp [Stage.greeting], ?_⟩
    rintro _ ⟨⟩
    exact ih.2 i rfl
  | @checksum t i name more rs checksum ht hc ih =>
    refine ⟨by simp [Stage.greeting], ?_⟩
    rintro _ ⟨⟩
    exact ih.2 i rfl
  | ask ht ho hp ih | answered ht hr hd he ih | count ht hr he ih | column ht hn he ih | columnsEnd ht he ih | row ht he hn hc ih | rowsEnd ht he ih =>
    refine ⟨by simp [Stage.greeting], ?_⟩
    rintro _ ⟨⟩
    exact (ih.2 _ rfl).append
  | _ =>
    rename_i ih
    refine ⟨?_, by simp [Stage.known]⟩
    intro g hg
    exact grow (ih.1 g hg)

/-- Unless the client asks for the end of the log, it reads from the recorded place. -/
theorem at_recorded {st : Stage} {t : List Packet} (h : Spec.At m c o st t) (hn : ¬wantsEnd o) :
    ∀ i, st.known = some i → i.place = (o.binlog.filename, o.binlog.position) ∧ st.request ≠ some .status := by
  induction h with
  | login => rintro _ ⟨⟩; exact ⟨rfl, by simp [Stage.request]⟩
  | ask ht ho hp ih =>
    rintro _ ⟨⟩
    refine ⟨(ih _ rfl).1, ?_⟩
    cases ho with
    | status h => exact absurd h hn
    | _ => simp [Stage.request]
  | «end» ht hp ih => exact absurd rfl (ih _ rfl).2
  | checksum ht hc ih => rintro _ ⟨⟩; exact ⟨(ih _ rfl).1, by simp [Stage.request]⟩
  | answered ht hr hd he ih | count ht hr he ih | column ht hn he ih | columnsEnd ht he ih | row ht he hn hc ih | rowsEnd ht he ih =>
    rintro _ ⟨⟩
    exact ih _ rfl
  | fast ht ih => exact ih
  | _ => rintro _ ⟨⟩

/-- A MariaDB is told the GTID list before the requests that come after that. -/
theorem at_connectState {st : Stage} {t : List Packet} (h : Spec.At m c o st t) (hs : o.binlog.startingStrategy = .fromGtid) :
    ∀ i, st.known = some i → (∃ r, st.request = some r ∧ (r = .connectState ∨ r = .strict ∨ r = .duplicates ∨ r = .register ∨ r = .dump ∧ i.maria = true)) →
      ∃ p l, Packet.sent 0 p ∈ t ∧ o.binlog.gtidList = some l ∧
        QueryPacket ("SET @slave_connect_state='".toList ++ [','].intercalate (l.gtids.map gtidNumeral) ++ "'".toList) p := by
  induction h with
  | @ask t i last r p ht ho hp ih =>
    rintro _ ⟨⟩ ⟨r', hr', hr⟩
    obtain rfl : r = r' := Option.some.inj hr'
    have old : (∃ r, (Stage.ready i last).request = some r ∧ (r = .connectState ∨ r = .strict ∨ r = .duplicates ∨ r = .register ∨ r = .dump ∧ i.maria = true)) →
        ∃ p' l, Packet.sent 0 p' ∈ t ++ [.sent 0 p] ∧ o.binlog.gtidList = some l ∧
          QueryPacket ("SET @slave_connect_state='".toList ++ [','].intercalate (l.gtids.map gtidNumeral) ++ "'".toList) p' := by
      intro h
      obtain ⟨p', l, h1, h2⟩ := ih i rfl h
      exact ⟨p', l, List.mem_append_left _ h1, h2⟩
    cases ho with
    | connectState =>
      cases hp with
      | connectState hl h => exact ⟨p, _, by simp, hl, h⟩
    | strict | duplicates | register | dump => exact old ⟨_, rfl, by simp⟩
    | mysql h => simp [h] at hr
    | position h => exact absurd hs h
    | _ => simp at hr
  | answered ht hr hd he ih | count ht hr he ih | column ht hn he ih | columnsEnd ht he ih | row ht he hn hc ih | rowsEnd ht he ih =>
    rintro _ ⟨⟩ h
    obtain ⟨p', l, h1, h2⟩ := ih _ rfl h
    exact ⟨p', l, List.mem_append_left _ h1, h2⟩
  | «end» ht hp ih | checksum ht hc ih =>
    rintro _ ⟨⟩ ⟨r, hr, h⟩
    obtain rfl := Option.some.inj hr
    simp at h
  | login =>
    rintro _ ⟨⟩ ⟨r, hr, h⟩
    cases hr
  | fast ht ih => exact ih
  | _ => rintro _ ⟨⟩

end

/-! ## C91 -/

/-- The events among the items of a live run have headers that fit; MySQL GTIDs name servers by their canonical text. -/
theorem live_delivered {m : Mode} {f : Failures} {k : Learned} {bytes : Bytes} {items : List Item} {halt : Halt}
    (h : LiveRun m f k bytes items halt) : ∀ e : Ev, .ok e ∈ items →
      e.1.nextEventPosition < 2 ^ 32 ∧ ∀ g, mysqlGtidOf e.2 = some g → UuidCanon g.sourceId := by
  induction h with
  | @event f k n header slice body rest ev items halt hn hf hs ha hr ih =>
    intro e he
    rcases List.mem_cons.1 he with he | he
    · cases he
      refine ⟨hf.2.2.2.2.1, fun g hg => ?_⟩
      cases ev with
      | mySqlGtid x =>
        obtain rfl := Option.some.inj hg
        rcases ha with ha | ha
        · cases ha with
          | plain hb =>
            generalize header.eventType = code at hb
            cases hb with
            | mySqlGtid h1 h2 h3 => exact ⟨h2, rfl⟩
          | maria hb =>
            generalize header.eventType = code at hb
            cases hb
        · cases ha
      | _ => cases hg
    · exact ih e he
  | broken _ _ ih | resumed _ _ ih | status _ _ _ ih | error _ _ _ ih | errorShort _ _ _ ih | errorText _ _ _ _ ih | short _ _ _ ih | refused _ _ _ _ _ ih
  | ends _ _ _ _ ih =>
    intro e he
    rcases List.mem_cons.1 he with he | he
    · cases he
    · exact ih e he
  | _ => simp

/-- What a successful `replicate` says to the server, in terms of what the client had recorded. -/
theorem asks_recorded {m : Mode} {c : Crypto} {client client' : Client} {chan : Channel} {stream : BinlogEvents}
    (hf : FitsRequests client.options) (h : client.replicate m c (.ok chan) = (.ok stream, client')) (hn : ¬wantsEnd client.options) :
    ∃ t p maria, stream.channel.trace = chan.trace ++ t ++ [.sent 0 p] ∧ GreetedBy t maria ∧
      let o := client.options
      (o.binlog.startingStrategy ≠ .fromGtid ∨ maria = true → DumpPacket 0 (dumpId o) o.binlog.filename o.binlog.position p) ∧
      (o.binlog.startingStrategy = .fromGtid → maria = false → ∃ g, o.binlog.gtidSet = some g ∧
        DumpGtidPacket 0 (dumpId o) o.binlog.filename o.binlog.position (setsOf g) p) ∧
      (o.binlog.startingStrategy = .fromGtid → maria = true → ∃ p' l, Packet.sent 0 p' ∈ t ∧ o.binlog.gtidList = some l ∧
        QueryPacket ("SET @slave_connect_state='".toList ++ [','].intercalate (l.gtids.map gtidNumeral) ++ "'".toList) p') := by
  obtain ⟨chan1, checksum, s', h1, h2, h3⟩ := replicate_ok (by rw [h])
  have hch : chan1.trace = chan.trace := by
    rw [open_eq] at h1
    revert h1
    generalize readTimeoutOf client.options = r
    intro h1
    cases r with
    | ok v => exact (Res.ok.inj h1) ▸ rfl
    | _ => cases h1
  obtain ⟨t, maria, place, h4, h5, -, -⟩ := C84_sound m c _ s' checksum hf h2
  have h6 := (at_greeting h4).2 _ rfl
  have h7 := (at_recorded h4 hn _ rfl).1
  subst h3
  cases h4 with
  | @ask t _ last _ p ht ho hp =>
    have h8 : maria = true → client.options.binlog.startingStrategy = .fromGtid → last = some .register := by
      intro hm hs
      cases ho with
      | mysql h => simp [hm] at h
      | position h => exact absurd hs h
      | dump => rfl
    have h6' := (at_greeting ht).2 _ rfl
    refine ⟨t, p, maria, ?_, h6', ?_, ?_, ?_⟩
    · show s'.chan.trace = _
      rw [h5, hch, List.append_assoc]
    · intro hs
      cases hp with
      | dump hs' hd => simp only at h7; rw [h7] at hd; exact hd
      | dumpGtid hs' hm hg hd => rcases hs with hs | hs
                                 · exact absurd hs' hs
                                 · simp [hs] at hm
    · intro hs hm
      cases hp with
      | dump hs' hd => rcases hs' with hs' | hs'
                       · exact absurd hs hs'
                       · simp [hm] at hs'
      | dumpGtid hs' hm hg hd => simp only at h7; rw [h7] at hd; exact ⟨_, hg, hd⟩
    · intro hs hm
      exact at_connectState ht hs _ rfl ⟨.register, by rw [h8 hm hs]; rfl, by simp⟩

/-- A client that does not replicate by GTID commits anything. -/
theorem commits_position (m : Mode) (es : List Ev) : ∀ cl : Client, cl.options.binlog.startingStrategy ≠ .fromGtid →
    ∃ cl', commitAll m cl es = .ok cl' := by
  induction es with
  | nil => exact fun cl _ => ⟨cl, rfl⟩
  | cons e es ih =>
    intro cl hcl
    have h1 : cl.updateGtidPosition m e.2 = .ok cl := by
      unfold Client.updateGtidPosition
      rw [if_pos hcl]
    have h2 := commit_eq m cl e.1 e.2 h1
    have h3 : (cl.updateBinlogPosition e.1 e.2).options.binlog.startingStrategy ≠ .fromGtid := by
      rw [commitAll_keeps (m := m) (c := cl) (es := [e]) (by rw [commitAll, h2]; rfl)]
      exact hcl
    obtain ⟨cl', h4⟩ := ih _ h3
    exact ⟨cl', by rw [commitAll, h2]; exact h4⟩

theorem lastOr_lt {n : Nat} (d : Nat) (hd : d < n) (xs : List Nat) (hx : ∀ x ∈ xs, x < n) : lastOr d xs < n := by
  unfold lastOr
  cases h : xs.getLast? with
  | none => exact hd
  | some x => exact hx x (List.mem_of_getLast? h)

/-- The place a conversation ends with fits. -/
theorem asked_fits {m : Mode} {c : Crypto} {o : ReplicaOptions} {i : Known'} {t : List Packet} (h : Spec.At m c o (.asked i .dump) t)
    (hs : o.binlog.startingStrategy ≠ .fromGtid) : i.place.2 < 2 ^ 32 ∧ dumpId o < 2 ^ 32 := by
  cases h with
  | ask ht ho hp =>
    cases hp with
    | dump _ hd => cases hd; exact ⟨by assumption, by assumption⟩
    | dumpGtid hs' => exact absurd hs' hs

/-- **C91.** Replication by file and position. Whatever the server sends: the application commits events that it has been given, any of
them in any order. The next `replicate` that succeeds asks for the file of the last rotate event among them and for the last position
they carry, in 32 bits, and until there is one for the place the first session started at. (Only a client that starts from the end and
has no file name asks the server for its end again.) -/
theorem C91_next_position (m : Mode) (c : Crypto) (client client' : Client) (chan : Channel) (hf : FitsRequests client.options)
    (hs : client.options.binlog.startingStrategy ≠ .fromGtid) {stream : BinlogEvents} {items : List Item}
    {halt : Halt} (h : client.replicate m c (.ok chan) = (.ok stream, client')) (hi : Iterates (BinlogEvents.next m) stream items halt) :
    ∃ t maria place checksum, Spec.At m c client.options (.asked ⟨maria, place, some checksum⟩ .dump) t ∧
      stream.channel.trace = chan.trace ++ t ∧ ∀ es : List Ev, (∀ e ∈ es, .ok e ∈ items) → ∃ client2, commitAll m client' es = .ok client2 ∧
        ∀ (c2 : Crypto) (chan2 : Channel) (stream2 : BinlogEvents) (client3 : Client),
          let file := lastOr place.1 (es.filterMap newFile)
          let position := lastOr place.2 ((es.filterMap newPosition).map (· % 2 ^ 32))
          (utf8Bytes file).length < 2 ^ 32 → ¬(client.options.binlog.startingStrategy = .fromEnd ∧ file = []) →
          client2.replicate m c2 (.ok chan2) = (.ok stream2, client3) →
          ∃ t2 p, stream2.channel.trace = chan2.trace ++ t2 ++ [.sent 0 p] ∧ DumpPacket 0 (dumpId client.options) file position p := by
  obtain ⟨t, maria, place, checksum, rest, h1, -, -, -, -, h2, rfl, h3⟩ := C90_session_sound m c client client' chan hf h hi
  refine ⟨t, maria, place, checksum, h1, h2, fun es hes => ?_⟩
  obtain ⟨client2, h4⟩ := commits_position m es (restarted client place) hs
  refine ⟨client2, h4, ?_⟩
  obtain ⟨h5, h6⟩ := C19_position_cut m _ client2 es (fun e he => (live_delivered h3 e (hes e he)).1) h4
  obtain ⟨⟨f, p, gs, gl, h7⟩, h8⟩ := C20_only_positions_change m _ client2 es h4
  obtain ⟨h9, h10⟩ := h8 hs
  have hpos := lastOr_lt place.2 (asked_fits h1 hs).1 ((es.filterMap newPosition).map (· % 2 ^ 32))
    (fun x hx => by obtain ⟨y, -, rfl⟩ := List.mem_map.1 hx; exact Nat.mod_lt _ (by decide))
  intro c2 chan2 stream2 client3 file position hfile hend h11
  have hstrategy : client2.options.binlog.startingStrategy = client.options.binlog.startingStrategy := by rw [h7]; rfl
  have hid : dumpId client2.options = dumpId client.options := by rw [h7]; rfl
  have hfits : FitsRequests client2.options := by
    refine ⟨?_, ?_, ?_, ?_⟩
    · rw [h7]; exact hf.serverId
    · rw [h6]; exact hpos
    · rw [h5]; exact hfile
    · rw [h9]; exact hf.gtidSet
  obtain ⟨t2, p, maria2, g1, g2, g3, -, -⟩ := asks_recorded hfits h11 (by
    rintro ⟨e1, e2⟩
    exact hend ⟨hstrategy ▸ e1, by rw [h5] at e2; exact e2⟩)
  refine ⟨t2, p, g1, ?_⟩
  have := g3 (.inl (hstrategy ▸ hs))
  rw [h5, h6, hid] at this
  exact this

/-- **C91.** Replication by MySQL GTIDs. Whatever the server sends, and whichever of the given events the application commits: the
next `replicate` that succeeds with a MySQL server asks for everything but the initial transactions and those that the committed
events finish. It also names the file of the last rotate event among them and the last position they carry, in 32 bits. -/
theorem C91_next_mysql_gtids (m : Mode) (c : Crypto) (client client' : Client) (chan : Channel) (hf : FitsRequests client.options)
    (hs : client.options.binlog.startingStrategy = .fromGtid) (set : GtidSet)
    (hset : client.options.binlog.gtidSet = some set) (hwf : Wf set) (ho : AllOrdered set) {stream : BinlogEvents} {items : List Item}
    {halt : Halt} (h : client.replicate m c (.ok chan) = (.ok stream, client')) (hi : Iterates (BinlogEvents.next m) stream items halt)
    (es : List Ev) (hes : ∀ e ∈ es, .ok e ∈ items) (hmax : ∀ e ∈ es, ∀ g, mysqlGtidOf e.2 = some g → g.transactionId < 2 ^ 64 - 1) :
    ∃ client2, commitAll m client' es = .ok client2 ∧
      ∀ (c2 : Crypto) (chan2 : Channel) (stream2 : BinlogEvents) (client3 : Client), FitsRequests client2.options →
        client2.replicate m c2 (.ok chan2) = (.ok stream2, client3) →
        ∃ t2 p maria, stream2.channel.trace = chan2.trace ++ t2 ++ [.sent 0 p] ∧ GreetedBy t2 maria ∧
          (maria = false → ∃ sets, DumpGtidPacket 0 (dumpId client.options) (lastOr client.options.binlog.filename (es.filterMap newFile))
              (lastOr client.options.binlog.position ((es.filterMap newPosition).map (· % 2 ^ 32))) sets p ∧
            ∀ u n, (∃ s ∈ sets, s.1 = u ∧ InIvs n s.2) ↔
              Has set u n ∨ ∃ g, Recorded mysqlGtidOf es g ∧ u = g.sourceId.data ∧ n = g.transactionId) := by
  obtain ⟨t, maria, place, checksum, rest, h1, -, -, -, -, h2, rfl, h3⟩ := C90_session_sound m c client client' chan hf h hi
  obtain ⟨client2, set', h4, h5, -, -, h6⟩ := C79_recorded_set m (restarted client place) set ⟨hs, rfl, hset⟩ rfl hwf ho es
    (fun e he g hg => ⟨UuidCanon_ok ((live_delivered h3 e (hes e he)).2 g hg), hmax e he g hg⟩)
  refine ⟨client2, h4, fun c2 chan2 stream2 client3 hfits h11 => ?_⟩
  obtain ⟨⟨f, p, gs, gl, h7⟩, -⟩ := C20_only_positions_change m _ client2 es h4
  have hstrategy : client2.options.binlog.startingStrategy = .fromGtid := by rw [h7]; exact hs
  have hid : dumpId client2.options = dumpId client.options := by rw [h7]; rfl
  obtain ⟨t2, p, maria2, g1, g2, -, g3, -⟩ := asks_recorded hfits h11 (by
    rintro ⟨e1, -⟩
    rw [hstrategy] at e1
    cases e1)
  refine ⟨t2, p, maria2, g1, g2, fun hm => ?_⟩
  obtain ⟨g, g4, g5⟩ := g3 hstrategy hm
  obtain rfl : set' = g := Option.some.inj (h5.symm.trans g4)
  obtain ⟨i1, i2⟩ := C19_position_cut m _ client2 es (fun e he => (live_delivered h3 e (hes e he)).1) h4
  obtain rfl : place = (client.options.binlog.filename, client.options.binlog.position) :=
    (at_recorded h1 (by rintro ⟨e1, -⟩; rw [hs] at e1; cases e1) _ rfl).1
  rw [hid, i1, i2] at g5
  refine ⟨_, g5, fun u n => ?_⟩
  rw [← h6 u n]
  unfold Has setsOf
  simp

/-- **C91.** Replication by MariaDB GTIDs: the next `replicate` that succeeds with a MariaDB server names for each domain the last GTID
that the committed events finish, and in the other domains those of the initial list. -/
theorem C91_next_mariadb_gtids (m : Mode) (c : Crypto) (client client' : Client) (chan : Channel) (hf : FitsRequests client.options)
    (hs : client.options.binlog.startingStrategy = .fromGtid) (list : GtidList)
    (hlist : client.options.binlog.gtidList = some list) (hset : client.options.binlog.gtidSet = none)
    (hd : (list.gtids.map (·.domainId)).Nodup) {stream : BinlogEvents}
    (h : client.replicate m c (.ok chan) = (.ok stream, client'))
    (es : List Ev) :
    ∃ client2, commitAll m client' es = .ok client2 ∧
      ∀ (c2 : Crypto) (chan2 : Channel) (stream2 : BinlogEvents) (client3 : Client), FitsRequests client2.options →
        client2.replicate m c2 (.ok chan2) = (.ok stream2, client3) →
        ∃ t2 p maria, stream2.channel.trace = chan2.trace ++ t2 ++ [.sent 0 p] ∧ GreetedBy t2 maria ∧
          (maria = true → ∃ (p' : Bytes) (gtids : List MGtid), Packet.sent 0 p' ∈ t2 ∧ (gtids.map (·.domainId)).Nodup ∧
            QueryPacket ("SET @slave_connect_state='".toList ++ [','].intercalate (gtids.map gtidNumeral) ++ "'".toList) p' ∧
            ∀ g, g ∈ gtids ↔ RecordedLast es g ∨ (g ∈ list.gtids ∧ ∀ g', Recorded mariaGtidOf es g' → g'.domainId ≠ g.domainId)) := by
  obtain ⟨t, maria, place, checksum, rest, h1, -, -, -, -, h2, rfl, h3⟩ := C90_session_sound m c client client' chan hf h .running
  obtain ⟨client2, list', h4, h5, h6, h8⟩ := C79_recorded_list m (restarted client place) list ⟨hs, rfl, hlist, hset⟩ rfl hd es
  refine ⟨client2, h4, fun c2 chan2 stream2 client3 hfits h11 => ?_⟩
  obtain ⟨⟨f, p, gs, gl, h7⟩, -⟩ := C20_only_positions_change m _ client2 es h4
  have hstrategy : client2.options.binlog.startingStrategy = .fromGtid := by rw [h7]; exact hs
  obtain ⟨t2, p, maria2, g1, g2, -, -, g3⟩ := asks_recorded hfits h11 (by
    rintro ⟨e1, -⟩
    rw [hstrategy] at e1
    cases e1)
  refine ⟨t2, p, maria2, g1, g2, fun hm => ?_⟩
  obtain ⟨p', l, g4, g5, g6⟩ := g3 hstrategy hm
  obtain rfl : list' = l := Option.some.inj (h5.symm.trans g5)
  exact ⟨p', _, g4, h6, g6, h8⟩

/-! ## Examples -/

/-- A rotation to file `a`, position 4. -/
def exMoved : Ev := (⟨5, 4, 1, 32, 0, 0⟩, .rotate ⟨['a'], 4⟩)

/-- Its packet, with a checksum. -/
def exMovedBytes : Bytes := frame (0x00 :: (headerBytes exMoved.1 ++ [4, 0, 0, 0, 0, 0, 0, 0, 97, 1, 2, 3, 4])) 1

theorem exMoved_run (m : Mode) (f : Failures) : LiveRun m f (.start .crc32) exMovedBytes [.ok exMoved] .running := by
  have h : LiveRun m f (.start .crc32) (exMovedBytes ++ []) [.ok exMoved] .running := by
    refine .event (body := [4, 0, 0, 0, 0, 0, 0, 0, 97]) (by unfold Framable; decide +kernel) (by unfold HeaderFits; decide)
      ⟨[1, 2, 3, 4], rfl, rfl⟩ (.inl (.plain ?_)) .running
    have := PlainBody.rotate (name := ['a']) (position := 4) (by decide)
    rw [show le 8 4 ++ utf8Bytes ['a'] = [4, 0, 0, 0, 0, 0, 0, 0, 97] by decide +kernel] at this
    exact this
  rwa [List.append_nil] at h

/-- A client that starts from the end; the server sends the event. -/
def exChan1 : Channel := { exTalk.chan with input := exTalk.chan.input ++ exMovedBytes }

theorem exSession (m : Mode) : ∃ stream client', (exUser .fromEnd).replicate m exCrypto (.ok exChan1) = (.ok stream, client') ∧
    Iterates (BinlogEvents.next m) stream [.ok exMoved] .running := by
  obtain ⟨maria, place, h⟩ := exTalk_at m
  have hr := exTalk_received m
  have hs := exTalk_sent m
  generalize (setUp m exCrypto exTalk).2.chan.trace = t at h hr hs
  obtain ⟨stream, items', h1, -, -, h2, h3⟩ := C90_session_complete m exCrypto (exUser .fromEnd) exChan1 (by decide) t exMovedBytes maria
    place .crc32 _ .running h (by rw [hr]; rfl) (by rw [hr]; unfold Framable; decide +kernel) (fun x hx => sendable_of_lt (hs x hx))
    (exMoved_run m (exChan1.ending, exChan1.later)) (carries_free _)
  refine ⟨stream, _, h1, ?_⟩
  cases h3 with
  | cons h4 h5 =>
    cases h5
    cases h4 with
    | ok h6 => cases h6; exact h2

/-- It commits the event; the next time it asks for file `a`, position 4. -/
example (m : Mode) : ∃ stream client' client2, (exUser .fromEnd).replicate m exCrypto (.ok exChan1) = (.ok stream, client') ∧
    commitAll m client' [exMoved] = .ok client2 ∧ ∀ (c2 : Crypto) (chan2 : Channel) (stream2 : BinlogEvents) (client3 : Client),
      client2.replicate m c2 (.ok chan2) = (.ok stream2, client3) →
      ∃ t2 p, stream2.channel.trace = chan2.trace ++ t2 ++ [.sent 0 p] ∧ DumpPacket 0 65535 ['a'] 4 p := by
  obtain ⟨stream, client', h1, h2⟩ := exSession m
  obtain ⟨t, maria, place, checksum, -, -, h3⟩ := C91_next_position m exCrypto _ client' exChan1 ⟨by decide, by decide, by decide, fun g h => by cases h⟩
    (by decide) h1 h2
  obtain ⟨client2, h4, h5⟩ := h3 [exMoved] (by simp)
  refine ⟨stream, client', client2, h1, h4, fun c2 chan2 stream2 client3 h => ?_⟩
  exact h5 c2 chan2 stream2 client3 (show (utf8Bytes ['a']).length < 2 ^ 32 by decide) (fun hc => absurd hc.2 (show ['a'] ≠ [] by decide)) h

/-- And the next time can come. -/
example (m : Mode) : ∃ stream2 client3, (restarted (exUser .fromEnd) (['a'], 4)).replicate m exCrypto
    (.ok (exChannel (exLogin "8.0.30" ++ exConfigured))) = (.ok stream2, client3) := by
  have h : (setUp m exCrypto ⟨restarted (exUser .fromEnd) (['a'], 4), exChannel (exLogin "8.0.30" ++ exConfigured)⟩).1 = .ok .crc32 := by
    revert m
    rintro ⟨_ | _⟩ <;> decide +kernel
  rcases hx : setUp m exCrypto ⟨restarted (exUser .fromEnd) (['a'], 4), exChannel (exLogin "8.0.30" ++ exConfigured)⟩ with ⟨r, s'⟩
  rw [hx] at h
  obtain rfl : r = .ok .crc32 := h
  rcases C85_total m exCrypto ⟨restarted (exUser .fromEnd) (['a'], 4), exChannel (exLogin "8.0.30" ++ exConfigured)⟩
    ⟨by decide, by decide, by decide, fun g h => by cases h⟩ rfl with
    ⟨t, maria, place, ck, rest, g1, g2, g3, g4, g5⟩ | ⟨t, written, input, rest, st, e, g1, g2, g3, g4, g5, g6⟩
  · obtain ⟨stream2, items', k, -⟩ := C90_session_complete m exCrypto _ _ (by decide) t rest maria place ck [] .running g1 g2 g3 g4 .running
      (carries_free _)
    exact ⟨stream2, _, k⟩
  · rw [hx] at g5
    cases e with
    | malformed => obtain ⟨_, g5, _⟩ := g5; cases g5
    | _ => cases g5

theorem BinlogEvents.Yields.iterates {m : Mode} {s s' : BinlogEvents} {items : List Item} (h : s.Yields m items s') :
    Iterates (BinlogEvents.next m) s items .running := by
  induction h with
  | nil => exact .running
  | item h _ ih => exact .item h ih

/-- The transactions of `exLogParts`, of which the first five events are committed. -/
example (m : Mode) : ∃ chan stream client' client2, exGtidUser.replicate m exCrypto (.ok chan) = (.ok stream, client') ∧
    Iterates (BinlogEvents.next m) stream ((flat exLogParts).map .ok) .running ∧
    commitAll m client' ((flat exLogParts).take 5) = .ok client2 ∧ Recorded mysqlGtidOf ((flat exLogParts).take 5) ⟨exUuid, 5⟩ := by
  obtain ⟨slices, st, h1, h2⟩ := exLogParts_written .crc32
  obtain ⟨stream, client', stream', h3, -, h4, -⟩ := C74_replicate_then_iterate m exCrypto exGtidUser { exChannel [] with input := _ } exGtidUser_usable
    rfl False none .crc32 _ (exGtidUser_in _) (by decide) (fun _ => .inr ⟨not_false, rfl⟩) (flat exLogParts) slices st h1 h2 1 [] rfl
  obtain ⟨client2, h5, -⟩ := C91_next_mysql_gtids m exCrypto exGtidUser client' _ ⟨by decide, by decide, by decide, fun g h => by
    cases h; unfold GtidSetFits; decide +kernel⟩ rfl exSet rfl exSet_wf exSet_ordered h3 h4.iterates ((flat exLogParts).take 5)
    (fun e he => List.mem_map.2 ⟨e, List.mem_of_mem_take he, rfl⟩) (by decide +kernel)
  refine ⟨_, stream, client', client2, h3, h4.iterates, h5, ?_⟩
  exact ⟨(flat exLogParts).take 4, (exTyped 16, .xid ⟨7⟩), [], rfl, .inl trivial, [], (exTyped 33, exGtid 5), _, rfl, rfl, by decide +kernel⟩

/-- A MariaDB server that sends a transaction. -/
example (m : Mode) : ∃ chan stream client', (exUser (.fromMariadbGtid exList)).replicate m exCrypto (.ok chan) = (.ok stream, client') ∧
    ∃ client2, commitAll m client' [(exTyped 162, .mariaDbGtid ⟨⟨0, 1, 271⟩, 0⟩), (exTyped 16, .xid ⟨7⟩)] = .ok client2 := by
  obtain ⟨stream, client', stream', h3, -, h4, -⟩ := C74_replicate_then_iterate m exCrypto (exUser (.fromMariadbGtid exList))
    { exChannel [] with input := _ } ⟨exSmall _, ⟨by decide, by decide, by decide, (fun g h => by cases h), (fun g h => by cases h; decide +kernel), by decide⟩, rfl⟩
    rfl True none .crc32 _ (exListUser_in _ rfl) (by decide) (fun _ => .inl ⟨trivial, rfl⟩) [] [] _ .nil (by simp) 1 [] rfl
  obtain ⟨client2, h5, -⟩ := C91_next_mariadb_gtids m exCrypto _ client' _ ⟨by decide, by decide, by decide, fun g h => by cases h⟩ rfl exList
    rfl rfl (by decide) h3 [(exTyped 162, .mariaDbGtid ⟨⟨0, 1, 271⟩, 0⟩), (exTyped 16, .xid ⟨7⟩)]
  exact ⟨_, stream, client', h3, client2, h5⟩

end MysqlCdc
