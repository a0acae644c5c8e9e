import Verif.Spec.Written
import Verif.Props.SetUpWorks
import Verif.Props.LiveStream
import Verif.Props.Events
import Verif.Props.Rows
import Verif.Props.TableMap
import Verif.Props.Client
import Verif.Props.Reader
import Verif.Props.Decoder
/-!
# C74: from the server's bytes to the recorded position
-/

namespace MysqlCdc

open Spec

/-- The decoder knows what the log said. -/
structure Knows (st : LogState) (p : EventParser) : Prop where
  checksum : p.checksumType = st.checksum
  tables : ∀ id columns, st.columns id = some columns →
    columns.length < 2 ^ 63 ∧ ∃ t, p.tableMap.get? id = some t ∧ Describes t columns

theorem Knows.start (checksum : ChecksumType) : Knows (.start checksum) ⟨checksum, []⟩ :=
  ⟨rfl, fun _ _ h => by cases h⟩

theorem metaOf_unique {fields : List MetaField} {a b : TableMetadata} (h1 : MetaOf fields a) (h2 : MetaOf fields b) : a = b := by
  cases a; cases b
  cases h1; cases h2
  simp_all

/-- Decoding an event as written gives the event, and the decoder keeps track. -/
theorem Knows.decode {st st' : LogState} {p : EventParser} (k : Knows st p) {e : Ev} {slice : Bytes} (m : Mode)
    (h : Written st e slice st') : ∃ p', parseEvent m p e.1 slice = (.ok e.2, p') ∧ Knows st' p' := by
  have same : ∀ (q : EventParser), q = p → Knows st q := fun q hq => hq ▸ k
  cases h with
  | plain hb hs => exact ⟨p, C42_plain_events m p _ _ _ _ hb (k.checksum ▸ hs), k⟩
  | maria hb hs => exact ⟨p, C16_mariadb_gtid_events m p _ _ _ _ hb (k.checksum ▸ hs), k⟩
  | @previousGtids h sets extra slice ht hf hn hs =>
    obtain ⟨g, h1, h2, -⟩ := C11_previous_gtids m p h sets extra slice ht hf hn (k.checksum ▸ hs)
    refine ⟨p, ?_, k⟩
    rw [h1]
    cases g
    simp only at h2
    rw [h2]
  | @format h known e body ht hb hl hl' hk =>
    refine ⟨_, C36_format_description_partial m p h known e slice ht hb hl (fun hc => hk (k.checksum ▸ hc)) (.inr ?_), rfl, k.tables⟩
    omega
  | @tableMap h tableId db table columns nulls fields md body slice ht hb hs hm =>
    obtain ⟨o, ho, hp⟩ := parseTableMap_parses hb
    have hmd : o = md := by
      rcases ho with ⟨h1, rfl⟩ | ⟨h1, a, rfl, h2⟩ <;> rcases hm with ⟨h3, rfl⟩ | ⟨h3, b, rfl, h4⟩
      · rfl
      · exact absurd h1 h3
      · exact absurd h3 h1
      · rw [metaOf_unique h2 h4]
    subst hmd
    refine ⟨_, parseEvent_of_body (k.checksum ▸ hs) (by
      unfold dispatchEvent
      rw [ht]
      exact (hp.map _).run), k.checksum, fun id cols hc => ?_⟩
    simp only [LogState.announce] at hc
    simp only [EventParser.record, HMap.get?_insert]
    by_cases hid : id = tableId
    · rw [if_pos hid] at hc
      cases hc
      refine ⟨?_, _, if_pos hid.symm, rfl, rfl⟩
      cases hb
      assumption
    · rw [if_neg hid] at hc
      obtain ⟨h1, t, h2, h3⟩ := k.tables id cols hc
      exact ⟨h1, t, by rw [if_neg (fun e => hid e.symm)]; exact h2, h3⟩
  | @writeRows h version tableId flags columns present rows body slice ht hc hp hb hs =>
    obtain ⟨h1, t, h2, h3⟩ := k.tables _ _ hc
    refine ⟨p, (C52_write_and_delete m p h (version := version) (by tauto) h2 h3 h1 hp hb (k.checksum ▸ hs)).1 ?_, k⟩
    rcases ht with ⟨rfl, ht⟩ | ⟨rfl, ht⟩ <;> exact ht
  | @deleteRows h version tableId flags columns present rows body slice ht hc hp hb hs =>
    obtain ⟨h1, t, h2, h3⟩ := k.tables _ _ hc
    refine ⟨p, (C52_write_and_delete m p h (version := version) (by tauto) h2 h3 h1 hp hb (k.checksum ▸ hs)).2 ?_, k⟩
    rcases ht with ⟨rfl, ht⟩ | ⟨rfl, ht⟩ <;> exact ht
  | @updateRows h version tableId flags columns before after rows body slice ht hc hp hb hs =>
    obtain ⟨h1, t, h2, h3⟩ := k.tables _ _ hc
    refine ⟨p, C52_update m p h (version := version) (by tauto) h2 h3 h1 hp hb (k.checksum ▸ hs) ?_, k⟩
    rcases ht with ⟨rfl, ht⟩ | ⟨rfl, ht⟩ <;> exact ht
  | unknown ht hs => exact ⟨p, C34_unknown_types m p _ _ _ ht (k.checksum ▸ hs), k⟩

/-- Iterating over the packets of a log gives exactly its events. -/
theorem Knows.stream {st st' : LogState} {events : List Ev} {slices : List Bytes} (hlog : LogOf st events slices st') (m : Mode)
    (s : BinlogEvents) (k : Knows st s.parser) (n : Nat) (rest : Bytes) (hsize : ∀ x ∈ slices, x.length < 2 ^ 24 - 20)
    (hi : s.channel.input = frames (eventPackets n events slices) ++ rest) :
    ∃ s', s.Yields m (events.map .ok) s' ∧ Knows st' s'.parser ∧ s'.channel.input = rest := by
  induction hlog generalizing s n with
  | nil => exact ⟨s, .nil, k, hi⟩
  | @cons st st1 st2 e slice es slices hf h ht ih =>
    obtain ⟨p, h1, h2⟩ := k.decode m h
    simp only [eventPackets, frames, List.append_assoc] at hi
    have hx : slice.length < 2 ^ 24 - 20 := hsize slice (by simp)
    obtain ⟨ch, h3, h4⟩ := next_event m s e.1 slice _ (n % 256) hf (by omega) (by omega) hi
    rw [h1] at h4
    obtain ⟨s', g1, g2, g3⟩ := ih ⟨ch, p⟩ h2 (n + 1) (fun x hx => hsize x (by simp [hx])) h3
    exact ⟨s', .item h4 g1, g2, g3⟩

/-! ## C74 -/

/-- The exchange of a conforming server that accepts the client and answers its set-up commands: `bytes` is all it sends before the
first event. `asked` is its end of the log, if the client has to ask for it. -/
inductive LetsIn (c : Crypto) (o : ReplicaOptions) (mariaDb : Prop) (asked : Option (RStr × Nat)) (checksum : ChecksumType) : Bytes → Prop where
  | mk {g : HandshakePacket} {greeting : Bytes} {way : Way} {key : Option (RStr × Bytes)} {packets replies : List (Bytes × Nat)}
      {oks : Nat} (hg : Greeting g greeting) (hversion : g.protocolVersion ≠ 255) (hlen : greeting.length < 2 ^ 24)
      (hknown : Known g.authPluginName) (hway : way ≠ .switched) (haccepts : Accepts g.authPluginName g.scramble way key packets)
      (hkey : ∀ e, key = some e → Encrypts c e.1 e.2) (hmaria : mariaDb ↔ IsMariaDb g.serverVersion)
      (hanswers : Answers asked checksum oks replies)
      (hoks : (mariaDb ∧ oks = if o.binlog.startingStrategy = .fromGtid then 5 else 1) ∨ (¬ mariaDb ∧ oks = 0)) :
      LetsIn c o mariaDb asked checksum (frames ((greeting, 0) :: packets ++ replies))

/-- A client within the protocol's limits that does not use SSL. -/
structure Usable (c : Crypto) (o : ReplicaOptions) : Prop where
  login : SmallLogin c o
  requests : SmallRequests o
  plain : o.sslMode = .disabled

/-- C74. Everything a conforming server sends, from its greeting on, taken as bytes: `replicate()` succeeds, and iterating over the
stream it returns gives exactly the events of the log the server sends, in order, all decoded; nothing is skipped, nothing made up.
The property excludes what other properties show to be broken: the OK packet after a switch request to `caching_sha2_password`
(`C73_false`; `LetsIn` has no such exchange) and events of 16 MiB and more (`C68_false`). -/
theorem C74_replicate_then_iterate (m : Mode) (c : Crypto) (client : Client) (chan : Channel) (hu : Usable c client.options)
    (hw : chan.writes = []) (mariaDb : Prop) (asked : Option (RStr × Nat)) (checksum : ChecksumType) (bytes : Bytes)
    (hin : LetsIn c client.options mariaDb asked checksum bytes)
    (hasked : asked.isSome ↔ client.options.binlog.startingStrategy = .fromEnd ∧ client.options.binlog.filename = [])
    (hgtid : client.options.binlog.startingStrategy = .fromGtid →
      (mariaDb ∧ client.options.binlog.gtidList.isSome) ∨ (¬ mariaDb ∧ client.options.binlog.gtidSet.isSome))
    (events : List Ev) (slices : List Bytes) (st : LogState) (hlog : LogOf (.start checksum) events slices st)
    (hsize : ∀ x ∈ slices, x.length < 2 ^ 24 - 20) (n : Nat) (rest : Bytes)
    (hi : chan.input = bytes ++ frames (eventPackets n events slices) ++ rest) :
    ∃ stream client' stream', client.replicate m c (.ok chan) = (.ok stream, client') ∧
      client' = client.afresh.placedAt asked ∧ stream.Yields m (events.map .ok) stream' ∧ stream'.channel.input = rest := by
  cases hin with
  | @mk g greeting way key packets replies oks hg hversion hlen hknown hway haccepts hkey hmaria hanswers hoks =>
    obtain ⟨stream, client', h1, h2, -, h3, h4⟩ := C73_replicate_partial m c client chan hu.login hu.requests g (.inl hu.plain) hw greeting hg
      hversion hlen hknown way hway key packets haccepts hkey asked hasked checksum oks replies hanswers (by rw [← hmaria]; exact hoks)
      (by rw [← hmaria]; exact hgtid) (frames (eventPackets n events slices) ++ rest) (by rw [hi, List.append_assoc])
    obtain ⟨stream', h5, -, h6⟩ := Knows.stream hlog m stream (h3 ▸ Knows.start checksum) n rest hsize h2
    exact ⟨stream, client', stream', h1, h4, h5, h6⟩

/-- A MySQL GTID in a log names a server by its canonical text. -/
theorem written_gtid {st st' : LogState} {h : EventHeader} {x : MySqlGtidEvent} {slice : Bytes}
    (hw : Written st (h, .mySqlGtid x) slice st') : UuidCanon x.gtid.sourceId := by
  cases hw with
  | plain hb =>
    generalize h.eventType = code at hb
    cases hb with
    | mySqlGtid h1 h2 h3 => exact ⟨h2, rfl⟩
  | maria hb =>
    generalize h.eventType = code at hb
    cases hb

theorem logOf_mem {st st' : LogState} {events : List Ev} {slices : List Bytes} (h : LogOf st events slices st') :
    ∀ e ∈ events, ∃ a slice b, Written a e slice b := by
  induction h with
  | nil => simp
  | cons _ h _ ih =>
    intro e he
    rcases List.mem_cons.1 he with rfl | he
    · exact ⟨_, _, _, h⟩
    · exact ih e he

/-- The GTIDs of transactions that are written in a log can be added to a set. -/
theorem logged_ok {st st' : LogState} {parts : List (Part Gtid)} {slices : List Bytes} (hlog : LogOf st (flat parts) slices st')
    (hp : ∀ p ∈ parts, p.Ok MysqlTx) : ∀ g ∈ parts.flatMap Part.gtids, UuidOk g.sourceId := by
  intro g hg
  obtain ⟨p, hp1, hp2⟩ := List.mem_flatMap.1 hg
  cases p with
  | noise e => cases hp2
  | tx g' es =>
    obtain rfl : g = g' := by simpa [Part.gtids] using hp2
    obtain ⟨h0, x, hx, hmem⟩ : ∃ h0 x, x.gtid = g ∧ (h0, BinlogEvent.mySqlGtid x) ∈ es := by
      have := hp _ hp1
      cases this with
      | @block h0 _ _ x _ _ _ _ hx => exact ⟨h0, x, hx, by simp⟩
      | @auto h0 _ x _ _ hx => exact ⟨h0, x, hx, by simp⟩
    obtain ⟨a, slice, b, hwr⟩ := logOf_mem hlog (h0, .mySqlGtid x) (List.mem_flatMap.2 ⟨_, hp1, hmem⟩)
    exact hx ▸ UuidCanon_ok (written_gtid hwr)

/-- C74 for MySQL GTID replication. A client replicates from a GTID set, the server sends its transactions as bytes, and the
application commits each event as it comes from the iterator. Wherever the application stops, the recorded set stands for the
initial transactions and those whose last event it committed. -/
theorem C74_mysql_gtid (m : Mode) (c : Crypto) (client : Client) (chan : Channel) (hu : Usable c client.options)
    (hw : chan.writes = []) (checksum : ChecksumType) (bytes : Bytes) (hin : LetsIn c client.options False none checksum bytes)
    (set : GtidSet) (hs : client.options.binlog.startingStrategy = .fromGtid) (hset : client.options.binlog.gtidSet = some set)
    (hwf : Wf set) (ho : AllOrdered set) (parts : List (Part Gtid)) (hp : ∀ p ∈ parts, p.Ok MysqlTx)
    (hmax : ∀ g ∈ parts.flatMap Part.gtids, g.transactionId < 2 ^ 64 - 1)
    (slices : List Bytes) (st : LogState) (hlog : LogOf (.start checksum) (flat parts) slices st)
    (hsize : ∀ x ∈ slices, x.length < 2 ^ 24 - 20) (n : Nat) (rest : Bytes)
    (hi : chan.input = bytes ++ frames (eventPackets n (flat parts) slices) ++ rest) :
    ∃ stream client' stream', client.replicate m c (.ok chan) = (.ok stream, client') ∧
      stream.Yields m ((flat parts).map .ok) stream' ∧
      ∀ k, ∃ client'' set', commitAll m client' ((flat parts).take k) = .ok client'' ∧ client''.options.binlog.gtidSet = some set' ∧ Wf set' ∧ AllOrdered set' ∧
        ∀ u i, Has set' u i ↔ Has set u i ∨ ∃ g ∈ finished k parts, u = g.sourceId.data ∧ i = g.transactionId := by
  obtain ⟨stream, client', stream', h1, rfl, h3, -⟩ := C74_replicate_then_iterate m c client chan hu hw False none checksum bytes hin
    (by simp [hs]) (fun _ => .inr ⟨not_false, by rw [hset]; rfl⟩) (flat parts) slices st hlog hsize n rest hi
  refine ⟨stream, _, stream', h1, h3, fun k => ?_⟩
  refine C17_exactly_finished m client.afresh set ⟨hs, rfl, hset⟩ hwf ho parts hp (fun g hg => ⟨?_, hmax g hg⟩) k
  exact logged_ok hlog hp g hg

/-- C74 for MariaDB GTID replication: the recorded list holds for each domain the last finished GTID, or what it held before.
The transactions have no statement before their last event (`C18_statement_in_transaction_false`). -/
theorem C74_mariadb_gtid (m : Mode) (c : Crypto) (client : Client) (chan : Channel) (hu : Usable c client.options)
    (hw : chan.writes = []) (checksum : ChecksumType) (bytes : Bytes) (hin : LetsIn c client.options True none checksum bytes)
    (list : GtidList) (hs : client.options.binlog.startingStrategy = .fromGtid) (hlist : client.options.binlog.gtidList = some list)
    (hnone : client.options.binlog.gtidSet = none) (hd : (list.gtids.map (·.domainId)).Nodup)
    (parts : List (Part MGtid)) (hp : ∀ p ∈ parts, p.Ok MariaTx) (hns : ∀ p ∈ parts, NoStatementBefore p.events)
    (slices : List Bytes) (st : LogState) (hlog : LogOf (.start checksum) (flat parts) slices st)
    (hsize : ∀ x ∈ slices, x.length < 2 ^ 24 - 20) (n : Nat) (rest : Bytes)
    (hi : chan.input = bytes ++ frames (eventPackets n (flat parts) slices) ++ rest) :
    ∃ stream client' stream', client.replicate m c (.ok chan) = (.ok stream, client') ∧
      stream.Yields m ((flat parts).map .ok) stream' ∧
      ∀ k, ∃ client'' list', commitAll m client' ((flat parts).take k) = .ok client'' ∧ client''.options.binlog.gtidList = some list' ∧
        client''.options.binlog.gtidSet = none ∧ (list'.gtids.map (·.domainId)).Nodup ∧
        ∀ g, g ∈ list'.gtids ↔ LastOf (finished k parts) g ∨ (g ∈ list.gtids ∧ ∀ y ∈ finished k parts, y.domainId ≠ g.domainId) := by
  obtain ⟨stream, client', stream', h1, rfl, h3, -⟩ := C74_replicate_then_iterate m c client chan hu hw True none checksum bytes hin
    (by simp [hs]) (fun _ => .inl ⟨trivial, by rw [hlist]; rfl⟩) (flat parts) slices st hlog hsize n rest hi
  exact ⟨stream, _, stream', h1, h3, fun k => C18_exactly_finished_partial m client.afresh list ⟨hs, rfl, hlist, hnone⟩ hd parts hp hns k⟩

/-- C74 for replication by file and position: the recorded file and position are those of the last committed event that carries
them, and until then where the client started (the server's end of the log if it was asked for). Positions in rotate events are
below 2^32 (`C19_large_position_false`). -/
theorem C74_position (m : Mode) (c : Crypto) (client : Client) (chan : Channel) (hu : Usable c client.options)
    (hw : chan.writes = []) (mariaDb : Prop) (asked : Option (RStr × Nat)) (checksum : ChecksumType) (bytes : Bytes)
    (hin : LetsIn c client.options mariaDb asked checksum bytes)
    (hasked : asked.isSome ↔ client.options.binlog.startingStrategy = .fromEnd ∧ client.options.binlog.filename = [])
    (hs : client.options.binlog.startingStrategy ≠ .fromGtid) (events : List Ev) (hfit : RotatesFit events) (slices : List Bytes)
    (st : LogState) (hlog : LogOf (.start checksum) events slices st) (hsize : ∀ x ∈ slices, x.length < 2 ^ 24 - 20) (n : Nat)
    (rest : Bytes) (hi : chan.input = bytes ++ frames (eventPackets n events slices) ++ rest) :
    ∃ stream client' stream', client.replicate m c (.ok chan) = (.ok stream, client') ∧ stream.Yields m (events.map .ok) stream' ∧
      let start := asked.getD (client.options.binlog.filename, client.options.binlog.position)
      ∀ k, ∃ client'', commitAll m client' (events.take k) = .ok client'' ∧
        client''.options.binlog.filename = lastOr start.1 ((events.take k).filterMap newFile) ∧
        client''.options.binlog.position = lastOr start.2 ((events.take k).filterMap newPosition) := by
  obtain ⟨stream, client', stream', h1, rfl, h3, -⟩ := C74_replicate_then_iterate m c client chan hu hw mariaDb asked checksum bytes hin
    hasked (fun h => absurd h hs) events slices st hlog hsize n rest hi
  refine ⟨stream, _, stream', h1, h3, fun k => ?_⟩
  have hs' : (client.afresh.placedAt asked).options.binlog.startingStrategy ≠ .fromGtid := by
    cases asked with
    | none => exact hs
    | some a => exact hs
  have hall : ∀ (es : List Ev) (cl : Client), cl.options.binlog.startingStrategy ≠ .fromGtid → ∃ cl', commitAll m cl es = .ok cl' := by
    intro es
    induction es with
    | nil => exact fun cl _ => ⟨cl, rfl⟩
    | cons e es ih =>
      intro cl hcl
      have h1 : cl.updateGtidPosition m e.2 = .ok cl := by
        unfold Client.updateGtidPosition
        rw [if_pos hcl]
      have h2 := commit_eq m cl e.1 e.2 h1
      have h3 : (cl.updateBinlogPosition e.1 e.2).options.binlog.startingStrategy ≠ .fromGtid := by
        obtain ⟨⟨f, p, g, l, h⟩, -⟩ := C20_only_positions_change m cl _ [e] (by rw [commitAll, h2]; rfl)
        rw [h]
        exact hcl
      obtain ⟨cl', h4⟩ := ih _ h3
      exact ⟨cl', by rw [commitAll, h2]; exact h4⟩
  obtain ⟨client'', h4⟩ := hall (events.take k) _ hs'
  obtain ⟨h5, h6⟩ := C19_position_follows_partial m _ client'' (events.take k) (fun x hx => hfit x (List.mem_of_mem_take hx)) h4
  refine ⟨client'', h4, ?_, ?_⟩
  · rw [h5]
    cases asked <;> rfl
  · rw [h6]
    cases asked <;> rfl

/-! ## C75 -/

/-- A client in GTID mode lets a conforming MySQL server know its recorded set: the last packet it sends is the dump request for it. -/
theorem mysql_asks (m : Mode) (c : Crypto) (client : Client) (chan : Channel) (hu : Usable c client.options)
    (hw : chan.writes = []) (checksum : ChecksumType) (bytes rest : Bytes) (hin : LetsIn c client.options False none checksum bytes)
    (set : GtidSet) (hs : client.options.binlog.startingStrategy = .fromGtid) (hset : client.options.binlog.gtidSet = some set)
    (hi : chan.input = bytes ++ rest) :
    ∃ stream front cmd, client.replicate m c (.ok chan) = (.ok stream, client.afresh) ∧ stream.channel.trace = front ++ [.sent 0 cmd] ∧
      DumpGtidPacket 0 (if client.options.blocking then client.options.serverId else 0) client.options.binlog.filename
        client.options.binlog.position (setsOf set) cmd ∧ stream.channel.input = rest ∧ stream.parser = ⟨checksum, []⟩ := by
  cases hin with
  | @mk g greeting way key packets replies oks hg hversion hlen hknown hway haccepts hkey hmaria hanswers hoks =>
    obtain ⟨stream, client', h1, h2, -, h3, rfl⟩ := C73_replicate_partial m c client chan hu.login hu.requests g (.inl hu.plain) hw greeting hg
      hversion hlen hknown way hway key packets haccepts hkey none (by simp [hs]) checksum oks replies hanswers (by rw [← hmaria]; exact hoks)
      (by rw [← hmaria]; exact fun _ => .inr ⟨not_false, by rw [hset]; rfl⟩) rest hi
    obtain ⟨chan', checksum', s', h4, h5, h6⟩ := replicate_ok (m := m) (cr := c) (c := client) (net := .ok chan) (events := stream) (by rw [h1])
    have h7 := replicate_of h4 h5
    rw [h1] at h7
    have hcl : s'.client = client.afresh := (Prod.mk.inj h7).2.symm
    obtain ⟨t, h8⟩ := open_succeeds hu.requests.heartbeat chan
    rw [h8] at h4
    obtain rfl := Res.ok.inj h4
    obtain ⟨n, q, tr, cmd, h9, h10, h11⟩ := C60_dump_request m c _ s' checksum' h5 (by rw [hcl]; exact hu.requests.serverId)
      (by rw [hcl]; exact hu.requests.position)
    obtain rfl := h10 greeting 0 (frames (packets ++ replies) ++ rest) hlen (by decide) (by
      show chan.input = _
      rw [hi, List.cons_append, frames, List.append_assoc])
    obtain ⟨-, h12, -⟩ := h11 g hg
    rw [hcl] at h12
    obtain ⟨set', h13, h14⟩ := h12 ⟨fun h => hmaria.2 h, hs⟩
    obtain rfl : set = set' := Option.some.inj (hset.symm.trans h13)
    have hfit := hu.requests.gtidSet set hset
    refine ⟨stream, _, cmd, h1, by rw [h6]; exact h9, h14 ?_ hfit.1 ?_, h2, h3⟩
    · have := hu.requests.filename
      show (utf8Bytes client.options.binlog.filename).length < _
      omega
    · omega

/-- The transaction is in a GTID set as sent. -/
def Listed (sets : List (Bytes × List Interval)) (g : Gtid) : Prop := ∃ s ∈ sets, s.1 = g.sourceId.data ∧ InIvs g.transactionId s.2

theorem listed_setsOf (set : GtidSet) (g : Gtid) : Listed (setsOf set) g ↔ Has set g.sourceId.data g.transactionId := by
  unfold Listed Has setsOf
  simp

theorem commitAll_keeps {m : Mode} {c c' : Client} {es : List Ev} (h : commitAll m c es = .ok c') :
    c'.options.binlog.startingStrategy = c.options.binlog.startingStrategy := by
  obtain ⟨⟨f, p, g, l, h⟩, -⟩ := C20_only_positions_change m c c' es h
  rw [h]

theorem finished_all {γ : Type} (parts : List (Part γ)) (k : Nat) (hk : (flat parts).length ≤ k) :
    finished k parts = parts.flatMap Part.gtids := by
  induction parts generalizing k with
  | nil => rfl
  | cons p ps ih =>
    simp only [flat, List.flatMap_cons, List.length_append] at hk
    rw [finished, if_pos (by omega), ih (k - p.events.length) (by simp only [flat]; omega), List.flatMap_cons]

/-- C75. Crash and reconnect, end to end. The application commits the first `k` events of the first connection and then, at any time
later, replicates again with what was recorded. Of the transactions the first server had to send, the dump request of the second
connection leaves out exactly those with an event that was not committed. If the second server sends the ones left out, the
application gets all their events, and after committing them the recorded set stands for the initial transactions and all of the
server's: none is missing. -/
theorem C75_crash_and_reconnect (m : Mode) (c : Crypto) (client : Client) (chan : Channel) (hu : Usable c client.options)
    (hw : chan.writes = []) (checksum : ChecksumType) (bytes : Bytes) (hin : LetsIn c client.options False none checksum bytes)
    (set : GtidSet) (hs : client.options.binlog.startingStrategy = .fromGtid) (hset : client.options.binlog.gtidSet = some set)
    (hwf : Wf set) (ho : AllOrdered set) (parts : List (Part Gtid)) (hp : ∀ p ∈ parts, p.Ok MysqlTx)
    (hmax : ∀ g ∈ parts.flatMap Part.gtids, g.transactionId < 2 ^ 64 - 1)
    (hdistinct : ((parts.flatMap Part.gtids).map fun g => (g.sourceId.data, g.transactionId)).Nodup)
    (hnew : ∀ g ∈ parts.flatMap Part.gtids, ¬ Has set g.sourceId.data g.transactionId)
    (slices : List Bytes) (st : LogState) (hlog : LogOf (.start checksum) (flat parts) slices st)
    (hsize : ∀ x ∈ slices, x.length < 2 ^ 24 - 20) (n : Nat) (rest : Bytes)
    (hi : chan.input = bytes ++ frames (eventPackets n (flat parts) slices) ++ rest) (k : Nat) :
    ∃ stream client' stream' client'', client.replicate m c (.ok chan) = (.ok stream, client') ∧
      stream.Yields m ((flat parts).map .ok) stream' ∧ commitAll m client' ((flat parts).take k) = .ok client'' ∧
      ∀ (chan2 : Channel) (checksum2 : ChecksumType) (bytes2 : Bytes), Usable c client''.options → chan2.writes = [] →
        LetsIn c client''.options False none checksum2 bytes2 →
        ∀ (parts2 : List (Part Gtid)) (slices2 : List Bytes) (st2 : LogState), (∀ p ∈ parts2, p.Ok MysqlTx) →
          parts2.flatMap Part.gtids = unfinished k parts → LogOf (.start checksum2) (flat parts2) slices2 st2 →
          (∀ x ∈ slices2, x.length < 2 ^ 24 - 20) → ∀ (n2 : Nat) (rest2 : Bytes),
          chan2.input = bytes2 ++ frames (eventPackets n2 (flat parts2) slices2) ++ rest2 →
          ∃ again client3 again' front cmd sets client4 set4, client''.replicate m c (.ok chan2) = (.ok again, client3) ∧
            again.channel.trace = front ++ [.sent 0 cmd] ∧
            DumpGtidPacket 0 (if client''.options.blocking then client''.options.serverId else 0) client''.options.binlog.filename
              client''.options.binlog.position sets cmd ∧
            (∀ g ∈ parts.flatMap Part.gtids, ¬ Listed sets g ↔ g ∈ unfinished k parts) ∧
            again.Yields m ((flat parts2).map .ok) again' ∧
            commitAll m client3 (flat parts2) = .ok client4 ∧ client4.options.binlog.gtidSet = some set4 ∧
            ∀ u i, Has set4 u i ↔ Has set u i ∨ ∃ g ∈ parts.flatMap Part.gtids, u = g.sourceId.data ∧ i = g.transactionId := by
  obtain ⟨stream, client', stream', h1, rfl, h3, -⟩ := C74_replicate_then_iterate m c client chan hu hw False none checksum bytes hin
    (by simp [hs]) (fun _ => .inr ⟨not_false, by rw [hset]; rfl⟩) (flat parts) slices st hlog hsize n rest hi
  have hok : ∀ g ∈ parts.flatMap Part.gtids, GtidOk g := fun g hg => ⟨logged_ok hlog hp g hg, hmax g hg⟩
  obtain ⟨client'', set', h4, h5, h6, h7, h8⟩ := C17_exactly_finished m client.afresh set ⟨hs, rfl, hset⟩ hwf ho parts hp hok k
  refine ⟨stream, _, stream', client'', h1, h3, h4, ?_⟩
  intro chan2 checksum2 bytes2 hu2 hw2 hin2 parts2 slices2 st2 hp2 hgtids hlog2 hsize2 n2 rest2 hi2
  have hs2 : client''.options.binlog.startingStrategy = .fromGtid := (commitAll_keeps h4).trans hs
  obtain ⟨again, front, cmd, g1, g2, g3, -⟩ := mysql_asks m c client'' chan2 hu2 hw2 checksum2 bytes2 _ hin2 set' hs2 h5
    (by rw [hi2, List.append_assoc])
  obtain ⟨again0, client3, again', g4, rfl, g6, -⟩ := C74_replicate_then_iterate m c client'' chan2 hu2 hw2 False none checksum2
    bytes2 hin2 (by simp [hs2]) (fun _ => .inr ⟨not_false, by rw [h5]; rfl⟩) (flat parts2) slices2 st2 hlog2 hsize2 n2 rest2 hi2
  obtain rfl : again = again0 := by
    rw [g1] at g4
    exact Res.ok.inj (Prod.mk.inj g4).1
  have hall := finished_append_unfinished parts k
  have hok2 : ∀ g ∈ parts2.flatMap Part.gtids, GtidOk g := fun g hg => hok g (by
    rw [hall, ← hgtids]
    exact List.mem_append_right _ hg)
  obtain ⟨client4, set4, g7, g8, -, -, g9⟩ := C17_exactly_finished m client''.afresh set' ⟨hs2, rfl, h5⟩ h6 h7 parts2 hp2 hok2 (flat parts2).length
  rw [List.take_length] at g7
  rw [finished_all parts2 _ (le_refl _), hgtids] at g9
  refine ⟨again, _, again', front, cmd, setsOf set', client4, set4, g4, g2, g3, fun g hg => ?_, g6, g7, g8, fun u i => ?_⟩
  · rw [listed_setsOf, h8]
    rw [hall, List.map_append, List.nodup_append] at hdistinct
    constructor
    · intro h
      rw [hall] at hg
      rcases List.mem_append.1 hg with hg | hg
      · exact absurd (.inr ⟨g, hg, rfl, rfl⟩) h
      · exact hg
    · rintro hun (h | ⟨g', hg', e1, e2⟩)
      · exact hnew g hg h
      · exact hdistinct.2.2 _ (List.mem_map.2 ⟨g', hg', rfl⟩) _ (List.mem_map.2 ⟨g, hun, rfl⟩) (by rw [e1, e2])
  · rw [g9, h8, hall]
    simp only [List.mem_append]
    constructor
    · rintro ((h | ⟨g, h1, h2⟩) | ⟨g, h1, h2⟩)
      · exact .inl h
      · exact .inr ⟨g, .inl h1, h2⟩
      · exact .inr ⟨g, .inr h1, h2⟩
    · rintro (h | ⟨g, h1 | h1, h2⟩)
      · exact .inl (.inl h)
      · exact .inl (.inr ⟨g, h1, h2⟩)
      · exact .inr ⟨g, h1, h2⟩

/-! ## C76 -/

/-- What a decoder that knows the state answers to the rest of the log. -/
theorem Knows.answers {st st' : LogState} {events : List Ev} {slices : List Bytes} (hlog : LogOf st events slices st') (m : Mode)
    (p : EventParser) (k : Knows st p) : answers m p ((events.zip slices).map fun x => (x.1.1, x.2)) = events.map fun e => .ok e.2 := by
  induction hlog generalizing p with
  | nil => rfl
  | @cons st st1 st2 e slice es slices hf h ht ih =>
    obtain ⟨p', h1, h2⟩ := k.decode m h
    simp only [List.zip_cons_cons, List.map_cons, Spec.answers, h1]
    rw [ih p' h2]

theorem logOf_length {st st' : LogState} {events : List Ev} {slices : List Bytes} (hlog : LogOf st events slices st') :
    events.length = slices.length := by
  induction hlog with
  | nil => rfl
  | cons _ _ _ ih => simp [ih]

theorem logOf_headers {st st' : LogState} {events : List Ev} {slices : List Bytes} (hlog : LogOf st events slices st') :
    ∀ e ∈ events, HeaderFits e.1 := by
  induction hlog with
  | nil => simp
  | cons hf _ _ ih => simpa using ⟨hf, fun a b h => ih (a, b) h⟩

/-- C76. A log read from a file gives exactly its events, in order, and then the end. -/
theorem C76_file (m : Mode) (events : List Ev) (slices : List Bytes) (st : LogState)
    (hlog : LogOf (.start .none) events slices st) (hlen : ∀ x ∈ events.zip slices, x.1.1.eventLength = 19 + x.2.length) :
    ∃ r r', BinlogReader.new (fileBytes ((events.zip slices).map fun x => (x.1.1, x.2))) = .ok r ∧
      r.Drains m (events.map .ok) r' ∧ (r'.next m).1 = .ok none := by
  obtain ⟨-, r, r', h1, h2, h3⟩ := C27_reads_all m ((events.zip slices).map fun x => (x.1.1, x.2)) (by
    intro x hx
    obtain ⟨y, hy, rfl⟩ := List.mem_map.1 hx
    exact ⟨logOf_headers hlog _ (List.of_mem_zip hy).1, hlen y hy⟩) (events.map (·.2)) (by
    rw [Knows.answers hlog m EventParser.new (Knows.start .none), List.map_map]
    rfl)
  refine ⟨r, r', h1, ?_, h3⟩
  have e : ((((events.zip slices).map fun x => (x.1.1, x.2)).zip (events.map (·.2))).map fun x => (Except.ok (x.1.1, x.2) : Item)) =
      events.map .ok := by
    have hl := logOf_length hlog
    clear hlog hlen h1 h2 h3
    induction events generalizing slices with
    | nil => rfl
    | cons e es ih =>
      cases slices with
      | nil => simp at hl
      | cons x xs =>
        simp only [List.zip_cons_cons, List.map_cons]
        rw [ih xs (by simpa using hl)]
  rwa [e] at h2

/-- C76. The same log read from a file and sent by a server that had no checksum algorithm in force gives the same items. (The
stream ends with the end-of-file packet.) -/
theorem C76_file_and_stream (m : Mode) (events : List Ev) (slices : List Bytes) (st : LogState)
    (hlog : LogOf (.start .none) events slices st) (hlen : ∀ x ∈ events.zip slices, x.1.1.eventLength = 19 + x.2.length)
    (hsize : ∀ x ∈ slices, x.length < 2 ^ 24 - 20) (s : BinlogEvents) (hparser : s.parser = ⟨.none, []⟩) (n : Nat)
    (eof : Bytes × Nat) (heof : eof.1.head? = some 0xFE ∧ Framable eof) (rest : Bytes)
    (hi : s.channel.input = frames (eventPackets n events slices) ++ (frame eof.1 eof.2 ++ rest)) (r : BinlogReader)
    (hr : BinlogReader.new (fileBytes ((events.zip slices).map fun x => (x.1.1, x.2))) = .ok r) :
    ∃ items s' r', s.Drains m items s' ∧ r.Drains m items r' ∧ items = events.map .ok := by
  obtain ⟨s1, h1, -, h2⟩ := Knows.stream hlog m s (hparser ▸ Knows.start .none) n _ hsize hi
  obtain ⟨ch, -, h3⟩ := next_packet m s1 eof.1 rest eof.2 heof.2.1 heof.2.2 h2
  have hdone : s1.Drains m [] { s1 with channel := ch } := by
    refine .done ?_
    rw [h3]
    obtain ⟨p, n⟩ := eof
    cases p with
    | nil => simp at heof
    | cons b p =>
      obtain rfl : b = 0xFE := by simpa using heof.1
      simp
  obtain ⟨r1, r', h4, h5, -⟩ := C76_file m events slices st hlog hlen
  rw [hr] at h4
  obtain rfl := Res.ok.inj h4
  exact ⟨_, _, r', by simpa using h1.drains hdone, h5, rfl⟩

/-! ## A concrete exchange -/

/-- A body with a checksum. -/
def exSum : Bytes := [1, 2, 3, 4]

def exTableMap : Bytes := [7, 0, 0, 0, 0, 0, 1, 0] ++ [2, 100, 98, 0] ++ [1, 116, 0] ++ [2, 3, 1] ++ [0] ++ [2]

theorem exTableMap_body : TableMapBody 7 "db".toList "t".toList [(3, 0), (1, 0)] [false, true] [] exTableMap := by
  have h4 : Each ColumnMeta [(3, 0), (1, 0)] ([] ++ ([] ++ [])) := .cons (.nothing rfl) (.cons (.nothing rfl) .nil)
  exact TableMapBody.mk (tableId := 7) (db := "db".toList) (table := "t".toList) (flags := [1, 0]) (count := [2])
    (metaLength := [0]) (bitmap := [2]) (by decide) rfl (by decide +kernel) (by decide +kernel)
    (lenEnc_one (by decide) rfl) (by decide) h4 (lenEnc_one (by decide) rfl) rfl
    (bitmapLE_of_check rfl (by decide +kernel)) .nil

def exTyped (type : Nat) : EventHeader := ⟨0, type, 1, 0, 500, 0⟩

/-- GTID 5, BEGIN, a table map, two inserted rows, XID; a rotation; GTID 8, CREATE. -/
def exLogParts : List (Part Gtid) :=
  [.tx ⟨exUuid, 5⟩ [(exTyped 33, exGtid 5), (exTyped 2, exQuery "BEGIN"),
      (exTyped 19, .tableMap ⟨7, "db".toList, "t".toList, [3, 1], [0, 0], [false, true], none⟩),
      (exTyped 30, .writeRows ⟨7, 1, 2, [true, true], [⟨[some (.int 258), none]⟩, ⟨[some (.int 1), some (.tinyInt 9)]⟩]⟩),
      (exTyped 16, .xid ⟨7⟩)],
   .noise (exTyped 4, .rotate ⟨"bin.2".toList, 4⟩),
   .tx ⟨exUuid, 8⟩ [(exTyped 33, exGtid 8), (exTyped 2, exQuery "CREATE")]]

theorem exQuery_written (st : LogState) (sql : String) : Written st (exTyped 2, exQuery sql)
    (([1, 0, 0, 0, 0, 0, 0, 0, 2, 0, 0, 0, 0, 100, 98, 0] ++ utf8Bytes sql.toList) ++ match st.checksum with | .none => [] | .crc32 => exSum) st := by
  refine .plain (.query (thread := 1) (duration := 0) (error := 0) (status := []) (db := "db".toList) (sql := sql.toList) (by decide) (by decide)
    (by decide +kernel) (by decide) (by decide)) ⟨_, ?_, rfl⟩
  cases st.checksum <;> rfl

theorem exGtid_written (st : LogState) (n : Nat) (hn : n < 2 ^ 64) : Written st (exTyped 33, exGtid n)
    (([1] ++ exBytes ++ le 8 n ++ []) ++ match st.checksum with | .none => [] | .crc32 => exSum) st := by
  have h : exUuid = ⟨exBytes, uuidText exBytes⟩ := by decide +kernel
  unfold exGtid
  rw [h]
  refine .plain (.mySqlGtid (flags := 1) (by decide) (by decide) hn) ⟨_, ?_, rfl⟩
  cases st.checksum <;> rfl

theorem exLogParts_written (checksum : ChecksumType) : ∃ slices st, LogOf (.start checksum) (flat exLogParts) slices st ∧
    ∀ x ∈ slices, x.length < 2 ^ 24 - 20 := by
  have sum : ∀ body, WithChecksum checksum body (body ++ match checksum with | .none => [] | .crc32 => exSum) :=
    fun body => ⟨_, by cases checksum <;> rfl, rfl⟩
  refine ⟨_, _, .cons (by unfold HeaderFits; decide) (exGtid_written _ 5 (by decide)) (.cons (by unfold HeaderFits; decide) (exQuery_written _ _)
    (.cons (by unfold HeaderFits; decide) (.tableMap (columns := [(3, 0), (1, 0)]) rfl exTableMap_body (sum _) (.inl ⟨rfl, rfl⟩))
    (.cons (by unfold HeaderFits; decide) (.writeRows (version := 2) (columns := [(3, 0), (1, 0)]) (.inr ⟨rfl, rfl⟩) rfl (.inl (by decide)) sampleRowsBody (sum _))
    (.cons (by unfold HeaderFits; decide) (.plain (.xid (xid := 7) (extra := []) (by decide)) (sum _))
    (.cons (by unfold HeaderFits; decide) (.plain (.rotate (name := "bin.2".toList) (position := 4) (by decide)) (sum _))
    (.cons (by unfold HeaderFits; decide) (exGtid_written _ 8 (by decide)) (.cons (by unfold HeaderFits; decide) (exQuery_written _ _) .nil))))))), ?_⟩
  cases checksum <;> decide +kernel

theorem exLogParts_ok : (∀ p ∈ exLogParts, p.Ok MysqlTx) ∧ exLogParts.flatMap Part.gtids = [⟨exUuid, 5⟩, ⟨exUuid, 8⟩] := by
  refine ⟨?_, rfl⟩
  intro p hp
  simp only [exLogParts, List.mem_cons, List.not_mem_nil, or_false] at hp
  rcases hp with rfl | rfl | rfl
  · exact MysqlTx.block (mid := []) (body := [(exTyped 19, .tableMap ⟨7, "db".toList, "t".toList, [3, 1], [0, 0], [false, true], none⟩),
      (exTyped 30, .writeRows ⟨7, 1, 2, [true, true], [⟨[some (.int 258), none]⟩, ⟨[some (.int 1), some (.tinyInt 9)]⟩]⟩)])
      (x := ⟨⟨exUuid, 5⟩, 1⟩) rfl (by simp) rfl (by simp [Inside, IsGtid, Ends]) trivial
  · exact trivial
  · exact MysqlTx.auto (mid := []) (x := ⟨⟨exUuid, 8⟩, 1⟩) rfl (by simp) (by simp [AutoCommits, exQuery])

def exGtidUser : Client := exUser (.fromMysqlGtid exSet)

theorem exGtidUser_usable : Usable exCrypto exGtidUser.options :=
  ⟨exSmall _, ⟨by decide, by decide, by decide, (fun g h => by cases h; unfold GtidSetFits; decide +kernel), (fun g h => by cases h), by decide⟩, rfl⟩

theorem exGtidUser_in (o : ReplicaOptions) : LetsIn exCrypto o False none .crc32
    (frames ((exHello "8.0.30" "caching_sha2_password" 0xf7ff, 0) :: [([1, 3], 2), (exOk, 3)] ++ exConfigured)) :=
  .mk (exHello_greeting _ _ (by decide +kernel) (by decide +kernel)) (by decide) (by decide +kernel) (.inr rfl) (way := .hash) (by decide)
    (key := none) (.fast exOk_isOk rfl) (fun e h => by cases h) (by simpa using not_mariaDb (version := "8.0.30") (by decide +kernel))
    (by simpa using exConfigured_answers 0) (.inr ⟨not_false, rfl⟩)

/-- The hypotheses of C74 and C75 are met: a MySQL server, a client that starts at a GTID set, two transactions, a crash after the
sixth event, and a second connection. -/
example (m : Mode) : ∃ (bytes : Bytes) (slices : List Bytes) (st : LogState) (chan : Channel), LetsIn exCrypto exGtidUser.options False none .crc32 bytes ∧ Usable exCrypto exGtidUser.options ∧
    LogOf (.start .crc32) (flat exLogParts) slices st ∧ (∀ x ∈ slices, x.length < 2 ^ 24 - 20) ∧
    chan.writes = [] ∧ chan.input = bytes ++ frames (eventPackets 1 (flat exLogParts) slices) ++ [] ∧
    finished 6 exLogParts = [⟨exUuid, 5⟩] ∧ unfinished 6 exLogParts = [⟨exUuid, 8⟩] ∧
    ∃ client', commitAll m exGtidUser.afresh ((flat exLogParts).take 6) = .ok client' ∧ Usable exCrypto client'.options ∧
      LetsIn exCrypto client'.options False none .crc32 bytes := by
  obtain ⟨slices, st, h1, h2⟩ := exLogParts_written .crc32
  have h3 : commitAll m exGtidUser.afresh ((flat exLogParts).take 6) = .ok { exGtidUser with
      mysqlGtid := some ⟨exUuid, 5⟩,
      options := { exGtidUser.options with binlog := { exGtidUser.options.binlog with
        filename := "bin.2".toList, position := 4,
        gtidSet := some ⟨[(exUuid.uuid, ⟨exUuid, [⟨3, 7⟩]⟩), (exUuid2.uuid, ⟨exUuid2, [⟨9, 9⟩]⟩)]⟩ } } } := by
    clear h1 h2
    revert m
    rintro ⟨_ | _⟩ <;> decide +kernel
  refine ⟨_, slices, st, { exChannel [] with input := _ }, exGtidUser_in _, exGtidUser_usable, h1, h2, rfl, rfl, by decide, by decide, _, h3, ?_, ?_⟩
  · exact ⟨exSmall _, ⟨by decide, by decide, by decide +kernel, (fun g h => by cases h; unfold GtidSetFits; decide +kernel),
      (fun g h => by cases h), by decide⟩, rfl⟩
  · exact exGtidUser_in _

/-- The second server sends what was left out. -/
example : ∃ slices st, LogOf (.start .crc32) (flat (exLogParts.drop 2)) slices st ∧ (∀ x ∈ slices, x.length < 2 ^ 24 - 20) ∧
    (∀ p ∈ exLogParts.drop 2, p.Ok MysqlTx) ∧ (exLogParts.drop 2).flatMap Part.gtids = unfinished 6 exLogParts :=
  ⟨_, _, .cons (by unfold HeaderFits; decide) (exGtid_written _ 8 (by decide)) (.cons (by unfold HeaderFits; decide) (exQuery_written _ _) .nil),
    by decide +kernel, fun p hp => exLogParts_ok.1 p (List.mem_of_mem_drop hp), by decide⟩

theorem exListUser_in (o : ReplicaOptions) (h : o.binlog.startingStrategy = .fromGtid) : LetsIn exCrypto o True none .crc32
    (frames ((exHello "5.5.5-10.6.4-MariaDB" "mysql_native_password" 0xf7ff, 0) :: [(exOk, 2)] ++ (exConfigured ++ List.replicate 5 (exOk, 1)))) :=
  .mk (exHello_greeting _ _ (by decide +kernel) (by decide +kernel)) (by decide) (by decide +kernel) (.inl rfl) (way := .answered) (by decide)
    (key := none) (.ok exOk_isOk) (fun e h => by cases h) (iff_of_true trivial ⟨"5.5.5-10.6.4-".toList, [], by decide +kernel⟩)
    (exConfigured_answers 5) (.inl ⟨trivial, by rw [if_pos h]⟩)

/-- The hypotheses of C74 are met for MariaDB: GTID 0-1-271 and XID. -/
example : ∃ slices st, let parts : List (Part MGtid) := [.tx ⟨0, 1, 271⟩ [(exTyped 162, .mariaDbGtid ⟨⟨0, 1, 271⟩, 0⟩), (exTyped 16, .xid ⟨7⟩)]]
    LogOf (.start .crc32) (flat parts) slices st ∧ (∀ x ∈ slices, x.length < 2 ^ 24 - 20) ∧ (∀ p ∈ parts, p.Ok MariaTx) ∧
    (∀ p ∈ parts, NoStatementBefore p.events) ∧ Usable exCrypto (exUser (.fromMariadbGtid exList)).options ∧
    (exList.gtids.map (·.domainId)).Nodup := by
  have sum : ∀ body, WithChecksum .crc32 body (body ++ exSum) := fun body => ⟨_, rfl, rfl⟩
  refine ⟨_, _, .cons (by unfold HeaderFits; decide) (.maria (.gtid (header := exTyped 162) (sequence := 271) (domain := 0) (flags := 0) (extra := [])
    (by decide) (by decide) (by decide)) (sum _)) (.cons (by unfold HeaderFits; decide) (.plain (.xid (xid := 7) (extra := []) (by decide)) (sum _)) .nil),
    by decide +kernel, ?_, ?_, ⟨exSmall _, ⟨by decide, by decide, by decide, (fun g h => by cases h), (fun g h => by cases h; decide +kernel), by decide⟩, rfl⟩,
    by decide⟩
  · intro p hp
    rw [List.mem_singleton.1 hp]
    exact MariaTx.block (x := ⟨⟨0, 1, 271⟩, 0⟩) (body := []) rfl (by simp) trivial
  · intro p hp
    rw [List.mem_singleton.1 hp]
    simp [NoStatementBefore, Part.events, AutoCommits, Begins]

/-- The hypotheses of C76 are met: a format description that announces CRC32, and XID with a checksum. -/
example : ∃ slices st, let events : List Ev := [(⟨0, 15, 1, 121, 125, 0⟩, .formatDescription ⟨4, "8.0.30".toList, .crc32⟩),
      (⟨0, 16, 1, 31, 156, 0⟩, .xid ⟨7⟩)]
    LogOf (.start .none) events slices st ∧ (∀ x ∈ events.zip slices, x.1.1.eventLength = 19 + x.2.length) ∧
    ∀ x ∈ slices, x.length < 2 ^ 24 - 20 := by
  refine ⟨_, _, .cons (by unfold HeaderFits; decide) (.format (known := true) rfl
      (.mk (version := 4) (server := "8.0.30".toList) (pad := List.replicate 44 0) (created := [1, 2, 3, 4]) (headerLength := 19)
        (lengths := List.replicate 14 8 ++ [97] ++ List.replicate 25 0) (by decide) (by decide +kernel) (by decide) (by decide +kernel) (by decide)
        (by decide +kernel) (.crc32 (sum := exSum) rfl)) (by decide +kernel) (by decide) (fun h => by cases h))
    (.cons (by unfold HeaderFits; decide) (.plain (.xid (xid := 7) (extra := []) (by decide)) ⟨exSum, rfl, rfl⟩) .nil), by decide +kernel, by decide +kernel⟩

end MysqlCdc
