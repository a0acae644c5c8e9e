import Verif.Spec.Life
import Verif.Props.Sessions
/-!
# A client over any number of sessions, failed attempts and commits (C100)
-/

namespace MysqlCdc

open Spec

/-- What becomes of a client: the application commits events and calls `replicate` as often as it likes, each time over any connection. -/
inductive Life (m : Mode) (client : Client) : List Act → Client → Prop
  | start : Life m client [] client
  | commit {acts : List Act} {c c' : Client} (e : Ev) (h : Life m client acts c) (hc : c.commit m e.1 e.2 = .ok c') :
      Life m client (acts ++ [.commit e]) c'
  | succeeded {acts : List Act} {c c' : Client} {crypto : Crypto} {net : Except IoKind Channel} {stream : BinlogEvents}
      (h : Life m client acts c) (hr : c.replicate m crypto net = (.ok stream, c')) : Life m client (acts ++ [.attempt true]) c'
  | failed {acts : List Act} {c c' : Client} {crypto : Crypto} {net : Except IoKind Channel} {r : Res BinlogEvents}
      (h : Life m client acts c) (hr : c.replicate m crypto net = (r, c')) (hf : ∀ stream, r ≠ .ok stream) :
      Life m client (acts ++ [.attempt false]) c'

/-- From the reset on, set-up only changes the place. -/
theorem setUp_client (m : Mode) (c : Crypto) (s : Sess) :
    (∃ place, (setUp m c s).2.client = restarted s.client place) ∨
      ((setUp m c s).2.client = s.client ∧ ∀ ck, (setUp m c s).1 ≠ .ok ck) := by
  let R (a b : Sess) : Prop := ∃ f p, b.client = a.client.setPosition f p
  have hF : Frame R :=
    { refl := fun s => ⟨s.client.options.binlog.filename, s.client.options.binlog.position, rfl⟩
      trans := by
        rintro a b c ⟨f, p, h1⟩ ⟨f', p', h2⟩
        exact ⟨f', p', by rw [h2, h1]; rfl⟩
      read := fun s => ⟨s.client.options.binlog.filename, s.client.options.binlog.position, rfl⟩
      write := fun _ _ s => ⟨s.client.options.binlog.filename, s.client.options.binlog.position, rfl⟩ }
  have hP := hF.toPreorder'
  have h1 := frame_client.connect m c s
  unfold setUp
  rw [S.bind_eq]
  revert h1
  rcases connect m c s with ⟨r, s1⟩
  intro h1
  change s1.client = s.client at h1
  cases r with
  | ok provider =>
    left
    have h2 : SRel R (do
        adjustStartingPosition
        setMasterHeartbeat
        let checksum ← setMasterBinlogChecksum
        let self ← S.client
        let serverId := if self.options.blocking then self.options.serverId else 0
        match provider with
        | .mariaDB => replicateMariadb serverId
        | .mySQL => replicateMysql m serverId
        return checksum : S ChecksumType) := by
      refine .bind hP (hF.adjustStartingPosition fun s f p => ⟨f, p, rfl⟩) fun _ => .bind hP hF.setMasterHeartbeat fun _ =>
        .bind hP hF.setMasterBinlogChecksum fun _ => .bind hP (.client hP) fun self => ?_
      cases provider
      · exact .bind hP (hF.replicateMariadb _) fun _ => .pure hP _
      · exact .bind hP (hF.replicateMysql m _) fun _ => .pure hP _
    obtain ⟨f, p, h3⟩ := h2 { s1 with client := { s1.client with transaction := false, mariaGtid := none, mysqlGtid := none } }
    refine ⟨(f, p), ?_⟩
    rw [← h1]
    exact h3
  | err e => exact .inr ⟨h1, fun _ h => by cases h⟩
  | panic => exact .inr ⟨h1, fun _ h => by cases h⟩
  | hang => exact .inr ⟨h1, fun _ h => by cases h⟩

/-- **C100.** Every call of `replicate`, however it ends, leaves the client as it was or begins a session with it; one that succeeds begins
a session. -/
theorem C100_attempt (m : Mode) (c : Crypto) (client : Client) (net : Except IoKind Channel) :
    (∃ place, (client.replicate m c net).2 = restarted client place) ∨
      ((client.replicate m c net).2 = client ∧ ∀ stream, (client.replicate m c net).1 ≠ .ok stream) := by
  unfold Client.replicate
  cases Channel.open client.options net with
  | ok chan =>
    have h := setUp_client m c { client := client, chan := chan }
    revert h
    simp only
    rcases setUp m c { client := client, chan := chan } with ⟨r, s⟩
    intro h
    rcases h with ⟨place, h⟩ | ⟨h, h'⟩
    · left
      exact ⟨place, by cases r <;> exact h⟩
    · right
      cases r with
      | ok ck => exact absurd rfl (h' ck)
      | _ => exact ⟨h, fun _ h => by cases h⟩
  | err e => exact .inr ⟨rfl, fun _ h => by cases h⟩
  | panic => exact .inr ⟨rfl, fun _ h => by cases h⟩
  | hang => exact .inr ⟨rfl, fun _ h => by cases h⟩

theorem committed_commit (acts : List Act) (e : Ev) : committed (acts ++ [.commit e]) = committed acts ++ [e] := by
  simp [committed]

theorem committed_attempt (acts : List Act) (b : Bool) : committed (acts ++ [.attempt b]) = committed acts := by
  simp [committed]

/-- The cut events are the committed ones, in order. -/
theorem Spec.Cuts.all {acts : List Act} {past : List (List Ev)} {es : List Ev} (h : Cuts acts past es) :
    past.flatten ++ es = committed acts := by
  induction h with
  | nil => rfl
  | commit e h ih => rw [committed_commit, ← ih, List.append_assoc]
  | failed h ih => rw [committed_attempt, ih]
  | session b h ih => rw [committed_attempt, ← ih]; simp

/-- A life seen from the last session on, for anything that a session's commits and a restart carry on. -/
theorem Life.sessions {m : Mode} {client : Client} (Inv : List (List Ev) → Client → Prop) (Ok : Ev → Prop) (h0 : Inv [] client)
    (step : ∀ past c es c' place, Inv past c → (∀ e ∈ es, Ok e) → commitAll m c es = .ok c' → Inv (past ++ [es]) (restarted c' place))
    {acts : List Act} {c : Client} (h : Life m client acts c) (hok : ∀ e ∈ committed acts, Ok e) :
    ∃ past es c1, Cuts acts past es ∧ Inv past c1 ∧ commitAll m c1 es = .ok c := by
  have restart : ∀ {acts : List Act} {c : Client}, (∀ e ∈ committed acts, Ok e) → ∀ place succeeded,
      (∃ past es c1, Cuts acts past es ∧ Inv past c1 ∧ commitAll m c1 es = .ok c) →
      ∃ past es c1, Cuts (acts ++ [.attempt succeeded]) past es ∧ Inv past c1 ∧ commitAll m c1 es = .ok (restarted c place) := by
    rintro acts c hok place succeeded ⟨past, es, c1, h1, h2, h3⟩
    refine ⟨past ++ [es], [], restarted c place, .session succeeded h1, step past c1 es c place h2 (fun e he => hok e ?_) h3, rfl⟩
    rw [← h1.all]
    simp [he]
  induction h with
  | start => exact ⟨[], [], client, .nil, h0, rfl⟩
  | @commit acts c c' e h hc ih =>
    obtain ⟨past, es, c1, h1, h2, h3⟩ := ih fun x hx => hok x (by rw [committed_commit]; simp [hx])
    refine ⟨past, es ++ [e], c1, .commit e h1, h2, ?_⟩
    rw [commitAll_append, h3]
    simp [commitAll, hc]
  | @succeeded acts c c' crypto net stream h hr ih =>
    rw [committed_attempt] at hok
    rcases C100_attempt m crypto c net with ⟨place, h'⟩ | ⟨-, h'⟩
    · rw [hr] at h'
      obtain rfl : c' = _ := h'
      exact restart hok place true (ih hok)
    · rw [hr] at h'
      exact absurd rfl (h' stream)
  | @failed acts c c' crypto net r h hr hf ih =>
    rw [committed_attempt] at hok
    rcases C100_attempt m crypto c net with ⟨place, h'⟩ | ⟨h', -⟩
    · rw [hr] at h'
      obtain rfl : c' = _ := h'
      exact restart hok place false (ih hok)
    · rw [hr] at h'
      obtain rfl : c' = c := h'
      obtain ⟨past, es, c1, h1, h2, h3⟩ := ih hok
      exact ⟨past, es, c1, .failed h1, h2, h3⟩

/-- What a client that replicates by GTID sends is sent from what is recorded. -/
theorem gtid_not_end {c : Client} (h : c.options.binlog.startingStrategy = .fromGtid) : ¬wantsEnd c.options := by
  rintro ⟨e, -⟩
  rw [h] at e
  cases e

/-- **C100.** Replication by MySQL GTIDs, over any number of sessions and failed attempts, with any connections and any events: what is
recorded is what was recorded at first and the transactions that were finished by committed events of one session, their GTID being the
last one committed in that session. The next event can be committed, and the next `replicate` that succeeds with a MySQL server asks for
everything else. -/
theorem C100_mysql_gtids (m : Mode) (client : Client) (set : GtidSet) (hc : FromSet client set) (hlast : client.mysqlGtid = none)
    (hw : Wf set) (ho : AllOrdered set) (acts : List Act) (c : Client) (h : Life m client acts c)
    (hg : ∀ e ∈ committed acts, ∀ g, mysqlGtidOf e.2 = some g → GtidOk g) :
    ∃ past es set', Cuts acts past es ∧ c.options.binlog.gtidSet = some set' ∧ Wf set' ∧ AllOrdered set' ∧
      (∀ u n, Has set' u n ↔ Has set u n ∨
        ∃ session ∈ past ++ [es], ∃ g, Recorded mysqlGtidOf session g ∧ u = g.sourceId.data ∧ n = g.transactionId) ∧
      (∀ e : Ev, (∀ g, mysqlGtidOf e.2 = some g → GtidOk g) → ∃ c', c.commit m e.1 e.2 = .ok c') ∧
      ∀ (crypto : Crypto) (chan : Channel) (stream : BinlogEvents) (c' : Client), FitsRequests c.options →
        c.replicate m crypto (.ok chan) = (.ok stream, c') →
        ∃ t p maria, stream.channel.trace = chan.trace ++ t ++ [.sent 0 p] ∧ GreetedBy t maria ∧
          (maria = false → ∃ sets, DumpGtidPacket 0 (dumpId client.options) c.options.binlog.filename c.options.binlog.position sets p ∧
            ∀ u n, (∃ s ∈ sets, s.1 = u ∧ InIvs n s.2) ↔ Has set' u n) := by
  obtain ⟨past, es, c1, h1, ⟨set1, h2, h3, h4, h5, h6, hid1⟩, h7⟩ := h.sessions
    (Inv := fun past c1 => ∃ set1, FromSet c1 set1 ∧ c1.mysqlGtid = none ∧ Wf set1 ∧ AllOrdered set1 ∧ (∀ u n, Has set1 u n ↔ Has set u n ∨
      ∃ session ∈ past, ∃ g, Recorded mysqlGtidOf session g ∧ u = g.sourceId.data ∧ n = g.transactionId) ∧
      dumpId c1.options = dumpId client.options)
    (Ok := fun e => ∀ g, mysqlGtidOf e.2 = some g → GtidOk g)
    ⟨set, hc, hlast, hw, ho, by simp, rfl⟩
    (by
      rintro past c1 es c' place ⟨set1, h2, h3, h4, h5, h6, hid1⟩ hes h7
      obtain ⟨c2, set2, g1, g2, g3, g4, g5⟩ := C79_recorded_set m c1 set1 h2 h3 h4 h5 es hes
      obtain rfl : c' = c2 := Res.ok.inj (h7.symm.trans g1)
      obtain ⟨⟨f, p, gs, gl, h8⟩, -⟩ := C20_only_positions_change m _ c' es h7
      refine ⟨set2, ⟨?_, rfl, g2⟩, rfl, g3, g4, fun u n => ?_, ?_⟩
      · show c'.options.binlog.startingStrategy = _
        rw [h8]; exact h2.strategy
      · rw [g5, h6, or_assoc]
        refine or_congr_right ?_
        simp only [List.mem_append, List.mem_singleton]
        constructor
        · rintro (⟨s, hs, g, hg⟩ | ⟨g, hg⟩)
          · exact ⟨s, .inl hs, g, hg⟩
          · exact ⟨es, .inr rfl, g, hg⟩
        · rintro ⟨s, hs | rfl, g, hg⟩
          · exact .inl ⟨s, hs, g, hg⟩
          · exact .inr ⟨g, hg⟩
      · rw [← hid1]
        show dumpId (restarted c' place).options = _
        have : dumpId (restarted c' place).options = dumpId c'.options := rfl
        rw [this, h8]; rfl) hg
  have hes : ∀ e ∈ es, ∀ g, mysqlGtidOf e.2 = some g → GtidOk g := fun e he => hg e (by rw [← h1.all]; simp [he])
  obtain ⟨c2, set2, g1, g2, g3, g4, g5⟩ := C79_recorded_set m c1 set1 h2 h3 h4 h5 es hes
  obtain rfl : c = c2 := Res.ok.inj (h7.symm.trans g1)
  obtain ⟨⟨f, p, gs, gl, h8⟩, -⟩ := C20_only_positions_change m _ c es h7
  have hstrategy : c.options.binlog.startingStrategy = .fromGtid := by rw [h8]; exact h2.strategy
  have hid : dumpId c.options = dumpId client.options := by rw [← hid1, h8]; rfl
  refine ⟨past, es, set2, h1, g2, g3, g4, fun u n => ?_, fun e he => ?_, fun crypto chan stream c' hfits hr => ?_⟩
  · rw [g5, h6, or_assoc]
    refine or_congr_right ?_
    simp only [List.mem_append, List.mem_singleton]
    constructor
    · rintro (⟨s, hs, g, hg⟩ | ⟨g, hg⟩)
      · exact ⟨s, .inl hs, g, hg⟩
      · exact ⟨es, .inr rfl, g, hg⟩
    · rintro ⟨s, hs | rfl, g, hg⟩
      · exact .inl ⟨s, hs, g, hg⟩
      · exact .inr ⟨g, hg⟩
  · obtain ⟨c3, -, k1, -⟩ := C79_recorded_set m c1 set1 h2 h3 h4 h5 (es ++ [e]) (by
      intro x hx
      rcases List.mem_append.1 hx with hx | hx
      · exact hes x hx
      · obtain rfl := List.mem_singleton.1 hx
        exact he)
    rw [commitAll_append, h7] at k1
    change commitAll m c [e] = .ok c3 at k1
    obtain ⟨c4, k2, -⟩ := commitAll_cons k1
    exact ⟨c4, k2⟩
  · obtain ⟨t, p, maria, k1, k2, -, k3, -⟩ := asks_recorded hfits hr (gtid_not_end hstrategy)
    refine ⟨t, p, maria, k1, k2, fun hm => ?_⟩
    obtain ⟨g, k4, k5⟩ := k3 hstrategy hm
    obtain rfl : set2 = g := Option.some.inj (g2.symm.trans k4)
    rw [hid] at k5
    refine ⟨_, k5, fun u n => ?_⟩
    unfold Has setsOf
    simp

/-- A session more: what it recorded last, and what the sessions before it did in other domains. -/
theorem recordedLastOf_snoc (past : List (List Ev)) (es : List Ev) (g : MGtid) : RecordedLastOf (past ++ [es]) g ↔
    RecordedLast es g ∨ (RecordedLastOf past g ∧ ∀ g', Recorded mariaGtidOf es g' → g'.domainId ≠ g.domainId) := by
  constructor
  · rintro ⟨before, es', later, h, h1, h2⟩
    rcases split_snoc h with ⟨rfl, rfl, rfl⟩ | ⟨b, rfl, rfl⟩
    · exact .inl h1
    · exact .inr ⟨⟨before, es', b, rfl, h1, fun x hx => h2 x (by simp [hx])⟩, h2 es (by simp)⟩
  · rintro (h | ⟨⟨before, es', later, rfl, h1, h2⟩, h3⟩)
    · exact ⟨past, es, [], rfl, h, by simp⟩
    · refine ⟨before, es', later ++ [es], by simp, h1, fun x hx => ?_⟩
      rcases List.mem_append.1 hx with hx | hx
      · exact h2 x hx
      · obtain rfl := List.mem_singleton.1 hx
        exact h3

/-- A client that replicates from a MariaDB list never gets a MySQL set. -/
theorem commitAll_noSet {m : Mode} {c c' : Client} {es : List Ev} (h : commitAll m c es = .ok c') (hs : c.options.binlog.gtidSet = none) :
    c'.options.binlog.gtidSet = none := by
  have gtid : ∀ {c c' : Client}, c.options.binlog.gtidSet = none → c.commitGtid m = .ok c' → c'.options.binlog.gtidSet = none := by
    intro c c' hs h
    have hm : commitMysql m c.mysqlGtid c.options.binlog.gtidSet = .ok none := by
      rw [hs]
      cases c.mysqlGtid <;> rfl
    unfold Client.commitGtid at h
    rw [hm] at h
    simp only [Res.bind_ok, Res.pure_eq, Res.ok.injEq] at h
    rw [← h]
  induction es generalizing c with
  | nil =>
    simp only [commitAll, Res.ok.injEq] at h
    exact h ▸ hs
  | cons e es ih =>
    obtain ⟨c1, h1, h2⟩ := commitAll_cons h
    obtain ⟨c0, h3, rfl⟩ := commit_inv h1
    refine ih h2 ?_
    have h4 : c0.options.binlog.gtidSet = none := by
      unfold Client.updateGtidPosition at h3
      split at h3
      · exact Res.ok.inj h3 ▸ hs
      · split at h3
        · exact Res.ok.inj h3 ▸ hs
        · exact Res.ok.inj h3 ▸ hs
        · exact gtid hs h3
        · split at h3
          · exact Res.ok.inj h3 ▸ hs
          · split at h3
            · exact Res.ok.inj h3 ▸ hs
            · split at h3
              · exact gtid hs h3
              · split at h3
                · exact gtid hs h3
                · exact Res.ok.inj h3 ▸ hs
        · exact Res.ok.inj h3 ▸ hs
    unfold Client.updateBinlogPosition
    split
    · exact h4
    · exact h4
    · split <;> exact h4

/-- **C100.** Replication by MariaDB GTIDs, over any number of sessions and failed attempts, with any connections and any events: for each
domain the GTID is recorded that was finished last by committed events of one session, or the one recorded at first. Any event can be
committed next, and the next `replicate` that succeeds with a MariaDB server names exactly these GTIDs. -/
theorem C100_mariadb_gtids (m : Mode) (client : Client) (list : GtidList) (hc : FromList client list) (hlast : client.mariaGtid = none)
    (hd : (list.gtids.map (·.domainId)).Nodup) (acts : List Act) (c : Client) (h : Life m client acts c) :
    ∃ past es list', Cuts acts past es ∧ c.options.binlog.gtidList = some list' ∧ (list'.gtids.map (·.domainId)).Nodup ∧
      (∀ g, g ∈ list'.gtids ↔ RecordedLastOf (past ++ [es]) g ∨
        (g ∈ list.gtids ∧ ∀ session ∈ past ++ [es], ∀ g', Recorded mariaGtidOf session g' → g'.domainId ≠ g.domainId)) ∧
      (∀ e : Ev, ∃ c', c.commit m e.1 e.2 = .ok c') ∧
      ∀ (crypto : Crypto) (chan : Channel) (stream : BinlogEvents) (c' : Client), FitsRequests c.options →
        c.replicate m crypto (.ok chan) = (.ok stream, c') →
        ∃ t p maria, stream.channel.trace = chan.trace ++ t ++ [.sent 0 p] ∧ GreetedBy t maria ∧
          (maria = true → ∃ (p' : Bytes), Packet.sent 0 p' ∈ t ∧
            QueryPacket ("SET @slave_connect_state='".toList ++ [','].intercalate (list'.gtids.map gtidNumeral) ++ "'".toList) p') := by
  have grow : ∀ (past : List (List Ev)) (es : List Ev) (l1 l2 : List MGtid),
      (∀ g, g ∈ l1 ↔ RecordedLastOf past g ∨
        (g ∈ list.gtids ∧ ∀ session ∈ past, ∀ g', Recorded mariaGtidOf session g' → g'.domainId ≠ g.domainId)) →
      (∀ g, g ∈ l2 ↔ RecordedLast es g ∨ (g ∈ l1 ∧ ∀ g', Recorded mariaGtidOf es g' → g'.domainId ≠ g.domainId)) →
      ∀ g, g ∈ l2 ↔ RecordedLastOf (past ++ [es]) g ∨
        (g ∈ list.gtids ∧ ∀ session ∈ past ++ [es], ∀ g', Recorded mariaGtidOf session g' → g'.domainId ≠ g.domainId) := by
    intro past es l1 l2 h1 h2 g
    rw [h2, h1, recordedLastOf_snoc]
    simp only [List.mem_append, List.mem_singleton]
    constructor
    · rintro (h | ⟨h | ⟨h3, h4⟩, h5⟩)
      · exact .inl (.inl h)
      · exact .inl (.inr ⟨h, h5⟩)
      · refine .inr ⟨h3, ?_⟩
        rintro s (hs | rfl)
        · exact h4 s hs
        · exact h5
    · rintro ((h | ⟨h, h'⟩) | ⟨h, h'⟩)
      · exact .inl h
      · exact .inr ⟨.inl h, h'⟩
      · exact .inr ⟨.inr ⟨h, fun s hs => h' s (.inl hs)⟩, h' es (.inr rfl)⟩
  obtain ⟨past, es, c1, h1, ⟨list1, h2, h3, h4, h5⟩, h7⟩ := h.sessions
    (Inv := fun past c1 => ∃ list1, FromList c1 list1 ∧ c1.mariaGtid = none ∧ (list1.gtids.map (·.domainId)).Nodup ∧
      ∀ g, g ∈ list1.gtids ↔ RecordedLastOf past g ∨
        (g ∈ list.gtids ∧ ∀ session ∈ past, ∀ g', Recorded mariaGtidOf session g' → g'.domainId ≠ g.domainId))
    (Ok := fun _ => True)
    ⟨list, hc, hlast, hd, fun g => by simp [RecordedLastOf]⟩
    (by
      rintro past c1 es c' place ⟨list1, h2, h3, h4, h5⟩ - h7
      obtain ⟨c2, list2, g1, g2, g3, g4⟩ := C79_recorded_list m c1 list1 h2 h3 h4 es
      obtain rfl : c' = c2 := Res.ok.inj (h7.symm.trans g1)
      obtain ⟨⟨f, p, gs, gl, h8⟩, -⟩ := C20_only_positions_change m _ c' es h7
      refine ⟨list2, ⟨?_, rfl, g2, (commitAll_noSet h7 h2.noSet :)⟩, rfl, g3, grow past es _ _ h5 g4⟩
      show c'.options.binlog.startingStrategy = _
      rw [h8]; exact h2.strategy) (fun _ _ => trivial)
  obtain ⟨c2, list2, g1, g2, g3, g4⟩ := C79_recorded_list m c1 list1 h2 h3 h4 es
  obtain rfl : c = c2 := Res.ok.inj (h7.symm.trans g1)
  obtain ⟨⟨f, p, gs, gl, h8⟩, -⟩ := C20_only_positions_change m _ c es h7
  have hstrategy : c.options.binlog.startingStrategy = .fromGtid := by rw [h8]; exact h2.strategy
  refine ⟨past, es, list2, h1, g2, g3, grow past es _ _ h5 g4, fun e => ?_, fun crypto chan stream c' hfits hr => ?_⟩
  · obtain ⟨c3, -, k1, -⟩ := C79_recorded_list m c1 list1 h2 h3 h4 (es ++ [e])
    rw [commitAll_append, h7] at k1
    change commitAll m c [e] = .ok c3 at k1
    obtain ⟨c4, k2, -⟩ := commitAll_cons k1
    exact ⟨c4, k2⟩
  · obtain ⟨t, p, maria, k1, k2, -, -, k3⟩ := asks_recorded hfits hr (gtid_not_end hstrategy)
    refine ⟨t, p, maria, k1, k2, fun hm => ?_⟩
    obtain ⟨p', l, k4, k5, k6⟩ := k3 hstrategy hm
    obtain rfl : list2 = l := Option.some.inj (g2.symm.trans k5)
    exact ⟨p', k4, k6⟩

theorem lastOr_append {α : Type} (d : α) (xs ys : List α) : lastOr d (xs ++ ys) = lastOr (lastOr d xs) ys := by
  unfold lastOr
  rw [List.getLast?_append]
  cases ys.getLast? <;> rfl

theorem lastOr_mem {α : Type} (d : α) (xs : List α) : lastOr d xs = d ∨ lastOr d xs ∈ xs := by
  unfold lastOr
  cases h : xs.getLast? with
  | none => exact .inl rfl
  | some x => exact .inr (List.mem_of_getLast? h)

/-- **C100.** Replication by file and position, over any number of sessions and failed attempts, with any connections and any events: what is
recorded is the file of the last rotate event that was committed, and the last position a committed event carries, in 32 bits; until there is one, what was recorded at
first. Any event can be committed next, and the next `replicate` that succeeds asks for this place. (A client that starts from the
end must know a file at first, and go on knowing one; otherwise it asks the server.) -/
theorem C100_position (m : Mode) (client : Client) (hs : client.options.binlog.startingStrategy ≠ .fromGtid) (acts : List Act) (c : Client)
    (h : Life m client acts c) (hpos : ∀ e ∈ committed acts, e.1.nextEventPosition < 2 ^ 32)
    (hend : client.options.binlog.startingStrategy = .fromEnd → client.options.binlog.filename ≠ [] ∧
      ∀ e ∈ committed acts, newFile e ≠ some []) :
    let file := lastOr client.options.binlog.filename ((committed acts).filterMap newFile)
    let position := lastOr client.options.binlog.position (((committed acts).filterMap newPosition).map (· % 2 ^ 32))
    c.options = { client.options with binlog := { client.options.binlog with filename := file, position := position } } ∧
      (∀ e : Ev, ∃ c', c.commit m e.1 e.2 = .ok c') ∧
      ∀ (crypto : Crypto) (chan : Channel) (stream : BinlogEvents) (c' : Client), FitsRequests c.options →
        c.replicate m crypto (.ok chan) = (.ok stream, c') →
        ∃ t p, stream.channel.trace = chan.trace ++ t ++ [.sent 0 p] ∧ DumpPacket 0 (dumpId client.options) file position p := by
  -- the file name stays known
  have known : ∀ acts : List Act, (∀ e ∈ committed acts, client.options.binlog.startingStrategy = .fromEnd → newFile e ≠ some []) →
      client.options.binlog.startingStrategy ≠ .fromEnd ∨ lastOr client.options.binlog.filename ((committed acts).filterMap newFile) ≠ [] := by
    intro acts hacts
    by_cases he : client.options.binlog.startingStrategy = .fromEnd
    · right
      rcases lastOr_mem client.options.binlog.filename ((committed acts).filterMap newFile) with h | h
      · rw [h]; exact (hend he).1
      · intro h'
        rw [h'] at h
        obtain ⟨e, h1, h2⟩ := List.mem_filterMap.1 h
        exact hacts e h1 he h2
    · exact .inl he
  have hend' : ∀ e ∈ committed acts, client.options.binlog.startingStrategy = .fromEnd → newFile e ≠ some [] :=
    fun e he h => (hend h).2 e he
  have main : c.options = { client.options with binlog := { client.options.binlog with
      filename := lastOr client.options.binlog.filename ((committed acts).filterMap newFile)
      position := lastOr client.options.binlog.position (((committed acts).filterMap newPosition).map (· % 2 ^ 32)) } } := by
    clear hend
    have attempt : ∀ (acts : List Act) (c : Client) (crypto : Crypto) (net : Except IoKind Channel) (b : Bool),
        (∀ e ∈ committed acts, client.options.binlog.startingStrategy = .fromEnd → newFile e ≠ some []) →
        c.options = { client.options with binlog := { client.options.binlog with
          filename := lastOr client.options.binlog.filename ((committed acts).filterMap newFile)
          position := lastOr client.options.binlog.position (((committed acts).filterMap newPosition).map (· % 2 ^ 32)) } } →
        (c.replicate m crypto net).2.options = { client.options with binlog := { client.options.binlog with
          filename := lastOr client.options.binlog.filename ((committed (acts ++ [.attempt b])).filterMap newFile)
          position := lastOr client.options.binlog.position (((committed (acts ++ [.attempt b])).filterMap newPosition).map (· % 2 ^ 32)) } } := by
      intro acts c crypto net b hacts h
      rw [committed_attempt, replicate_keeps_options m crypto c net (by rw [h]; exact known acts hacts), h]
    induction h with
    | start => rfl
    | @commit acts c c' e h hc ih =>
      have i := ih (fun x hx => hpos x (by rw [committed_commit]; simp [hx])) (fun x hx => hend' x (by rw [committed_commit]; simp [hx]))
      have hall : commitAll m c [e] = .ok c' := by simp [commitAll, hc]
      obtain ⟨h5, h6⟩ := C19_position_cut m c c' [e] (fun x hx => hpos x (by
        obtain rfl := List.mem_singleton.1 hx
        rw [committed_commit]; simp)) hall
      obtain ⟨⟨f, p, gs, gl, h7⟩, h8⟩ := C20_only_positions_change m c c' [e] hall
      obtain ⟨h9, h10⟩ := h8 (by rw [i]; exact hs)
      rw [h7] at h5 h6 h9 h10
      simp only at h5 h6 h9 h10
      rw [h7, h5, h6, h9, h10, committed_commit, List.filterMap_append, List.filterMap_append, List.map_append, lastOr_append, lastOr_append, i]
    | @succeeded acts c c' crypto net stream h hr ih =>
      rw [committed_attempt] at hpos hend'
      have := attempt acts c crypto net true hend' (ih hpos hend')
      rw [hr] at this
      exact this
    | @failed acts c c' crypto net r h hr hf ih =>
      rw [committed_attempt] at hpos hend'
      have := attempt acts c crypto net false hend' (ih hpos hend')
      rw [hr] at this
      exact this
  have hs' : c.options.binlog.startingStrategy ≠ .fromGtid := by rw [main]; exact hs
  refine ⟨main, fun e => ?_, fun crypto chan stream c' hfits hr => ?_⟩
  · obtain ⟨c', h1⟩ := commits_position m [e] c hs'
    obtain ⟨c4, k2, -⟩ := commitAll_cons h1
    exact ⟨c4, k2⟩
  · obtain ⟨t, p, maria, g1, g2, g3, -, -⟩ := asks_recorded hfits hr (by
      rintro ⟨e1, e2⟩
      rw [main] at e1 e2
      rcases known acts hend' with h | h
      · exact h e1
      · exact h e2)
    refine ⟨t, p, g1, ?_⟩
    have := g3 (.inl hs')
    rw [main] at this
    exact this

/-! ## Examples -/

/-- A connection to a MySQL server that lets the client in. -/
def exOpens : Channel :=
  { exChannel [] with input := frames ((exHello "8.0.30" "caching_sha2_password" 0xf7ff, 0) :: [([1, 3], 2), (exOk, 3)] ++ exConfigured) }

theorem exOpens_in (m : Mode) (client : Client) (h : client.options = exGtidUser.options) :
    ∃ stream, client.replicate m exCrypto (.ok exOpens) = (.ok stream, client.afresh) := by
  obtain ⟨stream, client', stream', h3, h4, -⟩ := C74_replicate_then_iterate m exCrypto client exOpens (h ▸ exGtidUser_usable)
    rfl False none .crc32 _ (exGtidUser_in _) (by rw [h]; decide) (fun _ => .inr ⟨not_false, by rw [h]; rfl⟩) [] [] _ .nil (by simp) 1 [] (by simp [exOpens, eventPackets, frames])
  subst h4
  exact ⟨stream, h3⟩

/-- GTID 5 in the first session, the end of its transaction only in the second; then GTID 8, an attempt that reaches no server, and the
end of a transaction. -/
def exActs : List Act :=
  [.attempt true, .commit (exHeader 0, exGtid 5), .attempt true, .commit (exHeader 0, .xid ⟨1⟩), .commit (exHeader 0, exGtid 8), .attempt false,
   .commit (exHeader 0, .xid ⟨2⟩)]

theorem exActs_life (m : Mode) : ∃ c, Life m exGtidUser exActs c ∧ c.options.binlog.gtidSet =
    some ⟨[(exUuid.uuid, ⟨exUuid, [⟨3, 4⟩, ⟨6, 8⟩]⟩), (exUuid2.uuid, ⟨exUuid2, [⟨9, 9⟩]⟩)]⟩ := by
  obtain ⟨s1, h1⟩ := exOpens_in m exGtidUser rfl
  obtain ⟨s2, h2⟩ := exOpens_in m { exGtidUser.afresh with mysqlGtid := some ⟨exUuid, 5⟩ } rfl
  have l1 : Life m exGtidUser [.attempt true] exGtidUser.afresh := .succeeded .start h1
  have l2 := Life.commit (exHeader 0, exGtid 5) l1 (c' := { exGtidUser.afresh with mysqlGtid := some ⟨exUuid, 5⟩ }) rfl
  have l3 := Life.succeeded l2 h2
  have l4 := Life.commit (exHeader 0, .xid ⟨1⟩) l3 (c' := exGtidUser.afresh) rfl
  have l5 := Life.commit (exHeader 0, exGtid 8) l4 (c' := { exGtidUser.afresh with mysqlGtid := some ⟨exUuid, 8⟩ }) rfl
  have l6 := Life.failed (crypto := exCrypto) (net := .error (.other 111)) (r := .err (.io (.other 111))) l5 rfl (fun _ h => by cases h)
  obtain ⟨c, hc⟩ : ∃ c, ({ exGtidUser.afresh with mysqlGtid := some ⟨exUuid, 8⟩ } : Client).commit m (exHeader 0) (.xid ⟨2⟩) = .ok c ∧
      c.options.binlog.gtidSet = some ⟨[(exUuid.uuid, ⟨exUuid, [⟨3, 4⟩, ⟨6, 8⟩]⟩), (exUuid2.uuid, ⟨exUuid2, [⟨9, 9⟩]⟩)]⟩ := by
    have h : ∀ m : Mode, (match ({ exGtidUser.afresh with mysqlGtid := some ⟨exUuid, 8⟩ } : Client).commit m (exHeader 0) (.xid ⟨2⟩) with
        | .ok c => c.options.binlog.gtidSet
        | _ => none) = some ⟨[(exUuid.uuid, ⟨exUuid, [⟨3, 4⟩, ⟨6, 8⟩]⟩), (exUuid2.uuid, ⟨exUuid2, [⟨9, 9⟩]⟩)]⟩ := by
      rintro ⟨_ | _⟩ <;> decide +kernel
    have h := h m
    revert h
    cases ({ exGtidUser.afresh with mysqlGtid := some ⟨exUuid, 8⟩ } : Client).commit m (exHeader 0) (.xid ⟨2⟩) with
    | ok c => exact fun h => ⟨c, rfl, h⟩
    | _ => exact fun h => by cases h
  exact ⟨c, Life.commit (exHeader 0, .xid ⟨2⟩) l6 hc.1, hc.2⟩

/-- The hypotheses of `C100_mysql_gtids` are met. Transaction 8 is recorded, transaction 5 is not. -/
example (m : Mode) : ∃ c, Life m exGtidUser exActs c ∧ FromSet exGtidUser exSet ∧ exGtidUser.mysqlGtid = none ∧
    (∀ e ∈ committed exActs, ∀ g, mysqlGtidOf e.2 = some g → GtidOk g) := by
  obtain ⟨c, h, -⟩ := exActs_life m
  refine ⟨c, h, ⟨rfl, rfl, rfl⟩, rfl, ?_⟩
  intro e he g hg
  simp only [exActs, committed, List.filterMap_cons, List.filterMap_nil, List.mem_cons, List.not_mem_nil, or_false] at he
  rcases he with rfl | rfl | rfl | rfl <;> simp [mysqlGtidOf, exGtid] at hg <;> subst hg <;> exact ⟨UuidCanon_ok exUuid_canon, by decide⟩

/-- A MariaDB transaction, an attempt that reaches no server, another transaction. -/
example (m : Mode) : ∃ c, Life m (exUser (.fromMariadbGtid exList))
      [.attempt true, .commit (exTyped 162, .mariaDbGtid ⟨⟨0, 1, 271⟩, 0⟩), .commit (exTyped 16, .xid ⟨7⟩), .attempt false] c ∧
    FromList (exUser (.fromMariadbGtid exList)) exList ∧ (exList.gtids.map (·.domainId)).Nodup := by
  obtain ⟨stream, client', stream', h3, -⟩ := C74_replicate_then_iterate m exCrypto (exUser (.fromMariadbGtid exList))
    { exChannel [] with input := _ } ⟨exSmall _, ⟨by decide, by decide, by decide, (fun g h => by cases h), (fun g h => by cases h; decide +kernel), by decide⟩, rfl⟩
    rfl True none .crc32 _ (exListUser_in _ rfl) (by decide) (fun _ => .inl ⟨trivial, rfl⟩) [] [] _ .nil (by simp) 1 [] rfl
  have l1 := Life.succeeded .start h3
  obtain ⟨-, -, -, -, -, -, -, h4, -⟩ := C100_mariadb_gtids m _ exList ⟨rfl, rfl, rfl, rfl⟩ rfl (by decide) _ _ l1
  obtain ⟨c1, h5⟩ := h4 (exTyped 162, .mariaDbGtid ⟨⟨0, 1, 271⟩, 0⟩)
  have l2 := Life.commit _ l1 h5
  obtain ⟨-, -, -, -, -, -, -, h6, -⟩ := C100_mariadb_gtids m _ exList ⟨rfl, rfl, rfl, rfl⟩ rfl (by decide) _ _ l2
  obtain ⟨c2, h7⟩ := h6 (exTyped 16, .xid ⟨7⟩)
  have l3 := Life.commit _ l2 h7
  exact ⟨c2, .failed (crypto := exCrypto) (net := .error (.other 111)) (r := .err (.io (.other 111))) l3 rfl (fun _ h => by cases h), ⟨rfl, rfl, rfl, rfl⟩, by decide⟩

/-- An attempt that reaches no server, a rotation to file `a`, another such attempt. -/
example (m : Mode) : ∃ c, Life m (exUser (.fromPosition "b".toList 300)) [.attempt false, .commit exMoved, .attempt false] c ∧
    c.options.binlog.filename = ['a'] ∧ c.options.binlog.position = 4 ∧ exMoved.1.nextEventPosition < 2 ^ 32 := by
  have l1 := Life.failed (m := m) (crypto := exCrypto) (net := .error (.other 111)) (r := .err (.io (.other 111)))
    (.start (client := exUser (.fromPosition "b".toList 300))) rfl (fun _ h => by cases h)
  have l2 := Life.commit exMoved l1 (c' := restarted (exUser (.fromPosition "b".toList 300)) (['a'], 4)) rfl
  exact ⟨_, .failed (crypto := exCrypto) (net := .error (.other 111)) (r := .err (.io (.other 111))) l2 rfl (fun _ h => by cases h), rfl, rfl, by decide⟩

end MysqlCdc
