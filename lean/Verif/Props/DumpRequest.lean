import Verif.Props.Connect
import Verif.Props.Channel
import Verif.Lemmas.MariaText
import Verif.Lemmas.GtidReturns
import Verif.Props.Client
/-!
# C60 - C62: what set-up asks the server for
-/

namespace MysqlCdc

open Spec

theorem read_ok {s s' : Sess} {x : Bytes × Nat} (h : S.readPacket s = (.ok x, s')) :
    s'.client = s.client ∧ s'.chan.trace = s.chan.trace ++ [.received x.2 x.1] := by
  obtain ⟨p, n⟩ := x
  unfold S.readPacket at h
  rcases hr : s.chan.readPacket with ⟨r, ch⟩
  rw [hr] at h
  simp only [Prod.mk.injEq] at h
  obtain ⟨rfl, rfl⟩ := h
  obtain ⟨-, -, rest, -, rfl⟩ := readPacket_inv hr
  exact ⟨rfl, rfl⟩

theorem read_fail {s s' : Sess} {r : Res (Bytes × Nat)} (h : S.readPacket s = (r, s')) (hr : ∀ x, r ≠ .ok x) :
    s'.client = s.client ∧ s'.chan.trace = s.chan.trace := by
  unfold S.readPacket at h
  rcases hc : s.chan.readPacket with ⟨r', ch⟩
  rw [hc] at h
  simp only [Prod.mk.injEq] at h
  obtain ⟨rfl, rfl⟩ := h
  obtain ⟨-, rfl⟩ := readPacket_fail hc hr
  exact ⟨rfl, rfl⟩

theorem write_trace (s : Sess) (p : Bytes) (k : Nat) :
    (S.writePacket p k s).2.client = s.client ∧ (S.writePacket p k s).2.chan.trace = s.chan.trace ++ [.sent k p] := by
  obtain ⟨out, ws, hw⟩ := writePacket_frame s.chan p k
  refine ⟨rfl, ?_⟩
  show (s.chan.writePacket p k).2.trace = _
  rw [hw]

theorem write_ok {s s' : Sess} {u : Unit} {p : Bytes} {k : Nat} (h : S.writePacket p k s = (.ok u, s')) :
    s'.client = s.client ∧ s'.chan.trace = s.chan.trace ++ [.sent k p] := by
  have := write_trace s p k
  rwa [h] at this

theorem lift_ok {α : Type} {r : Res α} {s s' : Sess} {a : α} (h : S.lift r s = (.ok a, s')) : r = .ok a ∧ s' = s := by
  unfold S.lift at h
  simp only [Prod.mk.injEq] at h
  exact ⟨h.1, h.2.symm⟩

theorem strContains_iff (needle text : RStr) (hn : needle ≠ []) :
    strContains needle text = true ↔ ∃ a b, text = a ++ needle ++ b := by
  induction text with
  | nil =>
    simp only [strContains, List.isEmpty_iff, hn, false_iff, not_exists]
    intro a b h
    have := congrArg List.length h
    simp only [List.length_nil, List.length_append] at this
    exact hn (List.length_eq_zero_iff.1 (by omega))
  | cons c cs ih =>
    rw [strContains, Bool.or_eq_true, ih, List.isPrefixOf_iff_prefix]
    constructor
    · rintro (⟨b, h⟩ | ⟨a, b, rfl⟩)
      · exact ⟨[], b, by simpa using h.symm⟩
      · exact ⟨c :: a, b, rfl⟩
    · rintro ⟨a, b, h⟩
      cases a with
      | nil => exact .inl ⟨b, by simpa using h.symm⟩
      | cons x a =>
        simp only [List.cons_append, List.cons.injEq] at h
        exact .inr ⟨a, b, h.2⟩

theorem fromServer_maria (version : RStr) : DatabaseProvider.fromServer version = .mariaDB ↔ IsMariaDb version := by
  unfold DatabaseProvider.fromServer IsMariaDb
  rw [← strContains_iff _ _ (by decide)]
  split <;> simp_all

/-- `connect` decides by the greeting, which is the first packet. -/
theorem connect_ok {m : Mode} {c : Crypto} {s s1 : Sess} {provider : DatabaseProvider} (h : connect m c s = (.ok provider, s1)) :
    ∃ n q t, s1.chan.trace = s.chan.trace ++ .received n q :: t ∧ s1.client = s.client ∧
      (∀ p k rest, p.length < 2 ^ 24 → k < 2 ^ 8 → s.chan.input = frame p k ++ rest → q = p) ∧
      ∀ g, Greeting g q → (provider = .mariaDB ↔ IsMariaDb g.serverVersion) := by
  have hc : s1.client = s.client := by
    have := frame_client.connect m c s
    rwa [h] at this
  unfold connect at h
  obtain ⟨x, s2, h1, h2⟩ := S.bind_ok h
  obtain ⟨-, t1⟩ := read_ok h1
  obtain ⟨_, s3, h3, h4⟩ := S.bind_ok h2
  obtain ⟨-, rfl⟩ := lift_ok h3
  obtain ⟨handshake, s4, h5, h6⟩ := S.bind_ok h4
  obtain ⟨hq, rfl⟩ := lift_ok h5
  obtain ⟨plugin, s5, h7, h8⟩ := S.bind_ok h6
  obtain ⟨-, rfl⟩ := lift_ok h7
  obtain ⟨k, s6, h9, h10⟩ := S.bind_ok h8
  obtain ⟨-, rfl⟩ := lift_ok h9
  obtain ⟨_, s7, h11, h12⟩ := S.bind_ok h10
  simp only [S.pure_eq, Prod.mk.injEq, Res.ok.injEq] at h12
  obtain ⟨rfl, rfl⟩ := h12
  have hg := frame_grows.authenticate m c handshake plugin k s6
  rw [h11] at hg
  obtain ⟨t, ht⟩ := hg
  refine ⟨x.2, x.1, t, by rw [← ht, t1]; simp, hc, fun p k rest hp hk hi => ?_, fun g hgr => ?_⟩
  · unfold S.readPacket at h1
    rw [readPacket_frame s.chan p rest k hp hk hi] at h1
    simp only [Prod.mk.injEq, Res.ok.injEq] at h1
    rw [← h1.1]
  have := C53_greeting_decoded g x.1 hgr
  rw [hq, Res.ok.injEq] at this
  rw [fromServer_maria, this]

/-- A successful `replicate_mysql`: one packet. -/
theorem replicateMysql_ok {m : Mode} {id : Nat} {s s' : Sess} {u : Unit} (h : replicateMysql m id s = (.ok u, s')) :
    s'.client = s.client ∧ ∃ cmd, s'.chan.trace = s.chan.trace ++ [.sent 0 cmd] ∧
      (s.client.options.binlog.startingStrategy ≠ .fromGtid ∧
          cmd = dumpBinlogCommand id s.client.options.binlog.filename s.client.options.binlog.position ∨
        s.client.options.binlog.startingStrategy = .fromGtid ∧ ∃ set, s.client.options.binlog.gtidSet = some set ∧
          dumpBinlogGtidCommand m id s.client.options.binlog.filename s.client.options.binlog.position set = .ok cmd) := by
  unfold replicateMysql at h
  obtain ⟨self, s1, h1, h2⟩ := S.bind_ok h
  simp only [S.client, Prod.mk.injEq, Res.ok.injEq] at h1
  obtain ⟨rfl, rfl⟩ := h1
  simp only at h2
  split at h2
  · rename_i hs
    cases hset : s.client.options.binlog.gtidSet with
    | some set =>
      rw [hset] at h2
      obtain ⟨cmd, s2, h3, h4⟩ := S.bind_ok h2
      obtain ⟨hcmd, rfl⟩ := lift_ok h3
      obtain ⟨a, b⟩ := write_ok h4
      exact ⟨a, cmd, b, .inr ⟨hs, set, rfl, hcmd⟩⟩
    | none =>
      rw [hset] at h2
      simp [S.fail, S.lift] at h2
  · rename_i hs
    obtain ⟨a, b⟩ := write_ok h2
    exact ⟨a, _, b, .inl ⟨hs, rfl⟩⟩

/-- A successful `replicate_mariadb`. -/
theorem replicateMariadb_ok {id : Nat} {s s' : Sess} {u : Unit} (h : replicateMariadb id s = (.ok u, s')) :
    s'.client = s.client ∧ ∃ t, s'.chan.trace = s.chan.trace ++ t ++
        [.sent 0 (dumpBinlogCommand id s.client.options.binlog.filename s.client.options.binlog.position)] ∧
      (s.client.options.binlog.startingStrategy = .fromGtid → ∃ list, s.client.options.binlog.gtidList = some list ∧
        Packet.sent 0 (queryCommand ("SET @slave_connect_state='".toList ++ list.display ++ "'".toList)) ∈ t) := by
  unfold replicateMariadb at h
  obtain ⟨_, s1, h1, h2⟩ := S.bind_ok h
  have hc1 : s1.client = s.client := by
    have := frame_client.simpleQuery "SET @mariadb_slave_capability=4".toList "Setting @mariadb_slave_capability error." s
    rwa [h1] at this
  have hg1 : s.chan.trace <+: s1.chan.trace := by
    have := frame_grows.simpleQuery "SET @mariadb_slave_capability=4".toList "Setting @mariadb_slave_capability error." s
    rwa [h1] at this
  obtain ⟨t1, ht1⟩ := hg1
  obtain ⟨self, s2, h3, h4⟩ := S.bind_ok h2
  simp only [S.client, Prod.mk.injEq, Res.ok.injEq] at h3
  obtain ⟨rfl, rfl⟩ := h3
  rw [hc1] at h4
  simp only at h4
  split at h4
  · rename_i hs
    cases hlist : s.client.options.binlog.gtidList with
    | some list =>
      rw [hlist] at h4
      obtain ⟨_, s3, h5, h6⟩ := S.bind_ok h4
      obtain ⟨a, b⟩ := write_ok h6
      unfold registerGtidSlave at h5
      obtain ⟨_, s4, h7, h8⟩ := S.bind_ok h5
      have hF := frame_client.and frame_grows
      have hP := hF.toPreorder'
      have hrest := (SRel.bind hP (hF.simpleQuery "SET @slave_gtid_strict_mode=0".toList "Setting @slave_gtid_strict_mode error.")
        fun _ => .bind hP (hF.simpleQuery "SET @slave_gtid_ignore_duplicates=0".toList "Setting @slave_gtid_ignore_duplicates error.")
        fun _ => .bind hP (hF.write (registerSlaveCommand s.client.options.serverId) 0) fun _ => .bind hP hF.read fun x =>
          .lift hP (checkErrorPacket x.1 "Registering slave error.")) s4
      rw [show ((simpleQuery "SET @slave_gtid_strict_mode=0".toList "Setting @slave_gtid_strict_mode error." >>= fun _ => _ : S Unit)) s4
        = (.ok _, s3) from h8] at hrest
      unfold simpleQuery at h7
      obtain ⟨_, s5, h9, h10⟩ := S.bind_ok h7
      obtain ⟨a2, b2⟩ := write_ok h9
      obtain ⟨x, s6, h11, h12⟩ := S.bind_ok h10
      obtain ⟨a3, b3⟩ := read_ok h11
      obtain ⟨-, rfl⟩ := lift_ok h12
      obtain ⟨t2, ht2⟩ := hrest.2
      refine ⟨by rw [a, hrest.1, a3, a2, hc1], t1 ++ [.sent 0 _] ++ [.received x.2 x.1] ++ t2, ?_, fun _ => ⟨list, rfl,
        List.mem_append_left _ (List.mem_append_left _ (List.mem_append_right _ (List.mem_singleton.2 rfl)))⟩⟩
      rw [b, ← ht2, b3, b2, ← ht1]
      simp
    | none =>
      rw [hlist] at h4
      simp [S.fail, S.lift] at h4
  · rename_i hs
    obtain ⟨a, b⟩ := write_ok h4
    exact ⟨by rw [a, hc1], t1, by rw [b, ← ht1], fun h => absurd h hs⟩

/-- The packets of a successful set-up: the greeting first, the dump request last. -/
theorem setUp_ok {m : Mode} {c : Crypto} {s s' : Sess} {checksum : ChecksumType} (h : setUp m c s = (.ok checksum, s')) :
    ∃ n q t cmd, s'.chan.trace = s.chan.trace ++ .received n q :: t ++ [.sent 0 cmd] ∧
      (∀ p k rest, p.length < 2 ^ 24 → k < 2 ^ 8 → s.chan.input = frame p k ++ rest → q = p) ∧ ∀ g, Greeting g q →
      let o := s'.client.options
      let id := if o.blocking then o.serverId else 0
      (IsMariaDb g.serverVersion → cmd = dumpBinlogCommand id o.binlog.filename o.binlog.position ∧
        (o.binlog.startingStrategy = .fromGtid → ∃ list, o.binlog.gtidList = some list ∧
          Packet.sent 0 (queryCommand ("SET @slave_connect_state='".toList ++ list.display ++ "'".toList)) ∈ t)) ∧
      (¬ IsMariaDb g.serverVersion →
        o.binlog.startingStrategy ≠ .fromGtid ∧ cmd = dumpBinlogCommand id o.binlog.filename o.binlog.position ∨
        o.binlog.startingStrategy = .fromGtid ∧ ∃ set, o.binlog.gtidSet = some set ∧
          dumpBinlogGtidCommand m id o.binlog.filename o.binlog.position set = .ok cmd) := by
  unfold setUp at h
  obtain ⟨provider, s1, h1, h2⟩ := S.bind_ok h
  obtain ⟨n, q, t1, ht1, -, hq, hg⟩ := connect_ok h1
  -- up to the dump request the packets grow
  have hR := fullFrame_grows
  have hF := hR.toFrame
  have hP := hF.toPreorder'
  obtain ⟨_, s2, h3, h4⟩ := S.bind_ok h2
  have g1 := hR.reset s1
  rw [h3] at g1
  obtain ⟨_, s3, h5, h6⟩ := S.bind_ok h4
  have g2 := hR.adjust s2
  rw [h5] at g2
  obtain ⟨_, s4, h7, h8⟩ := S.bind_ok h6
  have g3 := hF.setMasterHeartbeat s3
  rw [h7] at g3
  obtain ⟨checksum', s5, h9, h10⟩ := S.bind_ok h8
  have g4 := hF.setMasterBinlogChecksum s4
  rw [h9] at g4
  obtain ⟨t2, ht2⟩ := ((g1.trans g2).trans g3).trans g4
  obtain ⟨self, s6, h11, h12⟩ := S.bind_ok h10
  simp only [S.client, Prod.mk.injEq, Res.ok.injEq] at h11
  obtain ⟨rfl, rfl⟩ := h11
  cases provider with
  | mariaDB =>
    obtain ⟨_, s7, h13, h14⟩ := S.bind_ok h12
    simp only [S.pure_eq, Prod.mk.injEq, Res.ok.injEq] at h14
    obtain ⟨-, rfl⟩ := h14
    obtain ⟨hc, t3, ht3, hl⟩ := replicateMariadb_ok h13
    rw [← hc] at ht3 hl
    refine ⟨n, q, t1 ++ t2 ++ t3, _, by rw [ht3, ← ht2, ht1]; simp, hq, fun g hgr => ⟨fun _ => ⟨rfl, fun hs => ?_⟩, fun hn => ?_⟩⟩
    · obtain ⟨list, h15, h16⟩ := hl hs
      exact ⟨list, h15, List.mem_append_right _ h16⟩
    · exact absurd ((hg g hgr).1 rfl) hn
  | mySQL =>
    obtain ⟨_, s7, h13, h14⟩ := S.bind_ok h12
    simp only [S.pure_eq, Prod.mk.injEq, Res.ok.injEq] at h14
    obtain ⟨-, rfl⟩ := h14
    obtain ⟨hc, cmd, ht3, hl⟩ := replicateMysql_ok h13
    rw [← hc] at hl
    refine ⟨n, q, t1 ++ t2, cmd, by rw [ht3, ← ht2, ht1]; simp, hq, fun g hgr => ⟨fun hm => ?_, fun _ => hl⟩⟩
    exact absurd ((hg g hgr).2 hm) (by simp)

/-- C60. When set-up succeeds, the last packet sent is a dump request with the recorded file name and position and the slave
server id exactly when blocking (0 otherwise); on a server that does not call itself MariaDB, and in GTID mode, it is the request
with the recorded GTID set. On MariaDB in GTID mode, the recorded GTID list was given in `@slave_connect_state` before.
The hypotheses are the types of the fields (`u32`) and, for the GTID request, the limits of its format. -/
theorem C60_dump_request (m : Mode) (c : Crypto) (s s' : Sess) (checksum : ChecksumType) (h : setUp m c s = (.ok checksum, s'))
    (hid : s'.client.options.serverId < 2 ^ 32) (hpos : s'.client.options.binlog.position < 2 ^ 32) :
    ∃ n q t cmd, s'.chan.trace = s.chan.trace ++ .received n q :: t ++ [.sent 0 cmd] ∧
      (∀ p k rest, p.length < 2 ^ 24 → k < 2 ^ 8 → s.chan.input = frame p k ++ rest → q = p) ∧ ∀ g, Greeting g q →
      let o := s'.client.options
      let id := if o.blocking then o.serverId else 0
      (IsMariaDb g.serverVersion ∨ o.binlog.startingStrategy ≠ .fromGtid →
        DumpPacket 0 id o.binlog.filename o.binlog.position cmd) ∧
      (¬ IsMariaDb g.serverVersion ∧ o.binlog.startingStrategy = .fromGtid → ∃ set, o.binlog.gtidSet = some set ∧
        ((utf8Bytes o.binlog.filename).length < 2 ^ 32 → GtidSetFits (setsOf set) → (gtidSetBytes (setsOf set)).length < 2 ^ 32 →
          DumpGtidPacket 0 id o.binlog.filename o.binlog.position (setsOf set) cmd)) ∧
      (IsMariaDb g.serverVersion ∧ o.binlog.startingStrategy = .fromGtid → ∃ list parts packet, o.binlog.gtidList = some list ∧
        List.Forall₂ MGtidText list.gtids parts ∧
        QueryPacket ("SET @slave_connect_state='".toList ++ [','].intercalate parts ++ "'".toList) packet ∧ Packet.sent 0 packet ∈ t) := by
  obtain ⟨n, q, t, cmd, ht, hq, hg⟩ := setUp_ok h
  refine ⟨n, q, t, cmd, ht, hq, fun g hgr => ?_⟩
  obtain ⟨h1, h2⟩ := hg g hgr
  simp only at h1 h2 ⊢
  have hid' : (if s'.client.options.blocking = true then s'.client.options.serverId else 0) < 2 ^ 32 := by
    split
    · exact hid
    · decide
  refine ⟨fun hm => ?_, fun hm => ?_, fun hm => ?_⟩
  · by_cases hmaria : IsMariaDb g.serverVersion
    · rw [(h1 hmaria).1]
      exact C55_dump _ _ _ hid' hpos
    · rcases h2 hmaria with ⟨-, rfl⟩ | ⟨hs, -⟩
      · exact C55_dump _ _ _ hid' hpos
      · exact absurd hs (hm.resolve_left hmaria)
  · rcases h2 hm.1 with ⟨hs, -⟩ | ⟨-, set, hset, hcmd⟩
    · exact absurd hm.2 hs
    · refine ⟨set, hset, fun hf h4 h5 => ?_⟩
      obtain ⟨packet, sets, h6, h7, rfl, -⟩ := C10_dump_request m _ s'.client.options.binlog.filename
        s'.client.options.binlog.position set set.uuidSets (List.Perm.refl _) hid' hf
        (Nat.lt_of_lt_of_le hpos (Nat.pow_le_pow_right (by decide) (by decide))) h4 h5
      rw [hcmd, Res.ok.injEq] at h6
      exact h6 ▸ h7
  · obtain ⟨-, h3⟩ := h1 hm.1
    obtain ⟨list, h4, h5⟩ := h3 hm.2
    refine ⟨list, list.gtids.map MGtid.display, _, h4, ?_, C55_query _, ?_⟩
    · generalize list.gtids = gs
      induction gs with
      | nil => exact .nil
      | cons g gs ih => exact .cons (mgtidText_display g) ih
    · rw [← joinWith_eq]
      exact h5

/-- C60. Asking MySQL for GTID mode without a GTID set is an error, and nothing is sent. -/
theorem C60_mysql_without_gtid_set (m : Mode) (id : Nat) (s : Sess) (h1 : s.client.options.binlog.startingStrategy = .fromGtid)
    (h2 : s.client.options.binlog.gtidSet = none) :
    replicateMysql m id s = (.err (.str "GtidSet was not specified"), s) := by
  unfold replicateMysql
  rw [S.bind_eq]
  simp only [S.client]
  rw [if_pos h1, h2]
  rfl

/-- A query whose answer is only checked sends one packet. -/
theorem simpleQuery_trace (sql : RStr) (message : String) (s : Sess) :
    (simpleQuery sql message s).2.client = s.client ∧
      ∃ t, (simpleQuery sql message s).2.chan.trace = s.chan.trace ++ .sent 0 (queryCommand sql) :: t ∧ sentOf t = [] := by
  refine ⟨frame_client.simpleQuery sql message s, ?_⟩
  unfold simpleQuery
  rw [S.bind_eq]
  have h1 := (write_trace s (queryCommand sql) 0).2
  revert h1
  rcases S.writePacket (queryCommand sql) 0 s with ⟨r, s1⟩
  intro h1
  simp only at h1
  cases r with
  | ok u =>
    simp only
    rw [S.bind_eq]
    rcases hr : S.readPacket s1 with ⟨r, s2⟩
    cases r with
    | ok x =>
      obtain ⟨-, h2⟩ := read_ok hr
      exact ⟨[.received x.2 x.1], by simp [S.lift, h2, h1], rfl⟩
    | err e => exact ⟨[], by rw [(read_fail hr (by simp)).2, h1], rfl⟩
    | panic => exact ⟨[], by rw [(read_fail hr (by simp)).2, h1], rfl⟩
    | hang => exact ⟨[], by rw [(read_fail hr (by simp)).2, h1], rfl⟩
  | err e => exact ⟨[], h1, rfl⟩
  | panic => exact ⟨[], h1, rfl⟩
  | hang => exact ⟨[], h1, rfl⟩

/-- C60. Asking MariaDB for GTID mode without a GTID list does not succeed, nothing but the announcement of the capability is
sent, and if the server accepts it, the outcome is an error. -/
theorem C60_mariadb_without_gtid_list (id : Nat) (s : Sess) (h1 : s.client.options.binlog.startingStrategy = .fromGtid)
    (h2 : s.client.options.binlog.gtidList = none) :
    (∀ u, (replicateMariadb id s).1 ≠ .ok u) ∧
    (∃ t packet, (replicateMariadb id s).2.chan.trace = s.chan.trace ++ .sent 0 packet :: t ∧ sentOf t = [] ∧
      QueryPacket "SET @mariadb_slave_capability=4".toList packet) ∧
    ∀ n p rest, s.chan.writes = [] → s.chan.input = frame p n ++ rest → p.length < 2 ^ 24 → n < 2 ^ 8 → p.head? = some 0 →
      (replicateMariadb id s).1 = .err (.str "GtidList was not specified") := by
  obtain ⟨hc, t, ht, hsent⟩ := simpleQuery_trace "SET @mariadb_slave_capability=4".toList "Setting @mariadb_slave_capability error." s
  have hrest : ∀ (u : Unit) s1, simpleQuery "SET @mariadb_slave_capability=4".toList "Setting @mariadb_slave_capability error." s = (.ok u, s1) →
      replicateMariadb id s = (.err (.str "GtidList was not specified"), s1) := by
    intro u s1 h
    rw [h] at hc
    unfold replicateMariadb
    rw [S.bind_eq, h]
    simp only
    rw [S.bind_eq]
    simp only [S.client]
    rw [hc, if_pos h1, h2]
    rfl
  refine ⟨?_, ⟨t, _, ?_, hsent, C55_query _⟩, fun n p rest hws hi hp hn hhead => ?_⟩
  · rcases hq : simpleQuery "SET @mariadb_slave_capability=4".toList "Setting @mariadb_slave_capability error." s with ⟨r, s1⟩
    cases r with
    | ok u => rw [hrest u s1 hq]; simp
    | err e => unfold replicateMariadb; rw [S.bind_eq, hq]; simp
    | panic => unfold replicateMariadb; rw [S.bind_eq, hq]; simp
    | hang => unfold replicateMariadb; rw [S.bind_eq, hq]; simp
  · rw [← ht]
    rcases hq : simpleQuery "SET @mariadb_slave_capability=4".toList "Setting @mariadb_slave_capability error." s with ⟨r, s1⟩
    cases r with
    | ok u => rw [hrest u s1 hq]
    | err e => unfold replicateMariadb; rw [S.bind_eq, hq]
    | panic => unfold replicateMariadb; rw [S.bind_eq, hq]
    | hang => unfold replicateMariadb; rw [S.bind_eq, hq]
  · obtain ⟨b, bs, rfl⟩ : ∃ b bs, p = b :: bs := by
      cases p with
      | nil => simp at hhead
      | cons b bs => exact ⟨b, bs, rfl⟩
    simp only [List.head?_cons, Option.some.injEq] at hhead
    have hwr := writePacket_empty_script s.chan (queryCommand "SET @mariadb_slave_capability=4".toList) 0 hws (by decide)
    have hq : ∃ s1, simpleQuery "SET @mariadb_slave_capability=4".toList "Setting @mariadb_slave_capability error." s = (.ok (), s1) := by
      unfold simpleQuery
      rw [S.bind_eq]
      unfold S.writePacket
      rw [hwr]
      simp only
      rw [S.bind_eq]
      unfold S.readPacket
      rw [readPacket_frame { s.chan with
          output := s.chan.output ++ frame (queryCommand "SET @mariadb_slave_capability=4".toList) 0,
          trace := s.chan.trace ++ [.sent 0 (queryCommand "SET @mariadb_slave_capability=4".toList)] } (b :: bs) rest n hp hn hi]
      simp only [S.lift, checkErrorPacket]
      rw [if_neg (by rw [hhead]; decide)]
      exact ⟨_, rfl⟩
    obtain ⟨s1, hq⟩ := hq
    rw [hrest () s1 hq]

/-- Positions of every kind, and MariaDB. -/
def exMaria : Client := exUser (BinlogOptions.fromMariadbGtid ⟨[⟨0, 1, 7⟩, ⟨2, 1, 9⟩]⟩)

example (m : Mode) : (setUp m exCrypto ⟨exMaria, exChannel (exLogin "5.5.5-10.6.4-MariaDB" ++ exConfigured ++
    [(exOk, 1), (exOk, 1), (exOk, 1), (exOk, 1), (exOk, 1)])⟩).1 = .ok .crc32 ∧
    (sentOf (setUp m exCrypto ⟨exMaria, exChannel (exLogin "5.5.5-10.6.4-MariaDB" ++ exConfigured ++
      [(exOk, 1), (exOk, 1), (exOk, 1), (exOk, 1), (exOk, 1)])⟩).2.chan.trace)[5]? =
      some (queryCommand "SET @slave_connect_state='0-1-7,2-1-9'".toList, 0) := by
  revert m
  rintro ⟨_ | _⟩ <;> decide +kernel

example (m : Mode) : (setUp m exCrypto ⟨exUser (BinlogOptions.fromMysqlGtid exSet), exChannel (exLogin "8.0.30" ++ exConfigured)⟩).1
    = .ok .crc32 := by
  revert m
  rintro ⟨_ | _⟩ <;> decide +kernel

example : Greeting ⟨10, "8.0.30".toList, 77, "abcdefghijklmnopqrst".toList, 0xc00ff7ff, 255, 2, List.replicate 6 '\x00', 21,
    "mysql_native_password".toList⟩ (exHello "8.0.30" "mysql_native_password" 0xf7ff) := by
  have := Greeting.mk (protocol := 10) (id := 77) (caps := 0xc00ff7ff) (collation := 255) (status := 2) (length := 21)
    (version := "8.0.30".toList) (scramble1 := "abcdefgh".toList) (scramble2 := "ijklmnopqrst".toList)
    (plugin := "mysql_native_password".toList) (extra := []) (by decide) (nullTerm_of (by decide)) (by decide)
    (nullTerm_of (by decide)) (by decide) (by decide) (by decide) (by decide) (by decide)
    (by rw [if_pos (by decide)]; exact ⟨nullTerm_of (by decide), by decide⟩)
    (by rw [if_pos (by decide)]; exact nullTerm_of (by decide +kernel))
  rw [List.append_nil] at this
  exact this

example : (exUser (BinlogOptions.fromMysqlGtid exSet)).options.serverId < 2 ^ 32 ∧
    (exUser (BinlogOptions.fromMysqlGtid exSet)).options.binlog.position < 2 ^ 32 := by decide

/-- GTID mode on MariaDB with a MySQL position, and the other way round. -/
example : (exUser (BinlogOptions.fromMysqlGtid exSet)).options.binlog.startingStrategy = .fromGtid ∧
    (exUser (BinlogOptions.fromMysqlGtid exSet)).options.binlog.gtidList = none ∧
    exMaria.options.binlog.startingStrategy = .fromGtid ∧ exMaria.options.binlog.gtidSet = none := by decide

/-! ## C61 -/

theorem skipMetadata_ok {s s' : Sess} {u : Unit} (h : skipMetadata s = (.ok u, s')) :
    s'.client = s.client ∧ ∃ t, s'.chan.trace = s.chan.trace ++ t ∧ sentOf t = [] := by
  induction hk : s.chan.input.length using Nat.strongRecOn generalizing s with
  | _ k ih =>
    rw [skipMetadata] at h
    rcases hr : S.readPacket s with ⟨r, s1⟩
    rw [hr] at h
    cases r with
    | ok x =>
      obtain ⟨a, b⟩ := read_ok hr
      obtain ⟨packet, n⟩ := x
      cases packet with
      | nil => simp at h
      | cons c cs =>
        simp only at h
        split at h
        · simp only [Prod.mk.injEq, true_and] at h
          subst h
          exact ⟨a, _, b, rfl⟩
        · split at h
          · rename_i hlt
            obtain ⟨a2, t, b2, c2⟩ := ih _ (hk ▸ hlt) h rfl
            exact ⟨a2.trans a, .received n (c :: cs) :: t, by rw [b2, b]; simp, c2⟩
          · simp at h
    | err e => simp at h
    | panic => simp at h
    | hang => simp at h

/-- A packet for each row, and one more. -/
theorem readRows_ok {s s' : Sess} {rows : List (List RStr)} (h : readRows s = (.ok rows, s')) :
    s'.client = s.client ∧ ∃ (packets : List (Nat × Bytes)) (n : Nat) (last : Bytes),
      s'.chan.trace = s.chan.trace ++ packets.map (fun x => .received x.1 x.2) ++ [.received n last] ∧
      List.Forall₂ (fun x row => parseResultSetRow.run x.2 = .ok row) packets rows := by
  induction hk : s.chan.input.length using Nat.strongRecOn generalizing s rows with
  | _ k ih =>
    rw [readRows] at h
    rcases hr : S.readPacket s with ⟨r, s1⟩
    rw [hr] at h
    cases r with
    | ok x =>
      obtain ⟨a, b⟩ := read_ok hr
      obtain ⟨packet, n⟩ := x
      simp only at h
      cases hc : checkErrorPacket packet "Query result set error." with
      | ok u =>
        rw [hc] at h
        cases packet with
        | nil => simp at h
        | cons c cs =>
          simp only at h
          split at h
          · simp only [Prod.mk.injEq, Res.ok.injEq] at h
            obtain ⟨rfl, rfl⟩ := h
            exact ⟨a, [], n, c :: cs, by simpa using b, .nil⟩
          · cases hp : parseResultSetRow.run (c :: cs) with
            | ok row =>
              rw [hp] at h
              simp only at h
              split at h
              · rename_i hlt
                rcases hr2 : readRows s1 with ⟨r2, s2⟩
                rw [hr2] at h
                cases r2 with
                | ok rows2 =>
                  simp only [Prod.mk.injEq, Res.ok.injEq] at h
                  obtain ⟨rfl, rfl⟩ := h
                  obtain ⟨a2, packets, n2, last, b2, c2⟩ := ih _ (hk ▸ hlt) hr2 rfl
                  exact ⟨a2.trans a, (n, c :: cs) :: packets, n2, last, by rw [b2, b]; simp, .cons hp c2⟩
                | err e => simp at h
                | panic => simp at h
                | hang => simp at h
              · simp at h
            | err e => rw [hp] at h; simp at h
            | panic => rw [hp] at h; simp at h
            | hang => rw [hp] at h; simp at h
      | err e => rw [hc] at h; simp at h
      | panic => rw [hc] at h; simp at h
      | hang => rw [hc] at h; simp at h
    | err e => simp at h
    | panic => simp at h
    | hang => simp at h

theorem readResultSet_ok {s s' : Sess} {rows : List (List RStr)} (h : readResultSet s = (.ok rows, s')) :
    s'.client = s.client ∧ ∃ (t : List Packet) (packets : List (Nat × Bytes)) (n : Nat) (last : Bytes), sentOf t = [] ∧
      s'.chan.trace = s.chan.trace ++ t ++ packets.map (fun x => .received x.1 x.2) ++ [.received n last] ∧
      List.Forall₂ (fun x row => parseResultSetRow.run x.2 = .ok row) packets rows := by
  unfold readResultSet at h
  obtain ⟨x, s1, h1, h2⟩ := S.bind_ok h
  obtain ⟨a1, b1⟩ := read_ok h1
  obtain ⟨_, s2, h3, h4⟩ := S.bind_ok h2
  obtain ⟨-, rfl⟩ := lift_ok h3
  obtain ⟨_, s3, h5, h6⟩ := S.bind_ok h4
  obtain ⟨a2, t, b2, c2⟩ := skipMetadata_ok h5
  obtain ⟨a3, packets, n, last, b3, c3⟩ := readRows_ok h6
  exact ⟨a3.trans (a2.trans a1), .received x.2 x.1 :: t, packets, n, last, c2, by rw [b3, b2, b1]; simp, c3⟩

theorem parseDigits_mono {b b' : Nat} (hb : b ≤ b') {acc : Nat} {s : RStr} {n : Nat} (h : parseDigits b acc s = some n) :
    parseDigits b' acc s = some n := by
  induction s generalizing acc with
  | nil => exact h
  | cons c cs ih =>
    unfold parseDigits at h ⊢
    cases hd : digitVal c with
    | none => rw [hd] at h; simp at h
    | some d =>
      rw [hd] at h
      simp only at h ⊢
      split at h
      · rename_i hlt
        rw [if_pos (Nat.lt_of_lt_of_le hlt (Nat.pow_le_pow_right (by decide) hb))]
        exact ih h
      · simp at h

theorem parseUnsigned_mono {b b' : Nat} (hb : b ≤ b') {s : RStr} {n : Nat} (h : parseUnsigned b s = .ok n) :
    parseUnsigned b' s = .ok n := by
  have key : (∀ b, parseUnsigned b s = .err .parseInt) ∨
      ∃ t, ∀ b, parseUnsigned b s = match parseDigits b 0 t with | some n => .ok n | none => .err .parseInt := by
    unfold parseUnsigned
    split
    · exact .inl fun _ => rfl
    · exact .inl fun _ => rfl
    · rename_i cs _
      exact .inr ⟨cs, fun _ => rfl⟩
    · exact .inr ⟨s, fun _ => rfl⟩
  rcases key with key | ⟨t, key⟩
  · rw [key] at h
    simp at h
  · rw [key] at h ⊢
    split at h
    · rename_i hp
      rw [parseDigits_mono hb hp]
      exact h
    · simp at h

/-- What is parsed is the number written. -/
theorem decimal_unique {b p p' : Nat} {s : RStr} (hd : Decimal p s) (hp : parseUnsigned b s = .ok p') : p = p' := by
  have h1 := hd.parse (max b p) (Nat.lt_of_lt_of_le Nat.lt_two_pow_self (Nat.pow_le_pow_right (by decide) (Nat.le_max_right _ _)))
  have h2 := parseUnsigned_mono (Nat.le_max_left b p) hp
  rw [h1, Res.ok.injEq] at h2
  exact h2

/-- C61. With a known position (any strategy but `from_end`, or a file name already recorded) the master's position is neither
asked for nor changed. -/
theorem C61_known_position_kept (s : Sess)
    (h : s.client.options.binlog.startingStrategy ≠ .fromEnd ∨ s.client.options.binlog.filename ≠ []) :
    adjustStartingPosition s = (.ok (), s) := by
  unfold adjustStartingPosition
  rw [S.bind_eq]
  simp only [S.client]
  by_cases h1 : s.client.options.binlog.startingStrategy ≠ .fromEnd
  · rw [if_pos h1]
    rfl
  · rw [if_neg h1, if_pos (h.resolve_left h1)]
    rfl

/-- C61. Otherwise, when it succeeds, it has asked the server for its position and recorded the file name and position in the one row
of the answer; the rest of the options is as before. -/
theorem C61_master_position_recorded (s s' : Sess) (u : Unit) (h1 : s.client.options.binlog.startingStrategy = .fromEnd)
    (h2 : s.client.options.binlog.filename = []) (h : adjustStartingPosition s = (.ok u, s')) :
    ∃ request t n row n' last, QueryPacket "show master status".toList request ∧ sentOf t = [] ∧
      s'.chan.trace = s.chan.trace ++ .sent 0 request :: t ++ [.received n row, .received n' last] ∧
      (∀ file text more p, TextRow ((file :: text :: more).map some) row → Decimal p text →
        s'.client = { s.client with options := { s.client.options with binlog :=
          { s.client.options.binlog with filename := file, position := p } } } ∧ p < 2 ^ 32) := by
  unfold adjustStartingPosition at h
  obtain ⟨self, s0, h3, h4⟩ := S.bind_ok h
  simp only [S.client, Prod.mk.injEq, Res.ok.injEq] at h3
  obtain ⟨rfl, rfl⟩ := h3
  rw [if_neg (by simp [h1]), if_neg (by simp [h2])] at h4
  obtain ⟨_, s1, h5, h6⟩ := S.bind_ok h4
  obtain ⟨a1, b1⟩ := write_ok h5
  obtain ⟨rows, s2, h7, h8⟩ := S.bind_ok h6
  obtain ⟨a2, t, packets, n', last, c2, b2, hrows⟩ := readResultSet_ok h7
  split at h8
  · simp [S.fail, S.lift] at h8
  · rename_i hlen
    obtain ⟨row, rfl⟩ : ∃ row, rows = [row] := List.length_eq_one_iff.1 (by omega)
    cases hrows with
    | @cons x _ packets' _ hx hnil =>
      cases hnil
      obtain ⟨file, s3, h9, h10⟩ := S.bind_ok h8
      obtain ⟨hf, rfl⟩ := lift_ok h9
      obtain ⟨_, s4, h11, h12⟩ := S.bind_ok h10
      simp only [S.setClient, Prod.mk.injEq, true_and] at h11
      subst h11
      obtain ⟨text, s5, h13, h14⟩ := S.bind_ok h12
      obtain ⟨htext, rfl⟩ := lift_ok h13
      obtain ⟨p, s6, h15, h16⟩ := S.bind_ok h14
      obtain ⟨hp, rfl⟩ := lift_ok h15
      simp only [S.setClient, Prod.mk.injEq, true_and] at h16
      subst h16
      refine ⟨_, t, x.1, x.2, n', last, C55_query _, c2, by simp [b2, b1], fun file' text' more p' hrow hdec => ?_⟩
      have := C54_row_decoded_partial _ _ hrow
      rw [hx, Res.ok.injEq] at this
      subst this
      simp only [cellAt, List.getElem?_cons_zero, List.getElem?_cons_succ, Res.ok.injEq] at hf htext
      subst hf htext
      have hp' : p < 2 ^ 32 := parseUnsigned_bound hp
      have := decimal_unique hdec hp
      subst this
      exact ⟨rfl, hp'⟩

/-- A failed attempt, before the answer is used. -/
theorem adjust_fail {s : Sess} (h : ∀ u, (adjustStartingPosition s).1 ≠ .ok u) :
    (adjustStartingPosition s).2.client = s.client ∨
      ∃ t n row n' last file, (adjustStartingPosition s).2.chan.trace = s.chan.trace ++ t ++ [.received n row, .received n' last] ∧
        ∃ cells, parseResultSetRow.run row = .ok (file :: cells) ∧ (∀ text, cells.head? = some text → ∀ p, parseUnsigned 32 text ≠ .ok p) ∧
          (adjustStartingPosition s).2.client = s.client.setPosition file s.client.options.binlog.position := by
  by_cases hk : s.client.options.binlog.startingStrategy ≠ .fromEnd ∨ s.client.options.binlog.filename ≠ []
  · exact .inl (by rw [C61_known_position_kept s hk])
  have hk1 : ¬ s.client.options.binlog.startingStrategy ≠ .fromEnd := fun h => hk (.inl h)
  have hk2 : ¬ s.client.options.binlog.filename ≠ [] := fun h => hk (.inr h)
  revert h
  unfold adjustStartingPosition
  rw [S.bind_eq]
  simp only [S.client]
  rw [if_neg hk1, if_neg hk2, S.bind_eq]
  have hw := write_trace s (queryCommand "show master status".toList) 0
  rcases hw1 : S.writePacket (queryCommand "show master status".toList) 0 s with ⟨r, s1⟩
  rw [hw1] at hw
  simp only at hw
  cases r with
  | ok u =>
    simp only
    rw [S.bind_eq]
    have hc2 := frame_client.readResultSet s1
    rcases hr : readResultSet s1 with ⟨r, s2⟩
    rw [hr] at hc2
    simp only at hc2
    cases r with
    | ok rows =>
      obtain ⟨-, t, packets, n', last, -, b2, hrows⟩ := readResultSet_ok hr
      simp only
      intro h
      split
      · exact .inl (hc2.trans hw.1)
      · rename_i hlen
        rw [if_neg hlen] at h
        obtain ⟨row, rfl⟩ : ∃ row, rows = [row] := List.length_eq_one_iff.1 (by omega)
        cases hrows with
        | @cons x _ packets' _ hx hnil =>
          cases hnil
          cases row with
          | nil => exact .inl (hc2.trans hw.1)
          | cons file cells =>
            cases cells with
            | nil =>
              refine .inr ⟨.sent 0 (queryCommand "show master status".toList) :: t, x.1, x.2, n', last, file, ?_, [], hx, by simp, rfl⟩
              show s2.chan.trace = _
              rw [b2, hw.2]
              simp
            | cons text more =>
              rcases parseUnsigned_returns 32 text with ⟨p, hp⟩ | hp
              · exfalso
                refine h () ?_
                simp only [S.bind_eq, S.lift, cellAt, S.setClient, List.getElem?_cons_zero, List.getElem?_cons_succ, hp]
              · refine .inr ⟨.sent 0 (queryCommand "show master status".toList) :: t, x.1, x.2, n', last, file, ?_, text :: more, hx, ?_, ?_⟩
                · simp only [S.bind_eq, S.lift, cellAt, S.setClient, List.getElem?_cons_zero, List.getElem?_cons_succ, hp]
                  rw [b2, hw.2]
                  simp
                · simp [hp]
                · simp only [S.bind_eq, S.lift, cellAt, S.setClient, List.getElem?_cons_zero, List.getElem?_cons_succ, hp]
    | err e => exact fun _ => .inl (hc2.trans hw.1)
    | panic => exact fun _ => .inl (hc2.trans hw.1)
    | hang => exact fun _ => .inl (hc2.trans hw.1)
  | err e => exact fun _ => .inl hw.1
  | panic => exact fun _ => .inl hw.1
  | hang => exact fun _ => .inl hw.1

/-- C61, except for its exception: a failed attempt to read the master's position leaves the client as it was, provided the row the server
answered with (if it did) has a position that fits 32 bits in its second cell. -/
theorem C61_failure_changes_nothing_partial (s : Sess) (h : ∀ u, (adjustStartingPosition s).1 ≠ .ok u)
    (hrow : ∀ t n row n' last, (adjustStartingPosition s).2.chan.trace = s.chan.trace ++ t ++ [.received n row, .received n' last] →
      ∃ file text more p, TextRow ((file :: text :: more).map some) row ∧ Decimal p text ∧ p < 2 ^ 32) :
    (adjustStartingPosition s).2.client = s.client := by
  rcases adjust_fail h with h | ⟨t, n, row, n', last, file, ht, cells, hx, hbad, -⟩
  · exact h
  · obtain ⟨file', text, more, p, h1, h2, h3⟩ := hrow t n row n' last ht
    have := C54_row_decoded_partial _ _ h1
    rw [hx, Res.ok.injEq, List.cons.injEq] at this
    obtain ⟨rfl, rfl⟩ := this
    exact absurd (h2.parse 32 h3) (hbad text rfl p)

/-- The server refuses the query: its two last packets are not both received after the request. -/
example : ∃ s : Sess, (∃ e, (adjustStartingPosition s).1 = .err e) ∧
    ∀ t n row n' last, (adjustStartingPosition s).2.chan.trace ≠ s.chan.trace ++ t ++ [.received n row, .received n' last] := by
  let s : Sess := ⟨exUser BinlogOptions.fromEnd, exChannel [([0xFF, 0x15, 4], 1)]⟩
  have h : adjustStartingPosition s = (.err (.server "Reading result set error." 1045 [] none), { s with chan := { s.chan with
    input := [], output := frame (queryCommand "show master status".toList) 0,
    trace := [.sent 0 (queryCommand "show master status".toList), .received 1 [0xFF, 0x15, 4]] } }) := by decide +kernel
  refine ⟨s, ⟨_, by rw [h]⟩, fun t n row n' last ht => ?_⟩
  rw [h] at ht
  have h1 := congrArg List.length ht
  simp only [List.length_append, List.length_cons, List.length_nil, s, exChannel] at h1
  have h2 : t = [] := List.length_eq_zero_iff.1 (by omega)
  subst h2
  simp [s, exChannel] at ht

/-- C61 does not hold of the code: the file name is recorded before the position is parsed. A log of four gigabytes or more has a
position that does not fit: `replicate` fails, but the file name is now recorded with the position 0, and later calls do not ask
again. -/
theorem C61_failure_false (m : Mode) :
    let packets := exLogin "8.0.30" ++ exResult ["bin.000007", "4294967296"]
    let r := (exUser BinlogOptions.fromEnd).replicate m exCrypto (.ok (exChannel packets))
    r.1 = .err .parseInt ∧ r.2.options.binlog.filename = "bin.000007".toList ∧ r.2.options.binlog.position = 0 := by
  revert m
  rintro ⟨_ | _⟩ <;> decide +kernel

/-- Successful and failed `replicate()` calls and `commit()` calls, in any order, of events that do not rotate to a log without a name. -/
inductive Uses (m : Mode) (cr : Crypto) : Client → Client → Prop
  | none (c : Client) : Uses m cr c c
  | replicate {c c' : Client} (net : Except IoKind Channel) (h : Uses m cr c c') : Uses m cr c (c'.replicate m cr net).2
  | commit {c c' c'' : Client} {header : EventHeader} {event : BinlogEvent} (h : Uses m cr c c')
      (hname : ∀ x, event = .rotate x → x.binlogFilename ≠ []) (hc : c'.commit m header event = .ok c'') : Uses m cr c c''

/-- C61. Once a file name is recorded, later `replicate()` calls, whatever happens in between, resume from the recorded position: they
do not change it. -/
theorem C61_resumes (m : Mode) (cr : Crypto) (c c' : Client) (h : Uses m cr c c') (hname : c.options.binlog.filename ≠ [])
    (net : Except IoKind Channel) : c'.options.binlog.filename ≠ [] ∧ (c'.replicate m cr net).2.options = c'.options := by
  suffices hf : c'.options.binlog.filename ≠ [] from ⟨hf, replicate_keeps_options m cr c' net (.inr hf)⟩
  induction h with
  | none => exact hname
  | @replicate c' net _ ih =>
    rw [replicate_keeps_options m cr c' net (.inr ih)]
    exact ih
  | @commit c' c'' header event _ hn hc ih =>
    obtain ⟨c0, h3, rfl⟩ := commit_inv hc
    obtain ⟨tr, mg, g, list, set, h4, _⟩ := updateGtidPosition_place m h3
    have f1 : c0.options.binlog.filename = c'.options.binlog.filename := by rw [h4]; rfl
    rw [← f1] at ih
    unfold Client.updateBinlogPosition
    split
    · exact ih
    · exact hn _ rfl
    · split
      · exact ih
      · exact ih

end MysqlCdc
