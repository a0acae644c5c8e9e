import Verif.Props.Events
import Verif.Props.MysqlGtid
import Verif.Lemmas.Packets
import Mathlib.Data.List.Nodup
/-!
# Packets of the client/server protocol: C10, C11 (second half), C53 - C55
-/

namespace MysqlCdc

open Spec

/-! ## C53: the greeting -/

/-- C53. Every field of any protocol-10 greeting is recovered; the second part of the scramble and the plugin name are read
exactly when the capability bits announce them. -/
theorem C53_greeting_decoded (h : HandshakePacket) (packet : Bytes) (hg : Greeting h packet) :
    parseHandshake.run packet = .ok h := parseHandshake_parses hg

theorem nullTerm_of {s : RStr} (h : (0 : UInt8) ∉ utf8Bytes s) : NullTerm s (utf8Bytes s ++ [0]) := ⟨h, rfl⟩

/-- MySQL 8 with SECURE_CONNECTION and PLUGIN_AUTH: scramble of 20 characters in two parts. -/
def exGreeting : Bytes :=
  le 1 10 ++ (utf8Bytes "8.0.30".toList ++ [0]) ++ le 4 77 ++ (utf8Bytes "abcdefgh".toList ++ [0]) ++ le 2 0xffff ++ le 1 255
    ++ le 2 2 ++ le 2 0xc00f ++ le 1 21 ++ List.replicate 6 0 ++ le 4 0 ++ (utf8Bytes "ijklmnopqrst".toList ++ [0])
    ++ (utf8Bytes "caching_sha2_password".toList ++ [0]) ++ []

example : Greeting ⟨10, "8.0.30".toList, 77, "abcdefghijklmnopqrst".toList, 0xc00fffff, 255, 2, List.replicate 6 '\x00', 21,
    "caching_sha2_password".toList⟩ exGreeting := by
  refine .mk (protocol := 10) (id := 77) (caps := 0xc00fffff) (collation := 255) (status := 2) (length := 21)
    (version := "8.0.30".toList) (scramble1 := "abcdefgh".toList) (scramble2 := "ijklmnopqrst".toList)
    (plugin := "caching_sha2_password".toList) (by decide) (nullTerm_of (by decide)) (by decide) (nullTerm_of (by decide))
    (by decide) (by decide) (by decide) (by decide) (by decide) ?_ ?_
  · rw [if_pos (by decide)]
    exact ⟨nullTerm_of (by decide), by decide⟩
  · rw [if_pos (by decide)]
    exact nullTerm_of (by decide +kernel)

/-- An old server announcing neither: the greeting ends after the fixed part. -/
example : Greeting ⟨10, "5.0".toList, 1, "abcdefgh".toList, 1, 8, 2, List.replicate 6 '\x00', 0, []⟩
    (le 1 10 ++ (utf8Bytes "5.0".toList ++ [0]) ++ le 4 1 ++ (utf8Bytes "abcdefgh".toList ++ [0]) ++ le 2 1 ++ le 1 8
      ++ le 2 2 ++ le 2 0 ++ le 1 0 ++ List.replicate 6 0 ++ le 4 0 ++ [] ++ [] ++ []) :=
  .mk (protocol := 10) (id := 1) (caps := 1) (collation := 8) (status := 2) (length := 0) (version := "5.0".toList)
    (scramble1 := "abcdefgh".toList) (scramble2 := []) (plugin := []) (by decide) (nullTerm_of (by decide)) (by decide)
    (nullTerm_of (by decide)) (by decide) (by decide) (by decide) (by decide) (by decide)
    (by rw [if_neg (by decide)]; exact ⟨rfl, rfl⟩) (by rw [if_neg (by decide)]; exact ⟨rfl, rfl⟩)

/-! ## C54: error, authentication-switch, end-of-file packets and text rows -/

/-- C54. Code, SQL state when marked, and message of any error packet. -/
theorem C54_error_decoded (e : ErrorPacket) (body : Bytes) (h : ErrorBody e body) : parseErrorPacket.run body = .ok e :=
  parseErrorPacket_parses h

example : ErrorBody ⟨1045, "denied".toList, some "28000".toList⟩
    (le 2 1045 ++ utf8Bytes ['#'] ++ utf8Bytes "28000".toList ++ utf8Bytes "denied".toList) :=
  .marked (by decide) (by decide)
example : ErrorBody ⟨1040, "Too many connections".toList, none⟩ (le 2 1040 ++ utf8Bytes "Too many connections".toList) :=
  .unmarked (by decide) (by decide)

/-- C54. Plugin name and data of any authentication switch request. -/
theorem C54_switch_decoded (e : AuthPluginSwitchPacket) (body : Bytes) (h : SwitchBody e body) :
    parseAuthSwitch.run body = .ok e := parseAuthSwitch_parses h

example : SwitchBody ⟨"mysql_native_password".toList, "abc".toList⟩
    ((utf8Bytes "mysql_native_password".toList ++ [0]) ++ (utf8Bytes "abc".toList ++ [0]) ++ []) :=
  .mk (nullTerm_of (by decide +kernel)) (nullTerm_of (by decide))

/-- C54. Warning count and status of any end-of-file packet. -/
theorem C54_eof_decoded (e : EndOfFilePacket) (body : Bytes) (h : EofBody e body) : parseEndOfFile.run body = .ok e :=
  parseEndOfFile_parses h

example : EofBody ⟨1, 34⟩ (le 2 1 ++ le 2 34 ++ []) := .mk (by decide) (by decide)

theorem textRow_each {cells : List RStr} {packet : Bytes} (h : TextRow (cells.map some) packet) :
    Each (fun v e => Parses readLenEncStr e v ∧ e ≠ []) cells packet := by
  generalize hc : cells.map some = row at h
  induction h generalizing cells with
  | nil =>
    rw [List.map_eq_nil_iff] at hc
    subst hc
    exact .nil
  | @cons c cs enc rest h1 _ ih =>
    cases cells with
    | nil => simp at hc
    | cons s cells =>
      simp only [List.map_cons, List.cons.injEq] at hc
      obtain ⟨rfl, hc⟩ := hc
      cases h1 with
      | value g1 g2 =>
        have hp := readLenEncStr_parses g2 g1
        refine .cons ⟨hp, ?_⟩ (ih hc)
        obtain ⟨l, hl, rfl⟩ := g2
        simp [LenEnc_ne_nil hl]

/-- C54. The cells of any text row without NULLs, in order. (Missing: rows with NULL cells, see `C54_null_cell_false`.) -/
theorem C54_row_decoded_partial (cells : List RStr) (packet : Bytes) (h : TextRow (cells.map some) packet) :
    parseResultSetRow.run packet = .ok cells := (whileData_each (textRow_each h)).run

example : TextRow (["bin.000003".toList, "157".toList, []].map some)
    (([10] ++ utf8Bytes "bin.000003".toList) ++ (([3] ++ utf8Bytes "157".toList) ++ (([0] ++ utf8Bytes []) ++ []))) :=
  .cons (.value (by decide) ⟨[10], .one (n := 10) (by decide), rfl⟩)
    (.cons (.value (by decide) ⟨[3], .one (n := 3) (by decide), rfl⟩)
      (.cons (.value (by decide) ⟨[0], .one (n := 0) (by decide), rfl⟩) .nil))

theorem whileData_fails {α : Type} {p : P α} {vs : List α} {enc bad : Bytes} {er : Err}
    (h : Each (fun v e => Parses p e v ∧ e ≠ []) vs enc) (hb : bad ≠ [])
    (hf : ∀ pre : Bytes, p (pre ++ bad) pre.length = .err er) (pre : Bytes) :
    P.whileData p (pre ++ (enc ++ bad)) pre.length = .err er := by
  induction h generalizing pre with
  | nil =>
    have : 0 < bad.length := List.length_pos_iff.2 hb
    rw [P.whileData, if_pos (by simp; omega), List.nil_append, hf]
  | @cons v vs e es h hs ih =>
    have h1 := h.1 pre (es ++ bad)
    have h2 := ih (pre ++ e)
    have h3 : 0 < e.length := List.length_pos_iff.2 h.2
    rw [List.append_assoc, P.whileData, if_pos (by simp; omega), h1]
    simp only [List.append_assoc, List.length_append] at h2 ⊢
    simp only [show pre.length < pre.length + e.length by omega, if_true, h2]

/-- C54 is false of rows with a NULL cell, which the format allows: whatever stands around it, the row is rejected. -/
theorem C54_null_cell_false (cells : List RStr) (before after : Bytes) (h : TextRow (cells.map some) before) :
    ∃ e, parseResultSetRow.run (before ++ 0xFB :: after) = .err e := by
  have hf : ∀ pre : Bytes, readLenEncStr (pre ++ 0xFB :: after) pre.length
      = .err (.str "Length encoded integer cannot be NULL.") := by
    intro pre
    have : P.u8 (pre ++ 0xFB :: after) pre.length = .ok (0xFB, pre.length + 1) :=
      u8_parses (n := 0xFB) (by decide) pre after
    simp [readLenEncStr, readLenEncNum, P.seq_apply, this, P.fail]
  have h1 := whileData_fails (textRow_each h) (by simp) hf []
  rw [List.nil_append, List.length_nil] at h1
  exact ⟨.str "Length encoded integer cannot be NULL.", by simp [P.run, parseResultSetRow, h1]⟩

example : TextRow [some "a".toList, none] ([1] ++ utf8Bytes "a".toList ++ ([0xFB] ++ [])) :=
  .cons (.value (by decide) ⟨[1], .one (n := 1) (by decide), rfl⟩) (.cons .null .nil)

/-! ## C10: COM_BINLOG_DUMP_GTID -/

theorem dumpIntervals_eq (m : Mode) (ivs : List Interval) (h : ∀ iv ∈ ivs, iv.start < 2 ^ 64 ∧ iv.end < 2 ^ 64 - 1) :
    dumpIntervals m ivs = .ok (intervalsBytes ivs) := by
  induction ivs with
  | nil => rfl
  | cons iv ivs ih =>
    have h1 := h iv (by simp)
    have h2 : addU m 64 iv.end 1 = .ok (iv.end + 1) := by
      unfold addU
      rw [if_pos (by omega)]
    rw [dumpIntervals, h2, ih fun x hx => h x (by simp [hx])]
    simp [intervalsBytes, leBytes_eq]

theorem dumpUuidSets_eq (m : Mode) (sets : List UuidSet)
    (h : ∀ s ∈ sets, ∀ iv ∈ s.intervals, iv.start < 2 ^ 64 ∧ iv.end < 2 ^ 64 - 1) :
    dumpUuidSets m sets
      = .ok (sets.flatMap fun s => s.sourceId.data ++ le 8 s.intervals.length ++ intervalsBytes s.intervals) := by
  induction sets with
  | nil => rfl
  | cons s sets ih =>
    rw [dumpUuidSets, dumpIntervals_eq m _ (h s (by simp)), ih fun x hx => h x (by simp [hx])]
    simp [leBytes_eq]

theorem intervalsBytes_length (ivs : List Interval) : (intervalsBytes ivs).length = 16 * ivs.length := by
  induction ivs with
  | nil => rfl
  | cons iv ivs ih =>
    have : intervalsBytes (iv :: ivs) = le 8 iv.start ++ le 8 (iv.end + 1) ++ intervalsBytes ivs := by simp [intervalsBytes]
    rw [this]
    simp only [List.length_append, le_length, ih, List.length_cons]
    omega

theorem dumpDataLength_eq (sets : List UuidSet) (h : ∀ s ∈ sets, s.sourceId.data.length = 16) :
    dumpDataLength sets = (gtidSetBytes (sets.map fun s => (s.sourceId.data, s.intervals))).length := by
  have aux : ∀ (sets : List UuidSet) (n : Nat), (∀ s ∈ sets, s.sourceId.data.length = 16) →
      sets.foldl (fun n s => n + 16 + 8 + s.intervals.length * (8 + 8)) n
        = n + ((sets.map fun s => (s.sourceId.data, s.intervals)).flatMap fun s =>
            s.1 ++ le 8 s.2.length ++ intervalsBytes s.2).length := by
    intro sets
    induction sets with
    | nil => simp
    | cons s sets ih =>
      intro n hs
      rw [List.foldl_cons, ih _ fun x hx => hs x (by simp [hx])]
      have := hs s (by simp)
      simp only [List.map_cons, List.flatMap_cons, List.length_append, le_length, intervalsBytes_length, this]
      omega
  unfold dumpDataLength gtidSetBytes
  rw [aux _ _ h, List.length_append, le_length]

/-- C10. For every set within the limits of the format and every order in which the hash map may list it, the request is built,
has the published layout with the given server id, file name and position and no flags, its data length is the number of bytes
that follow, and it lists exactly the transactions of the set. -/
theorem C10_dump_request (m : Mode) (serverId : Nat) (filename : RStr) (position : Nat) (g : GtidSet)
    (order : HMap RStr UuidSet) (ho : order.Perm g.uuidSets) (h1 : serverId < 2 ^ 32)
    (h2 : (utf8Bytes filename).length < 2 ^ 32) (h3 : position < 2 ^ 64) (h4 : GtidSetFits (setsOf g))
    (h5 : (gtidSetBytes (setsOf g)).length < 2 ^ 32) :
    ∃ packet sets, dumpBinlogGtidCommand m serverId filename position ⟨order⟩ = .ok packet ∧
      DumpGtidPacket 0 serverId filename position sets packet ∧ sets = setsOf ⟨order⟩ ∧
      ∀ server n, (∃ s ∈ sets, s.1 = server ∧ InIvs n s.2) ↔ Has g server n := by
  have hp : (setsOf ⟨order⟩).Perm (setsOf g) := ho.map _
  have hf : GtidSetFits (setsOf ⟨order⟩) := ⟨by rw [hp.length_eq]; exact h4.1, fun s hs => h4.2 s (hp.mem_iff.1 hs)⟩
  have hl : (gtidSetBytes (setsOf ⟨order⟩)).length < 2 ^ 32 := by
    have : (gtidSetBytes (setsOf ⟨order⟩)).length = (gtidSetBytes (setsOf g)).length := by
      unfold gtidSetBytes
      rw [List.length_append, List.length_append, (hp.flatMap_right _).length_eq, le_length, le_length]
    omega
  have hv : ∀ s ∈ HMap.values order, (s.sourceId.data, s.intervals) ∈ setsOf ⟨order⟩ := by
    intro s hs
    obtain ⟨e, he, rfl⟩ := List.mem_map.1 hs
    exact List.mem_map.2 ⟨e, he, rfl⟩
  have hsets : (HMap.values order).map (fun s => (s.sourceId.data, s.intervals)) = setsOf ⟨order⟩ := by
    simp [HMap.values, setsOf]
  refine ⟨_, setsOf ⟨order⟩, ?_, .mk (by decide) h1 h2 h3 hf hl, rfl, fun server n => ?_⟩
  · unfold dumpBinlogGtidCommand
    simp only [dumpUuidSets_eq m (HMap.values order) fun s hs => (hf.2 _ (hv s hs)).2.2]
    have hd := dumpDataLength_eq (HMap.values order) fun s hs => (hf.2 _ (hv s hs)).1
    rw [hsets] at hd
    simp only [hd, leBytes_eq, COM_BINLOG_DUMP_GTID]
    rw [show gtidSetBytes (setsOf ⟨order⟩) = le 8 (HMap.values order).length ++ (HMap.values order).flatMap fun s =>
        s.sourceId.data ++ le 8 s.intervals.length ++ intervalsBytes s.intervals by
      rw [← hsets, gtidSetBytes, List.length_map, List.flatMap_map]]
    simp [List.append_assoc, pure]
  · constructor
    · rintro ⟨s, hs, rfl, hn⟩
      obtain ⟨e, he, rfl⟩ := List.mem_map.1 hs
      exact ⟨e, ho.mem_iff.1 he, rfl, hn⟩
    · rintro ⟨e, he, rfl, hn⟩
      exact ⟨_, List.mem_map.2 ⟨e, ho.mem_iff.2 he, rfl⟩, rfl, hn⟩

example : exSet.uuidSets.reverse.Perm exSet.uuidSets ∧ GtidSetFits (setsOf exSet) ∧ (gtidSetBytes (setsOf exSet)).length < 2 ^ 32 := by
  refine ⟨List.reverse_perm _, ?_, by decide⟩
  refine ⟨by decide, ?_⟩
  simp [setsOf, exSet, exUuid, exUuid2, exBytes, exBytes2]

/-- A reader of the published format, used only to show that it is unambiguous. -/
def readDumpGtid : P (Nat × Nat × RStr × Nat × Nat × List (Bytes × List Interval)) := do
  let _ ← P.u8
  let flags ← P.uLE 2
  let serverId ← P.uLE 4
  let n ← P.uLE 4
  let filename ← readString n
  let position ← P.uLE 8
  let length ← P.uLE 4
  let count ← P.uLE 8
  let sets ← P.times count do
    let server ← P.readExact 16
    let k ← P.uLE 8
    let ivs ← P.times k (parsePrevInterval ⟨true⟩)
    return (server, ivs)
  return (flags, serverId, filename, position, length, sets)

theorem readDumpGtid_parses {flags serverId : Nat} {filename : RStr} {position : Nat} {sets : List (Bytes × List Interval)}
    {packet : Bytes} (h : DumpGtidPacket flags serverId filename position sets packet) :
    Parses readDumpGtid packet (flags, serverId, filename, position, (gtidSetBytes sets).length, sets) := by
  cases h with
  | mk h1 h2 h3 h4 h5 h6 =>
    unfold readDumpGtid
    generalize hlen : (gtidSetBytes sets).length = len at h6
    unfold gtidSetBytes
    simp only [List.append_assoc]
    refine (u8_parses (n := 30) (by decide)).bind ?_
    refine (uLE_parses (k := 2) (by simpa using h1)).bind ?_
    refine (uLE_parses (k := 4) (by simpa using h2)).bind ?_
    refine (uLE_parses (k := 4) (by simpa using h3)).bind ?_
    refine (readString_parses rfl (by omega)).bind ?_
    refine (uLE_parses (k := 8) (by simpa using h4)).bind ?_
    refine (uLE_parses (k := 4) (by simpa using h6)).bind ?_
    refine (uLE_parses (k := 8) (by simpa using h5.1)).bind ?_
    have := times_parses (p := do
        let server ← P.readExact 16
        let k ← P.uLE 8
        let ivs ← P.times k (parsePrevInterval ⟨true⟩)
        return (server, ivs)) (xs := sets) (v := fun s => s)
      (enc := fun s => s.1 ++ (le 8 s.2.length ++ intervalsBytes s.2)) (fun s hs => by
        refine (readExact_parses' (h5.2 s hs).1).bind ?_
        refine (uLE_parses (k := 8) (by simpa using (h5.2 s hs).2.1)).bind ?_
        have hi := times_parses (p := parsePrevInterval ⟨true⟩) (xs := s.2) (v := fun iv => iv)
          (fun iv hiv => parsePrevInterval_parses ⟨true⟩ ((h5.2 s hs).2.2 iv hiv))
        rw [List.map_id'] at hi
        exact hi.map _)
    rw [List.map_id'] at this
    exact this.map _

/-- C10. The format is unambiguous: a packet has one reading only, so what `C10_dump_request` says of a packet is all that a
server can take from it. -/
theorem C10_one_reading (f1 f2 i1 i2 : Nat) (n1 n2 : RStr) (p1 p2 : Nat) (s1 s2 : List (Bytes × List Interval)) (packet : Bytes)
    (h1 : DumpGtidPacket f1 i1 n1 p1 s1 packet) (h2 : DumpGtidPacket f2 i2 n2 p2 s2 packet) :
    f1 = f2 ∧ i1 = i2 ∧ n1 = n2 ∧ p1 = p2 ∧ s1 = s2 := by
  have := (readDumpGtid_parses h1).unique (readDumpGtid_parses h2) (r1 := []) (r2 := []) rfl
  simp only [Prod.mk.injEq] at this
  obtain ⟨a, b, c, d, _, e⟩ := this
  exact ⟨a, b, c, d, e⟩

/-! ## C11, second half -/

/-- C11. The decoder of previous-gtids events inverts the dump request: the data part of the request for a set whose server ids
are in canonical text form (as those read from events are), taken as the payload of a previous-gtids event, decodes to that
very set. -/
theorem C11_inverts_dump_request (m : Mode) (serverId : Nat) (filename : RStr) (position : Nat) (g : GtidSet)
    (h1 : serverId < 2 ^ 32) (h2 : (utf8Bytes filename).length < 2 ^ 32) (h3 : position < 2 ^ 64)
    (h4 : GtidSetFits (setsOf g)) (h5 : (gtidSetBytes (setsOf g)).length < 2 ^ 32) (hw : Wf g)
    (hc : ∀ e ∈ g.uuidSets, UuidCanon e.2.sourceId) (st : EventParser) (header : EventHeader) (ht : header.eventType = 35) :
    ∃ before data, dumpBinlogGtidCommand m serverId filename position g = .ok (before ++ data) ∧
      before.length = 23 + (utf8Bytes filename).length ∧
      ∀ slice, WithChecksum st.checksumType data slice → parseEvent m st header slice = (.ok (.mySqlPrevGtids ⟨g⟩), st) := by
  obtain ⟨packet, sets, e1, e2, rfl, _⟩ := C10_dump_request m serverId filename position g g.uuidSets (List.Perm.refl _) h1 h2 h3 h4 h5
  cases e2 with
  | mk =>
    refine ⟨_, _, e1, ?_, fun slice hs => ?_⟩
    · simp only [List.length_append, le_length]
      omega
    · have hn : ((setsOf g).map (·.1)).Nodup := by
        have h0 := hw.keys
        rw [setsOf, List.map_map]
        refine List.Nodup.of_map (f := uuidText) ?_
        rw [List.map_map]
        convert h0 using 1
        refine List.map_congr_left fun e he => ?_
        rw [(hw.uuids e he).2, (hc e he).2]
        rfl
      obtain ⟨g', p1, p2, _⟩ := C11_previous_gtids m st header (setsOf g) [] slice ht h4 hn (by simpa using hs)
      rw [p1]
      have : g' = g := by
        cases g' with
        | mk u' =>
        cases g with
        | mk u =>
        simp only [setsOf, List.map_map] at p2
        rw [GtidSet.mk.injEq, p2]
        conv_rhs => rw [← List.map_id u]
        refine List.map_congr_left fun e he => ?_
        obtain ⟨k, ⟨d, t⟩, ivs⟩ := e
        have a := (hw.uuids _ he).2
        have b := (hc _ he).2
        simp only at a b
        simp [a, b]
      rw [this]

example : GtidSetFits (setsOf exSet) ∧ (gtidSetBytes (setsOf exSet)).length < 2 ^ 32 ∧ Wf exSet ∧
    ∀ e ∈ exSet.uuidSets, UuidCanon e.2.sourceId := by
  refine ⟨⟨by decide, by simp [setsOf, exSet, exUuid, exUuid2, exBytes, exBytes2]⟩, by decide, exSet_wf, ?_⟩
  intro e he
  simp only [exSet, List.mem_cons, List.not_mem_nil, or_false] at he
  rcases he with rfl | rfl
  · exact exUuid_canon
  · exact exUuid2_canon

/-! ## C55: the other requests -/

/-- C55. COM_QUERY. -/
theorem C55_query (sql : RStr) : QueryPacket sql (queryCommand sql) := by
  simp [QueryPacket, queryCommand, leBytes_eq, COM_QUERY]

/-- C55. COM_REGISTER_SLAVE with the given server id and no host, user, password, port, rank and master id. -/
theorem C55_register (serverId : Nat) (h : serverId < 2 ^ 32) :
    RegisterPacket serverId [] [] [] 0 0 0 (registerSlaveCommand serverId) := by
  have := RegisterPacket.mk (serverId := serverId) (host := []) (user := []) (password := []) (port := 0) (rank := 0)
    (master := 0) h (by decide) (by decide) (by decide) (by decide) (by decide) (by decide)
  simpa [registerSlaveCommand, leBytes_eq, COM_REGISTER_SLAVE] using this

example : (65535 : Nat) < 2 ^ 32 := by decide

/-- C55. COM_BINLOG_DUMP with the given file name, position and server id and no flags. -/
theorem C55_dump (serverId : Nat) (filename : RStr) (position : Nat) (h1 : serverId < 2 ^ 32) (h2 : position < 2 ^ 32) :
    DumpPacket 0 serverId filename position (dumpBinlogCommand serverId filename position) := by
  simpa [dumpBinlogCommand, leBytes_eq, COM_BINLOG_DUMP] using
    DumpPacket.mk (flags := 0) (filename := filename) h2 (by decide) h1

example : (65535 : Nat) < 2 ^ 32 ∧ (195 : Nat) < 2 ^ 32 := by decide

/-- Which bits a number of `w` bits has is settled by looking at these. -/
theorem announced_iff {caps w : Nat} {bits : List Nat} (hc : caps < 2 ^ w) (hb : ∀ i ∈ bits, i < w)
    (h : ∀ i < w, hasBit caps i = true ↔ i ∈ bits) (i : Nat) : hasBit caps i = true ↔ i ∈ bits := by
  by_cases hi : i < w
  · exact h i hi
  · have : caps / 2 ^ i = 0 := Nat.div_eq_of_lt (lt_of_lt_of_le hc (Nat.pow_le_pow_right (by decide) (Nat.le_of_not_lt hi)))
    constructor
    · intro hh; simp [hasBit, this] at hh
    · exact fun hh => absurd (hb i hh) hi

/-- C55. The SSL request: it announces encryption (bit 11) and, besides, what the authentication packet always announces. -/
theorem C55_ssl_request (collation : Nat) (h : collation < 2 ^ 8) :
    ∃ caps, SslPacket caps 0 collation (sslRequestCommand collation) ∧
      ∀ i, hasBit caps i = true ↔ i ∈ [2, 9, 11, 15, 19] := by
  refine ⟨CAP_LONG_FLAG ||| CAP_PROTOCOL_41 ||| CAP_SECURE_CONNECTION ||| CAP_SSL ||| CAP_PLUGIN_AUTH, ?_,
    announced_iff (w := 20) (by decide) (by decide) (by decide)⟩
  simpa [sslRequestCommand, leBytes_eq] using SslPacket.mk
    (caps := CAP_LONG_FLAG ||| CAP_PROTOCOL_41 ||| CAP_SECURE_CONNECTION ||| CAP_SSL ||| CAP_PLUGIN_AUTH) (maxPacket := 0)
    (by decide) (by decide) h (by decide)

example : (33 : Nat) < 2 ^ 8 := by decide

/-- C55. The authentication packet: user, authentication response, database and plugin name are those it is built from, and
the database is announced exactly when there is one. Nothing else is announced that would change what the server sends: no
compression (bit 5), no encryption (bit 11), no result sets without end-of-file packets (bit 24). (Names with zero characters cannot
be written in this format.) -/
theorem C55_authenticate (c : Crypto) (options : ReplicaOptions) (handshake : HandshakePacket) (plugin : AuthPlugin)
    (collation : Nat) (auth : Bytes) (h1 : encryptPassword c options.password handshake.scramble plugin = .ok auth)
    (h2 : auth.length < 2 ^ 8) (h3 : collation < 2 ^ 8) (h4 : (0 : UInt8) ∉ utf8Bytes options.username)
    (h5 : ∀ d, options.database = some d → (0 : UInt8) ∉ utf8Bytes d) (h6 : (0 : UInt8) ∉ utf8Bytes handshake.authPluginName) :
    ∃ packet caps, authenticateCommand c options handshake plugin collation = .ok packet ∧
      ResponsePacket caps 0 collation options.username auth options.database handshake.authPluginName packet ∧
      ∀ i, hasBit caps i = true ↔ i ∈ [2, 9, 15, 19] ∨ i = 3 ∧ options.database.isSome := by
  unfold authenticateCommand
  simp only [h1]
  have hfit : ∀ k n : Nat, leBytes k n = le k n := leBytes_eq
  cases hd : options.database with
  | none =>
    refine ⟨_, CAP_LONG_FLAG ||| CAP_PROTOCOL_41 ||| CAP_SECURE_CONNECTION ||| CAP_PLUGIN_AUTH, rfl, ?_,
      fun i => by simp [announced_iff (w := 20) (bits := [2, 9, 15, 19]) (caps := CAP_LONG_FLAG ||| CAP_PROTOCOL_41 |||
        CAP_SECURE_CONNECTION ||| CAP_PLUGIN_AUTH) (by decide) (by decide) (by decide)]⟩
    have := ResponsePacket.mk (caps := CAP_LONG_FLAG ||| CAP_PROTOCOL_41 ||| CAP_SECURE_CONNECTION ||| CAP_PLUGIN_AUTH)
      (maxPacket := 0) (collation := collation) (database := none) (databaseBytes := [])
      (by decide) (by decide) h3 (by decide) (nullTerm_of h4) h2 (by decide) rfl (nullTerm_of h6)
    simpa [hfit, nullTermString, List.append_assoc] using this
  | some d =>
    refine ⟨_, CAP_LONG_FLAG ||| CAP_PROTOCOL_41 ||| CAP_SECURE_CONNECTION ||| CAP_PLUGIN_AUTH ||| CAP_CONNECT_WITH_DB, rfl, ?_,
      fun i => by
        rw [announced_iff (w := 20) (bits := [2, 9, 15, 19, 3]) (by decide) (by decide) (by decide)]
        simp [or_assoc]⟩
    have := ResponsePacket.mk
      (caps := CAP_LONG_FLAG ||| CAP_PROTOCOL_41 ||| CAP_SECURE_CONNECTION ||| CAP_PLUGIN_AUTH ||| CAP_CONNECT_WITH_DB)
      (maxPacket := 0) (collation := collation) (database := some d) (databaseBytes := _)
      (by decide) (by decide) h3 (by decide) (nullTerm_of h4) h2 rfl (nullTerm_of (h5 d hd)) (nullTerm_of h6)
    simpa [hfit, nullTermString, List.append_assoc] using this

/-- Hash functions that return zeros, a user with a password and a database. -/
example : let c : Crypto := ⟨fun _ => List.replicate 20 0, fun _ => List.replicate 32 0, fun _ _ => none⟩
    let o : ReplicaOptions := { ReplicaOptions.default with username := "root".toList, database := some "db".toList }
    encryptPassword c o.password "abc".toList .mySqlNativePassword = .ok (List.replicate 20 0) ∧
      (0 : UInt8) ∉ utf8Bytes o.username ∧ (0 : UInt8) ∉ utf8Bytes "db".toList ∧
      (0 : UInt8) ∉ utf8Bytes "mysql_native_password".toList := by decide +kernel

/-- Readers of the published formats, used only to show that they are unambiguous. -/
def readDump : P (Nat × Nat × RStr × Nat) := do
  let _ ← P.u8
  let position ← P.uLE 4
  let flags ← P.uLE 2
  let serverId ← P.uLE 4
  let filename ← readToString
  return (flags, serverId, filename, position)

def readRegister : P (Nat × Bytes × Bytes × Bytes × Nat × Nat × Nat) := do
  let _ ← P.u8
  let serverId ← P.uLE 4
  let a ← P.u8
  let host ← P.readVec a
  let b ← P.u8
  let user ← P.readVec b
  let c ← P.u8
  let password ← P.readVec c
  let port ← P.uLE 2
  let rank ← P.uLE 4
  let master ← P.uLE 4
  return (serverId, host, user, password, port, rank, master)

def readSsl : P (Nat × Nat × Nat) := do
  let caps ← P.uLE 4
  let maxPacket ← P.uLE 4
  let collation ← P.u8
  return (caps, maxPacket, collation)

def readResponse : P (Nat × Nat × Nat × RStr × Bytes × Option RStr × RStr) := do
  let caps ← P.uLE 4
  let maxPacket ← P.uLE 4
  let collation ← P.u8
  let _ ← P.readVec 23
  let user ← readNullTermString
  let n ← P.u8
  let auth ← P.readVec n
  if hasBit caps 3 then do
    let d ← readNullTermString
    let plugin ← readNullTermString
    return (caps, maxPacket, collation, user, auth, some d, plugin)
  else do
    let plugin ← readNullTermString
    return (caps, maxPacket, collation, user, auth, none, plugin)

/-- C55. Two readings of a query packet agree. -/
theorem C55_query_one_reading (s1 s2 : RStr) (packet : Bytes) (h1 : QueryPacket s1 packet) (h2 : QueryPacket s2 packet) : s1 = s2 := by
  unfold QueryPacket at h1 h2
  rw [h1] at h2
  have := List.append_cancel_left h2
  have a := fromUtf8_utf8Bytes s1
  rw [this, fromUtf8_utf8Bytes] at a
  simpa using a.symm

/-- C55. Two readings of a dump request agree. -/
theorem C55_dump_one_reading (f1 f2 i1 i2 : Nat) (n1 n2 : RStr) (p1 p2 : Nat) (packet : Bytes)
    (h1 : DumpPacket f1 i1 n1 p1 packet) (h2 : DumpPacket f2 i2 n2 p2 packet) : f1 = f2 ∧ i1 = i2 ∧ n1 = n2 ∧ p1 = p2 := by
  have key : ∀ {f i : Nat} {n : RStr} {p : Nat} {packet : Bytes}, DumpPacket f i n p packet →
      ParsesEnd readDump packet (f, i, n, p) := by
    intro f i n p packet h
    cases h with
    | mk g1 g2 g3 =>
      unfold readDump
      simp only [List.append_assoc]
      refine (u8_parses (n := 18) (by decide)).bindEnd ?_
      refine (uLE_parses (k := 4) (by simpa using g1)).bindEnd ?_
      refine (uLE_parses (k := 2) (by simpa using g2)).bindEnd ?_
      refine (uLE_parses (k := 4) (by simpa using g3)).bindEnd ?_
      exact (readToString_parses _).map _
  have := (key h1).unique (key h2) rfl
  simpa using this

/-- C55. Two readings of a registration agree. -/
theorem C55_register_one_reading (i1 i2 : Nat) (a1 a2 b1 b2 c1 c2 : Bytes) (p1 p2 r1 r2 m1 m2 : Nat) (packet : Bytes)
    (h1 : RegisterPacket i1 a1 b1 c1 p1 r1 m1 packet) (h2 : RegisterPacket i2 a2 b2 c2 p2 r2 m2 packet) :
    i1 = i2 ∧ a1 = a2 ∧ b1 = b2 ∧ c1 = c2 ∧ p1 = p2 ∧ r1 = r2 ∧ m1 = m2 := by
  have key : ∀ {i : Nat} {a b c : Bytes} {p r m : Nat} {packet : Bytes}, RegisterPacket i a b c p r m packet →
      Parses readRegister packet (i, a, b, c, p, r, m) := by
    intro i a b c p r m packet h
    cases h with
    | mk g1 g2 g3 g4 g5 g6 g7 =>
      unfold readRegister
      simp only [List.append_assoc]
      refine (u8_parses (n := 21) (by decide)).bind ?_
      refine (uLE_parses (k := 4) (by simpa using g1)).bind ?_
      refine (u8_parses (by simpa using g2)).bind ?_
      refine (readVec_parses rfl (by omega)).bind ?_
      refine (u8_parses (by simpa using g3)).bind ?_
      refine (readVec_parses rfl (by omega)).bind ?_
      refine (u8_parses (by simpa using g4)).bind ?_
      refine (readVec_parses rfl (by omega)).bind ?_
      refine (uLE_parses (k := 2) (by simpa using g5)).bind ?_
      refine (uLE_parses (k := 4) (by simpa using g6)).bind ?_
      exact (uLE_parses (k := 4) (by simpa using g7)).map _
  have := (key h1).unique (key h2) (r1 := []) (r2 := []) rfl
  simpa using this

/-- C55. Two readings of an SSL request agree. -/
theorem C55_ssl_one_reading (c1 c2 m1 m2 l1 l2 : Nat) (packet : Bytes) (h1 : SslPacket c1 m1 l1 packet)
    (h2 : SslPacket c2 m2 l2 packet) : c1 = c2 ∧ m1 = m2 ∧ l1 = l2 := by
  have key : ∀ {c m l : Nat} {packet : Bytes}, SslPacket c m l packet → readSsl.run packet = .ok (c, m, l) := by
    intro c m l packet h
    cases h with
    | mk g1 g2 g3 =>
      refine Parses.run_append (p := readSsl) ?_ _
      unfold readSsl
      simp only [List.append_assoc]
      refine (uLE_parses (k := 4) (by simpa using g1)).bind ?_
      refine (uLE_parses (k := 4) (by simpa using g2)).bind ?_
      exact (u8_parses (by simpa using g3)).map _
  have a := key h1
  rw [key h2] at a
  simp at a
  simp [a]

/-- C55. Two readings of an authentication packet agree. -/
theorem C55_response_one_reading (c1 c2 m1 m2 l1 l2 : Nat) (u1 u2 : RStr) (a1 a2 : Bytes) (d1 d2 : Option RStr) (p1 p2 : RStr)
    (packet : Bytes) (h1 : ResponsePacket c1 m1 l1 u1 a1 d1 p1 packet) (h2 : ResponsePacket c2 m2 l2 u2 a2 d2 p2 packet) :
    c1 = c2 ∧ m1 = m2 ∧ l1 = l2 ∧ u1 = u2 ∧ a1 = a2 ∧ d1 = d2 ∧ p1 = p2 := by
  have key : ∀ {c m l : Nat} {u : RStr} {a : Bytes} {d : Option RStr} {p : RStr} {packet : Bytes},
      ResponsePacket c m l u a d p packet → Parses readResponse packet (c, m, l, u, a, d, p) := by
    intro c m l u a d p packet h
    cases h with
    | mk g1 g2 g3 g4 g5 g6 g7 g8 g9 =>
      unfold readResponse
      simp only [List.append_assoc]
      refine (uLE_parses (k := 4) (by simpa using g1)).bind ?_
      refine (uLE_parses (k := 4) (by simpa using g2)).bind ?_
      refine (u8_parses (by simpa using g3)).bind ?_
      refine (readVec_parses (n := 23) (by simp) (by decide)).bind ?_
      refine (readNullTermString_parses g5).bind ?_
      refine (u8_parses (by simpa using g6)).bind ?_
      refine (readVec_parses rfl (by omega)).bind ?_
      cases d with
      | none =>
        rw [if_neg (by simp [g7])]
        simp only at g8
        subst g8
        exact (readNullTermString_parses g9).map _
      | some d =>
        rw [if_pos (by simp [g7])]
        exact (readNullTermString_parses g8).bind ((readNullTermString_parses g9).map _)
  have := (key h1).unique (key h2) (r1 := []) (r2 := []) rfl
  simpa using this

end MysqlCdc
