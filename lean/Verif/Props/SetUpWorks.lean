import Verif.Props.Login
import Verif.Props.Requests
import Mathlib.Data.Nat.Digits.Defs
/-!
# C73: against a server that follows the protocol, `replicate()` succeeds
-/

namespace MysqlCdc

open Spec

theorem frame_pos (p : Bytes) (n : Nat) : 0 < (frame p n).length := by simp [frame, le_length]

theorem Does.triv {P Q : Sess → Prop} {p : S Unit} (h : Does P p () Q) : Holds P p (fun _ s => True ∧ Q s) Never :=
  Holds.post h fun _ _ h => ⟨trivial, h.2⟩

section
variable {c : Client} {rest : Bytes}

theorem skip_does (eof : Bytes × Nat) (heof : eof.1.head? = some 0xFE ∧ eof.1.length < 2 ^ 24 ∧ eof.2 < 2 ^ 8)
    (columns : List (Bytes × Nat))
    (h : ∀ p ∈ columns, (p.1 ≠ [] ∧ p.1.head? ≠ some 0xFE) ∧ p.1.length < 2 ^ 24 ∧ p.2 < 2 ^ 8) :
    Does (Waiting c (frames columns ++ (frame eof.1 eof.2 ++ rest))) skipMetadata () (Waiting c rest) := by
  intro s hs
  induction columns generalizing s with
  | nil =>
    obtain ⟨s', h1, h2⟩ := (does_read heof.2.1 heof.2.2).run hs
    rw [skipMetadata, h1]
    cases hp : eof.1 with
    | nil => rw [hp] at heof; simp at heof
    | cons b t =>
      rw [hp, List.head?_cons, Option.some.injEq] at heof
      simp only [RESP_EOF, heof.1, if_true]
      exact ⟨trivial, h2⟩
  | cons p ps ih =>
    have hp := h p List.mem_cons_self
    simp only [frames, List.append_assoc] at hs
    obtain ⟨s', h1, h2⟩ := (does_read hp.2.1 hp.2.2).run hs
    rw [skipMetadata, h1]
    cases hc : p.1 with
    | nil => exact absurd hc hp.1.1
    | cons b t =>
      have hb : ¬ b = RESP_EOF := fun hb => hp.1.2 (by rw [hc, hb]; rfl)
      have hl : s'.chan.input.length < s.chan.input.length := by
        rw [h2.2.1, hs.2.1, List.length_append (as := frame p.1 p.2)]
        have := frame_pos p.1 p.2
        omega
      simp only [hb, if_false, hl, if_true]
      have := ih (fun q hq => h q (List.mem_cons_of_mem _ hq)) s' h2
      simpa using this

theorem rows_does (eof : Bytes × Nat) (heof : eof.1.head? = some 0xFE ∧ eof.1.length < 2 ^ 24 ∧ eof.2 < 2 ^ 8)
    (numbered : List (Bytes × Nat)) (values : List (List RStr))
    (h : List.Forall₂ (fun p v => (p.1 ≠ [] ∧ p.1.head? ≠ some 0xFE ∧ p.1.head? ≠ some 0xFF) ∧ (p.1.length < 2 ^ 24 ∧ p.2 < 2 ^ 8) ∧
      parseResultSetRow.run p.1 = .ok v) numbered values) :
    Does (Waiting c (frames numbered ++ (frame eof.1 eof.2 ++ rest))) readRows values (Waiting c rest) := by
  intro s hs
  induction h generalizing s with
  | nil =>
    obtain ⟨s', h1, h2⟩ := (does_read heof.2.1 heof.2.2).run hs
    rw [readRows, h1]
    cases hp : eof.1 with
    | nil => rw [hp] at heof; simp at heof
    | cons b t =>
      rw [hp, List.head?_cons, Option.some.injEq] at heof
      simp only [check_ok (p := b :: t) (b := 0xFE) (by rw [heof.1]; rfl) (by decide)]
      simp only [RESP_EOF, heof.1, if_true]
      exact ⟨rfl, h2⟩
  | @cons p v ps vs hp _ ih =>
    simp only [frames, List.append_assoc] at hs
    obtain ⟨s', h1, h2⟩ := (does_read hp.2.1.1 hp.2.1.2).run hs
    rw [readRows, h1]
    have hrow := hp.2.2
    cases hc : p.1 with
    | nil => exact absurd hc hp.1.1
    | cons b t =>
      rw [hc] at hrow
      have hb : ¬ b = RESP_EOF := fun hb => hp.1.2.1 (by rw [hc, hb]; rfl)
      have hb' : b ≠ 0xFF := fun hb => hp.1.2.2 (by rw [hc, hb]; rfl)
      have hl : s'.chan.input.length < s.chan.input.length := by
        rw [h2.2.1, hs.2.1, List.length_append (as := frame p.1 p.2)]
        have := frame_pos p.1 p.2
        omega
      simp only [check_ok (p := b :: t) rfl hb']
      simp only [hb, if_false, hl, if_true, hrow]
      have := ih s' h2
      revert this
      rcases readRows s' with ⟨r, s''⟩
      cases r with
      | ok x => rintro ⟨rfl, h'⟩; exact ⟨rfl, h'⟩
      | err e => exact fun h => h.elim
      | panic => exact fun h => h.elim
      | hang => exact fun h => h.elim

/-- A packet left over from the log-in. -/
def Extra (left : List (Bytes × Nat)) : Prop := left = [] ∨ ∃ p n, left = [(p, n)] ∧ IsOk p ∧ n < 2 ^ 8

/-- A whole result set of one row is read, with the values of the row. An OK packet before it is taken for the number of columns and the
number of columns for a column definition, without effect on what is read. -/
theorem result_does {left : List (Bytes × Nat)} (hleft : Extra left) {row : Bytes} {packets : List (Bytes × Nat)}
    (h : IsResultSet [row] packets) {cells : List RStr} (hrow : TextRow (cells.map some) row) :
    Does (Waiting c (frames left ++ (frames packets ++ rest))) readResultSet [cells] (Waiting c rest) := by
  have hparse := C54_row_decoded_partial cells row hrow
  cases h with
  | @mk count eof1 eof2 columns numbered h1 h0 h2 h3 h4 h5 h6 h7 =>
    have e1 := h1 eof1 (by simp)
    have e2 := h1 eof2 (by simp)
    have e3 := h1 count (by simp)
    match numbered, h7 with
    | [p], h7 =>
      simp only [List.map_cons, List.map_nil, List.cons.injEq, and_true] at h7
      have e4 := h1 p (by simp)
      have e5 := h6 p (by simp)
      have e6 : frames (count :: columns ++ eof1 :: [p] ++ [eof2]) ++ rest = frames (count :: columns) ++
          (frame eof1.1 eof1.2 ++ (frames [p] ++ (frame eof2.1 eof2.2 ++ rest))) := by
        simp only [List.cons_append, frames, frames_append, List.append_assoc, List.nil_append]
      rw [e6]
      have hrows := rows_does (c := c) (rest := rest) eof2 ⟨h4, e2.2⟩ [p] [cells]
        (.cons ⟨⟨e4.1, e5⟩, e4.2, by rw [← h7]; exact hparse⟩ .nil)
      have hcolumns : ∀ q ∈ columns, (q.1 ≠ [] ∧ q.1.head? ≠ some 0xFE) ∧ q.1.length < 2 ^ 24 ∧ q.2 < 2 ^ 8 :=
        fun q hq => ⟨⟨(h1 q (by simp [hq])).1, (h5 q hq).1⟩, (h1 q (by simp [hq])).2⟩
      unfold readResultSet
      rcases hleft with rfl | ⟨ok, n, rfl, hok, hn⟩
      · have hcount : ∃ b, count.1.head? = some b ∧ b ≠ 0xFF := by
          cases hc : count.1 with
          | nil => exact absurd hc e3.1
          | cons b t => exact ⟨b, rfl, fun hb => h2 (by rw [hc, hb]; rfl)⟩
        obtain ⟨b, hb, hne⟩ := hcount
        simp only [frames, List.nil_append, List.append_assoc]
        refine Does.bind (does_read e3.2.1 e3.2.2) ?_
        refine Does.bind (.lift (check_ok hb hne _)) ?_
        refine Does.bind (skip_does eof1 ⟨h3, e1.2⟩ columns hcolumns) ?_
        simp only [frames, List.append_assoc, List.nil_append] at hrows
        exact hrows
      · rw [show frames [(ok, n)] = frame ok n from List.append_nil _]
        refine Does.bind (does_read hok.2 hn) ?_
        refine Does.bind (.lift (check_ok hok.1 (by decide) _)) ?_
        refine Does.bind (skip_does eof1 ⟨h3, e1.2⟩ (count :: columns) fun q hq => ?_) hrows
        rcases List.mem_cons.1 hq with rfl | hq
        · exact ⟨⟨e3.1, h0⟩, e3.2⟩
        · exact hcolumns q hq

theorem simple_does {p : Bytes} {n : Nat} (hp : IsOk p) (hn : n < 2 ^ 8) {sql : RStr} (hs : (utf8Bytes sql).length < 2 ^ 24 - 1)
    (message : String) : Does (Waiting c (frame p n ++ rest)) (simpleQuery sql message) () (Waiting c rest) := by
  unfold simpleQuery
  refine Does.bind (does_write (by simp only [queryCommand, leBytes_eq, List.length_append, le_length]; omega)) ?_
  refine Does.bind (does_read hp.2 hn) ?_
  exact Does.lift (check_ok hp.1 (by decide) _)

end

/-- Sizes of what the client sends after logging in: below the limit of a packet. -/
structure SmallRequests (o : ReplicaOptions) : Prop where
  serverId : o.serverId < 2 ^ 32
  position : o.binlog.position < 2 ^ 32
  filename : (utf8Bytes o.binlog.filename).length < 2 ^ 20
  gtidSet : ∀ g, o.binlog.gtidSet = some g → GtidSetFits (setsOf g) ∧ (gtidSetBytes (setsOf g)).length < 2 ^ 23
  gtidList : ∀ l, o.binlog.gtidList = some l → (utf8Bytes l.display).length < 2 ^ 23
  heartbeat : o.heartbeatInterval < 2 ^ 64 * 10 ^ 9 - 10 * 10 ^ 9

/-- The client after the answer about the end of the log. -/
def Client.placedAt (c : Client) : Option (RStr × Nat) → Client
  | none => c
  | some (file, position) => c.setPosition file position

theorem adjust_does {c : Client} {left : List (Bytes × Nat)} (hleft : Extra left) {asked : Option (RStr × Nat)}
    {packets : List (Bytes × Nat)} {rest : Bytes} (h : StatusAnswer asked packets)
    (hask : asked.isSome ↔ c.options.binlog.startingStrategy = .fromEnd ∧ c.options.binlog.filename = []) :
    Does (Waiting c (frames left ++ (frames packets ++ rest))) adjustStartingPosition ()
      (Waiting (c.placedAt asked) (frames (if asked.isSome then [] else left) ++ rest)) := by
  unfold adjustStartingPosition
  refine Does.bind does_client ?_
  cases h with
  | notAsked =>
    rw [Option.isSome_none] at hask
    simp only [Bool.false_eq_true, false_iff, not_and] at hask
    by_cases h1 : c.options.binlog.startingStrategy = .fromEnd
    · simp only [h1, ne_eq, not_true_eq_false, if_false, hask h1, not_false_eq_true, if_true]
      exact fun s h => ⟨trivial, h⟩
    · simp only [h1, ne_eq, not_false_eq_true, if_true]
      exact fun s h => ⟨trivial, h⟩
  | @row file text position more row _ hrow hdec hpos hfile hset =>
    obtain ⟨h1, h2⟩ := hask.1 rfl
    simp only [h1, h2, ne_eq, not_true_eq_false, if_false]
    refine Does.bind (does_write (by decide +kernel)) ?_
    refine Does.bind (result_does hleft hset hrow) ?_
    simp only [List.length_cons, List.length_nil, Nat.zero_add, not_true_eq_false, if_false]
    refine Does.bind (a := file) (.lift rfl) ?_
    refine Does.bind (a := ()) (Q := Waiting (c.setPosition file c.options.binlog.position) rest)
      (fun s h => ⟨rfl, rfl, h.2.1, h.2.2⟩) ?_
    refine Does.bind (a := text) (.lift rfl) ?_
    refine Does.bind (.lift (hdec.parse 32 hpos)) ?_
    exact fun s h => ⟨trivial, rfl, h.2.1, h.2.2⟩

theorem heartbeat_does {c : Client} {p rest : Bytes} {n : Nat} (hp : IsOk p) (hn : n < 2 ^ 8)
    (h : c.options.heartbeatInterval < 2 ^ 64 * 10 ^ 9) : Does (Waiting c (frame p n ++ rest)) setMasterHeartbeat () (Waiting c rest) := by
  unfold setMasterHeartbeat
  refine Does.bind does_client ?_
  have hl : (showNat (c.options.heartbeatInterval / 10 ^ 6 * 1000 * 1000)).length ≤ 29 := by
    refine Nat.toDigits_length 10 _ 29 (by decide) ?_
    generalize c.options.heartbeatInterval = t at h
    have h1 : t / 10 ^ 6 * 1000 * 1000 ≤ t := by
      rw [Nat.mul_assoc]
      exact Nat.div_mul_le_self t _
    exact Nat.lt_of_le_of_lt h1 (Nat.lt_trans h (by norm_num))
  have hlen : ∀ s : RStr, (∀ c ∈ s, c.isDigit = true) → (utf8Bytes s).length = s.length := by
    intro s hs
    induction s with
    | nil => rfl
    | cons a t ih =>
      have := ih fun c hc => hs c (List.mem_cons_of_mem _ hc)
      have ha := hs a List.mem_cons_self
      rw [Char.isDigit_iff_toNat] at ha
      have h9 : '9'.toNat = 57 := rfl
      simp only [utf8Bytes, List.flatMap_cons, List.length_append, List.length_cons] at this ⊢
      rw [this]
      have : (String.utf8EncodeChar a).length = 1 := by
        rw [String.length_utf8EncodeChar, Char.utf8Size_eq_one_iff]
        show a.toNat ≤ 127
        omega
      omega
  refine Does.bind (does_write ?_) ?_
  · simp only [queryCommand, leBytes_eq, List.length_append, le_length]
    rw [show utf8Bytes ("set @master_heartbeat_period=".toList ++ showNat (c.options.heartbeatInterval / 10 ^ 6 * 1000 * 1000)) =
      utf8Bytes "set @master_heartbeat_period=".toList ++ utf8Bytes (showNat (c.options.heartbeatInterval / 10 ^ 6 * 1000 * 1000))
      from List.flatMap_append, List.length_append, hlen _ (showNat_isDigit _)]
    have : (utf8Bytes "set @master_heartbeat_period=".toList).length = 29 := by decide +kernel
    omega
  refine Does.bind (does_read hp.2 hn) ?_
  exact Does.lift (check_ok hp.1 (by decide) _)

theorem checksum_does {c : Client} {checksum : ChecksumType} {name : RStr} {row p rest : Bytes} {n : Nat} {packets : List (Bytes × Nat)}
    (hp : IsOk p) (hn : n < 2 ^ 8) {left : List (Bytes × Nat)} (hleft : Extra left) (hname : ChecksumName checksum name)
    (hrow : TextRow [some name] row) (hset : IsResultSet [row] packets) :
    Does (Waiting c (frame p n ++ (frames left ++ (frames packets ++ rest)))) setMasterBinlogChecksum checksum (Waiting c rest) := by
  unfold setMasterBinlogChecksum
  refine Does.bind (does_write (by decide +kernel)) ?_
  refine Does.bind (does_read hp.2 hn) ?_
  refine Does.bind (.lift (check_ok hp.1 (by decide) _)) ?_
  refine Does.bind (does_write (by decide +kernel)) ?_
  refine Does.bind (result_does (cells := [name]) hleft hset hrow) ?_
  refine Does.bind (a := name) (.lift rfl) ?_
  refine Does.lift ?_
  cases checksum <;> (simp only [ChecksumName] at hname; subst hname; decide +kernel)

/-- The heartbeat and checksum commands, also with one OK packet too many before their answers. -/
theorem configure_does {c : Client} {checksum : ChecksumType} {name : RStr} {row rest : Bytes} {packets left : List (Bytes × Nat)}
    {heartbeat setting : Bytes × Nat} (hleft : Extra left) (h1 : IsOk heartbeat.1) (h2 : heartbeat.2 < 2 ^ 8) (h3 : IsOk setting.1)
    (h4 : setting.2 < 2 ^ 8) (hname : ChecksumName checksum name) (hrow : TextRow [some name] row) (hset : IsResultSet [row] packets)
    (hbeat : c.options.heartbeatInterval < 2 ^ 64 * 10 ^ 9) :
    ∃ between, Does (Waiting c (frames left ++ (frame heartbeat.1 heartbeat.2 ++ (frame setting.1 setting.2 ++ (frames packets ++ rest)))))
      setMasterHeartbeat () (Waiting c between) ∧ Does (Waiting c between) setMasterBinlogChecksum checksum (Waiting c rest) := by
  rcases hleft with rfl | ⟨ok, n, rfl, hok, hn⟩
  · exact ⟨_, heartbeat_does h1 h2 hbeat, checksum_does h3 h4 (.inl rfl) hname hrow hset⟩
  · rw [show frames [(ok, n)] = frame ok n from List.append_nil _]
    refine ⟨_, heartbeat_does hok hn hbeat, ?_⟩
    have := checksum_does (c := c) (rest := rest) h1 h2 (left := [setting]) (.inr ⟨_, _, rfl, h3, h4⟩) hname hrow hset
    rwa [show frames [setting] = frame setting.1 setting.2 from List.append_nil _] at this

theorem Leaves.extra {packets : List (Bytes × Nat)} {way : Way} {left : List (Bytes × Nat)} (h : Leaves packets way left) : Extra left := by
  cases h with
  | none => exact .inl rfl
  | ok _ h1 h2 => exact .inr ⟨_, _, rfl, h1, h2⟩

theorem replicateMysql_does (m : Mode) {c : Client} {rest : Bytes} (small : SmallRequests c.options) (serverId : Nat)
    (hid : serverId < 2 ^ 32) (hset : c.options.binlog.startingStrategy = .fromGtid → c.options.binlog.gtidSet.isSome) :
    Does (Waiting c rest) (replicateMysql m serverId) () (Waiting c rest) := by
  unfold replicateMysql
  refine Does.bind does_client ?_
  have h1 := small.filename
  by_cases hs : c.options.binlog.startingStrategy = .fromGtid
  · obtain ⟨g, hg⟩ := Option.isSome_iff_exists.1 (hset hs)
    obtain ⟨h2, h3⟩ := small.gtidSet g hg
    obtain ⟨packet, sets, h4, h5, h6, -⟩ := C10_dump_request m serverId c.options.binlog.filename c.options.binlog.position g g.uuidSets
      (.refl _) hid (by omega) (by have := small.position; omega) h2 (by omega)
    simp only [hs, hg, if_true]
    refine Does.bind (.lift h4) ?_
    refine (does_write ?_).triv
    subst h6
    cases h5 with
    | mk =>
      simp only [List.length_append, le_length]
      have h3' : (gtidSetBytes (setsOf ⟨g.uuidSets⟩)).length < 2 ^ 23 := h3
      omega
  · simp only [hs, if_false]
    refine (does_write ?_).triv
    simp only [dumpBinlogCommand, List.length_append, leBytes_eq, le_length]
    omega

theorem replicateMariadb_does {c : Client} {rest : Bytes} (small : SmallRequests c.options) (serverId : Nat) (oks : List (Bytes × Nat))
    (hoks : ∀ p ∈ oks, IsOk p.1 ∧ p.2 < 2 ^ 8) (hn : oks.length = if c.options.binlog.startingStrategy = .fromGtid then 5 else 1)
    (hlist : c.options.binlog.startingStrategy = .fromGtid → c.options.binlog.gtidList.isSome) :
    Does (Waiting c (frames oks ++ rest)) (replicateMariadb serverId) () (Waiting c rest) := by
  have hdump : ∀ input, Does (Waiting c input)
      (S.writePacket (dumpBinlogCommand serverId c.options.binlog.filename c.options.binlog.position) 0) () (Waiting c input) := by
    intro input
    refine does_write ?_
    have h1 := small.filename
    simp only [dumpBinlogCommand, List.length_append, leBytes_eq, le_length]
    omega
  unfold replicateMariadb
  by_cases hs : c.options.binlog.startingStrategy = .fromGtid
  · rw [if_pos hs] at hn
    obtain ⟨l, hl⟩ := Option.isSome_iff_exists.1 (hlist hs)
    have h2 := small.gtidList l hl
    match oks, hn with
    | [a, b, d, e, f], _ =>
      simp only [frames, List.append_assoc, List.nil_append]
      have ha := hoks a (by simp)
      have hb := hoks b (by simp)
      have hd := hoks d (by simp)
      have he := hoks e (by simp)
      have hf := hoks f (by simp)
      refine Does.bind (simple_does ha.1 ha.2 (by decide +kernel) _) ?_
      refine Does.bind does_client ?_
      simp only [hs, hl, if_true]
      refine Does.bind (a := ()) (Q := Waiting c rest) ?_ (hdump rest).triv
      unfold registerGtidSlave
      refine Does.bind (simple_does hb.1 hb.2 ?_ _) ?_
      · rw [utf8Bytes_append, utf8Bytes_append, List.length_append, List.length_append]
        have h3 : (utf8Bytes "SET @slave_connect_state='".toList).length = 26 := by decide +kernel
        have h4 : (utf8Bytes "'".toList).length = 1 := by decide +kernel
        omega
      refine Does.bind (simple_does hd.1 hd.2 (by decide +kernel) _) ?_
      refine Does.bind (simple_does he.1 he.2 (by decide +kernel) _) ?_
      refine Does.bind (does_write ?_) ?_
      · simp only [registerSlaveCommand, List.length_append, leBytes_eq, le_length]
        omega
      refine Does.bind (does_read hf.1.2 hf.2) ?_
      exact Does.lift (check_ok hf.1.1 (by decide) _)
  · rw [if_neg hs] at hn
    match oks, hn with
    | [a], _ =>
      simp only [frames, List.append_nil]
      have ha := hoks a (by simp)
      refine Does.bind (simple_does ha.1 ha.2 (by decide +kernel) _) ?_
      refine Does.bind does_client ?_
      simp only [hs, if_false]
      exact (hdump rest).triv

/-- The client after a new connection: nothing left of an interrupted transaction. -/
def Client.afresh (c : Client) : Client := { c with transaction := false, mariaGtid := none, mysqlGtid := none }

theorem placed_small {o : Client} (h : SmallRequests o.options) {asked : Option (RStr × Nat)}
    (ha : ∀ a, asked = some a → (utf8Bytes a.1).length < 2 ^ 20 ∧ a.2 < 2 ^ 32) : SmallRequests (o.placedAt asked).options := by
  cases asked with
  | none => exact h
  | some a => exact ⟨h.serverId, (ha a rfl).2, (ha a rfl).1, h.gtidSet, h.gtidList, h.heartbeat⟩

/-- What the connection does when the server's bytes are used up is not changed by reading and writing. -/
theorem frame_ending : Frame fun s s' => (s'.chan.ending, s'.chan.later) = (s.chan.ending, s.chan.later) where
  refl _ := rfl
  trans h1 h2 := h2.trans h1
  read s := by
    show ((s.chan.readPacket).2.ending, (s.chan.readPacket).2.later) = _
    rcases hr : s.chan.readPacket with ⟨r, ch⟩
    cases r with
    | ok x => obtain ⟨-, -, rest, -, rfl⟩ := readPacket_inv hr; rfl
    | err e => obtain ⟨-, rfl⟩ := readPacket_fail hr (by simp); rfl
    | panic => obtain ⟨-, rfl⟩ := readPacket_fail hr (by simp); rfl
    | hang => obtain ⟨-, rfl⟩ := readPacket_fail hr (by simp); rfl
  write p n s := by
    obtain ⟨out, ws, hw⟩ := writePacket_frame s.chan p n
    show ((s.chan.writePacket p n).2.ending, (s.chan.writePacket p n).2.later) = _
    rw [hw]

theorem fullFrame_ending : FullFrame fun s s' => (s'.chan.ending, s'.chan.later) = (s.chan.ending, s.chan.later) where
  toFrame := frame_ending
  reset _ := rfl
  adjust := frame_ending.adjustStartingPosition fun _ _ _ => rfl

theorem ite_ok_of {α : Type} {p : Prop} [Decidable p] {a : α} (h : p) : (if p then Res.ok a else .panic) = .ok a := if_pos h

theorem readTimeoutOf_succeeds {o : ReplicaOptions} (h : o.heartbeatInterval + TIMEOUT_LATENCY_DELTA < 2 ^ 64 * 10 ^ 9) :
    readTimeoutOf o = .ok (o.heartbeatInterval + TIMEOUT_LATENCY_DELTA) := ite_ok_of h

theorem open_succeeds {o : ReplicaOptions} (h : o.heartbeatInterval < 2 ^ 64 * 10 ^ 9 - 10 * 10 ^ 9) (chan : Channel) :
    ∃ t, Channel.open o (.ok chan) = .ok { chan with readTimeout := t } :=
  ⟨_, (open_eq o chan).trans (by rw [readTimeoutOf_succeeds (by rw [delta_eq]; omega), Channel.withTimeout])⟩

theorem replicate_of {m : Mode} {c : Crypto} {self : Client} {net : Except IoKind Channel} {chan : Channel} {checksum : ChecksumType}
    {s : Sess} (ho : Channel.open self.options net = .ok chan) (hs : setUp m c ⟨self, chan⟩ = (.ok checksum, s)) :
    self.replicate m c net = (.ok (BinlogEvents.new s.chan checksum), s.client) := by
  unfold Client.replicate
  rw [ho]
  simp only [hs]

/-- C73. A client without TLS (or one that would use it only if offered, when it is not) against every server that follows the protocol (log-in as in C72, OK packets, one row for the end of the
log, `NONE` or `CRC32` for the checksum): `replicate()` succeeds. This includes the servers of `C72_hash_leaves_ok`: the OK packet left
unread is made up for by the next result set. Missing: an OK packet at once in answer to a switch request, see `C73_false`. The stream it returns starts with the server's first packet after the
answers and decodes events with the checksum type the server reported and no table maps. The recorded position is the one the server
reported if the client asked for it, and otherwise unchanged, and nothing is left of a transaction interrupted by the end of an earlier
connection. -/
theorem C73_replicate_partial (m : Mode) (c : Crypto) (client : Client) (chan : Channel) (login : SmallLogin c client.options)
    (requests : SmallRequests client.options) (g : HandshakePacket)
    (hssl : Unencrypted client.options.sslMode g) (hw : chan.writes = []) (greeting : Bytes) (hg : Greeting g greeting) (hversion : g.protocolVersion ≠ 255)
    (hlen : greeting.length < 2 ^ 24) (hknown : Known g.authPluginName) (way : Way) (hway : way ≠ .switched)
    (key : Option (RStr × Bytes)) (packets : List (Bytes × Nat)) (haccepts : Accepts g.authPluginName g.scramble way key packets) (hkey : ∀ e, key = some e → Encrypts c e.1 e.2)
    (asked : Option (RStr × Nat))
    (hasked : asked.isSome ↔ client.options.binlog.startingStrategy = .fromEnd ∧ client.options.binlog.filename = [])
    (checksum : ChecksumType) (oks : Nat) (answers : List (Bytes × Nat)) (hanswers : Answers asked checksum oks answers)
    (hoks : (IsMariaDb g.serverVersion ∧ oks = if client.options.binlog.startingStrategy = .fromGtid then 5 else 1) ∨
      (¬ IsMariaDb g.serverVersion ∧ oks = 0))
    (hgtid : client.options.binlog.startingStrategy = .fromGtid →
      (IsMariaDb g.serverVersion ∧ client.options.binlog.gtidList.isSome) ∨
      (¬ IsMariaDb g.serverVersion ∧ client.options.binlog.gtidSet.isSome))
    (events : Bytes) (hin : chan.input = frames ((greeting, 0) :: packets ++ answers) ++ events) :
    ∃ stream client', client.replicate m c (.ok chan) = (.ok stream, client') ∧
      stream.channel.input = events ∧ (stream.channel.ending, stream.channel.later) = (chan.ending, chan.later) ∧ stream.parser = ⟨checksum, []⟩ ∧
      client' = client.afresh.placedAt asked := by
  obtain ⟨t, hopen⟩ := open_succeeds requests.heartbeat chan
  have hsetup : Does (Waiting client (frames ((greeting, 0) :: packets) ++ (frames answers ++ events))) (setUp m c) checksum
      (Waiting (client.afresh.placedAt asked) events) := by
    unfold setUp
    obtain ⟨left, hl1, hl2⟩ := connect_accepts m c client login g hssl greeting hg hversion hlen hknown way key packets
      (frames answers ++ events) haccepts hway hkey
    have hleft := hl1.extra
    refine Holds.bind hl2 fun provider => .assume fun hprovider => ?_
    refine Does.bind (a := ()) (Q := Waiting client.afresh (frames left ++ (frames answers ++ events)))
      (fun s h => ⟨rfl, by rw [← h.1]; rfl, h.2⟩) ?_
    cases hanswers with
    | @mk status result final heartbeat setting name row g1 g2 g3 g4 g5 g6 g7 g8 g9 g10 =>
      have hsplit : frames (status ++ heartbeat :: setting :: result ++ final) ++ events = frames status ++
          (frame heartbeat.1 heartbeat.2 ++ (frame setting.1 setting.2 ++ (frames result ++ (frames final ++ events)))) := by
        simp only [frames_append, frames, List.append_assoc]
      rw [hsplit]
      have hsmall : SmallRequests (client.afresh.placedAt asked).options := by
        refine placed_small (o := client.afresh) requests fun a ha => ?_
        subst ha
        cases g1 with
        | row r1 r2 r3 r4 r5 => exact ⟨r4, r3⟩
      have hsame : (client.afresh.placedAt asked).options.binlog.startingStrategy = client.options.binlog.startingStrategy ∧
          (client.afresh.placedAt asked).options.binlog.gtidSet = client.options.binlog.gtidSet ∧
          (client.afresh.placedAt asked).options.binlog.gtidList = client.options.binlog.gtidList := by
        cases asked <;> exact ⟨rfl, rfl, rfl⟩
      have hbeat := Nat.lt_of_lt_of_le hsmall.heartbeat (Nat.sub_le (2 ^ 64 * 10 ^ 9) (10 * 10 ^ 9))
      refine Does.bind (adjust_does (c := client.afresh) hleft g1 hasked) ?_
      obtain ⟨between, hb1, hb2⟩ := configure_does (c := client.afresh.placedAt asked) (rest := frames final ++ events)
        (left := if asked.isSome then [] else left) (by split; exacts [.inl rfl, hleft]) g2 g3 g4 g5 g6 g7 g8 hbeat
      refine Does.bind hb1 ?_
      refine Does.bind hb2 ?_
      refine Does.bind does_client ?_
      have hid : (if (client.afresh.placedAt asked).options.blocking then (client.afresh.placedAt asked).options.serverId else 0)
          < 2 ^ 32 := by
        split
        · exact hsmall.serverId
        · decide
      cases provider with
      | mariaDB =>
        have hmaria := hprovider.1 rfl
        rcases hoks with ⟨-, ho⟩ | ⟨hno, -⟩
        · refine Does.bind (a := ()) (replicateMariadb_does hsmall _ final g10 (by rw [g9, ho, hsame.1]) fun hs => ?_) ?_
          · rw [hsame.1] at hs
            rw [hsame.2.2]
            rcases hgtid hs with h | h
            · exact h.2
            · exact absurd hmaria h.1
          · exact fun s h => ⟨rfl, h⟩
        · exact absurd hmaria hno
      | mySQL =>
        have hmysql : ¬ IsMariaDb g.serverVersion := fun h => by cases hprovider.2 h
        rcases hoks with ⟨hyes, -⟩ | ⟨-, ho⟩
        · exact absurd hyes hmysql
        · have hnil : final = [] := List.length_eq_zero_iff.1 (g9.trans ho)
          subst hnil
          refine Does.bind (a := ()) (replicateMysql_does m hsmall _ hid fun hs => ?_) ?_
          · rw [hsame.1] at hs
            rw [hsame.2.1]
            rcases hgtid hs with h | h
            · exact absurd h.1 hmysql
            · exact h.2
          · exact fun s h => ⟨rfl, h⟩
  obtain ⟨s', h6, h7⟩ := hsetup.run (s := { client, chan := { chan with readTimeout := t } }) ⟨rfl, by
    show chan.input = _
    rw [hin, ← List.append_assoc, ← frames_append], hw⟩
  have hend := fullFrame_ending.setUp m c { client, chan := { chan with readTimeout := t } }
  rw [h6] at hend
  refine ⟨BinlogEvents.new s'.chan checksum, s'.client, replicate_of hopen h6, h7.2.1, hend, rfl, h7.1⟩

/-- A server of the examples: version, packets of the log-in after the greeting, answers. -/
def exServer (version plugin : String) (packets answers : List (Bytes × Nat)) (events : Bytes) : Channel :=
  { exChannel [] with input := frames ((exHello version plugin 0xf7ff, 0) :: packets ++ answers) ++ events }

theorem exOk_isOk : IsOk exOk := ⟨rfl, by decide⟩

theorem exResult_isResultSet (cells : List String) (h1 : 0 < cells.length) (h2 : cells.length < 250)
    (h3 : ∀ b, (cells.flatMap exCell).head? = some b → b < 0xFE) (h4 : cells.flatMap exCell ≠ [])
    (h5 : (cells.flatMap exCell).length < 2 ^ 24) : IsResultSet [cells.flatMap exCell] (exResult cells) := by
  refine .mk (count := ([UInt8.ofNat cells.length], 1)) (eof1 := (exEof, 3)) (eof2 := (exEof, 5)) (columns := [([3, 100, 101, 102], 2)])
    (numbered := [(cells.flatMap exCell, 4)]) ?_ ?_ ?_ rfl rfl ?_ ?_ rfl
  · intro p hp
    simp only [List.cons_append, List.nil_append, List.mem_cons, List.not_mem_nil, or_false] at hp
    rcases hp with rfl | rfl | rfl | rfl | rfl
    · exact ⟨by simp, by simp, by show 1 < _; decide⟩
    · exact ⟨by decide, by decide, by decide⟩
    · exact ⟨by decide, by decide, by decide⟩
    · exact ⟨by decide, by decide, by decide⟩
    · exact ⟨h4, h5, by show 4 < _; decide⟩
  · intro h
    have := congrArg UInt8.toNat (Option.some.inj h)
    simp at this
    omega
  · intro h
    have := congrArg UInt8.toNat (Option.some.inj h)
    simp at this
    omega
  · intro p hp
    rw [List.mem_singleton.1 hp]
    exact ⟨by decide, by decide⟩
  · intro p hp
    rw [List.mem_singleton.1 hp]
    exact ⟨fun h => absurd (h3 _ h) (by decide), fun h => absurd (h3 _ h) (by decide)⟩

theorem exCell_lenEnc (t : String) (h : (utf8Bytes t.toList).length = t.length) (hs : t.length < 251) :
    TextCell (some t.toList) (exCell t) := by
  refine .value (by rw [h]; omega) ?_
  exact ⟨le 1 t.length, by rw [h]; exact .one hs, rfl⟩

theorem exConfigured_answers (oks : Nat) : Answers none .crc32 oks (exConfigured ++ List.replicate oks (exOk, 1)) := by
  have := Answers.mk (asked := none) (checksum := .crc32) (oks := oks) (final := List.replicate oks (exOk, 1)) (heartbeat := (exOk, 1))
    (setting := (exOk, 1)) (result := exResult ["CRC32"]) (name := "CRC32".toList) .notAsked exOk_isOk (by decide) exOk_isOk (by decide) rfl
    (.cons (exCell_lenEnc "CRC32" (by decide +kernel) (by decide)) .nil)
    (exResult_isResultSet ["CRC32"] (by decide) (by decide) (by decide +kernel) (by decide +kernel) (by decide +kernel))
    List.length_replicate fun p hp => by rw [(List.mem_replicate.1 hp).2]; exact ⟨exOk_isOk, by decide⟩
  simpa [exConfigured] using this

theorem exEnd_answers (oks : Nat) :
    Answers (some ("bin.000003".toList, 157)) .crc32 oks (exResult ["bin.000003", "157"] ++ exConfigured ++ List.replicate oks (exOk, 1)) := by
  have hstatus : StatusAnswer (some ("bin.000003".toList, 157)) (exResult ["bin.000003", "157"]) :=
    .row (file := "bin.000003".toList) (text := "157".toList) (more := [])
      (.cons (exCell_lenEnc "bin.000003" (by decide +kernel) (by decide))
        (.cons (exCell_lenEnc "157" (by decide +kernel) (by decide)) .nil))
      ⟨by decide, by decide +kernel, by decide +kernel⟩ (by decide) (by decide +kernel)
      (exResult_isResultSet ["bin.000003", "157"] (by decide) (by decide) (by decide +kernel) (by decide +kernel) (by decide +kernel))
  have := Answers.mk (asked := some ("bin.000003".toList, 157)) (checksum := .crc32) (oks := oks) (final := List.replicate oks (exOk, 1))
    (heartbeat := (exOk, 1)) (setting := (exOk, 1)) (result := exResult ["CRC32"]) (name := "CRC32".toList) hstatus exOk_isOk (by decide)
    exOk_isOk (by decide) rfl (.cons (exCell_lenEnc "CRC32" (by decide +kernel) (by decide)) .nil)
    (exResult_isResultSet ["CRC32"] (by decide) (by decide) (by decide +kernel) (by decide +kernel) (by decide +kernel))
    List.length_replicate fun p hp => by rw [(List.mem_replicate.1 hp).2]; exact ⟨exOk_isOk, by decide⟩
  simpa [exConfigured] using this

theorem not_mariaDb {version : String} (h : ∀ k ≤ version.toList.length, ¬ "MariaDB".toList <+: version.toList.drop k) :
    ¬ IsMariaDb version.toList := by
  rintro ⟨a, b, hab⟩
  refine h a.length (by rw [hab]; simp) ⟨b, ?_⟩
  rw [hab, List.append_assoc, List.drop_left]

/-- A MySQL server that accepts the hash, and a client that starts at the end of the log. -/
example (m : Mode) (events : Bytes) : ∃ stream client',
    (exUser .fromEnd).replicate m exCrypto (.ok (exServer "8.0.30" "caching_sha2_password" [([1, 3], 2), (exOk, 3)]
      (exResult ["bin.000003", "157"] ++ exConfigured) events)) = (.ok stream, client') ∧
    stream.channel.input = events ∧ (stream.channel.ending, stream.channel.later) = (.unexpectedEof, []) ∧ stream.parser = ⟨.crc32, []⟩ ∧
    client' = (exUser .fromEnd).afresh.placedAt (some ("bin.000003".toList, 157)) :=
  C73_replicate_partial m exCrypto (exUser .fromEnd) _ (exSmall _)
    ⟨by decide, by decide, by decide, (fun g h => by cases h), (fun g h => by cases h), by decide⟩ _ (.inl rfl) rfl _
    (exHello_greeting _ _ (by decide +kernel) (by decide +kernel)) (by decide) (by decide +kernel) (.inr rfl) .hash (by decide) none
    _ (.fast exOk_isOk rfl) (fun e h => by cases h) (some ("bin.000003".toList, 157)) (by decide) .crc32 0
    (exResult ["bin.000003", "157"] ++ exConfigured) (by simpa using exEnd_answers 0)
    (.inr ⟨not_mariaDb (by decide +kernel), rfl⟩) (fun h => by cases h) events rfl

def exList : GtidList := ⟨[⟨0, 1, 270⟩, ⟨1, 1, 5⟩]⟩

/-- A MariaDB server, and a client that starts at a GTID list. -/
example (m : Mode) (events : Bytes) : ∃ stream client',
    (exUser (.fromMariadbGtid exList)).replicate m exCrypto (.ok (exServer "5.5.5-10.6.4-MariaDB" "mysql_native_password" [(exOk, 2)]
      (exConfigured ++ List.replicate 5 (exOk, 1)) events)) = (.ok stream, client') ∧
    stream.channel.input = events ∧ (stream.channel.ending, stream.channel.later) = (.unexpectedEof, []) ∧ stream.parser = ⟨.crc32, []⟩ ∧
    client' = (exUser (.fromMariadbGtid exList)).afresh.placedAt none :=
  C73_replicate_partial m exCrypto (exUser (.fromMariadbGtid exList)) _ (exSmall _)
    ⟨by decide, by decide, by decide, (fun g h => by cases h), (fun g h => by cases h; decide +kernel), by decide⟩ _ (.inl rfl) rfl _
    (exHello_greeting _ _ (by decide +kernel) (by decide +kernel)) (by decide) (by decide +kernel) (.inl rfl) .answered (by decide) none
    _ (.ok exOk_isOk) (fun e h => by cases h) none (by decide) .crc32 5
    _ (exConfigured_answers 5) (.inl ⟨⟨"5.5.5-10.6.4-".toList, [], by decide +kernel⟩, by decide⟩)
    (fun _ => .inl ⟨⟨"5.5.5-10.6.4-".toList, [], by decide +kernel⟩, rfl⟩) events rfl

/-- A switch request to `caching_sha2_password`. -/
def exSwitchSha : Bytes := 0xFE :: ((utf8Bytes "caching_sha2_password".toList ++ [0]) ++ (utf8Bytes "abcdefghijklmnopqrst".toList ++ [0]) ++ [])

/-- A key that is no key cannot be used. -/
def exNoKey : Crypto := { exCrypto with rsa := fun _ _ => none }

/-- C73 as stated, with every way of accepting the client, is false of the code: after the answer to a switch request to
`caching_sha2_password` the client takes an OK packet for a request for the password, and the next answer for a key. -/
theorem C73_false (m : Mode) : ¬ ∀ (c : Crypto) (client : Client) (chan : Channel), SmallLogin c client.options →
    SmallRequests client.options → client.options.sslMode = .disabled → chan.writes = [] →
    ∀ (g : HandshakePacket) (greeting : Bytes), Greeting g greeting → g.protocolVersion ≠ 255 → greeting.length < 2 ^ 24 →
    Known g.authPluginName → ∀ (way : Way) (key : Option (RStr × Bytes)) (packets : List (Bytes × Nat)),
    Accepts g.authPluginName g.scramble way key packets → (∀ e, key = some e → Encrypts c e.1 e.2) →
    ∀ (asked : Option (RStr × Nat)),
    (asked.isSome ↔ client.options.binlog.startingStrategy = .fromEnd ∧ client.options.binlog.filename = []) →
    ∀ (checksum : ChecksumType) (oks : Nat) (answers : List (Bytes × Nat)), Answers asked checksum oks answers →
    ((IsMariaDb g.serverVersion ∧ oks = if client.options.binlog.startingStrategy = .fromGtid then 5 else 1) ∨
      (¬ IsMariaDb g.serverVersion ∧ oks = 0)) →
    (client.options.binlog.startingStrategy = .fromGtid →
      (IsMariaDb g.serverVersion ∧ client.options.binlog.gtidList.isSome) ∨
      (¬ IsMariaDb g.serverVersion ∧ client.options.binlog.gtidSet.isSome)) →
    ∀ events : Bytes, chan.input = frames ((greeting, 0) :: packets ++ answers) ++ events →
      ∃ stream client', client.replicate m c (.ok chan) = (.ok stream, client') := by
  intro h
  obtain ⟨stream, client', hr⟩ := h exNoKey (exUser .fromStart)
    (exServer "8.0.30" "mysql_native_password" [(exSwitchSha, 2), (exOk, 4)] exConfigured [])
    ⟨fun _ => rfl, fun _ => rfl, by decide +kernel, fun d h => by cases h⟩
    ⟨by decide, by decide, by decide, (fun g h => by cases h), (fun g h => by cases h), by decide⟩ rfl rfl _ _
    (exHello_greeting _ _ (by decide +kernel) (by decide +kernel)) (by decide) (by decide +kernel) (.inl rfl) .switched none
    [(exSwitchSha, 2), (exOk, 4)] (.switchOk exOk_isOk (.mk (nullTerm_of (by decide +kernel)) (nullTerm_of (by decide +kernel))) (by decide +kernel))
    (fun e h => by cases h) none (by decide) .crc32 0
    exConfigured (by simpa using exConfigured_answers 0)
    (.inr ⟨not_mariaDb (by decide +kernel), rfl⟩) (fun h => by cases h) [] rfl
  have hfail : (match ((exUser .fromStart).replicate m exNoKey (.ok
      (exServer "8.0.30" "mysql_native_password" [(exSwitchSha, 2), (exOk, 4)] exConfigured []))).1 with | .ok _ => false | _ => true) = true := by
    clear h hr
    revert m
    rintro ⟨_ | _⟩ <;> decide +kernel
  rw [hr] at hfail
  cases hfail

end MysqlCdc
