import Verif.Spec.Profiles
import Verif.Model.Session
import Verif.Model.Network
import Verif.Spec.Events
import Verif.Lemmas.ExampleServer
import Verif.Props.MysqlGtid
/-!
# C129: the build without overflow checks does what the build with them does, unless that crashes
-/

namespace MysqlCdc

open Spec

theorem Spec.SameOrCrash.refl {α : Type} (x : Res α) : SameOrCrash x x := fun _ => rfl

theorem Spec.SameOrCrash.bind {α β : Type} {x y : Res α} {f g : α → Res β} (h : SameOrCrash x y) (hf : ∀ a, SameOrCrash (f a) (g a)) :
    SameOrCrash (x >>= f) (y >>= g) := by
  intro hn
  cases x with
  | ok a => rw [h (by simp)]; exact hf a hn
  | err e => rw [h (by simp)]; rfl
  | panic => exact absurd rfl hn
  | hang => rw [h (by simp)]; rfl

theorem Spec.SameOrCrash.ite {α : Type} {c : Prop} [Decidable c] {x y x' y' : Res α} (h : SameOrCrash x y) (h' : SameOrCrash x' y') :
    SameOrCrash (if c then x else x') (if c then y else y') := by
  split
  · exact h
  · exact h'

theorem addU_same (bits a b : Nat) : SameOrCrash (addU checked bits a b) (addU unchecked bits a b) := by
  intro h
  unfold addU at h ⊢
  split
  · rfl
  · rename_i hc
    rw [if_neg hc] at h
    exact absurd rfl h

theorem subU_same (bits a b : Nat) : SameOrCrash (subU checked bits a b) (subU unchecked bits a b) := by
  intro h
  unfold subU at h ⊢
  split
  · rfl
  · rename_i hc
    rw [if_neg hc] at h
    exact absurd rfl h

/-! ## Cursors -/

def SameP {α : Type} (p q : P α) : Prop := ∀ buf pos, SameOrCrash (p buf pos) (q buf pos)

namespace SameP

theorem refl {α : Type} (p : P α) : SameP p p := fun _ _ => .refl _

theorem bind {α β : Type} {p q : P α} {f g : α → P β} (h : SameP p q) (hf : ∀ a, SameP (f a) (g a)) : SameP (p >>= f) (q >>= g) := by
  intro buf pos hn
  have h := h buf pos
  show P.seq q g buf pos = P.seq p f buf pos
  have hn : P.seq p f buf pos ≠ .panic := hn
  unfold P.seq at hn ⊢
  cases hx : p buf pos with
  | ok a => rw [hx] at h hn; rw [h (by simp)]; exact hf a.1 buf a.2 hn
  | err e => rw [hx] at h; rw [h (by simp)]
  | panic => rw [hx] at hn; exact absurd rfl hn
  | hang => rw [hx] at h; rw [h (by simp)]

theorem lift {α : Type} {x y : Res α} (h : SameOrCrash x y) : SameP (P.lift x) (P.lift y) := by
  intro buf pos hn
  cases x with
  | panic => exact absurd rfl hn
  | _ => rw [h (by simp)]

theorem ite {α : Type} {c : Prop} [Decidable c] {p q p' q' : P α} (h : SameP p q) (h' : SameP p' q') :
    SameP (if c then p else p') (if c then q else q') := by
  split
  · exact h
  · exact h'

theorem crash {α : Type} (q : P α) : SameP P.panic q := fun _ _ h => absurd rfl h

theorem whileData {α : Type} {p q : P α} (h : SameP p q) : SameP (P.whileData p) (P.whileData q) := by
  intro buf pos
  induction hk : buf.length - pos using Nat.strongRecOn generalizing pos with
  | _ k ih =>
    intro hn
    rw [P.whileData] at hn
    rw [P.whileData, P.whileData]
    split
    · rename_i hlt
      rw [if_pos hlt] at hn
      have h := h buf pos
      cases hx : p buf pos with
      | ok a =>
        obtain ⟨a, pos'⟩ := a
        rw [hx] at h hn
        rw [h (by simp)]
        simp only at hn ⊢
        split
        · rename_i hlt'
          rw [if_pos hlt'] at hn
          have ih := ih (buf.length - pos') (by omega) pos' rfl
          cases hy : P.whileData p buf pos' with
          | panic => rw [hy] at hn; exact absurd rfl hn
          | _ => rw [hy] at ih; rw [ih (by simp)]
        · rfl
      | err e => rw [hx] at h; rw [h (by simp)]
      | panic => rw [hx] at hn; exact absurd rfl hn
      | hang => rw [hx] at h; rw [h (by simp)]
    · rfl

theorem times {α : Type} {p q : P α} (h : SameP p q) (n : Nat) : SameP (P.times n p) (P.times n q) := by
  induction n with
  | zero => exact .refl _
  | succ n ih => exact h.bind fun _ => ih.bind fun _ => .refl _

theorem run {α : Type} {p q : P α} (h : SameP p q) (bs : Bytes) : SameOrCrash (p.run bs) (q.run bs) := by
  intro hn
  have h := h bs 0
  unfold P.run at hn ⊢
  cases hx : p bs 0 with
  | panic => rw [hx] at hn; exact absurd rfl hn
  | _ => rw [hx] at h; rw [h (by simp)]

end SameP

/-! ## Decoding -/

theorem fraction_same (metadata : Nat) : SameP (parseFractionalPart checked metadata) (parseFractionalPart unchecked metadata) :=
  (SameP.lift (addU_same _ _ _)).bind fun _ => .ite (.refl _) (.bind (.refl _) fun _ => .ite (.refl _) (.crash _))

theorem decimal_same (metadata : Nat) : SameP (parseDecimal checked metadata) (parseDecimal unchecked metadata) :=
  (SameP.lift (subU_same _ _ _)).bind fun _ => .refl _

theorem cell_same (columnType metadata : Nat) : SameP (parseCell checked columnType metadata) (parseCell unchecked columnType metadata) := by
  refine .bind (.refl _) fun t => ?_
  cases t with
  | newDecimal => exact .bind (decimal_same _) fun _ => .refl _
  | time2 | timeStamp2 | dateTime2 => exact .bind (.bind (.refl _) fun _ => .bind (fraction_same _) fun _ => .refl _) fun _ => .refl _
  | _ => exact .refl _

theorem column_same (columnType metadata : Nat) : SameP (parseColumn checked columnType metadata) (parseColumn unchecked columnType metadata) :=
  .bind (.refl _) fun _ => cell_same _ _

theorem rowLoop_same (table : TableMapEvent) (present nulls : List Bool) (is : List Nat) (skipped : Nat) :
    SameP (rowLoop checked table present nulls is skipped) (rowLoop unchecked table present nulls is skipped) := by
  induction is generalizing skipped with
  | nil => exact .refl _
  | cons i is ih =>
    unfold rowLoop
    cases present[i]? with
    | none => exact .refl _
    | some b =>
      cases b with
      | false => exact (ih _).bind fun _ => .refl _
      | true =>
        cases nulls[i - skipped]? with
        | none => exact .refl _
        | some b =>
          cases b with
          | true => exact (ih _).bind fun _ => .refl _
          | false =>
            cases table.columnTypes[i]? with
            | none => exact .refl _
            | some t =>
              cases table.columnMetadata[i]? with
              | none => exact .refl _
              | some x => exact (column_same _ _).bind fun _ => (ih _).bind fun _ => .refl _

theorem row_same (table : TableMapEvent) (present : List Bool) (n : Nat) : SameP (parseRow checked table present n) (parseRow unchecked table present n) :=
  .bind (.refl _) fun _ => .bind (rowLoop_same _ _ _ _ _) fun _ => .refl _

theorem rowList_same (tables : TableMapCache) (tableId : Nat) (present : List Bool) :
    SameP (parseRowDataList checked tables tableId present) (parseRowDataList unchecked tables tableId present) := by
  unfold parseRowDataList
  cases tables.get? tableId with
  | none => exact .refl _
  | some table => exact .whileData (row_same _ _ _)

theorem updateList_same (tables : TableMapCache) (tableId : Nat) (before after : List Bool) :
    SameP (parseUpdateRowDataList checked tables tableId before after) (parseUpdateRowDataList unchecked tables tableId before after) := by
  unfold parseUpdateRowDataList
  cases tables.get? tableId with
  | none => exact .refl _
  | some table => exact .whileData (.bind (row_same _ _ _) fun _ => .bind (row_same _ _ _) fun _ => .refl _)

theorem rowsEvent_same (tables : TableMapCache) (version : Nat) : SameP (parseRowsEvent checked tables version) (parseRowsEvent unchecked tables version) :=
  .bind (.refl _) fun _ => .bind (.refl _) fun _ => .bind (rowList_same _ _ _) fun _ => .refl _

theorem updateEvent_same (tables : TableMapCache) (version : Nat) :
    SameP (parseUpdateRowsEvent checked tables version) (parseUpdateRowsEvent unchecked tables version) :=
  .bind (.refl _) fun _ => .bind (.refl _) fun _ => .bind (.refl _) fun _ => .bind (updateList_same _ _ _ _) fun _ => .refl _

theorem format_same (header : EventHeader) : SameP (parseFormatDescription checked header) (parseFormatDescription unchecked header) := by
  refine .bind (.refl _) fun _ => .bind (.refl _) fun raw => ?_
  cases utf8Decode (raw.takeWhile (· != 0)) <;>
    exact .bind (.refl _) fun _ => .bind (.refl _) fun _ => .bind (.refl _) fun _ => .bind (.refl _) fun _ => .bind (.lift (subU_same _ _ _)) fun _ => .refl _

theorem previousGtids_same : SameP (parsePreviousGtids checked) (parsePreviousGtids unchecked) :=
  .bind (.refl _) fun _ => .bind (.times (.bind (.refl _) fun _ => .bind (.refl _) fun _ => .bind (.refl _) fun _ =>
    .bind (.times (.bind (.refl _) fun _ => .bind (.refl _) fun _ => .bind (.lift (subU_same _ _ _)) fun _ => .refl _) _) fun _ => .refl _) _) fun _ => .refl _

theorem dispatch_same (tables : TableMapCache) (header : EventHeader) : SameP (dispatchEvent checked tables header) (dispatchEvent unchecked tables header) := by
  unfold dispatchEvent
  cases EventType.fromCode header.eventType with
  | formatDescription => exact .bind (format_same _) fun _ => .refl _
  | mySqlPreviousGtids => exact .bind previousGtids_same fun _ => .refl _
  | writeRowsV1 | deleteRowsV1 | mySqlWriteRowsV2 | mySqlDeleteRowsV2 => exact .bind (rowsEvent_same _ _) fun _ => .refl _
  | updateRowsV1 | mySqlUpdateRowsV2 => exact .bind (updateEvent_same _ _) fun _ => .refl _
  | _ => exact .refl _

/-- **C129**, decoding an event. -/
theorem C129_event (parser : EventParser) (header : EventHeader) (slice : Bytes) :
    SameOrCrashWith (parseEvent checked parser header slice) (parseEvent unchecked parser header slice) := by
  intro hn
  unfold parseEvent at hn ⊢
  generalize eventBody parser.checksumType slice = body at hn ⊢
  cases body with
  | ok body =>
    simp only at hn ⊢
    have h := (dispatch_same parser.tableMap header).run body
    cases hx : (dispatchEvent checked parser.tableMap header).run body with
    | panic => rw [hx] at hn; exact absurd rfl hn
    | _ => rw [hx] at h; rw [h (by simp)]
  | _ => rfl

theorem asItem_panic {α : Type} (x : Res α) : asItem x = .panic ↔ x = .panic := by cases x <;> simp [asItem]

/-- **C129**, a call of the iterator over a connection. -/
theorem C129_stream (s : BinlogEvents) : SameOrCrashWith (s.next checked) (s.next unchecked) := by
  intro hn
  unfold BinlogEvents.next at hn ⊢
  generalize s.channel.readPacket = read at hn ⊢
  obtain ⟨r, channel⟩ := read
  cases r with
  | ok p =>
    obtain ⟨packet, seq⟩ := p
    cases packet with
    | nil => rfl
    | cons b packet =>
      simp only at hn ⊢
      split
      · rename_i hb
        rw [if_pos hb] at hn
        have hn : ¬(BinlogEvents.readEvent checked { s with channel } (b :: packet)).1 = .panic := fun h => hn ((asItem_panic _).2 h)
        suffices BinlogEvents.readEvent unchecked { s with channel } (b :: packet) = BinlogEvents.readEvent checked { s with channel } (b :: packet) by
          rw [this]
        unfold BinlogEvents.readEvent at hn ⊢
        generalize parseHeader.run ((b :: packet).drop 1) = header at hn ⊢
        cases header with
        | ok header =>
          simp only at hn ⊢
          have h := C129_event s.parser header ((b :: packet).drop (1 + EVENT_HEADER_SIZE))
          rcases hx : parseEvent checked s.parser header ((b :: packet).drop (1 + EVENT_HEADER_SIZE)) with ⟨x, parser⟩
          rw [hx] at h hn
          cases x with
          | panic => exact absurd rfl hn
          | _ => rw [h (by simp)]
        | _ => rfl
      · rfl
  | _ => rfl

/-- **C129**, a call of the iterator over a file. -/
theorem C129_file (r : BinlogReader) : SameOrCrashWith (r.next checked) (r.next unchecked) := by
  have key : SameOrCrashWith (r.readEvent checked) (r.readEvent unchecked) := by
    intro hn
    unfold BinlogReader.readEvent at hn ⊢
    generalize fileRead r.stream r.failure EVENT_HEADER_SIZE = read at hn ⊢
    obtain ⟨x, stream⟩ := read
    cases x with
    | ok buffer =>
      simp only at hn ⊢
      generalize parseHeader.run buffer = header at hn ⊢
      cases header with
      | ok header =>
        simp only at hn ⊢
        have h := subU_same 64 header.eventLength EVENT_HEADER_SIZE
        cases hx : subU checked 64 header.eventLength EVENT_HEADER_SIZE with
        | panic => rw [hx] at hn; exact absurd rfl hn
        | ok n =>
          rw [hx] at h hn
          rw [h (by simp)]
          simp only at hn ⊢
          generalize (if n > PAYLOAD_BUFFER_SIZE then allocZeroed n else .ok () : Res Unit) = room at hn ⊢
          cases room with
          | ok _ =>
            simp only at hn ⊢
            generalize fileRead stream r.failure n = read at hn ⊢
            obtain ⟨y, stream'⟩ := read
            cases y with
            | ok payload =>
              simp only at hn ⊢
              have h := C129_event r.parser header payload
              rcases hx : parseEvent checked r.parser header payload with ⟨x, parser⟩
              rw [hx] at h hn
              cases x with
              | panic => exact absurd rfl hn
              | _ => rw [h (by simp)]
            | _ => rfl
          | _ => rfl
        | _ => rw [hx] at h; rw [h (by simp)]
      | _ => rfl
    | _ => rfl
  intro hn
  unfold BinlogReader.next at hn ⊢
  rw [key]
  intro hp
  rcases hx : r.readEvent checked with ⟨x, r'⟩
  rw [hx] at hp hn
  obtain rfl : x = .panic := hp
  exact hn rfl

/-! ## GTIDs and positions -/

theorem collapseLoop_same (ivs : List Interval) (index : Nat) : SameOrCrash (collapseLoop checked ivs index) (collapseLoop unchecked ivs index) := by
  induction hk : ivs.length - index using Nat.strongRecOn generalizing ivs index with
  | _ k ih =>
    intro hn
    rw [collapseLoop] at hn
    rw [collapseLoop.eq_def unchecked ivs index, collapseLoop.eq_def checked ivs index]
    split
    · rename_i hlt
      rw [dif_pos hlt] at hn
      simp only at hn ⊢
      have h := addU_same 64 ivs[index].end 1
      cases hx : addU checked 64 ivs[index].end 1 with
      | panic => rw [hx] at hn; exact absurd rfl hn
      | ok e =>
        rw [hx] at h hn
        rw [h (by simp)]
        simp only at hn ⊢
        split
        · rename_i he
          rw [if_pos he] at hn
          exact ih _ (by rw [← hk, List.length_eraseIdx]; split <;> simp at * <;> omega) _ _ rfl hn
        · rename_i he
          rw [if_neg he] at hn
          exact ih _ (by omega) _ _ rfl hn
      | _ => rw [hx] at h; rw [h (by simp)]
    · rfl

theorem collapse_same (ivs : List Interval) : SameOrCrash (collapseIntervals checked ivs) (collapseIntervals unchecked ivs) :=
  .ite (.refl _) (collapseLoop_same _ _)

theorem uuidSet_same (u : Uuid) (ivs : List Interval) : SameOrCrash (UuidSet.new checked u ivs) (UuidSet.new unchecked u ivs) :=
  .ite (.bind (collapse_same _) fun _ => .refl _) (.refl _)

theorem parseSets_same (tokens : List RStr) (sets : HMap RStr UuidSet) : SameOrCrash (parseUuidSets checked tokens sets) (parseUuidSets unchecked tokens sets) := by
  induction tokens generalizing sets with
  | nil => exact .refl _
  | cons t ts ih => exact .bind (.refl _) fun _ => .bind (.refl _) fun _ => .bind (uuidSet_same _ _) fun _ => ih _

/-- **C129**, parsing the text of a GTID set. -/
theorem C129_parse (text : RStr) : SameOrCrash (GtidSet.parse checked text) (GtidSet.parse unchecked text) :=
  .ite (.refl _) (.bind (parseSets_same _ _) fun _ => .refl _)

theorem uuidAdd_same (s : UuidSet) (g : Gtid) : SameOrCrash (s.addGtid checked g) (s.addGtid unchecked g) := by
  unfold UuidSet.addGtid
  refine .ite (.refl _) (.bind (.refl _) fun index => ?_)
  simp only
  cases s.intervals[index]? with
  | none => exact .ite (.ite (.bind (collapse_same _) fun _ => .refl _) (.refl _)) (.refl _)
  | some iv =>
    exact .bind (addU_same _ _ _) fun _ => .ite (.ite (.bind (collapse_same _) fun _ => .refl _) (.refl _)) (.bind (addU_same _ _ _) fun _ => .ite (.ite (.bind (collapse_same _) fun _ => .refl _) (.refl _)) (.ite (.refl _) (.ite (.ite (.bind (collapse_same _) fun _ => .refl _) (.refl _)) (.refl _))))

/-- **C129**, adding a GTID to a set. -/
theorem C129_add (set : GtidSet) (g : Gtid) : SameOrCrash (set.addGtid checked g) (set.addGtid unchecked g) :=
  .bind (uuidSet_same _ _) fun _ => .bind (uuidAdd_same _ _) fun _ => .refl _

theorem commitGtid_same (c : Client) : SameOrCrash (c.commitGtid checked) (c.commitGtid unchecked) := by
  refine .bind ?_ fun _ => .refl _
  intro hn
  unfold commitMysql at hn ⊢
  generalize c.mysqlGtid = gtid at hn ⊢
  generalize c.options.binlog.gtidSet = known at hn ⊢
  cases gtid with
  | none => rfl
  | some g =>
    cases known with
    | none => rfl
    | some set =>
      simp only at hn ⊢
      have h := C129_add set g
      cases hx : set.addGtid checked g with
      | panic => rw [hx] at hn; exact absurd rfl hn
      | _ => rw [hx] at h; rw [h (by simp)]

/-- **C129**, recording an event. -/
theorem C129_commit (c : Client) (header : EventHeader) (event : BinlogEvent) : SameOrCrash (c.commit checked header event) (c.commit unchecked header event) := by
  refine .bind ?_ fun _ => .refl _
  refine .ite (.refl _) ?_
  cases event with
  | xid x => exact commitGtid_same c
  | query q => exact .ite (.refl _) (.ite (.refl _) (.ite (commitGtid_same c) (.ite (commitGtid_same c) (.refl _))))
  | _ => exact .refl _

/-! ## Setting up replication -/

theorem dumpIntervals_same (ivs : List Interval) : SameOrCrash (dumpIntervals checked ivs) (dumpIntervals unchecked ivs) := by
  induction ivs with
  | nil => exact .refl _
  | cons iv ivs ih => exact .bind (addU_same _ _ _) fun _ => .bind ih fun _ => .refl _

theorem dumpSets_same (sets : List UuidSet) : SameOrCrash (dumpUuidSets checked sets) (dumpUuidSets unchecked sets) := by
  induction sets with
  | nil => exact .refl _
  | cons s ss ih => exact .bind (dumpIntervals_same _) fun _ => .bind ih fun _ => .refl _

/-- **C129**, the request for events by GTIDs. -/
theorem C129_request (id : Nat) (file : RStr) (position : Nat) (set : GtidSet) :
    SameOrCrash (dumpBinlogGtidCommand checked id file position set) (dumpBinlogGtidCommand unchecked id file position set) :=
  .bind (dumpSets_same _) fun _ => .refl _

def SameS {α : Type} (p q : S α) : Prop := ∀ s, SameOrCrashWith (p s) (q s)

namespace SameS

theorem refl {α : Type} (p : S α) : SameS p p := fun _ _ => rfl

theorem bind {α β : Type} {p q : S α} {f g : α → S β} (h : SameS p q) (hf : ∀ a, SameS (f a) (g a)) : SameS (p >>= f) (q >>= g) := by
  intro s hn
  have h := h s
  show S.seq q g s = S.seq p f s
  have hn : (S.seq p f s).1 ≠ .panic := hn
  unfold S.seq at hn ⊢
  rcases hx : p s with ⟨x, s'⟩
  rw [hx] at h hn
  cases x with
  | ok a => rw [h (by simp)]; exact hf a s' hn
  | panic => exact absurd rfl hn
  | _ => rw [h (by simp)]

theorem lift {α : Type} {x y : Res α} (h : SameOrCrash x y) : SameS (S.lift x) (S.lift y) := by
  intro s hn
  exact congrArg (·, s) (h hn)

theorem ite {α : Type} {c : Prop} [Decidable c] {p q p' q' : S α} (h : SameS p q) (h' : SameS p' q') :
    SameS (if c then p else p') (if c then q else q') := by
  split
  · exact h
  · exact h'

end SameS

theorem sha256_same (c : Crypto) (packet : Bytes) (scramble : RStr) (seqNum : Nat) (useSsl : Bool) :
    SameS (authenticateSha256 checked c packet scramble seqNum useSsl) (authenticateSha256 unchecked c packet scramble seqNum useSsl) :=
  .bind (.refl _) fun _ => .ite (.refl _) (.bind (.refl _) fun _ => .ite (.refl _)
    (.bind (.refl _) fun _ => .bind (.refl _) fun _ => .bind (.refl _) fun _ => .bind (.refl _) fun _ => .bind (.lift (addU_same _ _ _)) fun _ => .refl _))

theorem switch_same (c : Crypto) (switch : AuthPluginSwitchPacket) (seqNum : Nat) (useSsl : Bool) :
    SameS (handleAuthPluginSwitch checked c switch seqNum useSsl) (handleAuthPluginSwitch unchecked c switch seqNum useSsl) :=
  .bind (.refl _) fun _ => .bind (.refl _) fun _ => .bind (.refl _) fun _ => .bind (.refl _) fun _ => .bind (.refl _) fun _ => .bind (.refl _) fun _ =>
    .ite (.bind (.lift (addU_same _ _ _)) fun _ => sha256_same _ _ _ _ _) (.refl _)

theorem ssl_same (handshake : HandshakePacket) (seqNum : Nat) : SameS (negotiateSsl checked handshake seqNum) (negotiateSsl unchecked handshake seqNum) :=
  .bind (.refl _) fun _ => .ite (.ite (.refl _) (.ite (.bind (.refl _) fun _ => .bind (.lift (addU_same _ _ _)) fun _ => .refl _) (.refl _))) (.refl _)

theorem authenticate_same (c : Crypto) (handshake : HandshakePacket) (plugin : AuthPlugin) (seqNum : Nat) :
    SameS (authenticate checked c handshake plugin seqNum) (authenticate unchecked c handshake plugin seqNum) :=
  .bind (ssl_same _ _) fun _ => .bind (.refl _) fun _ => .bind (.refl _) fun _ => .bind (.refl _) fun _ => .bind (.refl _) fun _ => .bind (.refl _) fun _ =>
    .bind (.refl _) fun _ => .ite (.refl _) (.ite
      (.bind (.refl _) fun _ => .bind (.lift (addU_same _ _ _)) fun _ => switch_same _ _ _ _)
      (.bind (.lift (addU_same _ _ _)) fun _ => sha256_same _ _ _ _ _))

theorem connect_same (c : Crypto) : SameS (connect checked c) (connect unchecked c) :=
  .bind (.refl _) fun _ => .bind (.refl _) fun _ => .bind (.refl _) fun _ => .bind (.refl _) fun _ => .bind (.lift (addU_same _ _ _)) fun _ =>
    .bind (authenticate_same _ _ _ _) fun _ => .refl _

theorem replicateMysql_same (id : Nat) : SameS (replicateMysql checked id) (replicateMysql unchecked id) := by
  refine .bind (.refl _) fun self => .ite ?_ (.refl _)
  cases self.options.binlog.gtidSet with
  | none => exact .refl _
  | some set => exact .bind (.lift (C129_request _ _ _ _)) fun _ => .refl _

theorem setUp_same (c : Crypto) : SameS (setUp checked c) (setUp unchecked c) := by
  refine .bind (connect_same c) fun provider => .bind (.refl _) fun _ => .bind (.refl _) fun _ => .bind (.refl _) fun _ => .bind (.refl _) fun _ =>
    .bind (.refl _) fun _ => ?_
  cases provider with
  | mariaDB => exact .refl _
  | mySQL => exact .bind (replicateMysql_same _) fun _ => .refl _

/-- **C129**, setting up replication on a connection: also what is sent and what is left to read are the same, whether set-up succeeds or not. -/
theorem C129_set_up (c : Crypto) (s : Sess) : SameOrCrashWith (setUp checked c s) (setUp unchecked c s) := setUp_same c s

/-- **C129**, setting up replication. -/
theorem C129_replicate (c : Crypto) (client : Client) (net : RStr → Except IoKind Channel) :
    SameOrCrashWith (client.replicateVia checked c net) (client.replicateVia unchecked c net) := by
  intro hn
  unfold Client.replicateVia Client.replicate at hn ⊢
  generalize Channel.open client.options (net client.options.address) = opened at hn ⊢
  cases opened with
  | ok chan =>
    simp only at hn ⊢
    have h := setUp_same c { client, chan }
    rcases hx : setUp checked c { client, chan } with ⟨x, s⟩
    rw [hx] at h hn
    cases x with
    | panic => exact absurd rfl hn
    | _ => rw [h (by simp)]
  | _ => rfl

/-! ## Whole applications -/

/-- What an application has in hands: a client, the stream of the session last begun, and the reader of a file last opened. -/
structure InHands where
  client : Client
  stream : Option BinlogEvents := none
  reader : Option BinlogReader := none

/-- The calls an application can make. -/
inductive UserCall where
  | replicate (net : RStr → Except IoKind Channel)
  | next
  | commit (header : EventHeader) (event : BinlogEvent)
  | openFile (file : Bytes) (failure : IoKind)
  | nextOfFile
  | parseSet (text : RStr)
  | addGtid (set : GtidSet) (gtid : Gtid)
  | showSet (set : GtidSet)

/-- What a call returns. -/
inductive Returned where
  | done
  | failed (e : Err)
  | item (x : Option Item)
  | set (x : GtidSet)
  | added (isNew : Bool) (x : GtidSet)
  | text (x : RStr)
  | nothing

/-- The outcome for the application, and what it has in hands then. -/
def keepOutcome {α : Type} (hands : InHands) (f : α → Returned × InHands) : Res α → Res Returned × InHands
  | .ok a => (.ok (f a).1, (f a).2)
  | .err e => (.ok (.failed e), hands)
  | .panic => (.panic, hands)
  | .hang => (.hang, hands)

/-- A call of the library. -/
def InHands.call (m : Mode) (crypto : Crypto) (hands : InHands) : UserCall → Res Returned × InHands
  | .replicate net =>
    let r := hands.client.replicateVia m crypto net
    keepOutcome { hands with client := r.2 } (fun s => (.done, { hands with client := r.2, stream := some s })) r.1
  | .next =>
    match hands.stream with
    | none => (.ok .nothing, hands)
    | some s => keepOutcome hands (fun x => (.item x, { hands with stream := some (s.next m).2 })) (s.next m).1
  | .commit header event => keepOutcome hands (fun c => (.done, { hands with client := c })) (hands.client.commit m header event)
  | .openFile file failure => keepOutcome hands (fun r => (.done, { hands with reader := some r })) (BinlogReader.new file failure)
  | .nextOfFile =>
    match hands.reader with
    | none => (.ok .nothing, hands)
    | some r => keepOutcome hands (fun x => (.item x, { hands with reader := some (r.next m).2 })) (r.next m).1
  | .parseSet text => keepOutcome hands (fun x => (.set x, hands)) (GtidSet.parse m text)
  | .addGtid set gtid => keepOutcome hands (fun x => (.added x.1 x.2, hands)) (set.addGtid m gtid)
  | .showSet set => (.ok (.text set.display), hands)

/-- An application: after what it has called and got so far, it makes the next call, or ends. -/
abbrev Application := List (UserCall × Returned) → Option UserCall

/-- At most `n` calls of an application: all it has called and got, and what it has in hands at the end. -/
def Application.run (m : Mode) (crypto : Crypto) (app : Application) : Nat → List (UserCall × Returned) → InHands → Res (List (UserCall × Returned)) × InHands
  | 0, got, hands => (.ok got, hands)
  | n + 1, got, hands =>
    match app got with
    | none => (.ok got, hands)
    | some call =>
      match hands.call m crypto call with
      | (.ok x, hands) => app.run m crypto n (got ++ [(call, x)]) hands
      | (.err e, hands) => (.err e, hands)
      | (.panic, hands) => (.panic, hands)
      | (.hang, hands) => (.hang, hands)

theorem keep_same {α : Type} {hands hands' : InHands} {f g : α → Returned × InHands} {x y : Res α} (h : x ≠ .panic → y = x ∧ hands' = hands ∧ g = f) :
    SameOrCrashWith (keepOutcome hands f x) (keepOutcome hands' g y) := by
  intro hn
  obtain ⟨rfl, rfl, rfl⟩ := h fun hx => by rw [hx] at hn; exact hn rfl
  rfl

theorem call_same (crypto : Crypto) (hands : InHands) (call : UserCall) :
    SameOrCrashWith (hands.call checked crypto call) (hands.call unchecked crypto call) := by
  cases call with
  | replicate net => exact keep_same fun h => by rw [C129_replicate crypto hands.client net h]; exact ⟨rfl, rfl, rfl⟩
  | next =>
    unfold InHands.call
    cases hands.stream with
    | none => exact fun _ => rfl
    | some s => exact keep_same fun h => by rw [C129_stream s h]; exact ⟨rfl, rfl, rfl⟩
  | commit header event => exact keep_same fun h => ⟨C129_commit hands.client header event h, rfl, rfl⟩
  | openFile file failure => exact fun _ => rfl
  | nextOfFile =>
    unfold InHands.call
    cases hands.reader with
    | none => exact fun _ => rfl
    | some r => exact keep_same fun h => by rw [C129_file r h]; exact ⟨rfl, rfl, rfl⟩
  | parseSet text => exact keep_same fun h => ⟨C129_parse text h, rfl, rfl⟩
  | addGtid set gtid => exact keep_same fun h => ⟨C129_add set gtid h, rfl, rfl⟩
  | showSet set => exact fun _ => rfl

/-- **C129.** An application that does not crash with overflow checks, whatever servers, files and texts it meets, makes the same calls and gets the same from
them without overflow checks, and has the same in hands in the end. -/
theorem C129_application (crypto : Crypto) (app : Application) (n : Nat) (got : List (UserCall × Returned)) (hands : InHands) :
    SameOrCrashWith (app.run checked crypto n got hands) (app.run unchecked crypto n got hands) := by
  induction n generalizing got hands with
  | zero => exact fun _ => rfl
  | succ n ih =>
    intro hn
    unfold Application.run at hn ⊢
    cases happ : app got with
    | none => rfl
    | some call =>
      rw [happ] at hn
      simp only at hn ⊢
      have h := call_same crypto hands call
      rcases hx : hands.call checked crypto call with ⟨x, hands'⟩
      rw [hx] at h hn
      cases x with
      | ok x => rw [h (by simp)]; exact ih _ _ hn
      | panic => exact absurd rfl hn
      | _ => rw [h (by simp)]

/-! ## Concrete runs -/

/-- It reads a file with one XID event to the end, parses a GTID set, adds to it, and commits an event. -/
def exApplication : Application
  | [] => some (.openFile ([0xfe, 0x62, 0x69, 0x6e] ++ headerBytes ⟨0, 16, 1, 27, 31, 0⟩ ++ [7, 0, 0, 0, 0, 0, 0, 0]) .unexpectedEof)
  | [_] => some .nextOfFile
  | [_, _] => some .nextOfFile
  | [_, _, _] => some (.parseSet "24bc7850-2c16-11e6-a073-0242ac110001:1-5".toList)
  | [_, _, _, (_, .set x)] => some (.addGtid x ⟨exUuid, 6⟩)
  | [_, (_, .item (some (.ok (h, e)))), _, _, _] => some (.commit h e)
  | _ => none

/-- It does not crash with overflow checks, so it does the same without them. -/
example : (exApplication.run checked exCrypto 10 [] { client := exUser .fromStart }).1 ≠ .panic ∧
    (exApplication.run unchecked exCrypto 10 [] { client := exUser .fromStart }) = exApplication.run checked exCrypto 10 [] { client := exUser .fromStart } ∧
    (match (exApplication.run unchecked exCrypto 10 [] { client := exUser .fromStart }).1 with | .ok got => got.length | _ => 0) = 6 := by
  have h : (match (exApplication.run checked exCrypto 10 [] { client := exUser .fromStart }).1 with | .ok got => got.length | _ => 0) = 6 := by decide +kernel
  have hn : (exApplication.run checked exCrypto 10 [] { client := exUser .fromStart }).1 ≠ .panic := fun hp => by rw [hp] at h; exact absurd h (by decide)
  have hs := C129_application exCrypto exApplication 10 [] { client := exUser .fromStart } hn
  exact ⟨hn, hs, by rw [hs]; exact h⟩

set_option maxRecDepth 8000 in
/-- Without overflow checks some things go on that crash with them, so **C129** does not hold the other way round: a format description with a length of 256, a
previous-GTIDs event with an interval that ends at 0, a DECIMAL with more decimals than digits, a time with a fraction of seven digits, adding the transaction id
2^64 - 1 to a set, parsing a set with it, and asking for what is not in such a set. -/
theorem C129_only_one_way :
    (∃ slice, (parseEvent checked EventParser.new ⟨0, 15, 1, 256, 0, 0⟩ slice).1 = .panic ∧ (parseEvent unchecked EventParser.new ⟨0, 15, 1, 256, 0, 0⟩ slice).1.Returns) ∧
    (∃ slice, (parseEvent checked EventParser.new ⟨0, 35, 1, 75, 0, 0⟩ slice).1 = .panic ∧ (parseEvent unchecked EventParser.new ⟨0, 35, 1, 75, 0, 0⟩ slice).1.Returns) ∧
    (∃ bytes, (parseCell checked 246 (2 * 256 + 1)).run bytes = .panic ∧ ((parseCell unchecked 246 (2 * 256 + 1)).run bytes).Returns) ∧
    (∃ bytes, (parseCell checked 19 7).run bytes = .panic ∧ ((parseCell unchecked 19 7).run bytes).Returns) ∧
    (∃ set : GtidSet, set.addGtid checked ⟨exUuid, 2 ^ 64 - 1⟩ = .panic ∧ (set.addGtid unchecked ⟨exUuid, 2 ^ 64 - 1⟩).Returns) ∧
    (∃ text, GtidSet.parse checked text = .panic ∧ (GtidSet.parse unchecked text).Returns) ∧
    (∃ set, dumpBinlogGtidCommand checked 1 [] 4 set = .panic ∧ (dumpBinlogGtidCommand unchecked 1 [] 4 set).Returns) := by
  have ret : ∀ {α : Type} (x : Res α), (match x with | .ok _ => true | .err _ => true | _ => false) = true → x.Returns := by
    intro α x h
    cases x with
    | ok a => trivial
    | err e => trivial
    | panic => cases h
    | hang => cases h
  have crash : ∀ {α : Type} (x : Res α), (match x with | .panic => true | _ => false) = true → x = .panic := by
    intro α x h
    cases x <;> first | rfl | cases h
  refine ⟨⟨List.replicate 100 0, crash _ (by decide +kernel), ret _ (by decide +kernel)⟩,
    ⟨[1, 0, 0, 0, 0, 0, 0, 0] ++ List.replicate 16 0 ++ [1, 0, 0, 0, 0, 0, 0, 0] ++ List.replicate 16 0, crash _ (by decide +kernel), ret _ (by decide +kernel)⟩,
    ⟨List.replicate 200 0x80, crash _ (by decide +kernel), ret _ (by decide +kernel)⟩,
    ⟨List.replicate 20 0x80, crash _ (by decide +kernel), ret _ (by decide +kernel)⟩,
    ⟨⟨[(exUuid.uuid, ⟨exUuid, [⟨1, 2 ^ 64 - 1⟩]⟩)]⟩, crash _ (by decide +kernel), ret _ (by decide +kernel)⟩,
    ⟨"24bc7850-2c16-11e6-a073-0242ac110001:1-18446744073709551615:7".toList, crash _ (by decide +kernel), ret _ (by decide +kernel)⟩,
    ⟨⟨[(exUuid.uuid, ⟨exUuid, [⟨1, 2 ^ 64 - 1⟩]⟩)]⟩, crash _ (by decide +kernel), ret _ (by decide +kernel)⟩⟩

end MysqlCdc
