import Verif.Spec.MapOrder
import Verif.Props.Profiles
import Verif.Lemmas.HMap
import Verif.Lemmas.SortStrings
import Verif.Lemmas.Packets
/-!
# C130: the order of hash maps makes no difference
-/

namespace MysqlCdc

open Spec

/-! ## Maps -/

theorem Spec.AlikeMap.get? {κ ν : Type} [DecidableEq κ] {a b : HMap κ ν} (h : AlikeMap a b) (k : κ) : a.get? k = b.get? k := HMap.get?_perm h.1 h.2 k

theorem Spec.AlikeMap.right {κ ν : Type} {a b : HMap κ ν} (h : AlikeMap a b) : (b.map (·.1)).Nodup := (h.2.map _).nodup_iff.1 h.1

theorem Spec.AlikeMap.symm {κ ν : Type} {a b : HMap κ ν} (h : AlikeMap a b) : AlikeMap b a := ⟨h.right, h.2.symm⟩

theorem Spec.AlikeMap.trans {κ ν : Type} {a b c : HMap κ ν} (h : AlikeMap a b) (h' : AlikeMap b c) : AlikeMap a c := ⟨h.1, h.2.trans h'.2⟩

theorem Spec.AlikeMap.insert {κ ν : Type} [DecidableEq κ] [DecidableEq ν] {a b : HMap κ ν} (h : AlikeMap a b) (k : κ) (v : ν) :
    AlikeMap (a.insert k v) (b.insert k v) := by
  refine ⟨HMap.nodup_insert h.1 k v, HMap.perm_of_get? (HMap.nodup_insert h.1 k v) (HMap.nodup_insert h.right k v) fun k' => ?_⟩
  rw [HMap.get?_insert, HMap.get?_insert, h.get?]

theorem Spec.AlikeRes.refl {α : Type} {R : α → α → Prop} (h : ∀ a, R a a) (x : Res α) : AlikeRes R x x := by
  cases x with
  | ok a => exact .ok (h a)
  | err e => exact .err e
  | panic => exact .panic
  | hang => exact .hang

theorem Spec.AlikeRes.bind {α β γ δ : Type} {R : α → β → Prop} {R' : γ → δ → Prop} {x : Res α} {y : Res β} {f : α → Res γ} {g : β → Res δ}
    (h : AlikeRes R x y) (hf : ∀ a b, R a b → AlikeRes R' (f a) (g b)) : AlikeRes R' (x >>= f) (y >>= g) := by
  cases h with
  | ok h => exact hf _ _ h
  | err e => exact .err e
  | panic => exact .panic
  | hang => exact .hang

/-! ## GTID sets -/

/-- **C130**, adding a GTID. -/
theorem C130_add (m : Mode) {g g' : GtidSet} (h : AlikeSet g g') (x : Gtid) :
    AlikeRes (fun r r' => r.1 = r'.1 ∧ AlikeSet r.2 r'.2) (g.addGtid m x) (g'.addGtid m x) := by
  unfold GtidSet.addGtid
  refine AlikeRes.bind (R := Eq) (.refl (fun _ => rfl) _) ?_
  rintro fresh _ rfl
  rw [h.get?]
  refine AlikeRes.bind (R := Eq) (.refl (fun _ => rfl) _) ?_
  rintro r _ rfl
  exact .ok ⟨rfl, h.insert _ _⟩

/-- **C130**, the text of a set: the very same. -/
theorem C130_text {g g' : GtidSet} (h : AlikeSet g g') : g.display = g'.display := by
  unfold GtidSet.display HMap.values
  rw [sortStrings_eq_of_perm ((h.2.map (·.2)).map UuidSet.display)]

theorem parseUuidSets_nodup (m : Mode) (tokens : List RStr) (sets : HMap RStr UuidSet) (hn : (sets.map (·.1)).Nodup) :
    AlikeRes AlikeMap (parseUuidSets m tokens sets) (parseUuidSets m tokens sets) := by
  induction tokens generalizing sets with
  | nil => exact .ok ⟨hn, .refl _⟩
  | cons t ts ih =>
    unfold parseUuidSets
    refine AlikeRes.bind (R := Eq) (.refl (fun _ => rfl) _) ?_
    rintro a _ rfl
    refine AlikeRes.bind (R := Eq) (.refl (fun _ => rfl) _) ?_
    rintro b _ rfl
    refine AlikeRes.bind (R := Eq) (.refl (fun _ => rfl) _) ?_
    rintro c _ rfl
    exact ih _ (HMap.nodup_insert hn _ _)

/-- A set that has been parsed can be rearranged. -/
theorem parse_alike (m : Mode) (text : RStr) : AlikeRes AlikeSet (GtidSet.parse m text) (GtidSet.parse m text) := by
  unfold GtidSet.parse
  split
  · exact .ok ⟨by simp [GtidSet.new], .refl _⟩
  · exact (parseUuidSets_nodup m _ [] (by simp)).bind fun _ _ h => .ok h

/-! ## Decoding -/

theorem dispatch_alike (m : Mode) {a b : TableMapCache} (h : AlikeMap a b) (header : EventHeader) : dispatchEvent m a header = dispatchEvent m b header := by
  have h1 : ∀ id p, parseRowDataList m a id p = parseRowDataList m b id p := fun id p => by unfold parseRowDataList; rw [h.get?]
  have h2 : ∀ id p q, parseUpdateRowDataList m a id p q = parseUpdateRowDataList m b id p q := fun id p q => by unfold parseUpdateRowDataList; rw [h.get?]
  have h3 : ∀ v, parseRowsEvent m a v = parseRowsEvent m b v := fun v => by unfold parseRowsEvent; simp only [h1]
  have h4 : ∀ v, parseUpdateRowsEvent m a v = parseUpdateRowsEvent m b v := fun v => by unfold parseUpdateRowsEvent; simp only [h2]
  unfold dispatchEvent
  cases EventType.fromCode header.eventType <;> simp only [h3, h4]

theorem foldInsert_nodup (sets : List UuidSet) (r : HMap RStr UuidSet) (hn : (r.map (·.1)).Nodup) :
    ((sets.foldl (fun r s => r.insert s.sourceId.uuid s) r).map (·.1)).Nodup := by
  induction sets generalizing r with
  | nil => exact hn
  | cons s ss ih => exact ih _ (HMap.nodup_insert hn _ _)

/-- Everything a cursor program returns is `ok`. -/
def Gives {α : Type} (ok : α → Prop) (p : P α) : Prop := ∀ buf pos a q, p buf pos = .ok (a, q) → ok a

theorem Gives.then {α β : Type} {ok : α → Prop} {ok' : β → Prop} {p : P α} {f : α → P β} (hp : Gives ok p) (h : ∀ a, ok a → Gives ok' (f a)) :
    Gives ok' (p >>= f) := by
  intro buf pos b q hx
  rw [P.seq_apply] at hx
  cases hy : p buf pos with
  | ok r => rw [hy] at hx; exact h _ (hp _ _ _ _ hy) _ _ _ _ hx
  | _ => rw [hy] at hx; cases hx

theorem Gives.bind {α β : Type} {ok : β → Prop} {p : P α} {f : α → P β} (h : ∀ a, Gives ok (f a)) : Gives ok (p >>= f) :=
  .then (ok := fun _ => True) (fun _ _ _ _ _ => trivial) fun a _ => h a

theorem Gives.ret {α : Type} {ok : α → Prop} {a : α} (h : ok a) : Gives ok (pure a) := by
  intro buf pos b q hx
  rw [P.ret_apply] at hx
  cases hx
  exact h

theorem dispatch_gives (m : Mode) (tables : TableMapCache) (header : EventHeader) :
    Gives (fun e => AlikeEvent e e) (dispatchEvent m tables header) := by
  unfold dispatchEvent
  cases EventType.fromCode header.eventType with
  | mySqlPreviousGtids =>
    have h : Gives (fun e : PreviousGtidsEvent => (e.gtidSet.uuidSets.map (·.1)).Nodup) (parsePreviousGtids m) :=
      .bind fun _ => .bind fun sets => .ret (foldInsert_nodup sets _ (by simp [GtidSet.new]))
    exact h.then fun e he => .ret (.previous ⟨he, .refl _⟩)
  | _ => first | exact .bind fun _ => .ret (.same (by simp)) | exact .ret (.same (by simp))

theorem record_alike {a b : EventParser} (h : AlikeParser a b) (e : BinlogEvent) : AlikeParser (a.record e) (b.record e) := by
  cases e with
  | formatDescription x => exact ⟨rfl, h.2⟩
  | tableMap x => exact ⟨h.1, h.2.insert _ _⟩
  | _ => exact h

/-- **C130**, decoding an event. -/
theorem C130_event (m : Mode) {a b : EventParser} (h : AlikeParser a b) (header : EventHeader) (slice : Bytes) :
    AlikeRes AlikeEvent (parseEvent m a header slice).1 (parseEvent m b header slice).1 ∧
      AlikeParser (parseEvent m a header slice).2 (parseEvent m b header slice).2 := by
  unfold parseEvent
  rw [← h.1, ← dispatch_alike m h.2]
  cases eventBody a.checksumType slice with
  | ok body =>
    simp only
    cases hx : (dispatchEvent m a.tableMap header).run body with
    | ok e =>
      refine ⟨.ok ?_, record_alike h e⟩
      unfold P.run at hx
      cases hy : dispatchEvent m a.tableMap header body 0 with
      | ok r => rw [hy] at hx; cases hx; exact dispatch_gives m _ _ _ _ _ _ hy
      | _ => rw [hy] at hx; cases hx
    | err e => exact ⟨.err e, h⟩
    | panic => exact ⟨.panic, h⟩
    | hang => exact ⟨.hang, h⟩
  | err e => exact ⟨.err e, h⟩
  | panic => exact ⟨.panic, h⟩
  | hang => exact ⟨.hang, h⟩

/-! ## Connections -/

theorem Spec.AlikeChannel.readExact {a b : Channel} (h : AlikeChannel a b) (n : Nat) :
    (a.readExact n).1 = (b.readExact n).1 ∧ AlikeChannel (a.readExact n).2 (b.readExact n).2 := by
  unfold Channel.readExact
  rw [← h.input, ← h.ending]
  split
  · exact ⟨rfl, ⟨rfl, rfl, h.writes, h.timeout, h.later, h.trace⟩⟩
  · exact ⟨rfl, ⟨rfl, rfl, h.writes, h.timeout, h.later, h.trace⟩⟩

theorem Spec.AlikeChannel.readPacket {a b : Channel} (h : AlikeChannel a b) :
    a.readPacket.1 = b.readPacket.1 ∧ AlikeChannel a.readPacket.2 b.readPacket.2 := by
  unfold Channel.readPacket
  have h1 := h.readExact PACKET_HEADER_SIZE
  rcases ha : a.readExact PACKET_HEADER_SIZE with ⟨x, a'⟩
  rcases hb : b.readExact PACKET_HEADER_SIZE with ⟨y, b'⟩
  rw [ha, hb] at h1
  obtain ⟨rfl, h'⟩ := h1
  cases x with
  | ok header =>
    simp only
    have h2 := h'.readExact (leVal (header.take 3))
    rcases ha : a'.readExact (leVal (header.take 3)) with ⟨x, a''⟩
    rcases hb : b'.readExact (leVal (header.take 3)) with ⟨y, b''⟩
    rw [ha, hb] at h2
    obtain ⟨rfl, h''⟩ := h2
    cases x with
    | ok packet =>
      exact ⟨rfl, ⟨h''.input, h''.ending, h''.writes, h''.timeout, h''.later, List.rel_append h''.trace (.cons (.received _ _) .nil)⟩⟩
    | _ => exact ⟨rfl, h''⟩
  | _ => exact ⟨rfl, h'⟩

theorem Spec.AlikeChannel.afterFailure {a b : Channel} (h : AlikeChannel a b) : AlikeChannel a.afterFailure b.afterFailure := by
  unfold Channel.afterFailure
  rw [← h.later]
  cases hl : a.later with
  | nil => exact h
  | cons x l => exact ⟨rfl, rfl, h.writes, h.timeout, rfl, h.trace⟩

theorem Spec.AlikeChannel.write {a b : Channel} (h : AlikeChannel a b) {p q : Bytes} (hl : p.length = q.length) :
    (a.write p).1 = (b.write q).1 ∧ AlikeChannel (a.write p).2 (b.write q).2 := by
  unfold Channel.write
  rw [← h.writes]
  cases hw : a.writes with
  | nil => exact ⟨by simp only [hl], ⟨h.input, h.ending, rfl, h.timeout, h.later, h.trace⟩⟩
  | cons w ws =>
    cases w with
    | accept n => exact ⟨by simp only [hl], ⟨h.input, h.ending, rfl, h.timeout, h.later, h.trace⟩⟩
    | fail k => exact ⟨rfl, ⟨h.input, h.ending, rfl, h.timeout, h.later, h.trace⟩⟩

theorem Spec.AlikeChannel.writeAll {a b : Channel} (h : AlikeChannel a b) (bs : Bytes) :
    (a.writeAll bs).1 = (b.writeAll bs).1 ∧ AlikeChannel (a.writeAll bs).2 (b.writeAll bs).2 := by
  induction hk : bs.length using Nat.strongRecOn generalizing bs a b with
  | _ k ih =>
    rw [Channel.writeAll.eq_def a, Channel.writeAll.eq_def b]
    split
    · exact ⟨rfl, h⟩
    · have h1 := h.write (p := bs) (q := bs) rfl
      rcases ha : a.write bs with ⟨x, a'⟩
      rcases hb : b.write bs with ⟨y, b'⟩
      rw [ha, hb] at h1
      obtain ⟨rfl, h'⟩ := h1
      cases x with
      | ok n =>
        simp only
        split
        · rename_i hn
          exact ih _ (by have := List.length_pos_iff.2 hn.2; simp; omega) h' _ rfl
        · exact ⟨rfl, h'⟩
      | _ => exact ⟨rfl, h'⟩

theorem Spec.AlikePayload.length {p q : Bytes} (h : AlikePayload p q) : p.length = q.length := by
  cases h with
  | same => rfl
  | request head h => simp only [List.length_append, (h.flatMap_right _).length_eq]

theorem Spec.AlikeChannel.writePacket {a b : Channel} (h : AlikeChannel a b) {p q : Bytes} (hp : AlikePayload p q) (seq : Nat) :
    (a.writePacket p seq).1 = (b.writePacket q seq).1 ∧ AlikeChannel (a.writePacket p seq).2 (b.writePacket q seq).2 := by
  unfold Channel.writePacket
  have h : AlikeChannel { a with trace := a.trace ++ [.sent seq p] } { b with trace := b.trace ++ [.sent seq q] } :=
    ⟨h.input, h.ending, h.writes, h.timeout, h.later, List.rel_append h.trace (.cons (.sent _ hp) .nil)⟩
  rw [← hp.length]
  simp only
  generalize { a with trace := a.trace ++ [Packet.sent seq p] } = a at h ⊢
  generalize { b with trace := b.trace ++ [Packet.sent seq q] } = b at h ⊢
  split
  · exact ⟨rfl, h⟩
  · have h1 := h.writeAll (leBytes 3 (p.length % 2 ^ 32))
    rcases ha : a.writeAll (leBytes 3 (p.length % 2 ^ 32)) with ⟨x, a'⟩
    rcases hb : b.writeAll (leBytes 3 (p.length % 2 ^ 32)) with ⟨y, b'⟩
    rw [ha, hb] at h1
    obtain ⟨rfl, h'⟩ := h1
    cases x with
    | ok _ =>
      simp only
      have h1 := h'.writeAll (leBytes 1 seq)
      rcases ha : a'.writeAll (leBytes 1 seq) with ⟨x, a''⟩
      rcases hb : b'.writeAll (leBytes 1 seq) with ⟨y, b''⟩
      rw [ha, hb] at h1
      obtain ⟨rfl, h''⟩ := h1
      cases x with
      | ok _ =>
        simp only
        have h1 := h''.write hp.length
        rcases ha : a''.write p with ⟨x, a3⟩
        rcases hb : b''.write q with ⟨y, b3⟩
        rw [ha, hb] at h1
        obtain ⟨rfl, h3⟩ := h1
        cases x <;> exact ⟨rfl, h3⟩
      | _ => exact ⟨rfl, h''⟩
    | _ => exact ⟨rfl, h'⟩

/-! ## The iterators -/

theorem asItem_alike {x y : Res (EventHeader × BinlogEvent)} (h : AlikeRes (fun a b => a.1 = b.1 ∧ AlikeEvent a.2 b.2) x y) :
    AlikeRes (Option.Rel AlikeItem) (asItem x) (asItem y) := by
  cases h with
  | @ok a b h =>
    obtain ⟨h1, e1⟩ := a
    obtain ⟨h2, e2⟩ := b
    obtain ⟨rfl, he⟩ := h
    exact .ok (.some (.ok _ he))
  | err e => exact .ok (.some (.error e))
  | panic => exact .panic
  | hang => exact .hang

/-- **C130**, a call of the iterator over a connection. -/
theorem C130_stream (m : Mode) {a b : BinlogEvents} (h : AlikeStream a b) :
    AlikeRes (Option.Rel AlikeItem) (a.next m).1 (b.next m).1 ∧ AlikeStream (a.next m).2 (b.next m).2 := by
  unfold BinlogEvents.next
  have h1 := h.1.readPacket
  rcases ha : a.channel.readPacket with ⟨x, a'⟩
  rcases hb : b.channel.readPacket with ⟨y, b'⟩
  rw [ha, hb] at h1
  obtain ⟨rfl, h'⟩ := h1
  cases x with
  | ok p =>
    obtain ⟨packet, seq⟩ := p
    cases packet with
    | nil => exact ⟨.panic, h', h.2⟩
    | cons c packet =>
      simp only
      split
      · unfold BinlogEvents.readEvent
        cases parseHeader.run ((c :: packet).drop 1) with
        | ok header =>
          simp only
          have h2 := C130_event m h.2 header ((c :: packet).drop (1 + EVENT_HEADER_SIZE))
          rcases ha : parseEvent m a.parser header ((c :: packet).drop (1 + EVENT_HEADER_SIZE)) with ⟨x, pa⟩
          rcases hb : parseEvent m b.parser header ((c :: packet).drop (1 + EVENT_HEADER_SIZE)) with ⟨y, pb⟩
          rw [ha, hb] at h2
          obtain ⟨h2, h3⟩ := h2
          cases h2 with
          | ok he => exact ⟨asItem_alike (.ok ⟨rfl, he⟩), h', h3⟩
          | err e => exact ⟨asItem_alike (.err e), h', h3⟩
          | panic => exact ⟨asItem_alike .panic, h', h3⟩
          | hang => exact ⟨asItem_alike .hang, h', h3⟩
        | err e => exact ⟨asItem_alike (.err e), h', h.2⟩
        | panic => exact ⟨asItem_alike .panic, h', h.2⟩
        | hang => exact ⟨asItem_alike .hang, h', h.2⟩
      · split
        · refine ⟨?_, h', h.2⟩
          unfold readError
          cases parseErrorPacket.run ((c :: packet).drop 1) with
          | ok error => exact asItem_alike (.err _)
          | err e => exact asItem_alike (.err _)
          | panic => exact asItem_alike .panic
          | hang => exact asItem_alike .hang
        · split
          · exact ⟨.ok .none, h', h.2⟩
          · exact ⟨.ok (.some (.error _)), h', h.2⟩
  | err e => exact ⟨.ok (.some (.error e)), h'.afterFailure, h.2⟩
  | panic => exact ⟨.panic, h', h.2⟩
  | hang => exact ⟨.hang, h', h.2⟩

/-- **C130**, a call of the iterator over a file. -/
theorem C130_file (m : Mode) {a b : BinlogReader} (h : AlikeReader a b) :
    AlikeRes (Option.Rel AlikeItem) (a.next m).1 (b.next m).1 ∧ AlikeReader (a.next m).2 (b.next m).2 := by
  have key : AlikeRes (fun a b => a.1 = b.1 ∧ AlikeEvent a.2 b.2) (a.readEvent m).1 (b.readEvent m).1 ∧ AlikeReader (a.readEvent m).2 (b.readEvent m).2 := by
    unfold BinlogReader.readEvent
    obtain ⟨h1, h2, h3⟩ := h
    simp only [← h1, ← h2]
    rcases fileRead a.stream a.failure EVENT_HEADER_SIZE with ⟨x, stream⟩
    cases x with
    | ok buffer =>
      simp only
      cases parseHeader.run buffer with
      | ok header =>
        simp only
        cases subU m 64 header.eventLength EVENT_HEADER_SIZE with
        | ok n =>
          simp only
          cases (if n > PAYLOAD_BUFFER_SIZE then allocZeroed n else .ok () : Res Unit) with
          | ok _ =>
            simp only
            rcases fileRead stream a.failure n with ⟨y, stream'⟩
            cases y with
            | ok payload =>
              simp only
              have h4 := C130_event m h3 header payload
              rcases ha : parseEvent m a.parser header payload with ⟨x, pa⟩
              rcases hb : parseEvent m b.parser header payload with ⟨y, pb⟩
              rw [ha, hb] at h4
              obtain ⟨h4, h5⟩ := h4
              cases h4 with
              | ok he => exact ⟨.ok ⟨rfl, he⟩, rfl, rfl, h5⟩
              | err e => exact ⟨.err e, rfl, rfl, h5⟩
              | panic => exact ⟨.panic, rfl, rfl, h5⟩
              | hang => exact ⟨.hang, rfl, rfl, h5⟩
            | err e => exact ⟨.err e, rfl, rfl, h3⟩
            | panic => exact ⟨.panic, rfl, rfl, h3⟩
            | hang => exact ⟨.hang, rfl, rfl, h3⟩
          | err e => exact ⟨.err e, rfl, rfl, h3⟩
          | panic => exact ⟨.panic, rfl, rfl, h3⟩
          | hang => exact ⟨.hang, rfl, rfl, h3⟩
        | err e => exact ⟨.err e, rfl, rfl, h3⟩
        | panic => exact ⟨.panic, rfl, rfl, h3⟩
        | hang => exact ⟨.hang, rfl, rfl, h3⟩
      | err e => exact ⟨.err e, rfl, rfl, h3⟩
      | panic => exact ⟨.panic, rfl, rfl, h3⟩
      | hang => exact ⟨.hang, rfl, rfl, h3⟩
    | err e => exact ⟨.err e, rfl, rfl, h3⟩
    | panic => exact ⟨.panic, rfl, rfl, h3⟩
    | hang => exact ⟨.hang, rfl, rfl, h3⟩
  unfold BinlogReader.next
  rcases ha : a.readEvent m with ⟨x, a'⟩
  rcases hb : b.readEvent m with ⟨y, b'⟩
  rw [ha, hb] at key
  obtain ⟨key, hr⟩ := key
  cases key with
  | ok he => exact ⟨asItem_alike (.ok he), hr⟩
  | err e =>
    by_cases he : e = .io .unexpectedEof
    · subst he; exact ⟨.ok .none, hr⟩
    · split
      · rename_i heq; cases heq; exact absurd rfl he
      · rename_i heq
        cases heq
        split
        · rename_i heq; cases heq; exact absurd rfl he
        · rename_i heq
          cases heq
          exact ⟨asItem_alike (.err e), hr⟩
  | panic => exact ⟨.panic, hr⟩
  | hang => exact ⟨.hang, hr⟩

/-! ## The client -/

theorem optionSet_refl {x : Option GtidSet} (h : ∀ g, x = some g → (g.uuidSets.map (·.1)).Nodup) : Option.Rel AlikeSet x x := by
  cases x with
  | none => exact .none
  | some g => exact .some ⟨h g rfl, .refl _⟩

theorem Spec.AlikeClient.of {c : Client} {set : Option GtidSet} (h : Option.Rel AlikeSet c.options.binlog.gtidSet set) : AlikeClient c (withSet c set) :=
  ⟨set, rfl, h⟩

theorem commitGtid_alike (m : Mode) {a b : Client} (h : AlikeClient a b) : AlikeRes AlikeClient (a.commitGtid m) (b.commitGtid m) := by
  obtain ⟨set, rfl, h⟩ := h
  have key : AlikeRes (Option.Rel AlikeSet) (commitMysql m a.mysqlGtid a.options.binlog.gtidSet) (commitMysql m a.mysqlGtid set) := by
    unfold commitMysql
    cases a.mysqlGtid with
    | none => exact .ok h
    | some x =>
      generalize a.options.binlog.gtidSet = old at h ⊢
      cases h with
      | none => exact .ok .none
      | @some g g' h =>
        simp only
        have h1 := C130_add m h x
        generalize g.addGtid m x = r at h1 ⊢
        generalize g'.addGtid m x = r' at h1 ⊢
        cases h1 with
        | ok h => exact .ok (.some h.2)
        | err => exact .panic
        | panic => exact .panic
        | hang => exact .hang
  exact key.bind fun x y hxy => .ok ⟨y, rfl, hxy⟩

/-- **C130**, recording an event. -/
theorem C130_commit (m : Mode) {a b : Client} (h : AlikeClient a b) (header : EventHeader) {e e' : BinlogEvent} (he : AlikeEvent e e') :
    AlikeRes AlikeClient (a.commit m header e) (b.commit m header e') := by
  have h1 : AlikeRes AlikeClient (a.updateGtidPosition m e) (b.updateGtidPosition m e') := by
    have hc := commitGtid_alike m h
    obtain ⟨set, rfl, h⟩ := h
    unfold Client.updateGtidPosition
    show AlikeRes AlikeClient (if a.options.binlog.startingStrategy ≠ .fromGtid then _ else _) (if a.options.binlog.startingStrategy ≠ .fromGtid then _ else _)
    split
    · exact .ok (.of h)
    · cases he with
      | previous => exact .ok (.of h)
      | same hn =>
        cases e with
        | mySqlPrevGtids x => exact absurd rfl (hn x)
        | mariaDbGtid x => exact .ok (AlikeClient.of (c := { a with mariaGtid := _ }) h)
        | mySqlGtid x => exact .ok (AlikeClient.of (c := { a with mysqlGtid := _ }) h)
        | xid x => exact hc
        | query x =>
          simp only
          split
          · exact .ok (.of h)
          · split
            · exact .ok (AlikeClient.of (c := { a with transaction := _ }) h)
            · split
              · exact hc
              · show AlikeRes AlikeClient (if !a.transaction then _ else _) (if !a.transaction then _ else _)
                split
                · exact hc
                · exact .ok (.of h)
        | _ => exact .ok (.of h)
  refine h1.bind fun c c' hcc => .ok ?_
  obtain ⟨set, rfl, h⟩ := hcc
  unfold Client.updateBinlogPosition
  cases he with
  | previous =>
    simp only
    split
    · exact AlikeClient.of (c := c.setPosition _ _) h
    · exact .of h
  | same hn =>
    cases e with
    | tableMap x => exact .of h
    | rotate x => exact AlikeClient.of (c := c.setPosition _ _) h
    | _ =>
      simp only
      split
      · exact AlikeClient.of (c := c.setPosition _ _) h
      · exact .of h

/-! ## Setting up replication -/

/-- Whether the end of no interval overflows. -/
def endsFit (m : Mode) (s : UuidSet) : Bool := s.intervals.all fun iv => !m.checks || decide (iv.end + 1 < 2 ^ 64)

theorem dumpIntervals_exact (m : Mode) (ivs : List Interval) :
    dumpIntervals m ivs = if ivs.all (fun iv => !m.checks || decide (iv.end + 1 < 2 ^ 64)) then .ok (intervalsBytes ivs) else .panic := by
  induction ivs with
  | nil => rfl
  | cons iv ivs ih =>
    unfold dumpIntervals
    rw [ih]
    unfold addU
    by_cases h : iv.end + 1 < 2 ^ 64
    · simp only [h, if_true, Res.bind_ok, List.all_cons, decide_true, Bool.or_true, Bool.true_and]
      split <;> simp [leBytes_eq, intervalsBytes, pure]
    · by_cases hm : m.checks = true
      · simp only [h, hm, if_true, if_false, List.all_cons, decide_false, Bool.not_true, Bool.or_false, Bool.false_and, Bool.false_eq_true]
        rfl
      · simp only [h, hm, if_false, Res.bind_ok, List.all_cons, Bool.not_false, Bool.true_or, Bool.true_and, Bool.false_eq_true]
        split
        · simp only [Res.bind_ok, leBytes_eq, intervalsBytes, List.flatMap_cons, pure]
          rw [show (2 : Nat) ^ 64 = 256 ^ 8 by decide, le_mod 8]
        · rfl

theorem dumpUuidSets_exact (m : Mode) (sets : List UuidSet) :
    dumpUuidSets m sets = if sets.all (endsFit m) then .ok (sets.flatMap requestBlock) else .panic := by
  induction sets with
  | nil => rfl
  | cons s ss ih =>
    unfold dumpUuidSets
    rw [ih, dumpIntervals_exact]
    change (if endsFit m s = true then _ else _ : Res Bytes) >>= _ = _
    by_cases h : endsFit m s = true
    · rw [if_pos h]
      simp only [Res.bind_ok, List.all_cons, h, Bool.true_and]
      split
      · simp [leBytes_eq, requestBlock, pure]
      · rfl
    · rw [if_neg h]
      simp only [List.all_cons, h, Bool.false_and, Bool.false_eq_true, if_false]
      rfl

theorem dumpDataLength_perm {a b : List UuidSet} (h : a.Perm b) : dumpDataLength a = dumpDataLength b := by
  unfold dumpDataLength
  exact h.foldl_eq' (fun x _ y _ z => by omega) 8

/-- **C130**, the request for events by GTIDs: the same servers, in another order. -/
theorem C130_request (m : Mode) (id : Nat) (file : RStr) (position : Nat) {g g' : GtidSet} (h : AlikeSet g g') :
    AlikeRes AlikePayload (dumpBinlogGtidCommand m id file position g) (dumpBinlogGtidCommand m id file position g') := by
  have hv : g.uuidSets.values.Perm g'.uuidSets.values := h.2.map _
  unfold dumpBinlogGtidCommand
  simp only [dumpUuidSets_exact, dumpDataLength_perm hv, hv.length_eq]
  have ha : g.uuidSets.values.all (endsFit m) = g'.uuidSets.values.all (endsFit m) := by
    rw [Bool.eq_iff_iff, List.all_eq_true, List.all_eq_true]
    exact ⟨fun h x hx => h x (hv.mem_iff.2 hx), fun h x hx => h x (hv.mem_iff.1 hx)⟩
  rw [ha]
  split
  · exact .ok (by
      simp only [List.append_assoc]
      rw [show leBytes 1 COM_BINLOG_DUMP_GTID = [30] from rfl]
      simp only [← List.append_assoc]
      exact AlikePayload.request _ hv)
  · exact .panic

def AlikeSess (s s' : Sess) : Prop := AlikeClient s.client s'.client ∧ AlikeChannel s.chan s'.chan

def AlikeS {α β : Type} (R : α → β → Prop) (p : S α) (q : S β) : Prop :=
  ∀ s s', AlikeSess s s' → AlikeRes R (p s).1 (q s').1 ∧ AlikeSess (p s).2 (q s').2

namespace AlikeS

theorem bind {α β γ δ : Type} {R : α → β → Prop} {R' : γ → δ → Prop} {p : S α} {q : S β} {f : α → S γ} {g : β → S δ} (h : AlikeS R p q)
    (hf : ∀ a b, R a b → AlikeS R' (f a) (g b)) : AlikeS R' (p >>= f) (q >>= g) := by
  intro s s' hs
  have h := h s s' hs
  show AlikeRes R' (S.seq p f s).1 (S.seq q g s').1 ∧ AlikeSess (S.seq p f s).2 (S.seq q g s').2
  unfold S.seq
  rcases hx : p s with ⟨x, t⟩
  rcases hy : q s' with ⟨y, t'⟩
  rw [hx, hy] at h
  obtain ⟨h, ht⟩ := h
  cases h with
  | ok h => exact hf _ _ h t t' ht
  | err e => exact ⟨.err e, ht⟩
  | panic => exact ⟨.panic, ht⟩
  | hang => exact ⟨.hang, ht⟩

theorem next {α γ δ : Type} {R' : γ → δ → Prop} {p q : S α} {f : α → S γ} {g : α → S δ} (h : AlikeS Eq p q)
    (hf : ∀ a, AlikeS R' (f a) (g a)) : AlikeS R' (p >>= f) (q >>= g) :=
  h.bind fun a _ hab => hab ▸ hf a

theorem ret {α : Type} (a : α) : AlikeS Eq (pure a) (pure a) := fun _ _ hs => ⟨.ok rfl, hs⟩

theorem lift {α : Type} (x : Res α) : AlikeS Eq (S.lift x) (S.lift x) := fun _ _ hs => ⟨.refl (fun _ => rfl) x, hs⟩

theorem client : AlikeS AlikeClient S.client S.client := fun _ _ hs => ⟨.ok hs.1, hs⟩

theorem setClient {a b : Client} (h : AlikeClient a b) : AlikeS Eq (S.setClient a) (S.setClient b) := fun _ _ hs => ⟨.ok rfl, h, hs.2⟩

theorem read : AlikeS Eq S.readPacket S.readPacket := by
  intro s s' hs
  have h := hs.2.readPacket
  unfold S.readPacket
  exact ⟨by simp only [h.1]; exact .refl (fun _ => rfl) _, hs.1, h.2⟩

theorem write {p q : Bytes} (h : AlikePayload p q) (seq : Nat) : AlikeS Eq (S.writePacket p seq) (S.writePacket q seq) := by
  intro s s' hs
  have h := hs.2.writePacket h seq
  unfold S.writePacket
  exact ⟨by simp only [h.1]; exact .refl (fun _ => rfl) _, hs.1, h.2⟩

theorem send (p : Bytes) (seq : Nat) : AlikeS Eq (S.writePacket p seq) (S.writePacket p seq) := write (.same p) seq

theorem ite {α β : Type} {R : α → β → Prop} {c : Prop} [Decidable c] {p p' : S α} {q q' : S β} (h : AlikeS R p q) (h' : AlikeS R p' q') :
    AlikeS R (if c then p else p') (if c then q else q') := by
  split
  · exact h
  · exact h'

end AlikeS

theorem sha256_alike (m : Mode) (c : Crypto) (packet : Bytes) (scramble : RStr) (seqNum : Nat) (useSsl : Bool) :
    AlikeS Eq (authenticateSha256 m c packet scramble seqNum useSsl) (authenticateSha256 m c packet scramble seqNum useSsl) := by
  refine (AlikeS.lift _).next fun _ => .ite (.ret _) (AlikeS.client.bind ?_)
  rintro self _ ⟨set, rfl, h⟩
  exact .ite ((AlikeS.send _ _).next fun _ => AlikeS.read.next fun _ => .lift _)
    ((AlikeS.send _ _).next fun _ => AlikeS.read.next fun _ => (AlikeS.lift _).next fun _ => (AlikeS.lift _).next fun _ => (AlikeS.lift _).next fun _ =>
      (AlikeS.send _ _).next fun _ => AlikeS.read.next fun _ => .lift _)

theorem switch_alike (m : Mode) (c : Crypto) (switch : AuthPluginSwitchPacket) (seqNum : Nat) (useSsl : Bool) :
    AlikeS Eq (handleAuthPluginSwitch m c switch seqNum useSsl) (handleAuthPluginSwitch m c switch seqNum useSsl) := by
  refine (AlikeS.lift _).next fun _ => AlikeS.client.bind ?_
  rintro self _ ⟨set, rfl, h⟩
  exact (AlikeS.lift _).next fun _ => (AlikeS.send _ _).next fun _ => AlikeS.read.next fun _ => (AlikeS.lift _).next fun _ =>
    .ite ((AlikeS.lift _).next fun _ => sha256_alike _ _ _ _ _ _) (.ret _)

theorem ssl_alike (m : Mode) (handshake : HandshakePacket) (seqNum : Nat) : AlikeS Eq (negotiateSsl m handshake seqNum) (negotiateSsl m handshake seqNum) := by
  refine AlikeS.client.bind ?_
  rintro self _ ⟨set, rfl, h⟩
  exact .ite (.ite (.lift _) (.ite ((AlikeS.send _ _).next fun _ => (AlikeS.lift _).next fun _ => .lift _) (.ret _))) (.ret _)

theorem authenticate_alike (m : Mode) (c : Crypto) (handshake : HandshakePacket) (plugin : AuthPlugin) (seqNum : Nat) :
    AlikeS Eq (authenticate m c handshake plugin seqNum) (authenticate m c handshake plugin seqNum) := by
  refine (ssl_alike _ _ _).next fun _ => AlikeS.client.bind ?_
  rintro self _ ⟨set, rfl, h⟩
  exact (AlikeS.lift _).next fun _ => (AlikeS.send _ _).next fun _ => AlikeS.read.next fun _ => (AlikeS.lift _).next fun _ => (AlikeS.lift _).next fun _ =>
    .ite (.ret _) (.ite ((AlikeS.lift _).next fun _ => (AlikeS.lift _).next fun _ => switch_alike _ _ _ _ _) ((AlikeS.lift _).next fun _ => sha256_alike _ _ _ _ _ _))

theorem connect_alike (m : Mode) (c : Crypto) : AlikeS Eq (connect m c) (connect m c) :=
  AlikeS.read.next fun _ => (AlikeS.lift _).next fun _ => (AlikeS.lift _).next fun _ => (AlikeS.lift _).next fun _ => (AlikeS.lift _).next fun _ =>
    (authenticate_alike _ _ _ _ _).next fun _ => .ret _

theorem skipMetadata_alike : AlikeS Eq skipMetadata skipMetadata := by
  intro s s' hs
  induction hk : s.chan.input.length using Nat.strongRecOn generalizing s s' with
  | _ k ih =>
    rw [skipMetadata.eq_def s, skipMetadata.eq_def s']
    have h := AlikeS.read s s' hs
    rcases hx : S.readPacket s with ⟨x, t⟩
    rcases hy : S.readPacket s' with ⟨y, t'⟩
    rw [hx, hy] at h
    obtain ⟨h, ht⟩ := h
    have hin : t.chan.input = t'.chan.input := ht.2.input
    cases h with
    | @ok r _ h =>
      subst h
      obtain ⟨packet, seq⟩ := r
      cases packet with
      | nil => exact ⟨.panic, ht⟩
      | cons b packet =>
        simp only [← hs.2.input, ← hin]
        split
        · exact ⟨.ok rfl, ht⟩
        · split
          · exact ih _ (by omega) t t' ht rfl
          · exact ⟨.hang, ht⟩
    | err e => exact ⟨.err e, ht⟩
    | panic => exact ⟨.panic, ht⟩
    | hang => exact ⟨.hang, ht⟩

theorem readRows_alike : AlikeS Eq readRows readRows := by
  intro s s' hs
  induction hk : s.chan.input.length using Nat.strongRecOn generalizing s s' with
  | _ k ih =>
    rw [readRows.eq_def s, readRows.eq_def s']
    have h := AlikeS.read s s' hs
    rcases hx : S.readPacket s with ⟨x, t⟩
    rcases hy : S.readPacket s' with ⟨y, t'⟩
    rw [hx, hy] at h
    obtain ⟨h, ht⟩ := h
    have hin : t.chan.input = t'.chan.input := ht.2.input
    cases h with
    | @ok r _ h =>
      subst h
      obtain ⟨packet, seq⟩ := r
      simp only
      cases checkErrorPacket packet "Query result set error." with
      | ok _ =>
        cases packet with
        | nil => exact ⟨.panic, ht⟩
        | cons b packet =>
          simp only [← hs.2.input, ← hin]
          split
          · exact ⟨.ok rfl, ht⟩
          · cases parseResultSetRow.run (b :: packet) with
            | ok row =>
              simp only
              split
              · have h := ih _ (by omega) t t' ht rfl
                rcases hx : readRows t with ⟨x, u⟩
                rcases hy : readRows t' with ⟨y, u'⟩
                rw [hx, hy] at h
                obtain ⟨h, hu⟩ := h
                cases h with
                | ok h => exact ⟨.ok (by rw [h]), hu⟩
                | err e => exact ⟨.err e, hu⟩
                | panic => exact ⟨.panic, hu⟩
                | hang => exact ⟨.hang, hu⟩
              · exact ⟨.hang, ht⟩
            | err e => exact ⟨.err e, ht⟩
            | panic => exact ⟨.panic, ht⟩
            | hang => exact ⟨.hang, ht⟩
      | err e => exact ⟨.err e, ht⟩
      | panic => exact ⟨.panic, ht⟩
      | hang => exact ⟨.hang, ht⟩
    | err e => exact ⟨.err e, ht⟩
    | panic => exact ⟨.panic, ht⟩
    | hang => exact ⟨.hang, ht⟩

theorem readResultSet_alike : AlikeS Eq readResultSet readResultSet :=
  AlikeS.read.next fun _ => (AlikeS.lift _).next fun _ => skipMetadata_alike.next fun _ => readRows_alike

theorem adjust_alike : AlikeS Eq adjustStartingPosition adjustStartingPosition := by
  refine AlikeS.client.bind ?_
  rintro self _ ⟨set, rfl, h⟩
  have hp : ∀ file position, AlikeClient (self.setPosition file position) ((withSet self set).setPosition file position) := fun _ _ => ⟨set, rfl, h⟩
  exact .ite (.ret _) (.ite (.ret _) ((AlikeS.send _ _).next fun _ => readResultSet_alike.next fun rows => .ite (.lift _)
    ((AlikeS.lift _).next fun _ => (AlikeS.setClient (hp _ _)).next fun _ => (AlikeS.lift _).next fun _ => (AlikeS.lift _).next fun _ => .setClient (hp _ _))))

theorem heartbeat_alike : AlikeS Eq setMasterHeartbeat setMasterHeartbeat := by
  refine AlikeS.client.bind ?_
  rintro self _ ⟨set, rfl, h⟩
  exact (AlikeS.send _ _).next fun _ => AlikeS.read.next fun _ => .lift _

theorem checksum_alike : AlikeS Eq setMasterBinlogChecksum setMasterBinlogChecksum :=
  (AlikeS.send _ _).next fun _ => AlikeS.read.next fun _ => (AlikeS.lift _).next fun _ => (AlikeS.send _ _).next fun _ => readResultSet_alike.next fun _ =>
    (AlikeS.lift _).next fun _ => .lift _

theorem simpleQuery_alike (sql : RStr) (message : String) : AlikeS Eq (simpleQuery sql message) (simpleQuery sql message) :=
  (AlikeS.send _ _).next fun _ => AlikeS.read.next fun _ => .lift _

theorem registerGtidSlave_alike (id : Nat) (list : RStr) : AlikeS Eq (registerGtidSlave id list) (registerGtidSlave id list) :=
  (simpleQuery_alike _ _).next fun _ => (simpleQuery_alike _ _).next fun _ => (simpleQuery_alike _ _).next fun _ => (AlikeS.send _ _).next fun _ =>
    AlikeS.read.next fun _ => .lift _

theorem replicateMariadb_alike (id : Nat) : AlikeS Eq (replicateMariadb id) (replicateMariadb id) := by
  refine (simpleQuery_alike _ _).next fun _ => AlikeS.client.bind ?_
  rintro self _ ⟨set, rfl, h⟩
  refine .ite ?_ (.send _ _)
  simp only [withSet]
  cases self.options.binlog.gtidList with
  | none => exact .lift _
  | some list => exact (registerGtidSlave_alike _ _).next fun _ => .send _ _

theorem replicateMysql_alike (m : Mode) (id : Nat) : AlikeS Eq (replicateMysql m id) (replicateMysql m id) := by
  refine AlikeS.client.bind ?_
  rintro self _ ⟨set, rfl, h⟩
  refine .ite ?_ (.send _ _)
  simp only [withSet]
  generalize self.options.binlog.gtidSet = old at h ⊢
  cases h with
  | none => exact .lift _
  | @some g g' h =>
    refine AlikeS.bind (R := AlikePayload) ?_ fun a b hab => .write hab 0
    exact fun s s' hs => ⟨C130_request m _ _ _ h, hs⟩

theorem setUp_alike (m : Mode) (c : Crypto) : AlikeS Eq (setUp m c) (setUp m c) := by
  refine (connect_alike m c).next fun provider => AlikeS.next (p := resetOnReconnect) (q := resetOnReconnect) ?_ fun _ => adjust_alike.next fun _ =>
    heartbeat_alike.next fun _ => checksum_alike.next fun _ => AlikeS.client.bind ?_
  · rintro s s' ⟨⟨set, hc, h⟩, hs⟩
    unfold resetOnReconnect
    rw [hc]
    exact ⟨.ok rfl, ⟨set, rfl, h⟩, hs⟩
  · rintro self _ ⟨set, rfl, h⟩
    cases provider with
    | mariaDB => exact (replicateMariadb_alike _).next fun _ => .ret _
    | mySQL => exact (replicateMysql_alike m _).next fun _ => .ret _

/-- **C130**, setting up replication on a connection. -/
theorem C130_set_up (m : Mode) (c : Crypto) {client client' : Client} (h : AlikeClient client client') {chan chan' : Channel} (hc : AlikeChannel chan chan') :
    AlikeRes Eq (setUp m c ⟨client, chan⟩).1 (setUp m c ⟨client', chan'⟩).1 ∧
      AlikeClient (setUp m c ⟨client, chan⟩).2.client (setUp m c ⟨client', chan'⟩).2.client ∧
      AlikeChannel (setUp m c ⟨client, chan⟩).2.chan (setUp m c ⟨client', chan'⟩).2.chan :=
  setUp_alike m c _ _ ⟨h, hc⟩

theorem Spec.AlikePayload.refl (p : Bytes) : AlikePayload p p := .same p

theorem Spec.AlikeChannel.refl (ch : Channel) : AlikeChannel ch ch :=
  ⟨rfl, rfl, rfl, rfl, rfl, List.forall₂_same.2 fun p _ => by cases p with | sent n p => exact .sent n (.same p) | received n p => exact .received n p⟩

/-- **C130**, setting up replication. -/
theorem C130_replicate (m : Mode) (c : Crypto) {client client' : Client} (h : AlikeClient client client') (net : RStr → Except IoKind Channel) :
    AlikeRes AlikeStream (client.replicateVia m c net).1 (client'.replicateVia m c net).1 ∧
      AlikeClient (client.replicateVia m c net).2 (client'.replicateVia m c net).2 := by
  have hb := h
  obtain ⟨set, rfl, h⟩ := h
  unfold Client.replicateVia Client.replicate
  have ho : Channel.open (withSet client set).options (net (withSet client set).options.address) = Channel.open client.options (net client.options.address) := rfl
  rw [ho]
  cases Channel.open client.options (net client.options.address) with
  | ok chan =>
    simp only
    have h1 := C130_set_up m c hb (.refl chan)
    rcases hx : setUp m c ⟨client, chan⟩ with ⟨x, s⟩
    rcases hy : setUp m c ⟨withSet client set, chan⟩ with ⟨y, s'⟩
    rw [hx, hy] at h1
    obtain ⟨h1, h2, h3⟩ := h1
    cases h1 with
    | ok h => subst h; exact ⟨.ok ⟨h3, rfl, by simp [BinlogEvents.new, EventParser.new], .refl _⟩, h2⟩
    | err e => exact ⟨.err e, h2⟩
    | panic => exact ⟨.panic, h2⟩
    | hang => exact ⟨.hang, h2⟩
  | err e => exact ⟨.err e, hb⟩
  | panic => exact ⟨.panic, hb⟩
  | hang => exact ⟨.hang, hb⟩

/-! ## Whole applications -/

structure AlikeHands (a b : InHands) : Prop where
  client : AlikeClient a.client b.client
  stream : Option.Rel AlikeStream a.stream b.stream
  reader : Option.Rel AlikeReader a.reader b.reader

/-- The hash maps may get into another order; the connection stays as it is. -/
structure Rearranged (a b : InHands) : Prop where
  client : AlikeClient a.client b.client
  stream : Option.Rel (fun x y => x.channel = y.channel ∧ AlikeParser x.parser y.parser) a.stream b.stream
  reader : Option.Rel AlikeReader a.reader b.reader

inductive AlikeCall : UserCall → UserCall → Prop where
  | replicate (net : RStr → Except IoKind Channel) : AlikeCall (.replicate net) (.replicate net)
  | next : AlikeCall .next .next
  | commit (header : EventHeader) {e e' : BinlogEvent} (h : AlikeEvent e e') : AlikeCall (.commit header e) (.commit header e')
  | openFile (file : Bytes) (failure : IoKind) : AlikeCall (.openFile file failure) (.openFile file failure)
  | nextOfFile : AlikeCall .nextOfFile .nextOfFile
  | parseSet (text : RStr) : AlikeCall (.parseSet text) (.parseSet text)
  | addGtid {g g' : GtidSet} (h : AlikeSet g g') (x : Gtid) : AlikeCall (.addGtid g x) (.addGtid g' x)
  | showSet {g g' : GtidSet} (h : AlikeSet g g') : AlikeCall (.showSet g) (.showSet g')

inductive AlikeReturned : Returned → Returned → Prop where
  | done : AlikeReturned .done .done
  | failed (e : Err) : AlikeReturned (.failed e) (.failed e)
  | item {x y : Option Item} (h : Option.Rel AlikeItem x y) : AlikeReturned (.item x) (.item y)
  | set {g g' : GtidSet} (h : AlikeSet g g') : AlikeReturned (.set g) (.set g')
  | added (isNew : Bool) {g g' : GtidSet} (h : AlikeSet g g') : AlikeReturned (.added isNew g) (.added isNew g')
  | text (x : RStr) : AlikeReturned (.text x) (.text x)
  | nothing : AlikeReturned .nothing .nothing

def AlikeLog (a b : List (UserCall × Returned)) : Prop := List.Forall₂ (fun x y => AlikeCall x.1 y.1 ∧ AlikeReturned x.2 y.2) a b

/-- An application that does not look at the order of hash maps. -/
def OrderBlind (app : Application) : Prop := ∀ got got', AlikeLog got got' → Option.Rel AlikeCall (app got) (app got')

/-- A run of an application, as `Application.run`, in which hash maps may be in another order at every call, those the application keeps and those it gets. -/
inductive Shuffled (m : Mode) (crypto : Crypto) (app : Application) :
    Nat → List (UserCall × Returned) → InHands → Res (List (UserCall × Returned)) → InHands → Prop where
  | enough {got : List (UserCall × Returned)} {hands : InHands} : Shuffled m crypto app 0 got hands (.ok got) hands
  | ends {n : Nat} {got : List (UserCall × Returned)} {hands : InHands} (h : app got = none) : Shuffled m crypto app (n + 1) got hands (.ok got) hands
  | returns {n : Nat} {got : List (UserCall × Returned)} {hands hands' left last : InHands} {call : UserCall} {x y : Returned}
      {r : Res (List (UserCall × Returned))} (hr : Rearranged hands hands') (ha : app got = some call) (hc : hands'.call m crypto call = (.ok x, left))
      (hx : AlikeReturned x y) (rest : Shuffled m crypto app n (got ++ [(call, y)]) left r last) : Shuffled m crypto app (n + 1) got hands r last
  | panics {n : Nat} {got : List (UserCall × Returned)} {hands hands' left : InHands} {call : UserCall} (hr : Rearranged hands hands')
      (ha : app got = some call) (hc : hands'.call m crypto call = (.panic, left)) : Shuffled m crypto app (n + 1) got hands .panic left
  | hangs {n : Nat} {got : List (UserCall × Returned)} {hands hands' left : InHands} {call : UserCall} (hr : Rearranged hands hands')
      (ha : app got = some call) (hc : hands'.call m crypto call = (.hang, left)) : Shuffled m crypto app (n + 1) got hands .hang left

theorem Spec.AlikeClient.trans {a b c : Client} (h : AlikeClient a b) (h' : AlikeClient b c) : AlikeClient a c := by
  obtain ⟨set, rfl, h⟩ := h
  obtain ⟨set', rfl, h'⟩ := h'
  refine ⟨set', rfl, ?_⟩
  simp only [withSet] at h'
  generalize a.options.binlog.gtidSet = x at h ⊢
  cases h with
  | none => cases h'; exact .none
  | some h => cases h' with | some h' => exact .some (h.trans h')

theorem Spec.AlikeParser.trans {a b c : EventParser} (h : AlikeParser a b) (h' : AlikeParser b c) : AlikeParser a c := ⟨h.1.trans h'.1, h.2.trans h'.2⟩

theorem AlikeHands.rearranged {a b c : InHands} (h : AlikeHands a b) (h' : Rearranged b c) : AlikeHands a c := by
  obtain ⟨ha, sa, ra⟩ := a
  obtain ⟨hb, sb, rb⟩ := b
  obtain ⟨hc, sc, rc⟩ := c
  obtain ⟨h1, h2, h3⟩ := h
  obtain ⟨k1, k2, k3⟩ := h'
  simp only at h1 h2 h3 k1 k2 k3
  refine ⟨h1.trans k1, ?_, ?_⟩
  · cases h2 with
    | none => cases k2; exact .none
    | some h => cases k2 with | some k => exact .some ⟨k.1 ▸ h.1, h.2.trans k.2⟩
  · cases h3 with
    | none => cases k3; exact .none
    | some h => cases k3 with | some k => exact .some ⟨h.1.trans k.1, h.2.1.trans k.2.1, h.2.2.trans k.2.2⟩

theorem Spec.AlikeEvent.trans {a b c : BinlogEvent} (h : AlikeEvent a b) (h' : AlikeEvent b c) : AlikeEvent a c := by
  cases h with
  | same hn => exact h'
  | previous h =>
    cases h' with
    | same hn => exact absurd rfl (hn _)
    | previous h' => exact .previous (AlikeMap.trans h h')

theorem AlikeReturned.trans {a b c : Returned} (h : AlikeReturned a b) (h' : AlikeReturned b c) : AlikeReturned a c := by
  cases h with
  | done => exact h'
  | failed => exact h'
  | text => exact h'
  | nothing => exact h'
  | set h => cases h' with | set h' => exact .set (AlikeMap.trans h h')
  | added n h => cases h' with | added _ h' => exact .added n (AlikeMap.trans h h')
  | item h =>
    cases h' with
    | item h' =>
      cases h with
      | none => exact .item h'
      | some h =>
        cases h' with
        | some h' =>
          cases h with
          | error e => exact .item (.some h')
          | ok hd he => cases h' with | ok _ he' => exact .item (.some (.ok hd (he.trans he')))

theorem keep_alike {α : Type} {R : α → α → Prop} {a b : InHands} {f g : α → Returned × InHands} {x y : Res α} (h : AlikeRes R x y) (hh : AlikeHands a b)
    (hf : ∀ u v, R u v → AlikeReturned (f u).1 (g v).1 ∧ AlikeHands (f u).2 (g v).2) :
    AlikeRes AlikeReturned (keepOutcome a f x).1 (keepOutcome b g y).1 ∧ AlikeHands (keepOutcome a f x).2 (keepOutcome b g y).2 := by
  cases h with
  | ok h => exact ⟨.ok (hf _ _ h).1, (hf _ _ h).2⟩
  | err e => exact ⟨.ok (.failed e), hh⟩
  | panic => exact ⟨.panic, hh⟩
  | hang => exact ⟨.hang, hh⟩

/-- **C130**, any call. -/
theorem C130_call (m : Mode) (crypto : Crypto) {a b : InHands} (h : AlikeHands a b) {call call' : UserCall} (hc : AlikeCall call call') :
    AlikeRes AlikeReturned (a.call m crypto call).1 (b.call m crypto call').1 ∧ AlikeHands (a.call m crypto call).2 (b.call m crypto call').2 := by
  cases hc with
  | replicate net =>
    have h1 := C130_replicate m crypto h.client net
    exact keep_alike h1.1 ⟨h1.2, h.stream, h.reader⟩ fun u v huv => ⟨.done, h1.2, .some huv, h.reader⟩
  | next =>
    obtain ⟨ca, sa, ra⟩ := a
    obtain ⟨cb, sb, rb⟩ := b
    have hs : Option.Rel AlikeStream sa sb := h.stream
    cases hs with
    | none => exact ⟨.ok .nothing, h⟩
    | some hs =>
      have h1 := C130_stream m hs
      exact keep_alike h1.1 h fun u v huv => ⟨.item huv, h.client, .some h1.2, h.reader⟩
  | commit header he => exact keep_alike (C130_commit m h.client header he) h fun u v huv => ⟨.done, huv, h.stream, h.reader⟩
  | openFile file failure =>
    refine keep_alike (R := AlikeReader) ?_ h fun u v huv => ⟨.done, h.client, h.stream, .some huv⟩
    unfold BinlogReader.new
    rcases fileRead file failure FIRST_EVENT_POSITION with ⟨x, stream⟩
    cases x with
    | ok header =>
      simp only
      split
      · exact .err _
      · exact .ok ⟨rfl, rfl, rfl, by simp [EventParser.new], .refl _⟩
    | err e => exact .err e
    | panic => exact .panic
    | hang => exact .hang
  | nextOfFile =>
    obtain ⟨ca, sa, ra⟩ := a
    obtain ⟨cb, sb, rb⟩ := b
    have hs : Option.Rel AlikeReader ra rb := h.reader
    cases hs with
    | none => exact ⟨.ok .nothing, h⟩
    | some hs =>
      have h1 := C130_file m hs
      exact keep_alike h1.1 h fun u v huv => ⟨.item huv, h.client, h.stream, .some h1.2⟩
  | parseSet text => exact keep_alike (parse_alike m text) h fun u v huv => ⟨.set huv, h⟩
  | addGtid hg x => exact keep_alike (C130_add m hg x) h fun u v huv => ⟨by rw [huv.1]; exact .added _ huv.2, h⟩
  | showSet hg => exact ⟨by rw [InHands.call, InHands.call, C130_text hg]; exact .ok (.text _), h⟩

theorem shuffled_alike (m : Mode) (crypto : Crypto) (app : Application) (ho : OrderBlind app) {n : Nat} {got got' : List (UserCall × Returned)}
    {hands hands' last : InHands} {r : Res (List (UserCall × Returned))} (h : Shuffled m crypto app n got' hands' r last) (hg : AlikeLog got got')
    (hh : AlikeHands hands hands') :
    AlikeRes AlikeLog (app.run m crypto n got hands).1 r ∧ AlikeHands (app.run m crypto n got hands).2 last := by
  induction h generalizing got hands with
  | enough => exact ⟨.ok hg, hh⟩
  | ends hn =>
    have ha := ho _ _ hg
    rw [hn] at ha
    unfold Application.run
    generalize app got = c at ha ⊢
    cases ha
    exact ⟨.ok hg, hh⟩
  | @returns n got' hands' hands2 left last call x y r hr ha hc hx rest ih =>
    have hcall := ho _ _ hg
    rw [ha] at hcall
    unfold Application.run
    generalize app got = c at hcall ⊢
    cases hcall with
    | some hcall =>
      have h1 := C130_call m crypto (hh.rearranged hr) hcall
      rw [hc] at h1
      simp only
      rcases hx : InHands.call m crypto hands _ with ⟨z, left'⟩
      rw [hx] at h1
      obtain ⟨h1, h2⟩ := h1
      cases h1 with
      | ok h1 => exact ih (List.rel_append hg (.cons ⟨hcall, h1.trans ‹_›⟩ .nil)) h2
  | @panics n got' hands' hands2 left call hr ha hc =>
    have hcall := ho _ _ hg
    rw [ha] at hcall
    unfold Application.run
    generalize app got = c at hcall ⊢
    cases hcall with
    | some hcall =>
      have h1 := C130_call m crypto (hh.rearranged hr) hcall
      rw [hc] at h1
      simp only
      rcases hx : InHands.call m crypto hands _ with ⟨z, left'⟩
      rw [hx] at h1
      obtain ⟨h1, h2⟩ := h1
      cases h1
      exact ⟨.panic, h2⟩
  | @hangs n got' hands' hands2 left call hr ha hc =>
    have hcall := ho _ _ hg
    rw [ha] at hcall
    unfold Application.run
    generalize app got = c at hcall ⊢
    cases hcall with
    | some hcall =>
      have h1 := C130_call m crypto (hh.rearranged hr) hcall
      rw [hc] at h1
      simp only
      rcases hx : InHands.call m crypto hands _ with ⟨z, left'⟩
      rw [hx] at h1
      obtain ⟨h1, h2⟩ := h1
      cases h1
      exact ⟨.hang, h2⟩

/-- **C130.** Whatever order hash maps are in at any moment of a run, an application that does not look at the order makes the same calls and gets the same from
them, and has the same in hands in the end: all texts, positions, events, errors and crashes are the same, and so are the packets sent, except that the request
for events may list the servers in another order. -/
theorem C130_application (m : Mode) (crypto : Crypto) (app : Application) (ho : OrderBlind app) (n : Nat) (client : Client)
    (hc : ∀ g, client.options.binlog.gtidSet = some g → (g.uuidSets.map (·.1)).Nodup) (last : InHands) (r : Res (List (UserCall × Returned)))
    (h : Shuffled m crypto app n [] { client } r last) :
    AlikeRes AlikeLog (app.run m crypto n [] { client }).1 r ∧ AlikeHands (app.run m crypto n [] { client }).2 last :=
  shuffled_alike m crypto app ho h .nil ⟨⟨_, rfl, optionSet_refl hc⟩, .none, .none⟩

theorem keep_no_err {α : Type} (hands : InHands) (f : α → Returned × InHands) (x : Res α) (e : Err) : (keepOutcome hands f x).1 ≠ .err e := by
  cases x <;> simp [keepOutcome]

theorem call_no_err (m : Mode) (crypto : Crypto) (hands : InHands) (call : UserCall) (e : Err) : (hands.call m crypto call).1 ≠ .err e := by
  obtain ⟨client, stream, reader⟩ := hands
  cases call with
  | next =>
    cases stream with
    | none => simp [InHands.call]
    | some s => exact keep_no_err _ _ _ _
  | nextOfFile =>
    cases reader with
    | none => simp [InHands.call]
    | some s => exact keep_no_err _ _ _ _
  | showSet => simp [InHands.call]
  | _ => exact keep_no_err _ _ _ _

theorem run_shuffled (m : Mode) (crypto : Crypto) (app : Application) (ho : OrderBlind app) (n : Nat) (got : List (UserCall × Returned)) (hands : InHands)
    (hg : AlikeLog got got) (hh : AlikeHands hands hands) :
    Shuffled m crypto app n got hands (app.run m crypto n got hands).1 (app.run m crypto n got hands).2 := by
  induction n generalizing got hands with
  | zero => exact .enough
  | succ n ih =>
    unfold Application.run
    have hcall := ho _ _ hg
    cases ha : app got with
    | none => exact .ends ha
    | some call =>
      rw [ha] at hcall
      cases hcall with
      | some hcall =>
        have h1 := C130_call m crypto hh hcall
        have he := call_no_err m crypto hands call
        have hr : Rearranged hands hands := by
          refine ⟨hh.client, ?_, hh.reader⟩
          have := hh.stream
          generalize hands.stream = s at this ⊢
          cases this with
          | none => exact .none
          | some h => exact .some ⟨rfl, h.2⟩
        simp only
        rcases hx : hands.call m crypto call with ⟨x, left⟩
        rw [hx] at h1 he
        obtain ⟨h1, h2⟩ := h1
        cases x with
        | ok x => cases h1 with | ok h1 => exact .returns hr ha hx h1 (ih _ _ (List.rel_append hg (.cons ⟨hcall, h1⟩ .nil)) h2)
        | err e => exact absurd rfl (he e)
        | panic => exact .panics hr ha hx
        | hang => exact .hangs hr ha hx

/-- The run in which nothing is rearranged is one of the runs **C130** speaks of. -/
theorem C130_runs_exist (m : Mode) (crypto : Crypto) (app : Application) (ho : OrderBlind app) (n : Nat) (client : Client)
    (hc : ∀ g, client.options.binlog.gtidSet = some g → (g.uuidSets.map (·.1)).Nodup) :
    Shuffled m crypto app n [] { client } (app.run m crypto n [] { client }).1 (app.run m crypto n [] { client }).2 :=
  run_shuffled m crypto app ho n [] _ .nil ⟨⟨_, rfl, optionSet_refl hc⟩, .none, .none⟩

/-! ## A concrete run -/

/-- It parses a set of two servers, adds to it and prints it. -/
def exPrinting : Application
  | [] => some (.parseSet "24bc7850-2c16-11e6-a073-0242ac110001:1-5,24bc7850-2c16-11e6-a073-0242ac110002:1".toList)
  | [(_, .set x)] => some (.addGtid x ⟨exUuid, 6⟩)
  | [_, (_, .added _ x)] => some (.showSet x)
  | _ => none

theorem exPrinting_blind : OrderBlind exPrinting := by
  intro got got' h
  cases h with
  | nil => exact .some (.parseSet _)
  | @cons a b as bs hab h =>
    obtain ⟨ac, ar⟩ := a
    obtain ⟨bc, br⟩ := b
    obtain ⟨h1, h2⟩ := hab
    simp only at h1 h2
    cases h with
    | nil =>
      cases h2 with
      | set hg => exact .some (.addGtid hg _)
      | _ => exact .none
    | @cons a b as bs hab h =>
      obtain ⟨cc, cr⟩ := a
      obtain ⟨dc, dr⟩ := b
      obtain ⟨h3, h4⟩ := hab
      simp only at h3 h4
      cases h with
      | nil =>
        cases h4 with
        | added _ hg => cases h2 <;> exact .some (.showSet hg)
        | _ => cases h2 <;> exact .none
      | cons hab h =>
        cases h2 <;> cases h4 <;> exact .none

/-- A run in which the set that was parsed comes in the order it does not have in the model: the text is the same. -/
example : Shuffled checked exCrypto exPrinting 5 [] { client := exUser .fromStart }
    (.ok [(.parseSet "24bc7850-2c16-11e6-a073-0242ac110001:1-5,24bc7850-2c16-11e6-a073-0242ac110002:1".toList,
        .set ⟨[(exUuid2.uuid, ⟨exUuid2, [⟨1, 1⟩]⟩), (exUuid.uuid, ⟨exUuid, [⟨1, 5⟩]⟩)]⟩),
      (.addGtid ⟨[(exUuid2.uuid, ⟨exUuid2, [⟨1, 1⟩]⟩), (exUuid.uuid, ⟨exUuid, [⟨1, 5⟩]⟩)]⟩ ⟨exUuid, 6⟩,
        .added true ⟨[(exUuid2.uuid, ⟨exUuid2, [⟨1, 1⟩]⟩), (exUuid.uuid, ⟨exUuid, [⟨1, 6⟩]⟩)]⟩),
      (.showSet ⟨[(exUuid2.uuid, ⟨exUuid2, [⟨1, 1⟩]⟩), (exUuid.uuid, ⟨exUuid, [⟨1, 6⟩]⟩)]⟩,
        .text "24bc7850-2c16-11e6-a073-0242ac110001:1-6,24bc7850-2c16-11e6-a073-0242ac110002:1".toList)])
    { client := exUser .fromStart } := by
  have hr : Rearranged { client := exUser .fromStart } { client := exUser .fromStart } := ⟨⟨none, rfl, .none⟩, .none, .none⟩
  have h1 : GtidSet.parse checked "24bc7850-2c16-11e6-a073-0242ac110001:1-5,24bc7850-2c16-11e6-a073-0242ac110002:1".toList =
      .ok ⟨[(exUuid.uuid, ⟨exUuid, [⟨1, 5⟩]⟩), (exUuid2.uuid, ⟨exUuid2, [⟨1, 1⟩]⟩)]⟩ := by decide +kernel
  have h2 : GtidSet.addGtid checked ⟨[(exUuid2.uuid, ⟨exUuid2, [⟨1, 1⟩]⟩), (exUuid.uuid, ⟨exUuid, [⟨1, 5⟩]⟩)]⟩ ⟨exUuid, 6⟩ =
      .ok (true, ⟨[(exUuid2.uuid, ⟨exUuid2, [⟨1, 1⟩]⟩), (exUuid.uuid, ⟨exUuid, [⟨1, 6⟩]⟩)]⟩) := by decide +kernel
  have h3 : GtidSet.display ⟨[(exUuid2.uuid, ⟨exUuid2, [⟨1, 1⟩]⟩), (exUuid.uuid, ⟨exUuid, [⟨1, 6⟩]⟩)]⟩ =
      "24bc7850-2c16-11e6-a073-0242ac110001:1-6,24bc7850-2c16-11e6-a073-0242ac110002:1".toList := by
    rw [C130_text (g' := ⟨[(exUuid.uuid, ⟨exUuid, [⟨1, 6⟩]⟩), (exUuid2.uuid, ⟨exUuid2, [⟨1, 1⟩]⟩)]⟩) ⟨by decide +kernel, List.Perm.swap _ _ _⟩]
    unfold GtidSet.display sortStrings
    rw [List.mergeSort_of_pairwise (by decide +kernel)]
    decide +kernel
  refine .returns hr rfl (by rw [InHands.call, h1]; rfl) (.set ⟨by decide +kernel, List.Perm.swap _ _ _⟩)
    (.returns hr rfl (by rw [InHands.call, h2]; rfl) (.added _ ⟨by decide +kernel, .refl _⟩) (.returns hr rfl (by rw [InHands.call, h3]) (.text _) (.ends rfl)))

end MysqlCdc
