import Verif.Props.AcceptedPackets
import Verif.Props.Errors
import Verif.Props.LiveStream
import Verif.Props.Reader
import Verif.Spec.Iteration

/-!
What iterating over a file and over a connection gives, for all bytes (C88, C89).
-/

namespace MysqlCdc

open Spec

/-- Calling `next` again and again gives these items, and then it ends like this. -/
inductive Iterates {σ : Type} (next : σ → Res (Option Item) × σ) : σ → List Item → Halt → Prop where
  | running {s : σ} : Iterates next s [] .running
  | ended {s : σ} (h : (next s).1 = .ok none) : Iterates next s [] .ended
  | crash {s : σ} (h : (next s).1 = .panic) : Iterates next s [] .crash
  | loop {s : σ} (h : (next s).1 = .hang) : Iterates next s [] .loop
  | item {s s' : σ} {x : Item} {items : List Item} {halt : Halt} (h : next s = (.ok (some x), s')) (hr : Iterates next s' items halt) :
      Iterates next s (x :: items) halt

/-- What a decoder knows. -/
def knownOf (st : EventParser) : Learned := ⟨st.checksumType, cachedColumns st.tableMap⟩

theorem knownOf_record (st : EventParser) (ev : BinlogEvent) : knownOf (st.record ev) = (knownOf st).after ev := by
  unfold knownOf Learned.after
  rw [record_checksum, record_columns]

theorem knownOf_new (ck : ChecksumType) : knownOf { EventParser.new with checksumType := ck } = Learned.start ck := by
  unfold knownOf Learned.start
  rfl

theorem known_same {ev ev' : BinlogEvent} (h : SameEvent ev ev') (k : Learned) : k.after ev = k.after ev' := by
  obtain ⟨h1, h2⟩ := sameEvent_algorithm h
  unfold Learned.after
  rw [h1, h2]

theorem parseEvent_keeps {m : Mode} {st : EventParser} {header : EventHeader} {slice : Bytes}
    (h : ∀ ev, (parseEvent m st header slice).1 ≠ .ok ev) : (parseEvent m st header slice).2 = st := by
  unfold parseEvent at h ⊢
  split
  · next hb =>
    rw [hb] at h
    simp only at h
    split
    · next hd => rw [hd] at h; exact absurd rfl (h _)
    all_goals rfl
  all_goals rfl

theorem record_proper {m : Mode} {st : EventParser} (hst : ProperCache st.tableMap) {header : EventHeader} {slice : Bytes} {ev : BinlogEvent}
    (h : (parseEvent m st header slice).1 = .ok ev) : ProperCache (st.record ev).tableMap := by
  rw [← parseEvent_after h]; exact C82_properCache hst header slice

/-- What becomes of an event. -/
inductive Fate (m : Mode) (st : EventParser) (header : EventHeader) (slice : Bytes) : Prop where
  | event {ev : BinlogEvent} {body : Bytes} (h : parseEvent m st header slice = (.ok ev, st.record ev))
      (hs : WithChecksum st.checksumType body slice) (ha : AcceptedEvent m (cachedColumns st.tableMap) header ev body) : Fate m st header slice
  | refused {err : Err} (h : parseEvent m st header slice = (.err err, st)) (he : err ≠ .io .unexpectedEof)
      (hr : SliceReason m err st.checksumType (cachedColumns st.tableMap) header slice) : Fate m st header slice
  | ends (h : parseEvent m st header slice = (.err (.io .unexpectedEof), st))
      (hr : SliceEnds m st.checksumType (cachedColumns st.tableMap) header slice) : Fate m st header slice
  | crash (h : parseEvent m st header slice = (.panic, st))
      (hr : SliceCrash m st.checksumType (cachedColumns st.tableMap) header slice) : Fate m st header slice
  | loop (h : parseEvent m st header slice = (.hang, st))
      (hr : SliceLoop st.checksumType (cachedColumns st.tableMap) header slice) : Fate m st header slice

theorem event_fate (m : Mode) {st : EventParser} (hst : ProperCache st.tableMap) (header : EventHeader) (slice : Bytes) :
    Fate m st header slice := by
  have pair : ∀ {r : Res BinlogEvent}, (parseEvent m st header slice).1 = r → (∀ ev, r ≠ .ok ev) → parseEvent m st header slice = (r, st) :=
    fun h hn => Prod.ext h (parseEvent_keeps fun ev => by rw [h]; exact hn ev)
  cases h : (parseEvent m st header slice).1 with
  | ok ev =>
    have h' : parseEvent m st header slice = (.ok ev, st.record ev) := Prod.ext h (parseEvent_after h)
    by_cases hr : header.eventType ∈ rowCodes
    · obtain ⟨body, hs, ha⟩ := (C82_iff hst hr).1 h
      exact .event h' hs (.inr ha)
    · obtain ⟨body, hs, ha⟩ := C81_sound hr h
      exact .event h' hs (.inl ha)
  | err e =>
    by_cases he : e = .io .unexpectedEof
    · subst he
      exact .ends (pair h (by simp)) ((C87_eof_iff hst).1 h)
    · exact .refused (pair h (by simp)) he ((C87_error_iff hst he).1 h)
  | panic => exact .crash (pair h (by simp)) ((C86_crash_iff hst).1 h)
  | hang => exact .loop (pair h (by simp)) ((C86_loop_iff hst).1 h)

theorem accepted_parse {m : Mode} {st : EventParser} (hst : ProperCache st.tableMap) {header : EventHeader} {slice body : Bytes} {ev : BinlogEvent}
    (hs : WithChecksum st.checksumType body slice) (ha : AcceptedEvent m (cachedColumns st.tableMap) header ev body) :
    ∃ ev', parseEvent m st header slice = (.ok ev', st.record ev') ∧ SameEvent ev ev' := by
  rcases ha with h | h
  · obtain ⟨ev', h', hsame⟩ := C81_complete hs h
    exact ⟨ev', Prod.ext h' (parseEvent_after h'), hsame⟩
  · have h' := (C82_iff hst (rowCodes_rows h)).2 ⟨body, hs, h⟩
    exact ⟨ev, Prod.ext h' (parseEvent_after h'), .refl _⟩

theorem refused_parse {m : Mode} {st : EventParser} {header : EventHeader} {slice : Bytes} {r : Res BinlogEvent}
    (h : (parseEvent m st header slice).1 = r) (hn : ∀ ev, r ≠ .ok ev) : parseEvent m st header slice = (r, st) :=
  Prod.ext h (parseEvent_keeps fun ev => by rw [h]; exact hn ev)

/-! ## Files -/

/-- What a file of which `bytes` are left starts with. -/
inductive Front (bytes : Bytes) : Prop where
  | incomplete (h : bytes.length < 19 ∨ ∃ header rest, HeaderFits header ∧ bytes = headerBytes header ++ rest ∧ 19 + rest.length < header.eventLength)
  | length {header : EventHeader} {rest : Bytes} (hf : HeaderFits header) (he : bytes = headerBytes header ++ rest) (h : header.eventLength < 19)
  | record {header : EventHeader} {slice rest : Bytes} (hok : RecordOk (header, slice)) (he : bytes = recordBytes (header, slice) ++ rest)

theorem front (bytes : Bytes) : Front bytes := by
  by_cases h19 : bytes.length < 19
  · exact .incomplete (.inl h19)
  · obtain ⟨h, hf, he⟩ := split_header bytes (by omega)
    by_cases hl : h.eventLength < 19
    · exact .length hf he hl
    · by_cases hc : 19 + (bytes.drop 19).length < h.eventLength
      · exact .incomplete (.inr ⟨h, _, hf, he, hc⟩)
      · refine .record (header := h) (slice := (bytes.drop 19).take (h.eventLength - 19)) (rest := (bytes.drop 19).drop (h.eventLength - 19))
          ⟨hf, by simp at hc ⊢; omega⟩ ?_
        rw [recordBytes, List.append_assoc, List.take_append_drop]
        exact he

theorem next_parsed {m : Mode} {r : BinlogReader} {header : EventHeader} {slice rest : Bytes} (hok : RecordOk (header, slice))
    (hs : r.stream = recordBytes (header, slice) ++ rest) {x : Res BinlogEvent} {st : EventParser} (h : parseEvent m r.parser header slice = (x, st)) :
    (∀ ev, x = .ok ev → r.next m = (.ok (some (.ok (header, ev))), { r with stream := rest, parser := st })) ∧
    (x = .err (.io .unexpectedEof) → r.next m = (.ok none, { r with stream := rest, parser := st })) ∧
    (∀ e, x = .err e → e ≠ .io .unexpectedEof → r.next m = (.ok (some (.error e)), { r with stream := rest, parser := st })) ∧
    (x = .panic → r.next m = (.panic, { r with stream := rest, parser := st })) ∧ (x = .hang → r.next m = (.hang, { r with stream := rest, parser := st })) := by
  rw [next_record m r header slice rest hok hs, h]
  refine ⟨?_, ?_, ?_, ?_, ?_⟩
  · rintro ev rfl; rfl
  · rintro rfl; rfl
  · rintro e rfl he
    cases e with
    | io k =>
      cases k with
      | unexpectedEof => exact absurd rfl he
      | _ => rfl
    | _ => rfl
  · rintro rfl; rfl
  · rintro rfl; rfl

/-- One call of `next`. -/
inductive FileStep (m : Mode) (r : BinlogReader) : Prop where
  | ended (h : (r.next m).1 = .ok none) (hr : FileRun m (knownOf r.parser) r.stream [] .ended)
  | crash (h : (r.next m).1 = .panic) (hr : FileRun m (knownOf r.parser) r.stream [] .crash)
  | loop (h : (r.next m).1 = .hang) (hr : FileRun m (knownOf r.parser) r.stream [] .loop)
  | item {x : Item} {r' : BinlogReader} (h : r.next m = (.ok (some x), r')) (hp : ProperCache r'.parser.tableMap)
      (hf : r'.failure = r.failure) (hl : r'.stream.length < r.stream.length)
      (hr : ∀ items halt, FileRun m (knownOf r'.parser) r'.stream items halt → FileRun m (knownOf r.parser) r.stream (x :: items) halt)

theorem fileStep (m : Mode) (r : BinlogReader) (hfl : r.failure = .unexpectedEof) (hst : ProperCache r.parser.tableMap) : FileStep m r := by
  cases front r.stream with
  | incomplete h =>
    refine .ended (by rw [next_incomplete m r hfl h]) ?_
    rcases h with h | ⟨header, rest, hf, he, hl⟩
    · exact .short h
    · rw [he]; exact .cut hf hl
  | length hf he h =>
    refine .crash (next_bad_length m r _ _ hf he h) ?_
    rw [he]; exact .length hf h
  | @record header slice rest hok he =>
    have hlen : rest.length < r.stream.length := by
      rw [he, recordBytes, List.length_append, List.length_append, headerBytes_length]; omega
    cases event_fate m hst header slice with
    | @event ev body h hs ha =>
      refine .item ((next_parsed hok he h).1 ev rfl) (record_proper hst (by rw [h])) rfl hlen fun items halt hr => ?_
      rw [he]
      rw [knownOf_record] at hr
      exact .event hok hs ha hr
    | @refused err h hne hr =>
      refine .item ((next_parsed hok he h).2.2.1 err rfl hne) hst rfl hlen fun items halt hr' => ?_
      rw [he]
      exact .refused hok hne hr hr'
    | ends h hr =>
      refine .ended (by rw [(next_parsed hok he h).2.1 rfl]) ?_
      rw [he]; exact .ends hok hr
    | crash h hr =>
      refine .crash (by rw [(next_parsed hok he h).2.2.2.1 rfl]) ?_
      rw [he]; exact .crash hok hr
    | loop h hr =>
      refine .loop (by rw [(next_parsed hok he h).2.2.2.2 rfl]) ?_
      rw [he]; exact .loop hok hr

theorem file_sound {m : Mode} {r : BinlogReader} (hfl : r.failure = .unexpectedEof) (hst : ProperCache r.parser.tableMap) {items : List Item} {halt : Halt}
    (h : Iterates (BinlogReader.next m) r items halt) : FileRun m (knownOf r.parser) r.stream items halt := by
  induction h with
  | running => exact .running
  | @ended r h =>
    cases fileStep m r hfl hst with
    | ended _ hr => exact hr
    | crash h' | loop h' => rw [h] at h'; cases h'
    | item h' => rw [h'] at h; cases h
  | @crash r h =>
    cases fileStep m r hfl hst with
    | crash _ hr => exact hr
    | ended h' | loop h' => rw [h] at h'; cases h'
    | item h' => rw [h'] at h; cases h
  | @loop r h =>
    cases fileStep m r hfl hst with
    | loop _ hr => exact hr
    | ended h' | crash h' => rw [h] at h'; cases h'
    | item h' => rw [h'] at h; cases h
  | @item r r' x items halt h _ ih =>
    cases fileStep m r hfl hst with
    | ended h' | loop h' | crash h' => rw [h] at h'; cases h'
    | item h' hp hf _ hr =>
      rw [h] at h'
      cases h'
      exact hr _ _ (ih (hf.trans hfl) hp)

theorem file_complete {m : Mode} {k : Learned} {bytes : Bytes} {items : List Item} {halt : Halt} (h : FileRun m k bytes items halt)
    (st : EventParser) (hst : ProperCache st.tableMap) (hk : k = knownOf st) :
    ∃ items', Iterates (BinlogReader.next m) ⟨bytes, st, .unexpectedEof⟩ items' halt ∧ List.Forall₂ SameItem items items' := by
  induction h generalizing st with
  | running => exact ⟨[], .running, .nil⟩
  | short h => exact ⟨[], .ended (by rw [next_incomplete m _ rfl (.inl h)]), .nil⟩
  | cut hf h => exact ⟨[], .ended (by rw [next_incomplete m _ rfl (.inr ⟨_, _, hf, rfl, h⟩)]), .nil⟩
  | length hf h => exact ⟨[], .crash (next_bad_length m _ _ _ hf rfl h), .nil⟩
  | event hok hs ha _ ih =>
    subst hk
    obtain ⟨ev', h, hsame⟩ := accepted_parse hst hs ha
    obtain ⟨items', h1, h2⟩ := ih (st.record ev') (record_proper hst (by rw [h])) (by rw [known_same hsame, knownOf_record])
    exact ⟨_, .item ((next_parsed hok rfl h).1 _ rfl) h1, .cons (.ok hsame) h2⟩
  | refused hok he h _ ih =>
    subst hk
    have h := refused_parse ((C87_error_iff hst he).2 h) (by simp)
    obtain ⟨items', h1, h2⟩ := ih st hst rfl
    exact ⟨_, .item ((next_parsed hok rfl h).2.2.1 _ rfl he) h1, .cons .error h2⟩
  | ends hok h =>
    subst hk
    have h := refused_parse ((C87_eof_iff hst).2 h) (by simp)
    exact ⟨[], .ended (by rw [(next_parsed hok rfl h).2.1 rfl]), .nil⟩
  | crash hok h =>
    subst hk
    have h := refused_parse ((C86_crash_iff hst).2 h) (by simp)
    exact ⟨[], .crash (by rw [(next_parsed hok rfl h).2.2.2.1 rfl]), .nil⟩
  | loop hok h =>
    subst hk
    have h := refused_parse ((C86_loop_iff (m := m) hst).2 h) (by simp)
    exact ⟨[], .loop (by rw [(next_parsed hok rfl h).2.2.2.2 rfl]), .nil⟩

theorem file_halts (m : Mode) (r : BinlogReader) (hfl : r.failure = .unexpectedEof) (hst : ProperCache r.parser.tableMap) :
    ∃ items halt, halt ≠ .running ∧ Iterates (BinlogReader.next m) r items halt := by
  induction hl : r.stream.length using Nat.strongRecOn generalizing r with
  | _ l ih =>
    cases fileStep m r hfl hst with
    | ended h => exact ⟨[], _, by simp, .ended h⟩
    | crash h => exact ⟨[], _, by simp, .crash h⟩
    | loop h => exact ⟨[], _, by simp, .loop h⟩
    | @item x r' h hp hf hlt =>
      obtain ⟨items, halt, h1, h2⟩ := ih _ (by omega) r' (hf.trans hfl) hp rfl
      exact ⟨x :: items, halt, h1, .item h h2⟩

/-- **C88.** Opening a file: it fails exactly if the file is shorter than four bytes, or the first four are others than `fe 62 69 6e`. -/
theorem C88_open (file : Bytes) (failure : IoKind) :
    (BinlogReader.new file failure = .err (.io failure) ↔ file.length < 4) ∧
    (BinlogReader.new file failure = .err (.str "Invalid binary log file header") ↔ 4 ≤ file.length ∧ file.take 4 ≠ [0xfe, 0x62, 0x69, 0x6e]) ∧
    (∀ r, BinlogReader.new file failure = .ok r ↔ file = [0xfe, 0x62, 0x69, 0x6e] ++ r.stream ∧ r.parser = EventParser.new ∧ r.failure = failure) := by
  refine ⟨?_, ?_, fun r => ?_⟩
  · unfold BinlogReader.new fileRead FIRST_EVENT_POSITION
    by_cases h : 4 ≤ file.length
    · simp only [h, if_true]
      constructor
      · intro h'; split at h' <;> cases h'
      · omega
    · simp only [h, if_false, true_iff]; omega
  · unfold BinlogReader.new fileRead FIRST_EVENT_POSITION MAGIC_NUMBER
    by_cases h : 4 ≤ file.length
    · simp only [h, if_true, true_and]
      constructor
      · intro h'
        split at h'
        · assumption
        · cases h'
      · intro h'; rw [if_pos h']
    · simp [h]
  · constructor
    · intro h
      have h1 := (C31_magic file failure).2.1 r h
      refine ⟨h1, ?_⟩
      have := (C31_magic file failure).1 _ h1
      rw [h] at this
      have := Res.ok.inj this
      rw [this]
      exact ⟨rfl, rfl⟩
    · rintro ⟨h1, h2, h3⟩
      rw [(C31_magic file failure).1 _ h1, ← h2, ← h3]

/-- **C88.** What iterating over a file gives is one of the runs of the file's bytes. -/
theorem C88_file_sound {m : Mode} {file : Bytes} {r : BinlogReader} (ho : BinlogReader.new file = .ok r) {items : List Item} {halt : Halt}
    (h : Iterates (BinlogReader.next m) r items halt) : FileRun m (.start .none) (file.drop 4) items halt := by
  obtain ⟨h1, h2, h5⟩ := ((C88_open file _).2.2 r).1 ho
  have := file_sound h5 (by rw [h2]; exact properCache_new) h
  rw [h2] at this
  rw [h1]
  exact this

/-- **C88.** Each run of the file's bytes is what iterating gives, up to the order of the servers in sets of previous GTIDs. -/
theorem C88_file_complete {m : Mode} {file : Bytes} {r : BinlogReader} (ho : BinlogReader.new file = .ok r) {items : List Item} {halt : Halt}
    (h : FileRun m (.start .none) (file.drop 4) items halt) :
    ∃ items', Iterates (BinlogReader.next m) r items' halt ∧ List.Forall₂ SameItem items items' := by
  obtain ⟨h1, h2, h5⟩ := ((C88_open file _).2.2 r).1 ho
  obtain ⟨items', h3, h4⟩ := file_complete h EventParser.new properCache_new rfl
  refine ⟨items', ?_, h4⟩
  have : r = ⟨file.drop 4, EventParser.new, .unexpectedEof⟩ := by
    cases r; simp only at h1 h2 h5; subst h1 h2 h5; rfl
  rw [this]; exact h3

/-- **C88.** Iterating over a file comes to an end: after finitely many items there is none, a panic, or a call that does not return. -/
theorem C88_file_halts (m : Mode) {file : Bytes} {r : BinlogReader} (ho : BinlogReader.new file = .ok r) :
    ∃ items halt, halt ≠ .running ∧ Iterates (BinlogReader.next m) r items halt := by
  obtain ⟨_, h2, h5⟩ := ((C88_open file _).2.2 r).1 ho
  exact file_halts m r h5 (by rw [h2]; exact properCache_new)

/-- C29, exactly: where the reader ends. -/
theorem C29_ends_iff (m : Mode) (r : BinlogReader) (hst : ProperCache r.parser.tableMap) :
    (r.next m).1 = .ok none ↔ (r.failure = .unexpectedEof ∧ Unfinished r.stream) ∨
      ∃ h p rest, RecordOk (h, p) ∧ r.stream = recordBytes (h, p) ++ rest ∧
        SliceEnds m r.parser.checksumType (cachedColumns r.parser.tableMap) h p := by
  constructor
  · intro hn
    cases front r.stream with
    | incomplete h =>
      rw [reader_fails m r h] at hn
      refine .inl ⟨?_, h⟩
      by_contra hne
      rw [if_neg hne] at hn
      cases hn
    | length hf he h => rw [next_bad_length m r _ _ hf he h] at hn; cases hn
    | @record header slice rest hok he =>
      refine .inr ⟨_, _, _, hok, he, ?_⟩
      cases event_fate m hst header slice with
      | event h => rw [(next_parsed hok he h).1 _ rfl] at hn; cases hn
      | refused h hne => rw [(next_parsed hok he h).2.2.1 _ rfl hne] at hn; cases hn
      | ends h hr => exact hr
      | crash h => rw [(next_parsed hok he h).2.2.2.1 rfl] at hn; cases hn
      | loop h => rw [(next_parsed hok he h).2.2.2.2 rfl] at hn; cases hn
  · rintro (⟨hfl, h⟩ | ⟨h, p, rest, hok, he, hs⟩)
    · rw [next_incomplete m r hfl h]
    · have h' := refused_parse ((C87_eof_iff hst).2 hs) (by simp)
      rw [(next_parsed hok he h').2.1 rfl]

/-! ## Connections -/

theorem parseErrorPacket_eq : parseErrorPacket = P.uLE 2 >>= fun code => readToString >>= fun s =>
    pure (if s.head? = some '#' then ⟨code, s.drop 6, some ((s.drop 1).take 5)⟩ else ⟨code, s, none⟩) := by
  unfold parseErrorPacket
  refine congrArg _ (funext fun code => congrArg _ (funext fun s => ?_))
  split <;> rfl

theorem err_errorPacket {e : Err} (he : e ≠ .io .unexpectedEof) :
    Faults (.error e) parseErrorPacket (fun body => ∃ code t, code < 2 ^ 16 ∧ TailError e t ∧ body = le 2 code ++ t) := by
  rw [parseErrorPacket_eq]
  refine (Faults.then (Exact.uLE 2) ((ends_uLE 2).faults he) fun code => err_toString.map _).cast fun t => ?_
  constructor
  · rintro ⟨code, _, t, ⟨h1, rfl⟩, h2, rfl⟩; exact ⟨code, t, by simpa using h1, h2, rfl⟩
  · rintro ⟨code, t, h1, h2, rfl⟩; exact ⟨code, _, t, ⟨by simpa using h1, rfl⟩, h2, rfl⟩

theorem readError_loose {b : UInt8} {body : Bytes} {e : ErrorPacket} (h : LooseError e body) :
    readError (b :: body) = .err (.server "Event stream error." e.errorCode e.errorMessage e.sqlState) := by
  unfold readError
  rw [List.drop_one, List.tail_cons, C83_error_iff.2 h]

theorem looseError_length {e : ErrorPacket} {body : Bytes} (h : LooseError e body) : 2 ≤ body.length := by
  cases h <;> simp

theorem readError_short {b : UInt8} {body : Bytes} (h : body.length < 2) : readError (b :: body) = .err (.io .unexpectedEof) := by
  unfold readError
  rw [List.drop_one, List.tail_cons]
  rcases parseErrorPacket_returns body with ⟨e, hr⟩ | ⟨e, hr⟩
  · have := looseError_length (C83_error_iff.1 hr)
    omega
  · rw [hr]
    by_cases he : e = .io .unexpectedEof
    · rw [he]
    · obtain ⟨code, t, _, _, hb⟩ := ((err_errorPacket he).run body).1 hr
      have := congrArg List.length hb
      simp only [List.length_append, le_length] at this
      omega

theorem readError_text {b : UInt8} {code : Nat} {t : Bytes} (hc : code < 2 ^ 16) (h : NotText t) :
    readError (b :: (le 2 code ++ t)) = .err (.io .invalidData) := by
  unfold readError
  rw [List.drop_one, List.tail_cons, ((err_errorPacket (e := .io .invalidData) (by decide)).run _).2 ⟨code, t, hc, ⟨h⟩, rfl⟩]
  rfl

/-- What an error packet is. -/
inductive ErrorFate (body : Bytes) : Prop where
  | error {e : ErrorPacket} (h : LooseError e body)
  | short (h : body.length < 2)
  | text {code : Nat} {t : Bytes} (hc : code < 2 ^ 16) (h : NotText t) (he : body = le 2 code ++ t)

theorem errorFate (body : Bytes) : ErrorFate body := by
  by_cases hl : body.length < 2
  · exact .short hl
  · rcases parseErrorPacket_returns body with ⟨e, hr⟩ | ⟨e, hr⟩
    · exact .error (C83_error_iff.1 hr)
    · have hb : body = le 2 (leVal (body.take 2)) ++ body.drop 2 := by
        rw [le_leVal' (by simp; omega), List.take_append_drop]
      have hc : leVal (body.take 2) < 2 ^ 16 := by
        have := leVal_lt (body.take 2)
        rwa [show (body.take 2).length = 2 by simp; omega] at this
      by_cases ht : NotText (body.drop 2)
      · exact .text hc ht hb
      · obtain ⟨s, hs⟩ : ∃ s, body.drop 2 = utf8Bytes s := by simpa [NotText] using ht
        rw [hs] at hb
        generalize leVal (body.take 2) = code at hb hc
        by_cases hh : s.head? = some '#'
        · match s, hh with
          | c :: s, hh =>
            obtain rfl : c = '#' := by simpa using hh
            refine .error (e := ⟨code, s.drop 5, some (s.take 5)⟩) ?_
            have := LooseError.marked (code := code) (state := s.take 5) (message := s.drop 5) hc (by
              rw [List.length_take, List.drop_eq_nil_iff]; omega)
            rw [hb]
            simpa using this
        · rw [hb]
          exact .error (.unmarked hc hh)

theorem header_short {body : Bytes} (h : body.length < 19) : parseHeader.run body = .err (.io .unexpectedEof) := by
  have hE : EndsOnly parseHeader := by
    unfold parseHeader
    exact (ends_uLE 4).bind fun _ => ends_u8.bind fun _ => (ends_uLE 4).bind fun _ => (ends_uLE 4).bind fun _ => (ends_uLE 4).bind fun _ =>
      (ends_uLE 2).map _
  obtain ⟨e, he⟩ := parseHeader_short body h
  rw [he, hE.run he]

theorem readPacket_broken {ch : Channel} (h : ¬WholePacket ch.input) : ch.readPacket = (.err (.io ch.ending), { ch with input := [] }) := by
  rcases hr : ch.readPacket with ⟨x, ch'⟩
  have hx : ∀ p, x ≠ .ok p := by
    rintro ⟨p, n⟩ rfl
    obtain ⟨h1, h2, rest, h3, _⟩ := readPacket_inv hr
    exact h ⟨p, n, rest, ⟨h1, h2⟩, h3⟩
  obtain ⟨rfl, rfl⟩ := readPacket_fail hr hx
  rfl

theorem live_event {m : Mode} {s : BinlogEvents} {header : EventHeader} {slice rest : Bytes} {n : Nat}
    (hn : Framable (0x00 :: (headerBytes header ++ slice), n)) (hf : HeaderFits header)
    (hi : s.channel.input = frame (0x00 :: (headerBytes header ++ slice)) n ++ rest) :
    ∃ ch : Channel, (ch.input = rest ∧ (ch.ending, ch.later) = (s.channel.ending, s.channel.later)) ∧ s.next m =
      (asItem (match (parseEvent m s.parser header slice).1 with
        | .ok e => .ok (header, e)
        | .err e => .err e
        | .panic => .panic
        | .hang => .hang), ⟨ch, (parseEvent m s.parser header slice).2⟩) := by
  obtain ⟨ch, h1, h2⟩ := next_packet m s _ rest n hn.1 hn.2 hi
  refine ⟨ch, h1, ?_⟩
  simp only [if_true] at h2
  have hh : parseHeader.run ((0x00 :: (headerBytes header ++ slice) : Bytes).drop 1) = .ok header := parseHeader_run hf slice
  have hb : (0x00 :: (headerBytes header ++ slice) : Bytes).drop (1 + EVENT_HEADER_SIZE) = slice := by
    rw [← List.drop_drop]
    exact List.drop_left' (by rw [headerBytes_length]; rfl)
  unfold BinlogEvents.readEvent at h2
  simp only [hh, hb] at h2
  rw [h2]
  rcases parseEvent m s.parser header slice with ⟨x, st⟩
  cases x <;> rfl

theorem live_short {m : Mode} {s : BinlogEvents} {body rest : Bytes} {n : Nat} (hn : Framable (0x00 :: body, n)) (h : body.length < 19)
    (hi : s.channel.input = frame (0x00 :: body) n ++ rest) :
    ∃ ch : Channel, (ch.input = rest ∧ (ch.ending, ch.later) = (s.channel.ending, s.channel.later)) ∧
      s.next m = (.ok (some (.error (.io .unexpectedEof))), { s with channel := ch }) := by
  obtain ⟨ch, h1, h2⟩ := next_packet m s _ rest n hn.1 hn.2 hi
  refine ⟨ch, h1, ?_⟩
  rw [h2]
  simp only [if_true]
  unfold BinlogEvents.readEvent
  rw [List.drop_one, List.tail_cons, header_short h]
  rfl

theorem live_error {m : Mode} {s : BinlogEvents} {body rest : Bytes} {n : Nat} (hn : Framable (0xFF :: body, n)) {e : Err}
    (h : readError (0xFF :: body) = .err e) (hi : s.channel.input = frame (0xFF :: body) n ++ rest) :
    ∃ ch : Channel, (ch.input = rest ∧ (ch.ending, ch.later) = (s.channel.ending, s.channel.later)) ∧
      s.next m = (.ok (some (.error e)), { s with channel := ch }) := by
  obtain ⟨ch, h1, h2⟩ := next_packet m s _ rest n hn.1 hn.2 hi
  refine ⟨ch, h1, ?_⟩
  rw [h2]
  simp only
  rw [if_neg (by decide), if_pos trivial, h]
  rfl

theorem live_status {m : Mode} {s : BinlogEvents} {status : UInt8} {body rest : Bytes} {n : Nat} (hn : Framable (status :: body, n))
    (h : status ∉ [0x00, 0xFE, 0xFF]) (hi : s.channel.input = frame (status :: body) n ++ rest) :
    ∃ ch : Channel, (ch.input = rest ∧ (ch.ending, ch.later) = (s.channel.ending, s.channel.later)) ∧
      s.next m = (.ok (some (.error (.str "Unknown network stream status"))), { s with channel := ch }) := by
  obtain ⟨ch, h1, h2⟩ := next_packet m s _ rest n hn.1 hn.2 hi
  refine ⟨ch, h1, ?_⟩
  simp only [List.mem_cons, List.not_mem_nil, or_false, not_or] at h
  rw [h2]
  simp only
  rw [if_neg h.1, if_neg h.2.2, if_neg h.2.1]

theorem live_eof {m : Mode} {s : BinlogEvents} {body rest : Bytes} {n : Nat} (hn : Framable (0xFE :: body, n))
    (hi : s.channel.input = frame (0xFE :: body) n ++ rest) : (s.next m).1 = .ok none := by
  obtain ⟨ch, h1, h2⟩ := next_packet m s _ rest n hn.1 hn.2 hi
  rw [h2]
  simp only
  rw [if_neg (by decide), if_neg (by decide), if_pos trivial]

theorem live_empty {m : Mode} {s : BinlogEvents} {rest : Bytes} {n : Nat} (hn : Framable ([], n))
    (hi : s.channel.input = frame [] n ++ rest) : (s.next m).1 = .panic := by
  obtain ⟨ch, h1, h2⟩ := next_packet m s _ rest n hn.1 hn.2 hi
  rw [h2]

theorem live_broken {m : Mode} {s : BinlogEvents} (h : ¬WholePacket s.channel.input) :
    s.next m = (.ok (some (.error (.io s.channel.ending))), { s with channel := { s.channel with input := [] }.afterFailure }) := by
  unfold BinlogEvents.next
  rw [readPacket_broken h]

/-- One call of `next`. -/
inductive LiveStep (m : Mode) (s : BinlogEvents) : Prop where
  | ended (h : (s.next m).1 = .ok none) (hr : LiveRun m (s.channel.ending, s.channel.later) (knownOf s.parser) s.channel.input [] .ended)
  | crash (h : (s.next m).1 = .panic) (hr : LiveRun m (s.channel.ending, s.channel.later) (knownOf s.parser) s.channel.input [] .crash)
  | loop (h : (s.next m).1 = .hang) (hr : LiveRun m (s.channel.ending, s.channel.later) (knownOf s.parser) s.channel.input [] .loop)
  | item {x : Item} {s' : BinlogEvents} (h : s.next m = (.ok (some x), s')) (hp : ProperCache s'.parser.tableMap)
      (hr : ∀ items halt, LiveRun m (s'.channel.ending, s'.channel.later) (knownOf s'.parser) s'.channel.input items halt →
        LiveRun m (s.channel.ending, s.channel.later) (knownOf s.parser) s.channel.input (x :: items) halt)

theorem liveStep (m : Mode) (s : BinlogEvents) (hst : ProperCache s.parser.tableMap) : LiveStep m s := by
  by_cases hw : WholePacket s.channel.input
  · obtain ⟨p, n, rest, hn, hi⟩ := hw
    cases p with
    | nil => exact .crash (live_empty hn hi) (by rw [hi]; exact .empty hn)
    | cons status body =>
      by_cases h0 : status = 0x00
      · subst h0
        by_cases hl : body.length < 19
        · obtain ⟨ch, ⟨h1, h2⟩, h3⟩ := live_short (m := m) hn hl hi
          exact .item h3 hst fun items halt hr => by rw [hi]; simp only [h1, h2] at hr; exact .short hn hl hr
        · obtain ⟨header, hf, he⟩ := split_header body (by omega)
          generalize body.drop 19 = slice at he
          subst he
          obtain ⟨ch, ⟨h1, h2⟩, h3⟩ := live_event (m := m) hn hf hi
          cases event_fate m hst header slice with
          | event h hs ha =>
            rw [h] at h3
            refine .item h3 (record_proper hst (by rw [h])) fun items halt hr => ?_
            simp only [h1, h2, knownOf_record] at hr
            rw [hi]; exact .event hn hf hs ha hr
          | refused h hne hr =>
            rw [h] at h3
            refine .item h3 hst fun items halt hr' => ?_
            simp only [h1, h2] at hr'
            rw [hi]; exact .refused hn hf hne hr hr'
          | ends h hr =>
            rw [h] at h3
            refine .item h3 hst fun items halt hr' => ?_
            simp only [h1, h2] at hr'
            rw [hi]; exact .ends hn hf hr hr'
          | crash h hr =>
            rw [h] at h3
            exact .crash (by rw [h3]; rfl) (by rw [hi]; exact .crash hn hf hr)
          | loop h hr =>
            rw [h] at h3
            exact .loop (by rw [h3]; rfl) (by rw [hi]; exact .loop hn hf hr)
      · by_cases h1 : status = 0xFE
        · subst h1
          exact .ended (live_eof hn hi) (by rw [hi]; exact .eof hn)
        · by_cases h2 : status = 0xFF
          · subst h2
            cases errorFate body with
            | error h =>
              obtain ⟨ch, ⟨h1, h2⟩, h3⟩ := live_error (m := m) hn (readError_loose h) hi
              exact .item h3 hst fun items halt hr => by rw [hi]; simp only [h1, h2] at hr; exact .error hn h hr
            | short h =>
              obtain ⟨ch, ⟨h1, h2⟩, h3⟩ := live_error (m := m) hn (readError_short h) hi
              exact .item h3 hst fun items halt hr => by rw [hi]; simp only [h1, h2] at hr; exact .errorShort hn h hr
            | text hc h he =>
              subst he
              obtain ⟨ch, ⟨h1, h2⟩, h3⟩ := live_error (m := m) hn (readError_text hc h) hi
              exact .item h3 hst fun items halt hr => by rw [hi]; simp only [h1, h2] at hr; exact .errorText hn hc h hr
          · have h : status ∉ [0x00, 0xFE, 0xFF] := by simp [h0, h1, h2]
            obtain ⟨ch, ⟨h1, h2⟩, h3⟩ := live_status (m := m) hn h hi
            exact .item h3 hst fun items halt hr => by rw [hi]; simp only [h1, h2] at hr; exact .status hn h hr
  · refine .item (live_broken hw) hst fun items halt hr => ?_
    unfold Channel.afterFailure at hr
    cases hl : s.channel.later with
    | nil => simp only [hl] at hr; exact .broken hw hr
    | cons x later => simp only [hl] at hr; exact .resumed hw hr

theorem live_sound {m : Mode} {s : BinlogEvents} (hst : ProperCache s.parser.tableMap) {items : List Item} {halt : Halt}
    (h : Iterates (BinlogEvents.next m) s items halt) : LiveRun m (s.channel.ending, s.channel.later) (knownOf s.parser) s.channel.input items halt := by
  induction h with
  | running => exact .running
  | @ended s h =>
    cases liveStep m s hst with
    | ended _ hr => exact hr
    | crash h' | loop h' => rw [h] at h'; cases h'
    | item h' => rw [h'] at h; cases h
  | @crash s h =>
    cases liveStep m s hst with
    | crash _ hr => exact hr
    | ended h' | loop h' => rw [h] at h'; cases h'
    | item h' => rw [h'] at h; cases h
  | @loop s h =>
    cases liveStep m s hst with
    | loop _ hr => exact hr
    | ended h' | crash h' => rw [h] at h'; cases h'
    | item h' => rw [h'] at h; cases h
  | @item s s' x items halt h _ ih =>
    cases liveStep m s hst with
    | ended h' | loop h' | crash h' => rw [h] at h'; cases h'
    | item h' hp hr =>
      rw [h] at h'
      cases h'
      exact hr _ _ (ih hp)

theorem live_complete {m : Mode} {f : Failures} {k : Learned} {bytes : Bytes} {items : List Item} {halt : Halt}
    (h : LiveRun m f k bytes items halt) (s : BinlogEvents) (hst : ProperCache s.parser.tableMap) (hk : k = knownOf s.parser)
    (hb : s.channel.input = bytes) (he : (s.channel.ending, s.channel.later) = f) :
    ∃ items', Iterates (BinlogEvents.next m) s items' halt ∧ List.Forall₂ SameItem items items' := by
  induction h generalizing s with
  | running => exact ⟨[], .running, .nil⟩
  | broken h _ ih =>
    obtain ⟨h1, h2⟩ := Prod.mk.inj he
    have ha : { s.channel with input := [] }.afterFailure = { s.channel with input := [] } := by unfold Channel.afterFailure; simp only [h2]
    obtain ⟨items', h3, h4⟩ := ih { s with channel := { s.channel with input := [] } } hst hk rfl he
    exact ⟨_, .item (ha ▸ live_broken (hb ▸ h)) h3, .cons (h1 ▸ .error) h4⟩
  | @resumed _ ending later _ _ bytes _ _ h _ ih =>
    obtain ⟨h1, h2⟩ := Prod.mk.inj he
    have ha : { s.channel with input := [] }.afterFailure = { s.channel with input := bytes, ending := ending, later := later } := by
      unfold Channel.afterFailure; simp only [h2]
    obtain ⟨items', h3, h4⟩ := ih { s with channel := { s.channel with input := bytes, ending := ending, later := later } } hst hk rfl rfl
    exact ⟨_, .item (ha ▸ live_broken (hb ▸ h)) h3, .cons (h1 ▸ .error) h4⟩
  | empty hn => exact ⟨[], .crash (live_empty hn hb), .nil⟩
  | eof hn => exact ⟨[], .ended (live_eof hn hb), .nil⟩
  | status hn h _ ih =>
    obtain ⟨ch, ⟨h1, h2⟩, h3⟩ := live_status (m := m) hn h hb
    obtain ⟨items', h4, h5⟩ := ih { s with channel := ch } hst hk h1 (h2.trans he)
    exact ⟨_, .item h3 h4, .cons .error h5⟩
  | error hn h _ ih =>
    obtain ⟨ch, ⟨h1, h2⟩, h3⟩ := live_error (m := m) hn (readError_loose h) hb
    obtain ⟨items', h4, h5⟩ := ih { s with channel := ch } hst hk h1 (h2.trans he)
    exact ⟨_, .item h3 h4, .cons .error h5⟩
  | errorShort hn h _ ih =>
    obtain ⟨ch, ⟨h1, h2⟩, h3⟩ := live_error (m := m) hn (readError_short h) hb
    obtain ⟨items', h4, h5⟩ := ih { s with channel := ch } hst hk h1 (h2.trans he)
    exact ⟨_, .item h3 h4, .cons .error h5⟩
  | errorText hn hc h _ ih =>
    obtain ⟨ch, ⟨h1, h2⟩, h3⟩ := live_error (m := m) hn (readError_text hc h) hb
    obtain ⟨items', h4, h5⟩ := ih { s with channel := ch } hst hk h1 (h2.trans he)
    exact ⟨_, .item h3 h4, .cons .error h5⟩
  | short hn h _ ih =>
    obtain ⟨ch, ⟨h1, h2⟩, h3⟩ := live_short (m := m) hn h hb
    obtain ⟨items', h4, h5⟩ := ih { s with channel := ch } hst hk h1 (h2.trans he)
    exact ⟨_, .item h3 h4, .cons .error h5⟩
  | event hn hf hs ha _ ih =>
    subst hk
    obtain ⟨ch, ⟨h1, h2⟩, h3⟩ := live_event (m := m) hn hf hb
    obtain ⟨ev', h, hsame⟩ := accepted_parse hst hs ha
    rw [h] at h3
    obtain ⟨items', h4, h5⟩ := ih ⟨ch, s.parser.record ev'⟩ (record_proper hst (by rw [h])) (by rw [known_same hsame, knownOf_record])
      h1 (h2.trans he)
    exact ⟨_, .item h3 h4, .cons (.ok hsame) h5⟩
  | refused hn hf hne h _ ih =>
    subst hk
    obtain ⟨ch, ⟨h1, h2⟩, h3⟩ := live_event (m := m) hn hf hb
    rw [refused_parse ((C87_error_iff hst hne).2 h) (by simp)] at h3
    obtain ⟨items', h4, h5⟩ := ih ⟨ch, s.parser⟩ hst rfl h1 (h2.trans he)
    exact ⟨_, .item h3 h4, .cons .error h5⟩
  | ends hn hf h _ ih =>
    subst hk
    obtain ⟨ch, ⟨h1, h2⟩, h3⟩ := live_event (m := m) hn hf hb
    rw [refused_parse ((C87_eof_iff hst).2 h) (by simp)] at h3
    obtain ⟨items', h4, h5⟩ := ih ⟨ch, s.parser⟩ hst rfl h1 (h2.trans he)
    exact ⟨_, .item h3 h4, .cons .error h5⟩
  | crash hn hf h =>
    subst hk
    obtain ⟨ch, ⟨h1, h2⟩, h3⟩ := live_event (m := m) hn hf hb
    rw [refused_parse ((C86_crash_iff hst).2 h) (by simp)] at h3
    exact ⟨[], .crash (by rw [h3]; rfl), .nil⟩
  | loop hn hf h =>
    subst hk
    obtain ⟨ch, ⟨h1, h2⟩, h3⟩ := live_event (m := m) hn hf hb
    rw [refused_parse ((C86_loop_iff (m := m) hst).2 h) (by simp)] at h3
    exact ⟨[], .loop (by rw [h3]; rfl), .nil⟩

/-- **C89.** What any number of calls of the live iterator gives is one of the runs of the bytes that arrive. -/
theorem C89_live_sound {m : Mode} {ch : Channel} {ck : ChecksumType} {items : List Item} {halt : Halt}
    (h : Iterates (BinlogEvents.next m) (BinlogEvents.new ch ck) items halt) : LiveRun m (ch.ending, ch.later) (.start ck) ch.input items halt :=
  live_sound (s := BinlogEvents.new ch ck) properCache_new h

/-- **C89.** Each run of the bytes that arrive is what calling it gives, up to the order of the servers in sets of previous GTIDs. -/
theorem C89_live_complete {m : Mode} {ch : Channel} {ck : ChecksumType} {items : List Item} {halt : Halt}
    (h : LiveRun m (ch.ending, ch.later) (.start ck) ch.input items halt) :
    ∃ items', Iterates (BinlogEvents.next m) (BinlogEvents.new ch ck) items' halt ∧ List.Forall₂ SameItem items items' :=
  live_complete h (BinlogEvents.new ch ck) properCache_new rfl rfl rfl

/-! ## Examples -/

/-- A rotation, one whose name is no text, and a commit of three bytes, which hides the commit behind it. -/
def exFile : Bytes := fileBytes [(⟨5, 4, 1, 28, 0, 0⟩, [4, 0, 0, 0, 0, 0, 0, 0, 97]), (⟨5, 4, 1, 28, 0, 0⟩, [4, 0, 0, 0, 0, 0, 0, 0, 0xFF]),
  (⟨0, 16, 1, 22, 0, 0⟩, [1, 2, 3]), (⟨0, 16, 1, 27, 0, 0⟩, [9, 0, 0, 0, 0, 0, 0, 0])]

theorem exFile_iterates (m : Mode) : Iterates (BinlogReader.next m) ⟨exFile.drop 4, EventParser.new, .unexpectedEof⟩
    [.ok (⟨5, 4, 1, 28, 0, 0⟩, .rotate ⟨['a'], 4⟩), .error (.io .invalidData)] .ended := by
  revert m
  rintro ⟨_ | _⟩ <;> exact .item (s' := ⟨exFile.drop 32, EventParser.new, .unexpectedEof⟩) (by decide +kernel)
    (.item (s' := ⟨exFile.drop 60, EventParser.new, .unexpectedEof⟩) (by decide +kernel) (.ended (by decide +kernel)))

example (m : Mode) : FileRun m (.start .none) (exFile.drop 4)
    [.ok (⟨5, 4, 1, 28, 0, 0⟩, .rotate ⟨['a'], 4⟩), .error (.io .invalidData)] .ended :=
  C88_file_sound (file := exFile) (by decide +kernel) (exFile_iterates m)

/-- An error packet, one of unknown status, then half a packet. -/
def exLive : Channel := ⟨frame [0xFF, 1, 0, 97] 1 ++ frame [7] 2 ++ [3, 0], .other 5, [], [], 0, [], []⟩

example (m : Mode) : LiveRun m (.other 5, []) (.start .crc32) exLive.input
    [.error (.server "Event stream error." 1 ['a'] none), .error (.str "Unknown network stream status"), .error (.io (.other 5)),
      .error (.io (.other 5))] .running := by
  have hw : ∀ bytes : Bytes, bytes.length < 4 → ¬WholePacket bytes := by
    rintro bytes h ⟨p, n, rest, _, rfl⟩
    simp [frame] at h
    omega
  have h1 : utf8Bytes ['a'] = [97] := by decide +kernel
  unfold exLive
  simp only
  rw [List.append_assoc]
  refine .error (error := ⟨1, ['a'], none⟩) (n := 1) (body := [1, 0, 97]) (by unfold Framable; decide) ?_
    (.status (n := 2) (status := 7) (body := []) (by unfold Framable; decide) (by decide)
      (.broken (hw _ (by decide)) (.broken (hw _ (by decide)) .running)))
  have := LooseError.unmarked (code := 1) (message := ['a']) (by decide) (by decide)
  rw [h1] at this
  exact this

end MysqlCdc
