import Verif.Model.Client
import Verif.Props.Iteration
/-!
C101: reading on after a read that failed, for instance timed out.
-/

namespace MysqlCdc

open Spec

/-- The iterator with another connection. -/
def BinlogEvents.reading (s : BinlogEvents) (input : Bytes) (ending : IoKind) (later : List (Bytes × IoKind)) : BinlogEvents :=
  { s with channel := { s.channel with input, ending, later } }

theorem readEvent_channel (m : Mode) (ch ch' : Channel) (st : EventParser) (p : Bytes) :
    BinlogEvents.readEvent m ⟨ch, st⟩ p =
      ((BinlogEvents.readEvent m ⟨ch', st⟩ p).1, ⟨ch, (BinlogEvents.readEvent m ⟨ch', st⟩ p).2.parser⟩) := by
  unfold BinlogEvents.readEvent
  cases parseHeader.run (p.drop 1) with
  | ok header =>
    simp only
    rcases parseEvent m st header (p.drop (1 + EVENT_HEADER_SIZE)) with ⟨x, st'⟩
    cases x <;> rfl
  | _ => rfl

/-- A whole packet is handled without regard to what comes after it. -/
theorem next_whole (m : Mode) (s : BinlogEvents) {p : Bytes} {n : Nat} (hp : Framable (p, n)) :
    ∃ (r : Res (Option Item)) (s' : BinlogEvents), ∀ rest ending later,
      (s.reading (frame p n ++ rest) ending later).next m = (r, s'.reading rest ending later) := by
  refine ⟨((s.reading (frame p n) .unexpectedEof []).next m).1, ((s.reading (frame p n) .unexpectedEof []).next m).2,
    fun rest ending later => ?_⟩
  unfold BinlogEvents.next
  rw [readPacket_frame (s.reading (frame p n ++ rest) ending later).channel p rest n hp.1 hp.2 rfl,
    readPacket_frame (s.reading (frame p n) .unexpectedEof []).channel p [] n hp.1 hp.2 (by simp [BinlogEvents.reading])]
  cases p with
  | nil => rfl
  | cons b body =>
    simp only
    by_cases h0 : b = RESP_OK
    · rw [if_pos h0, if_pos h0]
      have h := fun ch ch' => readEvent_channel m ch ch' s.parser (b :: body)
      simp only [BinlogEvents.reading]
      rw [h { s.channel with input := rest, ending := ending, trace := s.channel.trace ++ [.received n (b :: body)], later := later } s.channel,
        h { s.channel with input := [], ending := .unexpectedEof, trace := s.channel.trace ++ [.received n (b :: body)], later := [] } s.channel]
    · rw [if_neg h0, if_neg h0]
      by_cases h1 : b = RESP_ERROR
      · rw [if_pos h1, if_pos h1]; rfl
      · rw [if_neg h1, if_neg h1]
        by_cases h2 : b = RESP_EOF
        · rw [if_pos h2, if_pos h2]; rfl
        · rw [if_neg h2, if_neg h2]; rfl

theorem next_fails (m : Mode) (s : BinlogEvents) {pre bytes : Bytes} {ending ending' : IoKind} {later : List (Bytes × IoKind)}
    (h : ¬WholePacket pre) : (s.reading pre ending ((bytes, ending') :: later)).next m =
      (.ok (some (.error (.io ending))), s.reading bytes ending' later) := by
  rw [live_broken h]
  rfl

/-- **C101.** Reading on after a failure, exactly. The connection delivers the packets `ps` and a part of another, or nothing (`pre`);
then a read fails, and after that `bytes` arrive. The items are those of the packets `ps`; then the failure; then, when the iterator is
called again, those of `bytes`, taken for the start of a packet. -/
theorem C101_exact (m : Mode) (s : BinlogEvents) (ps : List (Bytes × Nat)) (hp : ∀ x ∈ ps, Framable x) (pre bytes : Bytes)
    (hpre : ¬WholePacket pre) (ending ending' : IoKind) (later : List (Bytes × IoKind)) (items : List Item) (halt : Halt) :
    Iterates (BinlogEvents.next m) (s.reading (frames ps ++ pre) ending ((bytes, ending') :: later)) items halt ↔
      (items.length < ps.length ∨ items.length = ps.length ∧ halt = .running) ∧
        Iterates (BinlogEvents.next m) (s.reading (frames ps ++ bytes) ending' later) items halt ∨
      ∃ xs ys, items = xs ++ .error (.io ending) :: ys ∧ xs.length = ps.length ∧
        Iterates (BinlogEvents.next m) (s.reading (frames ps ++ bytes) ending' later) (xs ++ ys) halt := by
  induction ps generalizing s items with
  | nil =>
    simp only [frames, List.nil_append, List.length_nil, Nat.not_lt_zero, false_or, List.length_eq_zero_iff]
    constructor
    · intro h
      cases h with
      | running => exact .inl ⟨⟨rfl, rfl⟩, .running⟩
      | item h hr =>
        rw [next_fails m s hpre] at h
        cases h
        exact .inr ⟨[], _, rfl, rfl, hr⟩
      | _ h => rw [next_fails m s hpre] at h; cases h
    · rintro (⟨⟨rfl, rfl⟩, -⟩ | ⟨xs, ys, rfl, rfl, h⟩)
      · exact .running
      · exact .item (next_fails m s hpre) h
  | cons x ps ih =>
    obtain ⟨p, n⟩ := x
    obtain ⟨r, s', hn⟩ := next_whole m s (hp (p, n) (by simp))
    have ih := fun items => ih s' (fun x hx => hp x (by simp [hx])) items
    have e : ∀ rest, frames ((p, n) :: ps) ++ rest = frame p n ++ (frames ps ++ rest) := by intro rest; simp [frames]
    rw [e, e]
    constructor
    · intro h
      cases h with
      | running => exact .inl ⟨.inl (by simp), .running⟩
      | ended h => rw [hn] at h; exact .inl ⟨.inl (by simp), .ended (by rw [hn]; exact h)⟩
      | crash h => rw [hn] at h; exact .inl ⟨.inl (by simp), .crash (by rw [hn]; exact h)⟩
      | loop h => rw [hn] at h; exact .inl ⟨.inl (by simp), .loop (by rw [hn]; exact h)⟩
      | @item _ _ x items _ h hr =>
        rw [hn] at h
        cases h
        rcases (ih items).1 hr with ⟨h1, h2⟩ | ⟨xs, ys, rfl, h1, h2⟩
        · exact .inl ⟨by simpa using h1, .item (hn _ _ _) h2⟩
        · exact .inr ⟨x :: xs, ys, rfl, by simp [h1], .item (hn _ _ _) h2⟩
    · rintro (⟨h1, h⟩ | ⟨xs, ys, rfl, h1, h⟩)
      · cases h with
        | running => exact .running
        | ended h => rw [hn] at h; exact .ended (by rw [hn]; exact h)
        | crash h => rw [hn] at h; exact .crash (by rw [hn]; exact h)
        | loop h => rw [hn] at h; exact .loop (by rw [hn]; exact h)
        | item h hr =>
          rw [hn] at h
          cases h
          exact .item (hn _ _ _) ((ih _).2 (.inl ⟨by simpa using h1, hr⟩))
      · cases xs with
        | nil => simp at h1
        | cons x xs =>
          cases h with
          | item h hr =>
            rw [hn] at h
            cases h
            exact .item (hn _ _ _) ((ih _).2 (.inr ⟨xs, ys, rfl, by simpa using h1, hr⟩))

theorem not_whole_nil : ¬WholePacket [] := by
  rintro ⟨p, n, rest, -, h⟩
  have := congrArg List.length h
  simp [frame] at this
  omega

/-- The events among the items. -/
def eventsIn (items : List Item) : List (EventHeader × BinlogEvent) := items.filterMap Except.toOption

/-- **C101.** When reads fail only between packets, any number of times, the events delivered are those of the connection on which the
same packets arrive without a failure: none is lost, repeated or made up. -/
theorem C101_between_partial (m : Mode) (s : BinlogEvents) (ps : List (Bytes × Nat)) (hp : ∀ x ∈ ps, Framable x) (ending : IoKind)
    (more : List (List (Bytes × Nat) × IoKind)) (hm : ∀ x ∈ more, ∀ p ∈ x.1, Framable p) (items : List Item) (halt : Halt)
    (h : Iterates (BinlogEvents.next m) (s.reading (frames ps) ending (more.map fun x => (frames x.1, x.2))) items halt) :
    ∃ items' ending', Iterates (BinlogEvents.next m) (s.reading (frames (ps ++ more.flatMap Prod.fst)) ending' []) items' halt ∧
      eventsIn items = eventsIn items' := by
  induction more generalizing ps ending items with
  | nil => exact ⟨items, ending, by simpa using h, rfl⟩
  | cons x more ih =>
    obtain ⟨qs, ending'⟩ := x
    have hps : ∀ x ∈ ps ++ qs, Framable x := by
      intro x hx
      rcases List.mem_append.1 hx with hx | hx
      · exact hp x hx
      · exact hm (qs, ending') (by simp) x hx
    have hm' : ∀ x ∈ more, ∀ p ∈ x.1, Framable p := fun x hx => hm x (by simp [hx])
    rw [← List.append_nil (frames ps), List.map_cons] at h
    rcases (C101_exact m s ps hp [] (frames qs) not_whole_nil ending ending' _ items halt).1 h with ⟨-, h⟩ | ⟨xs, ys, rfl, -, h⟩
    · rw [← frames_append] at h
      obtain ⟨items', e, h1, h2⟩ := ih (ps ++ qs) hps ending' hm' items h
      exact ⟨items', e, by simpa using h1, h2⟩
    · rw [← frames_append] at h
      obtain ⟨items', e, h1, h2⟩ := ih (ps ++ qs) hps ending' hm' (xs ++ ys) h
      exact ⟨items', e, by simpa using h1, by rw [← h2]; simp only [eventsIn, List.filterMap_append]; rfl⟩

/-! ## In the middle of a packet -/

/-- What a statement text contains: a packet with a rotation to the file `b` at 7. -/
def exHidden : Bytes := frame (0x00 :: (headerBytes ⟨0, 4, 1, 28, 0, 0⟩ ++ [7, 0, 0, 0, 0, 0, 0, 0, 98])) 0

/-- The packet of the event with that statement text, up to the text. -/
def exCut : Bytes := le 3 54 ++ le 1 1 ++ 0x00 :: (headerBytes ⟨0, 29, 1, 53, 99, 0⟩ ++ [32])

/-- **C101** is false when a read fails in the middle of a packet. The server sends one packet, an event with the text of a statement. A
read times out after a part of it. When the iterator is called again, the text is taken for packets, and an event that the server never
sent is delivered; here a rotation, and committing it makes the client continue in another file. -/
theorem C101_false (m : Mode) : ∃ (s : BinlogEvents) (p : Bytes) (n : Nat) (pre post : Bytes) (header header' : EventHeader)
    (text name : RStr) (position : Nat),
    s.parser = EventParser.new ∧ Framable (p, n) ∧ pre ++ post = frame p n ∧
    Iterates (BinlogEvents.next m) (s.reading (pre ++ post) .unexpectedEof []) [.ok (header, .rowsQuery ⟨text⟩)] .running ∧
    Iterates (BinlogEvents.next m) (s.reading pre (.other 11) [(post, .unexpectedEof)])
      [.error (.io (.other 11)), .ok (header', .rotate ⟨name, position⟩)] .running ∧
    ∀ c : Client, ∃ c', c.commit m header' (.rotate ⟨name, position⟩) = .ok c' ∧ c'.options.binlog.filename = name ∧
      c'.options.binlog.position = position := by
  refine ⟨⟨⟨[], .unexpectedEof, [], [], 0, [], []⟩, EventParser.new⟩, 0x00 :: (headerBytes ⟨0, 29, 1, 53, 99, 0⟩ ++ 32 :: exHidden), 1,
    exCut, exHidden, ⟨0, 29, 1, 53, 99, 0⟩, ⟨0, 4, 1, 28, 0, 0⟩, exHidden.map fun b => Char.ofNat b.toNat, ['b'], 7, rfl, ?_, ?_,
    .item (Prod.ext ?_ rfl) .running, .item (Prod.ext ?_ rfl) (.item (Prod.ext ?_ rfl) .running), fun c => ?_⟩
  · unfold Framable; decide +kernel
  · decide +kernel
  · revert m; rintro ⟨_ | _⟩ <;> decide +kernel
  · revert m; rintro ⟨_ | _⟩ <;> decide +kernel
  · revert m; rintro ⟨_ | _⟩ <;> decide +kernel
  · unfold Client.commit Client.updateGtidPosition
    split <;> exact ⟨_, rfl, rfl, rfl⟩

/-- A server that sends an error packet, goes quiet for longer than the timeout, and then sends another. -/
def exQuiet : BinlogEvents := ⟨⟨[], .unexpectedEof, [], [], 0, [], []⟩, EventParser.new⟩

example (m : Mode) : (∀ x ∈ [([0xFF, 1, 0, 97], 1)], Framable x) ∧ ¬WholePacket [3, 0] ∧
    Iterates (BinlogEvents.next m) (exQuiet.reading (frames [([0xFF, 1, 0, 97], 1)] ++ [3, 0]) (.other 11) [(frame [7] 2, .unexpectedEof)])
      [.error (.server "Event stream error." 1 ['a'] none), .error (.io (.other 11)), .error (.str "Unknown network stream status")]
      .running := by
  refine ⟨by unfold Framable; decide, ?_, .item (Prod.ext ?_ rfl) (.item (Prod.ext ?_ rfl) (.item (Prod.ext ?_ rfl) .running))⟩
  · rintro ⟨p, n, rest, _, h⟩
    have := congrArg List.length h
    simp [frame] at this
    omega
  · revert m; rintro ⟨_ | _⟩ <;> decide +kernel
  · revert m; rintro ⟨_ | _⟩ <;> decide +kernel
  · revert m; rintro ⟨_ | _⟩ <;> decide +kernel

/-- Two events, and a quiet time between them. -/
example (m : Mode) : (∀ x ∈ [(0x00 :: (headerBytes ⟨5, 4, 1, 28, 0, 0⟩ ++ [4, 0, 0, 0, 0, 0, 0, 0, 97]), 1)], Framable x) ∧
    Iterates (BinlogEvents.next m) (exQuiet.reading (frames [(0x00 :: (headerBytes ⟨5, 4, 1, 28, 0, 0⟩ ++ [4, 0, 0, 0, 0, 0, 0, 0, 97]), 1)])
        (.other 11) ([([(0x00 :: (headerBytes ⟨5, 4, 1, 28, 0, 0⟩ ++ [7, 0, 0, 0, 0, 0, 0, 0, 98]), 2)], .unexpectedEof)].map
          fun x => (frames x.1, x.2)))
      [.ok (⟨5, 4, 1, 28, 0, 0⟩, .rotate ⟨['a'], 4⟩), .error (.io (.other 11)), .ok (⟨5, 4, 1, 28, 0, 0⟩, .rotate ⟨['b'], 7⟩)]
      .running := by
  refine ⟨by unfold Framable; decide +kernel,
    .item (Prod.ext ?_ rfl) (.item (Prod.ext ?_ rfl) (.item (Prod.ext ?_ rfl) .running))⟩
  · revert m; rintro ⟨_ | _⟩ <;> decide +kernel
  · revert m; rintro ⟨_ | _⟩ <;> decide +kernel
  · revert m; rintro ⟨_ | _⟩ <;> decide +kernel

end MysqlCdc
