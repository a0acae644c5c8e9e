import Verif.Props.Growing
import Verif.Props.Iteration
import Verif.Spec.FileCalls
/-!
# C106: any number of calls on a file that grows and whose reads may fail
-/

namespace MysqlCdc

open Spec

/-- A reader is used like this. -/
inductive ReaderHistory (m : Mode) : BinlogReader → List FileAct → Prop where
  | stop {r : BinlogReader} : ReaderHistory m r []
  | call {r r' : BinlogReader} {x : Option Item} {steps : List FileAct} (h : r.next m = (.ok x, r')) (hr : ReaderHistory m r' steps) :
      ReaderHistory m r (.call (.ok x) :: steps)
  | last {r : BinlogReader} {result : Res (Option Item)} (h : (r.next m).1 = result) : ReaderHistory m r [.call result]
  | write {r : BinlogReader} {more : Bytes} {steps : List FileAct} (hr : ReaderHistory m { r with stream := r.stream ++ more } steps) :
      ReaderHistory m r (.write more :: steps)
  | failing {r : BinlogReader} {failure : IoKind} {steps : List FileAct} (hr : ReaderHistory m { r with failure } steps) :
      ReaderHistory m r (.failing failure :: steps)

/-- What one call does. -/
theorem call_sound (m : Mode) (r : BinlogReader) (hst : ProperCache r.parser.tableMap) :
    FileCall m r.failure (knownOf r.parser) r.stream (r.next m).1 (knownOf (r.next m).2.parser) (r.next m).2.stream ∧
      ∀ x, (r.next m).1 = .ok x → (r.next m).2.failure = r.failure ∧ ProperCache (r.next m).2.parser.tableMap := by
  cases front r.stream with
  | incomplete h =>
    rw [reader_fails m r h]
    refine ⟨?_, fun x _ => ⟨rfl, hst⟩⟩
    by_cases hf : r.failure = .unexpectedEof
    · rw [if_pos hf]; exact .over h hf
    · rw [if_neg hf]; exact .fails h hf
  | length hf he h =>
    have hn := next_bad_length m r _ _ hf he h
    rw [hn]
    refine ⟨?_, fun x hx => by cases hx⟩
    rw [he]
    exact .length hf h
  | @record header slice rest hok he =>
    rw [he]
    cases event_fate m hst header slice with
    | @event ev body h hs ha =>
      rw [(next_parsed hok he h).1 ev rfl]
      refine ⟨?_, fun x _ => ⟨rfl, record_proper hst (by rw [h])⟩⟩
      rw [knownOf_record]
      exact .event hok hs ha
    | @refused err h hne hr =>
      rw [(next_parsed hok he h).2.2.1 err rfl hne]
      exact ⟨.refused hok hne hr, fun x _ => ⟨rfl, hst⟩⟩
    | ends h hr =>
      rw [(next_parsed hok he h).2.1 rfl]
      exact ⟨.ends hok hr, fun x _ => ⟨rfl, hst⟩⟩
    | crash h hr =>
      rw [(next_parsed hok he h).2.2.2.1 rfl]
      exact ⟨.crash hok hr, fun x hx => by cases hx⟩
    | loop h hr =>
      rw [(next_parsed hok he h).2.2.2.2 rfl]
      exact ⟨.loop hok hr, fun x hx => by cases hx⟩

/-- It does only that. -/
theorem call_complete {m : Mode} {r : BinlogReader} (hst : ProperCache r.parser.tableMap) {result : Res (Option Item)} {k : Learned} {rest : Bytes}
    (h : FileCall m r.failure (knownOf r.parser) r.stream result k rest) :
    SameResult result (r.next m).1 ∧ (∀ x, result = .ok x → knownOf (r.next m).2.parser = k ∧ (r.next m).2.stream = rest) := by
  generalize hb : r.stream = bytes at h
  cases h with
  | over h hf =>
    rw [next_incomplete m r hf (hb ▸ h)]
    exact ⟨.refl, fun _ _ => ⟨rfl, rfl⟩⟩
  | fails h hf =>
    rw [reader_fails m r (hb ▸ h), if_neg hf]
    exact ⟨.refl, fun _ _ => ⟨rfl, rfl⟩⟩
  | length hf h =>
    rw [next_bad_length m r _ _ hf hb h]
    exact ⟨.refl, fun _ hx => by cases hx⟩
  | event hok hs ha =>
    obtain ⟨ev', h, hsame⟩ := accepted_parse hst hs ha
    rw [(next_parsed hok hb h).1 _ rfl]
    exact ⟨.item (.ok hsame), fun _ _ => ⟨by rw [knownOf_record, known_same hsame], rfl⟩⟩
  | refused hok he h =>
    have h := refused_parse ((C87_error_iff hst he).2 h) (by simp)
    rw [(next_parsed hok hb h).2.2.1 _ rfl he]
    exact ⟨.refl, fun _ _ => ⟨rfl, rfl⟩⟩
  | ends hok h =>
    have h := refused_parse ((C87_eof_iff hst).2 h) (by simp)
    rw [(next_parsed hok hb h).2.1 rfl]
    exact ⟨.refl, fun _ _ => ⟨rfl, rfl⟩⟩
  | crash hok h =>
    have h := refused_parse ((C86_crash_iff hst).2 h) (by simp)
    rw [(next_parsed hok hb h).2.2.2.1 rfl]
    exact ⟨.refl, fun _ hx => by cases hx⟩
  | loop hok h =>
    have h := refused_parse ((C86_loop_iff (m := m) hst).2 h) (by simp)
    rw [(next_parsed hok hb h).2.2.2.2 rfl]
    exact ⟨.refl, fun _ hx => by cases hx⟩

theorem history_sound {m : Mode} {r : BinlogReader} (hst : ProperCache r.parser.tableMap) {acts : List FileAct} (h : ReaderHistory m r acts) :
    FileHistory m r.failure (knownOf r.parser) r.stream acts := by
  induction h with
  | stop => exact .stop
  | @call r r' x acts h _ ih =>
    obtain ⟨h1, h2⟩ := call_sound m r hst
    rw [h] at h1 h2
    obtain ⟨h3, h4⟩ := h2 x rfl
    have := ih h4
    simp only at h3
    rw [h3] at this
    exact .call h1 this
  | @last r result h => subst h; exact .last (call_sound m r hst).1
  | write _ ih => exact .write (ih hst)
  | failing _ ih => exact .failing (ih hst)

theorem history_complete {m : Mode} {failure : IoKind} {k : Learned} {bytes : Bytes} {acts : List FileAct}
    (h : FileHistory m failure k bytes acts) (r : BinlogReader) (hst : ProperCache r.parser.tableMap) (hf : r.failure = failure)
    (hk : knownOf r.parser = k) (hb : r.stream = bytes) : ∃ acts', ReaderHistory m r acts' ∧ List.Forall₂ SameAct acts acts' := by
  induction h generalizing r with
  | stop => exact ⟨[], .stop, .nil⟩
  | call h _ ih =>
    subst hf hk hb
    obtain ⟨h1, h2⟩ := call_complete hst h
    obtain ⟨h3, h4⟩ := h2 _ rfl
    obtain ⟨x', hx⟩ : ∃ x', (r.next m).1 = .ok x' := by
      revert h1
      generalize (r.next m).1 = res
      intro h1
      cases h1 with
      | item _ => exact ⟨_, rfl⟩
      | refl => exact ⟨_, rfl⟩
    obtain ⟨h5, h6⟩ := (call_sound m r hst).2 x' hx
    obtain ⟨acts', h7, h8⟩ := ih (r.next m).2 h6 h5 h3 h4
    exact ⟨_, .call (Prod.ext hx rfl) h7, .cons (.call (hx ▸ h1)) h8⟩
  | last h =>
    subst hf hk hb
    exact ⟨_, .last rfl, .cons (.call (call_complete hst h).1) .nil⟩
  | write _ ih =>
    obtain ⟨acts', h1, h2⟩ := ih { r with stream := r.stream ++ _ } hst hf hk (by rw [hb])
    exact ⟨_, .write h1, .cons .refl h2⟩
  | @failing _ failure' _ _ _ _ ih =>
    obtain ⟨acts', h1, h2⟩ := ih { r with failure := failure' } hst rfl hk hb
    exact ⟨_, .failing h1, .cons .refl h2⟩

/-- **C106.** Whatever is done with a reader, whatever is written to the file meanwhile, and however reads fail: what the calls give, also those
past the end and past errors, is one of the histories of the file. -/
theorem C106_sound {m : Mode} {file : Bytes} {failure : IoKind} {r : BinlogReader} (ho : BinlogReader.new file failure = .ok r) {acts : List FileAct}
    (h : ReaderHistory m r acts) : FileHistory m failure (.start .none) (file.drop 4) acts := by
  obtain ⟨h1, h2, h3⟩ := ((C88_open file failure).2.2 r).1 ho
  have := history_sound (by rw [h2]; exact properCache_new) h
  rw [h2, h3] at this
  rw [h1]
  exact this

/-- **C106.** Each history of the file is what comes about, up to the order of the servers in sets of previous GTIDs. -/
theorem C106_complete {m : Mode} {file : Bytes} {failure : IoKind} {r : BinlogReader} (ho : BinlogReader.new file failure = .ok r)
    {acts : List FileAct} (h : FileHistory m failure (.start .none) (file.drop 4) acts) :
    ∃ acts', ReaderHistory m r acts' ∧ List.Forall₂ SameAct acts acts' := by
  obtain ⟨h1, h2, h3⟩ := ((C88_open file failure).2.2 r).1 ho
  exact history_complete h r (by rw [h2]; exact properCache_new) h3 (by rw [h2]; rfl) (by rw [h1]; rfl)

/-- **C106.** A read that fails is never taken for the end of the file: the error is delivered, at each call, until reading works again. If it
failed between two events, the reader is left as it was. -/
theorem C106_failed_read (m : Mode) (r : BinlogReader) (hf : r.failure ≠ .unexpectedEof) (hs : Unfinished r.stream) :
    (r.next m).1 = .ok (some (.error (.io r.failure))) ∧ (r.stream = [] → (r.next m).2 = r) := by
  rw [reader_fails m r hs, if_neg hf]
  refine ⟨rfl, fun h => ?_⟩
  rw [← h]

/-! Example: a file with a rotation is read. Then the disk fails for a time, then there is nothing more, then a commit is written, in two
parts, with a call in between: the commit is lost. -/

def exHistory : List FileAct :=
  [.call (.ok (some (.ok (⟨5, 4, 1, 28, 0, 0⟩, .rotate ⟨['a'], 4⟩)))), .failing (.other 5), .call (.ok (some (.error (.io (.other 5))))),
    .call (.ok (some (.error (.io (.other 5))))), .failing .unexpectedEof, .call (.ok none), .write (headerBytes ⟨5, 16, 1, 27, 0, 0⟩ ++ [9, 0]),
    .call (.ok none), .write [0, 0, 0, 0, 0, 0], .call (.ok none)]

example (m : Mode) : ∃ r, BinlogReader.new (fileBytes (exRecords.take 1)) = .ok r ∧ ReaderHistory m r exHistory := by
  have h : ∀ m, BinlogReader.next m ⟨recordsBytes (exRecords.take 1), EventParser.new, .unexpectedEof⟩ =
      (.ok (some (.ok (⟨5, 4, 1, 28, 0, 0⟩, .rotate ⟨['a'], 4⟩))), ⟨[], EventParser.new, .unexpectedEof⟩) := by
    rintro ⟨_ | _⟩ <;> decide +kernel
  have h' : ∀ bytes failure, Unfinished bytes → BinlogReader.next m ⟨bytes, EventParser.new, failure⟩ =
      (.ok (if failure = .unexpectedEof then none else some (.error (.io failure))), ⟨[], EventParser.new, failure⟩) :=
    fun bytes failure h => reader_fails m ⟨bytes, EventParser.new, failure⟩ h
  exact ⟨_, rfl, .call (h m) (.failing (.call (h' _ _ (.inl (by decide))) (.call (h' _ _ (.inl (by decide))) (.failing (.call (h' _ _ (.inl (by decide)))
    (.write (.call (h' _ _ (.inr ⟨⟨5, 16, 1, 27, 0, 0⟩, [9, 0], by unfold HeaderFits; decide, rfl, by decide⟩))
      (.write (.last (by rw [h' _ _ (.inl (by decide))]; rfl))))))))))⟩

example : Unfinished (headerBytes ⟨5, 16, 1, 27, 0, 0⟩ ++ [9, 0]) ∧ IoKind.other 5 ≠ .unexpectedEof :=
  ⟨.inr ⟨⟨5, 16, 1, 27, 0, 0⟩, [9, 0], by unfold HeaderFits; decide, rfl, by decide⟩, by decide⟩

end MysqlCdc
