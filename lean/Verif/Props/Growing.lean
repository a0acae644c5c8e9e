import Verif.Props.Reader
/-!
C102: following a binlog file while the server writes to it.

`read_exact` on a file asks for more until it has enough or is told that the file ends. What is written during a call is therefore
the same as written before it or after it, and it is enough to let the file grow between calls.
-/

namespace MysqlCdc

open Spec

/-- Calls of `next` on a file that grows: by `writes`, in this order, at any time. `results` are what the calls give. -/
inductive Follows (m : Mode) : BinlogReader → (writes : List Bytes) → (results : List (Option Item)) → BinlogReader → Prop where
  | stop {r : BinlogReader} : Follows m r [] [] r
  | call {r r1 r' : BinlogReader} {writes : List Bytes} {x : Option Item} {results : List (Option Item)} (h : r.next m = (.ok x, r1))
      (hr : Follows m r1 writes results r') : Follows m r writes (x :: results) r'
  | grow {r r' : BinlogReader} {bytes : Bytes} {writes : List Bytes} {results : List (Option Item)}
      (hr : Follows m { r with stream := r.stream ++ bytes } writes results r') : Follows m r (bytes :: writes) results r'

/-- A complete record is handled without regard to what comes after it. -/
theorem next_record_rest (m : Mode) (st : EventParser) {x : Record} (hok : RecordOk x) :
    ∃ res st', ∀ rest failure, BinlogReader.next m ⟨recordBytes x ++ rest, st, failure⟩ = (res, ⟨rest, st', failure⟩) := by
  obtain ⟨h, p⟩ := x
  have key := fun rest failure => next_record m ⟨recordBytes (h, p) ++ rest, st, failure⟩ h p rest hok rfl
  simp only at key
  revert key
  rcases parseEvent m st h p with ⟨x, st'⟩
  intro key
  cases x with
  | ok e => exact ⟨_, _, key⟩
  | panic => exact ⟨_, _, key⟩
  | hang => exact ⟨_, _, key⟩
  | err e =>
    cases e with
    | io k => cases k <;> exact ⟨_, _, key⟩
    | _ => exact ⟨_, _, key⟩

theorem recordsBytes_append (a b : List Record) : recordsBytes (a ++ b) = recordsBytes a ++ recordsBytes b := by
  induction a with
  | nil => rfl
  | cons x a ih => simp [recordsBytes, ih]

/-- **C102.** When the file holds whole events at every call, following it gives the same items as reading the complete file at once,
and leaves the same rest and the same decoder; only the reports that nothing is left come in addition. -/
theorem C102_whole_partial {m : Mode} {r r' : BinlogReader} {writes : List (List Record)} {results : List (Option Item)}
    (h : Follows m r (writes.map recordsBytes) results r') (hfl : r.failure = .unexpectedEof) (rs : List Record)
    (hs : r.stream = recordsBytes rs) (hok : ∀ x ∈ rs, RecordOk x) (hw : ∀ w ∈ writes, ∀ x ∈ w, RecordOk x) :
    ∃ results', Follows m { r with stream := recordsBytes (rs ++ writes.flatten) } [] results' r' ∧
      results.filterMap id = results'.filterMap id := by
  generalize hws : writes.map recordsBytes = ws at h
  induction h generalizing writes rs with
  | @stop r =>
    obtain rfl : writes = [] := by simpa using hws
    refine ⟨[], ?_, rfl⟩
    rw [List.flatten_nil, List.append_nil, ← hs]
    exact .stop
  | @call r r1 r' ws x results h hr ih =>
    cases rs with
    | nil =>
      rw [next_incomplete m r hfl (.inl (by simp [hs, recordsBytes]))] at h
      obtain ⟨rfl, rfl⟩ : none = x ∧ _ = r1 := by simpa using h
      obtain ⟨results', h1, h2⟩ := ih hfl [] rfl (by simp) hw hws
      exact ⟨results', h1, h2⟩
    | cons y rs =>
      obtain ⟨res, st', hn⟩ := next_record_rest m r.parser (hok y (by simp))
      have h0 : r.next m = (res, ⟨recordsBytes rs, st', r.failure⟩) := by
        rw [← hn, ← recordsBytes, ← hs]
      rw [h0] at h
      obtain ⟨rfl, rfl⟩ : res = .ok x ∧ _ = r1 := by simpa using h
      obtain ⟨results', h1, h2⟩ := ih hfl rs rfl (fun x hx => hok x (by simp [hx])) hw hws
      refine ⟨x :: results', .call ?_ h1, ?_⟩
      · simp only [List.cons_append, recordsBytes]
        exact hn _ _
      · cases x with
        | none => exact h2
        | some x => exact congrArg (x :: ·) h2
  | @grow r r' bytes ws results hr ih =>
    cases writes with
    | nil => simp at hws
    | cons w writes =>
      obtain ⟨rfl, rfl⟩ : recordsBytes w = bytes ∧ writes.map recordsBytes = ws := by simpa using hws
      obtain ⟨results', h1, h2⟩ := ih hfl (rs ++ w) (by simp [hs, recordsBytes_append])
        (by
          intro x hx
          rcases List.mem_append.1 hx with hx | hx
          · exact hok x hx
          · exact hw w (by simp) x hx)
        (fun w hw' => hw w (by simp [hw'])) rfl
      refine ⟨results', ?_, h2⟩
      simpa using h1

/-- **C102.** What happens otherwise. The file holds the records `rs` and the beginning of another, `pre`, when the reader is called once
more than there are records. That call reports the end, and `pre` is lost: whatever is written then, the reader is where it would be if
`pre` were not in the file. -/
theorem C102_cut_out {m : Mode} {st : EventParser} {rs : List Record} (hok : ∀ x ∈ rs, RecordOk x) {pre : Bytes} (hpre : Unfinished pre)
    {results : List (Option Item)} {r' : BinlogReader} (h : Follows m ⟨recordsBytes rs ++ pre, st, .unexpectedEof⟩ [] results r')
    (hl : results.length = rs.length + 1) :
    ∃ results', results = results' ++ [none] ∧
      ∀ bytes, Follows m ⟨recordsBytes rs ++ bytes, st, .unexpectedEof⟩ [] results' { r' with stream := r'.stream ++ bytes } := by
  induction rs generalizing st results with
  | nil =>
    cases h with
    | stop => simp at hl
    | @call _ _ _ _ _ results h hr =>
      rw [next_incomplete m ⟨recordsBytes [] ++ pre, st, _⟩ rfl hpre] at h
      cases h
      obtain rfl : results = [] := by simpa using hl
      cases hr
      exact ⟨[], rfl, fun bytes => .stop⟩
  | cons x rs ih =>
    obtain ⟨res, st', hn⟩ := next_record_rest m st (hok x (by simp))
    cases h with
    | stop => simp at hl
    | @call _ _ _ _ y results h hr =>
      rw [recordsBytes, List.append_assoc, hn] at h
      obtain ⟨rfl, rfl⟩ := Prod.mk.inj h
      obtain ⟨results', rfl, h2⟩ := ih (fun x hx => hok x (by simp [hx])) hr (by simpa using hl)
      refine ⟨y :: results', rfl, fun bytes => .call ?_ (h2 bytes)⟩
      rw [recordsBytes, List.append_assoc, hn]

/-- What a statement text contains: a record with a rotation to the file `b` at 7. -/
def exInside : Bytes := recordBytes (⟨0, 4, 1, 28, 0, 0⟩, [7, 0, 0, 0, 0, 0, 0, 0, 98])

/-- An event with that statement text. -/
def exStatement : Record := (⟨0, 29, 1, 48, 0, 0⟩, 28 :: exInside)

/-- **C102** is false when the reader is called while an event is written. The server writes one event, with the text of a statement, in
two parts, and the reader is called in between. Its next call takes the second part for an event: one that is not in the file. -/
theorem C102_false : ∃ (x : Record) (pre post : Bytes) (header : EventHeader) (text : RStr), RecordOk x ∧ pre ++ post = recordBytes x ∧
    ∀ m, (∃ r', Follows m ⟨[], EventParser.new, .unexpectedEof⟩ [pre ++ post] [some (.ok (x.1, .rowsQuery ⟨text⟩)), none] r') ∧
      ∃ r', Follows m ⟨[], EventParser.new, .unexpectedEof⟩ [pre, post] [none, some (.ok (header, .rotate ⟨['b'], 7⟩)), none] r' := by
  refine ⟨exStatement, headerBytes exStatement.1 ++ [28], exInside, ⟨0, 4, 1, 28, 0, 0⟩, exInside.map fun b => Char.ofNat b.toNat,
    ?_, by decide +kernel, fun m => ⟨⟨_, .grow (.call (r1 := ⟨[], EventParser.new, .unexpectedEof⟩) ?_ (.call (r1 := ⟨[], EventParser.new, .unexpectedEof⟩) ?_ .stop))⟩,
      _, .grow (.call (r1 := ⟨[], EventParser.new, .unexpectedEof⟩) ?_ (.grow (.call (r1 := ⟨[], EventParser.new, .unexpectedEof⟩) ?_
        (.call (r1 := ⟨[], EventParser.new, .unexpectedEof⟩) ?_ .stop))))⟩⟩
  · unfold RecordOk HeaderFits; decide +kernel
  all_goals revert m; rintro ⟨_ | _⟩ <;> decide +kernel

/-! Examples: a rotation and a commit, written one after the other; then, the commit written in two parts. -/

example (m : Mode) : ∃ r', Follows m ⟨[], EventParser.new, .unexpectedEof⟩ ((exRecords.map fun x => [x]).map recordsBytes)
    [some (.ok (⟨5, 4, 1, 28, 0, 0⟩, .rotate ⟨['a'], 4⟩)), none, some (.ok (⟨5, 16, 1, 27, 0, 0⟩, .xid ⟨9⟩))] r' := by
  refine ⟨_, .grow (.call (Prod.ext ?_ rfl) (.call (Prod.ext ?_ rfl) (.grow (.call (Prod.ext ?_ rfl) .stop))))⟩
  all_goals revert m; rintro ⟨_ | _⟩ <;> decide +kernel

example : Unfinished (headerBytes ⟨5, 16, 1, 27, 0, 0⟩ ++ [9, 0]) :=
  .inr ⟨⟨5, 16, 1, 27, 0, 0⟩, [9, 0], by unfold HeaderFits; decide, rfl, by decide⟩

example (m : Mode) : ∃ r', Follows m ⟨recordsBytes (exRecords.take 1) ++ (headerBytes ⟨5, 16, 1, 27, 0, 0⟩ ++ [9, 0]), EventParser.new, .unexpectedEof⟩ []
    [some (.ok (⟨5, 4, 1, 28, 0, 0⟩, .rotate ⟨['a'], 4⟩)), none] r' := by
  refine ⟨_, .call (Prod.ext ?_ rfl) (.call (Prod.ext ?_ rfl) .stop)⟩
  all_goals revert m; rintro ⟨_ | _⟩ <;> decide +kernel

end MysqlCdc
