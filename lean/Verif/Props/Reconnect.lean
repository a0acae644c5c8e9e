import Verif.Props.Log
/-!
# Reconnecting: exactly which logs keep row events decodable, C97
-/

namespace MysqlCdc

open Spec

/-! ## Every part of the log can be what the server has sent -/

/-- A server at the end of a file goes on to the next event, past empty files. -/
theorem serve_skip {log : Log} (hl : LogOk log) {calm : Prop} {p : Place} {real : List Ev} {e : Ev} {rest : List Ev} :
    ∀ {post pre : Log} {f : LogFile} {q : Place} {done todo sent : List Ev}, AtPlace log q pre f post done todo →
      Serve log calm p q sent real → todo ++ post.flatMap (·.events) = e :: rest →
      ∃ q' pre' f' post' done' todo' sent', AtPlace log q' pre' f' post' done' (e :: todo') ∧ Serve log calm p q' sent' real ∧
        todo' ++ post'.flatMap (·.events) = rest
  | post, pre, f, q, done, x :: todo, sent, ha, hs, h => by
    simp only [List.cons_append, List.cons.injEq] at h
    obtain ⟨rfl, h⟩ := h
    exact ⟨q, pre, f, post, done, todo, sent, ha, hs, h⟩
  | [], _, _, _, _, [], _, _, _, h => by simp at h
  | g :: post, pre, f, q, done, [], sent, ha, hs, h => by
    have hev : f.events = done := by rw [ha.events, List.append_nil]
    have hq : q = ⟨f.name, endOf 4 f.events⟩ := by
      cases q
      simp only [Place.mk.injEq]
      exact ⟨ha.name, by rw [hev]; exact ha.pos⟩
    subst hq
    have h1 := Serve.nextFile (h := ⟨0, 0, 0, 0, 0, 0⟩) ha.log hs
    have hlog : log = (pre ++ [f]) ++ g :: post := by rw [ha.log]; simp
    have h2 : AtPlace log ⟨g.name, 4⟩ (pre ++ [f]) g post [] g.events := ⟨hlog, rfl, rfl, rfl⟩
    exact serve_skip hl h2 h1 (by simpa using h)

/-- Whatever part of the log follows a place, the server may have sent exactly that part. -/
theorem serve_prefix {log : Log} (hl : LogOk log) (calm : Prop) {p : Place} (hv : Valid log p) (a : List Ev) :
    ∀ b, remaining log p = a ++ b → ∃ q sent, Serve log calm p q sent a ∧ Valid log q ∧ remaining log q = b := by
  induction a using List.reverseRecOn with
  | nil => exact fun b h => ⟨p, [], .start, hv, h⟩
  | append_singleton a e ih =>
    intro b h
    obtain ⟨q, sent, h1, h2, h3⟩ := ih (e :: b) (by rw [h]; simp)
    obtain ⟨pre, f, post, done, todo, ha⟩ := h2.at
    rw [ha.after hl] at h3
    obtain ⟨q', pre', f', post', done', todo', sent', ha', hs', hr'⟩ := serve_skip hl ha h1 h3
    have hs := hs'.event (e := e) ⟨f', by simp [ha'.log], ha'.name.symm, done', todo', ha'.events, ha'.pos⟩
    refine ⟨_, _, hs, ?_⟩
    by_cases hr : ∃ r, e.2 = .rotate r
    · obtain ⟨r, hr⟩ := hr
      obtain ⟨rfl, g, post2, rfl, hn, hp⟩ := hl.rotate pre' f' post' done' e todo' r ha'.log ha'.events hr
      have hlog : log = (pre' ++ [f']) ++ g :: post2 := by rw [ha'.log]; simp
      have hq : moved q' e = ⟨g.name, 4⟩ := by simp [moved, hr, hn, hp]
      have hat : AtPlace log (moved q' e) (pre' ++ [f']) g post2 [] g.events := by rw [hq]; exact ⟨hlog, rfl, rfl, rfl⟩
      refine ⟨hat.valid, ?_⟩
      rw [hat.after hl, ← hr']
      simp
    · have hq : moved q' e = ⟨q'.name, e.1.nextEventPosition⟩ := by
        unfold moved
        split
        · rename_i r h'; exact absurd ⟨r, h'⟩ hr
        · rfl
      have hat : AtPlace log (moved q' e) pre' f' post' (done' ++ [e]) todo' := by
        rw [hq]
        exact ⟨ha'.log, by rw [ha'.events]; simp, ha'.name, by rw [endOf_concat]⟩
      exact ⟨hat.valid, by rw [hat.after hl, hr']⟩

/-- Every list is something, followed by its last elements with a property, as many as there are. -/
theorem split_run {α : Type} (P : α → Prop) (l : List α) :
    ∃ a run, l = a ++ run ∧ (∀ x ∈ run, P x) ∧ ∀ x, a.getLast? = some x → ¬ P x := by
  induction l using List.reverseRecOn with
  | nil => exact ⟨[], [], rfl, by simp, by simp⟩
  | append_singleton l x ih =>
    by_cases hx : P x
    · obtain ⟨a, run, h1, h2, h3⟩ := ih
      refine ⟨a, run ++ [x], by rw [h1]; simp, ?_, h3⟩
      intro y hy
      rcases List.mem_append.1 hy with h | h
      · exact h2 y h
      · rw [List.mem_singleton.1 h]; exact hx
    · refine ⟨l ++ [x], [], by simp, by simp, ?_⟩
      intro y hy
      simp only [List.getLast?_concat, Option.some.injEq] at hy
      rw [← hy]; exact hx

/-- C97: a client that follows a log from some place, may be cut off after any event and connects again at the recorded place, gets
the table map of every row event first, wherever it is cut off, if and only if every row event of the log comes right behind table
maps one of which is its own. (No file of the log ends with a table map and the server sends no heartbeat right behind one, as in
C23.) -/
theorem C97_survives_iff (m : Mode) (log : Log) (hl : LogOk log) (hend : NoTrailingMap log) (c : Client)
    (hs : c.options.binlog.startingStrategy ≠ .fromGtid) (hv : Valid log (c.place log)) :
    (∀ q sent real c', Serve log True (c.place log) q sent real → commitAll m c sent = .ok c' →
      Preceded (remaining log (c'.place log))) ↔
    Decodable (remaining log (c.place log)) := by
  constructor
  · intro h a e b id h1 h2
    obtain ⟨a', run, h3, h4, h5⟩ := split_run (fun e : Ev => IsTableMap e.2) a
    obtain ⟨q, sent, h6, _, h7⟩ := serve_prefix hl True hv a' (run ++ e :: b) (by rw [h1, h3]; simp)
    obtain ⟨c', tms, front, i1, _, _, _, i5, i6, i7, _⟩ := session m hl (calm := True) (fun _ => hend) c hs hv h6
    have htms : tms = [] := by
      rcases List.eq_nil_or_concat tms with h | ⟨t, x, h⟩
      · exact h
      · exfalso
        refine h5 x ?_ (i6 x (by rw [h]; simp))
        rw [i7, h]
        simp [← List.append_assoc]
    have h8 := h q sent a' c' h6 i1 run e b id (by rw [i5, htms, h7]; rfl) h2
    exact ⟨a', run, h3, h4, h8⟩
  · intro h q sent real c' h1 h2
    obtain ⟨c'', h3, h4⟩ := C23_decodable_partial m log hl hend c hs hv h q sent real h1
    rw [h2, Res.ok.injEq] at h3
    subst h3
    exact preceded_of_decodable h4

/-- The hypotheses hold for the log with two row events behind one table map, and there it is not safe to be cut off. -/
example (m : Mode) : ¬ ∀ q sent real c', Serve exLog True (exFileClient.place exLog) q sent real →
    commitAll m exFileClient sent = .ok c' → Preceded (remaining exLog (c'.place exLog)) := by
  obtain ⟨sent, real, q, c', _, _, _, h1, h2, h3⟩ := C23_second_rows_event_false m
  exact fun h => h3 (h q sent real c' h1 h2)

/-- The second file of that log alone is safe. -/
example : Valid [exLog[1]] ⟨"bin.2".toList, 4⟩ := ⟨_, List.mem_cons_self, rfl, [], _, rfl, rfl⟩

end MysqlCdc
