import Verif.Spec.LaggingFile
import Verif.Props.Keyed
import Verif.Props.CatchUpFile
/-!
# C139: an application whose commits lag behind what it has applied, by file and position
-/

namespace MysqlCdc

open Spec

/-- As `FileSessions`; `got` are the events of the log that the application has taken, session by session, but what it has committed of them, when a session
ends, are some first ones. The program may also be stopped, or killed, and started again with the file and position that were recorded. -/
inductive LaggingFile (m : Mode) (crypto : Crypto) (log : Log) : Client → (got : List (List Ev)) → Client → Prop where
  | stop {c : Client} : LaggingFile m crypto log c [] c
  | failed {c c' : Client} {got : List (List Ev)} {net : Except IoKind Channel}
      (h : LaggingFile m crypto log (c.replicate m crypto net).2 got c') : LaggingFile m crypto log c got c'
  | again {c c1 c' : Client} {got : List (List Ev)} {o : ReplicaOptions}
      (hbinlog : o.binlog = .fromPosition c.options.binlog.filename c.options.binlog.position) (hnew : Client.new o = .ok c1)
      (h : LaggingFile m crypto log c1 got c') : LaggingFile m crypto log c got c'
  | session {c c1 c2 c' : Client} {real : List Ev} {got : List (List Ev)} {chan : Channel} {stream : BinlogEvents} {taken committed : List Ev}
      (hf : FitsRequests c.options) (hr : c.replicate m crypto (.ok chan) = (.ok stream, c1)) (hs : FileSession m log stream taken real)
      (hpre : committed <+: taken) (hc : commitAll m c1 committed = .ok c2) (h : LaggingFile m crypto log c2 got c') :
      LaggingFile m crypto log c (real :: got) c'

/-- A client made with the recorded file and position asks for the same place. -/
theorem restarted_at (log : Log) {c c1 : Client} {o : ReplicaOptions} (hbinlog : o.binlog = .fromPosition c.options.binlog.filename c.options.binlog.position)
    (hnew : Client.new o = .ok c1) :
    c1.options.binlog.startingStrategy ≠ .fromGtid ∧ ¬wantsEnd c1.options ∧ c1.place log = c.place log := by
  have h1 := client_new_ok hnew
  refine ⟨by rw [h1, hbinlog]; simp [BinlogOptions.fromPosition], fun h => ?_, by unfold Client.place; rw [h1, hbinlog]; rfl⟩
  rw [wantsEnd, h1, hbinlog] at h
  exact absurd h.1 (by simp [BinlogOptions.fromPosition])

/-- One session: some first events of those that the application has taken, `front`, do not come again; table maps that were committed last may. -/
theorem lagging_step {m : Mode} {crypto : Crypto} {log : Log} (hl : LogOk log) {c c1 c2 : Client} {real : List Ev} {chan : Channel}
    {stream : BinlogEvents} {taken committed : List Ev} (hs : c.options.binlog.startingStrategy ≠ .fromGtid) (hk : ¬wantsEnd c.options)
    (hv : Valid log (c.place log)) (hf : FitsRequests c.options) (hr : c.replicate m crypto (.ok chan) = (.ok stream, c1))
    (hsess : FileSession m log stream taken real) (hpre : committed <+: taken) (hc : commitAll m c1 committed = .ok c2) :
    c2.options.binlog.startingStrategy ≠ .fromGtid ∧ ¬wantsEnd c2.options ∧ Valid log (c2.place log) ∧
      ∃ front more rest, real = front ++ more ∧ remaining log (c.place log) = front ++ more ++ rest ∧ remaining log (c2.place log) = more ++ rest := by
  obtain ⟨⟨q, hserve⟩, -⟩ := hsess.serve hs hk hf hr
  obtain ⟨q', real', hserve', hpre', -⟩ := serve_take hserve committed.length
  rw [← List.prefix_iff_eq_take.1 hpre] at hserve'
  obtain ⟨h1, h2, h3, -, tms, front, h4, h5, -, h7⟩ := served_step hl hs hk hv hr hserve' hc
  have hopt := replicate_keeps_options m crypto c (.ok chan) (not_and_or.1 hk)
  rw [hr] at hopt
  obtain ⟨c3, hc3, -⟩ := commitAll_ok m c1 (by rw [show c1.options = c.options from hopt]; exact hs) taken
  obtain ⟨-, -, -, -, -, -, g4, -⟩ := served_step hl hs hk hv hr hserve hc3
  obtain ⟨more, rfl⟩ := hpre'
  subst h7
  refine ⟨h1, h2, h3, front, tms ++ more, remaining log q, by simp, by rw [g4]; simp, ?_⟩
  rw [g4, List.append_assoc (front ++ tms)] at h4
  rw [h5, ← List.append_cancel_left h4, List.append_assoc]

/-- **C139.** Replication by file and position, over any number of sessions, restarts from the recorded place and failed attempts, with an application whose
commits lag behind: when a session
ends, it has committed any first part of what it has taken. It gets the events that it has not committed again, in order and without leaving one out (table
maps are left out of the count): what it takes are runs, each of which begins at the first event that is not recorded. -/
theorem C139_again {m : Mode} {crypto : Crypto} {log : Log} (hl : LogOk log) {c c' : Client} {got : List (List Ev)}
    (hs : c.options.binlog.startingStrategy ≠ .fromGtid) (hk : ¬wantsEnd c.options) (hv : Valid log (c.place log))
    (h : LaggingFile m crypto log c got c') :
    Redelivered (noMaps (remaining log (c.place log))) (got.map noMaps) (noMaps (remaining log (c'.place log))) ∧
      ∃ done, noMaps (remaining log (c.place log)) = done ++ noMaps (remaining log (c'.place log)) ∧ ∀ e ∈ done, e ∈ got.flatten := by
  have key : Redelivered (noMaps (remaining log (c.place log))) (got.map noMaps) (noMaps (remaining log (c'.place log))) := by
    induction h with
    | stop => exact .stop
    | @failed c c' got net h ih =>
      have hopt := replicate_keeps_options m crypto c net (not_and_or.1 hk)
      have hpl : (c.replicate m crypto net).2.place log = c.place log := by unfold Client.place; rw [hopt]
      rw [← hpl]
      exact ih (by rw [hopt]; exact hs) (by rw [hopt]; exact hk) (by rw [hpl]; exact hv)
    | @again c c1 c' got o hbinlog hnew h ih =>
      obtain ⟨e1, e2, e3⟩ := restarted_at log hbinlog hnew
      rw [← e3]
      exact ih e1 e2 (by rw [e3]; exact hv)
    | @session c c1 c2 c' real got chan stream taken committed hf hr hsess hpre hc h ih =>
      obtain ⟨h1, h2, h3, front, more, rest, rfl, h4, h5⟩ := lagging_step hl hs hk hv hf hr hsess hpre hc
      have := ih h1 h2 h3
      rw [h5, noMaps_append] at this
      rw [h4, List.map_cons, noMaps_append, noMaps_append]
      exact .run this
  refine ⟨key, ?_⟩
  obtain ⟨done, h1, h2⟩ := key.given
  refine ⟨done, h1, fun e he => ?_⟩
  obtain ⟨l, h3, h4⟩ := List.mem_flatten.1 (h2 e he)
  obtain ⟨l', h5, rfl⟩ := List.mem_map.1 h3
  exact List.mem_flatten.2 ⟨l', h5, List.mem_of_mem_filter h4⟩

/-! ## What events say of rows -/

theorem changesOf_append (names : Nat → Option TableName) (a b : List Ev) :
    changesOf names (a ++ b) = changesOf names a ++ changesOf (namesAfter names a) b := by
  induction a generalizing names with
  | nil => rfl
  | cons e a ih =>
    obtain ⟨h, e⟩ := e
    cases e <;> simp [changesOf, namesAfter, ih]

theorem changesEach_append (names : Nat → Option TableName) (a b : List Ev) :
    changesEach names (a ++ b) = changesEach names a ++ changesEach (namesAfter names a) b := by
  induction a generalizing names with
  | nil => rfl
  | cons e a ih =>
    obtain ⟨h, e⟩ := e
    cases e <;> simp [changesEach, namesAfter, ih]

theorem namesAfter_append (names : Nat → Option TableName) (a b : List Ev) : namesAfter names (a ++ b) = namesAfter (namesAfter names a) b := by
  induction a generalizing names with
  | nil => rfl
  | cons e a ih =>
    obtain ⟨h, e⟩ := e
    cases e <;> simp [namesAfter, ih]

theorem changesEach_flatten (names : Nat → Option TableName) (es : List Ev) : (changesEach names es).flatten = changesOf names es := by
  induction es generalizing names with
  | nil => rfl
  | cons e es ih =>
    obtain ⟨h, e⟩ := e
    cases e <;> simp [changesEach, changesOf, ih]

/-- Some first ones of what events say are what some first events say. -/
theorem changesEach_prefix {names : Nat → Option TableName} {es : List Ev} {first : List (List (TableName × RowChange))}
    (h : first <+: changesEach names es) : ∃ es1, es1 <+: es ∧ changesEach names es1 = first := by
  induction es generalizing names first with
  | nil =>
    have h' : first = [] := List.prefix_nil.1 h
    exact ⟨[], List.prefix_rfl, h'.symm⟩
  | cons e es ih =>
    obtain ⟨hd, e⟩ := e
    have other : (∀ es, changesEach names ((hd, e) :: es) = changesOf names [(hd, e)] :: changesEach names es) →
        ∃ es1, es1 <+: (hd, e) :: es ∧ changesEach names es1 = first := by
      intro hx
      rw [hx] at h
      cases first with
      | nil => exact ⟨[], List.nil_prefix, rfl⟩
      | cons x first =>
        rw [List.cons_prefix_cons] at h
        obtain ⟨rfl, h⟩ := h
        obtain ⟨es1, h1, h2⟩ := ih h
        exact ⟨(hd, e) :: es1, (List.cons_prefix_cons).2 ⟨rfl, h1⟩, by rw [hx, h2]⟩
    cases e with
    | tableMap t =>
      obtain ⟨es1, h1, h2⟩ := ih h
      exact ⟨_ :: es1, (List.cons_prefix_cons).2 ⟨rfl, h1⟩, h2⟩
    | _ => exact other fun _ => rfl

/-- Each row event comes behind a table map of its table. -/
def Announced (es : List Ev) : Prop := ∀ a e b id, es = a ++ e :: b → RowsOf id e.2 → ∃ t ∈ a, Maps id t.2

/-- Then it does not matter what the numbers stood for before. -/
theorem changesEach_names {names names' : Nat → Option TableName} {es : List Ev}
    (h : ∀ a e b id, es = a ++ e :: b → RowsOf id e.2 → names id = names' id ∨ ∃ t ∈ a, Maps id t.2) : changesEach names es = changesEach names' es := by
  induction es generalizing names names' with
  | nil => rfl
  | cons x es ih =>
    have tail : (∀ id, ¬Maps id x.2) → changesEach names es = changesEach names' es := by
      intro hx
      refine ih fun a e b id he hr => ?_
      rcases h (x :: a) e b id (by rw [he]; rfl) hr with h1 | ⟨t, ht, hm⟩
      · exact .inl h1
      · rcases List.mem_cons.1 ht with rfl | ht
        · exact absurd hm (hx id)
        · exact .inr ⟨t, ht, hm⟩
    have here : ∀ id, RowsOf id x.2 → names id = names' id := by
      intro id hr
      rcases h [] x es id rfl hr with h1 | ⟨t, ht, -⟩
      · exact h1
      · cases ht
    obtain ⟨hd, x⟩ := x
    cases x with
    | tableMap t =>
      refine ih fun a e b id he hr => ?_
      rcases h ((hd, .tableMap t) :: a) e b id (by rw [he]; rfl) hr with h1 | ⟨u, hu, hm⟩
      · exact .inl (by simp only [h1])
      · rcases List.mem_cons.1 hu with rfl | hu
        · have hm : t.tableId = id := hm
          exact .inl (by simp [hm])
        · exact .inr ⟨u, hu, hm⟩
    | writeRows e => simp only [changesEach, changesOf, tail (fun _ h => h), here e.tableId rfl]
    | deleteRows e => simp only [changesEach, changesOf, tail (fun _ h => h), here e.tableId rfl]
    | updateRows e => simp only [changesEach, changesOf, tail (fun _ h => h), here e.tableId rfl]
    | _ => simp only [changesEach, changesOf, tail (fun _ h => h)]

theorem Announced.names {es : List Ev} (h : Announced es) (names names' : Nat → Option TableName) : changesEach names es = changesEach names' es :=
  changesEach_names fun a e b id he hr => .inr (h a e b id he hr)

theorem Announced.prefix {es es' : List Ev} (h : Announced es) (hp : es' <+: es) : Announced es' := by
  obtain ⟨tail, rfl⟩ := hp
  intro a e b id he hr
  exact h a e (b ++ tail) id (by rw [he]; simp) hr

theorem announced_snoc {es : List Ev} {e : Ev} : Announced (es ++ [e]) ↔ Announced es ∧ ∀ id, RowsOf id e.2 → ∃ t ∈ es, Maps id t.2 := by
  refine ⟨fun h => ⟨h.prefix (List.prefix_append _ _), fun id hr => h es e [] id rfl hr⟩, fun ⟨h1, h2⟩ a x b id he hr => ?_⟩
  rcases List.eq_nil_or_concat b with rfl | ⟨b', y, rfl⟩
  · obtain ⟨rfl, hx⟩ := List.append_inj' he rfl
    obtain rfl : e = x := by simpa using hx
    exact h2 id hr
  · rw [List.concat_eq_append, ← List.cons_append, ← List.append_assoc] at he
    obtain ⟨rfl, -⟩ := List.append_inj' he rfl
    exact h1 a x b' id rfl hr

/-- What a server writes. -/
theorem logOf_announced {es : List Ev} {slices : List Bytes} {st st' : LogState} (h : LogOf st es slices st') :
    ∀ a e b id, es = a ++ e :: b → RowsOf id e.2 → (st.columns id).isSome = true ∨ ∃ t ∈ a, Maps id t.2 := by
  induction h with
  | nil => intro a e b id he; simp at he
  | @cons st st1 st2 x slice es slices _ hw _ ih =>
    intro a e b id he hr
    cases a with
    | nil =>
      obtain ⟨rfl, -⟩ := List.cons.inj he
      cases hw with
      | @plain hd e body slice hb =>
        generalize hd.eventType = code at hb
        cases hb <;> exact hr.elim
      | @maria hd e body slice hb =>
        generalize hd.eventType = code at hb
        cases hb <;> exact hr.elim
      | writeRows _ hc => exact .inl (by rw [← show _ = id from hr, hc]; rfl)
      | deleteRows _ hc => exact .inl (by rw [← show _ = id from hr, hc]; rfl)
      | updateRows _ hc => exact .inl (by rw [← show _ = id from hr, hc]; rfl)
      | _ => exact hr.elim
    | cons y a =>
      rw [List.cons_append, List.cons.injEq] at he
      obtain ⟨rfl, he⟩ := he
      rcases ih a e b id he hr with h1 | ⟨t, ht, hm⟩
      · have same : st1.columns = st.columns → _ := fun h' => (.inl (h' ▸ h1) : (st.columns id).isSome = true ∨ ∃ t ∈ x :: a, Maps id t.2)
        cases hw with
        | @tableMap hd tableId =>
          by_cases hid : tableId = id
          · exact .inr ⟨_, List.mem_cons_self, hid⟩
          · refine .inl ?_
            simpa [LogState.announce, Ne.symm hid] using h1
        | _ => exact same rfl
      · exact .inr ⟨t, List.mem_cons_of_mem _ ht, hm⟩

/-- What the server adds to the events of its log says nothing of rows. -/
theorem serve_changes {log : Log} {p q : Place} {taken real : List Ev} (h : Serve log False p q taken real)
    (hq : ∀ e ∈ taken, e.1.nextEventPosition = 0 → NoRows e.2) (ha : Announced taken) :
    (∀ names, changesOf names taken = changesOf names real ∧ namesAfter names taken = namesAfter names real) ∧ Announced real ∧
      ∀ t ∈ taken, ∀ id, Maps id t.2 → t ∈ real := by
  have quiet : ∀ {e : Ev}, NoRows e.2 → ∀ names, changesOf names [e] = [] ∧ namesAfter names [e] = names := by
    rintro ⟨h, e⟩ he names
    cases e <;> first | exact ⟨rfl, rfl⟩ | exact he.elim
  have add : ∀ {sent real : List Ev} {e : Ev}, (∀ x ∈ sent ++ [e], x.1.nextEventPosition = 0 → NoRows x.2) → Announced (sent ++ [e]) → NoRows e.2 →
      ((∀ x ∈ sent, x.1.nextEventPosition = 0 → NoRows x.2) → Announced sent →
        (∀ names, changesOf names sent = changesOf names real ∧ namesAfter names sent = namesAfter names real) ∧ Announced real ∧
          ∀ t ∈ sent, ∀ id, Maps id t.2 → t ∈ real) →
      (∀ names, changesOf names (sent ++ [e]) = changesOf names real ∧ namesAfter names (sent ++ [e]) = namesAfter names real) ∧ Announced real ∧
        ∀ t ∈ sent ++ [e], ∀ id, Maps id t.2 → t ∈ real := by
    intro sent real e hq ha he ih
    obtain ⟨h1, h2, h3⟩ := ih (fun x hx => hq x (by simp [hx])) (announced_snoc.1 ha).1
    refine ⟨fun names => ?_, h2, fun t ht id hm => ?_⟩
    · rw [changesOf_append, namesAfter_append, (quiet he _).1, (quiet he _).2, List.append_nil]
      exact h1 names
    · rcases List.mem_append.1 ht with ht | ht
      · exact h3 t ht id hm
      · obtain rfl := List.mem_singleton.1 ht
        obtain ⟨h, t⟩ := t
        cases t <;> first | exact hm.elim | exact he.elim
  induction h with
  | start => exact ⟨fun _ => ⟨rfl, rfl⟩, ha, fun t ht => by cases ht⟩
  | @event q sent real e _ _ ih =>
    obtain ⟨ha1, ha2⟩ := announced_snoc.1 ha
    obtain ⟨h1, h2, h3⟩ := ih (fun x hx => hq x (by simp [hx])) ha1
    refine ⟨fun names => ?_, announced_snoc.2 ⟨h2, fun id hr => ?_⟩, fun t ht id hm => ?_⟩
    · rw [changesOf_append, namesAfter_append, changesOf_append, namesAfter_append, (h1 names).1, (h1 names).2]
      exact ⟨rfl, rfl⟩
    · obtain ⟨t, ht, hm⟩ := ha2 id hr
      exact ⟨t, h3 t ht id hm, hm⟩
    · rcases List.mem_append.1 ht with ht | ht
      · exact List.mem_append_left _ (h3 t ht id hm)
      · exact List.mem_append_right _ ht
  | artificial _ h0 _ ih => exact add hq ha (hq _ (by simp) h0) ih
  | heartbeat _ _ _ ih => exact add hq ha trivial ih
  | announce _ _ ih => exact add hq ha trivial ih
  | nextFile _ _ ih => exact add hq ha trivial ih

/-! ## A copy by keys -/

variable {κ : Type} [DecidableEq κ]

/-- As `LaggingFile`, with a copy of the tables by keys: the application does to it what the events say that it takes. The names that the tables' numbers stand
for it takes from the table maps of the session. The artificial events of a server do not speak of rows. -/
inductive LaggingKeyed (m : Mode) (crypto : Crypto) (log : Log) (key : TableName → Cells → κ) : Client → Keyed κ → Client → Keyed κ → Prop where
  | stop {c : Client} {data : Keyed κ} : LaggingKeyed m crypto log key c data c data
  | failed {c c' : Client} {data data' : Keyed κ} {net : Except IoKind Channel}
      (h : LaggingKeyed m crypto log key (c.replicate m crypto net).2 data c' data') : LaggingKeyed m crypto log key c data c' data'
  | again {c c1 c' : Client} {data data' : Keyed κ} {o : ReplicaOptions}
      (hbinlog : o.binlog = .fromPosition c.options.binlog.filename c.options.binlog.position) (hnew : Client.new o = .ok c1)
      (h : LaggingKeyed m crypto log key c1 data c' data') : LaggingKeyed m crypto log key c data c' data'
  | session {c c1 c2 c' : Client} {data data' : Keyed κ} {real : List Ev} {chan : Channel} {stream : BinlogEvents} {taken committed : List Ev}
      (hf : FitsRequests c.options) (hr : c.replicate m crypto (.ok chan) = (.ok stream, c1)) (hs : FileSession m log stream taken real)
      (hq : ∀ e ∈ taken, e.1.nextEventPosition = 0 → NoRows e.2) (hpre : committed <+: taken) (hc : commitAll m c1 committed = .ok c2)
      (h : LaggingKeyed m crypto log key c2 (keyedTransaction key data taken) c' data') : LaggingKeyed m crypto log key c data c' data'

/-- What the events of one session do to the copy. -/
theorem keyed_session (key : TableName → Cells → κ) {log : Log} {p q : Place} {taken real : List Ev} (h : Serve log False p q taken real)
    (hq : ∀ e ∈ taken, e.1.nextEventPosition = 0 → NoRows e.2) (ha : Announced taken) (names : Nat → Option TableName) (data : Keyed κ) :
    keyedTransaction key data taken = (changesEach names real).foldl (fun d cs => cs.foldl (onKeys key) d) data := by
  obtain ⟨h1, h2, -⟩ := serve_changes h hq ha
  rw [← List.foldl_flatten, h2.names names (fun _ => none), changesEach_flatten, ← (h1 _).1]
  rfl

/-- What the sessions do. -/
theorem LaggingKeyed.runs {m : Mode} {crypto : Crypto} {log : Log} (hl : LogOk log) {key : TableName → Cells → κ} {c c' : Client} {data data' : Keyed κ}
    (hs : c.options.binlog.startingStrategy ≠ .fromGtid) (hk : ¬wantsEnd c.options) (hv : Valid log (c.place log))
    (h : LaggingKeyed m crypto log key c data c' data') {names : Nat → Option TableName} :
    (c'.options.binlog.startingStrategy ≠ .fromGtid ∧ ¬wantsEnd c'.options ∧ Valid log (c'.place log)) ∧
    ∃ done runs, remaining log (c.place log) = done ++ remaining log (c'.place log) ∧
      Redelivered (changesEach names (remaining log (c.place log))) runs (changesEach (namesAfter names done) (remaining log (c'.place log))) ∧
      data' = runs.flatten.foldl (fun d cs => cs.foldl (onKeys key) d) data := by
  induction h generalizing names with
  | stop => exact ⟨⟨hs, hk, hv⟩, [], [], rfl, .stop, rfl⟩
  | @failed c c' data data' net h ih =>
    have hopt := replicate_keeps_options m crypto c net (not_and_or.1 hk)
    have hpl : (c.replicate m crypto net).2.place log = c.place log := by unfold Client.place; rw [hopt]
    have := ih (by rw [hopt]; exact hs) (by rw [hopt]; exact hk) (by rw [hpl]; exact hv) (names := names)
    rw [hpl] at this
    exact this
  | @again c c1 c' data data' o hbinlog hnew h ih =>
    obtain ⟨e1, e2, e3⟩ := restarted_at log hbinlog hnew
    have := ih e1 e2 (by rw [e3]; exact hv) (names := names)
    rw [e3] at this
    exact this
  | @session c c1 c2 c' data data' real chan stream taken committed hf hr hsess hq hpre hc h ih =>
    obtain ⟨h1, h2, h3, front, more, rest, hreal, h4, h5⟩ := lagging_step hl hs hk hv hf hr hsess hpre hc
    obtain ⟨⟨q, hserve⟩, sent, slices, st, hsent, hbytes⟩ := hsess.serve hs hk hf hr
    have ha : Announced taken := by
      refine Announced.prefix (es := sent) (fun a e b id he hrow => ?_) hsent
      rcases logOf_announced hbytes a e b id he hrow with h' | h'
      · cases h'
      · exact h'
    obtain ⟨k1, done, runs, k2, k3, k4⟩ := ih h1 h2 h3 (names := namesAfter names front)
    refine ⟨k1, front ++ done, changesEach names real :: runs, ?_, ?_, ?_⟩
    · rw [h4, List.append_assoc, ← h5, k2, List.append_assoc]
    · rw [namesAfter_append]
      rw [h5, changesEach_append] at k3
      rw [h4, hreal, List.append_assoc, changesEach_append, changesEach_append, changesEach_append, ← List.append_assoc]
      exact .run k3
    · rw [k4, keyed_session key hserve hq ha names, List.flatten_cons, List.foldl_append]

/-- The copy that has the events once. -/
theorem keyed_once {key : TableName → Cells → κ} {columns : TableName → List (UInt8 × Nat)} (hcol : ∀ t, columns t ≠ []) {es rest : List Ev}
    {checksum : ChecksumType} {slices : List Bytes} {st : LogState} (hw : LogOf (.start checksum) (es ++ rest) slices st)
    {rows : TableName → List (List Stored)} {images : List (TableName × List Stored)} {server' : Server}
    (hc : Changes columns ⟨.start checksum, fun _ => none, rows⟩ (((es ++ rest).map (·.1)).zip slices) images server')
    {data : Keyed κ} {shown : TableName → List Cells} (hshown : RowsShown columns rows shown) (hi : Indexes key data shown)
    (hkeys : KeysHold key shown (changesOf (fun _ => none) (es ++ rest))) :
    ∃ slices1 slices2 between images1 images2 shown', slices = slices1 ++ slices2 ∧
      Changes columns ⟨.start checksum, fun _ => none, rows⟩ ((es.map (·.1)).zip slices1) images1 between ∧
      Changes columns between ((rest.map (·.1)).zip slices2) images2 server' ∧
      RowsShown columns between.rows shown' ∧ Indexes key ((changesEach (fun _ => none) es).foldl (fun d cs => cs.foldl (onKeys key) d) data) shown' := by
  obtain ⟨slices1, slices2, st1, rfl, g1, g2⟩ := logOf_split hw
  rw [List.map_append, List.zip_append (headers_length g1)] at hc
  obtain ⟨between, images1, images2, i1, i2⟩ := changes_split hc
  have hshow := (changes_taken hcol g1 i1 (Knows.start _) (Knows.start _) (fun _ _ h => by cases h) (c := ⟨fun _ => none, shown⟩) ⟨rfl, hshown⟩).rows
  refine ⟨slices1, slices2, between, images1, images2, _, rfl, i1, i2, hshow, ?_⟩
  rw [takeAll_changes, ← List.foldl_flatten, changesEach_flatten]
  rw [changesOf_append] at hkeys
  exact hi.changes (keysHold_prefix hkeys)

/-- **C139.** Replication by file and position: a copy of the tables by keys, kept by an application that does to it what each event says when it comes, and may
stop anywhere, also between that and the commit. `slices` are the records of the log from the place where the client begins, as in C123. Under each key the
copy has what the server's table had under that key at the recorded place, or at some place behind it (after the events `done ++ first`); when the log has
nothing from the recorded place on, it has exactly the rows of the server's tables, each under its key. -/
theorem C139_keyed {m : Mode} {crypto : Crypto} {log : Log} (hl : LogOk log) {key : TableName → Cells → κ} {c c' : Client} {data data' : Keyed κ}
    (hs : c.options.binlog.startingStrategy ≠ .fromGtid) (hk : ¬wantsEnd c.options) (hv : Valid log (c.place log))
    (h : LaggingKeyed m crypto log key c data c' data') {columns : TableName → List (UInt8 × Nat)} (hcol : ∀ t, columns t ≠ [])
    {checksum : ChecksumType} {slices : List Bytes} {st : LogState} (hw : LogOf (.start checksum) (remaining log (c.place log)) slices st)
    {rows : TableName → List (List Stored)} {images : List (TableName × List Stored)} {server' : Server}
    (hc : Changes columns ⟨.start checksum, fun _ => none, rows⟩ (((remaining log (c.place log)).map (·.1)).zip slices) images server')
    {shown : TableName → List Cells} (hshown : RowsShown columns rows shown) (hi : Indexes key data shown)
    (hkeys : KeysHold key shown (changesOf (fun _ => none) (remaining log (c.place log)))) :
    ∃ done, remaining log (c.place log) = done ++ remaining log (c'.place log) ∧
      (∀ t k, ∃ first slices1 between images1 shown', first <+: remaining log (c'.place log) ∧ slices1 <+: slices ∧
        Changes columns ⟨.start checksum, fun _ => none, rows⟩ (((done ++ first).map (·.1)).zip slices1) images1 between ∧
        RowsShown columns between.rows shown' ∧ ∀ r, data' (t, k) = some r ↔ r ∈ shown' t ∧ key t r = k) ∧
      (remaining log (c'.place log) = [] → ∃ shown', RowsShown columns server'.rows shown' ∧ Indexes key data' shown') := by
  obtain ⟨-, done, runs, h1, h2, h3⟩ := h.runs hl hs hk hv (names := fun _ => none)
  obtain ⟨d, h4, h5⟩ := h2.foldl_places (f := fun d cs => cs.foldl (onKeys key) d) (fun cs _ place => onKeys_overwrites key cs place) data data
    fun k => ⟨[], List.nil_prefix, rfl⟩
  have hd : d = changesEach (fun _ => none) done := by
    rw [h1, changesEach_append] at h4
    exact (List.append_cancel_right h4).symm
  subst hd
  -- what the copy has is what it has after some events
  have place : ∀ k, ∃ first, first <+: remaining log (c'.place log) ∧
      data' k = (changesEach (fun _ => none) (done ++ first)).foldl (fun d cs => cs.foldl (onKeys key) d) data k := by
    intro k
    obtain ⟨first, h6, h7⟩ := h5 k
    obtain ⟨es, h8, h9⟩ := changesEach_prefix h6
    exact ⟨es, h8, by rw [h3, h7, changesEach_append, h9]⟩
  refine ⟨done, h1, fun t k => ?_, fun hnil => ?_⟩
  · obtain ⟨first, h6, h7⟩ := place (t, k)
    obtain ⟨rest, hrest⟩ := id h6
    have hall : remaining log (c.place log) = (done ++ first) ++ rest := by rw [h1, ← hrest, List.append_assoc]
    rw [hall] at hw hc hkeys
    obtain ⟨slices1, slices2, between, images1, images2, shown', rfl, g1, -, g3, g4⟩ := keyed_once hcol hw hc hshown hi hkeys
    exact ⟨first, slices1, between, images1, shown', h6, List.prefix_append _ _, g1, g3, fun r => by rw [h7]; exact g4.2 t k r⟩
  · have hdata : data' = (changesEach (fun _ => none) done).foldl (fun d cs => cs.foldl (onKeys key) d) data := by
      funext k
      obtain ⟨first, h6, h7⟩ := place k
      rw [hnil, List.prefix_nil] at h6
      rw [h7, h6, List.append_nil]
    rw [hnil, List.append_nil] at h1
    rw [← List.append_nil (remaining log (c.place log))] at hw hc hkeys
    obtain ⟨slices1, slices2, between, images1, images2, shown', rfl, -, g2, g3, g4⟩ := keyed_once hcol hw hc hshown hi hkeys
    cases g2
    rw [h1] at g4
    exact ⟨shown', g3, hdata ▸ g4⟩

/-- **C139.** Whatever was applied twice before: when a conforming server lets the client in and sends the log from the recorded place on to its end, and the
application takes all of it, the copy has exactly the rows of the server's tables, each under its key, whatever is committed of that session. -/
theorem C139_catches_up {m : Mode} {crypto : Crypto} {log : Log} (hl : LogOk log) {key : TableName → Cells → κ} {c c' : Client} {data data' : Keyed κ}
    (hs : c.options.binlog.startingStrategy ≠ .fromGtid) (hk : ¬wantsEnd c.options) (hv : Valid log (c.place log))
    (h : LaggingKeyed m crypto log key c data c' data') {columns : TableName → List (UInt8 × Nat)} (hcol : ∀ t, columns t ≠ [])
    {checksum : ChecksumType} {slices : List Bytes} {st : LogState} (hw : LogOf (.start checksum) (remaining log (c.place log)) slices st)
    {rows : TableName → List (List Stored)} {images : List (TableName × List Stored)} {server' : Server}
    (hc : Changes columns ⟨.start checksum, fun _ => none, rows⟩ (((remaining log (c.place log)).map (·.1)).zip slices) images server')
    {shown : TableName → List Cells} (hshown : RowsShown columns rows shown) (hi : Indexes key data shown)
    (hkeys : KeysHold key shown (changesOf (fun _ => none) (remaining log (c.place log))))
    (chan : Channel) (hu : Usable crypto c'.options) (hwr : chan.writes = []) (mariaDb : Prop) (checksum' : ChecksumType) (bytes : Bytes)
    (hin : LetsIn crypto c'.options mariaDb none checksum' bytes) (q : Place) (sent : List Ev)
    (hserve : Serve log False (c'.place log) q sent (remaining log (c'.place log)))
    (hq : ∀ e ∈ sent, e.1.nextEventPosition = 0 → NoRows e.2)
    (slices' : List Bytes) (st' : LogState) (hbytes : LogOf (.start checksum') sent slices' st') (hsize : ∀ x ∈ slices', x.length < 2 ^ 24 - 20)
    (n : Nat) (rest : Bytes) (hinput : chan.input = bytes ++ frames (eventPackets n sent slices') ++ rest) :
    ∃ stream shown', c'.replicate m crypto (.ok chan) = (.ok stream, c'.afresh) ∧ (∃ stream', stream.Yields m (sent.map .ok) stream') ∧
      (∀ k, ∃ c'', commitAll m c'.afresh (sent.take k) = .ok c'') ∧
      RowsShown columns server'.rows shown' ∧ Indexes key (keyedTransaction key data' sent) shown' := by
  obtain ⟨⟨hs', hk', hv'⟩, done, runs, h1, h2, h3⟩ := h.runs hl hs hk hv (names := fun _ => none)
  obtain ⟨stream, g1, g2⟩ := C105_session m crypto c' chan hu hwr mariaDb checksum' bytes hin hs' hk' log q sent _ hserve slices' st' hbytes hsize n rest hinput
  have ha : Announced sent := by
    intro a e b id he hrow
    rcases logOf_announced hbytes a e b id he hrow with h' | h'
    · cases h'
    · exact h'
  have hdata : keyedTransaction key data' sent =
      (changesEach (fun _ => none) (remaining log (c.place log))).foldl (fun d cs => cs.foldl (onKeys key) d) data := by
    rw [keyed_session key hserve hq ha (namesAfter (fun _ => none) done), h3, ← List.foldl_append]
    have h4 := h2.snoc (recorded := changesEach (namesAfter (fun _ => none) done) (remaining log (c'.place log))) (more := []) (rest := []) (by simp)
    obtain ⟨d, h5, h6⟩ := h4.foldl_places (f := fun d cs => cs.foldl (onKeys key) d) (fun cs _ place => onKeys_overwrites key cs place) data data
      fun k => ⟨[], List.nil_prefix, rfl⟩
    rw [List.append_nil, List.append_nil] at h5
    funext k
    obtain ⟨first, h7, h8⟩ := h6 k
    obtain rfl : first = [] := by simpa using h7
    rw [List.flatten_append, List.flatten_cons, List.flatten_nil, List.append_nil, List.append_nil] at h8
    rw [h8, h5, List.append_nil]
  rw [← List.append_nil (remaining log (c.place log))] at hw hc hkeys
  obtain ⟨slices1, slices2, between, images1, images2, shown', rfl, -, k2, k3, k4⟩ := keyed_once hcol hw hc hshown hi hkeys
  cases k2
  refine ⟨stream, shown', g1, ?_, fun k => ?_, k3, hdata ▸ k4⟩
  · obtain ⟨_, _, g3, -⟩ := g2 sent.length
    rw [List.take_of_length_le (Nat.le_refl _)] at g3
    obtain ⟨_, _, _, _, _, _, hy, _⟩ := g3
    exact ⟨_, hy⟩
  · obtain ⟨_, c'', -, -, -, g3⟩ := g2 k
    exact ⟨c'', g3⟩

/-! ## An example -/

/-- The client that has committed the announcement of the file and the table map: it asks for the table map again. -/
def exMapUser : Client := { exStartUser with
  options := { exStartUser.options with binlog := { exStartUser.options.binlog with filename := "bin.1".toList, position := 4 } } }

/-- What the server sends, from the beginning of the log. -/
def exRowsSent : List Ev := [exRotateAt 0 "bin.1" 4, exMapAt 150, exRowsAt 200, exXidAt 250]

theorem exRows_session (m : Mode) (client : Client) (hu : Usable exCrypto client.options) (hplace : client.place exRowLog = ⟨"bin.1".toList, 4⟩)
    (hs : client.options.binlog.startingStrategy ≠ .fromGtid) (hk : ¬wantsEnd client.options) (bytes : Bytes) (hin : LetsIn exCrypto client.options False none .crc32 bytes) :
    ∃ chan stream c', client.replicate m exCrypto (.ok chan) = (.ok stream, client.afresh) ∧
      FileSession m exRowLog stream exRowsSent [exMapAt 150, exRowsAt 200, exXidAt 250] ∧ commitAll m client.afresh exRowsSent = .ok c' := by
  have s2 := ((((Serve.start (log := exRowLog) (calm := False) (p := ⟨"bin.1".toList, 4⟩)).announce (h := ⟨0, 4, 1, 0, 0, 0⟩) (Or.inl rfl)).event
    (e := exMapAt 150) ⟨_, List.mem_cons_self, rfl, [], _, rfl, rfl⟩).event
    (e := exRowsAt 200) ⟨_, List.mem_cons_self, rfl, [exMapAt 150], _, rfl, rfl⟩).event
    (e := exXidAt 250) ⟨_, List.mem_cons_self, rfl, [exMapAt 150, exRowsAt 200], _, rfl, rfl⟩
  obtain ⟨stream2, g1, g2⟩ := C105_session m exCrypto client { exChannel [] with input := _ } hu rfl False .crc32 bytes hin hs hk
    exRowLog _ exRowsSent [exMapAt 150, exRowsAt 200, exXidAt 250] (by rw [hplace]; exact s2) _ _
    (.cons (by unfold HeaderFits; decide) (exRotateAt_written _ _ _ (by decide)) exRowLog_written) (by decide +kernel) 1 [] rfl
  obtain ⟨real2, c3, g3, -, g4, g5⟩ := g2 4
  obtain rfl := g4 (by decide)
  exact ⟨_, stream2, c3, g1, g3, g5⟩

/-- The hypotheses of C139 are met: in the first session the application takes the whole log, but commits only what comes before the rows; they are inserted again
in the second session, with the same client or with that of a program that has been started again. -/
example (m : Mode) : ∃ c' c'' data', LaggingKeyed m exCrypto exRowLog (fun _ r => r.head?) exStartUser (fun _ => none) c'' data' ∧
    LaggingFile m exCrypto exRowLog exStartUser [[exMapAt 150, exRowsAt 200, exXidAt 250], [exMapAt 150, exRowsAt 200, exXidAt 250]] c' ∧
    LogOk exRowLog ∧ exStartUser.options.binlog.startingStrategy ≠ .fromGtid ∧ ¬wantsEnd exStartUser.options ∧
    Valid exRowLog (exStartUser.place exRowLog) ∧ (∀ t, exTwoColumns t ≠ []) ∧
    remaining exRowLog (exStartUser.place exRowLog) = [exMapAt 150, exRowsAt 200, exXidAt 250] ∧
    RowsShown exTwoColumns (fun t => if t = exTableName then [] else []) (fun _ => []) ∧
    Indexes (fun _ r => r.head?) (fun _ => none) (fun _ => []) ∧
    KeysHold (fun _ r => r.head?) (fun _ => []) (changesOf (fun _ => none) [exMapAt 150, exRowsAt 200, exXidAt 250]) ∧
    data' (exTableName, some (some (.int 258))) = some [some (.int 258), none] := by
  have hc : ∀ m, commitAll m exStartUser.afresh (exRowsSent.take 2) = .ok exMapUser := by
    rintro ⟨_ | _⟩ <;> decide +kernel
  have hu : Usable exCrypto exMapUser.options := exPlaceUser_usable 4 (by decide) "bin.1".toList (by decide +kernel)
  have hu0 : Usable exCrypto exStartUser.options := exPlaceUser_usable 4 (by decide) [] (by decide)
  obtain ⟨chan1, stream1, c1, h1, h2, -⟩ := exRows_session m exStartUser
    hu0 (by decide +kernel) (by decide) (by unfold wantsEnd; decide) _ (exGtidUser_in _)
  obtain ⟨chan2, stream2, c2, g1, g2, g3⟩ := exRows_session m exMapUser
    hu (by decide +kernel) (by decide) (by unfold wantsEnd; decide) _ (exGtidUser_in _)
  -- the same, when the program has been started again before
  let again : Client := ⟨{ exMapUser.options with binlog := .fromPosition exMapUser.options.binlog.filename exMapUser.options.binlog.position }, false, none, none⟩
  have hu3 : Usable exCrypto again.options :=
    ⟨exSmall _, ⟨by decide, by decide, by decide +kernel, (fun g h => by cases h), (fun g h => by cases h), by decide⟩, rfl⟩
  obtain ⟨chan3, stream3, c3, k1, k2, k3⟩ := exRows_session m again hu3 (by decide +kernel) (by decide) (by unfold wantsEnd; decide) _ (exGtidUser_in _)
  have hq : ∀ e ∈ exRowsSent, e.1.nextEventPosition = 0 → NoRows e.2 := by simp [exRowsSent, exRotateAt, exMapAt, exRowsAt, exXidAt, NoRows]
  have hch : changesOf (fun _ => none) exRowsSent =
      [(exTableName, .insert [some (.int 258), none]), (exTableName, .insert [some (.int 1), some (.tinyInt 9)])] := by
    with_unfolding_all rfl
  refine ⟨c2, c3, _, .session (small_fits hu0.requests) h1 h2 hq (List.take_prefix 2 _) (hc m) (.again (c1 := again) (o := again.options) rfl rfl
      (.session (small_fits hu3.requests) k1 k2 hq List.prefix_rfl k3 .stop)),
    .session (small_fits hu0.requests) h1 h2 (List.take_prefix 2 _) (hc m) (.failed (net := .error .unexpectedEof)
      (.session (small_fits hu.requests) g1 g2 List.prefix_rfl g3 .stop)),
    exRowLog_ok, by decide, by unfold wantsEnd; decide, ⟨_, List.mem_cons_self, rfl, [], _, rfl, rfl⟩, fun _ => by simp [exTwoColumns], by decide +kernel,
    exEmpty_shown, ⟨by simp, by simp⟩, ?_, ?_⟩
  · rw [show changesOf (fun _ => none) [exMapAt 150, exRowsAt 200, exXidAt 250] = changesOf (fun _ => none) exRowsSent from rfl, hch]
    simp [KeysHold, onBags, RowChange.onBag]
  · rw [keyedTransaction, keyedTransaction, hch]
    simp [onKeys, Keyed.set]

end MysqlCdc
