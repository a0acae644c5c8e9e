import Verif.Lemmas.Session
import Verif.Props.Client
import Verif.Spec.Log
import Mathlib.Data.List.Infix
/-!
# Reconnecting by file position: C21, C23
-/

namespace MysqlCdc

open Spec

/-! ## Places -/

theorem endOf_append (pos : Nat) (a b : List Ev) : endOf pos (a ++ b) = endOf (endOf pos a) b := by
  induction a generalizing pos with
  | nil => rfl
  | cons e es ih => exact ih _

theorem endOf_concat (pos : Nat) (a : List Ev) (e : Ev) : endOf pos (a ++ [e]) = e.1.nextEventPosition := by
  rw [endOf_append]
  rfl

theorem Spec.Chain.append {pos : Nat} {a b : List Ev} : Chain pos (a ++ b) ↔ Chain pos a ∧ Chain (endOf pos a) b := by
  induction a generalizing pos with
  | nil => simp [Chain, endOf]
  | cons e es ih => simp only [List.cons_append, Chain, endOf, ih, and_assoc]

theorem Spec.Chain.le {pos : Nat} {a : List Ev} (h : Chain pos a) : pos ≤ endOf pos a ∧ (a ≠ [] → pos < endOf pos a) := by
  induction a generalizing pos with
  | nil => simp [endOf]
  | cons e es ih =>
    have := (ih h.2.2).1
    have := h.1
    simp only [endOf]
    constructor
    · omega
    · intro _; omega

theorem Spec.Chain.lt {pos : Nat} {a : List Ev} (hp : pos < 2 ^ 32) (h : Chain pos a) : endOf pos a < 2 ^ 32 := by
  induction a generalizing pos with
  | nil => exact hp
  | cons e es ih => exact ih h.2.1 h.2.2

theorem fromPos_split {start : Nat} {done todo : List Ev} (h : Chain start (done ++ todo)) :
    fromPos (endOf start done) start (done ++ todo) = todo := by
  induction done generalizing start with
  | nil =>
    cases todo with
    | nil => rfl
    | cons e es => simp [fromPos, endOf]
  | cons e es ih =>
    have h' : Chain e.1.nextEventPosition (es ++ todo) := h.2.2
    have h1 : start < e.1.nextEventPosition := h.1
    have h2 := (Chain.append.1 h').1.le.1
    simp only [List.cons_append, fromPos, endOf]
    rw [if_neg (by omega)]
    exact ih h'

/-- A place inside the log: the files around it and the events around it. -/
structure AtPlace (log : Log) (p : Place) (pre : Log) (f : LogFile) (post : Log) (done todo : List Ev) : Prop where
  log : log = pre ++ f :: post
  events : f.events = done ++ todo
  name : p.name = f.name
  pos : p.pos = endOf 4 done

theorem AtPlace.valid {log : Log} {p : Place} {pre post : Log} {f : LogFile} {done todo : List Ev}
    (h : AtPlace log p pre f post done todo) : Valid log p :=
  ⟨f, by simp [h.log], h.name.symm, done, todo, h.events, h.pos⟩

theorem Spec.Valid.at {log : Log} {p : Place} (h : Valid log p) : ∃ pre f post done todo, AtPlace log p pre f post done todo := by
  obtain ⟨f, hf, h1, done, todo, h2, h3⟩ := h
  obtain ⟨pre, post, h4⟩ := List.append_of_mem hf
  exact ⟨pre, f, post, done, todo, h4, h2, h1.symm, h3⟩

theorem AtPlace.after {log : Log} (hl : LogOk log) {p : Place} {pre post : Log} {f : LogFile} {done todo : List Ev}
    (h : AtPlace log p pre f post done todo) : remaining log p = todo ++ post.flatMap (·.events) := by
  have hc : Chain 4 (done ++ todo) := h.events ▸ hl.chain f (by simp [h.log])
  have hn := hl.names
  rw [h.log] at hn ⊢
  clear hl
  have h1 := h.name
  have h2 := h.pos
  have h3 := h.events
  clear h
  induction pre with
  | nil => rw [List.nil_append, remaining, if_pos h1.symm, h2, h3, fromPos_split hc]
  | cons g pre ih =>
    rw [List.cons_append, remaining, if_neg, ih]
    · simp only [List.cons_append, List.map_cons, List.nodup_cons] at hn
      exact hn.2
    · rw [h1]
      intro hg
      simp only [List.cons_append, List.map_cons, List.map_append, List.nodup_cons, List.mem_append, List.mem_cons, not_or] at hn
      exact hn.1.2.1 hg

/-- Two files of the same name are the same file, at the same index. -/
theorem split_unique {log : Log} (hl : LogOk log) {pre pre' post post' : Log} {f f' : LogFile} (h : log = pre ++ f :: post)
    (h' : log = pre' ++ f' :: post') (hn : f.name = f'.name) : pre = pre' ∧ f = f' ∧ post = post' := by
  have hnd := hl.names
  subst h
  induction pre generalizing pre' with
  | nil =>
    cases pre' with
    | nil =>
      simp only [List.nil_append, List.cons.injEq] at h'
      exact ⟨rfl, h'.1, h'.2⟩
    | cons g pre' =>
      exfalso
      simp only [List.nil_append, List.cons_append, List.cons.injEq] at h'
      obtain ⟨rfl, rfl⟩ := h'
      simp only [List.nil_append, List.map_cons, List.map_append, List.nodup_cons, List.mem_append, List.mem_cons, not_or] at hnd
      exact hnd.1.2.1 hn
  | cons g pre ih =>
    cases pre' with
    | nil =>
      exfalso
      simp only [List.nil_append, List.cons_append, List.cons.injEq] at h'
      obtain ⟨rfl, rfl⟩ := h'
      simp only [List.cons_append, List.map_cons, List.map_append, List.nodup_cons, List.mem_append, List.mem_cons, not_or] at hnd
      exact hnd.1.2.1 hn.symm
    | cons g' pre' =>
      simp only [List.cons_append, List.cons.injEq] at h'
      obtain ⟨rfl, h'⟩ := h'
      have hnd' : ((pre ++ f :: post).map (·.name)).Nodup := by
        simp only [List.cons_append, List.map_cons, List.nodup_cons] at hnd
        exact hnd.2
      have hl' : LogOk (pre ++ f :: post) :=
        { names := hnd'
          named := fun x hx => hl.named x (by simp only [List.cons_append, List.mem_cons]; exact Or.inr hx)
          chain := fun x hx => hl.chain x (by simp only [List.cons_append, List.mem_cons]; exact Or.inr hx)
          rotate := fun p x q a e b r e1 e2 e3 => hl.rotate (g :: p) x q a e b r (by rw [List.cons_append, e1]; rfl) e2 e3 }
      obtain ⟨e1, e2, e3⟩ := ih hl' h' hnd'
      exact ⟨by rw [e1], e2, e3⟩

/-- The same place, the same events behind it. -/
theorem todo_unique {pos : Nat} {done todo done' todo' : List Ev} (hc : Chain pos (done ++ todo)) (h : done ++ todo = done' ++ todo')
    (hp : endOf pos done = endOf pos done') : done = done' ∧ todo = todo' := by
  have h1 := fromPos_split hc
  have h2 := fromPos_split (h ▸ hc : Chain pos (done' ++ todo'))
  rw [h, hp, h2] at h1
  subst h1
  exact ⟨List.append_cancel_right h, rfl⟩

/-! ## What is recorded -/

/-- The place recorded after committing `sent`. -/
def recorded (name : RStr) (pos : Nat) (sent : List Ev) : RStr × Nat :=
  (lastOr name (sent.filterMap newFile), lastOr pos (sent.filterMap newPosition))

theorem recorded_concat (name : RStr) (pos : Nat) (sent : List Ev) (e : Ev) : recorded name pos (sent ++ [e]) =
    ((newFile e).getD (recorded name pos sent).1, (newPosition e).getD (recorded name pos sent).2) := by
  unfold recorded lastOr
  rw [List.filterMap_append, List.filterMap_append]
  cases h1 : newFile e <;> cases h2 : newPosition e <;> simp [h1, h2]

/-- The recorded name is that of the place, or still empty in the first file. -/
def NameOf (log : Log) (name : RStr) (f : LogFile) : Prop := name = f.name ∨ (name = [] ∧ ∃ post, log = f :: post)

theorem resolve_of {log : Log} (hl : LogOk log) {name : RStr} {pos : Nat} {f : LogFile} (hf : f ∈ log) (h : NameOf log name f) :
    resolve log name pos = ⟨f.name, pos⟩ := by
  cases log with
  | nil => simp at hf
  | cons g gs =>
    simp only [resolve]
    rcases h with h | ⟨h, post, h'⟩
    · rw [if_neg (by rw [h]; exact hl.named f hf), h]
    · rw [if_pos h]
      injection h' with h1
      rw [h1]

/-- The invariant of a session: the server is at `q`, having sent the events between `p` and `q`; the recorded place is `q` or before
it by table maps only. -/
structure Behind (log : Log) (p q : Place) (real : List Ev) (w : RStr × Nat) (calm : Prop) (pre : Log) (f : LogFile) (post : Log)
    (done tms todo : List Ev) : Prop where
  at' : AtPlace log q pre f post (done ++ tms) todo
  all : remaining log p = real ++ remaining log q
  name : NameOf log w.1 f
  pos : w.2 = endOf 4 done
  maps : ∀ e ∈ tms, IsTableMap e.2
  suffix : ∃ front, real = front ++ tms ∧ (calm → ∀ e, front.getLast? = some e → ¬ IsTableMap e.2)

theorem newFile_none {e : Ev} (h : ¬ IsRotate e.2) : newFile e = none := by
  unfold newFile
  split
  · rename_i h'; rw [h'] at h; exact absurd trivial h
  · rfl

theorem newPosition_other {e : Ev} (h : ¬ IsRotate e.2) (h' : ¬ IsTableMap e.2) :
    newPosition e = if e.1.nextEventPosition = 0 then none else some e.1.nextEventPosition := by
  unfold newPosition
  split
  · rename_i h1; rw [h1] at h; exact absurd trivial h
  · rename_i h1; rw [h1] at h'; exact absurd trivial h'
  · rfl

/-- No file ends with a table map. -/
def NoTrailingMap (log : Log) : Prop := ∀ f ∈ log, ∀ e, f.events.getLast? = some e → ¬ IsTableMap e.2

theorem serve_behind {log : Log} (hl : LogOk log) {calm : Prop} (hcalm : calm → NoTrailingMap log) {name : RStr} {pos : Nat} {p q : Place}
    (hp : resolve log name pos = p) (hv : Valid log p) {sent real : List Ev} (h : Serve log calm p q sent real) :
    (∃ pre f post done tms todo, Behind log p q real (recorded name pos sent) calm pre f post done tms todo) ∧ RotatesFit sent := by
  have h4 : ∀ {pre f post}, log = pre ++ f :: post → AtPlace log ⟨f.name, 4⟩ pre f post [] f.events :=
    fun h => ⟨h, rfl, rfl, rfl⟩
  have fit : ∀ {sent : List Ev} {e : Ev}, RotatesFit sent → (∀ r, e.2 = .rotate r → r.binlogPosition < 2 ^ 32) →
      RotatesFit (sent ++ [e]) := by
    intro sent e h1 h2 x hx r hr
    rcases List.mem_append.1 hx with hx | hx
    · exact h1 x hx r hr
    · rw [List.mem_singleton] at hx
      subst hx
      exact h2 r hr
  have nofit : ∀ {e : Ev}, ¬ IsRotate e.2 → ∀ r, e.2 = .rotate r → r.binlogPosition < 2 ^ 32 := by
    intro e h r hr
    rw [hr] at h
    exact absurd trivial h
  have small : ∀ {q pre f post done todo}, AtPlace log q pre f post done todo → q.pos < 2 ^ 32 := by
    intro q pre f post done todo ha
    rw [ha.pos]
    have := hl.chain f (by simp [ha.log])
    rw [ha.events] at this
    exact (Chain.append.1 this).1.lt (by decide)
  induction h with
  | start =>
    obtain ⟨pre, f, post, done, todo, ha⟩ := hv.at
    refine ⟨⟨pre, f, post, done, [], todo, ?_, by simp, ?_, ?_, by simp, [], rfl, by simp⟩, by simp [RotatesFit]⟩
    · rw [List.append_nil]; exact ha
    · show NameOf log name f
      have hlog := ha.log
      cases hlog' : log with
      | nil => rw [hlog'] at hlog; simp at hlog
      | cons g gs =>
        rw [hlog'] at hp
        simp only [resolve] at hp
        split at hp
        · rename_i hname
          refine Or.inr ⟨hname, ?_⟩
          have hgf : g.name = f.name := by rw [← ha.name, ← hp]
          obtain ⟨e1, e2, e3⟩ := split_unique hl (pre := []) (f := g) (post := gs) (by rw [hlog']; rfl) ha.log hgf
          exact ⟨gs, by rw [e2]⟩
        · exact Or.inl (by rw [← ha.name, ← hp])
    · show pos = endOf 4 done
      rw [← ha.pos, ← hp]
      unfold resolve
      split
      · rfl
      · split <;> rfl
  | @event q sent real e hs hst ih =>
    obtain ⟨⟨pre, f, post, done, tms, todo, hb⟩, hf⟩ := ih
    obtain ⟨f', hf', hn', done', todo', he', hp'⟩ := hst
    obtain ⟨pre2, post2, hsplit⟩ := List.append_of_mem hf'
    obtain ⟨e1, e2, e3⟩ := split_unique hl hb.at'.log hsplit (by rw [← hb.at'.name, hn'])
    subst e1 e2 e3
    have hchain := hl.chain f (by simp [hb.at'.log])
    have hev := hb.at'.events
    rw [hev] at hchain
    obtain ⟨d1, d2⟩ := todo_unique hchain (hev ▸ he') (by rw [← hb.at'.pos, hp'])
    subst d2
    have hafter := hb.at'.after hl
    rw [recorded_concat]
    by_cases hr : IsRotate e.2
    · cases hev2 : e.2 with
      | rotate r =>
        obtain ⟨hnil, g, post', hpost, hrn, hrp⟩ := hl.rotate pre f post _ e todo' r hb.at'.log hev hev2
        subst hnil hpost
        have hlog' : log = (pre ++ [f]) ++ g :: post' := by rw [hb.at'.log]; simp
        have hq : moved q e = ⟨g.name, 4⟩ := by simp [moved, hev2, hrn, hrp]
        refine ⟨⟨pre ++ [f], g, post', [], [], g.events, ?_, ?_, ?_, ?_, by simp, real ++ [e], by simp, ?_⟩, ?_⟩
        · rw [hq]; exact h4 hlog'
        · rw [hb.all, hafter, hq, (h4 hlog').after hl]
          simp
        · simp only [newFile, hev2, Option.getD_some]
          exact Or.inl hrn
        · simp only [newPosition, hev2, Option.getD_some]
          exact hrp
        · intro _ x hx
          simp only [List.getLast?_concat, Option.some.injEq] at hx
          rw [← hx, hev2]
          exact id
        · exact fit hf (by intro r' hr'; rw [hev2] at hr'; injection hr' with hr'; rw [← hr', hrp]; decide)
      | _ => rw [hev2] at hr; exact hr.elim
    · have hq : moved q e = ⟨q.name, e.1.nextEventPosition⟩ := by
        unfold moved
        split
        · rename_i h'; rw [h'] at hr; exact absurd trivial hr
        · rfl
      have hat : AtPlace log (moved q e) pre f post (done ++ tms ++ [e]) todo' := by
        rw [hq]
        exact ⟨hb.at'.log, by rw [hev]; simp, hb.at'.name, by rw [endOf_concat]⟩
      have hall : remaining log p = (real ++ [e]) ++ remaining log (moved q e) := by
        rw [hb.all, hafter, hat.after hl]
        simp
      rw [newFile_none hr]
      by_cases ht : IsTableMap e.2
      · have hnp : newPosition e = none := by
          unfold newPosition
          split
          · rename_i h'; rw [h'] at hr; exact absurd trivial hr
          · rfl
          · rename_i h1 h2
            cases hev2 : e.2 with
            | tableMap t => exact absurd hev2 (h2 t)
            | _ => rw [hev2] at ht; exact ht.elim
        rw [hnp]
        obtain ⟨front, hfr, hfr2⟩ := hb.suffix
        refine ⟨⟨pre, f, post, done, tms ++ [e], todo', ?_, hall, hb.name, hb.pos, ?_, front, by rw [hfr]; simp, hfr2⟩,
          fit hf (nofit hr)⟩
        · rw [← List.append_assoc]; exact hat
        · intro x hx
          rcases List.mem_append.1 hx with hx | hx
          · exact hb.maps x hx
          · rw [List.mem_singleton] at hx
            rw [hx]
            exact ht
      · have hpos : e.1.nextEventPosition ≠ 0 := by
          have := (Chain.append.1 hchain).2
          have := this.1
          omega
        rw [newPosition_other hr ht, if_neg hpos]
        refine ⟨⟨pre, f, post, done ++ tms ++ [e], [], todo', ?_, hall, hb.name, ?_, by simp, real ++ [e], by simp, ?_⟩, fit hf (nofit hr)⟩
        · rw [List.append_nil]; exact hat
        · rw [endOf_concat]; rfl
        · intro _ x hx
          simp only [List.getLast?_concat, Option.some.injEq] at hx
          rw [← hx]
          exact ht
  | @artificial q sent real e hs hz hr ih =>
    obtain ⟨⟨pre, f, post, done, tms, todo, hb⟩, hf⟩ := ih
    have hnp : newPosition e = none := by
      by_cases ht : IsTableMap e.2
      · cases hev2 : e.2 with
        | tableMap t => simp [newPosition, hev2]
        | _ => rw [hev2] at ht; exact ht.elim
      · rw [newPosition_other hr ht, if_pos hz]
    rw [recorded_concat, newFile_none hr, hnp]
    exact ⟨⟨pre, f, post, done, tms, todo, hb⟩, fit hf (nofit hr)⟩
  | @heartbeat q sent real h x hs hpos hc ih =>
    obtain ⟨⟨pre, f, post, done, tms, todo, hb⟩, hf⟩ := ih
    rw [recorded_concat]
    have hq4 : q.pos ≠ 0 := by
      rw [hb.at'.pos]
      have hchain := hl.chain f (by simp [hb.at'.log])
      rw [hb.at'.events] at hchain
      have := (Chain.append.1 hchain).1.le.1
      omega
    refine ⟨⟨pre, f, post, done ++ tms, [], todo, ?_, hb.all, ?_, ?_, by simp, real, by simp, hc⟩, fit hf (nofit (by simp [IsRotate]))⟩
    · rw [List.append_nil]; exact hb.at'
    · exact hb.name
    · simp only [newPosition, hpos, if_neg hq4, Option.getD_some]
      exact hb.at'.pos
  | @announce q sent real h hs hc ih =>
    obtain ⟨⟨pre, f, post, done, tms, todo, hb⟩, hf⟩ := ih
    rw [recorded_concat]
    refine ⟨⟨pre, f, post, done ++ tms, [], todo, ?_, hb.all, ?_, ?_, by simp, real, by simp, ?_⟩, fit hf ?_⟩
    · rw [List.append_nil]; exact hb.at'
    · exact Or.inl hb.at'.name
    · exact hb.at'.pos
    · obtain ⟨front, hfr, hfr2⟩ := hb.suffix
      rcases hc with hc | hc
      · intro _ e he
        rw [hc] at he
        simp at he
      · -- offset 4 means that no event of the file has been sent
        have hchain := hl.chain f (by simp [hb.at'.log])
        rw [hb.at'.events] at hchain
        have hle := (Chain.append.1 hchain).1.le.2
        have : done ++ tms = [] := by
          by_contra hne
          have := hle hne
          rw [← hb.at'.pos, hc] at this
          omega
        rw [List.append_eq_nil_iff] at this
        rw [this.2, List.append_nil] at hfr
        rw [hfr]
        exact hfr2
    · intro r hr
      simp only [BinlogEvent.rotate.injEq] at hr
      rw [← hr]
      exact small hb.at'
  | @nextFile sent real h pre' post' f' g hlog hs ih =>
    obtain ⟨⟨pre, f, post, done, tms, todo, hb⟩, hf⟩ := ih
    obtain ⟨e1, e2, e3⟩ := split_unique hl hb.at'.log hlog (by rw [← hb.at'.name])
    subst e1 e2 e3
    have hchain := hl.chain f (by simp [hb.at'.log])
    have hev := hb.at'.events
    have hpos := hb.at'.pos
    rw [hev] at hchain
    obtain ⟨d1, d2⟩ := todo_unique (done' := done ++ tms ++ todo) (todo' := []) hchain (by simp) (by rw [← hpos, hev])
    subst d2
    have hafter := hb.at'.after hl
    have hlog' : log = (pre ++ [f]) ++ g :: post' := by rw [hlog]; simp
    rw [recorded_concat]
    refine ⟨⟨pre ++ [f], g, post', [], [], g.events, h4 hlog', ?_, Or.inl rfl, rfl, by simp, real, by simp, ?_⟩,
      fit hf (by intro r hr; simp only [BinlogEvent.rotate.injEq] at hr; rw [← hr]; exact (by decide : 4 < 2 ^ 32))⟩
    · rw [hb.all, hafter, (h4 hlog').after hl]
      simp
    · intro hcl e he
      obtain ⟨front, hfr, hfr2⟩ := hb.suffix
      rcases List.eq_nil_or_concat tms with ht | ⟨tms', t, ht⟩
      · rw [ht, List.append_nil] at hfr
        rw [hfr] at he
        exact hfr2 hcl e he
      · -- then the file ends with a table map
        exfalso
        refine hcalm hcl f (by simp [hb.at'.log]) t ?_ (hb.maps t (by rw [ht]; simp))
        rw [hev, ht]
        simp [← List.append_assoc]

theorem commitAll_ok (m : Mode) (c : Client) (hs : c.options.binlog.startingStrategy ≠ .fromGtid) (es : List Ev) :
    ∃ c', commitAll m c es = .ok c' ∧ c'.options.binlog.startingStrategy = c.options.binlog.startingStrategy := by
  induction es generalizing c with
  | nil => exact ⟨c, rfl, rfl⟩
  | cons e es ih =>
    have h1 : c.updateGtidPosition m e.2 = .ok c := by
      unfold Client.updateGtidPosition
      rw [if_pos hs]
    have hst := (updateBinlogPosition_frame c e.1 e.2).2.2.2.2.2
    obtain ⟨c', h2, h3⟩ := ih (c.updateBinlogPosition e.1 e.2) (by rw [hst]; exact hs)
    exact ⟨c', by simp [commitAll, commit_eq m c e.1 e.2 h1, h2], by rw [h3, hst]⟩

/-- The place a client will ask for. -/
def Client.place (log : Log) (c : Client) : Place := resolve log c.options.binlog.filename c.options.binlog.position

theorem session_of (m : Mode) {log : Log} (hl : LogOk log) {calm : Prop} (hcalm : calm → NoTrailingMap log) (c c' : Client)
    (hv : Valid log (c.place log)) {q : Place} {sent real : List Ev} (h : Serve log calm (c.place log) q sent real)
    (hc : commitAll m c sent = .ok c') :
    ∃ tms front, Valid log (c'.place log) ∧ remaining log (c.place log) = real ++ remaining log q ∧
      remaining log (c'.place log) = tms ++ remaining log q ∧
      (∀ e ∈ tms, IsTableMap e.2) ∧ real = front ++ tms ∧ (calm → ∀ e, front.getLast? = some e → ¬ IsTableMap e.2) := by
  obtain ⟨⟨pre, f, post, done, tms, todo, hb⟩, hf⟩ := serve_behind hl hcalm rfl hv h
  obtain ⟨h3, h4⟩ := C19_position_follows_partial m c c' sent hf hc
  have hplace : c'.place log = ⟨f.name, endOf 4 done⟩ := by
    unfold Client.place
    rw [h3, h4]
    have := hb.pos
    simp only [recorded] at this
    rw [this]
    exact resolve_of hl (by simp [hb.at'.log]) hb.name
  have hat : AtPlace log (c'.place log) pre f post done (tms ++ todo) := by
    rw [hplace]
    exact ⟨hb.at'.log, by rw [hb.at'.events]; simp, rfl, rfl⟩
  obtain ⟨front, hfr, hfr2⟩ := hb.suffix
  refine ⟨tms, front, hat.valid, hb.all, ?_, hb.maps, hfr, hfr2⟩
  rw [hat.after hl, hb.at'.after hl]
  simp

theorem session (m : Mode) {log : Log} (hl : LogOk log) {calm : Prop} (hcalm : calm → NoTrailingMap log) (c : Client)
    (hs : c.options.binlog.startingStrategy ≠ .fromGtid) (hv : Valid log (c.place log)) {q : Place} {sent real : List Ev}
    (h : Serve log calm (c.place log) q sent real) :
    ∃ c' tms front, commitAll m c sent = .ok c' ∧ c'.options.binlog.startingStrategy = c.options.binlog.startingStrategy ∧
      Valid log (c'.place log) ∧ remaining log (c.place log) = real ++ remaining log q ∧ remaining log (c'.place log) = tms ++ remaining log q ∧
      (∀ e ∈ tms, IsTableMap e.2) ∧ real = front ++ tms ∧ (calm → ∀ e, front.getLast? = some e → ¬ IsTableMap e.2) := by
  obtain ⟨c', h1, h2⟩ := commitAll_ok m c hs sent
  obtain ⟨tms, front, h3⟩ := session_of m hl hcalm c c' hv h h1
  exact ⟨c', tms, front, h1, h2, h3⟩

/-! ## C21 -/

/-- C21. A client that asked for place `p`, was sent `sent` (the events `real` of the log among them), committed all of that and is
gone: the log from the place it will ask for is the table maps last committed and the events of the log not yet sent. -/
theorem C21_no_event_lost (m : Mode) (log : Log) (hl : LogOk log) (c : Client)
    (hs : c.options.binlog.startingStrategy ≠ .fromGtid) (hv : Valid log (c.place log)) (q : Place) (sent real : List Ev)
    (h : Serve log False (c.place log) q sent real) :
    ∃ c' tms rest, commitAll m c sent = .ok c' ∧ Valid log (c'.place log) ∧ remaining log (c.place log) = real ++ rest ∧
      remaining log (c'.place log) = tms ++ rest ∧ tms <:+ real ∧ ∀ e ∈ tms, IsTableMap e.2 := by
  obtain ⟨c', tms, front, h1, _, h3, h4, h5, h6, h7, _⟩ := session m hl (calm := False) False.elim c hs hv h
  exact ⟨c', tms, _, h1, h3, h4, h5, ⟨front, h7.symm⟩, h6⟩

/-- Any number of connections, each ended by a crash or never set up: the events of the log received over each, and the client
at last. -/
inductive Sessions (m : Mode) (cr : Crypto) (log : Log) : Client → List (List Ev) → Client → Prop
  | none (c : Client) : Sessions m cr log c [] c
  | failed {c c2 : Client} (net : Except IoKind Channel) {later : List (List Ev)} :
      Sessions m cr log (c.replicate m cr net).2 later c2 → Sessions m cr log c later c2
  | more {c c1 c2 : Client} {net : Except IoKind Channel} {stream : BinlogEvents} {q : Place} {sent real : List Ev}
      {later : List (List Ev)} : (c.replicate m cr net).1 = .ok stream →
      Serve log False ((c.replicate m cr net).2.place log) q sent real →
      commitAll m (c.replicate m cr net).2 sent = .ok c1 → Sessions m cr log c1 later c2 → Sessions m cr log c (real :: later) c2

/-- The events of the log other than table maps. -/
def noMaps (es : List Ev) : List Ev :=
  es.filter fun e => match e.2 with | .tableMap _ => false | _ => true

theorem noMaps_maps {es : List Ev} (h : ∀ e ∈ es, IsTableMap e.2) : noMaps es = [] := by
  rw [noMaps, List.filter_eq_nil_iff]
  intro e he
  have := h e he
  cases h2 : e.2 with
  | tableMap t => simp
  | _ => rw [h2] at this; exact this.elim

theorem noMaps_append (a b : List Ev) : noMaps (a ++ b) = noMaps a ++ noMaps b := List.filter_append ..

/-- Rotate events name files of the log. -/
theorem serve_names {log : Log} (hl : LogOk log) {calm : Prop} {p q : Place} (hv : Valid log p) {sent real : List Ev}
    (h : Serve log calm p q sent real) : ∀ e ∈ sent, ∀ x, newFile e = some x → x ≠ [] := by
  have hq : ∀ {q sent real}, Serve log calm p q sent real → q.name ≠ [] := by
    intro q sent real h
    induction h with
    | start =>
      obtain ⟨f, hf, hn, _⟩ := hv
      rw [← hn]
      exact hl.named f hf
    | @event q sent real e hs hst ih =>
      unfold moved
      split
      · rename_i r hr
        obtain ⟨f, hf, hn, done, todo, he, _⟩ := hst
        obtain ⟨pre, post, hsplit⟩ := List.append_of_mem hf
        obtain ⟨_, g, post', hpost, hrn, _⟩ := hl.rotate pre f post done e todo r hsplit he hr
        simp only
        rw [hrn]
        exact hl.named g (by rw [hsplit, hpost]; simp)
      · exact ih
    | artificial _ _ _ ih => exact ih
    | heartbeat _ _ _ ih => exact ih
    | announce _ _ ih => exact ih
    | nextFile hlog _ _ => exact hl.named _ (by rw [hlog]; simp)
  have hcons : ∀ {sent : List Ev} {e : Ev}, (∀ e ∈ sent, ∀ x, newFile e = some x → x ≠ []) →
      (∀ x, newFile e = some x → x ≠ []) → ∀ e' ∈ sent ++ [e], ∀ x, newFile e' = some x → x ≠ [] := by
    intro sent e h1 h2 e' he'
    rcases List.mem_append.1 he' with h | h
    · exact h1 e' h
    · rw [List.mem_singleton] at h
      rw [h]
      exact h2
  induction h with
  | start => simp
  | @event q sent real e hs hst ih =>
    refine hcons ih fun x hx => ?_
    unfold newFile at hx
    split at hx
    · rename_i r hr
      injection hx with hx
      have := hq (hs.event hst)
      simp only [moved, hr] at this
      rw [← hx]
      exact this
    · simp at hx
  | artificial hs _ hr ih => exact hcons ih fun x hx => by rw [newFile_none hr] at hx; simp at hx
  | heartbeat hs _ _ ih => exact hcons ih fun x hx => by simp [newFile] at hx
  | announce hs _ ih =>
    refine hcons ih fun x hx => ?_
    simp only [newFile, Option.some.injEq] at hx
    rw [← hx]
    exact hq hs
  | nextFile hlog hs ih =>
    refine hcons ih fun x hx => ?_
    simp only [newFile, Option.some.injEq] at hx
    rw [← hx]
    exact hl.named _ (by rw [hlog]; simp)

/-- C21, over any number of crashes: the events received over all connections (table maps left out) are the log's from the first
place asked for, each once and in order; what is still missing is what the server will send at the next connection. This holds of
replication by GTIDs too, with a server that starts at the place named in the request. -/
theorem C21_every_event_once {m : Mode} {cr : Crypto} {log : Log} (hl : LogOk log) {c c' : Client} {got : List (List Ev)}
    (hk : c.options.binlog.startingStrategy ≠ .fromEnd ∨ c.options.binlog.filename ≠ []) (hv : Valid log (c.place log))
    (h : Sessions m cr log c got c') :
    noMaps got.flatten ++ noMaps (remaining log (c'.place log)) = noMaps (remaining log (c.place log)) := by
  induction h with
  | none c => rfl
  | @failed c c2 net later hlater ih =>
    have hopt := replicate_keeps_options m cr c net hk
    have hpl : (c.replicate m cr net).2.place log = c.place log := by unfold Client.place; rw [hopt]
    rw [ih (by rw [hopt]; exact hk) (by rw [hpl]; exact hv), hpl]
  | @more c c1 c2 net stream q sent real later hr hserve hcommit hlater ih =>
    have hopt := replicate_keeps_options m cr c net hk
    have hpl : (c.replicate m cr net).2.place log = c.place log := by unfold Client.place; rw [hopt]
    obtain ⟨tms, front, h3, h4, h5, h6, h7, _⟩ := session_of m hl (calm := False) False.elim (c.replicate m cr net).2 c1
      (by rw [hpl]; exact hv) hserve hcommit
    have h2 : c1.options.binlog.startingStrategy = (c.replicate m cr net).2.options.binlog.startingStrategy := by
      obtain ⟨⟨f, p, g, l, h⟩, -⟩ := C20_only_positions_change m _ c1 sent hcommit
      rw [h]
    rw [hpl] at h4
    have hk1 : c1.options.binlog.startingStrategy ≠ .fromEnd ∨ c1.options.binlog.filename ≠ [] := by
      rcases hk with hk | hk
      · exact Or.inl (by rw [h2, hopt]; exact hk)
      · right
        obtain ⟨⟨pre, f, post, done, tms', todo, hb⟩, hf⟩ := serve_behind hl (calm := False) False.elim
          (name := c.options.binlog.filename) (pos := c.options.binlog.position) (p := c.place log) rfl hv (hpl ▸ hserve)
        have := (C19_position_follows_partial m _ c1 sent hf hcommit).1
        rw [hopt] at this
        rw [this]
        rcases hb.name with hn | ⟨hn, _⟩
        · simp only [recorded] at hn
          rw [hn]
          exact hl.named f (by simp [hb.at'.log])
        · -- a recorded name never becomes empty again
          exfalso
          simp only [recorded, lastOr] at hn
          cases hg : (sent.filterMap newFile).getLast? with
          | none => rw [hg] at hn; exact hk hn
          | some x =>
            rw [hg] at hn
            simp only [Option.getD_some] at hn
            obtain ⟨e, he, hx⟩ := List.mem_filterMap.1 (List.mem_of_getLast? hg)
            exact serve_names hl hv (hpl ▸ hserve) e he x hx hn
    rw [List.flatten_cons, noMaps_append, List.append_assoc, ih hk1 h3, h4, h5, noMaps_append,
      noMaps_append, noMaps_maps h6, List.nil_append]

/-! ## C23 -/

/-- Every row event has its table map somewhere before it. -/
def Preceded (es : List Ev) : Prop := ∀ a e b id, es = a ++ e :: b → RowsOf id e.2 → ∃ t ∈ a, Maps id t.2

theorem preceded_of_decodable {es : List Ev} (h : Decodable es) : Preceded es := by
  intro a e b id h1 h2
  obtain ⟨a', run, h3, _, t, h4, h5⟩ := h a e b id h1 h2
  exact ⟨t, by rw [h3]; exact List.mem_append_right _ h4, h5⟩

/-- A run of elements with a property that ends a list does not reach behind an element without it. -/
theorem run_within {α : Type} {P : α → Prop} {front a a' run : List α} (h : front ++ a = a' ++ run) (hrun : ∀ x ∈ run, P x)
    (hf : ∀ x, front.getLast? = some x → ¬ P x) : ∃ a'', a = a'' ++ run := by
  rcases List.append_eq_append_iff.1 h with ⟨as, h1, h2⟩ | ⟨bs, h1, h2⟩
  · exact ⟨as, h2⟩
  · -- `front = a' ++ bs`, `run = bs ++ a`
    rcases List.eq_nil_or_concat bs with hb | ⟨bs', x, hb⟩
    · subst hb
      exact ⟨[], by rw [h2]; rfl⟩
    · exfalso
      refine hf x ?_ (hrun x ?_)
      · rw [h1, hb]
        simp [← List.append_assoc]
      · rw [h2, hb]
        simp

/-- C23, the part that holds: if in the log every row event comes right behind its table maps (at most one row event for each group
of table maps), no file ends with a table map and the server sends no heartbeat right behind one, then the same is true of what is
sent after reconnecting. (Missing: several row events behind one table map; see `C23_second_rows_event_false`.) -/
theorem C23_decodable_partial (m : Mode) (log : Log) (hl : LogOk log) (hend : NoTrailingMap log) (c : Client)
    (hs : c.options.binlog.startingStrategy ≠ .fromGtid) (hv : Valid log (c.place log)) (hd : Decodable (remaining log (c.place log)))
    (q : Place) (sent real : List Ev) (h : Serve log True (c.place log) q sent real) :
    ∃ c', commitAll m c sent = .ok c' ∧ Decodable (remaining log (c'.place log)) := by
  obtain ⟨c', tms, front, h1, _, h3, h4, h5, h6, h7, h8⟩ := session m hl (calm := True) (fun _ => hend) c hs hv h
  refine ⟨c', h1, ?_⟩
  intro a e b id h9 h10
  have : remaining log (c.place log) = (front ++ a) ++ e :: b := by
    rw [h4, h7, List.append_assoc, ← h5, h9, List.append_assoc]
  obtain ⟨a', run, h11, h12, h13⟩ := hd (front ++ a) e b id this h10
  obtain ⟨a'', h14⟩ := run_within h11 h12 (h8 trivial)
  exact ⟨a'', run, h14, h12, h13⟩

/-! ### Concrete logs -/

def exTable : TableMapEvent := ⟨7, "db".toList, "t".toList, [3], [0], [false], none⟩
def exRows : BinlogEvent := .writeRows ⟨7, 0, 1, [true], []⟩

/-- Two files: format description, table map, rows, rows, XID, rotate; format description, table map, rows. -/
def exLog : Log :=
  [⟨"bin.1".toList, [(exHeader 120, .unknown), (exHeader 160, .tableMap exTable), (exHeader 200, exRows), (exHeader 240, exRows),
      (exHeader 270, .xid ⟨9⟩), (exHeader 300, .rotate ⟨"bin.2".toList, 4⟩)]⟩,
   ⟨"bin.2".toList, [(exHeader 120, .unknown), (exHeader 160, .tableMap exTable), (exHeader 200, exRows)]⟩]

theorem exLog_ok : LogOk exLog where
  names := by decide
  named := by simp [exLog]
  chain := by
    intro f hf
    simp only [exLog, List.mem_cons, List.not_mem_nil, or_false] at hf
    rcases hf with rfl | rfl <;> simp [Chain, exHeader]
  rotate := by
    intro pre f post a e b r h1 h2 h3
    rcases pre with _ | ⟨f0, _ | ⟨f1, pre⟩⟩
    · simp only [exLog, List.nil_append, List.cons.injEq] at h1
      obtain ⟨rfl, rfl⟩ := h1
      rcases a with _ | ⟨_, _ | ⟨_, _ | ⟨_, _ | ⟨_, _ | ⟨_, _ | ⟨_, a⟩⟩⟩⟩⟩⟩ <;>
        simp only [List.nil_append, List.cons_append, List.cons.injEq] at h2
      · obtain ⟨rfl, _⟩ := h2; simp at h3
      · obtain ⟨_, rfl, _⟩ := h2; simp at h3
      · obtain ⟨_, _, rfl, _⟩ := h2; simp [exRows] at h3
      · obtain ⟨_, _, _, rfl, _⟩ := h2; simp [exRows] at h3
      · obtain ⟨_, _, _, _, rfl, _⟩ := h2; simp at h3
      · obtain ⟨_, _, _, _, _, rfl, rfl⟩ := h2
        simp only [BinlogEvent.rotate.injEq] at h3
        subst h3
        exact ⟨rfl, _, [], rfl, rfl, rfl⟩
      · simp at h2
    · simp only [exLog, List.nil_append, List.cons_append, List.cons.injEq] at h1
      obtain ⟨_, rfl, rfl⟩ := h1
      rcases a with _ | ⟨_, _ | ⟨_, _ | ⟨_, a⟩⟩⟩ <;> simp only [List.nil_append, List.cons_append, List.cons.injEq] at h2
      · obtain ⟨rfl, _⟩ := h2; simp at h3
      · obtain ⟨_, rfl, _⟩ := h2; simp at h3
      · obtain ⟨_, _, rfl, _⟩ := h2; simp [exRows] at h3
      · simp at h2
    · simp [exLog] at h1

def exFileClient : Client := ⟨{ ReplicaOptions.default with binlog := .fromStart }, false, none, none⟩

/-- The server announces `bin.1` and sends the first `k` events of the log. -/
theorem exServe (calm : Prop) : Serve exLog calm ⟨"bin.1".toList, 4⟩ ⟨"bin.1".toList, 200⟩
    [(exHeader 0, .rotate ⟨"bin.1".toList, 4⟩), (exHeader 120, .unknown), (exHeader 160, .tableMap exTable), (exHeader 200, exRows)]
    [(exHeader 120, .unknown), (exHeader 160, .tableMap exTable), (exHeader 200, exRows)] := by
  have h0 := (Serve.start (log := exLog) (calm := calm) (p := ⟨"bin.1".toList, 4⟩)).announce (h := exHeader 0) (Or.inl rfl)
  have h1 := h0.event (e := (exHeader 120, .unknown)) ⟨_, List.mem_cons_self, rfl, [], _, rfl, rfl⟩
  have h2 := h1.event (e := (exHeader 160, .tableMap exTable)) ⟨_, List.mem_cons_self, rfl, [(exHeader 120, .unknown)], _, rfl, rfl⟩
  exact h2.event (e := (exHeader 200, exRows))
    ⟨_, List.mem_cons_self, rfl, [(exHeader 120, .unknown), (exHeader 160, .tableMap exTable)], _, rfl, rfl⟩

example : LogOk exLog ∧ exFileClient.options.binlog.startingStrategy ≠ .fromGtid ∧
    (exFileClient.options.binlog.startingStrategy ≠ .fromEnd ∨ exFileClient.options.binlog.filename ≠ []) ∧
    Valid exLog (exFileClient.place exLog) ∧
    (∃ q sent real, Serve exLog False (exFileClient.place exLog) q sent real ∧ real.length = 3) :=
  ⟨exLog_ok, by decide, Or.inl (by decide), ⟨_, List.mem_cons_self, rfl, [], _, rfl, rfl⟩, _, _, _, exServe False, rfl⟩

/-- C23 is false: with two row events behind one table map, a crash after the first makes the server resume at the second, whose table
map is not sent. -/
theorem C23_second_rows_event_false (m : Mode) : ∃ (sent real : List Ev) (q : Place) (c' : Client),
    LogOk exLog ∧ NoTrailingMap exLog ∧ Preceded (remaining exLog (exFileClient.place exLog)) ∧
    Serve exLog True (exFileClient.place exLog) q sent real ∧ commitAll m exFileClient sent = .ok c' ∧
    ¬ Preceded (remaining exLog (c'.place exLog)) := by
  obtain ⟨c', tms, front, h1, _, _, h4, h5, h6, h7, h8⟩ := session m exLog_ok (calm := False) False.elim exFileClient (by decide)
    ⟨_, List.mem_cons_self, rfl, [], _, rfl, rfl⟩ (exServe False)
  refine ⟨_, _, _, c', exLog_ok, ?_, ?_, exServe True, h1, ?_⟩
  · intro f hf e he
    simp only [exLog, List.mem_cons, List.not_mem_nil, or_false] at hf
    rcases hf with rfl | rfl <;> simp only [List.getLast?_cons_cons, List.getLast?_singleton, Option.some.injEq] at he <;>
      rw [← he] <;> exact id
  · intro a e b id h2 h3
    have hafter : remaining exLog (exFileClient.place exLog) = exLog.flatMap (·.events) := rfl
    rw [hafter] at h2
    rcases a with _ | ⟨x, _ | ⟨y, a⟩⟩
    · simp only [exLog, List.flatMap_cons, List.cons_append, List.nil_append, List.cons.injEq] at h2
      rw [← h2.1] at h3
      exact h3.elim
    · simp only [exLog, List.flatMap_cons, List.cons_append, List.nil_append, List.cons.injEq] at h2
      rw [← h2.2.1] at h3
      exact h3.elim
    · simp only [exLog, List.flatMap_cons, List.cons_append, List.nil_append, List.cons.injEq] at h2
      refine ⟨y, by simp, ?_⟩
      rw [← h2.2.1]
      have hmem : e ∈ a ++ e :: b := by simp
      rw [← h2.2.2] at hmem
      simp only [List.flatMap_nil, List.mem_cons, List.not_mem_nil, or_false] at hmem
      rcases hmem with rfl | rfl | rfl | rfl | rfl | rfl | rfl <;> simp_all [RowsOf, Maps, exRows, exTable]
  · intro hp
    have htms : tms = [] := by
      rcases List.eq_nil_or_concat tms with h | ⟨t, x, h⟩
      · exact h
      · exfalso
        have hx := h6 x (by rw [h]; simp)
        rw [h, List.concat_eq_append, ← List.append_assoc] at h7
        have := congrArg List.getLast? h7
        simp only [List.getLast?_cons_cons, List.getLast?_singleton, List.getLast?_concat, Option.some.injEq] at this
        rw [← this] at hx
        exact hx
    rw [h5, htms, List.nil_append] at hp
    have hq : remaining exLog ⟨"bin.1".toList, 200⟩ = [] ++ (exHeader 240, exRows) :: [(exHeader 270, .xid ⟨9⟩),
      (exHeader 300, .rotate ⟨"bin.2".toList, 4⟩), (exHeader 120, .unknown), (exHeader 160, .tableMap exTable), (exHeader 200, exRows)] := by
      rfl
    obtain ⟨t, ht, _⟩ := hp _ _ _ 7 hq rfl
    simp at ht

/-- The second file alone meets the hypotheses of `C23_decodable_partial`. -/
example : NoTrailingMap [exLog[1]] ∧ Decodable (remaining [exLog[1]] ⟨"bin.2".toList, 4⟩) := by
  constructor
  · intro f hf e he
    simp only [exLog, List.mem_singleton] at hf
    subst hf
    simp only [List.getElem_cons_succ, List.getElem_cons_zero, List.getLast?_cons_cons, List.getLast?_singleton,
      Option.some.injEq] at he
    rw [← he]
    exact id
  · intro a e b id h2 h3
    have hafter : remaining [exLog[1]] ⟨"bin.2".toList, 4⟩ =
      [(exHeader 120, .unknown), (exHeader 160, .tableMap exTable), (exHeader 200, exRows)] := rfl
    rw [hafter] at h2
    rcases a with _ | ⟨x, _ | ⟨y, _ | ⟨z, a⟩⟩⟩ <;> simp only [List.nil_append, List.cons_append, List.cons.injEq] at h2
    · rw [← h2.1] at h3; exact h3.elim
    · rw [← h2.2.1] at h3; exact h3.elim
    · refine ⟨[x], [y], rfl, ?_, y, by simp, ?_⟩
      · simp only [List.mem_singleton, forall_eq]
        rw [← h2.2.1]
        trivial
      · rw [← h2.2.1]
        rw [← h2.2.2.1] at h3
        exact h3
    · simp at h2

end MysqlCdc
