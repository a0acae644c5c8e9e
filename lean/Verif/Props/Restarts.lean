import Verif.Spec.Restarts
import Verif.Props.Keyed
/-!
# C140: programs that are started again from the text of the recorded position
-/

namespace MysqlCdc

open Spec

/-! ## The text of a set -/

theorem entryText_display_ok {u : Uuid} (hu : UuidOk u) (hl : u.uuid.length = 36) {ivs : List Interval} (hne : ivs ≠ []) :
    EntryText (u, ivs) (UuidSet.display ⟨u, ivs⟩) := by
  refine ⟨hu, hl, hne, ivs.map Interval.display, ?_, ?_⟩
  · rw [List.forall₂_map_right_iff, List.forall₂_same]
    exact fun iv _ => intervalText_display iv
  · simp only [UuidSet.display, joinWith_eq]

theorem nonempty_of_in {n : Nat} {ivs : List Interval} (h : InIvs n ivs) : ivs ≠ [] := by
  rintro rfl
  simp [InIvs] at h

theorem collapseP_nonempty {ivs : List Interval} (ho : Ordered ivs) (hne : ivs ≠ []) : collapseP ivs ≠ [] := by
  cases ivs with
  | nil => exact absurd rfl hne
  | cons a l =>
    refine nonempty_of_in (n := a.start) ((collapseP_mem _ ho _).2 ?_)
    rw [inIvs_cons]
    exact .inl ⟨Nat.le_refl _, ho.1 a (by simp)⟩

/-- The text of a recorded set is parsed, and the set that comes out is as good as the recorded one. -/
theorem printable_parse (m : Mode) {g : GtidSet} (hw : Wf g) (ho : AllOrdered g) (hp : Printable g) :
    ∃ g', GtidSet.parse m g.display = .ok g' ∧ Wf g' ∧ AllOrdered g' ∧ Printable g' ∧ ∀ u n, Has g' u n ↔ Has g u n := by
  by_cases hemp : g.uuidSets = []
  · have : g.display = [] := by
      unfold GtidSet.display
      rw [hemp]; simp [HMap.values, sortStrings, joinWith]
    refine ⟨GtidSet.new, by rw [this]; rfl, ⟨by simp [GtidSet.new], by simp [GtidSet.new]⟩, by simp [AllOrdered, GtidSet.new], by simp [Printable, GtidSet.new],
      fun u n => by simp [Has, GtidSet.new, hemp]⟩
  · obtain ⟨l', hl1, hl2⟩ := perm_map_exists (f := fun e : RStr × UuidSet => e.2.display)
      (sortStrings_perm (g.uuidSets.values.map UuidSet.display)).symm g.uuidSets (by simp [HMap.values])
    have hdisp : g.display = joinWith ',' (l'.map (fun e => e.2.display)) := by
      unfold GtidSet.display; rw [hl2]
    have hl'ne : l' ≠ [] := by rintro rfl; exact hemp hl1.eq_nil
    have hmem : ∀ e ∈ l', e ∈ g.uuidSets := fun e he => hl1.mem_iff.2 he
    have hent : ∀ e ∈ l', EntryText (e.2.sourceId, e.2.intervals) e.2.display :=
      fun e he => entryText_display_ok (hw.uuids e (hmem e he)).1 (hp e (hmem e he)).1 (hp e (hmem e he)).2
    have htext : SetText (l'.map (fun e => (e.2.sourceId, e.2.intervals))) g.display := by
      refine ⟨by simpa using hl'ne, l'.map (fun e => e.2.display), ?_, ?_⟩
      · rw [List.forall₂_map_left_iff, List.forall₂_map_right_iff, List.forall₂_same]
        intro e he
        exact ⟨[], e.2.display, [], by simp, by simp, by simp, hent e he⟩
      · rw [hdisp, ← joinWith_eq, List.filter_eq_self]
        intro c hc
        rcases mem_joinWith hc with rfl | ⟨p, hp, hcp⟩
        · rfl
        · obtain ⟨e, he, rfl⟩ := List.mem_map.1 hp
          simpa using (EntryText.chars (hent e he) c hcp).2.1
    have hparse := gtidSet_parse_ok m htext (fun e he iv hiv => by
        obtain ⟨x, hx, rfl⟩ := List.mem_map.1 he
        have := (ho x (hmem x hx)).2 iv hiv
        exact ⟨(ho x (hmem x hx)).1.1 iv hiv, by omega⟩)
      (fun e he => by
        obtain ⟨x, hx, rfl⟩ := List.mem_map.1 he
        exact uuidSet_new_ok m _ _ (ho x (hmem x hx)).2)
    have hkeys : (l'.map (·.1)).Nodup := (hl1.map _).nodup_iff.1 hw.keys
    have heq : ((l'.map (fun e => (e.2.sourceId, e.2.intervals))).map (·.1.uuid)) = l'.map (·.1) := by
      rw [List.map_map]
      apply List.map_congr_left
      intro e he
      exact (hw.uuids e (hmem e he)).2.symm
    rw [insertAll_distinct _ [] (by simpa [heq] using hkeys), List.nil_append, List.map_map] at hparse
    refine ⟨_, hparse, ⟨?_, ?_⟩, ?_, ?_, fun u n => ?_⟩
    · intro e he
      obtain ⟨x, hx, rfl⟩ := List.mem_map.1 he
      exact ⟨(hw.uuids x (hmem x hx)).1, rfl⟩
    · rw [← heq, List.map_map] at hkeys
      rw [List.map_map]
      exact hkeys
    · intro e he
      obtain ⟨x, hx, rfl⟩ := List.mem_map.1 he
      exact ⟨(collapseP_canonical _ (ho x (hmem x hx)).1).ordered, collapseP_range _ (ho x (hmem x hx)).2⟩
    · intro e he
      obtain ⟨x, hx, rfl⟩ := List.mem_map.1 he
      exact ⟨(hp x (hmem x hx)).1, collapseP_nonempty (ho x (hmem x hx)).1 (hp x (hmem x hx)).2⟩
    · constructor
      · rintro ⟨e, he, h1, h2⟩
        obtain ⟨x, hx, rfl⟩ := List.mem_map.1 he
        exact ⟨x, hmem x hx, h1, (collapseP_mem _ (ho x (hmem x hx)).1 _).1 h2⟩
      · rintro ⟨x, hx, h1, h2⟩
        exact ⟨_, List.mem_map.2 ⟨x, hl1.mem_iff.1 hx, rfl⟩, h1, (collapseP_mem _ (ho x hx).1 _).2 h2⟩

/-! ## What sessions record can be printed -/

/-- A GTID that may be recorded: its uuid text has 36 characters. -/
def Spellable (g : Gtid) : Prop := GtidOk g ∧ g.sourceId.uuid.length = 36

/-- The client records a set that can be printed, of which all but what `start` has is in `from_`. -/
def RecordsPrintable (start : GtidSet) (from_ : List Gtid) (c : Client) : Prop :=
  ∃ set, c.options.binlog.gtidSet = some set ∧ Wf set ∧ AllOrdered set ∧ Printable set ∧
    ∀ u n, Has set u n → Has start u n ∨ ∃ g ∈ from_, g.sourceId.data = u ∧ g.transactionId = n

/-- And the GTID that it holds is of these. -/
structure KeepsPrintable (start : GtidSet) (from_ : List Gtid) (c : Client) : Prop where
  set : RecordsPrintable start from_ c
  last : ∀ g, c.mysqlGtid = some g → g ∈ from_ ∧ Spellable g

theorem KeepsPrintable.commitGtid {m : Mode} {start : GtidSet} {xs : List Gtid} {c c' : Client} (h : KeepsPrintable start xs c) (hc : c.commitGtid m = .ok c') :
    KeepsPrintable start xs c' := by
  obtain ⟨⟨set, h1, h2, h3, h4, h5⟩, h6⟩ := h
  unfold Client.commitGtid at hc
  rw [h1] at hc
  cases hl : c.mysqlGtid with
  | none =>
    simp only [hl, commitMysql, Res.bind_ok] at hc
    obtain rfl := Res.ok.inj hc
    exact ⟨⟨set, rfl, h2, h3, h4, h5⟩, fun g' hg' => by cases hg'⟩
  | some g =>
    obtain ⟨k1, k2, k3⟩ := h6 g hl
    rw [hl] at hc
    simp only [commitMysql] at hc
    rcases gtidSet_addGtid_core m set g h2 h3 k2.1 k2.2 with ⟨-, e1⟩ | ⟨-, ivs, e1, e2, e3, e4⟩
    · rw [e1] at hc
      simp only [Res.bind_ok] at hc
      obtain rfl := Res.ok.inj hc
      exact ⟨⟨set, rfl, h2, h3, h4, h5⟩, fun g' hg' => h6 g' (hl.trans hg')⟩
    · rw [e1] at hc
      simp only [Res.bind_ok] at hc
      obtain rfl := Res.ok.inj hc
      refine ⟨⟨_, rfl, wf_insert h2 k2.1, ?_, ?_, ?_⟩, fun g' hg' => h6 g' (hl.trans hg')⟩
      · rintro ⟨k, s⟩ he
        rcases (HMap.mem_insert h2.keys).1 he with ⟨_, h'⟩ | ⟨_, h'⟩
        · subst h'
          exact ⟨(collapseP_canonical ivs e2).ordered, collapseP_range ivs e3⟩
        · exact h3 _ h'
      · rintro ⟨k, s⟩ he
        rcases (HMap.mem_insert h2.keys).1 he with ⟨_, h'⟩ | ⟨_, h'⟩
        · subst h'
          exact ⟨k3, collapseP_nonempty e2 (nonempty_of_in ((e4 g.transactionId).2 (.inr rfl)))⟩
        · exact h4 _ h'
      · rintro u n ⟨⟨k, s⟩, he, hu, hn⟩
        rcases (HMap.mem_insert h2.keys).1 he with ⟨_, h'⟩ | ⟨_, h'⟩
        · subst h'
          rw [collapseP_mem _ e2, e4] at hn
          rcases hn with hn | hn
          · refine h5 u n ?_
            unfold ivsOf at hn
            cases hk : set.uuidSets.get? g.sourceId.uuid with
            | none => simp [hk, InIvs] at hn
            | some s =>
              have hm := HMap.get?_eq_some_mem hk
              obtain ⟨q1, q2⟩ := h2.uuids _ hm
              refine ⟨_, hm, ?_, by simpa [hk] using hn⟩
              rw [uuidOk_data q1 k2.1 q2.symm]
              exact hu
          · exact .inr ⟨g, k1, hu, hn.symm⟩
        · exact h5 u n ⟨_, h', hu, hn⟩

theorem KeepsPrintable.commit {m : Mode} {start : GtidSet} {xs : List Gtid} {c c' : Client} (h : KeepsPrintable start xs c) {hd : EventHeader} {e : BinlogEvent}
    (he : ∀ x, e = .mySqlGtid x → x.gtid ∈ xs ∧ Spellable x.gtid) (hc : c.commit m hd e = .ok c') : KeepsPrintable start xs c' := by
  have place : ∀ c1, KeepsPrintable start xs c1 → KeepsPrintable start xs (c1.updateBinlogPosition hd e) := by
    intro c1 h1
    have hpos : ∀ f p, KeepsPrintable start xs (c1.setPosition f p) := fun f p => ⟨h1.set, h1.last⟩
    unfold Client.updateBinlogPosition
    split
    · exact h1
    · exact hpos _ _
    · split
      · exact hpos _ _
      · exact h1
  unfold Client.commit at hc
  cases hu : c.updateGtidPosition m e with
  | ok c1 =>
    rw [hu] at hc
    obtain rfl := Res.ok.inj hc
    refine place c1 ?_
    unfold Client.updateGtidPosition at hu
    split at hu
    · obtain rfl := Res.ok.inj hu
      exact h
    · split at hu
      · obtain rfl := Res.ok.inj hu
        exact ⟨h.set, h.last⟩
      · obtain rfl := Res.ok.inj hu
        refine ⟨h.set, fun g hg => ?_⟩
        obtain rfl := Option.some.inj hg
        exact he _ rfl
      · exact h.commitGtid hu
      · split at hu
        · obtain rfl := Res.ok.inj hu
          exact h
        · split at hu
          · obtain rfl := Res.ok.inj hu
            exact ⟨h.set, h.last⟩
          · split at hu
            · exact h.commitGtid hu
            · split at hu
              · exact h.commitGtid hu
              · obtain rfl := Res.ok.inj hu
                exact h
      · obtain rfl := Res.ok.inj hu
        exact h
  | err x => rw [hu] at hc; cases hc
  | panic => rw [hu] at hc; cases hc
  | hang => rw [hu] at hc; cases hc

theorem KeepsPrintable.commitAll {m : Mode} {start : GtidSet} {xs : List Gtid} {c c' : Client} (h : KeepsPrintable start xs c) {es : List Ev}
    (he : ∀ e ∈ es, ∀ x, e.2 = .mySqlGtid x → x.gtid ∈ xs ∧ Spellable x.gtid) (hc : commitAll m c es = .ok c') : KeepsPrintable start xs c' := by
  induction es generalizing c with
  | nil =>
    obtain rfl := Res.ok.inj hc
    exact h
  | cons e es ih =>
    rw [MysqlCdc.commitAll] at hc
    cases hu : c.commit m e.1 e.2 with
    | ok c1 =>
      rw [hu] at hc
      exact ih (h.commit (fun x hx => he e (by simp) x hx) hu) (fun e' he' => he e' (by simp [he'])) hc
    | err x => rw [hu] at hc; cases hc
    | panic => rw [hu] at hc; cases hc
    | hang => rw [hu] at hc; cases hc

/-- The GTID events of a stream are those of its transactions. -/
theorem flat_gtid {parts : List (Part Gtid)} (hp : ∀ p ∈ parts, p.Ok MysqlTx) {e : Ev} (he : e ∈ flat parts) {x : MySqlGtidEvent}
    (hx : e.2 = .mySqlGtid x) : x.gtid ∈ (parts.flatMap Part.txs).map (·.1) := by
  obtain ⟨p, h1, h2⟩ := List.mem_flatMap.1 he
  have h3 := hp p h1
  have neutral : ∀ {b : BinlogEvent}, Neutral b → b ≠ .mySqlGtid x := by rintro b hb rfl; exact hb
  obtain ⟨hd, b⟩ := e
  obtain rfl : b = .mySqlGtid x := hx
  cases p with
  | noise e' =>
    obtain rfl : _ = e' := List.mem_singleton.1 h2
    exact absurd rfl (neutral h3)
  | tx g es =>
    have h3 : MysqlTx g es := h3
    have h2 : (hd, BinlogEvent.mySqlGtid x) ∈ es := h2
    suffices hg : x.gtid = g by
      rw [hg]
      exact List.mem_map.2 ⟨(g, es), List.mem_flatMap.2 ⟨_, h1, by simp [Part.txs]⟩, rfl⟩
    cases h3 with
    | @block h0 hb he x' b e mid body hx' hm hbegin hi hend =>
      simp only [List.cons_append, List.mem_cons, List.mem_append, List.not_mem_nil, or_false, Prod.mk.injEq] at h2
      rcases h2 with ⟨-, h2⟩ | (h2 | ⟨-, rfl⟩ | h2) | ⟨-, rfl⟩
      · obtain rfl := BinlogEvent.mySqlGtid.inj h2
        exact hx'
      · exact absurd rfl (neutral (hm _ h2))
      · exact hbegin.elim
      · exact absurd trivial (hi _ h2).1
      · exact hend.elim
    | @auto h0 he x' e mid hx' hm hauto =>
      simp only [List.cons_append, List.mem_cons, List.mem_append, List.not_mem_nil, or_false, Prod.mk.injEq] at h2
      rcases h2 with ⟨-, h2⟩ | h2 | ⟨-, rfl⟩
      · obtain rfl := BinlogEvent.mySqlGtid.inj h2
        exact hx'
      · exact absurd rfl (neutral (hm _ h2))
      · exact hauto.elim

/-- What a client that starts with the set, and with whatever GTID it holds, is left with by an attempt. -/
theorem attempt_keeps {m : Mode} {start : GtidSet} {xs : List Gtid} {c c1 : Client} {crypto : Crypto} {net : Except IoKind Channel} {stream : BinlogEvents}
    (h : RecordsPrintable start xs c) (hr : c.replicate m crypto net = (.ok stream, c1)) : KeepsPrintable start xs c1 := by
  rcases C100_attempt m crypto c net with ⟨place, h'⟩ | ⟨-, h'⟩ <;> rw [hr] at h'
  · obtain rfl : c1 = _ := h'
    exact ⟨h, fun g hg => by cases hg⟩
  · exact absurd rfl (h' stream)

/-- What sessions record can be printed. -/
theorem lagging_keeps {σ : Type} {m : Mode} {apply : σ → List Ev → σ} {c c' : Client} {data data' : σ} {log log' : List (Tx Gtid)}
    (h : LaggingSessions m apply c data log c' data' log') (hs : c.options.binlog.startingStrategy = .fromGtid) {start : GtidSet}
    (hk : RecordsPrintable start (log'.map (·.1)) c) (hg : ∀ t ∈ log', Spellable t.1) : RecordsPrintable start (log'.map (·.1)) c' := by
  induction h with
  | stop => exact hk
  | grow more _ ih => exact ih hs hk hg
  | @failed c c' data data' log log' crypto net _ ih =>
    have hopt := replicate_keeps_options m crypto c net (.inl (by rw [hs]; decide))
    exact ih (by rw [hopt]; exact hs) (by rw [RecordsPrintable, hopt]; exact hk) hg
  | @session c c1 c2 c' data data' log log' crypto chan stream taken committed hf hr hsess hpre hc h ih =>
    obtain ⟨set, hset, -⟩ := id hk
    obtain ⟨parts, hp, hlog, htaken, -⟩ := copySession_parts hs hset hf hr hsess
    have hopt := replicate_keeps_options m crypto c (.ok chan) (.inl (by rw [hs]; decide))
    rw [hr] at hopt
    have hopt : c1.options = c.options := hopt
    refine ih (by rw [commitAll_keeps hc, hopt, hs]) ((attempt_keeps hk hr).commitAll ?_ hc).set hg
    intro e he x hx
    have hmem := flat_gtid hp (List.mem_of_mem_take (htaken ▸ hpre.subset he)) hx
    rw [hlog] at hmem
    obtain ⟨t, ht, hxt⟩ := List.mem_map.1 hmem
    have ht' : t ∈ log' := h.grows.subset (List.mem_of_mem_filter ht)
    exact ⟨List.mem_map.2 ⟨t, ht', hxt⟩, hxt ▸ hg t ht'⟩

/-! ## Programs that are started again -/

theorem Spec.Redelivered.trans {α : Type} {a b c : List α} {xs ys : List (List α)} (h : Redelivered a xs b) (h' : Redelivered b ys c) :
    Redelivered a (xs ++ ys) c := by
  induction h with
  | stop => exact h'
  | run _ ih => exact .run (ih h')

theorem Spec.Redelivered.longer {α : Type} {a b : List α} {xs : List (List α)} (h : Redelivered a xs b) (more : List α) :
    Redelivered (a ++ more) xs (b ++ more) := by
  induction h with
  | stop => exact .stop
  | run _ ih =>
    rw [List.append_assoc _ _ more]
    rw [List.append_assoc] at ih
    exact .run ih

/-- A program with a MySQL server, as in C137, that is stopped, or killed, and started again, any number of times. What stays is the copy and, as text, the
recorded set: the new program parses the text and makes a client that starts from that GTID set, whatever its other options are. -/
inductive Restarts {σ : Type} (m : Mode) (apply : σ → List Ev → σ) :
    Client → σ → (log : List (Tx Gtid)) → Client → σ → (log' : List (Tx Gtid)) → Prop where
  | last {c c' : Client} {data data' : σ} {log log' : List (Tx Gtid)} (h : LaggingSessions m apply c data log c' data' log') :
      Restarts m apply c data log c' data' log'
  | again {c c1 c2 c' : Client} {data data1 data' : σ} {log log1 log' : List (Tx Gtid)} {saved : GtidSet} {text : RStr} {set : GtidSet} {o : ReplicaOptions}
      (h : LaggingSessions m apply c data log c1 data1 log1) (hsaved : c1.options.binlog.gtidSet = some saved) (htext : text = saved.display)
      (hparse : GtidSet.parse m text = .ok set) (hbinlog : o.binlog = .fromMysqlGtid set) (hnew : Client.new o = .ok c2)
      (more : Restarts m apply c2 data1 log1 c' data' log') : Restarts m apply c data log c' data' log'

theorem Restarts.grows {σ : Type} {m : Mode} {apply : σ → List Ev → σ} {c c' : Client} {data data' : σ} {log log' : List (Tx Gtid)}
    (h : Restarts m apply c data log c' data' log') : log <+: log' := by
  induction h with
  | last h => exact h.grows
  | again h _ _ _ _ _ _ ih => exact h.grows.trans ih

/-- What the programs have done. -/
theorem restarts_runs {σ : Type} {m : Mode} {apply : σ → List Ev → σ} {c c' : Client} {data data' : σ} {log log' : List (Tx Gtid)}
    (h : Restarts m apply c data log c' data' log') (set : GtidSet) (hs : c.options.binlog.startingStrategy = .fromGtid)
    (hset : c.options.binlog.gtidSet = some set) (hw : Wf set) (ho : AllOrdered set) (hpr : Printable set)
    (hg : ∀ t ∈ log', Spellable t.1)
    (hd : (log'.map fun t => gtidKey t.1).Nodup) (old new : List (Tx Gtid)) (hold : old <+: log) (hnew : log' = old ++ new)
    (hhas : ∀ t ∈ log', Has set t.1.sourceId.data t.1.transactionId ↔ t ∈ old) :
    ∃ runs later set', Redelivered new runs later ∧ data' = dataAfter apply data runs.flatten ∧ c'.options.binlog.gtidSet = some set' ∧
      Wf set' ∧ AllOrdered set' ∧ Printable set' ∧ (∀ t ∈ log', Has set' t.1.sourceId.data t.1.transactionId ↔ t ∉ later) ∧
      c'.options.binlog.startingStrategy = .fromGtid := by
  induction h generalizing set old new with
  | @last c c' data data' log log' h =>
    obtain ⟨runs, later, set', r1, r2, r3, r4, r5, r6, r7⟩ := laggingSessions_runs h set hs hset hw ho (fun t ht => (hg t ht).1) hd old new hold hnew hhas
    have hk := lagging_keeps h hs (start := set) ⟨set, hset, hw, ho, hpr, fun u n hn => .inl hn⟩ hg
    obtain ⟨set2, k1, -, -, k4, -⟩ := hk
    obtain rfl : set' = set2 := Option.some.inj (r3.symm.trans k1)
    exact ⟨runs, later, set', r1, r2, r3, r4, r5, k4, r6, r7⟩
  | @again c c1 c2 c' data data1 data' log log1 log' saved text set2 o h hsaved htext hparse hbinlog hc2 more ih =>
    obtain ⟨extra, rfl⟩ := more.grows
    obtain ⟨new1, rfl⟩ := hold.trans h.grows
    obtain rfl : new = new1 ++ extra := by
      rw [List.append_assoc] at hnew
      exact (List.append_cancel_left hnew).symm
    have hg1 : ∀ t ∈ old ++ new1, Spellable t.1 := fun t ht => hg t (List.mem_append_left _ ht)
    have hd1 : ((old ++ new1).map fun t => gtidKey t.1).Nodup := by
      rw [List.map_append] at hd
      exact hd.of_append_left
    obtain ⟨runs1, later1, set', r1, r2, r3, r4, r5, r6, -⟩ := laggingSessions_runs h set hs hset hw ho (fun t ht => (hg1 t ht).1) hd1 old new1 hold rfl
      (fun t ht => hhas t (List.mem_append_left _ ht))
    obtain rfl : saved = set' := Option.some.inj (hsaved.symm.trans r3)
    have hk := lagging_keeps h hs (start := set) ⟨set, hset, hw, ho, hpr, fun u n hn => .inl hn⟩ hg1
    obtain ⟨saved2, k1, -, -, k4, k5⟩ := hk
    obtain rfl : saved = saved2 := Option.some.inj (hsaved.symm.trans k1)
    obtain ⟨set3, p1, p2, p3, p4, p5⟩ := printable_parse m r4 r5 k4
    obtain rfl : set2 = set3 := by
      rw [htext, p1] at hparse
      exact (Res.ok.inj hparse).symm
    have e1 := client_new_ok hc2
    obtain ⟨done, q1, -⟩ := r1.given
    subst q1
    -- of the transactions that came later, none is recorded
    have hhas2 : ∀ t ∈ old ++ (done ++ later1) ++ extra, Has set2 t.1.sourceId.data t.1.transactionId ↔ t ∈ old ++ done := by
      have apart : ∀ xs ys : List (Tx Gtid), old ++ (done ++ later1) ++ extra = xs ++ ys → ∀ t ∈ xs, ∀ t' ∈ ys, gtidKey t.1 ≠ gtidKey t'.1 := by
        intro xs ys hxy t ht t' ht'
        rw [hxy, List.map_append, List.nodup_append] at hd
        exact hd.2.2 _ (List.mem_map.2 ⟨t, ht, rfl⟩) _ (List.mem_map.2 ⟨t', ht', rfl⟩)
      intro t ht
      rw [p5]
      constructor
      · intro hh
        rcases List.mem_append.1 ht with ht1 | ht1
        · have hnot := (r6 t ht1).1 hh
          rcases List.mem_append.1 ht1 with ht2 | ht2
          · exact List.mem_append_left _ ht2
          · rcases List.mem_append.1 ht2 with ht3 | ht3
            · exact List.mem_append_right _ ht3
            · exact absurd ht3 hnot
        · rcases k5 _ _ hh with h1 | ⟨g, hg', h1, h2⟩
          · exact List.mem_append_left _ ((hhas t ht).1 h1)
          · obtain ⟨t', ht', rfl⟩ := List.mem_map.1 hg'
            exact absurd (by simp [gtidKey, h1, h2]) (apart _ _ rfl t' ht' t ht1)
      · intro hh
        have ht1 : t ∈ old ++ (done ++ later1) := by
          rw [← List.append_assoc]
          exact List.mem_append_left _ hh
        refine (r6 t ht1).2 fun hl => apart (old ++ done) (later1 ++ extra) (by simp) t hh t (List.mem_append_left _ hl) rfl
    obtain ⟨runs, later, set4, s1, s2, s3⟩ := ih set2 (by rw [e1, hbinlog]; rfl) (by rw [e1, hbinlog]; rfl) p2 p3 p4 hg hd (old ++ done) (later1 ++ extra)
      ⟨later1, by simp⟩ (by simp) hhas2
    refine ⟨runs1 ++ runs, later, set4, (r1.longer extra).trans s1, ?_, s3⟩
    rw [s2, r2, List.flatten_append, dataAfter_append]

/-- **C140.** With a MySQL server: a program keeps a copy, its commits lag behind, and it is stopped or killed and started again any number of times, each time
from the text of the recorded set. It gets the transactions that it has not recorded again, in order and without leaving one out: what it applies are
runs, of which each begins at the first transaction that is not recorded. -/
theorem C140_again {σ : Type} {m : Mode} {apply : σ → List Ev → σ} {c c' : Client} {data data' : σ} {log log' : List (Tx Gtid)}
    (h : Restarts m apply c data log c' data' log') (set : GtidSet) (hs : c.options.binlog.startingStrategy = .fromGtid)
    (hset : c.options.binlog.gtidSet = some set) (hw : Wf set) (ho : AllOrdered set) (hpr : Printable set)
    (hg : ∀ t ∈ log', GtidOk t.1 ∧ t.1.sourceId.uuid.length = 36)
    (hd : (log'.map fun t => gtidKey t.1).Nodup) (old new : List (Tx Gtid)) (hold : old <+: log) (hnew : log' = old ++ new)
    (hhas : ∀ t ∈ log', Has set t.1.sourceId.data t.1.transactionId ↔ t ∈ old) :
    ∃ runs done left set', Redelivered new runs left ∧ new = done ++ left ∧ (∀ t ∈ done, t ∈ runs.flatten) ∧
      data' = dataAfter apply data runs.flatten ∧ c'.options.binlog.gtidSet = some set' ∧
      ∀ t ∈ log', Has set' t.1.sourceId.data t.1.transactionId ↔ t ∉ left := by
  obtain ⟨runs, left, set', h1, h2, h3, -, -, -, h4, -⟩ := restarts_runs h set hs hset hw ho hpr hg hd old new hold hnew hhas
  obtain ⟨done, h5, h6⟩ := h1.given
  exact ⟨runs, done, left, set', h1, h5, h6, h2, h3, h4⟩

/-- **C140.** Whenever the program stops, it can be started again: the text of the recorded set is parsed, to a set that has the same transactions. -/
theorem C140_text_parses {σ : Type} {m : Mode} {apply : σ → List Ev → σ} {c c' : Client} {data data' : σ} {log log' : List (Tx Gtid)}
    (h : Restarts m apply c data log c' data' log') (set : GtidSet) (hs : c.options.binlog.startingStrategy = .fromGtid)
    (hset : c.options.binlog.gtidSet = some set) (hw : Wf set) (ho : AllOrdered set) (hpr : Printable set)
    (hg : ∀ t ∈ log', GtidOk t.1 ∧ t.1.sourceId.uuid.length = 36)
    (hd : (log'.map fun t => gtidKey t.1).Nodup) (old new : List (Tx Gtid)) (hold : old <+: log) (hnew : log' = old ++ new)
    (hhas : ∀ t ∈ log', Has set t.1.sourceId.data t.1.transactionId ↔ t ∈ old) :
    ∃ set' set2, c'.options.binlog.gtidSet = some set' ∧ GtidSet.parse m set'.display = .ok set2 ∧ ∀ u n, Has set2 u n ↔ Has set' u n := by
  obtain ⟨runs, left, set', -, -, h3, h4, h5, h6, -, -⟩ := restarts_runs h set hs hset hw ho hpr hg hd old new hold hnew hhas
  obtain ⟨set2, p1, -, -, -, p5⟩ := printable_parse m h4 h5 h6
  exact ⟨set', set2, h3, p1, p5⟩

/-- **C140.** When transactions overwrite, each place of the copy holds what it held on the server after all the recorded transactions and some first ones of
the others, whatever restarts there were. If all are recorded, the copy is the server's data. -/
theorem C140_places {K V : Type} {m : Mode} {apply : (K → V) → List Ev → K → V} {c c' : Client} {data data' : K → V} {log log' : List (Tx Gtid)}
    (h : Restarts m apply c data log c' data' log') (set : GtidSet) (hs : c.options.binlog.startingStrategy = .fromGtid)
    (hset : c.options.binlog.gtidSet = some set) (hw : Wf set) (ho : AllOrdered set) (hpr : Printable set)
    (hg : ∀ t ∈ log', GtidOk t.1 ∧ t.1.sourceId.uuid.length = 36)
    (hd : (log'.map fun t => gtidKey t.1).Nodup) (old new : List (Tx Gtid)) (hold : old <+: log) (hnew : log' = old ++ new)
    (hhas : ∀ t ∈ log', Has set t.1.sourceId.data t.1.transactionId ↔ t ∈ old) (hover : ∀ t ∈ new, Overwrites apply t.2) :
    ∃ done left set', new = done ++ left ∧ c'.options.binlog.gtidSet = some set' ∧
      (∀ t ∈ log', Has set' t.1.sourceId.data t.1.transactionId ↔ t ∉ left) ∧
      (∀ k, ∃ first, first <+: left ∧ data' k = dataAfter apply data (done ++ first) k) ∧
      ((∀ t ∈ log', Has set' t.1.sourceId.data t.1.transactionId) → data' = dataAfter apply data new) := by
  obtain ⟨runs, left, set', h1, h2, h3, -, -, -, h4, -⟩ := restarts_runs h set hs hset hw ho hpr hg hd old new hold hnew hhas
  obtain ⟨done, h5, h6⟩ := h1.places hover data data fun k => ⟨[], List.nil_prefix, rfl⟩
  refine ⟨done, left, set', h5, h3, h4, h2 ▸ h6, fun hall => funext fun k => ?_⟩
  have hleft : left = [] := by
    rw [List.eq_nil_iff_forall_not_mem]
    intro t ht
    have hmem : t ∈ log' := by rw [hnew, h5]; simp [ht]
    exact (h4 t hmem).1 (hall t hmem) ht
  subst hleft
  obtain ⟨first, h7, h8⟩ := h6 k
  rw [List.prefix_nil] at h7
  rw [h2, h8, h7, h5]

section

variable {κ : Type} [DecidableEq κ]

/-- **C140.** A copy of the tables of a MySQL server by keys, kept by a program that may be killed anywhere and is started again from the text of the recorded
set. Under each key the copy has what the server's table had under that key at some time since the transactions that are recorded; when all are
recorded, it has exactly the rows of the server's tables, each under its key. -/
theorem C140_keyed {key : TableName → Cells → κ} {m : Mode} {c c' : Client} {data data' : Keyed κ} {log log' : List (Tx Gtid)}
    (h : Restarts m (keyedTransaction key) c data log c' data' log') (set : GtidSet) (hs : c.options.binlog.startingStrategy = .fromGtid)
    (hset : c.options.binlog.gtidSet = some set) (hw : Wf set) (ho : AllOrdered set) (hpr : Printable set)
    (hg : ∀ t ∈ log', GtidOk t.1 ∧ t.1.sourceId.uuid.length = 36)
    (hd : (log'.map fun t => gtidKey t.1).Nodup) (old new : List (Tx Gtid)) (hold : old <+: log) (hnew : log' = old ++ new)
    (hhas : ∀ t ∈ log', Has set t.1.sourceId.data t.1.transactionId ↔ t ∈ old)
    {columns : TableName → List (UInt8 × Nat)} (hcol : ∀ t, columns t ≠ []) {rows rows' : TableName → List (List Stored)}
    (hist : History columns rows new rows') {shown : TableName → List Cells} (hshown : RowsShown columns rows shown) (hi : Indexes key data shown)
    (hk : KeysHold key shown (changesOfTxs new)) :
    ∃ done left set', new = done ++ left ∧ c'.options.binlog.gtidSet = some set' ∧
      (∀ t ∈ log', Has set' t.1.sourceId.data t.1.transactionId ↔ t ∉ left) ∧
      (∀ t k, ∃ first between shown', first <+: left ∧ History columns rows (done ++ first) between ∧ RowsShown columns between shown' ∧
        ∀ r, data' (t, k) = some r ↔ r ∈ shown' t ∧ key t r = k) ∧
      ((∀ t ∈ log', Has set' t.1.sourceId.data t.1.transactionId) → ∃ shown', RowsShown columns rows' shown' ∧ Indexes key data' shown') := by
  obtain ⟨done, left, set', rfl, h1, h2, h3, h4⟩ := C140_places h set hs hset hw ho hpr hg hd old new hold hnew hhas fun t _ => C138_overwrites key t.2
  refine ⟨done, left, set', rfl, h1, h2, fun t k => ?_, fun hall => ?_⟩
  · obtain ⟨first, h5, h6⟩ := h3 (t, k)
    obtain ⟨between, shown', h7, h8, h9⟩ := keyed_place hcol hist hshown hi hk h5
    exact ⟨first, between, shown', h5, h7, h8, fun r => by rw [h6]; exact h9.2 t k r⟩
  · rw [h4 hall]
    exact C138_indexes hcol hist hshown hi hk

open Classical in
/-- **C140.** After whatever restarts, once the program has taken one session whole, the copy has exactly the rows of the server's tables. -/
theorem C140_catches_up {key : TableName → Cells → κ} {m : Mode} {c c' : Client} {data data' : Keyed κ} {log log' : List (Tx Gtid)}
    (h : Restarts m (keyedTransaction key) c data log c' data' log') (set : GtidSet) (hs : c.options.binlog.startingStrategy = .fromGtid)
    (hset : c.options.binlog.gtidSet = some set) (hw : Wf set) (ho : AllOrdered set) (hpr : Printable set)
    (hg : ∀ t ∈ log', GtidOk t.1 ∧ t.1.sourceId.uuid.length = 36)
    (hd : (log'.map fun t => gtidKey t.1).Nodup) (old new : List (Tx Gtid)) (hold : old <+: log) (hnew : log' = old ++ new)
    (hhas : ∀ t ∈ log', Has set t.1.sourceId.data t.1.transactionId ↔ t ∈ old)
    {columns : TableName → List (UInt8 × Nat)} (hcol : ∀ t, columns t ≠ []) {rows rows' : TableName → List (List Stored)}
    (hist : History columns rows new rows') {shown : TableName → List Cells} (hshown : RowsShown columns rows shown) (hi : Indexes key data shown)
    (hk : KeysHold key shown (changesOfTxs new))
    (crypto : Crypto) (chan : Channel) (hu : Usable crypto c'.options) (hwr : chan.writes = []) (checksum : ChecksumType) (bytes : Bytes)
    (hin : LetsIn crypto c'.options False none checksum bytes) (set' : GtidSet) (hset' : c'.options.binlog.gtidSet = some set')
    (parts : List (Part Gtid)) (hp : ∀ p ∈ parts, p.Ok MysqlTx)
    (hlog : parts.flatMap Part.txs = log'.filter fun t => ¬Has set' t.1.sourceId.data t.1.transactionId)
    (slices : List Bytes) (st : LogState) (hbytes : LogOf (.start checksum) (flat parts) slices st)
    (hsize : ∀ x ∈ slices, x.length < 2 ^ 24 - 20) (n : Nat) (rest : Bytes)
    (hinput : chan.input = bytes ++ frames (eventPackets n (flat parts) slices) ++ rest) :
    ∃ stream shown', c'.replicate m crypto (.ok chan) = (.ok stream, c'.afresh) ∧ (∃ stream', stream.Yields m ((flat parts).map .ok) stream') ∧
      RowsShown columns rows' shown' ∧ Indexes key ((whole (flat parts)).foldl (keyedTransaction key) data') shown' := by
  obtain ⟨runs, left, set1, h1, h2, h3, hw', ho', -, h4, hs'⟩ := restarts_runs h set hs hset hw ho hpr hg hd old new hold hnew hhas
  obtain rfl : set' = set1 := Option.some.inj (hset'.symm.trans h3)
  obtain ⟨stream, g1, g2, g3⟩ := C117_session (σ := Keyed κ) m crypto c' chan hu hwr checksum bytes hin set' hs' hset' hw' ho' log' parts hp hlog
    (fun t ht => (hg t ht).1) slices st hbytes hsize n rest hinput
  have hy : ∃ stream', stream.Yields m ((flat parts).map .ok) stream' := by
    have := (g2 (flat parts).length).1
    rw [List.take_of_length_le (Nat.le_refl _)] at this
    obtain ⟨_, _, _, _, _, _, _, _, hy, _⟩ := this
    exact ⟨_, hy⟩
  obtain ⟨shown', h5, h6⟩ := C138_indexes hcol hist hshown hi hk
  refine ⟨stream, shown', g1, hy, h5, ?_⟩
  rw [g3, left_lacks hd hnew h1 h4, h2, redelivered_catches_up h1 (fun t _ => C138_overwrites key t.2)]
  exact h6

end

/-! The sessions of the example of C137; between them the program is killed and started again. -/

theorem exSet_printable : Printable exSet := by
  unfold Printable
  decide

theorem exTxs_restarts {σ : Type} (m : Mode) (apply : σ → List Ev → σ) (data : σ) :
    ∃ c', Restarts m apply exGtidUser data exTxs c' (dataAfter apply data ((exTxs.drop 1).take 1 ++ exTxs.drop 1)) exTxs := by
  have hc : ∀ m, commitAll m exGtidUser.afresh ((flat exLogParts).take 2) = .ok exLagged := by
    rintro ⟨_ | _⟩ <;> decide +kernel
  have hparse : ∀ m, GtidSet.parse m exSet.display = .ok exSet := by
    have hd : exSet.display = joinWith ',' (exSet.uuidSets.values.map UuidSet.display) := by
      unfold GtidSet.display sortStrings
      rw [List.mergeSort_of_pairwise (by decide +kernel)]
    rw [hd]
    rintro ⟨_ | _⟩ <;> decide +kernel
  obtain ⟨slices, st, h1, h2⟩ := exLogParts_written .crc32
  obtain ⟨stream, h3, h4, -⟩ := C117_session (σ := Unit) m exCrypto exGtidUser { exChannel [] with input := _ } exGtidUser_usable rfl .crc32 _
    (exGtidUser_in _) exSet rfl rfl exSet_wf exSet_ordered exTxs exLogParts exLogParts_ok.1 exTxs_missing exTxs_ok slices st h1 h2 1 [] rfl
  obtain ⟨g4, c3, g5⟩ := h4 8
  obtain ⟨a, b, e0, e0', -⟩ := exTxs_are
  have e1 : whole ((flat exLogParts).take 7) = [a] := by
    have h' : finishedTxs 7 exLogParts = (exLogParts.flatMap Part.txs).take 1 := rfl
    rw [whole_finished exLogParts exLogParts_ok.1 7, h', e0']
    rfl
  have e2 : whole ((flat exLogParts).take 8) = [a, b] := by
    have h' : finishedTxs 8 exLogParts = exLogParts.flatMap Part.txs := rfl
    rw [whole_finished exLogParts exLogParts_ok.1 8, h', e0']
    rfl
  refine ⟨c3, .again (.session (small_fits exGtidUser_usable.requests) h3 (h4 7).1 (List.take_prefix_take_left (by decide)) (hc m) .stop)
    (saved := exSet) rfl rfl (hparse m) (o := exGtidUser.options) rfl rfl
    (.last (.session (small_fits exGtidUser_usable.requests) h3 g4 List.prefix_rfl g5 ?_))⟩
  rw [e1, e2, e0]
  exact .stop

/-- The hypotheses of C140 are met: the transaction that was applied before the program was killed is applied again. -/
example (m : Mode) : (∃ c', Restarts m exSeen exGtidUser (fun k => k = 0) exTxs c'
      (dataAfter exSeen (fun k => k = 0) ((exTxs.drop 1).take 1 ++ exTxs.drop 1)) exTxs) ∧
    exGtidUser.options.binlog.startingStrategy = .fromGtid ∧ exGtidUser.options.binlog.gtidSet = some exSet ∧ Wf exSet ∧ AllOrdered exSet ∧
    Printable exSet ∧ (∀ t ∈ exTxs, GtidOk t.1 ∧ t.1.sourceId.uuid.length = 36) ∧ (exTxs.map fun t => gtidKey t.1).Nodup ∧ exTxs.take 1 <+: exTxs ∧
    exTxs = exTxs.take 1 ++ exTxs.drop 1 ∧ (∀ t ∈ exTxs, Has exSet t.1.sourceId.data t.1.transactionId ↔ t ∈ exTxs.take 1) ∧
    ∀ t ∈ exTxs.drop 1, Overwrites exSeen t.2 :=
  ⟨exTxs_restarts m exSeen _, rfl, rfl, exSet_wf, exSet_ordered, exSet_printable,
    fun t ht => ⟨exTxs_ok t ht, (by decide +kernel : ∀ t ∈ exTxs, t.1.sourceId.uuid.length = 36) t ht⟩, by decide +kernel, List.take_prefix _ _,
    (List.take_append_drop 1 _).symm, exTxs_has, fun t _ => exSeen_overwrites t.2⟩

/-- And those of the theorems on tables by keys. -/
example (m : Mode) : ∃ c' data', Restarts m (keyedTransaction fun _ r => r.head?) exGtidUser (fun _ => none) exTxs c' data' exTxs ∧
    data' (exTableName, some (some (.int 258))) = some [some (.int 258), none] := by
  obtain ⟨c', h⟩ := exTxs_restarts m (keyedTransaction fun _ r => r.head?) (fun _ => none)
  exact ⟨c', _, h, by with_unfolding_all rfl⟩

end MysqlCdc
