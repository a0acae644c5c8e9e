import Verif.Lemmas.GtidWhole
import Verif.Spec.Recorded
import Verif.Props.Commit
/-!
# Adding a transaction, over the whole range of ids: C94
-/

namespace MysqlCdc

open Spec

/-- The set holds ordered intervals of 64-bit ids; nothing keeps them below `u64::MAX`. -/
def AllOrdered64 (g : GtidSet) : Prop := ∀ e ∈ g.uuidSets, Ordered e.2.intervals ∧ Fits64 e.2.intervals

/-- What `GtidSet::add_gtid` does, for all ids. -/
theorem gtidSet_addGtid_whole (m : Mode) (g : GtidSet) (x : Gtid) (hw : Wf g) (ho : AllOrdered64 g) (hu : UuidOk x.sourceId)
    (ht : x.transactionId ≤ topId) (ivs : List Interval) (hi : IvsFor g x.sourceId.uuid ivs) :
    (m.checks = true ∧ HitsTop ivs x.transactionId ∧ g.addGtid m x = .panic) ∨
    (m.checks = false ∧ ∃ l, Wraps ivs x.transactionId l ∧
      g.addGtid m x = .ok (true, ⟨g.uuidSets.insert x.sourceId.uuid ⟨x.sourceId, l⟩⟩)) ∨
    (¬ (m.checks = true ∧ HitsTop ivs x.transactionId) ∧ ¬ (m.checks = false ∧ ∃ l, Wraps ivs x.transactionId l) ∧
      ∃ b l, AddsTo ivs x.transactionId b l ∧
        g.addGtid m x = .ok (b, ⟨g.uuidSets.insert x.sourceId.uuid ⟨x.sourceId, l⟩⟩)) := by
  have hnew : UuidSet.new m x.sourceId [] = .ok ⟨x.sourceId, []⟩ := by simp [UuidSet.new]
  obtain ⟨s, hs, hsi, h1, h2, h3⟩ : ∃ s : UuidSet, s.sourceId = x.sourceId ∧ s.intervals = ivs ∧ Ordered ivs ∧ Fits64 ivs ∧
      (g.uuidSets.get? x.sourceId.uuid).getD ⟨x.sourceId, []⟩ = s := by
    rcases hi with ⟨s, hs, rfl⟩ | ⟨hn, rfl⟩
    · have hk := HMap.mem_get? hw.keys hs
      obtain ⟨huid, hkey⟩ := hw.uuids _ hs
      exact ⟨s, uuidOk_data huid hu hkey.symm, rfl, (ho _ hs).1, (ho _ hs).2, by rw [hk]; rfl⟩
    · have hk : g.uuidSets.get? x.sourceId.uuid = none := by
        rw [HMap.get?_eq_none]
        intro h
        obtain ⟨⟨k, s⟩, h1, h2⟩ := List.mem_map.1 h
        simp only at h2
        subst h2
        exact hn s h1
      exact ⟨⟨x.sourceId, []⟩, rfl, rfl, by simp [Ordered], by simp [Fits64], by rw [hk]; rfl⟩
  have h := addGtid_whole m s x (by rw [hs]) (by rw [hsi]; exact h1) (by rw [hsi]; exact h2) ht
  rw [hsi] at h
  have hadd : g.addGtid m x = s.addGtid m x >>= fun r => pure (r.1, ⟨g.uuidSets.insert x.sourceId.uuid r.2⟩) := by
    unfold GtidSet.addGtid
    rw [hnew]
    simp only [Res.bind_ok, h3]
  rw [hadd]
  rcases h with ⟨a, b, e⟩ | ⟨a, l, b, e⟩ | ⟨a, b, c, l, d, e⟩
  · exact .inl ⟨a, b, by rw [e]; rfl⟩
  · exact .inr (.inl ⟨a, l, b, by rw [e, ← hs]; rfl⟩)
  · exact .inr (.inr ⟨a, b, c, l, d, by rw [e, ← hs]; rfl⟩)

theorem ivsFor_exists (g : GtidSet) (k : RStr) : ∃ ivs, IvsFor g k ivs := by
  by_cases h : ∃ s, (k, s) ∈ g.uuidSets
  · obtain ⟨s, h⟩ := h
    exact ⟨_, .inl ⟨s, h, rfl⟩⟩
  · exact ⟨[], .inr ⟨fun s hs => h ⟨s, hs⟩, rfl⟩⟩

theorem ivsFor_iff {g : GtidSet} (hw : Wf g) (k : RStr) (ivs : List Interval) : IvsFor g k ivs ↔ ivsOf g k = ivs := by
  constructor
  · rintro (⟨s, hs, rfl⟩ | ⟨hn, rfl⟩)
    · simp [ivsOf, HMap.mem_get? hw.keys hs]
    · have : g.uuidSets.get? k = none := by
        rw [HMap.get?_eq_none]
        intro h
        obtain ⟨⟨k, s⟩, h1, h2⟩ := List.mem_map.1 h
        simp only at h2
        subst h2
        exact hn s h1
      simp [ivsOf, this]
  · intro h
    obtain ⟨l, hl⟩ := ivsFor_exists g k
    have : ivsOf g k = l := by
      rcases hl with ⟨s, hs, rfl⟩ | ⟨hn, rfl⟩
      · simp [ivsOf, HMap.mem_get? hw.keys hs]
      · have : g.uuidSets.get? k = none := by
          rw [HMap.get?_eq_none]
          intro h
          obtain ⟨⟨k, s⟩, h1, h2⟩ := List.mem_map.1 h
          simp only at h2
          subst h2
          exact hn s h1
        simp [ivsOf, this]
    rw [← h, this]
    exact hl

/-- C94, when it panics: in a build with overflow checks, exactly if the server's last interval reaches `u64::MAX`, all others end
before the new id, and the new id is not the one in front of that interval. -/
theorem C94_add_gtid_panics_iff (m : Mode) (g : GtidSet) (x : Gtid) (hw : Wf g) (ho : AllOrdered64 g) (hu : UuidOk x.sourceId)
    (ht : x.transactionId ≤ topId) (ivs : List Interval) (hi : IvsFor g x.sourceId.uuid ivs) :
    (g.addGtid m x = .panic ↔ m.checks = true ∧ HitsTop ivs x.transactionId) ∧
    (g.addGtid m x ≠ .panic → ∃ b g', g.addGtid m x = .ok (b, g')) := by
  rcases gtidSet_addGtid_whole m g x hw ho hu ht ivs hi with ⟨a, b, e⟩ | ⟨a, l, b, e⟩ | ⟨a, b, c, l, d, e⟩
  · exact ⟨⟨fun _ => ⟨a, b⟩, fun _ => e⟩, fun h => absurd e h⟩
  · refine ⟨⟨fun h => ?_, fun h => ?_⟩, fun _ => ⟨_, _, e⟩⟩
    · rw [e] at h; cases h
    · rw [a] at h; cases h.1
  · refine ⟨⟨fun h => ?_, fun h => absurd h a⟩, fun _ => ⟨_, _, e⟩⟩
    rw [e] at h; cases h

/-- C94, when it adds: with overflow checks whenever it returns, without them unless a sum wraps around. Then exactly the given
transaction is added, the answer tells whether it was new, and the set keeps its form, so the next call is covered too. -/
theorem C94_add_gtid_adds_exactly (m : Mode) (g : GtidSet) (x : Gtid) (hw : Wf g) (ho : AllOrdered64 g) (hu : UuidOk x.sourceId)
    (ht : x.transactionId ≤ topId) (ivs : List Interval) (hi : IvsFor g x.sourceId.uuid ivs)
    (h1 : m.checks = true → ¬ HitsTop ivs x.transactionId)
    (h2 : m.checks = false → ∀ l, ¬ Wraps ivs x.transactionId l) :
    ∃ b g', g.addGtid m x = .ok (b, g') ∧ Wf g' ∧ AllOrdered64 g' ∧ (b = true ↔ ¬ InIvs x.transactionId ivs) ∧
      (∀ k l, k ≠ x.sourceId.uuid → (IvsFor g' k l ↔ IvsFor g k l)) ∧
      (∃ l, IvsFor g' x.sourceId.uuid l ∧ ∀ n, InIvs n l ↔ InIvs n ivs ∨ n = x.transactionId) ∧
      ∀ u n, Has g' u n ↔ Has g u n ∨ (u = x.sourceId.data ∧ n = x.transactionId) := by
  rcases gtidSet_addGtid_whole m g x hw ho hu ht ivs hi with ⟨a, b, e⟩ | ⟨a, l, b, e⟩ | ⟨a, b, c, l, d, e⟩
  · exact absurd b (h1 a)
  · exact absurd b (h2 a l)
  have hw' : Wf ⟨g.uuidSets.insert x.sourceId.uuid ⟨x.sourceId, l⟩⟩ := wf_insert hw hu
  have hl : ∀ n, InIvs n l ↔ InIvs n ivs ∨ n = x.transactionId := by
    rcases d with ⟨_, h, rfl⟩ | ⟨_, _, _, _, h⟩
    · exact fun n => ⟨.inl, fun h' => h'.elim id (fun h' => h' ▸ h)⟩
    · exact h
  have hof : ivsOf g x.sourceId.uuid = ivs := (ivsFor_iff hw _ _).1 hi
  refine ⟨c, _, e, hw', ?_, ?_, ?_, ⟨l, ?_, hl⟩, ?_⟩
  · rintro ⟨k, s⟩ he
    rcases (HMap.mem_insert hw.keys).1 he with ⟨_, rfl⟩ | ⟨_, h'⟩
    · rcases d with ⟨_, h, rfl⟩ | ⟨_, _, h3, h4, _⟩
      · rcases hi with ⟨s, hs, rfl⟩ | ⟨_, rfl⟩
        · exact ho (_, s) hs
        · exact ⟨by simp [Ordered], by simp [Fits64]⟩
      · exact ⟨h3.ordered, h4⟩
    · exact ho _ h'
  · rcases d with ⟨rfl, h, rfl⟩ | ⟨rfl, h, _⟩
    · simpa using h
    · simpa using h
  · intro k l' hk
    rw [ivsFor_iff hw', ivsFor_iff hw]
    simp only [ivsOf, HMap.get?_insert, if_neg (Ne.symm hk)]
  · rw [ivsFor_iff hw']
    simp [ivsOf, HMap.get?_insert]
  · refine has_add hw hw' hu ?_
    intro k n
    by_cases hk : x.sourceId.uuid = k
    · subst hk
      rw [hof]
      simp only [ivsOf, HMap.get?_insert, if_true, Option.map_some, Option.getD_some, true_and]
      exact hl n
    · simp only [ivsOf, HMap.get?_insert, if_neg hk]
      constructor
      · exact .inl
      · rintro (h' | ⟨h', _⟩)
        · exact h'
        · exact absurd h'.symm hk

/-- C94, when it goes wrong silently: without overflow checks, if a sum wraps around, the call says that it has added something but
the server's intervals are replaced by what `Wraps` says, and an id that was in the set is lost. -/
theorem C94_add_gtid_loses (m : Mode) (hm : m.checks = false) (g : GtidSet) (x : Gtid) (hw : Wf g) (ho : AllOrdered64 g)
    (hu : UuidOk x.sourceId) (ht : x.transactionId ≤ topId) (ivs : List Interval) (hi : IvsFor g x.sourceId.uuid ivs)
    (l : List Interval) (hl : Wraps ivs x.transactionId l) :
    ∃ g', g.addGtid m x = .ok (true, g') ∧ Wf g' ∧ IvsFor g' x.sourceId.uuid l ∧
      (∀ k l', k ≠ x.sourceId.uuid → (IvsFor g' k l' ↔ IvsFor g k l')) ∧ ∃ n, InIvs n ivs ∧ ¬ InIvs n l := by
  have hun : ∀ l', Wraps ivs x.transactionId l' → l' = l := by
    intro l' h
    generalize x.transactionId = t at hl h
    cases hl with
    | zero _ => cases h; rfl
    | top => cases h; rfl
  have hw' : Wf ⟨g.uuidSets.insert x.sourceId.uuid ⟨x.sourceId, l⟩⟩ := wf_insert hw hu
  rcases gtidSet_addGtid_whole m g x hw ho hu ht ivs hi with ⟨a, _, _⟩ | ⟨_, l', b, e⟩ | ⟨_, b, _⟩
  · rw [hm] at a; cases a
  · obtain rfl := hun l' b
    refine ⟨_, e, hw', ?_, ?_, ?_⟩
    · rw [ivsFor_iff hw']
      simp [ivsOf, HMap.get?_insert]
    · intro k l'' hk
      rw [ivsFor_iff hw', ivsFor_iff hw]
      simp only [ivsOf, HMap.get?_insert, if_neg (Ne.symm hk)]
    · have hiv : ∀ s, (⟨s, topId⟩ : Interval) ∈ ivs → s ≤ topId := by
        intro s hs
        rcases hi with ⟨u, hs', rfl⟩ | ⟨_, rfl⟩
        · exact (ho _ hs').1.1 _ hs
        · cases hs
      generalize x.transactionId = t at b
      cases b with
      | @zero s hs =>
        refine ⟨topId, ⟨_, List.mem_singleton.2 rfl, hiv s (by simp), Nat.le_refl _⟩, ?_⟩
        rintro ⟨iv, h, _, h'⟩
        rw [List.mem_singleton] at h
        subst h
        simp [topId] at h'
      | top =>
        refine ⟨0, ⟨_, List.mem_singleton.2 rfl, Nat.le_refl _, Nat.zero_le _⟩, ?_⟩
        rintro ⟨iv, h, h', _⟩
        rw [List.mem_singleton] at h
        subst h
        simp [topId] at h'
  · exact absurd ⟨hm, l, hl⟩ b

/-- Intervals that end before `u64::MAX` are never hit. -/
theorem below_top {ivs : List Interval} (hr : InRange ivs) (t : Nat) : ¬ HitsTop ivs t ∧ ∀ l, ¬ Wraps ivs t l := by
  have h0 : ∀ s, (⟨s, topId⟩ : Interval) ∉ ivs := by
    intro s hs
    have := hr _ hs
    simp [topId] at this
  refine ⟨?_, ?_⟩
  · rintro ⟨front, s, rfl, _⟩
    exact h0 s (by simp)
  · intro l h
    cases h with
    | @zero s _ => exact h0 s (by simp)
    | top => exact h0 0 (by simp)

/-- C94, without the limit on the new id: to a set below `u64::MAX` every id can be added, `u64::MAX` included, in all builds. -/
theorem C94_any_id (m : Mode) (g : GtidSet) (x : Gtid) (hw : Wf g) (ho : AllOrdered g) (hu : UuidOk x.sourceId)
    (ht : x.transactionId ≤ topId) :
    ∃ b g', g.addGtid m x = .ok (b, g') ∧ ∀ u n, Has g' u n ↔ Has g u n ∨ (u = x.sourceId.data ∧ n = x.transactionId) := by
  obtain ⟨ivs, hi⟩ := ivsFor_exists g x.sourceId.uuid
  have ho' : AllOrdered64 g := fun e he => ⟨(ho e he).1, fun iv hiv => Nat.le_of_lt ((ho e he).2 iv hiv)⟩
  have hr : InRange ivs := by
    rcases hi with ⟨s, hs, rfl⟩ | ⟨_, rfl⟩
    · exact (ho _ hs).2
    · simp [InRange]
  obtain ⟨h1, h2⟩ := below_top hr x.transactionId
  obtain ⟨b, g', h3, _, _, _, _, _, h4⟩ := C94_add_gtid_adds_exactly m g x hw ho' hu ht ivs hi (fun _ => h1) (fun _ => h2)
  exact ⟨b, g', h3, h4⟩

/-! ## `commit` -/

/-- The event makes the client record the last transaction; `open_` tells whether a BEGIN is open. -/
def ClosesNow (open_ : Bool) (e : BinlogEvent) : Prop := Ends e ∨ (AutoCommits e ∧ open_ = false)

theorem updateGtidPosition_cases (m : Mode) (c : Client) (e : BinlogEvent) (hs : c.options.binlog.startingStrategy = .fromGtid) :
    (ClosesNow c.transaction e ∧ c.updateGtidPosition m e = c.commitGtid m) ∨
    (¬ ClosesNow c.transaction e ∧ ∃ c', c.updateGtidPosition m e = .ok c') := by
  unfold Client.updateGtidPosition
  rw [if_neg (by simp [hs])]
  cases e with
  | xid x => exact .inl ⟨.inl trivial, rfl⟩
  | query q =>
    simp only
    by_cases h1 : q.sqlStatement = []
    · refine .inr ⟨?_, _, by rw [if_pos (by simp [h1])]⟩
      rintro ((h | h) | ⟨⟨h, _⟩, _⟩)
      · rw [h1] at h; exact absurd h (by decide)
      · rw [h1] at h; exact absurd h (by decide)
      · exact h h1
    · rw [if_neg (by simpa using h1)]
      by_cases h2 : q.sqlStatement = "BEGIN".toList
      · refine .inr ⟨?_, _, by rw [if_pos h2]⟩
        rintro ((h | h) | ⟨⟨_, h, _⟩, _⟩)
        · rw [h2] at h; exact absurd h (by decide)
        · rw [h2] at h; exact absurd h (by decide)
        · exact h h2
      · rw [if_neg h2]
        by_cases h3 : q.sqlStatement = "COMMIT".toList ∨ q.sqlStatement = "ROLLBACK".toList
        · exact .inl ⟨.inl h3, by rw [if_pos h3]⟩
        · rw [if_neg h3]
          cases ht : c.transaction with
          | false =>
            refine .inl ⟨.inr ⟨⟨h1, h2, fun h => h3 (.inl h), fun h => h3 (.inr h)⟩, rfl⟩, ?_⟩
            simp
          | true =>
            refine .inr ⟨?_, _, by simp; rfl⟩
            rintro (h | ⟨_, h⟩)
            · exact h3 h
            · cases h
  | mariaDbGtid x => exact .inr ⟨by rintro (h | h) <;> simp [Ends, AutoCommits] at h, _, rfl⟩
  | mySqlGtid x => exact .inr ⟨by rintro (h | h) <;> simp [Ends, AutoCommits] at h, _, rfl⟩
  | _ => exact .inr ⟨by rintro (h | h) <;> simp [Ends, AutoCommits] at h, _, rfl⟩

/-- C94 for `commit`: for a client with ordered intervals (any ids), `commit` panics exactly if the build checks overflows, the client
records GTIDs, the event closes a transaction, and adding the last GTID to the configured set meets an interval up to
`u64::MAX`. In all other cases it returns. -/
theorem C94_commit_panics_iff (m : Mode) (c : Client) (h : EventHeader) (e : BinlogEvent)
    (hset : ∀ g, c.options.binlog.gtidSet = some g → Wf g ∧ AllOrdered64 g)
    (hpend : ∀ x, c.mysqlGtid = some x → UuidOk x.sourceId ∧ x.transactionId ≤ topId) :
    (c.commit m h e = .panic ↔ m.checks = true ∧ c.options.binlog.startingStrategy = .fromGtid ∧ ClosesNow c.transaction e ∧
      ∃ g x ivs, c.options.binlog.gtidSet = some g ∧ c.mysqlGtid = some x ∧ IvsFor g x.sourceId.uuid ivs ∧
        HitsTop ivs x.transactionId) ∧
    (c.commit m h e ≠ .panic → ∃ c', c.commit m h e = .ok c') := by
  have hok : ∀ c1, c.updateGtidPosition m e = .ok c1 → ¬ (m.checks = true ∧ c.options.binlog.startingStrategy = .fromGtid ∧
      ClosesNow c.transaction e ∧ ∃ g x ivs, c.options.binlog.gtidSet = some g ∧ c.mysqlGtid = some x ∧
        IvsFor g x.sourceId.uuid ivs ∧ HitsTop ivs x.transactionId) →
      (c.commit m h e = .panic ↔ m.checks = true ∧ c.options.binlog.startingStrategy = .fromGtid ∧ ClosesNow c.transaction e ∧
      ∃ g x ivs, c.options.binlog.gtidSet = some g ∧ c.mysqlGtid = some x ∧ IvsFor g x.sourceId.uuid ivs ∧
        HitsTop ivs x.transactionId) ∧
    (c.commit m h e ≠ .panic → ∃ c', c.commit m h e = .ok c') := by
    intro c1 h1 h2
    rw [commit_eq m c h e h1]
    exact ⟨⟨fun h => (by cases h), fun h => absurd h h2⟩, fun _ => ⟨_, rfl⟩⟩
  by_cases hs : c.options.binlog.startingStrategy = .fromGtid
  · rcases updateGtidPosition_cases m c e hs with ⟨h1, h2⟩ | ⟨h1, c1, h2⟩
    · cases hg : c.options.binlog.gtidSet with
      | none =>
        obtain ⟨c1, hc1⟩ : ∃ c1, c.commitGtid m = .ok c1 := by
          unfold Client.commitGtid commitMysql
          rw [hg]
          cases c.mysqlGtid <;> exact ⟨_, rfl⟩
        have := hok c1 (h2.trans hc1) (by rintro ⟨_, _, _, g, x, ivs, h', _⟩; rw [hg] at h'; cases h')
        rwa [hg] at this
      | some g =>
        cases hx : c.mysqlGtid with
        | none =>
          obtain ⟨c1, hc1⟩ : ∃ c1, c.commitGtid m = .ok c1 := by
            unfold Client.commitGtid commitMysql
            rw [hg, hx]
            exact ⟨_, rfl⟩
          have := hok c1 (h2.trans hc1) (by rintro ⟨_, _, _, g, x, ivs, _, h', _⟩; rw [hx] at h'; cases h')
          rwa [hg, hx] at this
        | some x =>
          obtain ⟨hw, ho⟩ := hset g hg
          obtain ⟨hu, ht⟩ := hpend x hx
          obtain ⟨ivs, hi⟩ := ivsFor_exists g x.sourceId.uuid
          obtain ⟨h3, h4⟩ := C94_add_gtid_panics_iff m g x hw ho hu ht ivs hi
          by_cases hp : g.addGtid m x = .panic
          · have hc : c.commit m h e = .panic := by
              unfold Client.commit
              rw [h2]
              unfold Client.commitGtid commitMysql
              rw [hg, hx]
              simp only [hp]
              rfl
            obtain ⟨h5, h6⟩ := h3.1 hp
            exact ⟨⟨fun _ => ⟨h5, hs, h1, g, x, ivs, rfl, rfl, hi, h6⟩, fun _ => hc⟩, fun h' => absurd hc h'⟩
          · obtain ⟨b, g', h5⟩ := h4 hp
            obtain ⟨c1, hc1⟩ : ∃ c1, c.commitGtid m = .ok c1 := by
              unfold Client.commitGtid commitMysql
              rw [hg, hx]
              simp only [h5]
              exact ⟨_, rfl⟩
            have := hok c1 (h2.trans hc1) (by
              rintro ⟨h6, _, _, g2, x2, ivs2, e1, e2, h7, h8⟩
              rw [hg] at e1
              rw [hx] at e2
              cases e1
              cases e2
              have : ivs2 = ivs := ((ivsFor_iff hw _ _).1 h7).symm.trans ((ivsFor_iff hw _ _).1 hi)
              subst this
              exact hp (h3.2 ⟨h6, h8⟩))
            rwa [hg, hx] at this
    · exact hok c1 h2 (fun h' => h1 h'.2.2.1)
  · refine hok c ?_ (fun h' => hs h'.2.1)
    unfold Client.updateGtidPosition
    rw [if_pos hs]

/-! ## Examples -/

/-- `24bc...01:3-4:9-18446744073709551615` -/
def exTopSet : GtidSet := ⟨[(exUuid.uuid, ⟨exUuid, [⟨3, 4⟩, ⟨9, topId⟩]⟩)]⟩

theorem exTopSet_ok : Wf exTopSet ∧ AllOrdered64 exTopSet := by
  refine ⟨⟨?_, by decide⟩, ?_⟩
  · intro e he
    rw [exTopSet, List.mem_singleton] at he
    subst he
    exact ⟨UuidCanon_ok exUuid_canon, rfl⟩
  · intro e he
    rw [exTopSet, List.mem_singleton] at he
    subst he
    constructor
    · constructor
      · intro iv hiv
        simp only [List.mem_cons, List.not_mem_nil, or_false] at hiv
        rcases hiv with rfl | rfl <;> simp [topId]
      · simp
    · intro iv hiv
      simp only [List.mem_cons, List.not_mem_nil, or_false] at hiv
      rcases hiv with rfl | rfl <;> simp [topId]

theorem exTopSet_ivs : IvsFor exTopSet exUuid.uuid [⟨3, 4⟩, ⟨9, topId⟩] := .inl ⟨_, List.mem_singleton.2 rfl, rfl⟩

/-- Adding 6 crashes in a build with checks, adding 8 joins it to the interval behind, adding 2 to the one in front. -/
example : HitsTop [⟨3, 4⟩, ⟨9, topId⟩] 6 ∧ ¬ HitsTop [⟨3, 4⟩, ⟨9, topId⟩] 8 ∧ ¬ HitsTop [⟨3, 4⟩, ⟨9, topId⟩] 2 ∧
    exTopSet.addGtid ⟨true⟩ ⟨exUuid, 6⟩ = .panic ∧
    exTopSet.addGtid ⟨true⟩ ⟨exUuid, 8⟩ = .ok (true, ⟨[(exUuid.uuid, ⟨exUuid, [⟨3, 4⟩, ⟨8, topId⟩]⟩)]⟩) ∧
    exTopSet.addGtid ⟨true⟩ ⟨exUuid, 2⟩ = .ok (true, ⟨[(exUuid.uuid, ⟨exUuid, [⟨2, 4⟩, ⟨9, topId⟩]⟩)]⟩) := by
  have hit : ∀ t, HitsTop [⟨3, 4⟩, ⟨9, topId⟩] t → 4 < t ∧ 9 ≠ t + 1 := by
    rintro t ⟨front, s, e, h1, h2⟩
    have e' : [(⟨3, 4⟩ : Interval)] ++ [⟨9, topId⟩] = front ++ [⟨s, topId⟩] := e
    obtain ⟨rfl, h⟩ := List.append_inj' e' rfl
    simp only [List.cons.injEq, Interval.mk.injEq, and_true] at h
    exact ⟨h1 ⟨3, 4⟩ (by simp), by omega⟩
  exact ⟨⟨[⟨3, 4⟩], 9, rfl, by simp, by decide⟩, fun h => absurd (hit _ h) (by decide), fun h => absurd (hit _ h) (by decide),
    by decide +kernel, by decide +kernel, by decide +kernel⟩

/-- Without checks the set above has every id added, while `[9, u64::MAX]` alone loses everything when 0 is added. -/
example : (∀ t l, ¬ Wraps [⟨3, 4⟩, ⟨9, topId⟩] t l) ∧ Wraps [⟨9, topId⟩] 0 [⟨9, 0⟩] ∧
    exTopSet.addGtid ⟨false⟩ ⟨exUuid, 6⟩ = .ok (true, ⟨[(exUuid.uuid, ⟨exUuid, [⟨3, 4⟩, ⟨6, 6⟩, ⟨9, topId⟩]⟩)]⟩) ∧
    exTopSet.addGtid ⟨false⟩ ⟨exUuid, topId⟩ = .ok (false, exTopSet) :=
  ⟨fun _ _ h => (by cases h), .zero (by decide), by decide +kernel, by decide +kernel⟩

/-- A client with that set and a pending transaction 6: XID crashes, a statement inside BEGIN does not. -/
example : ∃ c : Client, (∀ g, c.options.binlog.gtidSet = some g → Wf g ∧ AllOrdered64 g) ∧
    (∀ x, c.mysqlGtid = some x → UuidOk x.sourceId ∧ x.transactionId ≤ topId) ∧
    c.options.binlog.startingStrategy = .fromGtid ∧ ClosesNow c.transaction (.xid ⟨7⟩) ∧
    c.commit ⟨true⟩ (exHeader 100) (.xid ⟨7⟩) = .panic := by
  refine ⟨⟨{ ReplicaOptions.default with binlog := .fromMysqlGtid exTopSet }, true, none, some ⟨exUuid, 6⟩⟩, ?_, ?_, rfl,
    .inl trivial, by decide +kernel⟩
  · rintro g ⟨⟩
    exact exTopSet_ok
  · rintro x ⟨⟩
    exact ⟨UuidCanon_ok exUuid_canon, by decide⟩

end MysqlCdc
