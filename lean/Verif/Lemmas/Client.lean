import Verif.Spec.Stream
import Verif.Model.Client
import Verif.Lemmas.GtidAdd
import Verif.Lemmas.Uuid
import Verif.Lemmas.GtidReturns
/-!
# Histories of `commit`
-/

namespace MysqlCdc

open Spec

/-- Committing events one by one. -/
def commitAll (m : Mode) : Client → List Ev → Res Client
  | c, [] => .ok c
  | c, e :: es => do
    let c' ← c.commit m e.1 e.2
    commitAll m c' es

theorem commitAll_append (m : Mode) (c : Client) (a b : List Ev) :
    commitAll m c (a ++ b) = (commitAll m c a >>= fun c' => commitAll m c' b) := by
  induction a generalizing c with
  | nil => rfl
  | cons e a ih =>
    simp only [List.cons_append, commitAll]
    cases c.commit m e.1 e.2 <;> simp [ih]

@[simp] theorem setPosition_mysqlGtid (c : Client) (f : RStr) (p : Nat) : (c.setPosition f p).mysqlGtid = c.mysqlGtid := rfl
@[simp] theorem setPosition_mariaGtid (c : Client) (f : RStr) (p : Nat) : (c.setPosition f p).mariaGtid = c.mariaGtid := rfl
@[simp] theorem setPosition_transaction (c : Client) (f : RStr) (p : Nat) : (c.setPosition f p).transaction = c.transaction := rfl
@[simp] theorem setPosition_set (c : Client) (f : RStr) (p : Nat) :
    (c.setPosition f p).options.binlog.gtidSet = c.options.binlog.gtidSet := rfl
@[simp] theorem setPosition_list (c : Client) (f : RStr) (p : Nat) :
    (c.setPosition f p).options.binlog.gtidList = c.options.binlog.gtidList := rfl
@[simp] theorem setPosition_strategy (c : Client) (f : RStr) (p : Nat) :
    (c.setPosition f p).options.binlog.startingStrategy = c.options.binlog.startingStrategy := rfl

theorem updateBinlogPosition_cases (c : Client) (h : EventHeader) (e : BinlogEvent) :
    c.updateBinlogPosition h e = c ∨ ∃ f p, c.updateBinlogPosition h e = c.setPosition f p := by
  unfold Client.updateBinlogPosition
  split
  · exact Or.inl rfl
  · exact Or.inr ⟨_, _, rfl⟩
  · split
    · exact Or.inr ⟨_, _, rfl⟩
    · exact Or.inl rfl

/-- What `update_binlog_position` leaves alone. -/
theorem updateBinlogPosition_frame (c : Client) (h : EventHeader) (e : BinlogEvent) :
    (c.updateBinlogPosition h e).mysqlGtid = c.mysqlGtid ∧ (c.updateBinlogPosition h e).mariaGtid = c.mariaGtid ∧
      (c.updateBinlogPosition h e).transaction = c.transaction ∧
      (c.updateBinlogPosition h e).options.binlog.gtidSet = c.options.binlog.gtidSet ∧
      (c.updateBinlogPosition h e).options.binlog.gtidList = c.options.binlog.gtidList ∧
      (c.updateBinlogPosition h e).options.binlog.startingStrategy = c.options.binlog.startingStrategy := by
  rcases updateBinlogPosition_cases c h e with h | ⟨f, p, h⟩ <;> rw [h] <;> simp

/-! ## `add_gtid` never crashes -/

theorem findLoop_bound (ivs : List Interval) (t result left right : Nat) (hr : right ≤ ivs.length) (hres : result ≤ ivs.length)
    (hne : ivs ≠ [] → result < ivs.length) :
    ∃ r, findLoop ivs t result left right = .ok r ∧
      (match r with | .inl i => i < ivs.length | .inr i => i ≤ ivs.length ∧ (ivs ≠ [] → i < ivs.length)) := by
  induction hk : right - left using Nat.strongRecOn generalizing result left right with
  | _ k ih =>
    unfold findLoop
    split
    · rename_i h
      have hmid : (left + right) / 2 < ivs.length := by omega
      simp only [List.getElem?_eq_getElem hmid]
      split
      · exact ih _ (by omega) _ _ _ hr (by omega) (fun _ => hmid) rfl
      · split
        · exact ih _ (by omega) _ _ _ (by omega) (by omega) (fun _ => hmid) rfl
        · exact ⟨_, rfl, hmid⟩
    · exact ⟨_, rfl, hres, hne⟩

theorem findIntervalIndex_bound (ivs : List Interval) (t : Nat) : ∃ i, findIntervalIndex ivs t = .ok i ∧ i ≤ ivs.length := by
  obtain ⟨r, h1, h2⟩ := findLoop_bound ivs t 0 0 ivs.length (Nat.le_refl _) (Nat.zero_le _)
    (fun h => List.length_pos_iff.2 h)
  unfold findIntervalIndex
  rw [h1]
  cases r with
  | inl i => exact ⟨i, rfl, Nat.le_of_lt h2⟩
  | inr i =>
    simp only [Res.bind_ok]
    split
    · exact ⟨i, rfl, h2.1⟩
    · rename_i hne
      have hi : i < ivs.length := h2.2 (by simpa using hne)
      simp only [List.getElem?_eq_getElem hi]
      split
      · exact ⟨i + 1, rfl, hi⟩
      · exact ⟨i, rfl, h2.1⟩

/-- The condition under which the `u64` additions of `add_gtid` cannot overflow: overflow is not checked, or the ids are below
`u64::MAX`. -/
def NoOverflow (m : Mode) (ivs : List Interval) : Prop := m.checks = false ∨ InRange ivs

theorem addU_returns {m : Mode} {a : Nat} (h : m.checks = false ∨ a < 2 ^ 64 - 1) : ∃ r, addU m 64 a 1 = .ok r := by
  unfold addU
  split
  · exact ⟨_, rfl⟩
  · rcases h with h | h
    · simp [h]
    · omega

theorem collapse_safe (m : Mode) (l : List Interval) (h : NoOverflow m l) :
    ∃ l', (if l.length > 1 then collapseIntervals m l else pure l : Res (List Interval)) = .ok l' ∧ NoOverflow m l' := by
  rcases h with h | h
  · split
    · rename_i hl
      have : l.isEmpty = false := by cases l <;> simp at hl ⊢
      obtain ⟨l', hl'⟩ := collapseLoop_unchecked m h l 0
      exact ⟨l', by simp [collapseIntervals, this, hl'], Or.inl h⟩
    · exact ⟨l, rfl, Or.inl h⟩
  · exact ⟨collapseP l, collapse_guarded m l h, Or.inr (collapseP_range l h)⟩

theorem noOverflow_set {m : Mode} {ivs : List Interval} {i : Nat} {iv : Interval} (h : NoOverflow m ivs)
    (hi : m.checks = false ∨ iv.end < 2 ^ 64 - 1) : NoOverflow m (ivs.set i iv) := by
  rcases h with h | h
  · exact Or.inl h
  · rcases hi with hi | hi
    · exact Or.inl hi
    · refine Or.inr fun x hx => ?_
      rcases List.mem_or_eq_of_mem_set hx with hx | rfl
      · exact h x hx
      · exact hi

theorem noOverflow_insert {m : Mode} {ivs : List Interval} {i : Nat} {iv : Interval} (h : NoOverflow m ivs)
    (hi : m.checks = false ∨ iv.end < 2 ^ 64 - 1) : NoOverflow m (ivs.insertIdx i iv) := by
  rcases h with h | h
  · exact Or.inl h
  · rcases hi with hi | hi
    · exact Or.inl hi
    · refine Or.inr fun x hx => ?_
      by_cases hl : i ≤ ivs.length
      · rcases (List.mem_insertIdx hl).1 hx with rfl | hx
        · exact hi
        · exact h x hx
      · rw [List.insertIdx_of_length_lt (by omega)] at hx
        exact h x hx

/-- `UuidSet::add_gtid` on any intervals whatever. -/
theorem uuidSet_addGtid_safe (m : Mode) (s : UuidSet) (x : Gtid) (hd : s.sourceId.data = x.sourceId.data)
    (hs : NoOverflow m s.intervals) (hx : m.checks = false ∨ x.transactionId < 2 ^ 64 - 1) :
    ∃ b s', s.addGtid m x = .ok (b, s') ∧ s'.sourceId = s.sourceId ∧ NoOverflow m s'.intervals := by
  obtain ⟨index, hi, hle⟩ := findIntervalIndex_bound s.intervals x.transactionId
  have hfin : ∀ l, NoOverflow m l → ∃ b s', (if l.length > 1 then (collapseIntervals m l >>=
      fun ivs => (Res.ok (true, ({ sourceId := s.sourceId, intervals := ivs } : UuidSet))))
      else Res.ok (true, ({ sourceId := s.sourceId, intervals := l } : UuidSet))) = .ok (b, s') ∧ s'.sourceId = s.sourceId ∧
        NoOverflow m s'.intervals := by
    intro l hl
    obtain ⟨l', h1, h2⟩ := collapse_safe m l hl
    refine ⟨true, { s with intervals := l' }, ?_, rfl, h2⟩
    by_cases h : l.length > 1
    · rw [if_pos h] at h1 ⊢
      rw [h1]
      rfl
    · rw [if_neg h] at h1 ⊢
      injection h1 with h1
      rw [← h1]
  unfold UuidSet.addGtid
  simp only [hd, hi, Res.bind_ok, Res.pure_eq, ne_eq, not_true_eq_false, if_false]
  have hins : NoOverflow m (s.intervals.insertIdx index ⟨x.transactionId, x.transactionId⟩) := noOverflow_insert hs hx
  by_cases hlt : index < s.intervals.length
  · simp only [List.getElem?_eq_getElem hlt]
    have he : m.checks = false ∨ s.intervals[index].end < 2 ^ 64 - 1 := by
      rcases hs with hs | hs
      · exact Or.inl hs
      · exact Or.inr (hs _ (List.getElem_mem hlt))
    obtain ⟨t1, ht1⟩ := addU_returns hx
    obtain ⟨e1, he1⟩ := addU_returns he
    simp only [ht1, he1, Res.bind_ok]
    split
    · exact hfin _ (noOverflow_set hs he)
    · split
      · exact hfin _ (noOverflow_set hs hx)
      · split
        · exact ⟨false, s, rfl, rfl, hs⟩
        · exact hfin _ hins
  · have : s.intervals[index]? = none := by simp; omega
    simp only [this]
    rw [if_pos hle]
    exact hfin _ hins

/-- `GtidSet::add_gtid` on any well-formed set. -/
theorem gtidSet_addGtid_safe (m : Mode) (g : GtidSet) (x : Gtid) (hw : Wf g) (hg : ∀ e ∈ g.uuidSets, NoOverflow m e.2.intervals)
    (hu : UuidOk x.sourceId) (hx : m.checks = false ∨ x.transactionId < 2 ^ 64 - 1) :
    ∃ b g', g.addGtid m x = .ok (b, g') ∧ Wf g' ∧ ∀ e ∈ g'.uuidSets, NoOverflow m e.2.intervals := by
  have hnew : UuidSet.new m x.sourceId [] = .ok ⟨x.sourceId, []⟩ := by simp [UuidSet.new]
  have hins : ∀ s : UuidSet, s.sourceId = x.sourceId → NoOverflow m s.intervals →
      Wf ⟨g.uuidSets.insert x.sourceId.uuid s⟩ ∧
        ∀ e ∈ g.uuidSets.insert x.sourceId.uuid s, NoOverflow m e.2.intervals := by
    rintro ⟨u, ivs⟩ hsrc hs
    simp only at hsrc
    subst hsrc
    refine ⟨wf_insert hw hu, ?_⟩
    rintro ⟨k, v⟩ he
    rcases (HMap.mem_insert hw.keys).1 he with ⟨_, h2⟩ | ⟨_, h2⟩
    · subst h2
      exact hs
    · exact hg _ h2
  unfold GtidSet.addGtid
  rw [hnew]
  simp only [Res.bind_ok]
  cases hk : g.uuidSets.get? x.sourceId.uuid with
  | none =>
    obtain ⟨b, s', h1, h2, h3⟩ := uuidSet_addGtid_safe m ⟨x.sourceId, []⟩ x rfl (Or.inr (by simp [InRange])) hx
    exact ⟨b, _, by simp [h1], hins s' h2 h3⟩
  | some s =>
    have hmem := HMap.get?_eq_some_mem hk
    obtain ⟨huid, hkey⟩ := hw.uuids _ hmem
    have hsrc : s.sourceId = x.sourceId := uuidOk_data huid hu hkey.symm
    obtain ⟨b, s', h1, h2, h3⟩ := uuidSet_addGtid_safe m s x (by rw [hsrc]) (hg _ hmem) hx
    exact ⟨b, _, by simp [h1], hins s' (by rw [h2, hsrc]) h3⟩

/-! ## Single commits in GTID mode -/

theorem commit_eq (m : Mode) (c : Client) (h : EventHeader) (e : BinlogEvent) {c1 : Client}
    (h1 : c.updateGtidPosition m e = .ok c1) : c.commit m h e = .ok (c1.updateBinlogPosition h e) := by
  simp [Client.commit, h1]

/-- GTID mode with a set: the parts of the state that matter. -/
structure Mv (c : Client) (tr : Bool) (last : Option Gtid) (set : GtidSet) : Prop where
  strategy : c.options.binlog.startingStrategy = .fromGtid
  transaction : c.transaction = tr
  last : c.mysqlGtid = last
  set : c.options.binlog.gtidSet = some set

theorem Mv.position {c : Client} {tr : Bool} {last : Option Gtid} {set : GtidSet} (hc : Mv c tr last set) (h : EventHeader)
    (e : BinlogEvent) : Mv (c.updateBinlogPosition h e) tr last set := by
  obtain ⟨f1, f2, f3, f4, f5, f6⟩ := updateBinlogPosition_frame c h e
  exact ⟨by rw [f6, hc.strategy], by rw [f3, hc.transaction], by rw [f1, hc.last], by rw [f4, hc.set]⟩

theorem Mv.neutral {c : Client} {tr : Bool} {last : Option Gtid} {set : GtidSet} (hc : Mv c tr last set) (m : Mode)
    (h : EventHeader) {e : BinlogEvent} (he : Neutral e) : ∃ c', c.commit m h e = .ok c' ∧ Mv c' tr last set := by
  refine ⟨_, commit_eq m c h e ?_, hc.position h e⟩
  unfold Client.updateGtidPosition
  rw [if_neg (by simp [hc.strategy])]
  cases e <;> simp_all [Neutral]

theorem Mv.gtid {c : Client} {tr : Bool} {last : Option Gtid} {set : GtidSet} (hc : Mv c tr last set) (m : Mode)
    (h : EventHeader) (x : MySqlGtidEvent) : ∃ c', c.commit m h (.mySqlGtid x) = .ok c' ∧ Mv c' tr (some x.gtid) set := by
  refine ⟨_, commit_eq m c h _ (c1 := { c with mysqlGtid := some x.gtid }) ?_, Mv.position ?_ h _⟩
  · unfold Client.updateGtidPosition
    rw [if_neg (by simp [hc.strategy])]
  · exact ⟨hc.strategy, hc.transaction, rfl, hc.set⟩

theorem begin_ne : ("BEGIN".toList = "COMMIT".toList) = False ∧ ("BEGIN".toList = "ROLLBACK".toList) = False ∧
    "BEGIN".toList.isEmpty = false ∧ "COMMIT".toList.isEmpty = false ∧ "ROLLBACK".toList.isEmpty = false ∧
    ("COMMIT".toList = "BEGIN".toList) = False ∧ ("ROLLBACK".toList = "BEGIN".toList) = False := by
  decide

theorem Mv.begins {c : Client} {tr : Bool} {last : Option Gtid} {set : GtidSet} (hc : Mv c tr last set) (m : Mode)
    (h : EventHeader) {e : BinlogEvent} (he : Begins e) : ∃ c', c.commit m h e = .ok c' ∧ Mv c' true last set := by
  refine ⟨_, commit_eq m c h _ (c1 := { c with transaction := true }) ?_, Mv.position ?_ h _⟩
  · unfold Client.updateGtidPosition
    rw [if_neg (by simp [hc.strategy])]
    cases e with
    | query q =>
      simp only [Begins] at he
      simp only [he, begin_ne.2.2.1, Bool.false_eq_true, if_false, if_true]
    | _ => exact he.elim
  · exact ⟨hc.strategy, rfl, hc.last, hc.set⟩

theorem Mv.inside {c : Client} {last : Option Gtid} {set : GtidSet} (hc : Mv c true last set) (m : Mode)
    (h : EventHeader) {e : BinlogEvent} (he : Inside e) : ∃ c', c.commit m h e = .ok c' ∧ Mv c' true last set := by
  refine ⟨_, commit_eq m c h _ (c1 := c) ?_, hc.position h _⟩
  unfold Client.updateGtidPosition
  rw [if_neg (by simp [hc.strategy])]
  have htr := hc.transaction
  cases e with
  | query q =>
    simp only [Inside, Ends, not_or] at he
    simp only [he.2.1, he.2.2, or_self, if_false, htr, Bool.not_true, Bool.false_eq_true]
    split
    · rfl
    · split
      · rw [← htr]
      · rfl
  | mySqlGtid x => exact absurd trivial he.1
  | mariaDbGtid x => exact absurd trivial he.1
  | xid x => exact absurd trivial he.2
  | _ => rfl

theorem Mv.commitGtid {c : Client} {tr : Bool} {g : Gtid} {set set' : GtidSet} {b : Bool} (hc : Mv c tr (some g) set) (m : Mode)
    (ha : set.addGtid m g = .ok (b, set')) : ∃ c', c.commitGtid m = .ok c' ∧ Mv c' false (some g) set' := by
  refine ⟨{ c with
      transaction := false
      options := { c.options with binlog := { c.options.binlog with
        gtidList := commitMaria c.mariaGtid c.options.binlog.gtidList, gtidSet := some set' } } }, ?_, ?_⟩
  · simp [Client.commitGtid, commitMysql, hc.last, hc.set, ha]
  · exact ⟨hc.strategy, rfl, hc.last, rfl⟩

theorem Mv.ends {c : Client} {tr : Bool} {g : Gtid} {set set' : GtidSet} {b : Bool} (hc : Mv c tr (some g) set) (m : Mode)
    (h : EventHeader) {e : BinlogEvent} (he : Ends e) (ha : set.addGtid m g = .ok (b, set')) :
    ∃ c', c.commit m h e = .ok c' ∧ Mv c' false (some g) set' := by
  obtain ⟨c1, h1, h2⟩ := hc.commitGtid m ha
  refine ⟨_, commit_eq m c h _ (c1 := c1) ?_, h2.position h _⟩
  unfold Client.updateGtidPosition
  rw [if_neg (by simp [hc.strategy])]
  cases e with
  | query q =>
    simp only [Ends] at he
    rcases he with he | he <;>
      simp only [he, begin_ne, Bool.false_eq_true, if_false, true_or, or_true, if_true, h1]
  | xid x => exact h1
  | _ => exact he.elim

theorem Mv.auto {c : Client} {g : Gtid} {set set' : GtidSet} {b : Bool} (hc : Mv c false (some g) set) (m : Mode)
    (h : EventHeader) {e : BinlogEvent} (he : AutoCommits e) (ha : set.addGtid m g = .ok (b, set')) :
    ∃ c', c.commit m h e = .ok c' ∧ Mv c' false (some g) set' := by
  obtain ⟨c1, h1, h2⟩ := hc.commitGtid m ha
  refine ⟨_, commit_eq m c h _ (c1 := c1) ?_, h2.position h _⟩
  unfold Client.updateGtidPosition
  rw [if_neg (by simp [hc.strategy])]
  cases e with
  | query q =>
    simp only [AutoCommits] at he
    simp only [List.isEmpty_iff, he.1, he.2.1, he.2.2.1, he.2.2.2, or_self, if_false, hc.transaction, Bool.not_false, if_true, h1]
  | _ => exact he.elim

/-- Committing `es` keeps the set, whatever it is. -/
def Keeps (m : Mode) (tr : Bool) (last : Option Gtid) (es : List Ev) (tr' : Bool) (last' : Option Gtid) : Prop :=
  ∀ c set, Mv c tr last set → ∃ c', commitAll m c es = .ok c' ∧ Mv c' tr' last' set

/-- So does committing any prefix of `es`. -/
def KeepsAll (m : Mode) (tr : Bool) (last : Option Gtid) (es : List Ev) : Prop :=
  ∀ k, ∃ tr' last', Keeps m tr last (es.take k) tr' last'

theorem Keeps.append {m : Mode} {tr tr1 tr2 : Bool} {l l1 l2 : Option Gtid} {a b : List Ev} (ha : Keeps m tr l a tr1 l1)
    (hb : Keeps m tr1 l1 b tr2 l2) : Keeps m tr l (a ++ b) tr2 l2 := by
  intro c set hc
  obtain ⟨c1, h1, h2⟩ := ha c set hc
  obtain ⟨c2, h3, h4⟩ := hb c1 set h2
  exact ⟨c2, by rw [commitAll_append, h1]; exact h3, h4⟩

theorem KeepsAll.append {m : Mode} {tr tr1 : Bool} {l l1 : Option Gtid} {a b : List Ev} (ha : KeepsAll m tr l a)
    (ha1 : Keeps m tr l a tr1 l1) (hb : KeepsAll m tr1 l1 b) : KeepsAll m tr l (a ++ b) := by
  intro k
  rw [List.take_append]
  by_cases hk : k ≤ a.length
  · have : b.take (k - a.length) = [] := by simp; omega
    rw [this, List.append_nil]
    exact ha k
  · rw [List.take_of_length_le (by omega)]
    obtain ⟨tr', l', h⟩ := hb (k - a.length)
    exact ⟨tr', l', ha1.append h⟩

theorem Keeps.one {m : Mode} {tr tr' : Bool} {l l' : Option Gtid} {h : EventHeader} {e : BinlogEvent}
    (H : ∀ c set, Mv c tr l set → ∃ c', c.commit m h e = .ok c' ∧ Mv c' tr' l' set) : Keeps m tr l [(h, e)] tr' l' := by
  intro c set hc
  obtain ⟨c', h1, h2⟩ := H c set hc
  exact ⟨c', by simp [commitAll, h1], h2⟩

theorem Keeps.nil (m : Mode) (tr : Bool) (l : Option Gtid) : Keeps m tr l [] tr l := fun c _ hc => ⟨c, rfl, hc⟩

theorem KeepsAll.one {m : Mode} {tr tr' : Bool} {l l' : Option Gtid} {e : Ev} (H : Keeps m tr l [e] tr' l') :
    KeepsAll m tr l [e] := by
  intro k
  cases k with
  | zero => exact ⟨tr, l, Keeps.nil m tr l⟩
  | succ k => exact ⟨tr', l', by simpa using H⟩

theorem keeps_neutral (m : Mode) (tr : Bool) (l : Option Gtid) (es : List Ev) (h : ∀ p ∈ es, Neutral p.2) :
    Keeps m tr l es tr l := by
  induction es with
  | nil => exact Keeps.nil m tr l
  | cons e es ih =>
    exact (Keeps.one fun c set hc => hc.neutral m e.1 (h e (by simp))).append (ih fun p hp => h p (by simp [hp]))

theorem keepsAll_neutral (m : Mode) (tr : Bool) (l : Option Gtid) (es : List Ev) (h : ∀ p ∈ es, Neutral p.2) :
    KeepsAll m tr l es := fun _ => ⟨tr, l, keeps_neutral m tr l _ fun p hp => h p (List.mem_of_mem_take hp)⟩

theorem keeps_inside (m : Mode) (l : Option Gtid) (es : List Ev) (h : ∀ p ∈ es, Inside p.2) :
    Keeps m true l es true l := by
  induction es with
  | nil => exact Keeps.nil m true l
  | cons e es ih =>
    exact (Keeps.one fun c set hc => hc.inside m e.1 (h e (by simp))).append (ih fun p hp => h p (by simp [hp]))

theorem keepsAll_inside (m : Mode) (l : Option Gtid) (es : List Ev) (h : ∀ p ∈ es, Inside p.2) :
    KeepsAll m true l es := fun _ => ⟨true, l, keeps_inside m l _ fun p hp => h p (List.mem_of_mem_take hp)⟩

/-- A transaction is a front that keeps the set and a last event that adds the GTID. -/
theorem mysqlTx_split (m : Mode) {g : Gtid} {es : List Ev} (h : MysqlTx g es) (l : Option Gtid) :
    ∃ front last, es = front ++ [last] ∧ KeepsAll m false l front ∧
      ∀ c set set' b, Mv c false l set → set.addGtid m g = .ok (b, set') →
        ∃ c', commitAll m c es = .ok c' ∧ Mv c' false (some g) set' := by
  cases h with
  | @block h0 hb he x b e mid body hx hm hbegin hi hend =>
    subst hx
    have k1 : Keeps m false l [(h0, .mySqlGtid x)] false (some x.gtid) := Keeps.one fun c set hc => hc.gtid m h0 x
    have k2 := keeps_neutral m false (some x.gtid) mid hm
    have k3 : Keeps m false (some x.gtid) [(hb, b)] true (some x.gtid) := Keeps.one fun c set hc => hc.begins m hb hbegin
    have k4 := keeps_inside m (some x.gtid) body hi
    have kk := ((k1.append k2).append k3).append k4
    refine ⟨[(h0, .mySqlGtid x)] ++ mid ++ [(hb, b)] ++ body, (he, e), by simp, ?_, ?_⟩
    · exact ((((KeepsAll.one k1).append k1 (keepsAll_neutral m false _ mid hm)).append (k1.append k2) (KeepsAll.one k3)).append
        ((k1.append k2).append k3) (keepsAll_inside m _ body hi))
    · intro c set set' fl hc ha
      obtain ⟨c1, h1, h2⟩ := kk c set hc
      obtain ⟨c2, h3, h4⟩ := h2.ends m he hend ha
      refine ⟨c2, ?_, h4⟩
      rw [show (h0, BinlogEvent.mySqlGtid x) :: mid ++ (hb, b) :: body ++ [(he, e)]
        = ([(h0, .mySqlGtid x)] ++ mid ++ [(hb, b)] ++ body) ++ [(he, e)] by simp, commitAll_append, h1]
      simp [commitAll, h3]
  | @auto h0 he x e mid hx hm hauto =>
    subst hx
    have k1 : Keeps m false l [(h0, .mySqlGtid x)] false (some x.gtid) := Keeps.one fun c set hc => hc.gtid m h0 x
    have k2 := keeps_neutral m false (some x.gtid) mid hm
    refine ⟨[(h0, .mySqlGtid x)] ++ mid, (he, e), by simp, ?_, ?_⟩
    · exact (KeepsAll.one k1).append k1 (keepsAll_neutral m false _ mid hm)
    · intro c set set' fl hc ha
      obtain ⟨c1, h1, h2⟩ := (k1.append k2) c set hc
      obtain ⟨c2, h3, h4⟩ := h2.auto m he hauto ha
      refine ⟨c2, ?_, h4⟩
      rw [show (h0, BinlogEvent.mySqlGtid x) :: mid ++ [(he, e)] = ([(h0, .mySqlGtid x)] ++ mid) ++ [(he, e)] by simp,
        commitAll_append, h1]
      simp [commitAll, h3]

/-- Any prefix of a stream of MySQL transactions, from any state between transactions. -/
theorem mysql_prefix (m : Mode) (parts : List (Part Gtid)) (hp : ∀ p ∈ parts, p.Ok MysqlTx)
    (hg : ∀ g ∈ parts.flatMap Part.gtids, UuidOk g.sourceId ∧ g.transactionId < 2 ^ 64 - 1) (k : Nat) (c : Client)
    (l : Option Gtid) (set : GtidSet) (hc : Mv c false l set) (hw : Wf set) (ho : AllOrdered set) :
    ∃ c' tr l' set', commitAll m c ((flat parts).take k) = .ok c' ∧ Mv c' tr l' set' ∧ Wf set' ∧ AllOrdered set' ∧
      ∀ u n, Has set' u n ↔ Has set u n ∨ ∃ g ∈ finished k parts, u = g.sourceId.data ∧ n = g.transactionId := by
  induction parts generalizing k c l set with
  | nil => exact ⟨c, false, l, set, by simp [flat, commitAll], hc, hw, ho, by simp [finished]⟩
  | cons p ps ih =>
    have hflat : flat (p :: ps) = p.events ++ flat ps := by simp [flat]
    rw [hflat, finished]
    by_cases hk : p.events.length ≤ k
    · rw [if_pos hk, List.take_append, List.take_of_length_le hk, commitAll_append]
      cases p with
      | noise e =>
        obtain ⟨c1, h1, h2⟩ := keeps_neutral m false l [e] (by simpa using (show Neutral e.2 from hp (.noise e) (by simp))) c set hc
        rw [Part.events, h1]
        exact ih (fun p hp' => hp p (by simp [hp'])) (fun g hg' => hg g (by simp [Part.gtids, hg'])) _ c1 l set h2 hw ho
      | tx g es =>
        have hgo := hg g (by simp [Part.gtids])
        obtain ⟨b, set1, a1, a2, a3, _, _, _, a4, _⟩ := addGtid_full m set g hw ho hgo.1 hgo.2
        obtain ⟨_, _, _, _, hfull⟩ := mysqlTx_split m (hp (.tx g es) (by simp)) l
        obtain ⟨c1, h1, h2⟩ := hfull c set set1 b hc a1
        rw [Part.events, h1]
        obtain ⟨c2, tr, l', set2, i1, i2, i3, i4, i5⟩ := ih (fun p hp' => hp p (by simp [hp']))
          (fun g hg' => hg g (by simp [Part.gtids, hg'])) (k - es.length) c1 (some g) set1 h2 a2 a3
        refine ⟨c2, tr, l', set2, i1, i2, i3, i4, fun u n => ?_⟩
        rw [i5, has_add hw a2 hgo.1 a4]
        simp only [Part.gtids, List.cons_append, List.nil_append, List.mem_cons, exists_eq_or_imp, or_assoc]
    · rw [if_neg hk]
      have ht : (p.events ++ flat ps).take k = p.events.take k := by
        rw [List.take_append_of_le_length (by omega)]
      rw [ht]
      cases p with
      | noise e =>
        simp only [Part.events, List.length_singleton] at hk
        have : k = 0 := by omega
        subst this
        exact ⟨c, false, l, set, by simp [commitAll], hc, hw, ho, by simp⟩
      | tx g es =>
        obtain ⟨front, last, rfl, hfront, _⟩ := mysqlTx_split m (hp (.tx g es) (by simp)) l
        simp only [Part.events, List.length_append, List.length_singleton] at hk
        obtain ⟨tr, l', hkeep⟩ := hfront k
        obtain ⟨c1, h1, h2⟩ := hkeep c set hc
        refine ⟨c1, tr, l', set, ?_, h2, hw, ho, by simp⟩
        rw [Part.events, List.take_append_of_le_length (by omega), h1]

/-! ## MariaDB -/

/-- GTID mode with a list. -/
structure Mw (c : Client) (last : Option MGtid) (list : GtidList) : Prop where
  strategy : c.options.binlog.startingStrategy = .fromGtid
  last : c.mariaGtid = last
  list : c.options.binlog.gtidList = some list
  set : c.options.binlog.gtidSet = none

theorem Mw.position {c : Client} {last : Option MGtid} {list : GtidList} (hc : Mw c last list) (h : EventHeader)
    (e : BinlogEvent) : Mw (c.updateBinlogPosition h e) last list := by
  obtain ⟨f1, f2, f3, f4, f5, f6⟩ := updateBinlogPosition_frame c h e
  exact ⟨by rw [f6, hc.strategy], by rw [f2, hc.last], by rw [f5, hc.list], by rw [f4, hc.set]⟩

theorem Mw.commitGtid {c : Client} {g : MGtid} {list : GtidList} (hc : Mw c (some g) list) (m : Mode) :
    ∃ c', c.commitGtid m = .ok c' ∧ c'.transaction = false ∧ Mw c' (some g) (list.addGtid g).2 := by
  refine ⟨{ c with
      transaction := false
      options := { c.options with binlog := { c.options.binlog with gtidList := some (list.addGtid g).2, gtidSet := none } } },
    ?_, rfl, ?_⟩
  · have : commitMysql m c.mysqlGtid none = .ok none := by unfold commitMysql; cases c.mysqlGtid <;> rfl
    simp [Client.commitGtid, commitMaria, hc.last, hc.set, hc.list, this]
  · exact ⟨hc.strategy, hc.last, rfl, rfl⟩

/-- An event that is not a GTID, does not end a transaction and is not an auto-committed statement keeps the list. -/
theorem Mw.quiet {c : Client} {last : Option MGtid} {list : GtidList} (hc : Mw c last list) (m : Mode) (h : EventHeader)
    {e : BinlogEvent} (h1 : Inside e) (h2 : ¬ AutoCommits e) : ∃ c', c.commit m h e = .ok c' ∧ Mw c' last list := by
  obtain ⟨c1, h3, h4⟩ : ∃ c1, c.updateGtidPosition m e = .ok c1 ∧ Mw c1 last list := by
    unfold Client.updateGtidPosition
    rw [if_neg (by simp [hc.strategy])]
    cases e with
    | query q =>
      simp only [Inside, Ends, not_or] at h1
      simp only [h1.2.1, h1.2.2, or_self, if_false]
      split
      · exact ⟨c, rfl, hc⟩
      · rename_i hne
        split
        · exact ⟨_, rfl, hc.strategy, hc.last, hc.list, hc.set⟩
        · rename_i hb
          exact absurd ⟨by simpa using hne, hb, h1.2.1, h1.2.2⟩ h2
    | mySqlGtid x => exact absurd trivial h1.1
    | mariaDbGtid x => exact absurd trivial h1.1
    | xid x => exact absurd trivial h1.2
    | _ => exact ⟨c, rfl, hc⟩
  exact ⟨_, commit_eq m c h e h3, h4.position h e⟩

theorem Mw.gtid {c : Client} {last : Option MGtid} {list : GtidList} (hc : Mw c last list) (m : Mode) (h : EventHeader)
    (x : MariaGtidEvent) : ∃ c', c.commit m h (.mariaDbGtid x) = .ok c' ∧ c'.transaction = c.transaction ∧
      Mw c' (some x.gtid) list := by
  refine ⟨_, commit_eq m c h _ (c1 := { c with mariaGtid := some x.gtid }) ?_, ?_, Mw.position ?_ h _⟩
  · unfold Client.updateGtidPosition
    rw [if_neg (by simp [hc.strategy])]
  · rw [(updateBinlogPosition_frame _ h _).2.2.1]
  · exact ⟨hc.strategy, rfl, hc.list, hc.set⟩

theorem Mw.ends {c : Client} {g : MGtid} {list : GtidList} (hc : Mw c (some g) list) (m : Mode)
    (h : EventHeader) {e : BinlogEvent} (he : Ends e) :
    ∃ c', c.commit m h e = .ok c' ∧ c'.transaction = false ∧ Mw c' (some g) (list.addGtid g).2 := by
  obtain ⟨c1, h1, h2, h3⟩ := hc.commitGtid m
  refine ⟨_, commit_eq m c h _ (c1 := c1) ?_, by rw [(updateBinlogPosition_frame _ h _).2.2.1, h2], h3.position h _⟩
  unfold Client.updateGtidPosition
  rw [if_neg (by simp [hc.strategy])]
  cases e with
  | query q =>
    simp only [Ends] at he
    rcases he with he | he <;>
      simp only [he, begin_ne, Bool.false_eq_true, if_false, true_or, or_true, if_true, h1]
  | xid x => exact h1
  | _ => exact he.elim

theorem Mw.auto {c : Client} {g : MGtid} {list : GtidList} (hc : Mw c (some g) list) (ht : c.transaction = false) (m : Mode)
    (h : EventHeader) {e : BinlogEvent} (he : AutoCommits e) :
    ∃ c', c.commit m h e = .ok c' ∧ c'.transaction = false ∧ Mw c' (some g) (list.addGtid g).2 := by
  obtain ⟨c1, h1, h2, h3⟩ := hc.commitGtid m
  refine ⟨_, commit_eq m c h _ (c1 := c1) ?_, by rw [(updateBinlogPosition_frame _ h _).2.2.1, h2], h3.position h _⟩
  unfold Client.updateGtidPosition
  rw [if_neg (by simp [hc.strategy])]
  cases e with
  | query q =>
    simp only [AutoCommits] at he
    simp only [List.isEmpty_iff, he.1, he.2.1, he.2.2.1, he.2.2.2, or_self, if_false, ht, Bool.not_false, if_true, h1]
  | _ => exact he.elim

theorem Mw.quiets {c : Client} {last : Option MGtid} {list : GtidList} (hc : Mw c last list) (m : Mode) (es : List Ev)
    (h : ∀ p ∈ es, Inside p.2 ∧ ¬ AutoCommits p.2) : ∃ c', commitAll m c es = .ok c' ∧ Mw c' last list := by
  induction es generalizing c with
  | nil => exact ⟨c, rfl, hc⟩
  | cons e es ih =>
    obtain ⟨c1, h1, h2⟩ := hc.quiet m e.1 (h e (by simp)).1 (h e (by simp)).2
    obtain ⟨c2, h3, h4⟩ := ih h2 fun p hp => h p (by simp [hp])
    exact ⟨c2, by simp [commitAll, h1, h3], h4⟩

theorem neutral_inside {e : BinlogEvent} (h : Neutral e) : Inside e ∧ ¬ AutoCommits e := by
  cases e with
  | query q =>
    simp only [Neutral] at h
    constructor
    · exact ⟨fun h => h, by simp only [Ends, h]; decide⟩
    · rintro ⟨h1, _⟩
      exact h1 h
  | mySqlGtid x => exact h.elim
  | mariaDbGtid x => exact h.elim
  | xid x => exact h.elim
  | _ => exact ⟨⟨id, id⟩, id⟩

/-- Neutral events do not touch the `transaction` flag. -/
theorem neutral_transaction {c c' : Client} {m : Mode} {es : List Ev} (h : ∀ p ∈ es, Neutral p.2)
    (hr : commitAll m c es = .ok c') : c'.transaction = c.transaction := by
  induction es generalizing c with
  | nil =>
    simp only [commitAll, Res.ok.injEq] at hr
    rw [hr]
  | cons e es ih =>
    have hg : c.updateGtidPosition m e.2 = .ok c := by
      have := h e (by simp)
      unfold Client.updateGtidPosition
      split
      · rfl
      · cases he : e.2 <;> simp_all [Neutral]
    rw [commitAll, commit_eq m c e.1 e.2 hg, Res.bind_ok] at hr
    rw [ih (fun p hp => h p (by simp [hp])) hr, (updateBinlogPosition_frame _ _ _).2.2.1]

end MysqlCdc
