import Verif.Lemmas.Uuid
import Verif.Lemmas.SortStrings
/-!
# MySQL GTID sets: C01 - C04, C08, C09
-/

namespace MysqlCdc
open Spec

/-- A history of `GtidSet::add_gtid` calls, each of which must succeed. -/
def addAll (m : Mode) : GtidSet → List Gtid → Res GtidSet
  | g, [] => .ok g
  | g, x :: xs => do
    let (_, g') ← g.addGtid m x
    addAll m g' xs

/-- A GTID as the library builds it from an event or from text, with an id below `u64::MAX` (MySQL ids end at 2^63 - 2). -/
def GtidOk (x : Gtid) : Prop := UuidOk x.sourceId ∧ x.transactionId < 2 ^ 64 - 1

/-! ## Concrete data for the non-vacuity examples -/

def exBytes : Bytes := [0x24, 0xbc, 0x78, 0x50, 0x2c, 0x16, 0x11, 0xe6, 0xa0, 0x73, 0x02, 0x42, 0xac, 0x11, 0x00, 0x01]
def exBytes2 : Bytes := [0x24, 0xbc, 0x78, 0x50, 0x2c, 0x16, 0x11, 0xe6, 0xa0, 0x73, 0x02, 0x42, 0xac, 0x11, 0x00, 0x02]
def exUuid : Uuid := ⟨exBytes, "24bc7850-2c16-11e6-a073-0242ac110001".toList⟩
def exUuid2 : Uuid := ⟨exBytes2, "24bc7850-2c16-11e6-a073-0242ac110002".toList⟩

theorem exUuid_canon : UuidCanon exUuid := by unfold UuidCanon; decide
theorem exUuid2_canon : UuidCanon exUuid2 := by unfold UuidCanon; decide

/-- `24bc...01:3-4:6-7,24bc...02:9` -/
def exSet : GtidSet := ⟨[(exUuid.uuid, ⟨exUuid, [⟨3, 4⟩, ⟨6, 7⟩]⟩), (exUuid2.uuid, ⟨exUuid2, [⟨9, 9⟩]⟩)]⟩

theorem exSet_wf : Wf exSet := by
  constructor
  · intro e he
    simp only [exSet, List.mem_cons, List.not_mem_nil, or_false] at he
    rcases he with rfl | rfl
    · exact ⟨UuidCanon_ok exUuid_canon, rfl⟩
    · exact ⟨UuidCanon_ok exUuid2_canon, rfl⟩
  · decide

theorem exSet_canonical : AllCanonical exSet := by
  intro e he
  simp only [exSet, List.mem_cons, List.not_mem_nil, or_false] at he
  rcases he with rfl | rfl <;> simp [Canonical]

theorem exSet_ordered : AllOrdered exSet := by
  intro e he
  refine ⟨(exSet_canonical e he).ordered, ?_⟩
  simp only [exSet, List.mem_cons, List.not_mem_nil, or_false] at he
  rcases he with rfl | rfl <;> simp [InRange]

/-! ## C01 -/

/-- C01, one call: `add_gtid` on a set with ordered intervals succeeds, and afterwards the set stands for the old transactions
and the new one, nothing else. -/
theorem C01_add_gtid_adds_exactly (m : Mode) (g : GtidSet) (x : Gtid) (hw : Wf g) (ho : AllOrdered g) (hx : GtidOk x) :
    ∃ b g', g.addGtid m x = .ok (b, g') ∧
      ∀ u n, Has g' u n ↔ Has g u n ∨ (u = x.sourceId.data ∧ n = x.transactionId) := by
  obtain ⟨b, g', h1, h2, _, _, _, _, h3, _⟩ := addGtid_full m g x hw ho hx.1 hx.2
  exact ⟨b, g', h1, fun u n => has_add hw h2 hx.1 h3 u n⟩

example : Wf exSet ∧ AllOrdered exSet ∧ GtidOk ⟨exUuid, 5⟩ :=
  ⟨exSet_wf, exSet_ordered, UuidCanon_ok exUuid_canon, by decide⟩

theorem addAll_full (m : Mode) (xs : List Gtid) (g : GtidSet) (hw : Wf g) (ho : AllOrdered g) (hx : ∀ x ∈ xs, GtidOk x) :
    ∃ g', addAll m g xs = .ok g' ∧ Wf g' ∧ AllOrdered g' ∧ (AllCanonical g → AllCanonical g') ∧
      (∀ k n, InIvs n (ivsOf g' k) ↔ InIvs n (ivsOf g k) ∨ ∃ x ∈ xs, k = x.sourceId.uuid ∧ n = x.transactionId) ∧
      (∀ k, k ∈ g'.uuidSets.map (·.1) ↔ k ∈ g.uuidSets.map (·.1) ∨ ∃ x ∈ xs, k = x.sourceId.uuid) ∧
      (∀ e ∈ g'.uuidSets, (∃ e' ∈ g.uuidSets, e.2.sourceId = e'.2.sourceId) ∨ ∃ x ∈ xs, e.2.sourceId = x.sourceId) := by
  induction xs generalizing g with
  | nil => exact ⟨g, rfl, hw, ho, id, by simp, by simp, fun e he => Or.inl ⟨e, he, rfl⟩⟩
  | cons x xs ih =>
    obtain ⟨b, g1, h1, h2, h3, h4, _, _, h5, h6, h7⟩ := addGtid_full m g x hw ho (hx x (by simp)).1 (hx x (by simp)).2
    obtain ⟨g2, i1, i2, i3, i4, i5, i6, i7⟩ := ih g1 h2 h3 (fun y hy => hx y (by simp [hy]))
    refine ⟨g2, ?_, i2, i3, fun h => i4 (h4 h), ?_, ?_, ?_⟩
    · simp [addAll, h1, i1]
    · intro k n
      rw [i5, h5]
      simp only [List.mem_cons, exists_eq_or_imp, or_assoc]
    · intro k
      rw [i6, h6]
      simp only [List.mem_cons, exists_eq_or_imp, or_assoc]
    · intro e he
      rcases i7 e he with ⟨e', he', h⟩ | ⟨y, hy, h⟩
      · rcases h7 e' he' with ⟨e'', he'', h'⟩ | h'
        · exact Or.inl ⟨e'', he'', h.trans h'⟩
        · exact Or.inr ⟨x, by simp, h.trans h'⟩
      · exact Or.inr ⟨y, by simp [hy], h⟩

/-- C01, histories: after any sequence of calls the set stands for the old transactions and those added. -/
theorem C01_history_adds_exactly (m : Mode) (g : GtidSet) (xs : List Gtid) (hw : Wf g) (ho : AllOrdered g)
    (hx : ∀ x ∈ xs, GtidOk x) :
    ∃ g', addAll m g xs = .ok g' ∧
      ∀ u n, Has g' u n ↔ Has g u n ∨ ∃ x ∈ xs, u = x.sourceId.data ∧ n = x.transactionId := by
  induction xs generalizing g with
  | nil => exact ⟨g, rfl, by simp⟩
  | cons x xs ih =>
    obtain ⟨b, g1, h1, h2, h3, _, _, _, h5, _⟩ := addGtid_full m g x hw ho (hx x (by simp)).1 (hx x (by simp)).2
    obtain ⟨g2, i1, i2⟩ := ih g1 h2 h3 (fun y hy => hx y (by simp [hy]))
    refine ⟨g2, by simp [addAll, h1, i1], ?_⟩
    intro u n
    rw [i2, has_add hw h2 (hx x (by simp)).1 h5]
    simp only [List.mem_cons, exists_eq_or_imp, or_assoc]

example : Wf exSet ∧ AllOrdered exSet ∧ ∀ x ∈ [(⟨exUuid, 5⟩ : Gtid), ⟨exUuid2, 2⟩, ⟨exUuid, 5⟩], GtidOk x := by
  refine ⟨exSet_wf, exSet_ordered, ?_⟩
  intro x hx
  simp only [List.mem_cons, List.not_mem_nil, or_false] at hx
  rcases hx with rfl | rfl | rfl
  · exact ⟨UuidCanon_ok exUuid_canon, by decide⟩
  · exact ⟨UuidCanon_ok exUuid2_canon, by decide⟩
  · exact ⟨UuidCanon_ok exUuid_canon, by decide⟩

/-- The bound on ids cannot be dropped. With an interval reaching `u64::MAX` (which the library's parser accepts, though no
server issues such an id) adding id 0 panics when overflow checks are on, and with checks off it destroys the interval: id 5
was in the set and is lost. -/
theorem C01_bound_needed :
    (⟨[(exUuid.uuid, ⟨exUuid, [⟨5, 2 ^ 64 - 1⟩]⟩)]⟩ : GtidSet).addGtid ⟨true⟩ ⟨exUuid, 0⟩ = .panic ∧
    (⟨[(exUuid.uuid, ⟨exUuid, [⟨5, 2 ^ 64 - 1⟩]⟩)]⟩ : GtidSet).addGtid ⟨false⟩ ⟨exUuid, 0⟩ =
      .ok (true, ⟨[(exUuid.uuid, ⟨exUuid, [⟨5, 0⟩]⟩)]⟩) ∧
    Has ⟨[(exUuid.uuid, ⟨exUuid, [⟨5, 2 ^ 64 - 1⟩]⟩)]⟩ exBytes 5 ∧
    ¬ Has ⟨[(exUuid.uuid, ⟨exUuid, [⟨5, 0⟩]⟩)]⟩ exBytes 5 := by
  refine ⟨by decide +kernel, by decide +kernel, ?_, ?_⟩
  · exact ⟨_, List.mem_singleton.2 rfl, rfl, ⟨5, 2 ^ 64 - 1⟩, by simp, by decide, by decide⟩
  · rintro ⟨e, he, _, iv, hiv, h1, h2⟩
    simp only [List.mem_singleton] at he
    subst he
    simp only [List.mem_singleton] at hiv
    subst hiv
    simp at h2

/-! ## C02 -/

/-- Canonical form of a whole set: canonical intervals, usual uuid texts, one entry per server. -/
structure CanonSet (g : GtidSet) : Prop where
  intervals : ∀ e ∈ g.uuidSets, Canonical e.2.intervals
  uuids : ∀ e ∈ g.uuidSets, UuidCanon e.2.sourceId ∧ e.1 = e.2.sourceId.uuid
  servers : (g.uuidSets.map (·.2.sourceId.data)).Nodup

theorem CanonSet.wf {g : GtidSet} (h : CanonSet g) : Wf g := by
  constructor
  · intro e he; exact ⟨UuidCanon_ok (h.uuids e he).1, (h.uuids e he).2⟩
  · refine List.pairwise_map.2 ((List.pairwise_map.1 h.servers).imp_of_mem ?_)
    intro a b ha hb hne heq
    apply hne
    rw [(h.uuids a ha).2, (h.uuids b hb).2, (h.uuids a ha).1.2, (h.uuids b hb).1.2] at heq
    exact uuidText_inj heq

/-- C02: whatever the history of `add_gtid` calls, the set stays canonical (intervals sorted, non-empty, disjoint, nothing left
to merge) with one entry per server. -/
theorem C02_stays_canonical (m : Mode) (g : GtidSet) (xs : List Gtid) (hg : CanonSet g)
    (hr : ∀ e ∈ g.uuidSets, InRange e.2.intervals) (hx : ∀ x ∈ xs, UuidCanon x.sourceId ∧ x.transactionId < 2 ^ 64 - 1) :
    ∃ g', addAll m g xs = .ok g' ∧ CanonSet g' := by
  obtain ⟨g', h1, h2, h3, h4, _, _, h5⟩ := addAll_full m xs g hg.wf
    (fun e he => ⟨(hg.intervals e he).ordered, hr e he⟩) (fun x hx' => ⟨UuidCanon_ok (hx x hx').1, (hx x hx').2⟩)
  refine ⟨g', h1, h4 hg.intervals, ?_, ?_⟩
  · intro e he
    refine ⟨?_, (h2.uuids e he).2⟩
    rcases h5 e he with ⟨e', he', h⟩ | ⟨x, hx', h⟩
    · rw [h]; exact (hg.uuids e' he').1
    · rw [h]; exact (hx x hx').1
  · refine List.pairwise_map.2 ((List.pairwise_map.1 h2.keys).imp_of_mem ?_)
    intro a b ha hb hne heq
    apply hne
    have hc : ∀ e ∈ g'.uuidSets, UuidCanon e.2.sourceId := by
      intro e he
      rcases h5 e he with ⟨e', he', h⟩ | ⟨x, hx', h⟩
      · rw [h]; exact (hg.uuids e' he').1
      · rw [h]; exact (hx x hx').1
    rw [(h2.uuids a ha).2, (h2.uuids b hb).2, (hc a ha).2, (hc b hb).2, heq]

example : CanonSet exSet ∧ (∀ e ∈ exSet.uuidSets, InRange e.2.intervals) ∧
    ∀ x ∈ [(⟨exUuid, 5⟩ : Gtid), ⟨exUuid2, 2⟩], UuidCanon x.sourceId ∧ x.transactionId < 2 ^ 64 - 1 := by
  refine ⟨⟨exSet_canonical, ?_, by decide⟩, fun e he => (exSet_ordered e he).2, ?_⟩
  · intro e he
    simp only [exSet, List.mem_cons, List.not_mem_nil, or_false] at he
    rcases he with rfl | rfl
    · exact ⟨exUuid_canon, rfl⟩
    · exact ⟨exUuid2_canon, rfl⟩
  · intro x hx
    simp only [List.mem_cons, List.not_mem_nil, or_false] at hx
    rcases hx with rfl | rfl
    · exact ⟨exUuid_canon, by decide⟩
    · exact ⟨exUuid2_canon, by decide⟩

/-- C02 for the empty set, the start of every history. -/
example : CanonSet GtidSet.new := ⟨by simp [GtidSet.new], by simp [GtidSet.new], by simp [GtidSet.new]⟩

/-! ## C03 -/

/-- C03: `add_gtid` answers `true` exactly for a transaction that was not in the set; when it answers `false` the set is left
as it was. -/
theorem C03_reports_new (m : Mode) (g : GtidSet) (x : Gtid) (hg : CanonSet g)
    (hr : ∀ e ∈ g.uuidSets, InRange e.2.intervals) (hx : UuidCanon x.sourceId) (ht : x.transactionId < 2 ^ 64 - 1) :
    ∃ b g', g.addGtid m x = .ok (b, g') ∧ (b = true ↔ ¬ Has g x.sourceId.data x.transactionId) ∧ (b = false → g' = g) := by
  obtain ⟨b, g', h1, _, _, _, h2, h3, _⟩ := addGtid_full m g x hg.wf
    (fun e he => ⟨(hg.intervals e he).ordered, hr e he⟩) (UuidCanon_ok hx) ht
  refine ⟨b, g', h1, ?_, h2⟩
  have : Has g x.sourceId.data x.transactionId ↔ b = false := by
    rw [h3, has_iff hg.wf]
    constructor
    · rintro ⟨k, s, hk, hd, hi⟩
      have hm := HMap.get?_eq_some_mem hk
      have hkey : k = x.sourceId.uuid := by
        obtain ⟨c, e⟩ := hg.uuids _ hm
        simp only at c e
        rw [e, c.2, hx.2, hd]
      subst hkey
      simpa [ivsOf, hk] using hi
    · intro hi
      cases hk : g.uuidSets.get? x.sourceId.uuid with
      | none => simp [ivsOf, hk, InIvs] at hi
      | some s =>
        refine ⟨_, s, hk, ?_, by simpa [ivsOf, hk] using hi⟩
        have hm := HMap.get?_eq_some_mem hk
        obtain ⟨c, e⟩ := hg.uuids _ hm
        simp only at c e
        apply uuidText_inj
        rw [← c.2, ← e, hx.2]
  rw [this]; simp

/-- Both answers occur. -/
example : exSet.addGtid ⟨true⟩ ⟨exUuid, 5⟩ =
      .ok (true, ⟨[(exUuid.uuid, ⟨exUuid, [⟨3, 7⟩]⟩), (exUuid2.uuid, ⟨exUuid2, [⟨9, 9⟩]⟩)]⟩) ∧
    exSet.addGtid ⟨true⟩ ⟨exUuid, 6⟩ = .ok (false, exSet) := by
  constructor <;> decide +kernel

/-! ## C04 -/

/-- C04: two histories with the same transactions (any order, any repetition) starting from the same canonical set print the
same text, whatever the iteration order of the hash maps. -/
theorem C04_order_independent (m : Mode) (g : GtidSet) (xs ys : List Gtid) (hw : Wf g) (hc : AllCanonical g)
    (hr : ∀ e ∈ g.uuidSets, InRange e.2.intervals) (hx : ∀ x ∈ xs, GtidOk x) (hxy : ∀ x, x ∈ xs ↔ x ∈ ys) :
    ∃ g₁ g₂, addAll m g xs = .ok g₁ ∧ addAll m g ys = .ok g₂ ∧
      ∀ p₁ p₂ : HMap RStr UuidSet, p₁.Perm g₁.uuidSets → p₂.Perm g₂.uuidSets →
        GtidSet.display ⟨p₁⟩ = GtidSet.display ⟨p₂⟩ := by
  have ho : AllOrdered g := fun e he => ⟨(hc e he).ordered, hr e he⟩
  obtain ⟨g₁, a1, a2, a3, a4, a5, a6, _⟩ := addAll_full m xs g hw ho hx
  obtain ⟨g₂, b1, b2, b3, b4, b5, b6, _⟩ := addAll_full m ys g hw ho (fun y hy => hx y ((hxy y).2 hy))
  refine ⟨g₁, g₂, a1, b1, ?_⟩
  have hget : ∀ k, g₁.uuidSets.get? k = g₂.uuidSets.get? k := by
    intro k
    have hkeys : k ∈ g₁.uuidSets.map (·.1) ↔ k ∈ g₂.uuidSets.map (·.1) := by
      rw [a6, b6]
      simp only [hxy]
    have hmem : ∀ n, InIvs n (ivsOf g₁ k) ↔ InIvs n (ivsOf g₂ k) := by
      intro n
      rw [a5, b5]
      simp only [hxy]
    cases h1 : g₁.uuidSets.get? k with
    | none =>
      symm
      rw [HMap.get?_eq_none] at h1 ⊢
      rwa [← hkeys]
    | some s₁ =>
      cases h2 : g₂.uuidSets.get? k with
      | none =>
        rw [HMap.get?_eq_none, ← hkeys, ← HMap.get?_eq_none, h1] at h2
        cases h2
      | some s₂ =>
        have m1 := HMap.get?_eq_some_mem h1
        have m2 := HMap.get?_eq_some_mem h2
        have e1 := a2.uuids _ m1
        have e2 := b2.uuids _ m2
        have hs : s₁.sourceId = s₂.sourceId := uuidOk_data e1.1 e2.1 (e1.2.symm.trans e2.2)
        have hi : s₁.intervals = s₂.intervals := by
          apply canonical_unique _ _ (a4 hc _ m1) (b4 hc _ m2)
          intro n
          have := hmem n
          simpa [ivsOf, h1, h2] using this
        cases s₁; cases s₂; simp_all
  have hperm : g₁.uuidSets.Perm g₂.uuidSets := HMap.perm_of_get? a2.keys b2.keys hget
  intro p₁ p₂ h1 h2
  unfold GtidSet.display
  congr 1
  apply sortStrings_eq_of_perm
  exact (((h1.trans hperm).trans h2.symm).map (fun e => e.2)).map UuidSet.display

example : (∀ x ∈ [(⟨exUuid, 5⟩ : Gtid), ⟨exUuid2, 2⟩, ⟨exUuid, 5⟩], GtidOk x) ∧
    ∀ x, x ∈ [(⟨exUuid, 5⟩ : Gtid), ⟨exUuid2, 2⟩, ⟨exUuid, 5⟩] ↔ x ∈ [(⟨exUuid2, 2⟩ : Gtid), ⟨exUuid, 5⟩] := by
  constructor
  · intro x hx
    simp only [List.mem_cons, List.not_mem_nil, or_false] at hx
    rcases hx with rfl | rfl | rfl
    · exact ⟨UuidCanon_ok exUuid_canon, by decide⟩
    · exact ⟨UuidCanon_ok exUuid2_canon, by decide⟩
    · exact ⟨UuidCanon_ok exUuid_canon, by decide⟩
  · intro x; simp only [List.mem_cons, List.not_mem_nil, or_false]
    constructor
    · rintro (h | h | h) <;> simp [h]
    · rintro (h | h) <;> simp [h]

/-! ## C08 -/

/-- C08: the text of a 16-byte server id is 36 characters of lower-case hex in 8-4-4-4-12 groups, and it parses back to the
same uuid. -/
theorem C08_uuid_roundtrip (d : Bytes) (h : d.length = 16) :
    (Uuid.new d).uuid = uuidText d ∧ (Uuid.new d).uuid.length = 36 ∧ (Uuid.new d).data = d ∧
      Uuid.parse (Uuid.new d).uuid = .ok (Uuid.new d) := by
  rw [uuid_new_eq d h]
  refine ⟨rfl, uuidText_length d h, rfl, ?_⟩
  rw [uuid_parse_ok_iff]
  exact ⟨rfl, uuidText_names d h⟩

/-- C08: dashes are at places 8, 13, 18, 23 and every other character is a lower-case hex digit. -/
theorem C08_uuid_shape (d : Bytes) (h : d.length = 16) (i : Nat) (hi : i < (Uuid.new d).uuid.length) :
    if i = 8 ∨ i = 13 ∨ i = 18 ∨ i = 23 then (Uuid.new d).uuid[i] = '-'
    else (Uuid.new d).uuid[i] ∈ "0123456789abcdef".toList := by
  match d, h with
  | [d0, d1, d2, d3, d4, d5, d6, d7, d8, d9, d10, d11, d12, d13, d14, d15], h =>
    have hd : ∀ b : UInt8, Nat.digitChar (b.toNat / 16) ∈ "0123456789abcdef".toList ∧
        Nat.digitChar (b.toNat % 16) ∈ "0123456789abcdef".toList := fun b => by
      have := b.toNat_lt
      exact ⟨(digitChar_hex _ (by omega)).2.2.1, (digitChar_hex _ (by omega)).2.2.1⟩
    simp only [uuid_new_eq _ h, uuidText, hexText, List.take, List.drop, List.flatMap_cons, List.flatMap_nil,
      List.append_nil, List.cons_append, List.nil_append, List.length_cons, List.length_nil] at hi ⊢
    match i, hi with
    | 0, _ => exact (hd _).1 | 1, _ => exact (hd _).2 | 2, _ => exact (hd _).1 | 3, _ => exact (hd _).2
    | 4, _ => exact (hd _).1 | 5, _ => exact (hd _).2 | 6, _ => exact (hd _).1 | 7, _ => exact (hd _).2
    | 8, _ => rfl
    | 9, _ => exact (hd _).1 | 10, _ => exact (hd _).2 | 11, _ => exact (hd _).1 | 12, _ => exact (hd _).2
    | 13, _ => rfl
    | 14, _ => exact (hd _).1 | 15, _ => exact (hd _).2 | 16, _ => exact (hd _).1 | 17, _ => exact (hd _).2
    | 18, _ => rfl
    | 19, _ => exact (hd _).1 | 20, _ => exact (hd _).2 | 21, _ => exact (hd _).1 | 22, _ => exact (hd _).2
    | 23, _ => rfl
    | 24, _ => exact (hd _).1 | 25, _ => exact (hd _).2 | 26, _ => exact (hd _).1 | 27, _ => exact (hd _).2
    | 28, _ => exact (hd _).1 | 29, _ => exact (hd _).2 | 30, _ => exact (hd _).1 | 31, _ => exact (hd _).2
    | 32, _ => exact (hd _).1 | 33, _ => exact (hd _).2 | 34, _ => exact (hd _).1 | 35, _ => exact (hd _).2
    | n + 36, hi => exact absurd hi (by omega)

/-- C08: different ids have different texts. -/
theorem C08_uuid_injective (d e : Bytes) (hd : d.length = 16) (he : e.length = 16)
    (h : (Uuid.new d).uuid = (Uuid.new e).uuid) : d = e := by
  rw [uuid_new_eq d hd, uuid_new_eq e he] at h
  exact uuidText_inj h

example : exBytes.length = 16 ∧ Uuid.new exBytes = exUuid := by decide

/-! ## C09 -/

/-- `24BC7850-2C16-11E6-A073-0242AC110001:1-5` -/
def exUpper : RStr := "24BC7850-2C16-11E6-A073-0242AC110001:1-5".toList

/-- C09 is false of the code: with upper-case digits in the configured text, committing a GTID of that same server makes a
second entry for it instead of extending the first. -/
theorem C09_upper_case_false : ∃ (g g' : GtidSet) (x : Gtid), GtidSet.parse ⟨true⟩ exUpper = .ok g ∧
    x.sourceId = Uuid.new exBytes ∧ g.addGtid ⟨true⟩ x = .ok (true, g') ∧
    g'.uuidSets.map (·.2.sourceId.data) = [exBytes, exBytes] ∧ Has g exBytes 5 ∧ x.transactionId = 6 ∧
    g'.uuidSets.map (·.2.intervals) = [[⟨1, 5⟩], [⟨6, 6⟩]] := by
  refine ⟨⟨[("24BC7850-2C16-11E6-A073-0242AC110001".toList,
      ⟨⟨exBytes, "24BC7850-2C16-11E6-A073-0242AC110001".toList⟩, [⟨1, 5⟩]⟩)]⟩,
    ⟨[("24BC7850-2C16-11E6-A073-0242AC110001".toList,
      ⟨⟨exBytes, "24BC7850-2C16-11E6-A073-0242AC110001".toList⟩, [⟨1, 5⟩]⟩), (exUuid.uuid, ⟨exUuid, [⟨6, 6⟩]⟩)]⟩,
    ⟨exUuid, 6⟩, by decide +kernel, by decide +kernel, by decide +kernel, by decide, ?_, rfl, by decide⟩
  exact ⟨_, List.mem_singleton.2 rfl, rfl, ⟨1, 5⟩, by simp, by decide, by decide⟩

/-- C09, the part that holds: with usual (lower-case) uuid texts there is one entry per server after every history, and the
entry of a GTID's server is the one that is extended. Missing: texts with upper-case digits or other dash positions. -/
theorem C09_one_entry_partial (m : Mode) (g : GtidSet) (xs : List Gtid) (hg : CanonSet g)
    (hr : ∀ e ∈ g.uuidSets, InRange e.2.intervals) (hx : ∀ x ∈ xs, UuidCanon x.sourceId ∧ x.transactionId < 2 ^ 64 - 1) :
    ∃ g', addAll m g xs = .ok g' ∧ (g'.uuidSets.map (·.2.sourceId.data)).Nodup ∧
      ∀ x ∈ xs, ∃ e ∈ g'.uuidSets, e.2.sourceId = x.sourceId ∧ InIvs x.transactionId e.2.intervals := by
  obtain ⟨g', h1, h2⟩ := C02_stays_canonical m g xs hg hr hx
  refine ⟨g', h1, h2.servers, ?_⟩
  obtain ⟨g'', i1, _, _, _, i5, _⟩ := addAll_full m xs g hg.wf
    (fun e he => ⟨(hg.intervals e he).ordered, hr e he⟩) (fun x hx' => ⟨UuidCanon_ok (hx x hx').1, (hx x hx').2⟩)
  rw [h1] at i1
  injection i1 with i1
  subst i1
  intro x hx'
  have := (i5 x.sourceId.uuid x.transactionId).2 (Or.inr ⟨x, hx', rfl, rfl⟩)
  cases hk : g'.uuidSets.get? x.sourceId.uuid with
  | none => simp [ivsOf, hk, InIvs] at this
  | some s =>
    have hm := HMap.get?_eq_some_mem hk
    refine ⟨_, hm, ?_, by simpa [ivsOf, hk] using this⟩
    have := h2.uuids _ hm
    exact uuidOk_data (UuidCanon_ok this.1) (UuidCanon_ok (hx x hx').1) this.2.symm

/-- The hypotheses of `C09_one_entry_partial` are those of C02, met by `exSet` above. -/
example : addAll ⟨true⟩ exSet [⟨exUuid, 5⟩] =
    .ok ⟨[(exUuid.uuid, ⟨exUuid, [⟨3, 7⟩]⟩), (exUuid2.uuid, ⟨exUuid2, [⟨9, 9⟩]⟩)]⟩ := by decide +kernel

end MysqlCdc
