import Verif.Lemmas.Intervals
import Verif.Lemmas.HMap
/-!
# `add_gtid` on interval lists and on whole sets
-/

namespace MysqlCdc
open Spec

theorem char_ne_toNat {c d : Char} (h : c ≠ d) : c.toNat ≠ d.toNat := by
  intro h'; exact h (Char.toNat_inj.1 h')

theorem hexVal_eq (c : Char) : hexVal c = hexDigit? c := by
  unfold hexDigit?
  split
  any_goals rfl
  rename_i h0 h1 h2 h3 h4 h5 h6 h7 h8 h9 h10 h11 h12 h13 h14 h15 h16 h17 h18 h19 h20 h21
  have := char_ne_toNat h0; have := char_ne_toNat h1; have := char_ne_toNat h2; have := char_ne_toNat h3
  have := char_ne_toNat h4; have := char_ne_toNat h5; have := char_ne_toNat h6; have := char_ne_toNat h7
  have := char_ne_toNat h8; have := char_ne_toNat h9; have := char_ne_toNat h10; have := char_ne_toNat h11
  have := char_ne_toNat h12; have := char_ne_toNat h13; have := char_ne_toNat h14; have := char_ne_toNat h15
  have := char_ne_toNat h16; have := char_ne_toNat h17; have := char_ne_toNat h18; have := char_ne_toNat h19
  have := char_ne_toNat h20; have := char_ne_toNat h21
  simp at *
  unfold hexVal
  simp only
  rw [if_neg (by omega), if_neg (by omega), if_neg (by omega)]

theorem hexPairs_unique {s : RStr} {a b : Bytes} (ha : HexPairs s a) (hb : HexPairs s b) : a = b := by
  induction ha generalizing b with
  | nil => cases hb; rfl
  | byte h1 h2 _ ih =>
    cases hb with
    | byte h1' h2' h3' =>
      rw [h1] at h1'; rw [h2] at h2'
      simp at h1' h2'
      rw [ih h3', h1', h2']

theorem names_unique {k : RStr} {a b : Bytes} (ha : Names k a) (hb : Names k b) : a = b := by
  obtain ⟨la, ea, ha⟩ := ha
  obtain ⟨lb, eb, hb⟩ := hb
  have h := congrArg (List.take 16) (hexPairs_unique ha hb)
  rwa [← la, List.take_left, la, ← lb, List.take_left] at h

theorem uuidOk_data {u v : Uuid} (hu : UuidOk u) (hv : UuidOk v) (h : u.uuid = v.uuid) : u = v := by
  have : u.data = v.data := names_unique hu (by rw [h]; exact hv)
  cases u; cases v; simp_all

theorem inIvs_append {n : Nat} {a b : List Interval} : InIvs n (a ++ b) ↔ InIvs n a ∨ InIvs n b := by
  simp only [InIvs, List.mem_append]
  constructor
  · rintro ⟨iv, h | h, h'⟩
    · exact Or.inl ⟨iv, h, h'⟩
    · exact Or.inr ⟨iv, h, h'⟩
  · rintro (⟨iv, h, h'⟩ | ⟨iv, h, h'⟩)
    · exact ⟨iv, Or.inl h, h'⟩
    · exact ⟨iv, Or.inr h, h'⟩

theorem inIvs_cons {n : Nat} {a : Interval} {b : List Interval} :
    InIvs n (a :: b) ↔ (a.start ≤ n ∧ n ≤ a.end) ∨ InIvs n b := by
  simp [InIvs]

theorem insertIdx_append_length {α : Type} (a b : List α) (x : α) : (a ++ b).insertIdx a.length x = a ++ x :: b := by
  induction a with
  | nil => simp
  | cons y a ih => simp [ih]

theorem addGtid_core (m : Mode) (s : UuidSet) (g : Gtid) (hd : s.sourceId.data = g.sourceId.data)
    (ho : Ordered s.intervals) (hr : InRange s.intervals) (ht : g.transactionId < 2 ^ 64 - 1) :
    (InIvs g.transactionId s.intervals ∧ s.addGtid m g = .ok (false, s)) ∨
    (¬ InIvs g.transactionId s.intervals ∧ ∃ ivs, s.addGtid m g = .ok (true, { s with intervals := collapseP ivs }) ∧
      Ordered ivs ∧ InRange ivs ∧ ∀ n, InIvs n ivs ↔ InIvs n s.intervals ∨ n = g.transactionId) := by
  obtain ⟨u, ivs⟩ := s
  obtain ⟨gu, t⟩ := g
  simp only at *
  obtain ⟨p, hp, hsplit⟩ := findIntervalIndex_spec ivs t ho
  obtain ⟨pre, post, rfl, hlen, hpre, hpost⟩ := hsplit.split
  have hfin : ∀ l, InRange l → (if l.length > 1 then (collapseIntervals m l >>=
      fun ivs => (Res.ok (true, ({ sourceId := u, intervals := ivs } : UuidSet))))
      else Res.ok (true, ({ sourceId := u, intervals := l } : UuidSet))) =
      .ok (true, { sourceId := u, intervals := collapseP l }) := by
    intro l hl
    have := collapse_guarded m l hl
    by_cases h : l.length > 1
    · rw [if_pos h] at this ⊢; rw [this]; rfl
    · rw [if_neg h] at this ⊢; injection this with this; rw [← this]
  have hpw := List.pairwise_append.1 ho.2
  have hnpre : ¬ InIvs t pre := by
    rintro ⟨iv, h1, h2, h3⟩
    have := hpre iv h1; omega
  have hadd : addU m 64 t 1 = .ok (t + 1) := by unfold addU; rw [if_pos (by omega)]
  unfold UuidSet.addGtid
  simp only [hd, hp, Res.bind_ok, Res.pure_eq, ne_eq, not_true_eq_false, if_false]
  cases post with
  | nil =>
    right
    have hno : ¬ InIvs t (pre ++ []) := by simpa using hnpre
    refine ⟨hno, pre ++ [⟨t, t⟩], ?_, ?_, ?_, ?_⟩
    · have : (pre ++ [])[p]? = none := by simp; omega
      rw [this]
      simp only
      rw [if_pos (by simp; omega)]
      have : (pre ++ []).insertIdx p ⟨t, t⟩ = pre ++ [⟨t, t⟩] := by
        subst hlen; simp
      rw [this]
      apply hfin
      intro iv hiv
      rcases List.mem_append.1 hiv with h | h
      · exact hr iv (by simp [h])
      · simp at h; subst h; exact ht
    · constructor
      · intro iv hiv
        rcases List.mem_append.1 hiv with h | h
        · exact ho.1 iv (by simp [h])
        · simp at h; subst h; simp
      · rw [List.pairwise_append]
        refine ⟨hpw.1, by simp, ?_⟩
        intro a ha b hb
        simp at hb; subst hb
        exact hpre a ha
    · intro iv hiv
      rcases List.mem_append.1 hiv with h | h
      · exact hr iv (by simp [h])
      · simp at h; subst h; exact ht
    · intro n
      rw [inIvs_append, inIvs_append, inIvs_cons]
      simp [InIvs]
      constructor
      · rintro (h | h)
        · exact Or.inl h
        · exact Or.inr (by omega)
      · rintro (h | h)
        · exact Or.inl h
        · exact Or.inr (by omega)
  | cons iv rest =>
    have hiv := hpost iv (by simp)
    have hivr : iv.end < 2 ^ 64 - 1 := hr iv (by simp)
    have hivo : iv.start ≤ iv.end := ho.1 iv (by simp)
    have hrest : ∀ b ∈ rest, iv.end < b.start := (List.pairwise_cons.1 hpw.2.1).1
    have hget : (pre ++ iv :: rest)[p]? = some iv := by subst hlen; simp
    have hadd2 : addU m 64 iv.end 1 = .ok (iv.end + 1) := by unfold addU; rw [if_pos (by omega)]
    have hrr : ∀ x, x.end < 2 ^ 64 - 1 → InRange (pre ++ x :: rest) := by
      intro x hx b hb
      rcases List.mem_append.1 hb with h | h
      · exact hr b (by simp [h])
      · rcases List.mem_cons.1 h with rfl | h
        · exact hx
        · exact hr b (by simp [h])
    simp only [hget, hadd, Res.bind_ok, hadd2]
    by_cases h1 : iv.start = t + 1
    · right
      have hno : ¬ InIvs t (pre ++ iv :: rest) := by
        rw [inIvs_append, inIvs_cons]
        rintro (h | h | ⟨b, hb, h2, h3⟩)
        · exact hnpre h
        · omega
        · have := hrest b hb; omega
      refine ⟨hno, pre ++ ⟨t, iv.end⟩ :: rest, ?_, ?_, ?_, ?_⟩
      · rw [if_pos h1]
        have : (pre ++ iv :: rest).set p ⟨t, iv.end⟩ = pre ++ ⟨t, iv.end⟩ :: rest := by subst hlen; simp
        rw [this]
        exact hfin _ (hrr ⟨t, iv.end⟩ hivr)
      · constructor
        · intro x hx
          rcases List.mem_append.1 hx with h | h
          · exact ho.1 x (by simp [h])
          · rcases List.mem_cons.1 h with rfl | h
            · simp; omega
            · exact ho.1 x (by simp [h])
        · rw [List.pairwise_append]
          refine ⟨hpw.1, List.pairwise_cons.2 ⟨hrest, (List.pairwise_cons.1 hpw.2.1).2⟩, ?_⟩
          intro a ha b hb
          rcases List.mem_cons.1 hb with rfl | hb
          · exact hpre a ha
          · exact hpw.2.2 a ha b (by simp [hb])
      · exact hrr ⟨t, iv.end⟩ hivr
      · intro n
        rw [inIvs_append, inIvs_append, inIvs_cons, inIvs_cons]
        simp only
        constructor
        · rintro (h | h | h)
          · exact Or.inl (Or.inl h)
          · by_cases hn : n = t
            · exact Or.inr hn
            · exact Or.inl (Or.inr (Or.inl (by omega)))
          · exact Or.inl (Or.inr (Or.inr h))
        · rintro ((h | h | h) | h)
          · exact Or.inl h
          · exact Or.inr (Or.inl (by omega))
          · exact Or.inr (Or.inr h)
          · exact Or.inr (Or.inl (by omega))
    · rw [if_neg h1, if_neg (by omega)]
      by_cases h2 : iv.start ≤ t ∧ t ≤ iv.end
      · left
        refine ⟨⟨iv, by simp, h2⟩, ?_⟩
        rw [if_pos h2]
      · right
        have hno : ¬ InIvs t (pre ++ iv :: rest) := by
          rw [inIvs_append, inIvs_cons]
          rintro (h | h | ⟨b, hb, h2, h3⟩)
          · exact hnpre h
          · omega
          · have := hrest b hb; omega
        refine ⟨hno, pre ++ ⟨t, t⟩ :: iv :: rest, ?_, ?_, ?_, ?_⟩
        · rw [if_neg h2, if_pos (by simp; omega)]
          have : (pre ++ iv :: rest).insertIdx p ⟨t, t⟩ = pre ++ ⟨t, t⟩ :: iv :: rest := by
            subst hlen; simp [insertIdx_append_length]
          rw [this]
          apply hfin
          intro b hb
          rcases List.mem_append.1 hb with h | h
          · exact hr b (by simp [h])
          · rcases List.mem_cons.1 h with rfl | h
            · exact ht
            · exact hr b (by simp only [List.mem_append]; right; exact h)
        · constructor
          · intro x hx
            rcases List.mem_append.1 hx with h | h
            · exact ho.1 x (by simp [h])
            · rcases List.mem_cons.1 h with rfl | h
              · simp
              · exact ho.1 x (by simp only [List.mem_append]; right; exact h)
          · rw [List.pairwise_append]
            refine ⟨hpw.1, List.pairwise_cons.2 ⟨?_, hpw.2.1⟩, ?_⟩
            · intro b hb
              rcases List.mem_cons.1 hb with rfl | hb
              · simp; omega
              · have := hrest b hb; simp; omega
            · intro a ha b hb
              rcases List.mem_cons.1 hb with rfl | hb
              · exact hpre a ha
              · exact hpw.2.2 a ha b hb
        · intro b hb
          rcases List.mem_append.1 hb with h | h
          · exact hr b (by simp [h])
          · rcases List.mem_cons.1 h with rfl | h
            · exact ht
            · exact hr b (by simp only [List.mem_append]; right; exact h)
        · intro n
          rw [inIvs_append, inIvs_append, inIvs_cons]
          simp only
          constructor
          · rintro (h | h | h)
            · exact Or.inl (Or.inl h)
            · exact Or.inr (by omega)
            · exact Or.inl (Or.inr h)
          · rintro ((h | h) | h)
            · exact Or.inl h
            · exact Or.inr (Or.inr h)
            · exact Or.inr (Or.inl (by omega))

/-! ## Whole sets -/

/-- Entries of the set, without the map's order: the intervals under each key. -/
def ivsOf (g : GtidSet) (k : RStr) : List Interval := ((g.uuidSets.get? k).map (·.intervals)).getD []

def AllOrdered (g : GtidSet) : Prop := ∀ e ∈ g.uuidSets, Ordered e.2.intervals ∧ InRange e.2.intervals
def AllCanonical (g : GtidSet) : Prop := ∀ e ∈ g.uuidSets, Canonical e.2.intervals

theorem insert_same {κ ν : Type} [DecidableEq κ] {m : HMap κ ν} {k : κ} {v : ν} (h : m.get? k = some v) :
    m.insert k v = m := by
  induction m with
  | nil => simp [HMap.get?] at h
  | cons e m ih =>
    obtain ⟨k', v'⟩ := e
    simp only [HMap.get?] at h
    simp only [HMap.insert]
    split
    · rename_i h'; rw [if_pos h'] at h; injection h with h; rw [h]
    · rename_i h'; rw [if_neg h'] at h; rw [ih h]

theorem has_iff {g : GtidSet} (hw : Wf g) (u : Bytes) (n : Nat) :
    Has g u n ↔ ∃ k s, g.uuidSets.get? k = some s ∧ s.sourceId.data = u ∧ InIvs n s.intervals := by
  constructor
  · rintro ⟨⟨k, s⟩, he, h1, h2⟩
    exact ⟨k, s, HMap.mem_get? hw.keys he, h1, h2⟩
  · rintro ⟨k, s, he, h1, h2⟩
    exact ⟨(k, s), HMap.get?_eq_some_mem he, h1, h2⟩

/-- What `GtidSet::add_gtid` does: either the id is there and the set stays, or one entry gets new, ordered intervals. -/
theorem gtidSet_addGtid_core (m : Mode) (g : GtidSet) (x : Gtid) (hw : Wf g) (ho : AllOrdered g)
    (hu : UuidOk x.sourceId) (ht : x.transactionId < 2 ^ 64 - 1) :
    (InIvs x.transactionId (ivsOf g x.sourceId.uuid) ∧ g.addGtid m x = .ok (false, g)) ∨
    (¬ InIvs x.transactionId (ivsOf g x.sourceId.uuid) ∧ ∃ ivs,
      g.addGtid m x = .ok (true, ⟨g.uuidSets.insert x.sourceId.uuid ⟨x.sourceId, collapseP ivs⟩⟩) ∧
      Ordered ivs ∧ InRange ivs ∧
      ∀ n, InIvs n ivs ↔ InIvs n (ivsOf g x.sourceId.uuid) ∨ n = x.transactionId) := by
  have hnew : UuidSet.new m x.sourceId [] = .ok ⟨x.sourceId, []⟩ := by simp [UuidSet.new]
  unfold GtidSet.addGtid
  rw [hnew]
  simp only [Res.bind_ok]
  cases hk : g.uuidSets.get? x.sourceId.uuid with
  | none =>
    rcases addGtid_core m ⟨x.sourceId, []⟩ x rfl (by simp [Ordered]) (by simp [InRange]) ht with ⟨h, _⟩ | ⟨h, ivs, h1, h2, h3, h4⟩
    · simp [InIvs] at h
    · right
      have : ivsOf g x.sourceId.uuid = [] := by simp [ivsOf, hk]
      rw [this]
      refine ⟨h, ivs, ?_, h2, h3, h4⟩
      simp [h1]
  | some s =>
    have hmem := HMap.get?_eq_some_mem hk
    obtain ⟨huid, hkey⟩ := hw.uuids _ hmem
    have hsrc : s.sourceId = x.sourceId := uuidOk_data huid hu hkey.symm
    have hiv : ivsOf g x.sourceId.uuid = s.intervals := by simp [ivsOf, hk]
    rw [hiv]
    rcases addGtid_core m s x (by rw [hsrc]) (ho _ hmem).1 (ho _ hmem).2 ht with ⟨h, h1⟩ | ⟨h, ivs, h1, h2, h3, h4⟩
    · left
      refine ⟨h, ?_⟩
      simp [h1, insert_same hk]
    · right
      refine ⟨h, ivs, ?_, h2, h3, h4⟩
      simp [h1, hsrc]

theorem wf_insert {g : GtidSet} {u : Uuid} {ivs : List Interval} (hw : Wf g) (hu : UuidOk u) :
    Wf ⟨g.uuidSets.insert u.uuid ⟨u, ivs⟩⟩ := by
  constructor
  · rintro ⟨k, s⟩ he
    rcases (HMap.mem_insert hw.keys).1 he with ⟨h1, h2⟩ | ⟨_, h2⟩
    · subst h1; subst h2; exact ⟨hu, rfl⟩
    · exact hw.uuids _ h2
  · exact HMap.nodup_insert hw.keys _ _

/-- Everything later theorems need about one `add_gtid`. -/
theorem addGtid_full (m : Mode) (g : GtidSet) (x : Gtid) (hw : Wf g) (ho : AllOrdered g)
    (hu : UuidOk x.sourceId) (ht : x.transactionId < 2 ^ 64 - 1) :
    ∃ b g', g.addGtid m x = .ok (b, g') ∧ Wf g' ∧ AllOrdered g' ∧ (AllCanonical g → AllCanonical g') ∧
      (b = false → g' = g) ∧ (b = false ↔ InIvs x.transactionId (ivsOf g x.sourceId.uuid)) ∧
      (∀ k n, InIvs n (ivsOf g' k) ↔ InIvs n (ivsOf g k) ∨ (k = x.sourceId.uuid ∧ n = x.transactionId)) ∧
      (∀ k, k ∈ g'.uuidSets.map (·.1) ↔ k ∈ g.uuidSets.map (·.1) ∨ k = x.sourceId.uuid) ∧
      (∀ e ∈ g'.uuidSets, (∃ e' ∈ g.uuidSets, e.2.sourceId = e'.2.sourceId) ∨ e.2.sourceId = x.sourceId) := by
  rcases gtidSet_addGtid_core m g x hw ho hu ht with ⟨h, h1⟩ | ⟨h, ivs, h1, h2, h3, h4⟩
  · refine ⟨false, g, h1, hw, ho, id, fun _ => rfl, by simpa using h, ?_, ?_, fun e he => Or.inl ⟨e, he, rfl⟩⟩
    · intro k n
      constructor
      · exact Or.inl
      · rintro (h' | ⟨rfl, rfl⟩)
        · exact h'
        · exact h
    · intro k
      constructor
      · exact Or.inl
      · rintro (h' | rfl)
        · exact h'
        · apply Classical.byContradiction
          intro hc
          rw [← HMap.get?_eq_none] at hc
          simp [ivsOf, hc, InIvs] at h
  · refine ⟨true, _, h1, wf_insert hw hu, ?_, ?_, by simp, by simpa using h, ?_, ?_, ?_⟩
    · rintro ⟨k, s⟩ he
      rcases (HMap.mem_insert hw.keys).1 he with ⟨_, h'⟩ | ⟨_, h'⟩
      · subst h'
        exact ⟨(collapseP_canonical ivs h2).ordered, collapseP_range ivs h3⟩
      · exact ho _ h'
    · rintro hc ⟨k, s⟩ he
      rcases (HMap.mem_insert hw.keys).1 he with ⟨_, h'⟩ | ⟨_, h'⟩
      · subst h'
        exact collapseP_canonical ivs h2
      · exact hc _ h'
    · intro k n
      by_cases hk : x.sourceId.uuid = k
      · subst hk
        simp only [ivsOf, HMap.get?_insert, if_true, Option.map_some, Option.getD_some, true_and]
        rw [collapseP_mem ivs h2, h4]
        rfl
      · simp only [ivsOf, HMap.get?_insert, if_neg hk]
        constructor
        · exact Or.inl
        · rintro (h' | ⟨h', _⟩)
          · exact h'
          · exact absurd h'.symm hk
    · intro k
      simp only [HMap.keys_insert]
      split
      · constructor
        · exact Or.inl
        · rintro (h' | rfl) <;> assumption
      · simp
    · rintro ⟨k, s⟩ he
      rcases (HMap.mem_insert hw.keys).1 he with ⟨_, h'⟩ | ⟨_, h'⟩
      · right; subst h'; rfl
      · left; exact ⟨_, h', rfl⟩

/-- The set seen through keys and through server ids. -/
theorem has_iff_ivsOf {g : GtidSet} (hw : Wf g) (u : Bytes) (n : Nat) :
    Has g u n ↔ ∃ k, Names k u ∧ InIvs n (ivsOf g k) := by
  rw [has_iff hw]
  constructor
  · rintro ⟨k, s, h1, h2, h3⟩
    have hm := HMap.get?_eq_some_mem h1
    obtain ⟨h4, h5⟩ := hw.uuids _ hm
    refine ⟨k, ?_, ?_⟩
    · simp only at h4 h5; rw [h5, ← h2]; exact h4
    · simpa [ivsOf, h1] using h3
  · rintro ⟨k, h1, h2⟩
    cases hk : g.uuidSets.get? k with
    | none => simp [ivsOf, hk, InIvs] at h2
    | some s =>
      have hm := HMap.get?_eq_some_mem hk
      obtain ⟨h4, h5⟩ := hw.uuids _ hm
      refine ⟨k, s, hk, ?_, by simpa [ivsOf, hk] using h2⟩
      simp only at h4 h5
      rw [h5] at h1
      exact names_unique h4 h1

theorem has_add {g g' : GtidSet} {x : Gtid} (hw : Wf g) (hw' : Wf g') (hu : UuidOk x.sourceId)
    (h : ∀ k n, InIvs n (ivsOf g' k) ↔ InIvs n (ivsOf g k) ∨ (k = x.sourceId.uuid ∧ n = x.transactionId)) (u : Bytes)
    (n : Nat) : Has g' u n ↔ Has g u n ∨ (u = x.sourceId.data ∧ n = x.transactionId) := by
  rw [has_iff_ivsOf hw', has_iff_ivsOf hw]
  constructor
  · rintro ⟨k, h1, h2⟩
    rcases (h k n).1 h2 with h3 | ⟨rfl, h3⟩
    · exact Or.inl ⟨k, h1, h3⟩
    · exact Or.inr ⟨names_unique h1 hu, h3⟩
  · rintro (⟨k, h1, h2⟩ | ⟨rfl, rfl⟩)
    · exact ⟨k, h1, (h k n).2 (Or.inl h2)⟩
    · exact ⟨x.sourceId.uuid, hu, (h _ _).2 (Or.inr ⟨rfl, rfl⟩)⟩

end MysqlCdc
