import Verif.Spec.GtidSet
/-!
# Interval lists: binary search and collapsing
-/

namespace MysqlCdc
open Spec

/-- Structural form of `collapse_intervals`. -/
def collapseP : List Interval → List Interval
  | [] => []
  | [a] => [a]
  | a :: b :: r =>
    if a.end + 1 = b.start then collapseP ({ start := a.start, «end» := b.end } :: r)
    else a :: collapseP (b :: r)
  termination_by l => l.length

theorem collapseLoop_eq (m : Mode) (pre l : List Interval) (hl : InRange l) :
    collapseLoop m (pre ++ l) pre.length = .ok (pre ++ collapseP l) := by
  induction l using collapseP.induct generalizing pre with
  | case1 => unfold collapseLoop; rw [dif_neg (by simp)]; simp [collapseP]
  | case2 a => unfold collapseLoop; simp [collapseP]
  | case3 a b r h ih =>
    have ha : a.end < 2 ^ 64 - 1 := hl a (by simp)
    unfold collapseLoop
    simp only [List.length_append, List.length_cons]
    rw [dif_pos (by omega)]
    have e1 : (pre ++ a :: b :: r)[pre.length]'(by simp) = a := by simp
    have e2 : (pre ++ a :: b :: r)[pre.length + 1]'(by simp) = b := by
      rw [List.getElem_append_right (by omega)]; simp
    simp only [e1, e2]
    have hadd : addU m 64 a.end 1 = .ok (a.end + 1) := by
      unfold addU; rw [if_pos (by omega)]
    rw [hadd]
    simp only [h, if_true]
    have e3 : ((pre ++ a :: b :: r).set pre.length { start := a.start, «end» := b.end }).eraseIdx (pre.length + 1)
        = pre ++ { start := a.start, «end» := b.end } :: r := by
      rw [List.set_append_right _ _ (by omega)]
      rw [List.eraseIdx_append_of_length_le (by omega)]
      simp
    rw [e3, ih pre]
    · simp [collapseP, h]
    · intro iv hiv
      rcases List.mem_cons.1 hiv with rfl | hiv
      · exact hl b (by simp)
      · exact hl iv (by simp [hiv])
  | case4 a b r h ih =>
    have ha : a.end < 2 ^ 64 - 1 := hl a (by simp)
    unfold collapseLoop
    simp only [List.length_append, List.length_cons]
    rw [dif_pos (by omega)]
    have e1 : (pre ++ a :: b :: r)[pre.length]'(by simp) = a := by simp
    have e2 : (pre ++ a :: b :: r)[pre.length + 1]'(by simp) = b := by
      rw [List.getElem_append_right (by omega)]; simp
    simp only [e1, e2]
    have hadd : addU m 64 a.end 1 = .ok (a.end + 1) := by
      unfold addU; rw [if_pos (by omega)]
    rw [hadd]
    simp only [h, if_false]
    have := ih (pre ++ [a]) (fun iv hiv => hl iv (by simp at hiv ⊢; right; exact hiv))
    simp only [List.length_append, List.length_singleton, List.append_assoc, List.singleton_append] at this
    rw [this]
    simp [collapseP, h]

theorem collapseIntervals_eq (m : Mode) (l : List Interval) (hl : InRange l) (hne : l ≠ []) :
    collapseIntervals m l = .ok (collapseP l) := by
  unfold collapseIntervals
  rw [if_neg (by simpa using hne)]
  simpa using collapseLoop_eq m [] l hl

/-- The guard `len() > 1` makes no difference. -/
theorem collapse_guarded (m : Mode) (l : List Interval) (hl : InRange l) :
    (if l.length > 1 then collapseIntervals m l else pure l : Res (List Interval)) = .ok (collapseP l) := by
  split
  · exact collapseIntervals_eq m l hl (by rintro rfl; simp at *)
  · match l with
    | [] => simp [collapseP]
    | [a] => simp [collapseP]
    | _ :: _ :: _ => simp at *

theorem Spec.Ordered.tail {a : Interval} {l : List Interval} (h : Ordered (a :: l)) : Ordered l :=
  ⟨fun iv hiv => h.1 iv (by simp [hiv]), (List.pairwise_cons.1 h.2).2⟩

theorem Spec.Canonical.tail {a : Interval} {l : List Interval} (h : Canonical (a :: l)) : Canonical l :=
  ⟨fun iv hiv => h.1 iv (by simp [hiv]), (List.pairwise_cons.1 h.2).2⟩

theorem Spec.Canonical.ordered {l : List Interval} (h : Canonical l) : Ordered l :=
  ⟨h.1, h.2.imp (by intros; omega)⟩

theorem collapseP_head (a : Interval) (l : List Interval) :
    ∃ e r, collapseP (a :: l) = { start := a.start, «end» := e } :: r := by
  induction hn : l.length using Nat.strongRecOn generalizing a l with
  | _ n ih =>
    match l with
    | [] => exact ⟨a.end, [], by simp [collapseP]⟩
    | b :: r =>
      by_cases h : a.end + 1 = b.start
      · obtain ⟨e, r', h'⟩ := ih r.length (by simp at hn; omega) { start := a.start, «end» := b.end } r rfl
        exact ⟨e, r', by rw [collapseP, if_pos h, h']⟩
      · exact ⟨a.end, collapseP (b :: r), by rw [collapseP, if_neg h]⟩

theorem collapseP_mem' (l : List Interval) (h : ∀ iv ∈ l, iv.start ≤ iv.end) (n : Nat) :
    InIvs n (collapseP l) ↔ InIvs n l := by
  induction l using collapseP.induct with
  | case1 => simp [collapseP]
  | case2 a => simp [collapseP]
  | case3 a b r hab ih =>
    have hb := h b (by simp)
    have ha := h a (by simp)
    rw [collapseP, if_pos hab, ih]
    · simp only [InIvs, List.mem_cons, exists_eq_or_imp]
      constructor
      · rintro (⟨h1, h2⟩ | h1)
        · by_cases hn : n ≤ a.end
          · exact Or.inl ⟨h1, hn⟩
          · exact Or.inr (Or.inl ⟨by omega, h2⟩)
        · exact Or.inr (Or.inr h1)
      · rintro (⟨h1, h2⟩ | ⟨h1, h2⟩ | h1)
        · exact Or.inl ⟨h1, by omega⟩
        · exact Or.inl ⟨by omega, h2⟩
        · exact Or.inr h1
    · intro iv hiv
      rcases List.mem_cons.1 hiv with rfl | hiv
      · simp; omega
      · exact h iv (by simp [hiv])
  | case4 a b r hab ih =>
    rw [collapseP, if_neg hab]
    have := ih (fun iv hiv => h iv (List.mem_cons_of_mem _ hiv))
    simp only [InIvs, List.mem_cons, exists_eq_or_imp] at this ⊢
    rw [this]

theorem collapseP_mem (l : List Interval) (h : Ordered l) (n : Nat) : InIvs n (collapseP l) ↔ InIvs n l :=
  collapseP_mem' l h.1 n

/-- Nothing to merge in a canonical list. -/
theorem collapseP_of_canonical (l : List Interval) (h : Canonical l) : collapseP l = l := by
  induction l using collapseP.induct with
  | case1 => simp [collapseP]
  | case2 a => simp [collapseP]
  | case3 a b r hab ih =>
    have := (List.pairwise_cons.1 h.2).1 b (by simp)
    omega
  | case4 a b r hab ih => rw [collapseP, if_neg hab, ih h.tail]

theorem collapseLoop_canonical (m : Mode) (l : List Interval) (h : Canonical l) (hr : ∀ iv ∈ l, iv.end < 2 ^ 64) (i : Nat) :
    collapseLoop m l i = .ok l := by
  induction hk : l.length - i using Nat.strongRecOn generalizing i with
  | _ k ih =>
    unfold collapseLoop
    split
    · rename_i hi
      have h1 := List.pairwise_iff_getElem.1 h.2 i (i + 1) (by omega) (by omega) (by omega)
      have h2 := h.1 l[i + 1] (List.getElem_mem _)
      have h3 := hr l[i + 1] (List.getElem_mem _)
      have hadd : addU m 64 l[i].end 1 = .ok (l[i].end + 1) := by unfold addU; rw [if_pos (by omega)]
      simp only [hadd]
      rw [if_neg (by omega)]
      exact ih _ (by omega) (i + 1) rfl
    · rfl

theorem collapseP_range (l : List Interval) (h : InRange l) : InRange (collapseP l) := by
  induction l using collapseP.induct with
  | case1 => simpa [collapseP] using h
  | case2 a => simpa [collapseP] using h
  | case3 a b r hab ih =>
    rw [collapseP, if_pos hab]
    apply ih
    intro iv hiv
    rcases List.mem_cons.1 hiv with rfl | hiv
    · exact h b (by simp)
    · exact h iv (by simp [hiv])
  | case4 a b r hab ih =>
    rw [collapseP, if_neg hab]
    intro iv hiv
    rcases List.mem_cons.1 hiv with rfl | hiv
    · exact h iv (by simp)
    · exact ih (fun iv hiv => h iv (by simp at hiv ⊢; right; exact hiv)) iv hiv

theorem collapseP_canonical (l : List Interval) (h : Ordered l) : Canonical (collapseP l) := by
  induction l using collapseP.induct with
  | case1 => simp [collapseP, Canonical]
  | case2 a => simpa [collapseP, Canonical] using h.1 a (by simp)
  | case3 a b r hab ih =>
    rw [collapseP, if_pos hab]
    have hab' := (List.pairwise_cons.1 h.2).1 b (by simp)
    have hb := h.1 b (by simp)
    have ha := h.1 a (by simp)
    apply ih
    constructor
    · intro iv hiv
      rcases List.mem_cons.1 hiv with rfl | hiv
      · simp; omega
      · exact h.1 iv (by simp [hiv])
    · refine List.pairwise_cons.2 ⟨?_, (List.pairwise_cons.1 (List.pairwise_cons.1 h.2).2).2⟩
      intro iv hiv
      exact (List.pairwise_cons.1 (List.pairwise_cons.1 h.2).2).1 iv hiv
  | case4 a b r hab ih =>
    rw [collapseP, if_neg hab]
    have hab' := (List.pairwise_cons.1 h.2).1 b (by simp)
    have ih' := ih h.tail
    obtain ⟨e, r', he⟩ := collapseP_head b r
    rw [he] at ih' ⊢
    constructor
    · intro iv hiv
      rcases List.mem_cons.1 hiv with rfl | hiv
      · exact h.1 iv (by simp)
      · exact ih'.1 iv hiv
    · refine List.pairwise_cons.2 ⟨?_, ih'.2⟩
      intro iv hiv
      rcases List.mem_cons.1 hiv with rfl | hiv
      · simp; omega
      · have h1 := (List.pairwise_cons.1 ih'.2).1 iv hiv
        have h2 := ih'.1 { start := b.start, «end» := e } (by simp)
        simp at h1 h2
        omega

/-- Canonical lists standing for the same ids are equal. -/
theorem canonical_unique (a b : List Interval) (ha : Canonical a) (hb : Canonical b)
    (h : ∀ n, InIvs n a ↔ InIvs n b) : a = b := by
  induction a generalizing b with
  | nil =>
    cases b with
    | nil => rfl
    | cons y ys =>
      exfalso
      have hy := hb.1 y (by simp)
      have := (h y.start).2 ⟨y, by simp, by omega, hy⟩
      simp [InIvs] at this
  | cons x xs ih =>
    have hx := ha.1 x (by simp)
    cases b with
    | nil =>
      exfalso
      have := (h x.start).1 ⟨x, by simp, by omega, hx⟩
      simp [InIvs] at this
    | cons y ys =>
      have hy := hb.1 y (by simp)
      have hxs := (List.pairwise_cons.1 ha.2).1
      have hys := (List.pairwise_cons.1 hb.2).1
      have hstart : x.start = y.start := by
        obtain ⟨z, hz, hz1, hz2⟩ := (h x.start).1 ⟨x, by simp, by omega, hx⟩
        obtain ⟨w, hw, hw1, hw2⟩ := (h y.start).2 ⟨y, by simp, by omega, hy⟩
        have : y.start ≤ x.start := by
          rcases List.mem_cons.1 hz with rfl | hz
          · exact hz1
          · have := hys z hz; omega
        have : x.start ≤ y.start := by
          rcases List.mem_cons.1 hw with rfl | hw
          · exact hw1
          · have := hxs w hw; omega
        omega
      have hend : x.end = y.end := by
        rcases Nat.lt_trichotomy x.end y.end with hlt | heq | hgt
        · obtain ⟨z, hz, hz1, hz2⟩ := (h (x.end + 1)).2 ⟨y, by simp, by omega, by omega⟩
          rcases List.mem_cons.1 hz with rfl | hz
          · omega
          · have := hxs z hz; omega
        · exact heq
        · obtain ⟨z, hz, hz1, hz2⟩ := (h (y.end + 1)).1 ⟨x, by simp, by omega, by omega⟩
          rcases List.mem_cons.1 hz with rfl | hz
          · omega
          · have := hys z hz; omega
      have hxy : x = y := by
        cases x; cases y; simp_all
      subst hxy
      congr 1
      apply ih ys ha.tail hb.tail
      intro n
      constructor
      · rintro ⟨z, hz, hz1, hz2⟩
        obtain ⟨w, hw, hw1, hw2⟩ := (h n).1 ⟨z, by simp [hz], hz1, hz2⟩
        rcases List.mem_cons.1 hw with rfl | hw
        · have := hxs z hz; omega
        · exact ⟨w, hw, hw1, hw2⟩
      · rintro ⟨z, hz, hz1, hz2⟩
        obtain ⟨w, hw, hw1, hw2⟩ := (h n).2 ⟨z, by simp [hz], hz1, hz2⟩
        rcases List.mem_cons.1 hw with rfl | hw
        · have := hys z hz; omega
        · exact ⟨w, hw, hw1, hw2⟩

/-! ## Binary search -/

/-- `p` splits the list: everything before ends below `t`, everything from `p` on ends at `t` or later. -/
def SplitAt (ivs : List Interval) (t p : Nat) : Prop :=
  p ≤ ivs.length ∧ (∀ j (h : j < ivs.length), j < p → ivs[j].end < t) ∧
    (∀ j (h : j < ivs.length), p ≤ j → t ≤ ivs[j].end)

theorem ordered_lt {ivs : List Interval} (h : Ordered ivs) {i j : Nat} (hi : i < ivs.length) (hj : j < ivs.length)
    (hij : i < j) : ivs[i].end < ivs[j].start :=
  List.pairwise_iff_getElem.1 h.2 i j hi hj hij

theorem ordered_le {ivs : List Interval} (h : Ordered ivs) {i : Nat} (hi : i < ivs.length) :
    ivs[i].start ≤ ivs[i].end := h.1 _ (List.getElem_mem hi)

theorem findLoop_spec (ivs : List Interval) (t : Nat) (ho : Ordered ivs) (result left right : Nat)
    (hlr : left ≤ right) (hr : right ≤ ivs.length)
    (hL : ∀ j (h : j < ivs.length), j < left → ivs[j].end < t)
    (hR : ∀ j (h : j < ivs.length), right ≤ j → t < ivs[j].start)
    (hres : left < right ∨ (ivs = [] ∧ result = 0) ∨ result + 1 = left ∨ (result = right ∧ right < ivs.length)) :
    (∃ i, findLoop ivs t result left right = .ok (.inl i) ∧ SplitAt ivs t i ∧ i < ivs.length) ∨
    (∃ r p, findLoop ivs t result left right = .ok (.inr r) ∧ SplitAt ivs t p ∧
      ((ivs = [] ∧ r = 0 ∧ p = 0) ∨ r + 1 = p ∨ (r = p ∧ p < ivs.length))) := by
  induction hn : right - left using Nat.strongRecOn generalizing result left right with
  | _ n ih =>
    unfold findLoop
    by_cases hlt : left < right
    · rw [dif_pos hlt]
      have hmid : (left + right) / 2 < ivs.length := by omega
      simp only [List.getElem?_eq_getElem hmid]
      generalize hm : (left + right) / 2 = mid at *
      by_cases h1 : ivs[mid].end < t
      · rw [if_pos h1]
        apply ih (right - (mid + 1)) (by omega) mid (mid + 1) right (by omega) hr ?_ hR (by right; right; left; rfl) rfl
        intro j hj hjm
        by_cases hjm' : j = mid
        · subst hjm'; exact h1
        · have := ordered_lt ho hj hmid (by omega)
          have := ordered_le ho hmid
          omega
      · rw [if_neg h1]
        by_cases h2 : t < ivs[mid].start
        · rw [if_pos h2]
          apply ih (mid - left) (by omega) mid left mid (by omega) (by omega) hL ?_ (by right; right; right; exact ⟨rfl, hmid⟩) rfl
          intro j hj hjm
          by_cases hjm' : j = mid
          · subst hjm'; exact h2
          · have := ordered_lt ho hmid hj (by omega)
            have := ordered_le ho hmid
            omega
        · rw [if_neg h2]
          left
          refine ⟨mid, rfl, ⟨by omega, ?_, ?_⟩, hmid⟩
          · intro j hj hjm
            have := ordered_lt ho hj hmid hjm
            omega
          · intro j hj hjm
            by_cases hjm' : j = mid
            · subst hjm'; omega
            · have := ordered_lt ho hmid hj (by omega)
              have := ordered_le ho hj
              omega
    · rw [dif_neg hlt]
      right
      have hlr' : left = right := by omega
      subst hlr'
      refine ⟨result, left, rfl, ⟨hr, hL, ?_⟩, ?_⟩
      · intro j hj hjl
        have := hR j hj hjl
        have := ordered_le ho hj
        omega
      · rcases hres with h | ⟨h, h'⟩ | h | h
        · omega
        · left; subst h; simp at hr; exact ⟨rfl, h', hr⟩
        · right; left; exact h
        · right; right; exact h

theorem findIntervalIndex_spec (ivs : List Interval) (t : Nat) (ho : Ordered ivs) :
    ∃ i, findIntervalIndex ivs t = .ok i ∧ SplitAt ivs t i := by
  unfold findIntervalIndex
  rcases findLoop_spec ivs t ho 0 0 ivs.length (by omega) (by omega) (by intros; omega) (by intros; omega)
    (by
      by_cases h : ivs = []
      · right; left; exact ⟨h, rfl⟩
      · left; exact List.length_pos_iff.2 h) with ⟨i, h1, h2, h3⟩ | ⟨r, p, h1, h2, h3⟩
  · exact ⟨i, by simp [h1], h2⟩
  · refine ⟨p, ?_, h2⟩
    rw [h1]
    simp only [Res.bind_ok]
    rcases h3 with ⟨h, h', h''⟩ | h | ⟨h, h'⟩
    · simp [h, h', h'']
    · have hr : r < ivs.length := by have := h2.1; omega
      have he : ivs.isEmpty = false := by
        cases ivs with
        | nil => simp at hr
        | cons => rfl
      simp only [he, Bool.false_eq_true, if_false, List.getElem?_eq_getElem hr]
      rw [if_pos (h2.2.1 r hr (by omega))]
      simp [h]
    · subst h
      have he : ivs.isEmpty = false := by
        cases ivs with
        | nil => simp at h'
        | cons => rfl
      simp only [he, Bool.false_eq_true, if_false, List.getElem?_eq_getElem h']
      rw [if_neg (by have := h2.2.2 r h' (by omega); omega)]
      simp

theorem SplitAt.split {ivs : List Interval} {t p : Nat} (h : SplitAt ivs t p) :
    ∃ pre post, ivs = pre ++ post ∧ pre.length = p ∧ (∀ iv ∈ pre, iv.end < t) ∧ (∀ iv ∈ post, t ≤ iv.end) := by
  refine ⟨ivs.take p, ivs.drop p, by simp, by have := h.1; simp; omega, ?_, ?_⟩
  · intro iv hiv
    obtain ⟨j, hj, rfl⟩ := List.mem_iff_getElem.1 hiv
    rw [List.getElem_take]
    simp at hj
    exact h.2.1 j (by omega) (by omega)
  · intro iv hiv
    obtain ⟨j, hj, rfl⟩ := List.mem_iff_getElem.1 hiv
    rw [List.getElem_drop]
    simp at hj
    exact h.2.2 (p + j) (by omega) (by omega)

end MysqlCdc
