import Verif.Lemmas.GtidAdd
import Verif.Lemmas.GtidReturns
import Verif.Spec.GtidWhole
/-!
# `add_gtid` for all ids of 64 bits
-/

namespace MysqlCdc
open Spec

/-- In ordered intervals only the last one can reach the largest id. -/
theorem ordered_not_reachesTop {l : List Interval} (ho : Ordered l) (hr : ∀ iv ∈ l, iv.end < 2 ^ 64) : ¬ ReachesTop l := by
  rintro ⟨iv, h1, h2⟩
  have hne : l ≠ [] := by rintro rfl; simp at h1
  have hl : l = l.dropLast ++ [l.getLast hne] := (List.dropLast_append_getLast hne).symm
  have hp := ho.2
  rw [hl, List.pairwise_append] at hp
  have h3 := hp.2.2 iv h1 (l.getLast hne) (by simp)
  have h4 := ho.1 _ (List.getLast_mem hne)
  have h5 := hr _ (List.getLast_mem hne)
  omega

theorem collapse_ordered (m : Mode) (l : List Interval) (ho : Ordered l) (hr : ∀ iv ∈ l, iv.end < 2 ^ 64) :
    (if l.length > 1 then collapseIntervals m l else pure l : Res (List Interval)) = .ok (collapseP l) := by
  split
  · have h := (collapseLoop_top m [] l hr).2 (ordered_not_reachesTop ho hr)
    have hne : l.isEmpty = false := by cases l <;> simp at *
    simp only [List.nil_append, List.length_nil] at h
    simp [collapseIntervals, hne, h]
  · match l with
    | [] => simp [collapseP]
    | [a] => simp [collapseP]
    | _ :: _ :: _ => simp at *

theorem collapseP_end (l : List Interval) (b : Nat) (h : ∀ iv ∈ l, iv.end ≤ b) : ∀ iv ∈ collapseP l, iv.end ≤ b := by
  induction l using collapseP.induct with
  | case1 => simp [collapseP]
  | case2 a => simpa [collapseP] using h
  | case3 a c r hab ih =>
    rw [collapseP, if_pos hab]
    apply ih
    intro iv hiv
    rcases List.mem_cons.1 hiv with rfl | hiv
    · exact h c (by simp)
    · exact h iv (by simp [hiv])
  | case4 a c r hab ih =>
    rw [collapseP, if_neg hab]
    intro iv hiv
    rcases List.mem_cons.1 hiv with rfl | hiv
    · exact h iv (by simp)
    · exact ih (fun iv hiv => h iv (List.mem_cons_of_mem _ hiv)) iv hiv

/-- The interval behind `pre` gets `t` in front. -/
theorem extend_front {pre rest : List Interval} {iv : Interval} {t : Nat} (ho : Ordered (pre ++ iv :: rest))
    (hpre : ∀ b ∈ pre, b.end < t) (h1 : iv.start = t + 1) :
    ¬ InIvs t (pre ++ iv :: rest) ∧ Ordered (pre ++ ⟨t, iv.end⟩ :: rest) ∧
      ∀ n, InIvs n (pre ++ ⟨t, iv.end⟩ :: rest) ↔ InIvs n (pre ++ iv :: rest) ∨ n = t := by
  have hpw := List.pairwise_append.1 ho.2
  have hrest : ∀ b ∈ rest, iv.end < b.start := (List.pairwise_cons.1 hpw.2.1).1
  have hivo : iv.start ≤ iv.end := ho.1 iv (by simp)
  refine ⟨?_, ⟨?_, ?_⟩, ?_⟩
  · rw [inIvs_append, inIvs_cons]
    rintro (⟨b, hb, h2, h3⟩ | h | ⟨b, hb, h2, h3⟩)
    · have := hpre b hb; omega
    · omega
    · have := hrest b hb; omega
  · intro x hx
    rcases List.mem_append.1 hx with h | h
    · exact ho.1 x (by simp [h])
    · rcases List.mem_cons.1 h with rfl | h
      · simp; omega
      · exact ho.1 x (by simp [h])
  · rw [List.pairwise_append]
    refine ⟨hpw.1, List.pairwise_cons.2 ⟨hrest, (List.pairwise_cons.1 hpw.2.1).2⟩, ?_⟩
    intro a ha b hb
    rcases List.mem_cons.1 hb with rfl | hb
    · exact hpre a ha
    · exact hpw.2.2 a ha b (by simp [hb])
  · intro n
    rw [inIvs_append, inIvs_append, inIvs_cons, inIvs_cons]
    simp only
    constructor
    · rintro (h | h | h)
      · exact Or.inl (Or.inl h)
      · by_cases hn : n = t
        · exact Or.inr hn
        · exact Or.inl (Or.inr (Or.inl (by omega)))
      · exact Or.inl (Or.inr (Or.inr h))
    · rintro ((h | h | h) | h)
      · exact Or.inl h
      · exact Or.inr (Or.inl (by omega))
      · exact Or.inr (Or.inr h)
      · exact Or.inr (Or.inl (by omega))

/-- `t` becomes an interval of its own behind `pre`. -/
theorem insert_between {pre post : List Interval} {t : Nat} (ho : Ordered (pre ++ post)) (hpre : ∀ b ∈ pre, b.end < t)
    (hpost : ∀ b ∈ post, t < b.start) :
    ¬ InIvs t (pre ++ post) ∧ Ordered (pre ++ ⟨t, t⟩ :: post) ∧
      ∀ n, InIvs n (pre ++ ⟨t, t⟩ :: post) ↔ InIvs n (pre ++ post) ∨ n = t := by
  have hpw := List.pairwise_append.1 ho.2
  refine ⟨?_, ⟨?_, ?_⟩, ?_⟩
  · rw [inIvs_append]
    rintro (⟨b, hb, h2, h3⟩ | ⟨b, hb, h2, h3⟩)
    · have := hpre b hb; omega
    · have := hpost b hb; omega
  · intro x hx
    rcases List.mem_append.1 hx with h | h
    · exact ho.1 x (by simp [h])
    · rcases List.mem_cons.1 h with rfl | h
      · simp
      · exact ho.1 x (by simp [h])
  · rw [List.pairwise_append]
    refine ⟨hpw.1, List.pairwise_cons.2 ⟨hpost, hpw.2.1⟩, ?_⟩
    intro a ha b hb
    rcases List.mem_cons.1 hb with rfl | hb
    · exact hpre a ha
    · exact hpw.2.2 a ha b hb
  · intro n
    rw [inIvs_append, inIvs_append, inIvs_cons]
    simp only
    constructor
    · rintro (h | h | h)
      · exact Or.inl (Or.inl h)
      · exact Or.inr (by omega)
      · exact Or.inl (Or.inr h)
    · rintro ((h | h) | h)
      · exact Or.inl h
      · exact Or.inr (Or.inr h)
      · exact Or.inr (Or.inl (by omega))

/-- What adding `t` to the intervals gives when no sum overflows. -/
def AddsTo (ivs : List Interval) (t : Nat) (b : Bool) (ivs' : List Interval) : Prop :=
  (b = false ∧ InIvs t ivs ∧ ivs' = ivs) ∨
  (b = true ∧ ¬ InIvs t ivs ∧ Canonical ivs' ∧ Fits64 ivs' ∧ ∀ n, InIvs n ivs' ↔ InIvs n ivs ∨ n = t)

theorem hitsTop_split {pre : List Interval} {iv : Interval} {rest : List Interval} {t : Nat}
    (hpost : ∀ b ∈ iv :: rest, t ≤ b.end) (h : HitsTop (pre ++ iv :: rest) t) :
    rest = [] ∧ iv.end = topId ∧ iv.start ≠ t + 1 := by
  obtain ⟨front, s, e, h1, h2⟩ := h
  have hr : rest = [] := by
    cases hrr : rest.reverse with
    | nil => simpa using hrr
    | cons z zs =>
      have hz : rest = zs.reverse ++ [z] := by rw [← List.reverse_reverse rest, hrr]; simp
      subst hz
      have e' : (pre ++ iv :: zs.reverse) ++ [z] = front ++ [⟨s, topId⟩] := by simpa using e
      have := (List.append_inj' e' rfl).1
      have hm : iv ∈ front := by rw [← this]; simp
      have := h1 iv hm
      have := hpost iv (by simp)
      omega
  subst hr
  have := (List.append_inj' e rfl).2
  injection this with this
  subst this
  exact ⟨rfl, rfl, h2⟩

theorem addGtid_whole (m : Mode) (s : UuidSet) (g : Gtid) (hd : s.sourceId.data = g.sourceId.data)
    (ho : Ordered s.intervals) (hr : Fits64 s.intervals) (ht : g.transactionId ≤ topId) :
    (m.checks = true ∧ HitsTop s.intervals g.transactionId ∧ s.addGtid m g = .panic) ∨
    (m.checks = false ∧ ∃ ivs, Wraps s.intervals g.transactionId ivs ∧ s.addGtid m g = .ok (true, { s with intervals := ivs })) ∨
    (¬ (m.checks = true ∧ HitsTop s.intervals g.transactionId) ∧
      ¬ (m.checks = false ∧ ∃ ivs, Wraps s.intervals g.transactionId ivs) ∧
      ∃ b ivs, AddsTo s.intervals g.transactionId b ivs ∧ s.addGtid m g = .ok (b, { s with intervals := ivs })) := by
  obtain ⟨u, ivs⟩ := s
  obtain ⟨gu, t⟩ := g
  simp only at *
  have htop : topId = 2 ^ 64 - 1 := rfl
  obtain ⟨p, hp, hsplit⟩ := findIntervalIndex_spec ivs t ho
  obtain ⟨pre, post, rfl, hlen, hpre, hpost⟩ := hsplit.split
  have hfin : ∀ l, Ordered l → Fits64 l → (if l.length > 1 then (collapseIntervals m l >>=
      fun ivs => (Res.ok (true, ({ sourceId := u, intervals := ivs } : UuidSet))))
      else Res.ok (true, ({ sourceId := u, intervals := l } : UuidSet))) =
      .ok (true, { sourceId := u, intervals := collapseP l }) := by
    intro l hlo hl
    have := collapse_ordered m l hlo (fun iv hiv => by have := hl iv hiv; omega)
    by_cases h : l.length > 1
    · rw [if_pos h] at this ⊢; rw [this]; rfl
    · rw [if_neg h] at this ⊢; injection this with this; rw [← this]
  have hadds : ∀ l, ¬ InIvs t (pre ++ post) → Ordered l → Fits64 l →
      (∀ n, InIvs n l ↔ InIvs n (pre ++ post) ∨ n = t) → AddsTo (pre ++ post) t true (collapseP l) :=
    fun l h1 h2 h3 h4 => .inr ⟨rfl, h1, collapseP_canonical l h2, collapseP_end l _ h3,
      fun n => by rw [collapseP_mem l h2, h4]⟩
  have hpw := List.pairwise_append.1 ho.2
  unfold UuidSet.addGtid
  simp only [hd, hp, Res.bind_ok, Res.pure_eq, ne_eq, not_true_eq_false, if_false]
  have hprer : ∀ b ∈ pre, b.end ≤ topId := fun b hb => hr b (by simp [hb])
  cases post with
  | nil =>
    right; right
    obtain ⟨i1, i2, i3⟩ := insert_between ho hpre (by simp)
    refine ⟨?_, ?_, true, collapseP (pre ++ [⟨t, t⟩]), hadds _ i1 i2 ?_ i3, ?_⟩
    · rintro ⟨_, front, s, e, h1, h2⟩
      rw [List.append_nil] at e
      have := hpre ⟨s, topId⟩ (by rw [e]; simp)
      simp at this
      omega
    · rintro ⟨_, _, h⟩
      rw [List.append_nil] at h
      cases h with
      | zero hs => have := hpre ⟨_, topId⟩ List.mem_cons_self; omega
      | top => have := hpre ⟨_, topId⟩ List.mem_cons_self; simp at this
    · intro iv hiv
      rcases List.mem_append.1 hiv with h | h
      · exact hprer iv h
      · simp at h; subst h; exact ht
    · have : (pre ++ [])[p]? = none := by simp; omega
      rw [this]
      simp only
      rw [if_pos (by simp; omega)]
      have : (pre ++ []).insertIdx p ⟨t, t⟩ = pre ++ [⟨t, t⟩] := by
        subst hlen; simp
      rw [this]
      refine hfin _ i2 ?_
      intro iv hiv
      rcases List.mem_append.1 hiv with h | h
      · exact hprer iv h
      · simp at h; subst h; exact ht
  | cons iv rest =>
    have hiv := hpost iv (by simp)
    have hivr : iv.end ≤ topId := hr iv (by simp)
    have hivo : iv.start ≤ iv.end := ho.1 iv (by simp)
    have hrest : ∀ b ∈ rest, iv.end < b.start := (List.pairwise_cons.1 hpw.2.1).1
    have hget : (pre ++ iv :: rest)[p]? = some iv := by subst hlen; simp
    have hrr : ∀ x : Interval, x.end ≤ topId → Fits64 (pre ++ x :: rest) := by
      intro x hx b hb
      rcases List.mem_append.1 hb with h | h
      · exact hprer b h
      · rcases List.mem_cons.1 h with rfl | h
        · exact hx
        · exact hr b (by simp [h])
    have hrr2 : Fits64 (pre ++ ⟨t, t⟩ :: iv :: rest) := by
      intro b hb
      rcases List.mem_append.1 hb with h | h
      · exact hprer b h
      · rcases List.mem_cons.1 h with rfl | h
        · exact ht
        · exact hr b (by simp only [List.mem_append]; right; exact h)
    have hlast : iv.end = topId → rest = [] := by
      intro h
      cases rest with
      | nil => rfl
      | cons b r =>
        have := hrest b (by simp)
        have := hr b (by simp)
        have := ho.1 b (by simp)
        omega
    have hset : ∀ x : Interval, (pre ++ iv :: rest).set p x = pre ++ x :: rest := by intro x; subst hlen; simp
    have hins : (pre ++ iv :: rest).insertIdx p ⟨t, t⟩ = pre ++ ⟨t, t⟩ :: iv :: rest := by
      subst hlen; simp [insertIdx_append_length]
    have hwr : ∀ {l}, Wraps (pre ++ iv :: rest) t l → pre = [] ∧ rest = [] ∧ iv.end = topId ∧
        ((t = 0 ∧ iv.start ≠ 1) ∨ (t = topId ∧ iv.start = 0)) := by
      intro l h
      generalize hw : pre ++ iv :: rest = w at h
      generalize hq : t = q at h
      cases h with
      | zero hs =>
        cases pre with
        | nil => simp at hw; obtain ⟨rfl, rfl⟩ := hw; exact ⟨rfl, rfl, rfl, .inl ⟨rfl, hs⟩⟩
        | cons _ _ => simp at hw
      | top =>
        cases pre with
        | nil => simp at hw; obtain ⟨rfl, rfl⟩ := hw; exact ⟨rfl, rfl, rfl, .inr ⟨rfl, rfl⟩⟩
        | cons _ _ => simp at hw
    simp only [hget]
    by_cases h1 : iv.start = t + 1
    · -- extended at the front
      right; right
      obtain ⟨i1, i2, i3⟩ := extend_front ho hpre h1
      have hadd : addU m 64 t 1 = .ok (t + 1) := by unfold addU; rw [if_pos (by omega)]
      refine ⟨fun h => (hitsTop_split hpost h.2).2.2 h1, ?_, true, collapseP (pre ++ ⟨t, iv.end⟩ :: rest),
        hadds _ i1 i2 (hrr ⟨t, iv.end⟩ hivr) i3, ?_⟩
      · rintro ⟨_, _, h⟩
        obtain ⟨_, _, _, h | h⟩ := hwr h <;> omega
      · simp only [hadd, Res.bind_ok, if_pos h1, hset]
        exact hfin _ i2 (hrr ⟨t, iv.end⟩ hivr)
    · by_cases h2 : iv.end = topId
      · -- the interval up to the largest id is looked at
        obtain rfl := hlast h2
        have hhit : HitsTop (pre ++ [iv]) t := ⟨pre, iv.start, by rw [← h2], hpre, h1⟩
        cases hm : m.checks with
        | true =>
          left
          refine ⟨rfl, hhit, ?_⟩
          by_cases h3 : t = topId
          · rw [show addU m 64 t 1 = .panic from by unfold addU; rw [if_neg (by omega), if_pos hm]]
            rfl
          · rw [show addU m 64 t 1 = .ok (t + 1) from by unfold addU; rw [if_pos (by omega)]]
            rw [show addU m 64 iv.end 1 = .panic from by unfold addU; rw [if_neg (by omega), if_pos hm]]
            simp only [Res.bind_ok, if_neg h1]
            rfl
        | false =>
          right
          have hend : addU m 64 iv.end 1 = .ok 0 := by
            unfold addU
            rw [if_neg (by omega), if_neg (by simp [hm]), h2, htop]
          by_cases h3 : t = topId
          · have hadd : addU m 64 t 1 = .ok 0 := by
              unfold addU
              rw [if_neg (by omega), if_neg (by simp [hm]), h3, htop]
            simp only [hadd, Res.bind_ok]
            by_cases h4 : iv.start = 0
            · left
              have hpn : pre = [] := by
                cases pre with
                | nil => rfl
                | cons a r => have := hpw.2.2 a (by simp) iv (by simp); omega
              subst hpn
              have hiveq : iv = ⟨0, topId⟩ := by rw [← h4, ← h2]
              refine ⟨trivial, [⟨topId, topId⟩], ?_, ?_⟩
              · rw [h3, hiveq]; exact .top
              · rw [if_pos h4, hset, h3, h2]
                rfl
            · right
              refine ⟨by simp, ?_, false, _, .inl ⟨rfl, ⟨iv, by simp, by omega, by omega⟩, rfl⟩, ?_⟩
              · rintro ⟨_, _, h⟩
                obtain ⟨_, _, _, h | h⟩ := hwr h
                · omega
                · exact h4 h.2
              · rw [if_neg h4, hend]
                simp only [Res.bind_ok]
                rw [if_neg (by omega), if_pos ⟨by omega, by omega⟩]
          · have hadd : addU m 64 t 1 = .ok (t + 1) := by unfold addU; rw [if_pos (by omega)]
            simp only [hadd, Res.bind_ok, if_neg h1, hend]
            by_cases h4 : t = 0
            · left
              have hpn : pre = [] := by
                cases pre with
                | nil => rfl
                | cons a r => have := hpre a (by simp); omega
              subst hpn
              refine ⟨trivial, [⟨iv.start, 0⟩], ?_, ?_⟩
              · have hiveq : iv = ⟨iv.start, topId⟩ := by rw [← h2]
                rw [h4]
                have := Wraps.zero (s := iv.start) (by omega)
                rw [← hiveq] at this
                exact this
              · rw [if_pos h4.symm, hset, h4]
                rfl
            · right
              rw [if_neg (fun h => h4 h.symm)]
              have hnw : ¬ (False ∧ True) ∧ ¬ (true = true ∧ ∃ l, Wraps (pre ++ [iv]) t l) := by
                refine ⟨by simp, ?_⟩
                rintro ⟨_, _, h⟩
                obtain ⟨_, _, _, h | h⟩ := hwr h
                · exact h4 h.1
                · exact h3 h.1
              by_cases h5 : iv.start ≤ t
              · refine ⟨by simp, fun h => hnw.2 ⟨rfl, h.2⟩, false, _, .inl ⟨rfl, ⟨iv, by simp, h5, hiv⟩, rfl⟩, ?_⟩
                rw [if_pos ⟨h5, hiv⟩]
              · obtain ⟨i1, i2, i3⟩ := insert_between ho hpre (post := [iv]) (by intro b hb; simp at hb; subst hb; omega)
                refine ⟨by simp, fun h => hnw.2 ⟨rfl, h.2⟩, true, _, hadds _ i1 i2 hrr2 i3, ?_⟩
                rw [if_neg (by omega), if_pos (by simp; omega), hins]
                exact hfin _ i2 hrr2
      · -- no sum overflows
        right; right
        have hadd : addU m 64 t 1 = .ok (t + 1) := by unfold addU; rw [if_pos (by omega)]
        have hadd2 : addU m 64 iv.end 1 = .ok (iv.end + 1) := by unfold addU; rw [if_pos (by omega)]
        refine ⟨fun h => h2 (hitsTop_split hpost h.2).2.1, fun ⟨_, _, h⟩ => h2 (hwr h).2.2.1, ?_⟩
        simp only [hadd, Res.bind_ok, if_neg h1, hadd2]
        rw [if_neg (by omega)]
        by_cases h5 : iv.start ≤ t
        · refine ⟨false, _, .inl ⟨rfl, ⟨iv, by simp, h5, hiv⟩, rfl⟩, ?_⟩
          rw [if_pos ⟨h5, hiv⟩]
        · obtain ⟨i1, i2, i3⟩ := insert_between ho hpre (post := iv :: rest) (by
            intro b hb
            rcases List.mem_cons.1 hb with rfl | hb
            · omega
            · have := hrest b hb; omega)
          refine ⟨true, _, hadds _ i1 i2 hrr2 i3, ?_⟩
          rw [if_neg (by omega), if_pos (by simp; omega), hins]
          exact hfin _ i2 hrr2

end MysqlCdc
