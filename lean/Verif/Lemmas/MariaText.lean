import Verif.Lemmas.GtidText
/-!
# MariaDB GTID lists: parsing and adding
-/

namespace MysqlCdc
open Spec

theorem MGtidText.parse {g : MGtid} {s : RStr} (h : MGtidText g s) (hr : MGtidRange g) : parseMGtid s = .ok g := by
  obtain ⟨a, b, c, ha, hb, hc, rfl⟩ := h
  unfold parseMGtid
  rw [splitOn_append_sep _ _ _ ha.noDash, splitOn_append_sep _ _ _ hb.noDash, splitOn_of_not_mem _ _ hc.noDash]
  simp only [ha.parse 32 hr.1, hb.parse 32 hr.2.1, hc.parse 64 hr.2.2, Res.bind_ok]
  rfl

theorem MGtidText.chars {g : MGtid} {s : RStr} (h : MGtidText g s) :
    s ≠ [] ∧ ∀ c ∈ s, c ≠ ',' ∧ c ≠ '\n' ∧ isWhitespace c = false := by
  obtain ⟨a, b, c, ha, hb, hc, rfl⟩ := h
  refine ⟨by simp, fun x hx => ?_⟩
  simp only [List.mem_append, List.mem_cons] at hx
  rcases hx with hx | rfl | hx | rfl | hx
  · have := ha.facts x hx; tauto
  · decide
  · have := hb.facts x hx; tauto
  · decide
  · have := hc.facts x hx; tauto

theorem mgtidText_display (g : MGtid) : MGtidText g g.display :=
  ⟨_, _, _, decimal_showNat _, decimal_showNat _, decimal_showNat _, rfl⟩

theorem parseMGtids_ok {gs : List MGtid} {parts : List RStr} (h : List.Forall₂ MGtidText gs parts)
    (hr : ∀ g ∈ gs, MGtidRange g) (ds : List Nat) (hn : (gs.map (·.domainId)).Nodup)
    (hd : ∀ g ∈ gs, g.domainId ∉ ds) : parseMGtids parts ds = .ok gs := by
  induction h generalizing ds with
  | nil => rfl
  | @cons g s gs parts h1 _ ih =>
    simp only [List.map_cons, List.nodup_cons] at hn
    simp only [parseMGtids, MGtidText.parse h1 (hr g List.mem_cons_self), Res.bind_ok]
    rw [if_neg (by simpa using hd g List.mem_cons_self)]
    rw [ih (fun g hg => hr g (List.mem_cons_of_mem _ hg)) _ hn.2]
    · rfl
    · intro x hx hmem
      rcases List.mem_cons.1 hmem with h | h
      · exact hn.1 (h ▸ List.mem_map_of_mem hx)
      · exact hd x (List.mem_cons_of_mem _ hx) h

theorem parseMGtids_dup {gs : List MGtid} {parts : List RStr} (h : List.Forall₂ MGtidText gs parts)
    (hr : ∀ g ∈ gs, MGtidRange g) (ds : List Nat)
    (hd : ¬ ((gs.map (·.domainId)).Nodup ∧ ∀ g ∈ gs, g.domainId ∉ ds)) : ∃ e, parseMGtids parts ds = .err e := by
  induction h generalizing ds with
  | nil => simp at hd
  | @cons g s gs parts h1 _ ih =>
    simp only [parseMGtids, MGtidText.parse h1 (hr g List.mem_cons_self), Res.bind_ok]
    split
    · exact ⟨_, rfl⟩
    · rename_i hc
      obtain ⟨e, he⟩ := ih (fun g hg => hr g (List.mem_cons_of_mem _ hg)) (g.domainId :: ds) (by
        rintro ⟨h1, h2⟩
        apply hd
        refine ⟨?_, ?_⟩
        · simp only [List.map_cons, List.nodup_cons, List.mem_map, not_exists, not_and]
          exact ⟨fun x hx he => h2 x hx (by rw [he]; simp), h1⟩
        · intro x hx
          rcases List.mem_cons.1 hx with rfl | hx
          · simpa using hc
          · exact fun hm => h2 x hx (List.mem_cons_of_mem _ hm))
      exact ⟨e, by rw [he]; rfl⟩

theorem parseMGtids_nodup {parts : List RStr} {ds : List Nat} {gs : List MGtid} (h : parseMGtids parts ds = .ok gs) :
    (gs.map (·.domainId)).Nodup ∧ ∀ g ∈ gs, g.domainId ∉ ds := by
  induction parts generalizing ds gs with
  | nil => simp only [parseMGtids, Res.pure_eq, Res.ok.injEq] at h; subst h; simp
  | cons s parts ih =>
    simp only [parseMGtids] at h
    cases hg : parseMGtid s with
    | err => simp [hg] at h
    | panic => simp [hg] at h
    | hang => simp [hg] at h
    | ok g =>
      simp only [hg, Res.bind_ok] at h
      split at h
      · cases h
      · rename_i hc
        cases hr : parseMGtids parts (g.domainId :: ds) with
        | err => simp [hr] at h
        | panic => simp [hr] at h
        | hang => simp [hr] at h
        | ok gs' =>
          simp only [hr, Res.bind_ok, Res.pure_eq, Res.ok.injEq] at h
          subst h
          obtain ⟨i1, i2⟩ := ih hr
          refine ⟨?_, ?_⟩
          · simp only [List.map_cons, List.nodup_cons, List.mem_map, not_exists, not_and]
            exact ⟨fun x hx he => i2 x hx (by rw [he]; simp), i1⟩
          · intro x hx
            rcases List.mem_cons.1 hx with rfl | hx
            · simpa using hc
            · exact fun hm => i2 x hx (List.mem_cons_of_mem _ hm)

/-- How the text of a list is cut. -/
theorem listText_parts {gs : List MGtid} {t : RStr} (h : ListText gs t) :
    t.isEmpty = false ∧ List.Forall₂ MGtidText gs ((splitOn ',' (removeChar '\n' t)).map trim) := by
  obtain ⟨hne, parts, hp, ht⟩ := h
  have hpne : parts ≠ [] := by rintro rfl; cases hp; exact hne rfl
  have hsplit : splitOn ',' (removeChar '\n' t) = parts := by
    rw [show removeChar '\n' t = t.filter (· ≠ '\n') from rfl, ht, ← joinWith_eq]
    apply splitOn_joinWith _ _ hpne
    apply forall₂_right (P := fun p => ',' ∉ p) hp
    rintro e p ⟨l, s, r, rfl, hl, hr, hs⟩ hc
    simp only [List.mem_append] at hc
    rcases hc with (hc | hc) | hc
    · exact blank_not_comma (hl _ hc) rfl
    · exact ((MGtidText.chars hs).2 _ hc).1 rfl
    · exact blank_not_comma (hr _ hc) rfl
  refine ⟨?_, ?_⟩
  · cases t with
    | cons => rfl
    | nil =>
      exfalso
      rw [show removeChar '\n' [] = [] from rfl] at hsplit
      simp only [splitOn] at hsplit
      subst hsplit
      rcases hp with _ | ⟨⟨l, s, r, he, _, _, hs⟩, _⟩
      have : s = [] := by
        have := congrArg List.length he
        simp at this
        exact List.length_eq_zero_iff.1 (by omega)
      exact (MGtidText.chars hs).1 this
  · rw [hsplit]
    exact forall₂_map_trim (Q := MGtidText) (fun e s hs c hc => ((MGtidText.chars hs).2 c hc).2.2) hp

/-! ## add_gtid -/

theorem addMGtid_fst (g : MGtid) (l : List MGtid) : (addMGtid g l).1 = true ↔ g.domainId ∉ l.map (·.domainId) := by
  induction l with
  | nil => simp [addMGtid]
  | cons x xs ih =>
    simp only [addMGtid]
    split
    · rename_i h; simp [h]
    · rename_i h
      have h' : ¬ g.domainId = x.domainId := fun e => h e.symm
      simp only [ih, List.map_cons, List.mem_cons, h', false_or]

theorem addMGtid_domains (g : MGtid) (l : List MGtid) : (addMGtid g l).2.map (·.domainId) =
    if g.domainId ∈ l.map (·.domainId) then l.map (·.domainId) else l.map (·.domainId) ++ [g.domainId] := by
  induction l with
  | nil => simp [addMGtid]
  | cons x xs ih =>
    simp only [addMGtid]
    split
    · rename_i h; simp [h]
    · rename_i h
      have h' : ¬ g.domainId = x.domainId := fun e => h e.symm
      simp only [List.map_cons, ih, List.mem_cons, h', false_or]
      split <;> rfl

theorem addMGtid_nodup (g : MGtid) (l : List MGtid) (h : (l.map (·.domainId)).Nodup) :
    ((addMGtid g l).2.map (·.domainId)).Nodup := by
  rw [addMGtid_domains]
  split
  · exact h
  · rename_i hn
    rw [List.nodup_append]
    exact ⟨h, by simp, by rintro a ha b hb rfl; simp at hb; exact hn (hb ▸ ha)⟩

theorem addMGtid_mem (g x : MGtid) (l : List MGtid) (h : (l.map (·.domainId)).Nodup) :
    x ∈ (addMGtid g l).2 ↔ x = g ∨ (x.domainId ≠ g.domainId ∧ x ∈ l) := by
  induction l with
  | nil => simp [addMGtid]
  | cons y ys ih =>
    simp only [List.map_cons, List.nodup_cons] at h
    simp only [addMGtid]
    split
    · rename_i hy
      simp only [List.mem_cons]
      constructor
      · rintro (h1 | h1)
        · exact Or.inl h1
        · refine Or.inr ⟨fun e => h.1 ?_, Or.inr h1⟩
          rw [hy, ← e]; exact List.mem_map_of_mem h1
      · rintro (h1 | ⟨h1, rfl | h2⟩)
        · exact Or.inl h1
        · exact absurd hy h1
        · exact Or.inr h2
    · rename_i hy
      simp only [List.mem_cons, ih h.2]
      constructor
      · rintro (rfl | h1 | h1)
        · exact Or.inr ⟨hy, Or.inl rfl⟩
        · exact Or.inl h1
        · exact Or.inr ⟨h1.1, Or.inr h1.2⟩
      · rintro (h1 | ⟨h1, h2 | h2⟩)
        · exact Or.inr (Or.inl h1)
        · exact Or.inl h2
        · exact Or.inr (Or.inr ⟨h1, h2⟩)

end MysqlCdc
