import Verif.Spec.Resume
import Verif.Props.GtidText
import Verif.Lemmas.Strings
import Verif.Lemmas.Packets
import Verif.Lemmas.Utf8
import Mathlib.Data.List.Nodup
/-!
# What a MariaDB is told can be read in one way only; what is sent after the client has got further
-/

namespace MysqlCdc

open Spec

/-! ## Reading the statement -/

theorem dash_numerals {a b : Nat} {x y : RStr} (h : Nat.toDigits 10 a ++ '-' :: x = Nat.toDigits 10 b ++ '-' :: y) : a = b ∧ x = y := by
  have ha : '-' ∉ Nat.toDigits 10 a := fun h => (isDigit_facts (showNat_isDigit a _ h)).1 rfl
  have hb : '-' ∉ Nat.toDigits 10 b := fun h => (isDigit_facts (showNat_isDigit b _ h)).1 rfl
  have h1 := congrArg (splitOn '-') h
  rw [splitOn_append_sep _ _ _ ha, splitOn_append_sep _ _ _ hb] at h1
  have h2 : Nat.toDigits 10 a = Nat.toDigits 10 b := (List.cons.inj h1).1
  rw [h2] at h
  refine ⟨?_, by simpa using h⟩
  rw [← ofDigitChars_showNat a, ← ofDigitChars_showNat b]
  exact congrArg _ h2

theorem gtidNumeral_inj {a b : MGtid} (h : gtidNumeral a = gtidNumeral b) : a = b := by
  unfold gtidNumeral at h
  simp only [List.append_assoc, List.singleton_append] at h
  obtain ⟨h1, h⟩ := dash_numerals h
  obtain ⟨h2, h⟩ := dash_numerals h
  have h3 : a.sequence = b.sequence := by
    rw [← ofDigitChars_showNat a.sequence, ← ofDigitChars_showNat b.sequence]
    exact congrArg _ h
  cases a; cases b
  simp only at h1 h2 h3
  rw [h1, h2, h3]

theorem gtidNumeral_comma (g : MGtid) : ',' ∉ gtidNumeral g := by
  unfold gtidNumeral
  simp only [List.mem_append, List.mem_singleton, not_or]
  have := fun n h => (isDigit_facts (showNat_isDigit n ',' h)).2.1 rfl
  exact ⟨⟨⟨⟨this _, by decide⟩, this _⟩, by decide⟩, this _⟩

theorem gtidNumeral_ne_nil (g : MGtid) : gtidNumeral g ≠ [] := by
  unfold gtidNumeral
  simp

theorem numerals_inj {a b : List MGtid} (h : [','].intercalate (a.map gtidNumeral) = [','].intercalate (b.map gtidNumeral)) : a = b := by
  have key : ∀ l : List MGtid, l ≠ [] → splitOn ',' ([','].intercalate (l.map gtidNumeral)) = l.map gtidNumeral := by
    intro l hl
    rw [← joinWith_eq, splitOn_joinWith _ _ (by simpa using hl) (by simpa using fun g _ => gtidNumeral_comma g)]
  have hnil : ∀ l : List MGtid, l ≠ [] → [','].intercalate (l.map gtidNumeral) ≠ [] := by
    intro l hl h
    have h1 := key l hl
    rw [h] at h1
    cases l with
    | nil => exact hl rfl
    | cons g l =>
      have : gtidNumeral g = [] := by
        have := (List.cons.inj (show ([[]] : List RStr) = gtidNumeral g :: l.map gtidNumeral from h1)).1
        exact this.symm
      exact gtidNumeral_ne_nil g this
  by_cases ha : a = []
  · by_cases hb : b = []
    · rw [ha, hb]
    · exact absurd (h.symm.trans (by rw [ha]; rfl)) (hnil b hb)
  · by_cases hb : b = []
    · exact absurd (h.trans (by rw [hb]; rfl)) (hnil a ha)
    · have h1 := key a ha
      rw [h, key b hb] at h1
      exact (List.map_injective_iff.2 (fun _ _ => gtidNumeral_inj) h1).symm

theorem tellsState_inj {a b : List MGtid} {p : Bytes} (ha : TellsState a p) (hb : TellsState b p) : a = b := by
  unfold TellsState QueryPacket at ha hb
  rw [ha] at hb
  have h := utf8Bytes_inj (List.append_cancel_left hb)
  exact numerals_inj (List.append_cancel_left (List.append_cancel_right h))

/-- What the server was told last is determined by what was sent. -/
theorem toldState_unique {t : List Packet} {a b : List MGtid} (ha : ToldState t a) (hb : ToldState t b) : a = b := by
  obtain ⟨f1, p1, b1, h1, h2, h3⟩ := ha
  obtain ⟨f2, p2, b2, g1, g2, g3⟩ := hb
  rw [h1] at g1
  rcases List.append_eq_append_iff.1 g1 with ⟨x, hx, hy⟩ | ⟨x, hx, hy⟩
  · cases x with
    | nil =>
      rw [List.nil_append] at hy
      obtain ⟨rfl, -⟩ := List.cons.inj hy
      exact tellsState_inj h2 g2
    | cons z x =>
      obtain ⟨-, rfl⟩ := List.cons.inj hy
      exact absurd g2 (h3 p2 (by simp) _)
  · cases x with
    | nil =>
      rw [List.nil_append] at hy
      obtain ⟨rfl, -⟩ := List.cons.inj hy
      exact tellsState_inj h2 g2
    | cons z x =>
      obtain ⟨-, rfl⟩ := List.cons.inj hy
      exact absurd h2 (g3 p1 (by simp) _)

/-! ## What is left to send -/

theorem idxOf_lt_of_pair {α : Type} [DecidableEq α] {l : List α} (hd : l.Nodup) {a b : α} (h : [a, b].Sublist l) : l.idxOf a < l.idxOf b := by
  induction l with
  | nil => cases h
  | cons c l ih =>
    rw [List.nodup_cons] at hd
    cases h with
    | cons _ h =>
      have ha : c ≠ a := by rintro rfl; exact hd.1 (h.subset (by simp))
      have hb : c ≠ b := by rintro rfl; exact hd.1 (h.subset (by simp))
      rw [List.idxOf_cons_ne _ ha, List.idxOf_cons_ne _ hb]
      have := ih hd.2 h
      omega
    | cons_cons _ h =>
      have hb : a ≠ b := by rintro rfl; exact hd.1 (h.subset (by simp))
      rw [List.idxOf_cons_self, List.idxOf_cons_ne _ hb]
      omega

theorem exists_last {xs : List MGtid} {d : Nat} (h : ∃ y ∈ xs, y.domainId = d) : ∃ f, LastOf xs f ∧ f.domainId = d := by
  induction xs with
  | nil => simp at h
  | cons z zs ih =>
    by_cases hz : ∃ y ∈ zs, y.domainId = d
    · obtain ⟨f, ⟨a, b, rfl, hb⟩, hf⟩ := ih hz
      exact ⟨f, ⟨z :: a, b, rfl, hb⟩, hf⟩
    · obtain ⟨y, hy, hyd⟩ := h
      rcases List.mem_cons.1 hy with rfl | hy
      · exact ⟨y, ⟨[], zs, rfl, fun w hw e => hz ⟨w, hw, e.trans hyd⟩⟩, hyd⟩
      · exact absurd ⟨y, hy, hyd⟩ hz

theorem exists_lastOf {xs : List MGtid} {g : MGtid} (h : g ∈ xs) :
    ∃ f, LastOf xs f ∧ f.domainId = g.domainId ∧ (f = g ∨ [g, f].Sublist xs) := by
  induction xs with
  | nil => cases h
  | cons x xs ih =>
    by_cases hx : ∃ y ∈ xs, y.domainId = g.domainId
    · rcases List.mem_cons.1 h with rfl | h
      · obtain ⟨f, ⟨a, b, rfl, hb⟩, hf⟩ := exists_last hx
        exact ⟨f, ⟨g :: a, b, rfl, hb⟩, hf, .inr (.cons_cons _ (List.singleton_sublist.2 (by simp)))⟩
      · obtain ⟨f, ⟨a, b, rfl, hb⟩, hf, hs⟩ := ih h
        exact ⟨f, ⟨x :: a, b, rfl, hb⟩, hf, hs.imp id fun h => .cons _ h⟩
    · rcases List.mem_cons.1 h with rfl | h
      · exact ⟨g, ⟨[], xs, rfl, fun y hy e => hx ⟨y, hy, e⟩⟩, rfl, .inl rfl⟩
      · exact absurd ⟨g, h, rfl⟩ hx

theorem lastOf_mem {xs : List MGtid} {g : MGtid} (h : LastOf xs g) : g ∈ xs := by
  obtain ⟨a, b, rfl, -⟩ := h
  simp

theorem lastOf_append {xs ys : List MGtid} {g : MGtid} :
    LastOf (xs ++ ys) g ↔ LastOf ys g ∨ (LastOf xs g ∧ ∀ y ∈ ys, y.domainId ≠ g.domainId) := by
  constructor
  · rintro ⟨a, b, h, hb⟩
    rcases List.append_eq_append_iff.1 h with ⟨c, hc, hd⟩ | ⟨c, hc, hd⟩
    · exact .inl ⟨c, b, hd, hb⟩
    · cases c with
      | nil => exact .inl ⟨[], b, by simpa using hd.symm, hb⟩
      | cons z c =>
        rw [List.cons_append] at hd
        obtain ⟨rfl, rfl⟩ := List.cons.inj hd
        exact .inr ⟨⟨a, c, hc, fun y hy => hb y (by simp [hy])⟩, fun y hy => hb y (by simp [hy])⟩
  · rintro (⟨a, b, rfl, hb⟩ | ⟨⟨a, b, rfl, hb⟩, hy⟩)
    · exact ⟨xs ++ a, b, by simp, hb⟩
    · exact ⟨a, b ++ ys, by simp, fun y h => (List.mem_append.1 h).elim (hb y) (hy y)⟩

/-- When the client has got the transactions `got` of those to send, and lists for each domain the last of them, the others are to be sent. -/
theorem toSend_after {listed listed' got rest log : List MGtid} (hd : log.Nodup) (h : toSend listed log = got ++ rest)
    (hl : ∀ g, g ∈ listed' ↔ LastOf got g ∨ (g ∈ listed ∧ ∀ y ∈ got, y.domainId ≠ g.domainId)) : toSend listed' log = rest := by
  have hsub : (got ++ rest).Sublist log := h ▸ List.filter_sublist
  have hmem : ∀ g, g ∈ got ++ rest ↔ g ∈ log ∧ ¬∃ g' ∈ listed, g' ∈ log ∧ g'.domainId = g.domainId ∧ log.idxOf g ≤ log.idxOf g' := by
    intro g
    rw [← h, toSend, List.mem_filter, decide_eq_true_eq]
  have hn := hsub.nodup hd
  have key : toSend listed' log = (toSend listed log).filter fun g => g ∉ got := by
    unfold toSend
    rw [List.filter_filter]
    refine List.filter_congr fun g hg => ?_
    rw [← Bool.decide_and, decide_eq_decide, ← not_or, not_iff_not]
    constructor
    · rintro ⟨g', h1, h2, h3, h4⟩
      rcases (hl g').1 h1 with h5 | ⟨h5, -⟩
      · by_cases hgot : g ∈ got
        · exact .inl hgot
        · refine .inr (Classical.byContradiction fun hno => ?_)
          have hr : g ∈ rest := by
            rcases List.mem_append.1 ((hmem g).2 ⟨hg, hno⟩) with h | h
            · exact absurd h hgot
            · exact h
          have : [g', g].Sublist log :=
            (List.Sublist.append (List.singleton_sublist.2 (lastOf_mem h5)) (List.singleton_sublist.2 hr)).trans hsub
          have := idxOf_lt_of_pair hd this
          omega
      · exact .inr ⟨g', h5, h2, h3, h4⟩
    · rintro (hgot | ⟨g', h1, h2, h3, h4⟩)
      · obtain ⟨f, h5, h6, h7⟩ := exists_lastOf hgot
        refine ⟨f, (hl f).2 (.inl h5), hsub.subset (by simp [lastOf_mem h5]), h6, ?_⟩
        rcases h7 with rfl | h7
        · exact Nat.le_refl _
        · exact Nat.le_of_lt (idxOf_lt_of_pair hd (h7.trans ((List.sublist_append_left _ _).trans hsub)))
      · by_cases hy : ∃ y ∈ got, y.domainId = g'.domainId
        · obtain ⟨y, hy, hyd⟩ := hy
          obtain ⟨f, h5, h6, -⟩ := exists_lastOf hy
          have h7 := (hmem f).1 (by simp [lastOf_mem h5])
          refine ⟨f, (hl f).2 (.inl h5), h7.1, h6.trans (hyd.trans h3), ?_⟩
          have := Nat.lt_of_not_le fun hle => h7.2 ⟨g', h1, h2, (h6.trans hyd).symm, hle⟩
          omega
        · exact ⟨g', (hl g').2 (.inr ⟨h1, fun y hy' e => hy ⟨y, hy', e⟩⟩), h2, h3, h4⟩
  rw [key, h, List.filter_append]
  rw [List.nodup_append] at hn
  have e1 : got.filter (fun g => g ∉ got) = [] := by
    rw [List.filter_eq_nil_iff]
    intro g hg
    simpa using hg
  have e2 : rest.filter (fun g => g ∉ got) = rest := by
    rw [List.filter_eq_self]
    intro g hg
    simpa using fun h => hn.2.2 g h g hg rfl
  rw [e1, e2, List.nil_append]

/-- What is written later is to be sent as well. -/
theorem toSend_grow {listed log more : List MGtid} (hd : (log ++ more).Nodup) (hl : ∀ g ∈ listed, g ∈ log ++ more → g ∈ log) :
    toSend listed (log ++ more) = toSend listed log ++ more := by
  have hn := List.nodup_append.1 hd
  unfold toSend
  rw [List.filter_append]
  congr 1
  · refine List.filter_congr fun g hg => ?_
    rw [decide_eq_decide, not_iff_not]
    refine exists_congr fun g' => and_congr_right fun hg' => ?_
    constructor
    · rintro ⟨h1, h2, h3⟩
      have h4 := hl g' hg' h1
      rw [List.idxOf_append_of_mem hg, List.idxOf_append_of_mem h4] at h3
      exact ⟨h4, h2, h3⟩
    · rintro ⟨h1, h2, h3⟩
      rw [List.idxOf_append_of_mem hg, List.idxOf_append_of_mem h1]
      exact ⟨by simp [h1], h2, h3⟩
  · rw [List.filter_eq_self]
    intro g hg
    rw [decide_eq_true_eq]
    rintro ⟨g', h1, h2, -, h3⟩
    have h4 := hl g' h1 h2
    have h5 : g ∉ log := fun h => hn.2.2 g h g hg rfl
    rw [List.idxOf_append_of_mem h4, List.idxOf_append_of_notMem h5] at h3
    have := List.idxOf_lt_length_of_mem h4
    omega

end MysqlCdc
