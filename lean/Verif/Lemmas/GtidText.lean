import Mathlib.Data.List.Induction
import Verif.Lemmas.Uuid
import Verif.Lemmas.Strings
import Verif.Spec.GtidText
/-!
# Parsing GTID texts
-/

namespace MysqlCdc
open Spec

theorem blank_iff (c : Char) : Blank c ↔ isWhitespace c = true := by
  simp only [Blank, isWhitespace, Bool.or_eq_true, Bool.and_eq_true, decide_eq_true_eq, beq_iff_eq, List.mem_cons,
    List.not_mem_nil, or_false]
  omega

theorem Spec.Decimal.parse {n : Nat} {s : RStr} (h : Decimal n s) (bits : Nat) (hn : n < 2 ^ bits) :
    parseUnsigned bits s = .ok n := by
  obtain ⟨h1, h2, h3⟩ := h
  subst h3
  exact parseUnsigned_digits bits s h1 h2 hn

theorem Spec.Decimal.facts {n : Nat} {s : RStr} (h : Decimal n s) :
    ∀ c ∈ s, c ≠ '-' ∧ c ≠ ',' ∧ c ≠ ':' ∧ c ≠ '\n' ∧ c ≠ '+' ∧ isWhitespace c = false :=
  fun c hc => isDigit_facts (h.2.1 c hc)

theorem decimal_showNat (n : Nat) : Decimal n (showNat n) :=
  ⟨showNat_ne_nil n, showNat_isDigit n, ofDigitChars_showNat n⟩

theorem Spec.Decimal.noDash {n : Nat} {s : RStr} (h : Decimal n s) : '-' ∉ s := fun hc => (h.facts _ hc).1 rfl

theorem IntervalText.parse {iv : Interval} {s : RStr} (h : IntervalText iv s) (hv : iv.start ≤ iv.end)
    (hr : iv.end < 2 ^ 64) : parseInterval s = .ok iv := by
  rcases h with ⟨he, hd⟩ | ⟨a, b, ha, hb, rfl⟩
  · unfold parseInterval
    rw [splitOn_of_not_mem _ _ hd.noDash]
    simp only [hd.parse 64 (by omega), Res.bind_ok]
    rw [Res.pure_eq]
    rcases iv with ⟨s0, e0⟩
    simp only at he
    rw [he]
  · unfold parseInterval
    rw [splitOn_append_sep _ _ _ ha.noDash, splitOn_of_not_mem _ _ hb.noDash]
    simp only [ha.parse 64 (by omega), hb.parse 64 hr, Res.bind_ok]
    rfl

theorem IntervalText.chars {iv : Interval} {s : RStr} (h : IntervalText iv s) :
    s ≠ [] ∧ ∀ c ∈ s, c ≠ ',' ∧ c ≠ ':' ∧ c ≠ '\n' ∧ isWhitespace c = false := by
  rcases h with ⟨he, hd⟩ | ⟨a, b, ha, hb, rfl⟩
  · exact ⟨hd.1, fun c hc => by have := hd.facts c hc; tauto⟩
  · refine ⟨by simp, fun c hc => ?_⟩
    simp only [List.mem_append, List.mem_cons] at hc
    rcases hc with hc | rfl | hc
    · have := ha.facts c hc; tauto
    · decide
    · have := hb.facts c hc; tauto

theorem intervalText_display (iv : Interval) : IntervalText iv iv.display := by
  unfold Interval.display
  split
  · rename_i h; exact Or.inl ⟨h, decimal_showNat _⟩
  · exact Or.inr ⟨_, _, decimal_showNat _, decimal_showNat _, rfl⟩

theorem parseIntervals_ok {ivs : List Interval} {toks : List RStr} (h : List.Forall₂ IntervalText ivs toks)
    (hv : ∀ iv ∈ ivs, iv.start ≤ iv.end ∧ iv.end < 2 ^ 64) : parseIntervals toks = .ok ivs := by
  induction h with
  | nil => rfl
  | cons h1 _ ih =>
    have := hv _ (List.mem_cons_self)
    simp only [parseIntervals, IntervalText.parse h1 this.1 this.2, Res.bind_ok,
      ih (fun iv hiv => hv iv (List.mem_cons_of_mem _ hiv))]
    rfl

theorem uuidSet_new_ok (m : Mode) (u : Uuid) (ivs : List Interval) (hr : InRange ivs) :
    UuidSet.new m u ivs = .ok ⟨u, collapseP ivs⟩ := by
  unfold UuidSet.new
  split
  · rename_i h
    have : ivs.isEmpty = false := by cases ivs <;> simp at h ⊢
    simp only [collapseIntervals, this]
    have := collapseLoop_eq m [] ivs hr
    simp only [List.nil_append, List.length_nil] at this
    simp [this]
  · rename_i h
    match ivs, h with
    | [], _ => simp [collapseP]
    | [a], _ => simp [collapseP]
    | a :: b :: r, h => simp at h

theorem uuidSet_new_canonical (m : Mode) (u : Uuid) (ivs : List Interval) (h : Canonical ivs)
    (hr : ∀ iv ∈ ivs, iv.end < 2 ^ 64) : UuidSet.new m u ivs = .ok ⟨u, ivs⟩ := by
  unfold UuidSet.new
  split
  · rename_i hl
    have : ivs.isEmpty = false := by cases ivs <;> simp at hl ⊢
    simp only [collapseIntervals, this]
    simp [collapseLoop_canonical m ivs h hr]
  · rfl

/-- The characters of a uuid text. -/
theorem hexPairs_chars {s : RStr} {bs : Bytes} (h : HexPairs s bs) : ∀ c ∈ s, ∃ x, hexDigit? c = some x := by
  induction h with
  | nil => simp
  | byte ha hb _ ih =>
    intro c hc
    simp only [List.mem_cons] at hc
    rcases hc with rfl | rfl | hc
    · exact ⟨_, ha⟩
    · exact ⟨_, hb⟩
    · exact ih c hc

theorem hexDigit?_facts {c : Char} {x : Nat} (h : hexDigit? c = some x) :
    c ≠ ',' ∧ c ≠ ':' ∧ c ≠ '\n' ∧ isWhitespace c = false := by
  unfold hexDigit? at h
  split at h <;> first | decide | simp at h

theorem uuidOk_chars {u : Uuid} (h : UuidOk u) : ∀ c ∈ u.uuid, c ≠ ',' ∧ c ≠ ':' ∧ c ≠ '\n' ∧ isWhitespace c = false := by
  intro c hc
  obtain ⟨_, extra, hx⟩ := h
  by_cases hd : c = '-'
  · subst hd; decide
  · obtain ⟨x, hx⟩ := hexPairs_chars hx c (by simp [hc, hd])
    exact hexDigit?_facts hx

theorem EntryText.chars {e : Uuid × List Interval} {s : RStr} (h : EntryText e s) :
    ∀ c ∈ s, c ≠ ',' ∧ c ≠ '\n' ∧ isWhitespace c = false := by
  obtain ⟨hu, hl, hne, toks, ht, rfl⟩ := h
  intro c hc
  simp only [List.mem_append, List.mem_cons] at hc
  rcases hc with hc | rfl | hc
  · have := uuidOk_chars hu c hc; tauto
  · decide
  · rw [← joinWith_eq] at hc
    rcases mem_joinWith hc with rfl | ⟨p, hp, hcp⟩
    · decide
    · obtain ⟨i, hi, rfl⟩ := List.mem_iff_getElem.1 hp
      have := (List.forall₂_iff_get.1 ht).2 i (by rw [ht.length_eq]; exact hi) hi
      have := (IntervalText.chars this).2 c hcp
      tauto

theorem forall₂_right {α β : Type} {R : α → β → Prop} {P : β → Prop} {l : List α} {l' : List β} (h : List.Forall₂ R l l')
    (hp : ∀ a b, R a b → P b) : ∀ b ∈ l', P b := by
  induction h with
  | nil => simp
  | cons h1 _ ih =>
    intro b hb
    rcases List.mem_cons.1 hb with rfl | hb
    · exact hp _ _ h1
    · exact ih b hb

/-- Inserting one entry after the other. -/
def insertAll (es : List (Uuid × List Interval)) (r : HMap RStr UuidSet) : HMap RStr UuidSet :=
  es.foldl (fun r e => r.insert e.1.uuid ⟨e.1, collapseP e.2⟩) r

theorem parseUuidSets_ok (m : Mode) {es : List (Uuid × List Interval)} {parts : List RStr}
    (h : List.Forall₂ EntryText es parts)
    (hv : ∀ e ∈ es, ∀ iv ∈ e.2, iv.start ≤ iv.end ∧ iv.end < 2 ^ 64)
    (hc : ∀ e ∈ es, UuidSet.new m e.1 e.2 = .ok ⟨e.1, collapseP e.2⟩) (r : HMap RStr UuidSet) :
    parseUuidSets m parts r = .ok (insertAll es r) := by
  induction h generalizing r with
  | nil => rfl
  | @cons e s es parts h1 _ ih =>
    have hve := hv e List.mem_cons_self
    obtain ⟨hu, hl, hne, toks, ht, rfl⟩ := h1
    have htake : (e.1.uuid ++ ':' :: [':'].intercalate toks).take UUID_LENGTH = e.1.uuid := by
      rw [← show e.1.uuid.length = UUID_LENGTH from hl]; simp
    have hdrop : (e.1.uuid ++ ':' :: [':'].intercalate toks).drop (UUID_LENGTH + 1) = [':'].intercalate toks := by
      rw [← show e.1.uuid.length = UUID_LENGTH from hl]
      rw [show e.1.uuid ++ ':' :: [':'].intercalate toks = (e.1.uuid ++ [':']) ++ [':'].intercalate toks by simp]
      exact List.drop_left' (by simp)
    have hp : Uuid.parse e.1.uuid = .ok e.1 := (uuid_parse_ok_iff _ _).2 ⟨rfl, hu⟩
    have htne : toks ≠ [] := by
      intro h0; rw [h0] at ht; exact hne (List.forall₂_nil_right_iff.1 ht)
    have hsplit : splitOn ':' ([':'].intercalate toks) = toks := by
      rw [← joinWith_eq]
      apply splitOn_joinWith _ _ htne
      exact forall₂_right ht (fun iv s hs hc => ((IntervalText.chars hs).2 _ hc).2.1 rfl)
    simp only [parseUuidSets, htake, hdrop, hp, hsplit, Res.bind_ok]
    rw [parseIntervals_ok ht hve]
    simp only [Res.bind_ok]
    rw [hc e List.mem_cons_self]
    simp only [Res.bind_ok]
    rw [ih (fun e' he' => hv e' (List.mem_cons_of_mem _ he')) (fun e' he' => hc e' (List.mem_cons_of_mem _ he'))]
    rfl

theorem forall₂_map_trim {α : Type} {Q : α → RStr → Prop} (hq : ∀ a s, Q a s → ∀ c ∈ s, isWhitespace c = false)
    {es : List α} {parts : List RStr}
    (h : List.Forall₂ (fun e p => ∃ l s r, p = l ++ s ++ r ∧ (∀ c ∈ l, Blank c) ∧ (∀ c ∈ r, Blank c) ∧ Q e s) es parts) :
    List.Forall₂ Q es (parts.map trim) := by
  induction h with
  | nil => exact .nil
  | cons h1 _ ih =>
    obtain ⟨l, s, r, rfl, hl, hr, hs⟩ := h1
    refine .cons ?_ ih
    rw [trim_pad l s r (fun c hc => (blank_iff c).1 (hl c hc)) (fun c hc => (blank_iff c).1 (hr c hc))
      (fun c hc => hq _ _ hs c (List.mem_of_mem_head? hc)) (fun c hc => hq _ _ hs c (List.mem_of_mem_getLast? hc))]
    exact hs

theorem blank_not_comma {c : Char} (h : Blank c) : c ≠ ',' := by
  rintro rfl
  have := (blank_iff ',').1 h
  revert this; decide

theorem gtidSet_parse_ok (m : Mode) {es : List (Uuid × List Interval)} {t : RStr} (h : SetText es t)
    (hv : ∀ e ∈ es, ∀ iv ∈ e.2, iv.start ≤ iv.end ∧ iv.end < 2 ^ 64)
    (hc : ∀ e ∈ es, UuidSet.new m e.1 e.2 = .ok ⟨e.1, collapseP e.2⟩) :
    GtidSet.parse m t = .ok ⟨insertAll es []⟩ := by
  obtain ⟨hne, parts, hp, ht⟩ := h
  have hpne : parts ≠ [] := by rintro rfl; cases hp; exact hne rfl
  have hsplit : splitOn ',' (removeChar '\n' t) = parts := by
    rw [show removeChar '\n' t = t.filter (· ≠ '\n') from rfl, ht, ← joinWith_eq]
    apply splitOn_joinWith _ _ hpne
    apply forall₂_right (P := fun p => ',' ∉ p) hp
    rintro e p ⟨l, s, r, rfl, hl, hr, hs⟩ hc
    simp only [List.mem_append] at hc
    rcases hc with (hc | hc) | hc
    · exact blank_not_comma (hl _ hc) rfl
    · exact (EntryText.chars hs _ hc).1 rfl
    · exact blank_not_comma (hr _ hc) rfl
  have htne : t.isEmpty = false := by
    cases t with
    | cons => rfl
    | nil =>
      exfalso
      rw [show removeChar '\n' [] = [] from rfl] at hsplit
      simp only [splitOn] at hsplit
      subst hsplit
      rcases hp with _ | ⟨⟨l, s, r, he, _, _, hs⟩, _⟩
      have : s = [] := by
        have := congrArg List.length he
        simp at this
        exact List.length_eq_zero_iff.1 (by omega)
      obtain ⟨_, _, _, toks, _, hs⟩ := hs
      rw [this] at hs
      simp at hs
  simp only [GtidSet.parse, htne, hsplit]
  have hq := forall₂_map_trim (Q := EntryText) (fun e s hs c hc => (EntryText.chars hs c hc).2.2) hp
  simp only [parseUuidSets_ok m hq hv hc, Res.bind_ok]
  rfl

/-- With distinct keys, inserting appends. -/
theorem insertAll_distinct (es : List (Uuid × List Interval)) (r : HMap RStr UuidSet)
    (hn : (r.map (·.1) ++ es.map (·.1.uuid)).Nodup) :
    insertAll es r = r ++ es.map (fun e => (e.1.uuid, ⟨e.1, collapseP e.2⟩)) := by
  induction es generalizing r with
  | nil => simp [insertAll]
  | cons e es ih =>
    have hnot : e.1.uuid ∉ r.map (·.1) := by
      intro hm
      rw [List.nodup_append] at hn
      exact hn.2.2 _ hm _ (by simp) rfl
    have hins : HMap.insert r e.1.uuid ⟨e.1, collapseP e.2⟩ = r ++ [(e.1.uuid, ⟨e.1, collapseP e.2⟩)] := by
      clear ih hn
      induction r with
      | nil => rfl
      | cons x r ih =>
        simp only [List.map_cons, List.mem_cons, not_or] at hnot
        simp only [HMap.insert]
        rw [if_neg (fun h => hnot.1 h.symm), ih hnot.2]
        rfl
    simp only [insertAll, List.foldl_cons, hins]
    have := ih (r ++ [(e.1.uuid, ⟨e.1, collapseP e.2⟩)]) (by simpa using hn)
    simp only [insertAll] at this
    rw [this]
    simp

/-- In general the last entry of each text counts. -/
theorem insertAll_mem (es : List (Uuid × List Interval)) : ((insertAll es []).map (·.1)).Nodup ∧
    ∀ k v, (k, v) ∈ insertAll es [] ↔ ∃ pre e post, es = pre ++ e :: post ∧ (∀ e' ∈ post, e'.1.uuid ≠ e.1.uuid) ∧
      k = e.1.uuid ∧ v = ⟨e.1, collapseP e.2⟩ := by
  induction es using List.reverseRecOn with
  | nil => exact ⟨.nil, fun k v => by simp [insertAll]⟩
  | append_singleton es x ih =>
    obtain ⟨hn, ih⟩ := ih
    have hstep : insertAll (es ++ [x]) [] = (insertAll es []).insert x.1.uuid ⟨x.1, collapseP x.2⟩ := by
      simp [insertAll]
    rw [hstep]
    clear hstep
    refine ⟨HMap.nodup_insert hn _ _, fun k v => ?_⟩
    rw [HMap.mem_insert hn, ih]
    constructor
    · rintro (⟨h1, h2⟩ | ⟨h1, pre, e, post, h2, h3, h4, h5⟩)
      · exact ⟨es, x, [], rfl, by simp, h1.symm, h2⟩
      · refine ⟨pre, e, post ++ [x], by simp [h2], fun e' he' => ?_, h4, h5⟩
        rcases List.mem_append.1 he' with he' | he'
        · exact h3 e' he'
        · rw [List.mem_singleton.1 he', ← h4]
          exact h1
    · rintro ⟨pre, e, post, h1, h2, h3, h4⟩
      rcases List.eq_nil_or_concat post with rfl | ⟨post', y, rfl⟩
      · obtain ⟨rfl, hx⟩ := List.append_inj' h1 rfl
        simp only [List.cons.injEq, and_true] at hx
        subst hx
        exact .inl ⟨h3.symm, h4⟩
      · rw [List.concat_eq_append] at h1 h2
        rw [← List.cons_append, ← List.append_assoc] at h1
        obtain ⟨rfl, hx⟩ := List.append_inj' h1 rfl
        simp only [List.cons.injEq, and_true] at hx
        subst hx
        exact .inr ⟨by rw [h3]; exact h2 x (by simp), pre, e, post', rfl, fun e' he' => h2 e' (by simp [he']), h3, h4⟩

end MysqlCdc
