import Verif.Spec.GtidGrammar
import Verif.Props.GtidText
/-!
# C77, C78: which texts the GTID parsers accept, refuse and crash on, exactly
-/

namespace MysqlCdc
open Spec

theorem cut_iff (sep : Char) (t : RStr) (ps : List RStr) : Cut sep t ps ↔ splitOn sep t = ps := by
  constructor
  · rintro ⟨h1, h2, h3⟩
    rw [h3, ← joinWith_eq]
    exact splitOn_joinWith sep ps h1 h2
  · rintro rfl
    refine ⟨splitOn_ne_nil _ _, fun p hp => (isPart_of_mem_splitOn hp).1, ?_⟩
    rw [← joinWith_eq]
    induction t with
    | nil => rfl
    | cons c cs ih =>
      simp only [splitOn]
      split
      · rename_i hc; subst hc
        cases hs : splitOn c cs with
        | nil => exact absurd hs (splitOn_ne_nil _ _)
        | cons p ps =>
          rw [hs] at ih
          simp [joinWith, ← ih]
      · cases hs : splitOn sep cs with
        | nil => exact absurd hs (splitOn_ne_nil _ _)
        | cons p ps =>
          rw [hs] at ih
          cases ps with
          | nil => simpa [joinWith] using ih
          | cons q qs => simpa [joinWith] using ih

theorem trimmed_iff (p q : RStr) : Trimmed p q ↔ trim p = q := by
  constructor
  · rintro ⟨⟨l, r, rfl, hl, hr⟩, h1, h2⟩
    exact trim_pad l q r (fun c hc => (blank_iff c).1 (hl c hc)) (fun c hc => (blank_iff c).1 (hr c hc))
      (fun c hc => by have := h1 c hc; rw [blank_iff] at this; simpa using this)
      (fun c hc => by have := h2 c hc; rw [blank_iff] at this; simpa using this)
  · rintro rfl
    exact trim_trimmed p

theorem forall₂_trimmed_iff (ps qs : List RStr) : List.Forall₂ Trimmed ps qs ↔ ps.map trim = qs := by
  constructor
  · intro h
    induction h with
    | nil => rfl
    | cons h _ ih => simp [(trimmed_iff _ _).1 h, ih]
  · rintro rfl
    induction ps with
    | nil => exact .nil
    | cons p ps ih => exact .cons (trim_trimmed p) ih

theorem cleaned_iff (t : RStr) (qs : List RStr) : Cleaned t qs ↔ (splitOn ',' (removeChar '\n' t)).map trim = qs := by
  constructor
  · rintro ⟨ps, h1, h2⟩
    rw [show removeChar '\n' t = t.filter (· ≠ '\n') from rfl, (cut_iff _ _ _).1 h1]
    exact (forall₂_trimmed_iff _ _).1 h2
  · intro h
    exact ⟨_, (cut_iff _ _ _).2 rfl, (forall₂_trimmed_iff _ _).2 h⟩

theorem number_iff (bits n : Nat) (s : RStr) : parseUnsigned bits s = .ok n ↔ Number bits n s := by
  constructor
  · intro h
    refine ⟨parseUnsigned_bound h, ?_⟩
    unfold parseUnsigned at h
    split at h
    · cases h
    · cases h
    · rename_i cs hne
      split at h
      · rename_i k hp
        injection h with h; subst h
        obtain ⟨h1, h2⟩ := parseDigits_some hp
        exact .inr ⟨cs, ⟨fun h0 => hne h0, h1, h2.symm⟩, rfl⟩
      · cases h
    · rename_i h0 _ _
      split at h
      · rename_i k hp
        injection h with h; subst h
        obtain ⟨h1, h2⟩ := parseDigits_some hp
        exact .inl ⟨h0, h1, h2.symm⟩
      · cases h
  · rintro ⟨hb, h | ⟨d, h, rfl⟩⟩
    · exact h.parse bits hb
    · obtain ⟨h1, h2, h3⟩ := h
      have hp := parseDigits_eq bits d 0 h2 (by rw [h3]; exact hb)
      match d, h1 with
      | c :: cs, _ => simp only [parseUnsigned, hp, h3]

theorem number_noDash {bits n : Nat} {s : RStr} (h : Number bits n s) : '-' ∉ s := by
  rcases h.2 with h | ⟨d, hd, rfl⟩
  · exact h.noDash
  · intro hc
    rcases List.mem_cons.1 hc with hc | hc
    · exact absurd hc (by decide)
    · exact hd.noDash hc

theorem number_noColon {bits n : Nat} {s : RStr} (h : Number bits n s) : ':' ∉ s := by
  rcases h.2 with h | ⟨d, hd, rfl⟩
  · exact fun hc => (h.facts _ hc).2.2.1 rfl
  · intro hc
    rcases List.mem_cons.1 hc with hc | hc
    · exact absurd hc (by decide)
    · exact (hd.facts _ hc).2.2.1 rfl

theorem looseInterval_iff (iv : Interval) (s : RStr) : parseInterval s = .ok iv ↔ LooseInterval iv s := by
  constructor
  · intro h
    unfold parseInterval at h
    split at h
    · rename_i a ha
      obtain ⟨-, -, ht⟩ := (cut_iff _ _ _).2 ha
      have : s = a := by rw [ht]; simp [List.intercalate]
      subst this
      rcases parseUnsigned_returns 64 s with ⟨n, hn⟩ | hn
      · simp only [hn, Res.bind_ok, Res.pure_eq] at h
        injection h with h; subst h
        exact .inl ⟨rfl, (number_iff _ _ _).1 hn⟩
      · simp [hn] at h
    · rename_i a b hab
      obtain ⟨-, -, ht⟩ := (cut_iff _ _ _).2 hab
      have : s = a ++ '-' :: b := by rw [ht]; simp [List.intercalate]
      rcases parseUnsigned_returns 64 a with ⟨n, hn⟩ | hn
      · rcases parseUnsigned_returns 64 b with ⟨k, hk⟩ | hk
        · simp only [hn, hk, Res.bind_ok, Res.pure_eq] at h
          injection h with h; subst h
          exact .inr ⟨a, b, (number_iff _ _ _).1 hn, (number_iff _ _ _).1 hk, this⟩
        · simp [hn, hk] at h
      · simp [hn] at h
    · cases h
  · rintro (⟨h1, h2⟩ | ⟨a, b, h1, h2, rfl⟩)
    · unfold parseInterval
      rw [splitOn_of_not_mem _ _ (number_noDash h2)]
      simp only [(number_iff _ _ _).2 h2, Res.bind_ok]
      rw [Res.pure_eq]
      rcases iv with ⟨s0, e0⟩
      simp only at h1
      rw [h1]
    · unfold parseInterval
      rw [splitOn_append_sep _ _ _ (number_noDash h1), splitOn_of_not_mem _ _ (number_noDash h2)]
      simp only [(number_iff _ _ _).2 h1, (number_iff _ _ _).2 h2, Res.bind_ok]
      rfl

theorem looseIntervals_iff (ivs : List Interval) (toks : List RStr) :
    parseIntervals toks = .ok ivs ↔ List.Forall₂ LooseInterval ivs toks := by
  induction toks generalizing ivs with
  | nil =>
    simp only [parseIntervals, Res.pure_eq, List.forall₂_nil_right_iff]
    constructor
    · intro h; injection h with h; exact h.symm
    · rintro rfl; rfl
  | cons t ts ih =>
    constructor
    · intro h
      simp only [parseIntervals] at h
      rcases parseInterval_cases t with ⟨e, he⟩ | ⟨iv, h1, -⟩
      · simp [he] at h
      · rcases parseIntervals_cases ts with ⟨e, he⟩ | ⟨ivs', h2, -⟩
        · simp [h1, he] at h
        · simp only [h1, h2, Res.bind_ok, Res.pure_eq] at h
          injection h with h; subst h
          exact .cons ((looseInterval_iff _ _).1 h1) ((ih _).1 h2)
    · intro h
      cases h with
      | cons h1 h2 => simp only [parseIntervals, (looseInterval_iff _ _).2 h1, (ih _).2 h2, Res.bind_ok, Res.pure_eq]

/-! ## One part of the text -/

/-- What a part does to the parse. -/
inductive PartResult (m : Mode) (q : RStr) : Prop
  | fine (e : Uuid × List Interval) (s : UuidSet) (h : LooseEntry e q) (ht : m.checks = true → ¬ ReachesTop e.2)
      (hp : ∀ rest r, parseUuidSets m (q :: rest) r = parseUuidSets m rest (r.insert e.1.uuid s))
      (hs : ¬ ReachesTop e.2 → s = ⟨e.1, collapseP e.2⟩)
  | bad (hn : ∀ e, ¬ LooseEntry e q) (hs : ¬ ShortUuid q) (e : Err) (hp : ∀ rest r, parseUuidSets m (q :: rest) r = .err e)
  | crash (h : ShortUuid q ∨ m.checks = true ∧ ∃ e, LooseEntry e q ∧ ReachesTop e.2)
      (hp : ∀ rest r, parseUuidSets m (q :: rest) r = .panic)

theorem looseEntry_unique {e e' : Uuid × List Interval} {q : RStr} (h : LooseEntry e q) (h' : LooseEntry e' q) : e = e' := by
  obtain ⟨h1, h2, toks, h3, h4⟩ := h
  obtain ⟨g1, g2, toks', g3, g4⟩ := h'
  have : e.1 = e'.1 := by
    have a := (uuid_parse_ok_iff (q.take 36) e.1).2 ⟨h1, h2⟩
    have b := (uuid_parse_ok_iff (q.take 36) e'.1).2 ⟨g1, g2⟩
    rw [a] at b; injection b
  have ht : toks = toks' := by rw [← (cut_iff _ _ _).1 h3, ← (cut_iff _ _ _).1 g3]
  subst ht
  have a := (looseIntervals_iff _ _).2 h4
  rw [(looseIntervals_iff _ _).2 g4] at a
  injection a with a
  exact Prod.ext this a.symm

theorem looseIntervals_range {ivs : List Interval} {toks : List RStr} (h : List.Forall₂ LooseInterval ivs toks) :
    ∀ iv ∈ ivs, iv.end < 2 ^ 64 := by
  induction h with
  | nil => simp
  | cons h1 _ ih =>
    intro iv hiv
    rcases List.mem_cons.1 hiv with rfl | hiv
    · rcases h1 with ⟨h1, h2⟩ | ⟨a, b, h1, h2, -⟩
      · rw [← h1]; exact h2.1
      · exact h2.1
    · exact ih iv hiv

/-- A short uuid is no entry. -/
theorem looseEntry_not_short {e : Uuid × List Interval} {q : RStr} (h : LooseEntry e q) : ¬ ShortUuid q := by
  rintro ⟨data, hd, hl⟩
  obtain ⟨h1, ⟨hl', extra, hx⟩, -⟩ := h
  rw [h1] at hx
  have a := (hexDecode_iff _ _).2 hd
  rw [(hexDecode_iff _ _).2 hx] at a
  injection a with a
  rw [← a] at hl
  simp [hl'] at hl
  omega

theorem part_result (m : Mode) (q : RStr) : PartResult m q := by
  rcases hexDecode_returns ((q.take 36).filter (· ≠ '-')) with ⟨bs, hb⟩ | hb
  · by_cases hl : bs.length < 16
    · refine .crash (.inl ⟨bs, (hexDecode_iff _ _).1 hb, hl⟩) fun rest r => ?_
      simp only [parseUuidSets, show UUID_LENGTH = 36 from rfl, Uuid.parse, removeChar_eq, hb, Res.bind_ok, hl, if_true,
        Res.bind_panic]
    · have hshort : ¬ ShortUuid q := by
        rintro ⟨data, hd, hl'⟩
        have := (hexDecode_iff _ _).2 hd
        rw [hb] at this; injection this with this; subst this; exact hl hl'
      have hu : Uuid.parse (q.take 36) = .ok ⟨bs.take 16, q.take 36⟩ := by
        simp only [Uuid.parse, removeChar_eq, hb, Res.bind_ok, hl, if_false, Res.pure_eq]
      have huok := (uuid_parse_ok_iff _ _).1 hu
      rcases parseIntervals_cases (splitOn ':' (q.drop 37)) with ⟨e, he⟩ | ⟨ivs, h1, -⟩
      · refine .bad ?_ hshort e fun rest r => ?_
        · rintro e' ⟨-, -, toks, h3, h4⟩
          rw [(cut_iff _ _ _).1 h3, (looseIntervals_iff _ _).2 h4] at he
          cases he
        · simp only [parseUuidSets, show UUID_LENGTH = 36 from rfl, hu, Res.bind_ok, he, Res.bind_err]
      · have hent : LooseEntry (⟨bs.take 16, q.take 36⟩, ivs) q :=
          ⟨huok.1, huok.2, _, (cut_iff _ _ _).2 rfl, (looseIntervals_iff _ _).1 h1⟩
        have htop := uuidSet_new_top m ⟨bs.take 16, q.take 36⟩ ivs (looseIntervals_range ((looseIntervals_iff _ _).1 h1))
        by_cases hc : m.checks = true ∧ ReachesTop ivs
        · refine .crash (.inr ⟨hc.1, _, hent, hc.2⟩) fun rest r => ?_
          simp only [parseUuidSets, show UUID_LENGTH = 36 from rfl, hu, Res.bind_ok, h1, htop.1 hc, Res.bind_panic]
        · have : ∃ s, UuidSet.new m ⟨bs.take 16, q.take 36⟩ ivs = .ok s := by
            by_cases hm : m.checks = true
            · exact ⟨_, htop.2.1 (fun h => hc ⟨hm, h⟩)⟩
            · exact htop.2.2 (by simpa using hm)
          obtain ⟨s, hs⟩ := this
          refine .fine _ s hent (fun hm h => hc ⟨hm, h⟩) (fun rest r => ?_) (fun h => ?_)
          · simp only [parseUuidSets, show UUID_LENGTH = 36 from rfl, hu, Res.bind_ok, h1, hs]
          · rw [htop.2.1 h] at hs; injection hs with hs; exact hs.symm
  · refine .bad ?_ ?_ .fromHex fun rest r => ?_
    · rintro e ⟨h1, ⟨-, extra, hx⟩, -⟩
      rw [h1] at hx
      rw [(hexDecode_iff _ _).2 hx] at hb
      cases hb
    · rintro ⟨data, hd, -⟩
      rw [(hexDecode_iff _ _).2 hd] at hb
      cases hb
    · simp only [parseUuidSets, show UUID_LENGTH = 36 from rfl, Uuid.parse, removeChar_eq, hb, Res.bind_err]

/-- The part is an entry the parser takes. -/
def Taken (m : Mode) (e : Uuid × List Interval) (q : RStr) : Prop :=
  LooseEntry e q ∧ (m.checks = true → ¬ ReachesTop e.2)

/-- The part crashes the parser. -/
def Crashing (m : Mode) (q : RStr) : Prop := ShortUuid q ∨ m.checks = true ∧ ∃ e, LooseEntry e q ∧ ReachesTop e.2

theorem crashing_not_taken {m : Mode} {q : RStr} (h : Crashing m q) : ∀ e, ¬ Taken m e q := by
  rintro e ⟨h1, h2⟩
  rcases h with h | ⟨hm, e', h3, h4⟩
  · exact looseEntry_not_short h1 h
  · rw [looseEntry_unique h3 h1] at h4; exact h2 hm h4

theorem parseUuidSets_exact (m : Mode) (qs : List RStr) (r : HMap RStr UuidSet) :
    (∃ es g, List.Forall₂ (Taken m) es qs ∧ parseUuidSets m qs r = .ok g ∧
      ((∀ e ∈ es, ¬ ReachesTop e.2) → g = insertAll es r)) ∨
    (∃ pre q post, qs = pre ++ q :: post ∧ (∀ p ∈ pre, ∃ e, Taken m e p) ∧ (∀ e, ¬ Taken m e q) ∧ ¬ Crashing m q ∧
      ∃ e, parseUuidSets m qs r = .err e) ∨
    (∃ pre q post, qs = pre ++ q :: post ∧ (∀ p ∈ pre, ∃ e, Taken m e p) ∧ Crashing m q ∧ parseUuidSets m qs r = .panic) := by
  induction qs generalizing r with
  | nil => exact .inl ⟨[], r, .nil, rfl, fun _ => rfl⟩
  | cons q qs ih =>
    cases part_result m q with
    | fine e s h ht hp hs =>
      rw [hp]
      rcases ih (r.insert e.1.uuid s) with ⟨es, g, h1, h2, h3⟩ | ⟨pre, q', post, h1, h2, h3⟩ | ⟨pre, q', post, h1, h2, h3⟩
      · refine .inl ⟨e :: es, g, .cons ⟨h, ht⟩ h1, h2, fun hno => ?_⟩
        rw [h3 (fun e' he' => hno e' (by simp [he'])), hs (hno e (by simp))]
        rfl
      · refine .inr (.inl ⟨q :: pre, q', post, by simp [h1], fun p hp => ?_, h3⟩)
        rcases List.mem_cons.1 hp with rfl | hp
        · exact ⟨e, h, ht⟩
        · exact h2 p hp
      · refine .inr (.inr ⟨q :: pre, q', post, by simp [h1], fun p hp => ?_, h3⟩)
        rcases List.mem_cons.1 hp with rfl | hp
        · exact ⟨e, h, ht⟩
        · exact h2 p hp
    | bad hn hs e hp =>
      refine .inr (.inl ⟨[], q, qs, rfl, by simp, fun e' h => hn e' h.1, ?_, e, hp _ _⟩)
      rintro (h | ⟨-, e', h, -⟩)
      · exact hs h
      · exact hn e' h
    | crash h hp => exact .inr (.inr ⟨[], q, qs, rfl, by simp, h, hp _ _⟩)

theorem forall₂_left_of_mem {α β : Type} {R : α → β → Prop} {l : List α} {l' : List β} (h : List.Forall₂ R l l') :
    ∀ b ∈ l', ∃ a ∈ l, R a b := by
  induction h with
  | nil => simp
  | cons h1 _ ih =>
    intro b hb
    rcases List.mem_cons.1 hb with rfl | hb
    · exact ⟨_, by simp, h1⟩
    · obtain ⟨a, h2, h3⟩ := ih b hb
      exact ⟨a, by simp [h2], h3⟩

theorem firstNot_unique {α : Type} {P : α → Prop} {pre pre' : List α} {q q' : α} {post post' : List α}
    (h : pre ++ q :: post = pre' ++ q' :: post') (h1 : ∀ p ∈ pre, P p) (h2 : ∀ p ∈ pre', P p) (h3 : ¬ P q) (h4 : ¬ P q') :
    q = q' := by
  induction pre generalizing pre' with
  | nil =>
    cases pre' with
    | nil => simp only [List.nil_append, List.cons.injEq] at h; exact h.1
    | cons x xs =>
      simp only [List.nil_append, List.cons_append, List.cons.injEq] at h
      exact absurd (h.1 ▸ h2 x (by simp)) h3
  | cons y ys ih =>
    cases pre' with
    | nil =>
      simp only [List.nil_append, List.cons_append, List.cons.injEq] at h
      exact absurd (h.1 ▸ h1 y (by simp)) h4
    | cons x xs =>
      simp only [List.cons_append, List.cons.injEq] at h
      exact ih h.2 (fun p hp => h1 p (by simp [hp])) (fun p hp => h2 p (by simp [hp]))

theorem gtidSet_parse_nonempty (m : Mode) {t : RStr} (ht : t ≠ []) : GtidSet.parse m t =
    (do let r ← parseUuidSets m ((splitOn ',' (removeChar '\n' t)).map trim) []
        return { uuidSets := r }) := by
  unfold GtidSet.parse
  rw [if_neg (by simpa using ht)]

/-- C77. `GtidSet::parse` accepts the empty text and exactly the texts all of whose parts are entries; with overflow checks no
interval up to `u64::MAX` may be followed by another one. -/
theorem C77_accepts_iff (m : Mode) (t : RStr) : (∃ g, GtidSet.parse m t = .ok g) ↔
    t = [] ∨ ∃ es qs, Cleaned t qs ∧ List.Forall₂ LooseEntry es qs ∧ (m.checks = true → ∀ e ∈ es, ¬ ReachesTop e.2) := by
  by_cases ht : t = []
  · subst ht; exact ⟨fun _ => .inl rfl, fun _ => ⟨GtidSet.new, rfl⟩⟩
  · rw [gtidSet_parse_nonempty m ht]
    constructor
    · rintro ⟨g, hg⟩
      right
      rcases parseUuidSets_exact m ((splitOn ',' (removeChar '\n' t)).map trim) [] with
        ⟨es, g', h1, -⟩ | ⟨_, _, _, _, _, _, _, e, h⟩ | ⟨_, _, _, _, _, _, h⟩
      · refine ⟨es, _, (cleaned_iff _ _).2 rfl, h1.imp (fun _ _ h => h.1), fun hm e he => ?_⟩
        obtain ⟨q, -, hq⟩ := forall₂_left_of_mem h1.flip e he
        exact hq.2 hm
      · rw [h] at hg; cases hg
      · rw [h] at hg; cases hg
    · rintro (h | ⟨es, qs, h1, h2, h3⟩)
      · exact absurd h ht
      · rw [(cleaned_iff _ _).1 h1]
        have htk : ∀ q ∈ qs, ∃ e, Taken m e q := fun q hq => by
          obtain ⟨e, he, hh⟩ := forall₂_left_of_mem h2 q hq
          exact ⟨e, hh, fun hm => h3 hm e he⟩
        rcases parseUuidSets_exact m qs [] with ⟨es', g', -, h, -⟩ | ⟨pre, q, post, rfl, _, hn, _⟩ | ⟨pre, q, post, rfl, _, hc, _⟩
        · exact ⟨⟨g'⟩, by rw [h]; rfl⟩
        · obtain ⟨e, he⟩ := htk q (by simp); exact absurd he (hn e)
        · obtain ⟨e, he⟩ := htk q (by simp); exact absurd he (crashing_not_taken hc e)

/-- C77. What an accepted text stands for: of the entries that name a server with the same characters the last one counts, with
all its intervals. -/
theorem C77_keeps (m : Mode) (t : RStr) (es : List (Uuid × List Interval)) (qs : List RStr) (ht : t ≠ []) (hq : Cleaned t qs)
    (he : List.Forall₂ LooseEntry es qs) (htop : ∀ e ∈ es, ¬ ReachesTop e.2) (hv : ∀ e ∈ es, ∀ iv ∈ e.2, iv.start ≤ iv.end) :
    ∃ g, GtidSet.parse m t = .ok g ∧ ∀ u n, Has g u n ↔
      ∃ pre e post, es = pre ++ e :: post ∧ (∀ e' ∈ post, e'.1.uuid ≠ e.1.uuid) ∧ e.1.data = u ∧ InIvs n e.2 := by
  rw [gtidSet_parse_nonempty m ht, (cleaned_iff _ _).1 hq]
  have htk : ∀ q ∈ qs, ∃ e, Taken m e q := fun q hq => by
    obtain ⟨e, he, hh⟩ := forall₂_left_of_mem he q hq
    exact ⟨e, hh, fun _ => htop e he⟩
  rcases parseUuidSets_exact m qs [] with ⟨es', g', h1, h, hg⟩ | ⟨pre, q, post, rfl, _, hn, _⟩ | ⟨pre, q, post, rfl, _, hc, _⟩
  · have hes : es' = es := by
      clear hg htop hv h hq htk
      induction he generalizing es' with
      | nil => cases h1; rfl
      | cons a b ih =>
        cases h1 with
        | cons c d => rw [looseEntry_unique c.1 a, ih _ d]
    subst hes
    rw [h, hg htop]
    refine ⟨_, rfl, fun u n => ?_⟩
    simp only [Has]
    constructor
    · rintro ⟨⟨k, v⟩, h1, h2, h3⟩
      obtain ⟨pre, e, post, g1, g2, -, rfl⟩ := ((insertAll_mem es').2 k v).1 h1
      exact ⟨pre, e, post, g1, g2, h2, (collapseP_mem' _ (fun iv hiv => hv e (by rw [g1]; simp) iv hiv) n).1 h3⟩
    · rintro ⟨pre, e, post, g1, g2, h2, h3⟩
      exact ⟨(e.1.uuid, ⟨e.1, collapseP e.2⟩), ((insertAll_mem es').2 _ _).2 ⟨pre, e, post, g1, g2, rfl, rfl⟩, h2,
        (collapseP_mem' _ (fun iv hiv => hv e (by rw [g1]; simp) iv hiv) n).2 h3⟩
  · obtain ⟨e, he⟩ := htk q (by simp); exact absurd he (hn e)
  · obtain ⟨e, he⟩ := htk q (by simp); exact absurd he (crashing_not_taken hc e)

/-- C77. `GtidSet::parse` crashes exactly if the first part that is not taken has a uuid of fewer than 32 digits, or (with
overflow checks) an interval up to `u64::MAX` that is followed by another one. -/
theorem C77_crashes_iff (m : Mode) (t : RStr) : GtidSet.parse m t = .panic ↔
    t ≠ [] ∧ ∃ pre q post, Cleaned t (pre ++ q :: post) ∧
      (∀ p ∈ pre, ∃ e, LooseEntry e p ∧ (m.checks = true → ¬ ReachesTop e.2)) ∧
      (ShortUuid q ∨ m.checks = true ∧ ∃ e, LooseEntry e q ∧ ReachesTop e.2) := by
  by_cases ht : t = []
  · subst ht
    constructor
    · intro h; exact nomatch h
    · intro h; exact absurd rfl h.1
  · rw [gtidSet_parse_nonempty m ht]
    constructor
    · intro h
      refine ⟨ht, ?_⟩
      rcases parseUuidSets_exact m ((splitOn ',' (removeChar '\n' t)).map trim) [] with
        ⟨es, g', _, h', _⟩ | ⟨_, _, _, _, _, _, _, e, h'⟩ | ⟨pre, q, post, h1, h2, h3, h4⟩
      · rw [h'] at h; cases h
      · rw [h'] at h; cases h
      · exact ⟨pre, q, post, (cleaned_iff _ _).2 h1, h2, h3⟩
    · rintro ⟨-, pre, q, post, h1, h2, h3⟩
      rw [(cleaned_iff _ _).1 h1]
      have hnq : ¬ ∃ e, Taken m e q := fun ⟨e, he⟩ => crashing_not_taken h3 e he
      rcases parseUuidSets_exact m (pre ++ q :: post) [] with
        ⟨es, g', h4, _⟩ | ⟨pre', q', post', h5, h6, h7, h8, _⟩ | ⟨_, _, _, _, _, _, h'⟩
      · obtain ⟨e, -, he⟩ := forall₂_left_of_mem h4 q (by simp)
        exact absurd ⟨e, he⟩ hnq
      · have := firstNot_unique (P := fun p => ∃ e, Taken m e p) h5 h2 h6 hnq (fun ⟨e, he⟩ => h7 e he)
        subst this
        exact absurd h3 h8
      · rw [h']; rfl

/-- C77. `GtidSet::parse` always ends: every other text is refused with an error. -/
theorem C77_otherwise_refused (m : Mode) (t : RStr) : (∃ g, GtidSet.parse m t = .ok g) ∨ (∃ e, GtidSet.parse m t = .err e) ∨
    GtidSet.parse m t = .panic := by
  by_cases ht : t = []
  · subst ht; exact .inl ⟨_, rfl⟩
  · rw [gtidSet_parse_nonempty m ht]
    rcases parseUuidSets_exact m ((splitOn ',' (removeChar '\n' t)).map trim) [] with
      ⟨es, g', _, h', _⟩ | ⟨_, _, _, _, _, _, _, e, h'⟩ | ⟨pre, q, post, h1, h2, h3, h'⟩
    · exact .inl ⟨⟨g'⟩, by rw [h']; rfl⟩
    · exact .inr (.inl ⟨e, by rw [h']; rfl⟩)
    · exact .inr (.inr (by rw [h']; rfl))

/-! Texts of each kind: a plus sign, a `x` after the uuid, an interval up to the largest number at the end; nonsense that is
refused; a short uuid after a good entry; and an interval up to the largest number that is followed by another one. -/

theorem exLoose : Cleaned " 24bc7850-2c16-11e6-a073-0242ac110001x+3-7:9-18446744073709551615 \n".toList
      ["24bc7850-2c16-11e6-a073-0242ac110001x+3-7:9-18446744073709551615".toList] ∧
    LooseEntry (exUuid, [⟨3, 7⟩, ⟨9, 2 ^ 64 - 1⟩]) "24bc7850-2c16-11e6-a073-0242ac110001x+3-7:9-18446744073709551615".toList ∧
    ¬ ReachesTop [⟨3, 7⟩, ⟨9, 2 ^ 64 - 1⟩] := by
  refine ⟨(cleaned_iff _ _).2 (by decide), ⟨by decide, UuidCanon_ok exUuid_canon,
    ["+3-7".toList, "9-18446744073709551615".toList], (cut_iff _ _ _).2 (by decide), (looseIntervals_iff _ _).1 (by decide)⟩, ?_⟩
  simp [ReachesTop]

example (m : Mode) : ∃ g, GtidSet.parse m " 24bc7850-2c16-11e6-a073-0242ac110001x+3-7:9-18446744073709551615 \n".toList = .ok g ∧
    Has g exBytes 5 ∧ Has g exBytes (2 ^ 64 - 1) ∧ ¬ Has g exBytes 8 := by
  obtain ⟨h1, h2, h3⟩ := exLoose
  obtain ⟨g, hg, hh⟩ := C77_keeps m _ _ _ (by decide) h1 (.cons h2 .nil)
    (fun e he => by rw [List.mem_singleton.1 he]; exact h3)
    (fun e he iv hiv => by
      rw [List.mem_singleton.1 he] at hiv
      simp only [List.mem_cons, List.not_mem_nil, or_false] at hiv
      rcases hiv with rfl | rfl <;> decide)
  refine ⟨g, hg, ?_, ?_, ?_⟩
  · exact (hh _ _).2 ⟨[], _, [], rfl, by simp, rfl, ⟨3, 7⟩, by simp, by decide, by decide⟩
  · exact (hh _ _).2 ⟨[], _, [], rfl, by simp, rfl, ⟨9, 2 ^ 64 - 1⟩, by simp, by decide, by decide⟩
  · rintro h
    obtain ⟨pre, e, post, he, -, -, iv, hiv, ha, hb⟩ := (hh _ _).1 h
    have : e = (exUuid, [⟨3, 7⟩, ⟨9, 2 ^ 64 - 1⟩]) := by
      have : e ∈ [(exUuid, [(⟨3, 7⟩ : Interval), ⟨9, 2 ^ 64 - 1⟩])] := by rw [he]; simp
      exact List.mem_singleton.1 this
    subst this
    simp only [List.mem_cons, List.not_mem_nil, or_false] at hiv
    rcases hiv with rfl | rfl <;> simp at ha hb

example : ∀ m, GtidSet.parse m "24bc7850-2c16-11e6-a073-0242ac110001:99999999999999999999".toList = .err .parseInt := by
  rintro ⟨_ | _⟩ <;> decide +kernel

example : ShortUuid "24bc7850".toList :=
  ⟨[0x24, 0xbc, 0x78, 0x50], (hexDecode_iff _ _).1 (by decide +kernel), by decide⟩

example : ReachesTop [⟨1, 2 ^ 64 - 1⟩, ⟨5, 5⟩] := ⟨⟨1, 2 ^ 64 - 1⟩, by simp, rfl⟩

/-! ## MariaDB -/

theorem mgtid_exact (s : RStr) :
    (∃ g, LooseMGtid g s ∧ parseMGtid s = .ok g) ∨
    ((∀ g, ¬ LooseMGtid g s) ∧ ¬ ShortMGtid s ∧ ∃ e, parseMGtid s = .err e) ∨
    ((∀ g, ¬ LooseMGtid g s) ∧ ShortMGtid s ∧ parseMGtid s = .panic) := by
  have key1 : ∀ g, LooseMGtid g s → parseMGtid s = .ok g := by
    rintro g ⟨a, b, c, h1, h2, h3, h⟩
    have hs : ∃ r, splitOn '-' s = a :: b :: c :: r := by
      rcases h with rfl | ⟨rest, rfl⟩
      · exact ⟨[], by rw [splitOn_append_sep _ _ _ (number_noDash h1), splitOn_append_sep _ _ _ (number_noDash h2),
          splitOn_of_not_mem _ _ (number_noDash h3)]⟩
      · exact ⟨splitOn '-' rest, by rw [splitOn_append_sep _ _ _ (number_noDash h1),
          splitOn_append_sep _ _ _ (number_noDash h2), splitOn_append_sep _ _ _ (number_noDash h3)]⟩
    obtain ⟨r, hr⟩ := hs
    simp only [parseMGtid, hr, (number_iff _ _ _).2 h1, (number_iff _ _ _).2 h2, (number_iff _ _ _).2 h3, Res.bind_ok]
    rfl
  have key2 : ShortMGtid s → parseMGtid s = .panic := by
    rintro (⟨d, h⟩ | ⟨d, n, a, b, h1, h2, rfl⟩)
    · simp only [parseMGtid, splitOn_of_not_mem _ _ (number_noDash h), (number_iff _ _ _).2 h, Res.bind_ok]
    · simp only [parseMGtid, splitOn_append_sep _ _ _ (number_noDash h1), splitOn_of_not_mem _ _ (number_noDash h2),
        (number_iff _ _ _).2 h1, (number_iff _ _ _).2 h2, Res.bind_ok]
  have hcut := (cut_iff '-' s _).2 rfl
  have bad : ∀ e, parseMGtid s = .err e →
      (∀ g, ¬ LooseMGtid g s) ∧ ¬ ShortMGtid s ∧ ∃ e, parseMGtid s = .err e := by
    intro e he
    refine ⟨fun g hg => ?_, fun h => ?_, e, he⟩
    · rw [key1 g hg] at he; cases he
    · rw [key2 h] at he; cases he
  have crash : ShortMGtid s → (∀ g, ¬ LooseMGtid g s) ∧ ShortMGtid s ∧ parseMGtid s = .panic := by
    intro h
    have := key2 h
    refine ⟨fun g hg => ?_, h, this⟩
    rw [key1 g hg] at this; cases this
  match hs : splitOn '-' s, hcut with
  | [], hcut => exact absurd hs (splitOn_ne_nil _ _)
  | [a], hcut =>
    have hsa : s = a := by rw [hcut.2.2]; simp [List.intercalate]
    rcases parseUnsigned_returns 32 a with ⟨x, hx⟩ | hx
    · exact .inr (.inr (crash (.inl ⟨x, by rw [hsa]; exact (number_iff _ _ _).1 hx⟩)))
    · exact .inr (.inl (bad .parseInt (by simp only [parseMGtid, hs, hx, Res.bind_err])))
  | [a, b], hcut =>
    have hsa : s = a ++ '-' :: b := by rw [hcut.2.2]; simp [List.intercalate]
    rcases parseUnsigned_returns 32 a with ⟨x, hx⟩ | hx
    · rcases parseUnsigned_returns 32 b with ⟨y, hy⟩ | hy
      · exact .inr (.inr (crash (.inr ⟨x, y, a, b, (number_iff _ _ _).1 hx, (number_iff _ _ _).1 hy, hsa⟩)))
      · exact .inr (.inl (bad .parseInt (by simp only [parseMGtid, hs, hx, hy, Res.bind_ok, Res.bind_err])))
    · exact .inr (.inl (bad .parseInt (by simp only [parseMGtid, hs, hx, Res.bind_err])))
  | a :: b :: c :: r, hcut =>
    rcases parseUnsigned_returns 32 a with ⟨x, hx⟩ | hx
    · rcases parseUnsigned_returns 32 b with ⟨y, hy⟩ | hy
      · rcases parseUnsigned_returns 64 c with ⟨z, hz⟩ | hz
        · have hl : LooseMGtid ⟨x, y, z⟩ s := by
            refine ⟨a, b, c, (number_iff _ _ _).1 hx, (number_iff _ _ _).1 hy, (number_iff _ _ _).1 hz, ?_⟩
            cases r with
            | nil => left; rw [hcut.2.2]; simp [List.intercalate]
            | cons d r => right; exact ⟨['-'].intercalate (d :: r), by rw [hcut.2.2]; simp [List.intercalate]⟩
          exact .inl ⟨_, hl, key1 _ hl⟩
        · exact .inr (.inl (bad .parseInt (by simp only [parseMGtid, hs, hx, hy, hz, Res.bind_ok, Res.bind_err])))
      · exact .inr (.inl (bad .parseInt (by simp only [parseMGtid, hs, hx, hy, Res.bind_ok, Res.bind_err])))
    · exact .inr (.inl (bad .parseInt (by simp only [parseMGtid, hs, hx, Res.bind_err])))

theorem looseMGtid_iff (g : MGtid) (s : RStr) : LooseMGtid g s ↔ parseMGtid s = .ok g := by
  constructor
  · intro h
    rcases mgtid_exact s with ⟨g', h1, h2⟩ | ⟨h1, -⟩ | ⟨h1, -⟩
    · obtain ⟨a, b, c, n1, n2, n3, hh⟩ := h
      have hs : ∃ r, splitOn '-' s = a :: b :: c :: r := by
        rcases hh with rfl | ⟨rest, rfl⟩
        · exact ⟨[], by rw [splitOn_append_sep _ _ _ (number_noDash n1), splitOn_append_sep _ _ _ (number_noDash n2),
            splitOn_of_not_mem _ _ (number_noDash n3)]⟩
        · exact ⟨splitOn '-' rest, by rw [splitOn_append_sep _ _ _ (number_noDash n1),
            splitOn_append_sep _ _ _ (number_noDash n2), splitOn_append_sep _ _ _ (number_noDash n3)]⟩
      obtain ⟨r, hr⟩ := hs
      simp only [parseMGtid, hr, (number_iff _ _ _).2 n1, (number_iff _ _ _).2 n2, (number_iff _ _ _).2 n3, Res.bind_ok]
      rfl
    · exact absurd h (h1 g)
    · exact absurd h (h1 g)
  · intro h
    rcases mgtid_exact s with ⟨g', h1, h2⟩ | ⟨-, -, e, h2⟩ | ⟨-, -, h2⟩
    · rw [h2] at h; injection h with h; subst h; exact h1
    · rw [h2] at h; cases h
    · rw [h2] at h; cases h

theorem shortMGtid_iff (s : RStr) : ShortMGtid s ↔ parseMGtid s = .panic := by
  rcases mgtid_exact s with ⟨g', h1, h2⟩ | ⟨-, h1, e, h2⟩ | ⟨-, h1, h2⟩
  · refine ⟨fun h => ?_, fun h => by rw [h2] at h; cases h⟩
    rcases h with ⟨d, h⟩ | ⟨d, n, a, b, n1, n2, rfl⟩
    · simp only [parseMGtid, splitOn_of_not_mem _ _ (number_noDash h), (number_iff _ _ _).2 h, Res.bind_ok]
    · simp only [parseMGtid, splitOn_append_sep _ _ _ (number_noDash n1), splitOn_of_not_mem _ _ (number_noDash n2),
        (number_iff _ _ _).2 n1, (number_iff _ _ _).2 n2, Res.bind_ok]
  · exact ⟨fun h => absurd h h1, fun h => by rw [h2] at h; cases h⟩
  · exact ⟨fun _ => h2, fun _ => h1⟩

/-- The domains of the GTIDs differ from one another and from `ds`. -/
def FreshDomains (gs : List MGtid) (ds : List Nat) : Prop :=
  (gs.map (·.domainId)).Nodup ∧ ∀ g ∈ gs, g.domainId ∉ ds

theorem freshDomains_cons (g : MGtid) (gs : List MGtid) (ds : List Nat) :
    FreshDomains (g :: gs) ds ↔ g.domainId ∉ ds ∧ FreshDomains gs (g.domainId :: ds) := by
  simp only [FreshDomains, List.map_cons, List.nodup_cons, List.mem_cons, not_or, List.mem_map, not_exists, not_and]
  constructor
  · rintro ⟨⟨h1, h2⟩, h3⟩
    exact ⟨h3 g (.inl rfl), h2, fun x hx => ⟨h1 x hx, h3 x (.inr hx)⟩⟩
  · rintro ⟨h1, h2, h3⟩
    refine ⟨⟨fun x hx => (h3 x hx).1, h2⟩, fun x hx => ?_⟩
    rcases hx with rfl | hx
    · exact h1
    · exact (h3 x hx).2

theorem parseMGtids_exact (qs : List RStr) (ds : List Nat) :
    (∀ gs, parseMGtids qs ds = .ok gs ↔ List.Forall₂ LooseMGtid gs qs ∧ FreshDomains gs ds) ∧
    (parseMGtids qs ds = .panic ↔ ∃ pre q post gs, qs = pre ++ q :: post ∧ List.Forall₂ LooseMGtid gs pre ∧
      FreshDomains gs ds ∧ ShortMGtid q) ∧ parseMGtids qs ds ≠ .hang := by
  induction qs generalizing ds with
  | nil =>
    refine ⟨fun gs => ?_, ⟨fun h => (by cases h), ?_⟩, by simp [parseMGtids]⟩
    · simp only [parseMGtids, Res.pure_eq, List.forall₂_nil_right_iff]
      constructor
      · intro h; injection h with h; subst h; exact ⟨rfl, by simp [FreshDomains]⟩
      · rintro ⟨rfl, -⟩; rfl
    · rintro ⟨pre, q, post, gs, h, -⟩; simp at h
  | cons q qs ih =>
    have hsplit : ∀ P : List RStr → RStr → List RStr → Prop, (∃ pre x post, q :: qs = pre ++ x :: post ∧ P pre x post) ↔
        P [] q qs ∨ ∃ pre x post, qs = pre ++ x :: post ∧ P (q :: pre) x post := by
      intro P
      constructor
      · rintro ⟨pre, x, post, h, hp⟩
        cases pre with
        | nil => simp at h; obtain ⟨rfl, rfl⟩ := h; exact .inl hp
        | cons y ys => simp at h; obtain ⟨rfl, h⟩ := h; exact .inr ⟨ys, x, post, h, hp⟩
      · rintro (h | ⟨pre, x, post, h, hp⟩)
        · exact ⟨[], q, qs, rfl, h⟩
        · exact ⟨q :: pre, x, post, by simp [h], hp⟩
    rcases mgtid_exact q with ⟨g, h1, h2⟩ | ⟨h1, h3, e, h2⟩ | ⟨h1, h3, h2⟩
    · obtain ⟨i1, i2, i3⟩ := ih (g.domainId :: ds)
      have huniq : ∀ g', LooseMGtid g' q → g' = g := fun g' hg' => by
        have := (looseMGtid_iff _ _).1 hg'
        rw [h2] at this; injection this with this; exact this.symm
      have hshort : ¬ ShortMGtid q := fun h => by rw [(shortMGtid_iff _).1 h] at h2; cases h2
      by_cases hd : g.domainId ∈ ds
      · have hp : parseMGtids (q :: qs) ds = .err (.str "GtidList must consist of unique domain ids") := by
          simp only [parseMGtids, h2, Res.bind_ok]; rw [if_pos (by simpa using hd)]
        rw [hp]
        refine ⟨fun gs => ⟨fun h => (by cases h), ?_⟩, ⟨fun h => (by cases h), ?_⟩, by simp⟩
        · rintro ⟨hf, hfr⟩
          cases hf with
          | cons a b =>
            rw [huniq _ a, freshDomains_cons] at hfr
            exact absurd hd hfr.1
        · rintro ⟨pre, x, post, gs, h, hf, hfr, hs⟩
          cases pre with
          | nil => simp at h; obtain ⟨rfl, rfl⟩ := h; exact absurd hs hshort
          | cons y ys =>
            simp at h
            obtain ⟨rfl, h⟩ := h
            cases hf with
            | cons a b =>
              rw [huniq _ a, freshDomains_cons] at hfr
              exact absurd hd hfr.1
      · have hp : parseMGtids (q :: qs) ds = (do let gs ← parseMGtids qs (g.domainId :: ds); return g :: gs) := by
          simp only [parseMGtids, h2, Res.bind_ok]; rw [if_neg (by simpa using hd)]
        rw [hp]
        refine ⟨fun gs => ⟨fun h => ?_, ?_⟩, ⟨fun h => ?_, ?_⟩, fun h => ?_⟩
        · cases hr : parseMGtids qs (g.domainId :: ds) with
          | ok gs' =>
            rw [hr] at h
            injection h with h; subst h
            obtain ⟨j1, j2⟩ := (i1 gs').1 hr
            exact ⟨.cons h1 j1, (freshDomains_cons _ _ _).2 ⟨hd, j2⟩⟩
          | err e => rw [hr] at h; cases h
          | panic => rw [hr] at h; cases h
          | hang => rw [hr] at h; cases h
        · rintro ⟨hf, hfr⟩
          cases hf with
          | @cons g' _ gs' _ a b =>
            have := huniq _ a; subst this
            rw [freshDomains_cons] at hfr
            rw [(i1 gs').2 ⟨b, hfr.2⟩]
            rfl
        · cases hr : parseMGtids qs (g.domainId :: ds) with
          | panic =>
            obtain ⟨pre, x, post, gs, k1, k2, k3, k4⟩ := i2.1 hr
            exact ⟨q :: pre, x, post, g :: gs, by simp [k1], .cons h1 k2, (freshDomains_cons _ _ _).2 ⟨hd, k3⟩, k4⟩
          | ok gs' => rw [hr] at h; cases h
          | err e => rw [hr] at h; cases h
          | hang => rw [hr] at h; cases h
        · rintro ⟨pre, x, post, gs, h, hf, hfr, hs⟩
          cases pre with
          | nil => simp at h; obtain ⟨rfl, rfl⟩ := h; exact absurd hs hshort
          | cons y ys =>
            simp at h
            obtain ⟨rfl, h⟩ := h
            cases hf with
            | cons a b =>
              rw [huniq _ a, freshDomains_cons] at hfr
              rw [i2.2 ⟨ys, x, post, _, h, b, hfr.2, hs⟩]
              rfl
        · cases hr : parseMGtids qs (g.domainId :: ds) with
          | hang => exact i3 hr
          | ok gs' => rw [hr] at h; cases h
          | err e => rw [hr] at h; cases h
          | panic => rw [hr] at h; cases h
    · have hp : parseMGtids (q :: qs) ds = .err e := by simp only [parseMGtids, h2, Res.bind_err]
      rw [hp]
      refine ⟨fun gs => ⟨fun h => (by cases h), ?_⟩, ⟨fun h => (by cases h), ?_⟩, by simp⟩
      · rintro ⟨hf, -⟩
        cases hf with
        | cons a b => exact absurd a (h1 _)
      · rintro ⟨pre, x, post, gs, h, hf, hfr, hs⟩
        cases pre with
        | nil => simp at h; obtain ⟨rfl, rfl⟩ := h; exact absurd hs h3
        | cons y ys =>
          simp at h
          obtain ⟨rfl, h⟩ := h
          cases hf with
          | cons a b => exact absurd a (h1 _)
    · have hp : parseMGtids (q :: qs) ds = .panic := by simp only [parseMGtids, h2, Res.bind_panic]
      rw [hp]
      refine ⟨fun gs => ⟨fun h => (by cases h), ?_⟩, ⟨fun _ => ?_, fun _ => rfl⟩, by simp⟩
      · rintro ⟨hf, -⟩
        cases hf with
        | cons a b => exact absurd a (h1 _)
      · exact ⟨[], q, qs, [], rfl, .nil, by simp [FreshDomains], h3⟩

theorem gtidList_parse_nonempty {t : RStr} (ht : t ≠ []) : GtidList.parse t =
    (do let r ← parseMGtids ((splitOn ',' (removeChar '\n' t)).map trim) []
        return { gtids := r }) := by
  unfold GtidList.parse
  rw [if_neg (by simpa using ht)]

/-- C78. `GtidList::parse` accepts the empty text and exactly the texts all of whose parts are three numbers (and perhaps more
components, which are ignored) with different domains, and gives exactly those GTIDs, in order. -/
theorem C78_accepts_iff (t : RStr) (l : GtidList) : GtidList.parse t = .ok l ↔
    (t = [] ∧ l.gtids = []) ∨ (t ≠ [] ∧ ∃ qs, Cleaned t qs ∧ List.Forall₂ LooseMGtid l.gtids qs ∧
      (l.gtids.map (·.domainId)).Nodup) := by
  by_cases ht : t = []
  · subst ht
    simp only [true_and, ne_eq, not_true_eq_false, false_and, or_false]
    constructor
    · intro h; injection h with h; subst h; rfl
    · intro h; rcases l with ⟨gs⟩; simp only at h; subst h; rfl
  · simp only [ht, false_and, ne_eq, not_false_eq_true, true_and, false_or]
    rw [gtidList_parse_nonempty ht]
    have hx := parseMGtids_exact ((splitOn ',' (removeChar '\n' t)).map trim) []
    constructor
    · intro h
      cases hr : parseMGtids ((splitOn ',' (removeChar '\n' t)).map trim) [] with
      | ok gs =>
        rw [hr] at h
        injection h with h; subst h
        obtain ⟨h1, h2⟩ := (hx.1 gs).1 hr
        exact ⟨_, (cleaned_iff _ _).2 rfl, h1, h2.1⟩
      | err e => rw [hr] at h; cases h
      | panic => rw [hr] at h; cases h
      | hang => rw [hr] at h; cases h
    · rintro ⟨qs, h1, h2, h3⟩
      rw [(cleaned_iff _ _).1 h1]
      rw [(cleaned_iff _ _).1 h1] at hx
      rw [(hx.1 _).2 ⟨h2, h3, by simp⟩]
      rfl

/-- C78. `GtidList::parse` crashes exactly if a part is one number or two, and all parts before it are accepted. -/
theorem C78_crashes_iff (t : RStr) : GtidList.parse t = .panic ↔
    t ≠ [] ∧ ∃ pre q post gs, Cleaned t (pre ++ q :: post) ∧ List.Forall₂ LooseMGtid gs pre ∧
      (gs.map (·.domainId)).Nodup ∧ ShortMGtid q := by
  by_cases ht : t = []
  · subst ht
    constructor
    · intro h; exact nomatch h
    · intro h; exact absurd rfl h.1
  · rw [gtidList_parse_nonempty ht]
    have hx := parseMGtids_exact ((splitOn ',' (removeChar '\n' t)).map trim) []
    constructor
    · intro h
      refine ⟨ht, ?_⟩
      cases hr : parseMGtids ((splitOn ',' (removeChar '\n' t)).map trim) [] with
      | panic =>
        obtain ⟨pre, q, post, gs, h1, h2, h3, h4⟩ := hx.2.1.1 hr
        exact ⟨pre, q, post, gs, (cleaned_iff _ _).2 h1, h2, h3.1, h4⟩
      | ok gs => rw [hr] at h; cases h
      | err e => rw [hr] at h; cases h
      | hang => rw [hr] at h; cases h
    · rintro ⟨-, pre, q, post, gs, h1, h2, h3, h4⟩
      rw [(cleaned_iff _ _).1 h1] at hx ⊢
      rw [hx.2.1.2 ⟨pre, q, post, gs, rfl, h2, ⟨h3, by simp⟩, h4⟩]
      rfl

/-- C78. `GtidList::parse` always ends: every other text is refused with an error. -/
theorem C78_otherwise_refused (t : RStr) : (∃ l, GtidList.parse t = .ok l) ∨ (∃ e, GtidList.parse t = .err e) ∨
    GtidList.parse t = .panic := by
  by_cases ht : t = []
  · subst ht; exact .inl ⟨_, rfl⟩
  · rw [gtidList_parse_nonempty ht]
    have hx := parseMGtids_exact ((splitOn ',' (removeChar '\n' t)).map trim) []
    cases hr : parseMGtids ((splitOn ',' (removeChar '\n' t)).map trim) [] with
    | ok gs => exact .inl ⟨_, rfl⟩
    | err e => exact .inr (.inl ⟨e, rfl⟩)
    | panic => exact .inr (.inr rfl)
    | hang => exact absurd hr hx.2.2

/-- A fourth component is ignored; numbers that do not fit, a domain named twice, and stray commas are refused; two numbers
crash. -/
example : GtidList.parse " 0-1-+2-x, 3-1-7".toList = .ok ⟨[⟨0, 1, 2⟩, ⟨3, 1, 7⟩]⟩ ∧
    GtidList.parse "4294967296-1-2".toList = .err .parseInt ∧
    GtidList.parse "0-1-2,0-1-3".toList = .err (.str "GtidList must consist of unique domain ids") ∧
    GtidList.parse "0-1-2,".toList = .err .parseInt ∧ GtidList.parse "0-1-2,5-6".toList = .panic := by
  decide +kernel

example : LooseMGtid ⟨0, 1, 2⟩ "0-1-+2-x".toList := (looseMGtid_iff _ _).2 (by decide)

example : ShortMGtid "5-6".toList := (shortMGtid_iff _).2 (by decide)

end MysqlCdc
