import Verif.Spec.GtidRefusal
import Verif.Props.GtidGrammar
/-!
# C92: with which error a GTID text is refused, exactly
-/

namespace MysqlCdc
open Spec

theorem noNumber_iff (bits : Nat) (s : RStr) : NoNumber bits s ↔ parseUnsigned bits s = .err .parseInt := by
  constructor
  · intro h
    rcases parseUnsigned_returns bits s with ⟨n, hn⟩ | hn
    · exact absurd ((number_iff _ _ _).1 hn) (h n)
    · exact hn
  · intro h n hn
    rw [(number_iff _ _ _).2 hn] at h
    cases h

theorem refusedInterval_iff (s : RStr) (e : Err) : parseInterval s = .err e ↔ RefusedInterval s e := by
  constructor
  · intro h
    unfold parseInterval at h
    split at h
    · rename_i a ha
      rcases parseUnsigned_returns 64 a with ⟨n, hn⟩ | hn
      · simp [hn] at h
      · simp only [hn, Res.bind_err] at h
        injection h with h; subst h
        exact .number [a] a ((cut_iff _ _ _).2 ha) (by simp) (by simp) ((noNumber_iff _ _).2 hn)
    · rename_i a b hab
      rcases parseUnsigned_returns 64 a with ⟨n, hn⟩ | hn
      · rcases parseUnsigned_returns 64 b with ⟨k, hk⟩ | hk
        · simp [hn, hk] at h
        · simp only [hn, hk, Res.bind_ok, Res.bind_err] at h
          injection h with h; subst h
          exact .number [a, b] b ((cut_iff _ _ _).2 hab) (by simp) (by simp) ((noNumber_iff _ _).2 hk)
      · simp only [hn, Res.bind_err] at h
        injection h with h; subst h
        exact .number [a, b] a ((cut_iff _ _ _).2 hab) (by simp) (by simp) ((noNumber_iff _ _).2 hn)
    · rename_i h1 h2
      injection h with h; subst h
      refine .shape _ ((cut_iff _ _ _).2 rfl) ?_
      match hs : splitOn '-' s with
      | [] => exact absurd hs (splitOn_ne_nil _ _)
      | [a] => exact absurd hs (h1 a)
      | [a, b] => exact absurd hs (h2 a b)
      | a :: b :: c :: r => simp
  · rintro (⟨cs, c, h1, h2, h3, h4⟩ | ⟨cs, h1, h2⟩)
    · have hc := (cut_iff _ _ _).1 h1
      have hb := (noNumber_iff _ _).1 h4
      unfold parseInterval
      rw [hc]
      match cs, h2 with
      | [], _ => simp at h3
      | [a], _ =>
        simp only [List.mem_singleton] at h3; subst h3
        simp only [hb, Res.bind_err]
      | [a, b], _ =>
        simp only [List.mem_cons, List.not_mem_nil, or_false] at h3
        rcases h3 with rfl | rfl
        · simp only [hb, Res.bind_err]
        · rcases parseUnsigned_returns 64 a with ⟨n, hn⟩ | hn
          · simp only [hn, hb, Res.bind_ok, Res.bind_err]
          · simp only [hn, Res.bind_err]
    · have hc := (cut_iff _ _ _).1 h1
      unfold parseInterval
      rw [hc]
      match cs, h2 with
      | a :: b :: c :: r, _ => rfl

theorem refusedIntervals_iff (toks : List RStr) (e : Err) : parseIntervals toks = .err e ↔
    ∃ pre s post, toks = pre ++ s :: post ∧ (∀ p ∈ pre, ∃ iv, LooseInterval iv p) ∧ RefusedInterval s e := by
  induction toks with
  | nil =>
    constructor
    · intro h; cases h
    · rintro ⟨pre, s, post, h, -⟩; simp at h
  | cons t ts ih =>
    rcases parseInterval_cases t with ⟨e', he⟩ | ⟨iv, h1, -⟩
    · simp only [parseIntervals, he, Res.bind_err]
      constructor
      · intro h
        injection h with h; subst h
        exact ⟨[], t, ts, rfl, by simp, (refusedInterval_iff _ _).1 he⟩
      · rintro ⟨pre, s, post, h, hp, hr⟩
        cases pre with
        | nil =>
          simp only [List.nil_append, List.cons.injEq] at h
          obtain ⟨rfl, rfl⟩ := h
          have := (refusedInterval_iff _ _).2 hr
          rw [he] at this
          injection this with this
          rw [this]
        | cons y ys =>
          simp only [List.cons_append, List.cons.injEq] at h
          obtain ⟨rfl, rfl⟩ := h
          obtain ⟨iv, hiv⟩ := hp t (by simp)
          rw [(looseInterval_iff _ _).2 hiv] at he
          cases he
    · have : parseIntervals (t :: ts) = .err e ↔ parseIntervals ts = .err e := by
        simp only [parseIntervals, h1, Res.bind_ok]
        rcases parseIntervals_cases ts with ⟨e', he'⟩ | ⟨ivs, h2, -⟩
        · simp [he']
        · simp [h2]
      rw [this, ih]
      constructor
      · rintro ⟨pre, s, post, rfl, hp, hr⟩
        refine ⟨t :: pre, s, post, rfl, fun p hp' => ?_, hr⟩
        rcases List.mem_cons.1 hp' with rfl | hp'
        · exact ⟨iv, (looseInterval_iff _ _).1 h1⟩
        · exact hp p hp'
      · rintro ⟨pre, s, post, h, hp, hr⟩
        cases pre with
        | nil =>
          simp only [List.nil_append, List.cons.injEq] at h
          obtain ⟨rfl, rfl⟩ := h
          rw [(refusedInterval_iff _ _).2 hr] at h1
          cases h1
        | cons y ys =>
          simp only [List.cons_append, List.cons.injEq] at h
          obtain ⟨rfl, rfl⟩ := h
          exact ⟨ys, s, post, rfl, fun p hp' => hp p (by simp [hp']), hr⟩

theorem refusedEntry_iff (m : Mode) (q : RStr) (e : Err) (hn : ∀ x, ¬ Taken m x q) (hc : ¬ Crashing m q) (rest : List RStr)
    (r : HMap RStr UuidSet) : parseUuidSets m (q :: rest) r = .err e ↔ RefusedEntry q e := by
  rcases hexDecode_returns ((q.take 36).filter (· ≠ '-')) with ⟨bs, hb⟩ | hb
  · by_cases hl : bs.length < 16
    · exact absurd (.inl ⟨bs, (hexDecode_iff _ _).1 hb, hl⟩) hc
    · have hu : Uuid.parse (q.take 36) = .ok ⟨bs.take 16, q.take 36⟩ := by
        simp only [Uuid.parse, removeChar_eq, hb, Res.bind_ok, hl, if_false, Res.pure_eq]
      have hex : HexOf (q.take 36) bs := (hexDecode_iff _ _).1 hb
      rcases parseIntervals_cases (splitOn ':' (q.drop 37)) with ⟨e', he⟩ | ⟨ivs, h1, -⟩
      · have hp : parseUuidSets m (q :: rest) r = .err e' := by
          simp only [parseUuidSets, show UUID_LENGTH = 36 from rfl, hu, Res.bind_ok, he, Res.bind_err]
        rw [hp]
        constructor
        · intro h
          injection h with h; subst h
          obtain ⟨pre, s, post, h2, h3, h4⟩ := (refusedIntervals_iff _ _).1 he
          exact .interval bs pre s post e' hex (by omega) ((cut_iff _ _ _).2 h2) h3 h4
        · rintro (h | ⟨data, pre, s, post, _, h2, h3, h4, h5, h6⟩)
          · exact absurd ⟨bs, hex⟩ h
          · have := (refusedIntervals_iff _ e).2 ⟨pre, s, post, (cut_iff _ _ _).1 h4, h5, h6⟩
            rw [he] at this
            injection this with this
            rw [this]
      · have hent : LooseEntry (⟨bs.take 16, q.take 36⟩, ivs) q :=
          ⟨((uuid_parse_ok_iff _ _).1 hu).1, ((uuid_parse_ok_iff _ _).1 hu).2, _, (cut_iff _ _ _).2 rfl,
            (looseIntervals_iff _ _).1 h1⟩
        by_cases hm : m.checks = true ∧ ReachesTop ivs
        · exact absurd (.inr ⟨hm.1, _, hent, hm.2⟩) hc
        · exact absurd ⟨hent, fun h h' => hm ⟨h, h'⟩⟩ (hn _)
  · have hp : parseUuidSets m (q :: rest) r = .err .fromHex := by
      simp only [parseUuidSets, show UUID_LENGTH = 36 from rfl, Uuid.parse, removeChar_eq, hb, Res.bind_err]
    have hno : ¬ ∃ data, HexOf (q.take 36) data := by
      rintro ⟨data, hd⟩
      rw [(hexDecode_iff _ _).2 hd] at hb
      cases hb
    rw [hp]
    constructor
    · intro h
      injection h with h; subst h
      exact .uuid hno
    · rintro (h | ⟨data, pre, s, post, _, h2, h3, h4, h5, h6⟩)
      · rfl
      · exact absurd ⟨data, h2⟩ hno

/-- A part that is refused is neither taken nor one that crashes. -/
theorem refusedEntry_not {m : Mode} {q : RStr} {e : Err} (h : RefusedEntry q e) : (∀ x, ¬ Taken m x q) ∧ ¬ Crashing m q := by
  have hloose : ∀ x, ¬ LooseEntry x q := by
    rintro x ⟨h1, ⟨-, extra, hx⟩, toks, h3, h4⟩
    rw [h1] at hx
    cases h with
    | uuid h => exact h ⟨_, hx⟩
    | interval data pre s post e h2 h5 h6 h7 h8 =>
      have := (refusedIntervals_iff _ e).2 ⟨pre, s, post, (cut_iff _ _ _).1 h6, h7, h8⟩
      rw [(cut_iff _ _ _).1 h3, (looseIntervals_iff _ _).2 h4] at this
      cases this
  refine ⟨fun x hx => hloose x hx.1, ?_⟩
  rintro (⟨data, hd, hl⟩ | ⟨-, x, hx, -⟩)
  · cases h with
    | uuid h => exact h ⟨_, hd⟩
    | interval data' pre s post e h2 h5 =>
      have a := (hexDecode_iff _ _).2 hd
      rw [(hexDecode_iff _ _).2 h2] at a
      injection a with a; subst a
      omega
  · exact hloose x hx

theorem refusedUuidSets_iff (m : Mode) (qs : List RStr) (r : HMap RStr UuidSet) (e : Err) : parseUuidSets m qs r = .err e ↔
    ∃ pre q post, qs = pre ++ q :: post ∧ (∀ p ∈ pre, ∃ x, Taken m x p) ∧ RefusedEntry q e := by
  induction qs generalizing r with
  | nil =>
    constructor
    · intro h; cases h
    · rintro ⟨pre, q, post, h, -⟩; simp at h
  | cons q qs ih =>
    cases part_result m q with
    | fine x s h ht hp hs =>
      rw [hp, ih]
      constructor
      · rintro ⟨pre, q', post, rfl, h1, h2⟩
        refine ⟨q :: pre, q', post, rfl, fun p hp' => ?_, h2⟩
        rcases List.mem_cons.1 hp' with rfl | hp'
        · exact ⟨x, h, ht⟩
        · exact h1 p hp'
      · rintro ⟨pre, q', post, h0, h1, h2⟩
        cases pre with
        | nil =>
          simp only [List.nil_append, List.cons.injEq] at h0
          obtain ⟨rfl, rfl⟩ := h0
          exact absurd ⟨h, ht⟩ ((refusedEntry_not (m := m) h2).1 x)
        | cons y ys =>
          simp only [List.cons_append, List.cons.injEq] at h0
          obtain ⟨rfl, rfl⟩ := h0
          exact ⟨ys, q', post, rfl, fun p hp' => h1 p (by simp [hp']), h2⟩
    | bad hn hs e' hp =>
      have hnt : ∀ x, ¬ Taken m x q := fun x hx => hn x hx.1
      have hnc : ¬ Crashing m q := by
        rintro (h | ⟨-, x, h, -⟩)
        · exact hs h
        · exact hn x h
      rw [refusedEntry_iff m q e hnt hnc]
      constructor
      · intro h
        exact ⟨[], q, qs, rfl, by simp, h⟩
      · rintro ⟨pre, q', post, h0, h1, h2⟩
        cases pre with
        | nil =>
          simp only [List.nil_append, List.cons.injEq] at h0
          obtain ⟨rfl, rfl⟩ := h0
          exact h2
        | cons y ys =>
          simp only [List.cons_append, List.cons.injEq] at h0
          obtain ⟨rfl, rfl⟩ := h0
          obtain ⟨x, hx⟩ := h1 q (by simp)
          exact absurd hx (hnt x)
    | crash h hp =>
      rw [hp]
      constructor
      · intro h'; cases h'
      · rintro ⟨pre, q', post, h0, h1, h2⟩
        cases pre with
        | nil =>
          simp only [List.nil_append, List.cons.injEq] at h0
          obtain ⟨rfl, rfl⟩ := h0
          exact absurd h (refusedEntry_not (m := m) h2).2
        | cons y ys =>
          simp only [List.cons_append, List.cons.injEq] at h0
          obtain ⟨rfl, rfl⟩ := h0
          obtain ⟨x, hx⟩ := h1 q (by simp)
          exact absurd hx (crashing_not_taken h x)

/-- C92. `GtidSet::parse` refuses a text exactly with the error of its first part that is no entry, when all parts before it are
taken: a `FromHex` error for the uuid, else the error of the first bad interval, which is a number error when the interval has one
or two components and says "Invalid interval format" when it has more. -/
theorem C92_mysql_refused_iff (m : Mode) (t : RStr) (e : Err) : GtidSet.parse m t = .err e ↔
    t ≠ [] ∧ ∃ pre q post, Cleaned t (pre ++ q :: post) ∧
      (∀ p ∈ pre, ∃ x, LooseEntry x p ∧ (m.checks = true → ¬ ReachesTop x.2)) ∧ RefusedEntry q e := by
  by_cases ht : t = []
  · subst ht
    exact ⟨fun h => (by cases h), fun h => absurd rfl h.1⟩
  · rw [gtidSet_parse_nonempty m ht]
    have : (do let r ← parseUuidSets m ((splitOn ',' (removeChar '\n' t)).map trim) []
               return ({ uuidSets := r } : GtidSet)) = .err e ↔
        parseUuidSets m ((splitOn ',' (removeChar '\n' t)).map trim) [] = .err e := by
      cases parseUuidSets m ((splitOn ',' (removeChar '\n' t)).map trim) [] <;> simp
    rw [this, refusedUuidSets_iff]
    simp only [ne_eq, ht, not_false_eq_true, true_and, cleaned_iff]
    rfl

/-! ## MariaDB -/

theorem refusedNumber_iff (s : RStr) (e : Err) : parseMGtid s = .err e ↔
    e = .parseInt ∧ ∃ cs i c, Cut '-' s cs ∧ i < 3 ∧ cs[i]? = some c ∧ NoNumber (componentBits i) c := by
  have key : ∀ cs : List RStr, splitOn '-' s = cs → (parseMGtid s = .err e ↔
      e = .parseInt ∧ ∃ i c, i < 3 ∧ cs[i]? = some c ∧ NoNumber (componentBits i) c) := by
    intro cs hs
    have idx : (∃ i c, i < 3 ∧ cs[i]? = some c ∧ NoNumber (componentBits i) c) ↔
        (∃ c, cs[0]? = some c ∧ parseUnsigned 32 c = .err .parseInt) ∨ (∃ c, cs[1]? = some c ∧ parseUnsigned 32 c = .err .parseInt) ∨
        ∃ c, cs[2]? = some c ∧ parseUnsigned 64 c = .err .parseInt := by
      simp only [noNumber_iff]
      constructor
      · rintro ⟨i, c, hi, h1, h2⟩
        match i, hi with
        | 0, _ => exact .inl ⟨c, h1, h2⟩
        | 1, _ => exact .inr (.inl ⟨c, h1, h2⟩)
        | 2, _ => exact .inr (.inr ⟨c, h1, h2⟩)
      · rintro (⟨c, h1, h2⟩ | ⟨c, h1, h2⟩ | ⟨c, h1, h2⟩)
        · exact ⟨0, c, by omega, h1, h2⟩
        · exact ⟨1, c, by omega, h1, h2⟩
        · exact ⟨2, c, by omega, h1, h2⟩
    rw [idx]
    match cs, hs with
    | [], hs => exact absurd hs (splitOn_ne_nil _ _)
    | [a], hs =>
      rcases parseUnsigned_returns 32 a with ⟨x, hx⟩ | hx <;> simp [parseMGtid, hs, hx, eq_comm]
    | [a, b], hs =>
      rcases parseUnsigned_returns 32 a with ⟨x, hx⟩ | hx <;> rcases parseUnsigned_returns 32 b with ⟨y, hy⟩ | hy <;>
        simp [parseMGtid, hs, hx, hy, eq_comm]
    | a :: b :: c :: r, hs =>
      rcases parseUnsigned_returns 32 a with ⟨x, hx⟩ | hx <;> rcases parseUnsigned_returns 32 b with ⟨y, hy⟩ | hy <;>
        rcases parseUnsigned_returns 64 c with ⟨z, hz⟩ | hz <;> simp [parseMGtid, hs, hx, hy, hz, eq_comm]
  rw [key _ rfl]
  constructor
  · rintro ⟨he, i, c, h1, h2, h3⟩
    exact ⟨he, _, i, c, (cut_iff _ _ _).2 rfl, h1, h2, h3⟩
  · rintro ⟨he, cs, i, c, h0, h1, h2, h3⟩
    rw [← (cut_iff _ _ _).1 h0] at h2
    exact ⟨he, i, c, h1, h2, h3⟩

theorem refusedMGtid_iff (ds : List Nat) (q : RStr) (e : Err) : RefusedMGtid ds q e ↔ parseMGtid q = .err e ∨
    ∃ g, parseMGtid q = .ok g ∧ g.domainId ∈ ds ∧ e = .str "GtidList must consist of unique domain ids" := by
  constructor
  · rintro (⟨cs, i, c, h1, h2, h3, h4⟩ | ⟨g, h1, h2⟩)
    · exact .inl ((refusedNumber_iff _ _).2 ⟨rfl, cs, i, c, h1, h2, h3, h4⟩)
    · exact .inr ⟨g, (looseMGtid_iff _ _).1 h1, h2, rfl⟩
  · rintro (h | ⟨g, h1, h2, rfl⟩)
    · obtain ⟨rfl, cs, i, c, h1, h2, h3, h4⟩ := (refusedNumber_iff _ _).1 h
      exact .number cs i c h1 h2 h3 h4
    · exact .domain g ((looseMGtid_iff _ _).2 h1) h2

theorem refusedMGtids_iff (qs : List RStr) (ds : List Nat) (e : Err) : parseMGtids qs ds = .err e ↔
    ∃ pre q post gs, qs = pre ++ q :: post ∧ List.Forall₂ LooseMGtid gs pre ∧ FreshDomains gs ds ∧
      RefusedMGtid (gs.map (·.domainId) ++ ds) q e := by
  induction qs generalizing ds with
  | nil =>
    constructor
    · intro h; cases h
    · rintro ⟨pre, q, post, gs, h, -⟩; simp at h
  | cons q qs ih =>
    have memiff : ∀ (g : MGtid) (gs : List MGtid) (x : RStr), RefusedMGtid ((g :: gs).map (·.domainId) ++ ds) x e ↔
        RefusedMGtid (gs.map (·.domainId) ++ g.domainId :: ds) x e := by
      intro g gs x
      simp only [refusedMGtid_iff, List.map_cons, List.cons_append, List.mem_cons, List.mem_append]
      constructor <;>
      · rintro (h | ⟨g', h1, h2, h3⟩)
        · exact .inl h
        · exact .inr ⟨g', h1, by tauto, h3⟩
    have split : (∃ pre x post gs, q :: qs = pre ++ x :: post ∧ List.Forall₂ LooseMGtid gs pre ∧ FreshDomains gs ds ∧
        RefusedMGtid (gs.map (·.domainId) ++ ds) x e) ↔ RefusedMGtid ds q e ∨ ∃ g, parseMGtid q = .ok g ∧ g.domainId ∉ ds ∧
        ∃ pre x post gs, qs = pre ++ x :: post ∧ List.Forall₂ LooseMGtid gs pre ∧ FreshDomains gs (g.domainId :: ds) ∧
          RefusedMGtid (gs.map (·.domainId) ++ g.domainId :: ds) x e := by
      constructor
      · rintro ⟨pre, x, post, gs, h, hf, hfr, hr⟩
        cases pre with
        | nil =>
          simp only [List.nil_append, List.cons.injEq] at h
          obtain ⟨rfl, rfl⟩ := h
          cases hf
          exact .inl hr
        | cons y ys =>
          simp only [List.cons_append, List.cons.injEq] at h
          obtain ⟨rfl, rfl⟩ := h
          cases hf with
          | @cons g _ gs' _ a b =>
            rw [freshDomains_cons] at hfr
            exact .inr ⟨g, (looseMGtid_iff _ _).1 a, hfr.1, ys, x, post, gs', rfl, b, hfr.2, (memiff _ _ _).1 hr⟩
      · rintro (h | ⟨g, hg, hd, pre, x, post, gs, rfl, hf, hfr, hr⟩)
        · exact ⟨[], q, qs, [], rfl, .nil, by simp [FreshDomains], h⟩
        · exact ⟨q :: pre, x, post, g :: gs, rfl, .cons ((looseMGtid_iff _ _).2 hg) hf, (freshDomains_cons _ _ _).2 ⟨hd, hfr⟩,
            (memiff _ _ _).2 hr⟩
    rw [split]
    simp only [← ih]
    rw [refusedMGtid_iff]
    cases hq : parseMGtid q with
    | ok g =>
      by_cases hd : g.domainId ∈ ds
      · have hp : parseMGtids (q :: qs) ds = .err (.str "GtidList must consist of unique domain ids") := by
          simp only [parseMGtids, hq, Res.bind_ok]; rw [if_pos (by simpa using hd)]
        rw [hp]
        constructor
        · intro h; injection h with h; subst h; exact .inl (.inr ⟨g, rfl, hd, rfl⟩)
        · rintro ((h | ⟨g', h1, h2, rfl⟩) | ⟨g', h1, h2, -⟩)
          · cases h
          · rfl
          · injection h1 with h1; subst h1; exact absurd hd h2
      · have hp : parseMGtids (q :: qs) ds = (do let gs ← parseMGtids qs (g.domainId :: ds); return g :: gs) := by
          simp only [parseMGtids, hq, Res.bind_ok]; rw [if_neg (by simpa using hd)]
        have hp' : parseMGtids (q :: qs) ds = .err e ↔ parseMGtids qs (g.domainId :: ds) = .err e := by
          rw [hp]
          cases parseMGtids qs (g.domainId :: ds) <;> simp
        rw [hp']
        constructor
        · intro h; exact .inr ⟨g, rfl, hd, h⟩
        · rintro ((h | ⟨g', h1, h2, rfl⟩) | ⟨g', h1, h2, h3⟩)
          · cases h
          · injection h1 with h1; subst h1; exact absurd h2 hd
          · injection h1 with h1; subst h1; exact h3
    | err e' => simp [parseMGtids, hq]
    | panic => simp [parseMGtids, hq]
    | hang => simp [parseMGtids, hq]

/-- C92. `GtidList::parse` refuses a text exactly with the error of its first bad part, when all parts before it are GTIDs of
different domains: a number error if one of its first three components is no number, or the complaint about a repeated domain. -/
theorem C92_mariadb_refused_iff (t : RStr) (e : Err) : GtidList.parse t = .err e ↔
    t ≠ [] ∧ ∃ pre q post gs, Cleaned t (pre ++ q :: post) ∧ List.Forall₂ LooseMGtid gs pre ∧
      (gs.map (·.domainId)).Nodup ∧ RefusedMGtid (gs.map (·.domainId)) q e := by
  by_cases ht : t = []
  · subst ht
    exact ⟨fun h => (by cases h), fun h => absurd rfl h.1⟩
  · rw [gtidList_parse_nonempty ht]
    have : (do let r ← parseMGtids ((splitOn ',' (removeChar '\n' t)).map trim) []
               return ({ gtids := r } : GtidList)) = .err e ↔
        parseMGtids ((splitOn ',' (removeChar '\n' t)).map trim) [] = .err e := by
      cases parseMGtids ((splitOn ',' (removeChar '\n' t)).map trim) [] <;> simp
    rw [this, refusedMGtids_iff]
    simp only [ne_eq, ht, not_false_eq_true, true_and, cleaned_iff, FreshDomains, List.not_mem_nil, implies_true, and_true,
      List.append_nil]

/-! Refused: a `g` in the uuid, an interval of three components after a good one, a number that does not fit; a repeated domain
after a good GTID, and a domain that is no number although two more components are missing. -/

example : GtidSet.parse ⟨true⟩ "24bc7850-2c16-11e6-a073-0242ac11000g:1".toList = .err .fromHex ∧
    GtidSet.parse ⟨true⟩ "24bc7850-2c16-11e6-a073-0242ac110001:1:2-3-4".toList = .err (.str "Invalid interval format") ∧
    GtidSet.parse ⟨true⟩ "24bc7850-2c16-11e6-a073-0242ac110001:1-18446744073709551616".toList = .err .parseInt ∧
    GtidList.parse "0-1-2,0-1-3".toList = .err (.str "GtidList must consist of unique domain ids") ∧
    GtidList.parse "x".toList = .err .parseInt := by
  decide +kernel

example : RefusedEntry "24bc7850-2c16-11e6-a073-0242ac110001:1:2-3-4".toList (.str "Invalid interval format") :=
  .interval exBytes ["1".toList] "2-3-4".toList [] _ ((hexDecode_iff _ _).1 (by decide +kernel)) (by decide)
    ((cut_iff _ _ _).2 (by decide))
    (fun p hp => by rw [List.mem_singleton.1 hp]; exact ⟨⟨1, 1⟩, (looseInterval_iff _ _).1 (by decide)⟩)
    (.shape ["2".toList, "3".toList, "4".toList] ((cut_iff _ _ _).2 (by decide)) (by decide))

end MysqlCdc
