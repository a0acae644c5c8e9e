import Verif.Lemmas.MariaText
/-!
# Which GTID texts cannot crash the parsers
-/

namespace MysqlCdc
open Spec

theorem splitOn_parts (sep : Char) (t : RStr) : ∃ p ps, splitOn sep t = p :: ps ∧
    (sep ∉ p ∧ ∃ b, t = p ++ b ∧ (b = [] ∨ ∃ b', b = sep :: b')) ∧
    ∀ q ∈ ps, sep ∉ q ∧ ∃ a b, t = (a ++ [sep]) ++ q ++ b ∧ (b = [] ∨ ∃ b', b = sep :: b') := by
  induction t with
  | nil => exact ⟨[], [], rfl, ⟨by simp, [], by simp⟩, by simp⟩
  | cons c cs ih =>
    obtain ⟨p, ps, h1, ⟨h2, b, h3, h4⟩, h5⟩ := ih
    by_cases hc : c = sep
    · subst hc
      refine ⟨[], p :: ps, by simp [splitOn, h1], ⟨by simp, c :: cs, by simp⟩, ?_⟩
      intro q hq
      rcases List.mem_cons.1 hq with rfl | hq
      · exact ⟨h2, [], b, by simp [← h3], h4⟩
      · obtain ⟨i1, a, b', i2, i3⟩ := h5 q hq
        exact ⟨i1, c :: a, b', by simp [i2], i3⟩
    · refine ⟨c :: p, ps, by simp only [splitOn, hc, if_false, h1], ⟨?_, b, by simp [← h3], h4⟩, ?_⟩
      · simp only [List.mem_cons, not_or]; exact ⟨fun h => hc h.symm, h2⟩
      · intro q hq
        obtain ⟨i1, a, b', i2, i3⟩ := h5 q hq
        exact ⟨i1, c :: a, b', by simp [i2], i3⟩

theorem isPart_of_mem_splitOn {sep : Char} {t p : RStr} (h : p ∈ splitOn sep t) : IsPart sep t p := by
  obtain ⟨q, ps, h1, ⟨h2, b, h3, h4⟩, h5⟩ := splitOn_parts sep t
  rw [h1] at h
  rcases List.mem_cons.1 h with rfl | h
  · exact ⟨h2, [], b, by simpa using h3, Or.inl rfl, h4⟩
  · obtain ⟨i1, a, b', i2, i3⟩ := h5 p h
    exact ⟨i1, a ++ [sep], b', i2, Or.inr ⟨a, rfl⟩, i3⟩

theorem isPart_infix {sep : Char} {t p : RStr} (h : IsPart sep t p) : p <:+: t := by
  obtain ⟨_, a, b, h, _⟩ := h
  exact ⟨a, b, h.symm⟩

theorem dropWhile_split {α : Type} (p : α → Bool) (s : List α) :
    ∃ l, s = l ++ s.dropWhile p ∧ (∀ c ∈ l, p c = true) ∧ ∀ c, (s.dropWhile p).head? = some c → p c = false := by
  refine ⟨s.takeWhile p, (List.takeWhile_append_dropWhile).symm, ?_, ?_⟩
  · intro c hc; exact List.all_eq_true.1 List.all_takeWhile c hc
  · intro c hc
    have := List.head?_dropWhile_not p s
    rw [hc] at this
    simpa using this

theorem trim_trimmed (s : RStr) : Trimmed s (trim s) := by
  obtain ⟨l, h1, h2, h3⟩ := dropWhile_split isWhitespace s
  obtain ⟨r, i1, i2, i3⟩ := dropWhile_split isWhitespace (s.dropWhile isWhitespace).reverse
  have e : s.dropWhile isWhitespace = trim s ++ r.reverse := by
    have := congrArg List.reverse i1
    simpa [trim] using this
  refine ⟨⟨l, r.reverse, ?_, ?_, ?_⟩, ?_, ?_⟩
  · rw [List.append_assoc, ← e]; exact h1
  · intro c hc; exact (blank_iff c).2 (h2 c hc)
  · intro c hc; exact (blank_iff c).2 (i2 c (by simpa using hc))
  · intro c hc
    rw [blank_iff, Bool.not_eq_true]
    apply h3 c
    rw [e, List.head?_append, hc]; rfl
  · intro c hc
    rw [blank_iff, Bool.not_eq_true]
    apply i3 c
    rwa [trim, List.getLast?_reverse] at hc

theorem trim_infix (s : RStr) : trim s <:+: s := by
  obtain ⟨⟨l, r, h, _⟩, _⟩ := trim_trimmed s
  exact ⟨l, r, h.symm⟩

theorem hexPairs_length {s : RStr} {bs : Bytes} (h : HexPairs s bs) : s.length = 2 * bs.length := by
  induction h with
  | nil => rfl
  | byte _ _ _ ih => simp [ih]; omega

theorem uuid_parse_returns (t : RStr) (h : 32 ≤ (t.filter (· ≠ '-')).length) : (Uuid.parse t).Returns := by
  unfold Uuid.parse
  rw [removeChar_eq]
  rcases hexDecode_returns (t.filter (· ≠ '-')) with ⟨bs, hb⟩ | hb
  · have := hexPairs_length ((hexDecode_iff _ _).1 hb)
    simp only [hb, Res.bind_ok]
    rw [if_neg (by omega)]
    exact trivial
  · simp only [hb, Res.bind_err]
    exact trivial

theorem parseDigits_some {bits : Nat} {s : RStr} {acc n : Nat} (h : parseDigits bits acc s = some n) :
    (∀ c ∈ s, c.isDigit = true) ∧ n = Nat.ofDigitChars 10 s acc := by
  induction s generalizing acc with
  | nil => simp [parseDigits] at h; simp [Nat.ofDigitChars, h]
  | cons c cs ih =>
    simp only [parseDigits] at h
    split at h
    · cases h
    · rename_i d hd
      obtain ⟨h1, h2⟩ := isDigit_of_digitVal hd
      split at h
      · obtain ⟨i1, i2⟩ := ih h
        refine ⟨?_, ?_⟩
        · intro x hx
          rcases List.mem_cons.1 hx with rfl | hx
          · exact h1
          · exact i1 x hx
        · rw [i2, Nat.ofDigitChars_cons, h2, Nat.mul_comm]; rfl
      · cases h

theorem parseDigits_bound {bits : Nat} {s : RStr} {acc n : Nat} (h : parseDigits bits acc s = some n)
    (ha : acc < 2 ^ bits) : n < 2 ^ bits := by
  induction s generalizing acc with
  | nil => simp [parseDigits] at h; omega
  | cons c cs ih =>
    simp only [parseDigits] at h
    split at h
    · cases h
    · split at h
      · exact ih h (by assumption)
      · cases h

theorem parseUnsigned_bound {bits : Nat} {s : RStr} {n : Nat} (h : parseUnsigned bits s = .ok n) : n < 2 ^ bits := by
  unfold parseUnsigned at h
  split at h
  · cases h
  · cases h
  · split at h
    · rename_i hp; injection h with h; subst h; exact parseDigits_bound hp (Nat.two_pow_pos _)
    · cases h
  · split at h
    · rename_i hp; injection h with h; subst h; exact parseDigits_bound hp (Nat.two_pow_pos _)
    · cases h

/-- A parsed number is written somewhere in the text. -/
theorem parseUnsigned_decimal {bits : Nat} {s : RStr} {n : Nat} (h : parseUnsigned bits s = .ok n) :
    ∃ d, d <:+: s ∧ Decimal n d := by
  unfold parseUnsigned at h
  split at h
  · cases h
  · cases h
  · rename_i cs hne
    split at h
    · rename_i k hp
      injection h with h; subst h
      obtain ⟨h1, h2⟩ := parseDigits_some hp
      refine ⟨cs, ⟨['+'], [], by simp⟩, ?_, h1, h2.symm⟩
      intro h0
      exact hne h0
    · cases h
  · rename_i h0 _ _
    split at h
    · rename_i k hp
      injection h with h; subst h
      obtain ⟨h1, h2⟩ := parseDigits_some hp
      exact ⟨s, List.infix_rfl, h0, h1, h2.symm⟩
    · cases h

theorem parseInterval_cases (t : RStr) : (∃ e, parseInterval t = .err e) ∨
    ∃ iv, parseInterval t = .ok iv ∧ iv.end < 2 ^ 64 ∧ ∃ d, d <:+: t ∧ Decimal iv.end d := by
  unfold parseInterval
  split
  · rename_i a ha
    rcases parseUnsigned_returns 64 a with ⟨n, hn⟩ | hn
    · right
      refine ⟨⟨n, n⟩, by simp [hn], parseUnsigned_bound hn, ?_⟩
      obtain ⟨d, hd, hdec⟩ := parseUnsigned_decimal hn
      exact ⟨d, hd.trans (isPart_infix (isPart_of_mem_splitOn (p := a) (by rw [ha]; simp))), hdec⟩
    · left; exact ⟨.parseInt, by simp only [hn, Res.bind_err]⟩
  · rename_i a b hab
    rcases parseUnsigned_returns 64 a with ⟨n, hn⟩ | hn
    · rcases parseUnsigned_returns 64 b with ⟨k, hk⟩ | hk
      · right
        refine ⟨⟨n, k⟩, by simp [hn, hk], parseUnsigned_bound hk, ?_⟩
        obtain ⟨d, hd, hdec⟩ := parseUnsigned_decimal hk
        exact ⟨d, hd.trans (isPart_infix (isPart_of_mem_splitOn (sep := '-') (p := b) (by rw [hab]; simp))), hdec⟩
      · left; exact ⟨.parseInt, by simp only [hn, hk, Res.bind_ok, Res.bind_err]⟩
    · left; exact ⟨.parseInt, by simp only [hn, Res.bind_err]⟩
  · left; exact ⟨_, rfl⟩

theorem parseIntervals_cases (ts : List RStr) : (∃ e, parseIntervals ts = .err e) ∨
    ∃ ivs, parseIntervals ts = .ok ivs ∧ ivs.length = ts.length ∧
      ∀ iv ∈ ivs, iv.end < 2 ^ 64 ∧ ∃ t ∈ ts, ∃ d, d <:+: t ∧ Decimal iv.end d := by
  induction ts with
  | nil => exact Or.inr ⟨[], rfl, rfl, by simp⟩
  | cons t ts ih =>
    rcases parseInterval_cases t with ⟨e, he⟩ | ⟨iv, h1, h2, h3⟩
    · exact Or.inl ⟨e, by simp only [parseIntervals, he, Res.bind_err]⟩
    · rcases ih with ⟨e, he⟩ | ⟨ivs, i1, i2, i3⟩
      · exact Or.inl ⟨e, by simp only [parseIntervals, h1, he, Res.bind_ok, Res.bind_err]⟩
      · refine Or.inr ⟨iv :: ivs, by simp only [parseIntervals, h1, i1, Res.bind_ok, Res.pure_eq], by simp [i2], ?_⟩
        intro x hx
        rcases List.mem_cons.1 hx with rfl | hx
        · exact ⟨h2, t, by simp, h3⟩
        · obtain ⟨j1, t', j2, j3⟩ := i3 x hx
          exact ⟨j1, t', by simp [j2], j3⟩

/-- Without overflow checks collapsing always ends with a list. -/
theorem collapseLoop_unchecked (m : Mode) (hm : m.checks = false) (l : List Interval) (i : Nat) :
    ∃ l', collapseLoop m l i = .ok l' := by
  induction hk : l.length - i using Nat.strongRecOn generalizing l i with
  | _ k ih =>
    unfold collapseLoop
    split
    · rename_i hi
      have hadd : ∃ e, addU m 64 l[i].end 1 = .ok e := by
        unfold addU
        split
        · exact ⟨_, rfl⟩
        · simp [hm]
      obtain ⟨e, he⟩ := hadd
      simp only [he]
      split
      · apply ih _ _ _ _ rfl
        rw [List.length_eraseIdx]; split <;> simp at * <;> omega
      · exact ih _ (by omega) _ _ rfl
    · exact ⟨_, rfl⟩

theorem uuidSet_new_returns (m : Mode) (u : Uuid) (ivs : List Interval) (h : m.checks = false ∨ InRange ivs) :
    ∃ s, UuidSet.new m u ivs = .ok s := by
  rcases h with h | h
  · unfold UuidSet.new
    split
    · rename_i hl
      have : ivs.isEmpty = false := by cases ivs <;> simp at hl ⊢
      obtain ⟨l', hl'⟩ := collapseLoop_unchecked m h ivs 0
      exact ⟨⟨u, l'⟩, by simp only [collapseIntervals, this]; simp [hl']⟩
    · exact ⟨_, rfl⟩
  · exact ⟨_, uuidSet_new_ok m u ivs h⟩

/-! ## Collapsing, with ids up to the largest number -/

theorem collapseLoop_step (m : Mode) (pre : List Interval) (a b : Interval) (r : List Interval) :
    collapseLoop m (pre ++ a :: b :: r) pre.length =
      match addU m 64 a.end 1 with
      | .ok e => if e = b.start then collapseLoop m (pre ++ { start := a.start, «end» := b.end } :: r) pre.length
          else collapseLoop m ((pre ++ [a]) ++ b :: r) (pre ++ [a]).length
      | .err e => .err e
      | .panic => .panic
      | .hang => .hang := by
  rw [collapseLoop]
  simp only [List.length_append, List.length_cons]
  rw [dif_pos (by omega)]
  have e1 : (pre ++ a :: b :: r)[pre.length]'(by simp) = a := by simp
  have e2 : (pre ++ a :: b :: r)[pre.length + 1]'(by simp) = b := by
    rw [List.getElem_append_right (by omega)]; simp
  have e3 : ((pre ++ a :: b :: r).set pre.length { start := a.start, «end» := b.end }).eraseIdx (pre.length + 1)
      = pre ++ { start := a.start, «end» := b.end } :: r := by
    rw [List.set_append_right _ _ (by omega)]
    rw [List.eraseIdx_append_of_length_le (by omega)]
    simp
  simp only [e1, e2, e3, List.length_nil, List.append_assoc, List.singleton_append]
  rfl

theorem collapseLoop_last (m : Mode) (pre : List Interval) (a : Interval) :
    collapseLoop m (pre ++ [a]) pre.length = .ok (pre ++ [a]) := by
  rw [collapseLoop, dif_neg (by simp)]

theorem reachesTop_cons (a b : Interval) (r : List Interval) :
    ReachesTop (a :: b :: r) ↔ a.end = 2 ^ 64 - 1 ∨ ReachesTop (b :: r) := by
  simp [ReachesTop]

theorem reachesTop_start (x y : Nat) (e : Nat) (r : List Interval) :
    ReachesTop (⟨x, e⟩ :: r) ↔ ReachesTop (⟨y, e⟩ :: r) := by
  cases r <;> simp [ReachesTop]

/-- With overflow checks collapsing crashes exactly if an interval up to `u64::MAX` is followed by another one. -/
theorem collapseLoop_top (m : Mode) (pre l : List Interval) (hr : ∀ iv ∈ l, iv.end < 2 ^ 64) :
    (m.checks = true ∧ ReachesTop l → collapseLoop m (pre ++ l) pre.length = .panic) ∧
    (¬ ReachesTop l → collapseLoop m (pre ++ l) pre.length = .ok (pre ++ collapseP l)) := by
  induction l using collapseP.induct generalizing pre with
  | case1 =>
    refine ⟨fun h => absurd h.2 (by simp [ReachesTop]), fun _ => ?_⟩
    unfold collapseLoop; rw [dif_neg (by simp)]; simp [collapseP]
  | case2 a =>
    refine ⟨fun h => absurd h.2 (by simp [ReachesTop]), fun _ => ?_⟩
    rw [collapseLoop_last]; simp [collapseP]
  | case3 a b r h ih =>
    have ha := hr a (by simp)
    have ih' := ih pre (by
      intro iv hiv
      rcases List.mem_cons.1 hiv with rfl | hiv
      · exact hr b (by simp)
      · exact hr iv (by simp [hiv]))
    rw [collapseLoop_step, reachesTop_cons]
    rw [reachesTop_start a.start b.start b.end r] at ih'
    have hcb : (⟨b.start, b.end⟩ : Interval) = b := rfl
    rw [hcb] at ih'
    refine ⟨fun ⟨hm, ht⟩ => ?_, fun ht => ?_⟩
    · by_cases hae : a.end = 2 ^ 64 - 1
      · rw [show addU m 64 a.end 1 = .panic from by unfold addU; rw [if_neg (by omega), if_pos hm]]
      · rw [show addU m 64 a.end 1 = .ok (a.end + 1) from by unfold addU; rw [if_pos (by omega)]]
        simp only [h, if_true]
        exact ih'.1 ⟨hm, ht.resolve_left hae⟩
    · rw [show addU m 64 a.end 1 = .ok (a.end + 1) from by unfold addU; rw [if_pos (by omega)]]
      simp only [h, if_true]
      rw [ih'.2 (fun h' => ht (.inr h'))]
      simp [collapseP, h]
  | case4 a b r h ih =>
    have ha := hr a (by simp)
    have ih' := ih (pre ++ [a]) (fun iv hiv => hr iv (by simp at hiv ⊢; right; exact hiv))
    rw [collapseLoop_step, reachesTop_cons]
    refine ⟨fun ⟨hm, ht⟩ => ?_, fun ht => ?_⟩
    · by_cases hae : a.end = 2 ^ 64 - 1
      · rw [show addU m 64 a.end 1 = .panic from by unfold addU; rw [if_neg (by omega), if_pos hm]]
      · rw [show addU m 64 a.end 1 = .ok (a.end + 1) from by unfold addU; rw [if_pos (by omega)]]
        simp only [h, if_false]
        exact ih'.1 ⟨hm, ht.resolve_left hae⟩
    · rw [show addU m 64 a.end 1 = .ok (a.end + 1) from by unfold addU; rw [if_pos (by omega)]]
      simp only [h, if_false]
      rw [ih'.2 (fun h' => ht (.inr h'))]
      simp [collapseP, h]

theorem uuidSet_new_top (m : Mode) (u : Uuid) (ivs : List Interval) (hr : ∀ iv ∈ ivs, iv.end < 2 ^ 64) :
    (m.checks = true ∧ ReachesTop ivs → UuidSet.new m u ivs = .panic) ∧
    (¬ ReachesTop ivs → UuidSet.new m u ivs = .ok ⟨u, collapseP ivs⟩) ∧
    (m.checks = false → ∃ s, UuidSet.new m u ivs = .ok s) := by
  refine ⟨fun h => ?_, fun h => ?_, fun h => uuidSet_new_returns m u ivs (.inl h)⟩
  · match ivs with
    | [] => exact absurd h.2 (by simp [ReachesTop])
    | [a] => exact absurd h.2 (by simp [ReachesTop])
    | a :: b :: r =>
      have := (collapseLoop_top m [] _ hr).1 h
      simp only [List.nil_append, List.length_nil] at this
      simp only [UuidSet.new, collapseIntervals, List.isEmpty_cons, this, List.length_cons]
      simp
  · match ivs with
    | [] => simp [UuidSet.new, collapseP]
    | [a] => simp [UuidSet.new, collapseP]
    | a :: b :: r =>
      have := (collapseLoop_top m [] _ hr).2 h
      simp only [List.nil_append, List.length_nil] at this
      simp only [UuidSet.new, collapseIntervals, List.isEmpty_cons, this, List.length_cons]
      simp

theorem parseUuidSets_returns (m : Mode) (parts : List RStr) (r : HMap RStr UuidSet)
    (hu : ∀ p ∈ parts, 32 ≤ ((p.take 36).filter (· ≠ '-')).length)
    (hi : m.checks = false ∨ ∀ p ∈ parts, ∀ d, d <:+: p → ¬ Decimal (2 ^ 64 - 1) d) :
    (parseUuidSets m parts r).Returns := by
  induction parts generalizing r with
  | nil => exact trivial
  | cons p parts ih =>
    simp only [parseUuidSets]
    have hret := uuid_parse_returns (p.take 36) (hu p (by simp))
    cases hp : Uuid.parse (p.take 36) with
    | panic => rw [hp] at hret; exact hret.elim
    | hang => rw [hp] at hret; exact hret.elim
    | err e => rw [show UUID_LENGTH = 36 from rfl, hp]; exact trivial
    | ok u =>
      rw [show UUID_LENGTH = 36 from rfl, hp]
      simp only [Res.bind_ok]
      rcases parseIntervals_cases (splitOn ':' (p.drop (36 + 1))) with ⟨e, he⟩ | ⟨ivs, h1, h2, h3⟩
      · rw [he]; exact trivial
      · rw [h1]
        simp only [Res.bind_ok]
        obtain ⟨s, hs⟩ := uuidSet_new_returns m u ivs (by
          rcases hi with h | h
          · exact Or.inl h
          · right
            intro iv hiv
            obtain ⟨j1, t, j2, d, j3, j4⟩ := h3 iv hiv
            by_cases he : iv.end = 2 ^ 64 - 1
            · exfalso
              rw [he] at j4
              exact h p (by simp) d (j3.trans ((isPart_infix (isPart_of_mem_splitOn j2)).trans (List.drop_suffix _ _).isInfix)) j4
            · omega)
        rw [hs]
        simp only [Res.bind_ok]
        apply ih _ (fun q hq => hu q (by simp [hq]))
        rcases hi with h | h
        · exact Or.inl h
        · exact Or.inr (fun q hq => h q (by simp [hq]))

theorem parseMGtid_returns (t : RStr) (h : 2 ≤ t.count '-') : (parseMGtid t).Returns := by
  have hlen : ∀ s : RStr, (splitOn '-' s).length = s.count '-' + 1 := by
    intro s
    induction s with
    | nil => rfl
    | cons c cs ih =>
      simp only [splitOn]
      split
      · rename_i hc; subst hc; simp [ih]
      · rename_i hc
        have hc' : (c == '-') = false := by simpa using hc
        cases hs : splitOn '-' cs with
        | nil => exact absurd hs (splitOn_ne_nil _ _)
        | cons p ps =>
          rw [hs] at ih
          simp only [List.length_cons] at ih ⊢
          simp [List.count_cons, hc', ← ih]
  unfold parseMGtid
  have hl := hlen t
  match hs : splitOn '-' t with
  | [] => rw [hs] at hl; simp at hl
  | [a] => rw [hs] at hl; simp at hl; omega
  | [a, b] => rw [hs] at hl; simp at hl; omega
  | a :: b :: c :: r =>
    simp only
    rcases parseUnsigned_returns 32 a with ⟨x, hx⟩ | hx
    · rcases parseUnsigned_returns 32 b with ⟨y, hy⟩ | hy
      · rcases parseUnsigned_returns 64 c with ⟨z, hz⟩ | hz
        · simp [hx, hy, hz, Res.Returns]
        · simp [hx, hy, hz, Res.Returns]
      · simp [hx, hy, Res.Returns]
    · simp [hx, Res.Returns]

theorem parseMGtids_returns (parts : List RStr) (ds : List Nat) (h : ∀ p ∈ parts, 2 ≤ p.count '-') :
    (parseMGtids parts ds).Returns := by
  induction parts generalizing ds with
  | nil => exact trivial
  | cons p parts ih =>
    simp only [parseMGtids]
    have hret := parseMGtid_returns p (h p (by simp))
    cases hp : parseMGtid p with
    | panic => rw [hp] at hret; exact hret
    | hang => rw [hp] at hret; exact hret
    | err e => exact trivial
    | ok g =>
      simp only [Res.bind_ok]
      split
      · exact trivial
      · have hr := ih (g.domainId :: ds) (fun q hq => h q (by simp [hq]))
        cases hq : parseMGtids parts (g.domainId :: ds) with
        | panic => rw [hq] at hr; exact hr
        | hang => rw [hq] at hr; exact hr
        | err e => exact trivial
        | ok gs => exact trivial

end MysqlCdc
