import Verif.Lemmas.GtidReturns
import Verif.Props.MysqlGtid
/-!
# GTID texts: C05, C06, C07, C13, C14, C15
-/

namespace MysqlCdc
open Spec

/-! ## C05 -/

theorem perm_map_exists {α β : Type} {f : α → β} {t s : List β} (h : t.Perm s) :
    ∀ l : List α, l.map f = t → ∃ l', l.Perm l' ∧ l'.map f = s := by
  induction h with
  | nil => intro l hl; exact ⟨l, .refl _, hl⟩
  | cons x _ ih =>
    intro l hl
    cases l with
    | nil => simp at hl
    | cons a l =>
      simp only [List.map_cons, List.cons.injEq] at hl
      obtain ⟨l', h1, h2⟩ := ih l hl.2
      exact ⟨a :: l', h1.cons a, by simp [h2, hl.1]⟩
  | swap x y r =>
    intro l hl
    match l, hl with
    | a :: b :: l, hl =>
      simp only [List.map_cons, List.cons.injEq] at hl
      exact ⟨b :: a :: l, .swap _ _ _, by simp [hl.1, hl.2.1, hl.2.2]⟩
  | trans _ _ ih1 ih2 =>
    intro l hl
    obtain ⟨l1, h1, h2⟩ := ih1 l hl
    obtain ⟨l2, h3, h4⟩ := ih2 l1 h2
    exact ⟨l2, h1.trans h3, h4⟩

theorem entryText_display {u : Uuid} (hu : UuidCanon u) {ivs : List Interval} (hne : ivs ≠ []) :
    EntryText (u, ivs) (UuidSet.display ⟨u, ivs⟩) := by
  refine ⟨UuidCanon_ok hu, ?_, hne, ivs.map Interval.display, ?_, ?_⟩
  · rw [hu.2]; exact uuidText_length _ hu.1
  · rw [List.forall₂_map_right_iff, List.forall₂_same]
    exact fun iv _ => intervalText_display iv
  · simp only [UuidSet.display, joinWith_eq]

/-- C05: the printed form of a canonical set parses back to the same entries (up to the order of the hash map), hence to a set
that stands for the same transactions and prints the same. -/
theorem C05_print_parse (m : Mode) (g : GtidSet) (hg : CanonSet g) (hne : ∀ e ∈ g.uuidSets, e.2.intervals ≠ [])
    (hr : ∀ e ∈ g.uuidSets, ∀ iv ∈ e.2.intervals, iv.end < 2 ^ 64) :
    ∃ g', GtidSet.parse m g.display = .ok g' ∧ g'.uuidSets.Perm g.uuidSets ∧
      (∀ u n, Has g' u n ↔ Has g u n) ∧ g'.display = g.display := by
  suffices h : ∃ g', GtidSet.parse m g.display = .ok g' ∧ g'.uuidSets.Perm g.uuidSets by
    obtain ⟨g', h1, h2⟩ := h
    refine ⟨g', h1, h2, ?_, ?_⟩
    · intro u n
      simp only [Has, h2.mem_iff]
    · unfold GtidSet.display
      have : (g'.uuidSets.values.map UuidSet.display).Perm (g.uuidSets.values.map UuidSet.display) := (h2.map _).map _
      rw [sortStrings_eq_of_perm this]
  by_cases hemp : g.uuidSets = []
  · refine ⟨GtidSet.new, ?_, by rw [hemp]; rfl⟩
    have : g.display = [] := by
      unfold GtidSet.display
      rw [hemp]; simp [HMap.values, sortStrings, joinWith]
    rw [this]; rfl
  · obtain ⟨l', hl1, hl2⟩ := perm_map_exists (f := fun e : RStr × UuidSet => e.2.display)
      (sortStrings_perm (g.uuidSets.values.map UuidSet.display)).symm g.uuidSets (by simp [HMap.values])
    have hdisp : g.display = joinWith ',' (l'.map (fun e => e.2.display)) := by
      unfold GtidSet.display; rw [hl2]
    have hl'ne : l' ≠ [] := by rintro rfl; exact hemp hl1.eq_nil
    have hmem : ∀ e ∈ l', e ∈ g.uuidSets := fun e he => hl1.mem_iff.2 he
    have hent : ∀ e ∈ l', EntryText (e.2.sourceId, e.2.intervals) e.2.display :=
      fun e he => entryText_display (hg.uuids e (hmem e he)).1 (hne e (hmem e he))
    have htext : SetText (l'.map (fun e => (e.2.sourceId, e.2.intervals))) g.display := by
      refine ⟨by simpa using hl'ne, l'.map (fun e => e.2.display), ?_, ?_⟩
      · rw [List.forall₂_map_left_iff, List.forall₂_map_right_iff, List.forall₂_same]
        intro e he
        exact ⟨[], e.2.display, [], by simp, by simp, by simp, hent e he⟩
      · rw [hdisp, ← joinWith_eq, List.filter_eq_self]
        intro c hc
        rcases mem_joinWith hc with rfl | ⟨p, hp, hcp⟩
        · rfl
        · obtain ⟨e, he, rfl⟩ := List.mem_map.1 hp
          simpa using (EntryText.chars (hent e he) c hcp).2.1
    have hcan : ∀ e ∈ l'.map (fun e => (e.2.sourceId, e.2.intervals)), Canonical e.2 ∧ (∀ iv ∈ e.2, iv.end < 2 ^ 64) := by
      intro e he
      obtain ⟨x, hx, rfl⟩ := List.mem_map.1 he
      exact ⟨hg.intervals x (hmem x hx), hr x (hmem x hx)⟩
    have hparse := gtidSet_parse_ok m htext (fun e he iv hiv => ⟨(hcan e he).1.1 iv hiv, (hcan e he).2 iv hiv⟩)
      (fun e he => by
        rw [collapseP_of_canonical _ (hcan e he).1]; exact uuidSet_new_canonical m _ _ (hcan e he).1 (hcan e he).2)
    refine ⟨_, hparse, ?_⟩
    have hkeys : (l'.map (·.1)).Nodup := (hl1.map _).nodup_iff.1 hg.wf.keys
    have heq : ((l'.map (fun e => (e.2.sourceId, e.2.intervals))).map (·.1.uuid)) = l'.map (·.1) := by
      rw [List.map_map]
      apply List.map_congr_left
      intro e he
      exact (hg.uuids e (hmem e he)).2.symm
    rw [insertAll_distinct _ [] (by simpa [heq] using hkeys)]
    have : (l'.map (fun e => (e.2.sourceId, e.2.intervals))).map
        (fun e => (e.1.uuid, (⟨e.1, collapseP e.2⟩ : UuidSet))) = l' := by
      rw [List.map_map]
      conv_rhs => rw [← List.map_id l']
      apply List.map_congr_left
      intro e he
      have h1 := (hg.uuids e (hmem e he)).2
      have h2 := collapseP_of_canonical _ (hg.intervals e (hmem e he))
      rcases e with ⟨k, s⟩
      simp only [Function.comp, id, h2]
      rw [← h1]
    simp only [List.nil_append, this]
    exact hl1.symm

example : CanonSet exSet ∧ (∀ e ∈ exSet.uuidSets, e.2.intervals ≠ []) ∧
    ∀ e ∈ exSet.uuidSets, ∀ iv ∈ e.2.intervals, iv.end < 2 ^ 64 := by
  refine ⟨⟨exSet_canonical, ?_, by decide⟩, by decide, by decide⟩
  intro e he
  simp only [exSet, List.mem_cons, List.not_mem_nil, or_false] at he
  rcases he with rfl | rfl
  · exact ⟨exUuid_canon, rfl⟩
  · exact ⟨exUuid2_canon, rfl⟩

/-! ## C06 -/

/-- What a text lists. -/
def Lists (es : List (Uuid × List Interval)) (server : Bytes) (n : Nat) : Prop :=
  ∃ e ∈ es, e.1.data = server ∧ InIvs n e.2

theorem has_map_iff (es : List (Uuid × List Interval)) (hv : ∀ e ∈ es, ∀ iv ∈ e.2, iv.start ≤ iv.end) (u : Bytes) (n : Nat) :
    Has ⟨es.map (fun e => (e.1.uuid, ⟨e.1, collapseP e.2⟩))⟩ u n ↔ Lists es u n := by
  simp only [Has, Lists, List.mem_map]
  constructor
  · rintro ⟨_, ⟨e, he, rfl⟩, h1, h2⟩
    exact ⟨e, he, h1, (collapseP_mem' _ (hv e he) n).1 h2⟩
  · rintro ⟨e, he, h1, h2⟩
    exact ⟨_, ⟨e, he, rfl⟩, h1, (collapseP_mem' _ (hv e he) n).2 h2⟩

/-- C06, partial: a text that names no server twice (the same characters) parses to a set standing for exactly what the text
lists, whatever the order of intervals, blanks around the entries and newlines anywhere. Missing from the full claim: texts
that repeat a server (false, see `C06_repeated_server_false`), and texts in which an interval up to `u64::MAX` is followed by
another interval of the same server (false, see `C06_after_the_top_false`). -/
theorem C06_parse_keeps_all_partial (m : Mode) (es : List (Uuid × List Interval)) (t : RStr) (ht : SetText es t)
    (hn : (es.map (·.1.uuid)).Nodup) (hv : ∀ e ∈ es, ∀ iv ∈ e.2, iv.start ≤ iv.end ∧ iv.end < 2 ^ 64)
    (htop : ∀ e ∈ es, ¬ ReachesTop e.2) : ∃ g, GtidSet.parse m t = .ok g ∧ ∀ u n, Has g u n ↔ Lists es u n := by
  refine ⟨_, gtidSet_parse_ok m ht hv
    (fun e he => (uuidSet_new_top m _ _ (fun iv hiv => (hv e he iv hiv).2)).2.1 (htop e he)), ?_⟩
  intro u n
  rw [insertAll_distinct _ [] (by simpa using hn)]
  exact has_map_iff es (fun e he iv hiv => (hv e he iv hiv).1) u n

theorem decimal_of {n : Nat} {s : RStr} (h : (s ≠ [] ∧ s.all Char.isDigit = true) ∧ Nat.ofDigitChars 10 s 0 = n) :
    Decimal n s := ⟨h.1.1, fun c hc => List.all_eq_true.1 h.1.2 c hc, h.2⟩

/-- Two servers, unordered intervals, leading zeros, blanks and newlines. -/
example : SetText [(exUuid, [⟨7, 9⟩, ⟨3, 3⟩]), (exUuid2, [⟨5, 5⟩])]
    " 24bc7850-2c16-\n11e6-a073-0242ac110001:7-9:3 ,\n24bc7850-2c16-11e6-a073-0242ac110002:005-5\n".toList := by
  refine ⟨by simp, [" 24bc7850-2c16-11e6-a073-0242ac110001:7-9:3 ".toList, "24bc7850-2c16-11e6-a073-0242ac110002:005-5".toList],
    .cons ⟨" ".toList, "24bc7850-2c16-11e6-a073-0242ac110001:7-9:3".toList, " ".toList, by decide, ?_, ?_,
      UuidCanon_ok exUuid_canon, by decide, by simp, ["7-9".toList, "3".toList], ?_, by decide⟩
    (.cons ⟨[], "24bc7850-2c16-11e6-a073-0242ac110002:005-5".toList, [], by decide, by simp, by simp,
      UuidCanon_ok exUuid2_canon, by decide, by simp, ["005-5".toList], ?_, by decide⟩ .nil), by decide⟩
  · intro c hc; rw [blank_iff]; revert c; decide
  · intro c hc; rw [blank_iff]; revert c; decide
  · exact .cons (.inr ⟨"7".toList, "9".toList, decimal_of (by decide), decimal_of (by decide), by decide⟩)
      (.cons (.inl ⟨rfl, decimal_of (by decide)⟩) .nil)
  · exact .cons (.inr ⟨"005".toList, "5".toList, decimal_of (by decide), decimal_of (by decide), by decide⟩) .nil

/-- C06 is false of the code when the text names a server twice: `uuid:1-3,uuid:7` loses the ids 1 to 3. -/
theorem C06_repeated_server_false : ∃ es t, SetText es t ∧
    (∀ e ∈ es, ∀ iv ∈ e.2, iv.start ≤ iv.end ∧ iv.end < 2 ^ 64 - 1) ∧
    ∀ m, ∃ g, GtidSet.parse m t = .ok g ∧ Lists es exBytes 1 ∧ ¬ Has g exBytes 1 := by
  refine ⟨[(exUuid, [⟨1, 3⟩]), (exUuid, [⟨7, 7⟩])],
    "24bc7850-2c16-11e6-a073-0242ac110001:1-3,24bc7850-2c16-11e6-a073-0242ac110001:7".toList, ?_, by decide, ?_⟩
  · refine ⟨by simp, ["24bc7850-2c16-11e6-a073-0242ac110001:1-3".toList, "24bc7850-2c16-11e6-a073-0242ac110001:7".toList],
      .cons ⟨[], "24bc7850-2c16-11e6-a073-0242ac110001:1-3".toList, [], by decide, by simp, by simp,
        UuidCanon_ok exUuid_canon, by decide, by simp, ["1-3".toList], ?_, by decide⟩
      (.cons ⟨[], "24bc7850-2c16-11e6-a073-0242ac110001:7".toList, [], by decide, by simp, by simp,
        UuidCanon_ok exUuid_canon, by decide, by simp, ["7".toList], ?_, by decide⟩ .nil), by decide⟩
    · exact .cons (.inr ⟨"1".toList, "3".toList, decimal_of (by decide), decimal_of (by decide), by decide⟩) .nil
    · exact .cons (.inl ⟨rfl, decimal_of (by decide)⟩) .nil
  · intro m
    refine ⟨⟨[(exUuid.uuid, ⟨exUuid, [⟨7, 7⟩]⟩)]⟩, ?_, ?_, ?_⟩
    · rcases m with ⟨_ | _⟩ <;> decide +kernel
    · exact ⟨_, List.mem_cons_self, rfl, ⟨1, 3⟩, by simp, by decide, by decide⟩
    · rintro ⟨e, he, _, iv, hiv, h1, h2⟩
      simp only [List.mem_singleton] at he
      subst he
      simp only [List.mem_singleton] at hiv
      subst hiv
      simp at h1

/-- C06 is false of the code when an interval up to `u64::MAX` is followed by another one: with overflow checks parsing crashes,
without them `5-18446744073709551615:0-3` becomes `5-3`, which holds no id at all. -/
theorem C06_after_the_top_false : ∃ es t, SetText es t ∧ (es.map (·.1.uuid)).Nodup ∧
    (∀ e ∈ es, ∀ iv ∈ e.2, iv.start ≤ iv.end ∧ iv.end < 2 ^ 64) ∧ Lists es exBytes 7 ∧
    GtidSet.parse ⟨true⟩ t = .panic ∧ ∃ g, GtidSet.parse ⟨false⟩ t = .ok g ∧ ∀ u n, ¬ Has g u n := by
  refine ⟨[(exUuid, [⟨5, 2 ^ 64 - 1⟩, ⟨0, 3⟩])],
    "24bc7850-2c16-11e6-a073-0242ac110001:5-18446744073709551615:0-3".toList, ?_, by simp, by decide, ?_,
    by decide +kernel, ⟨[(exUuid.uuid, ⟨exUuid, [⟨5, 3⟩]⟩)]⟩, by decide +kernel, ?_⟩
  · refine ⟨by simp, ["24bc7850-2c16-11e6-a073-0242ac110001:5-18446744073709551615:0-3".toList],
      .cons ⟨[], "24bc7850-2c16-11e6-a073-0242ac110001:5-18446744073709551615:0-3".toList, [], by decide, by simp, by simp,
        UuidCanon_ok exUuid_canon, by decide, by simp, ["5-18446744073709551615".toList, "0-3".toList], ?_, by decide⟩ .nil,
      by decide⟩
    exact .cons (.inr ⟨"5".toList, "18446744073709551615".toList, decimal_of (by decide), decimal_of (by decide), by decide⟩)
      (.cons (.inr ⟨"0".toList, "3".toList, decimal_of (by decide), decimal_of (by decide), by decide⟩) .nil)
  · exact ⟨_, List.mem_cons_self, rfl, ⟨5, 2 ^ 64 - 1⟩, by simp, by decide, by decide⟩
  · rintro u n ⟨e, he, _, iv, hiv, h1, h2⟩
    simp only [List.mem_singleton] at he
    subst he
    simp only [List.mem_singleton] at hiv
    subst hiv
    simp only at h1 h2
    omega

/-- C06. For every well-formed text (no interval up to `u64::MAX` followed by another one): of the entries that name a server with
the same characters exactly the last one is kept, with all its intervals. -/
theorem C06_last_entry_counts (m : Mode) (es : List (Uuid × List Interval)) (t : RStr) (ht : SetText es t)
    (hv : ∀ e ∈ es, ∀ iv ∈ e.2, iv.start ≤ iv.end ∧ iv.end < 2 ^ 64) (htop : ∀ e ∈ es, ¬ ReachesTop e.2) :
    ∃ g, GtidSet.parse m t = .ok g ∧ ∀ u n, Has g u n ↔
      ∃ pre e post, es = pre ++ e :: post ∧ (∀ e' ∈ post, e'.1.uuid ≠ e.1.uuid) ∧ e.1.data = u ∧ InIvs n e.2 := by
  refine ⟨_, gtidSet_parse_ok m ht hv
    (fun e he => (uuidSet_new_top m _ _ (fun iv hiv => (hv e he iv hiv).2)).2.1 (htop e he)), fun u n => ?_⟩
  simp only [Has]
  constructor
  · rintro ⟨⟨k, v⟩, h1, h2, h3⟩
    obtain ⟨pre, e, post, g1, g2, -, rfl⟩ := ((insertAll_mem es).2 k v).1 h1
    exact ⟨pre, e, post, g1, g2, h2, (collapseP_mem' _ (fun iv hiv => (hv e (by rw [g1]; simp) iv hiv).1) n).1 h3⟩
  · rintro ⟨pre, e, post, g1, g2, h2, h3⟩
    exact ⟨(e.1.uuid, ⟨e.1, collapseP e.2⟩), ((insertAll_mem es).2 _ _).2 ⟨pre, e, post, g1, g2, rfl, rfl⟩, h2,
      (collapseP_mem' _ (fun iv hiv => (hv e (by rw [g1]; simp) iv hiv).1) n).2 h3⟩

/-- C06. Intervals written in ascending order are put in canonical form: those that touch are joined. -/
theorem C06_parsed_canonical (m : Mode) (es : List (Uuid × List Interval)) (t : RStr) (ht : SetText es t)
    (ho : ∀ e ∈ es, Ordered e.2) (hr : ∀ e ∈ es, InRange e.2) :
    ∃ g, GtidSet.parse m t = .ok g ∧ ∀ e ∈ g.uuidSets, Canonical e.2.intervals ∧ e.1 = e.2.sourceId.uuid := by
  refine ⟨_, gtidSet_parse_ok m ht (fun e he iv hiv => ⟨(ho e he).1 iv hiv, by have := hr e he iv hiv; omega⟩)
    (fun e he => uuidSet_new_ok m _ _ (hr e he)), ?_⟩
  rintro ⟨k, v⟩ h1
  obtain ⟨pre, e, post, g1, -, rfl, rfl⟩ := ((insertAll_mem es).2 k v).1 h1
  exact ⟨collapseP_canonical _ (ho e (by rw [g1]; simp)), rfl⟩

/-- Intervals that touch, and a server named twice. -/
example : ∃ es t, SetText es t ∧ (∀ e ∈ es, Ordered e.2) ∧ (∀ e ∈ es, InRange e.2) ∧ es.length = 2 ∧ ∀ m,
    GtidSet.parse m t = .ok ⟨[(exUuid.uuid, ⟨exUuid, [⟨7, 9⟩]⟩)]⟩ := by
  refine ⟨[(exUuid, [⟨1, 3⟩]), (exUuid, [⟨7, 7⟩, ⟨8, 9⟩])],
    "24bc7850-2c16-11e6-a073-0242ac110001:1-3,24bc7850-2c16-11e6-a073-0242ac110001:7:8-9".toList, ?_, ?_, ?_, rfl, ?_⟩
  · refine ⟨by simp, ["24bc7850-2c16-11e6-a073-0242ac110001:1-3".toList, "24bc7850-2c16-11e6-a073-0242ac110001:7:8-9".toList],
      .cons ⟨[], "24bc7850-2c16-11e6-a073-0242ac110001:1-3".toList, [], by decide, by simp, by simp,
        UuidCanon_ok exUuid_canon, by decide, by simp, ["1-3".toList], ?_, by decide⟩
      (.cons ⟨[], "24bc7850-2c16-11e6-a073-0242ac110001:7:8-9".toList, [], by decide, by simp, by simp,
        UuidCanon_ok exUuid_canon, by decide, by simp, ["7".toList, "8-9".toList], ?_, by decide⟩ .nil), by decide⟩
    · exact .cons (.inr ⟨"1".toList, "3".toList, decimal_of (by decide), decimal_of (by decide), by decide⟩) .nil
    · exact .cons (.inl ⟨rfl, decimal_of (by decide)⟩)
        (.cons (.inr ⟨"8".toList, "9".toList, decimal_of (by decide), decimal_of (by decide), by decide⟩) .nil)
  · intro e he
    simp only [List.mem_cons, List.not_mem_nil, or_false] at he
    rcases he with rfl | rfl <;> simp [Ordered]
  · intro e he
    simp only [List.mem_cons, List.not_mem_nil, or_false] at he
    rcases he with rfl | rfl <;> simp [InRange]
  · rintro ⟨_ | _⟩ <;> decide +kernel

/-! ## C07 -/

/-- C07 is false of the code: a short uuid crashes `GtidSet::parse`, a GTID with too few dashes crashes `GtidList::parse`, a
text of one newline crashes the first, and with overflow checks an interval up to `u64::MAX` followed by another one does. -/
theorem C07_malformed_text_panics_false :
    (∀ m, GtidSet.parse m "24bc7850-2c16:1-3".toList = .err .fromHex) ∧
    (∀ m, GtidSet.parse m "24bc7850".toList = .panic) ∧
    (∀ m, GtidSet.parse m "\n".toList = .panic) ∧
    GtidSet.parse ⟨true⟩ "24bc7850-2c16-11e6-a073-0242ac110001:1-18446744073709551615:5".toList = .panic ∧
    GtidList.parse "0-1".toList = .panic ∧ GtidList.parse "7".toList = .panic := by
  refine ⟨?_, ?_, ?_, by decide +kernel, by decide +kernel, by decide +kernel⟩
  all_goals (rintro ⟨_ | _⟩ <;> decide +kernel)

/-- C07, partial, `GtidSet::parse`: a text each of whose comma-separated parts has at least 32 characters other than dashes
among the first 36 (after trimming) gives `Ok` or `Err`; with overflow checks on, the text must also not contain the number
2^64-1. The empty text is always fine. Missing: all other texts (false, see above). -/
theorem C07_gtid_set_returns_partial (m : Mode) (t : RStr)
    (hu : ∀ p q, IsPart ',' (t.filter (· ≠ '\n')) p → Trimmed p q → 32 ≤ ((q.take 36).filter (· ≠ '-')).length)
    (hi : m.checks = false ∨ ∀ d, d <:+: t.filter (· ≠ '\n') → ¬ Decimal (2 ^ 64 - 1) d) :
    (GtidSet.parse m t).Returns := by
  unfold GtidSet.parse
  split
  · exact trivial
  · have h := parseUuidSets_returns m ((splitOn ',' (removeChar '\n' t)).map trim) [] (by
      intro q hq
      obtain ⟨p, hp, rfl⟩ := List.mem_map.1 hq
      exact hu p _ (isPart_of_mem_splitOn hp) (trim_trimmed p)) (by
      rcases hi with h | h
      · exact Or.inl h
      · refine Or.inr fun q hq d hd => h d ?_
        obtain ⟨p, hp, rfl⟩ := List.mem_map.1 hq
        exact hd.trans ((trim_infix p).trans (isPart_infix (isPart_of_mem_splitOn hp))))
    simp only
    revert h
    cases parseUuidSets m ((splitOn ',' (removeChar '\n' t)).map trim) [] <;> exact id

/-- The hypothesis is met by every 36 character uuid followed by any garbage without commas, blanks and newlines. -/
example (tail : RStr) (h : ∀ c ∈ tail, c ≠ ',' ∧ c ≠ '\n' ∧ ¬ Blank c) :
    ∀ p q, IsPart ',' ((exUuid.uuid ++ tail).filter (· ≠ '\n')) p → Trimmed p q →
      32 ≤ ((q.take 36).filter (· ≠ '-')).length := by
  have hchars : ∀ c ∈ exUuid.uuid ++ tail, c ≠ ',' ∧ c ≠ '\n' ∧ ¬ Blank c := by
    intro c hc
    rcases List.mem_append.1 hc with hc | hc
    · have := uuidOk_chars (UuidCanon_ok exUuid_canon) c hc
      refine ⟨this.1, this.2.2.1, ?_⟩
      rw [blank_iff, this.2.2.2]; decide
    · exact h c hc
  rintro p q ⟨hp, a, b, hab, ha, hb⟩ ⟨⟨l, r, hlr, hl, hr⟩, _⟩
  rw [List.filter_eq_self.2 (by intro c hc; simpa using (hchars c hc).2.1)] at hab
  have ha' : a = [] := by
    rcases ha with h | ⟨a', rfl⟩
    · exact h
    · exact absurd rfl (hchars ',' (by rw [hab]; simp)).1
  have hb' : b = [] := by
    rcases hb with h | ⟨b', rfl⟩
    · exact h
    · exact absurd rfl (hchars ',' (by rw [hab]; simp)).1
  subst ha' hb'
  simp only [List.nil_append, List.append_nil] at hab
  have hl' : l = [] := by
    cases l with
    | nil => rfl
    | cons c l => exact absurd (hl c (by simp)) (hchars c (by rw [hab, hlr]; simp)).2.2
  have hr' : r = [] := by
    cases r with
    | nil => rfl
    | cons c r => exact absurd (hr c (by simp)) (hchars c (by rw [hab, hlr]; simp)).2.2
  subst hl' hr'
  simp only [List.nil_append, List.append_nil] at hlr
  rw [← hlr, ← hab, List.take_append_of_le_length (by decide)]
  decide

/-- C07, partial, `GtidList::parse`: a text each of whose comma-separated parts has at least two dashes gives `Ok` or `Err`.
Missing: parts with fewer dashes (false, see above). -/
theorem C07_gtid_list_returns_partial (t : RStr)
    (h : ∀ p q, IsPart ',' (t.filter (· ≠ '\n')) p → Trimmed p q → 2 ≤ q.count '-') : (GtidList.parse t).Returns := by
  unfold GtidList.parse
  split
  · exact trivial
  · have h := parseMGtids_returns ((splitOn ',' (removeChar '\n' t)).map trim) [] (by
      intro q hq
      obtain ⟨p, hp, rfl⟩ := List.mem_map.1 hq
      exact h p _ (isPart_of_mem_splitOn hp) (trim_trimmed p))
    simp only
    revert h
    cases parseMGtids ((splitOn ',' (removeChar '\n' t)).map trim) [] <;> exact id

example : ∀ p q, IsPart ',' ("x-y-z-".toList.filter (· ≠ '\n')) p → Trimmed p q → 2 ≤ q.count '-' := by
  rintro p q ⟨hp, a, b, hab, ha, hb⟩ ⟨⟨l, r, hlr, hl, hr⟩, _⟩
  have e : "x-y-z-".toList.filter (· ≠ '\n') = "x-y-z-".toList := by decide
  rw [e] at hab
  have ha' : a = [] := by
    rcases ha with h | ⟨a', rfl⟩
    · exact h
    · have : ',' ∈ "x-y-z-".toList := by rw [hab]; simp
      exact absurd this (by decide)
  have hb' : b = [] := by
    rcases hb with h | ⟨b', rfl⟩
    · exact h
    · have : ',' ∈ "x-y-z-".toList := by rw [hab]; simp
      exact absurd this (by decide)
  subst ha' hb'
  simp only [List.nil_append, List.append_nil] at hab
  have hnb : ∀ c ∈ "x-y-z-".toList, ¬ Blank c := by intro c hc; rw [blank_iff]; revert c; decide
  have hl' : l = [] := by
    cases l with
    | nil => rfl
    | cons c l => exact absurd (hl c (by simp)) (hnb c (by rw [hab, hlr]; simp))
  have hr' : r = [] := by
    cases r with
    | nil => rfl
    | cons c r => exact absurd (hr c (by simp)) (hnb c (by rw [hab, hlr]; simp))
  subst hl' hr'
  simp only [List.nil_append, List.append_nil] at hlr
  rw [← hlr, ← hab]
  decide

/-! ## C13 - C15 -/

/-- A history of `GtidList::add_gtid` calls. -/
def addAllM (l : GtidList) (xs : List MGtid) : GtidList := xs.foldl (fun l x => (l.addGtid x).2) l

theorem addGtid_gtids (l : GtidList) (g : MGtid) : (l.addGtid g).2.gtids = (addMGtid g l.gtids).2 := rfl

/-- `g` is the last GTID of its domain in the history. -/
def LastOf (xs : List MGtid) (g : MGtid) : Prop :=
  ∃ a b, xs = a ++ g :: b ∧ ∀ y ∈ b, y.domainId ≠ g.domainId

theorem C14_history_distinct (l : GtidList) (xs : List MGtid) (h : (l.gtids.map (·.domainId)).Nodup) :
    ((addAllM l xs).gtids.map (·.domainId)).Nodup := by
  induction xs generalizing l with
  | nil => exact h
  | cons x xs ih => exact ih _ (by rw [addGtid_gtids]; exact addMGtid_nodup x _ h)

/-- C13: after any history the list holds, for each domain mentioned, exactly the last GTID added for it, and for each other
domain what it held before. -/
theorem C13_last_of_each_domain (l : GtidList) (xs : List MGtid) (h : (l.gtids.map (·.domainId)).Nodup) (g : MGtid) :
    g ∈ (addAllM l xs).gtids ↔ LastOf xs g ∨ (g ∈ l.gtids ∧ ∀ y ∈ xs, y.domainId ≠ g.domainId) := by
  induction xs generalizing l with
  | nil => simp [addAllM, LastOf]
  | cons x xs ih =>
    have e : addAllM l (x :: xs) = addAllM (l.addGtid x).2 xs := rfl
    rw [e, ih _ (by rw [addGtid_gtids]; exact addMGtid_nodup x _ h), addGtid_gtids, addMGtid_mem x g _ h]
    constructor
    · rintro (⟨a, b, rfl, hb⟩ | ⟨rfl | ⟨h1, h2⟩, h3⟩)
      · exact Or.inl ⟨x :: a, b, rfl, hb⟩
      · exact Or.inl ⟨[], xs, rfl, h3⟩
      · refine Or.inr ⟨h2, ?_⟩
        intro y hy
        rcases List.mem_cons.1 hy with rfl | hy
        · exact fun e => h1 e.symm
        · exact h3 y hy
    · rintro (⟨a, b, hab, hb⟩ | ⟨h1, h2⟩)
      · cases a with
        | nil =>
          simp only [List.nil_append, List.cons.injEq] at hab
          obtain ⟨rfl, rfl⟩ := hab
          exact Or.inr ⟨Or.inl rfl, hb⟩
        | cons a0 a =>
          simp only [List.cons_append, List.cons.injEq] at hab
          exact Or.inl ⟨a, b, hab.2, hb⟩
      · refine Or.inr ⟨Or.inr ⟨fun e => h2 x (by simp) e.symm, h1⟩, fun y hy => h2 y (by simp [hy])⟩

/-- C13, the answer of one call: `true` exactly for a new domain. -/
theorem C13_reports_new_domain (l : GtidList) (g : MGtid) :
    (l.addGtid g).1 = true ↔ ∀ x ∈ l.gtids, x.domainId ≠ g.domainId := by
  have := addMGtid_fst g l.gtids
  simp only [GtidList.addGtid]
  rw [this, List.mem_map]
  simp

example : ((⟨[⟨0, 1, 5⟩, ⟨2, 1, 7⟩]⟩ : GtidList).gtids.map (·.domainId)).Nodup ∧
    LastOf [⟨2, 9, 8⟩, ⟨3, 1, 1⟩, ⟨2, 9, 9⟩, ⟨3, 1, 2⟩] ⟨2, 9, 9⟩ :=
  ⟨by decide, [⟨2, 9, 8⟩, ⟨3, 1, 1⟩], [⟨3, 1, 2⟩], rfl, by decide⟩

/-- C14: whatever text `GtidList::parse` accepts, the domains of the result are distinct. -/
theorem C14_parse_distinct (t : RStr) (l : GtidList) (h : GtidList.parse t = .ok l) :
    (l.gtids.map (·.domainId)).Nodup := by
  unfold GtidList.parse at h
  split at h
  · simp only [Res.pure_eq, Res.ok.injEq] at h; subst h; simp [GtidList.new]
  · cases hp : parseMGtids ((splitOn ',' (removeChar '\n' t)).map trim) [] with
    | err => simp [hp] at h
    | panic => simp [hp] at h
    | hang => simp [hp] at h
    | ok gs =>
      simp only [hp, Res.bind_ok, Res.pure_eq, Res.ok.injEq] at h
      subst h
      exact (parseMGtids_nodup hp).1

example : GtidList.parse "1-2-3, 2-2-9".toList = .ok ⟨[⟨1, 2, 3⟩, ⟨2, 2, 9⟩]⟩ := by decide +kernel

/-- C14: a text that repeats a domain is refused with an error. -/
theorem C14_repeated_domain_rejected (gs : List MGtid) (t : RStr) (ht : ListText gs t) (hr : ∀ g ∈ gs, MGtidRange g)
    (hd : ¬ (gs.map (·.domainId)).Nodup) : ∃ e, GtidList.parse t = .err e := by
  obtain ⟨h1, h2⟩ := listText_parts ht
  obtain ⟨e, he⟩ := parseMGtids_dup h2 hr [] (fun h => hd h.1)
  exact ⟨e, by simp [GtidList.parse, h1, he]⟩

theorem exListText : ListText [⟨1, 2, 3⟩, ⟨1, 4, 9⟩] " 1-02-3,\n1-4-9 ".toList := by
  refine ⟨by simp, [" 1-02-3".toList, "1-4-9 ".toList],
    .cons ⟨" ".toList, "1-02-3".toList, [], by decide, ?_, by simp, "1".toList, "02".toList, "3".toList,
      decimal_of (by decide), decimal_of (by decide), decimal_of (by decide), by decide⟩
    (.cons ⟨[], "1-4-9".toList, " ".toList, by decide, by simp, ?_, "1".toList, "4".toList, "9".toList,
      decimal_of (by decide), decimal_of (by decide), decimal_of (by decide), by decide⟩ .nil), by decide⟩
  · intro c hc; rw [blank_iff]; revert c; decide
  · intro c hc; rw [blank_iff]; revert c; decide

example : (∀ g ∈ [(⟨1, 2, 3⟩ : MGtid), ⟨1, 4, 9⟩], MGtidRange g) ∧
    ¬ ([(⟨1, 2, 3⟩ : MGtid), ⟨1, 4, 9⟩].map (·.domainId)).Nodup := by
  refine ⟨?_, by decide⟩
  simp [MGtidRange]

/-- C15: any text of a list of GTIDs with distinct domains, with blanks around them and newlines anywhere, parses to that
list. -/
theorem C15_parse_text (gs : List MGtid) (t : RStr) (ht : ListText gs t) (hr : ∀ g ∈ gs, MGtidRange g)
    (hd : (gs.map (·.domainId)).Nodup) : GtidList.parse t = .ok ⟨gs⟩ := by
  obtain ⟨h1, h2⟩ := listText_parts ht
  have := parseMGtids_ok h2 hr [] hd (by simp)
  simp [GtidList.parse, h1, this]

/-- C15: the printed form parses back to the same list. -/
theorem C15_print_parse (l : GtidList) (hr : ∀ g ∈ l.gtids, MGtidRange g) (hd : (l.gtids.map (·.domainId)).Nodup) :
    GtidList.parse l.display = .ok l := by
  by_cases he : l.gtids = []
  · rcases l with ⟨gs⟩
    simp only at he
    subst he
    rfl
  · have : ListText l.gtids l.display := by
      refine ⟨he, l.gtids.map MGtid.display, ?_, ?_⟩
      · rw [List.forall₂_map_right_iff, List.forall₂_same]
        intro g _
        exact ⟨[], g.display, [], by simp, by simp, by simp, mgtidText_display g⟩
      · rw [GtidList.display, ← joinWith_eq, List.filter_eq_self]
        intro c hc
        rcases mem_joinWith hc with rfl | ⟨p, hp, hcp⟩
        · rfl
        · obtain ⟨g, _, rfl⟩ := List.mem_map.1 hp
          simpa using ((MGtidText.chars (mgtidText_display g)).2 c hcp).2.1
    exact C15_parse_text _ _ this hr hd

example : (∀ g ∈ [(⟨0, 2, 3⟩ : MGtid), ⟨4294967295, 4, 18446744073709551615⟩], MGtidRange g) ∧
    ([(⟨0, 2, 3⟩ : MGtid), ⟨4294967295, 4, 18446744073709551615⟩].map (·.domainId)).Nodup := by
  refine ⟨?_, by decide⟩
  simp [MGtidRange]

end MysqlCdc
