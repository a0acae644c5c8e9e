import Verif.Lemmas.Cells
import Mathlib.Data.List.Induction
/-!
# Round-trip of DECIMAL
-/

namespace MysqlCdc

open Spec

/-! ## Digits -/

theorem digitsValue_snoc (ds : List Nat) (d : Nat) : digitsValue (ds ++ [d]) = 10 * digitsValue ds + d := by
  simp [digitsValue, Nat.mul_comm]

theorem digitsValue_foldl (ds : List Nat) (acc : Nat) :
    ds.foldl (fun acc d => acc * 10 + d) acc = acc * 10 ^ ds.length + digitsValue ds := by
  induction ds using List.reverseRecOn with
  | nil => simp [digitsValue]
  | append_singleton ds d ih =>
    rw [List.foldl_append, ih, digitsValue_snoc]
    simp only [List.foldl_cons, List.foldl_nil, List.length_append, List.length_singleton, Nat.pow_succ]
    rw [Nat.add_mul, Nat.mul_assoc]
    omega

theorem digitsValue_cons (d : Nat) (ds : List Nat) : digitsValue (d :: ds) = d * 10 ^ ds.length + digitsValue ds := by
  have := digitsValue_foldl ds d
  simpa [digitsValue] using this

theorem digitsValue_lt {ds : List Nat} (h : ∀ d ∈ ds, d < 10) : digitsValue ds < 10 ^ ds.length := by
  induction ds using List.reverseRecOn with
  | nil => simp [digitsValue]
  | append_singleton ds d ih =>
    have := ih fun x hx => h x (by simp [hx])
    have := h d (by simp)
    rw [digitsValue_snoc, List.length_append, List.length_singleton, Nat.pow_succ]
    omega

/-- The digits after the leading zeros, as text. -/
def strip (ds : List Nat) : RStr := (ds.dropWhile (· == 0)).map Nat.digitChar

theorem strip_cons_zero (ds : List Nat) : strip (0 :: ds) = strip ds := by simp [strip]

theorem strip_cons_pos {d : Nat} (hd : d ≠ 0) (ds : List Nat) : strip (d :: ds) = (d :: ds).map Nat.digitChar := by
  simp [strip, hd]

theorem strip_eq_nil {ds : List Nat} : strip ds = [] ↔ digitsValue ds = 0 := by
  induction ds with
  | nil => simp [strip, digitsValue]
  | cons d ds ih =>
    rw [digitsValue_cons]
    by_cases hd : d = 0
    · subst hd; rw [strip_cons_zero]; simpa using ih
    · rw [strip_cons_pos hd]
      have : 0 < d * 10 ^ ds.length := Nat.mul_pos (by omega) (Nat.pow_pos (by decide))
      simp; omega

theorem strip_append {ds es : List Nat} :
    strip (ds ++ es) = if strip ds = [] then strip es else strip ds ++ es.map Nat.digitChar := by
  induction ds with
  | nil => simp [strip]
  | cons d ds ih =>
    by_cases hd : d = 0
    · subst hd; simp only [List.cons_append, strip_cons_zero]; exact ih
    · simp only [List.cons_append, strip_cons_pos hd]
      simp

theorem strip_eq_nil_iff_all {ds : List Nat} : strip ds = [] ↔ ds.all (· == 0) = true := by
  induction ds with
  | nil => simp [strip]
  | cons d ds ih =>
    by_cases hd : d = 0
    · subst hd; rw [strip_cons_zero, ih]; simp
    · rw [strip_cons_pos hd]; simp [hd]

/-- Digits that do not begin with zero are what `to_string` prints. -/
theorem showNat_of_head : ∀ (ds : List Nat), (∀ d ∈ ds, d < 10) → (∃ d tl, ds = d :: tl ∧ d ≠ 0) →
    showNat (digitsValue ds) = ds.map Nat.digitChar := by
  intro ds
  induction ds using List.reverseRecOn with
  | nil => rintro - ⟨d, tl, h, -⟩; cases h
  | append_singleton ds e ih =>
    intro hlt ⟨d, tl, heq, hd⟩
    have he := hlt e (by simp)
    cases ds with
    | nil =>
      simp only [List.nil_append, List.map_cons, List.map_nil]
      rw [show digitsValue [e] = e by simp [digitsValue], showNat, Nat.toDigits_of_lt_base he]
    | cons x xs =>
      simp only [List.cons_append, List.cons.injEq] at heq
      have hx : x ≠ 0 := by rw [heq.1]; exact hd
      have ih' := ih (fun y hy => hlt y (by simp at hy ⊢; rcases hy with h | h <;> simp [h])) ⟨x, xs, rfl, hx⟩
      have hpos : 0 < digitsValue (x :: xs) := by
        rcases Nat.eq_zero_or_pos (digitsValue (x :: xs)) with h | h
        · rw [← strip_eq_nil, strip_cons_pos hx] at h
          simp at h
        · exact h
      rw [digitsValue_snoc, showNat, ← Nat.toDigits_append_toDigits (by decide) hpos he, Nat.toDigits_of_lt_base he]
      rw [showNat] at ih'
      rw [ih', List.map_append]
      rfl

theorem dropWhile_zero_head (ds : List Nat) (h : strip ds ≠ []) : ∃ d tl, ds.dropWhile (· == 0) = d :: tl ∧ d ≠ 0 := by
  induction ds with
  | nil => simp [strip] at h
  | cons d ds ih =>
    by_cases hd : d = 0
    · subst hd
      rw [strip_cons_zero] at h
      simpa using ih h
    · exact ⟨d, ds, by simp [hd], hd⟩

theorem digitsValue_dropWhile (ds : List Nat) : digitsValue (ds.dropWhile (· == 0)) = digitsValue ds := by
  induction ds with
  | nil => rfl
  | cons d ds ih =>
    by_cases hd : d = 0
    · subst hd
      rw [digitsValue_cons]
      simpa using ih
    · simp [hd]

theorem showNat_strip {ds : List Nat} (hlt : ∀ d ∈ ds, d < 10) (h : strip ds ≠ []) : showNat (digitsValue ds) = strip ds := by
  obtain ⟨d, tl, h1, h2⟩ := dropWhile_zero_head ds h
  rw [← digitsValue_dropWhile, showNat_of_head (ds.dropWhile (· == 0)) (fun x hx => hlt x ((List.dropWhile_suffix _).subset hx))
    ⟨d, tl, h1, h2⟩]
  rfl

theorem strip_length_le (ds : List Nat) : (strip ds).length ≤ ds.length := by
  simp only [strip, List.length_map]
  exact (List.dropWhile_suffix _).length_le

/-- Zero-padded printing gives all digits. -/
theorem showPadded_digits : ∀ (ds : List Nat), (∀ d ∈ ds, d < 10) → ds ≠ [] →
    showPadded ds.length (digitsValue ds) = ds.map Nat.digitChar := by
  intro ds
  induction ds with
  | nil => simp
  | cons d ds ih =>
    intro hlt _
    by_cases hd : d = 0
    · subst hd
      have hv : digitsValue (0 :: ds) = digitsValue ds := by rw [digitsValue_cons]; simp
      rw [hv]
      by_cases hds : ds = []
      · subst hds; rfl
      · have := ih (fun x hx => hlt x (by simp [hx])) hds
        have hl : (showNat (digitsValue ds)).length ≤ ds.length := by
          have h := congrArg List.length this
          simp [showPadded] at h
          omega
        unfold showPadded at this ⊢
        rw [List.length_cons, Nat.succ_sub hl, List.replicate_succ, List.cons_append, this]
        rfl
    · have h1 := showNat_of_head (d :: ds) hlt ⟨d, ds, rfl, hd⟩
      simp [showPadded, h1]

/-! ## Groups -/

theorem group_bound {ds : List Nat} (h : ∀ d ∈ ds, d < 10) (hl : ds.length ≤ 9) (hne : ds ≠ []) :
    0 < groupBytes ds.length ∧ groupBytes ds.length ≤ 4 ∧ digitsValue ds < 128 * 256 ^ (groupBytes ds.length - 1) ∧
    digitsValue ds < 256 ^ groupBytes ds.length := by
  have h1 := digitsValue_lt h
  have h0 : 0 < ds.length := List.length_pos_iff.2 hne
  have key : ∀ n, 0 < n → n ≤ 9 → 0 < groupBytes n ∧ groupBytes n ≤ 4 ∧ 10 ^ n ≤ 128 * 256 ^ (groupBytes n - 1) ∧
    10 ^ n ≤ 256 ^ groupBytes n := by
    intro n hn hn'
    interval_cases n <;> decide
  obtain ⟨a, b, c, d⟩ := key ds.length h0 hl
  exact ⟨a, b, by omega, by omega⟩

theorem group_parses {ds : List Nat} (h : ∀ d ∈ ds, d < 10) (hl : ds.length ≤ 9) (hne : ds ≠ []) :
    Parses (P.uintBE (groupBytes ds.length)) (group ds) (digitsValue ds) := by
  obtain ⟨a, b, _, d⟩ := group_bound h hl hne
  exact uintBE_parses a (by omega) d

theorem group9_parses {ds : List Nat} (h : ∀ d ∈ ds, d < 10) (hl : ds.length = 9) :
    Parses (P.uBE 4) (group ds) (digitsValue ds) := by
  have h1 := digitsValue_lt h
  have : group ds = be 4 (digitsValue ds) := by rw [group, hl]; rfl
  rw [this]
  exact uBE_parses (k := 4) (by rw [hl] at h1; omega)

theorem group_nil : group [] = [] := rfl

theorem compressedBytes_eq {n : Nat} (h : n < 9) : compressedBytes n = groupBytes n := by
  interval_cases n <;> rfl

theorem be_head (k n : Nat) : be (k + 1) n = UInt8.ofNat (n / 256 ^ k) :: be k n := by
  simp [be, le, List.range_succ]

theorem groups_head {gs : List (List Nat)} (h : ∀ g ∈ gs, g.length ≤ 9) (hd : ∀ g ∈ gs, ∀ d ∈ g, d < 10) :
    gs.flatMap group = [] ∨ ∃ b tl, gs.flatMap group = b :: tl ∧ b.toNat < 128 := by
  induction gs with
  | nil => left; rfl
  | cons g gs ih =>
    have ih' := ih (fun x hx => h x (by simp [hx])) (fun x hx => hd x (by simp [hx]))
    by_cases hg : g = []
    · subst hg
      simpa [group_nil] using ih'
    · right
      obtain ⟨a, b, c, d⟩ := group_bound (hd g (by simp)) (h g (by simp)) hg
      obtain ⟨k, hk⟩ : ∃ k, groupBytes g.length = k + 1 := ⟨groupBytes g.length - 1, by omega⟩
      rw [hk] at c
      refine ⟨_, be k (digitsValue g) ++ gs.flatMap group, by rw [List.flatMap_cons, group, hk, be_head]; rfl, ?_⟩
      have : digitsValue g / 256 ^ k < 128 := (Nat.div_lt_iff_lt_mul (Nat.pow_pos (by decide))).2 (by simpa using c)
      rw [UInt8.toNat_ofNat', Nat.mod_eq_of_lt (by omega)]
      exact this

theorem group_length (ds : List Nat) : (group ds).length = groupBytes ds.length := by simp [group]

/-! ## Text -/

theorem integralGroups_parses (pre : RStr) : ∀ (groups : List (List Nat)) (ds : List Nat), (∀ g ∈ groups, g.length = 9) →
    (∀ g ∈ groups, ∀ d ∈ g, d < 10) →
    Parses (integralGroups groups.length (decide (strip ds ≠ [])) (pre ++ strip ds)) (groups.flatMap group)
      (decide (strip (ds ++ groups.flatten) ≠ []), pre ++ strip (ds ++ groups.flatten)) := by
  intro groups
  induction groups with
  | nil => intro ds _ _; simpa [integralGroups] using Parses.pure _
  | cons g groups ih =>
    intro ds h9 hd
    have hg9 := h9 g (by simp)
    have hgd := hd g (by simp)
    have hgne : g ≠ [] := by intro h; simp [h] at hg9
    have ih' := ih (ds ++ g) (fun x hx => h9 x (by simp [hx])) (fun x hx => hd x (by simp [hx]))
    rw [List.length_cons, integralGroups, List.flatMap_cons]
    refine (group9_parses hgd hg9).bind ?_
    rw [List.append_assoc] at ih'
    rw [List.flatten_cons]
    by_cases hs : strip ds = []
    · simp only [hs, ne_eq, not_true_eq_false, decide_false, Bool.false_eq_true, if_false]
      have e1 : strip (ds ++ g) = strip g := by rw [strip_append, if_pos hs]
      by_cases hv : digitsValue g = 0
      · have e2 : strip g = [] := strip_eq_nil.2 hv
        rw [if_neg (by omega)]
        rw [e1, e2] at ih'
        simpa using ih'
      · have e2 : strip g ≠ [] := fun h => hv (strip_eq_nil.1 h)
        rw [if_pos (by omega), showNat_strip hgd e2]
        rw [e1] at ih'
        simpa [e2] using ih'
    · simp only [hs, ne_eq, not_false_eq_true, decide_true, if_true]
      have e1 : strip (ds ++ g) = strip ds ++ g.map Nat.digitChar := by rw [strip_append, if_neg hs]
      have e2 : showPadded 9 (digitsValue g) = g.map Nat.digitChar := by
        rw [← hg9]; exact showPadded_digits g hgd hgne
      rw [e1] at ih'
      rw [e2, List.append_assoc]
      simpa [hs] using ih'

theorem fractionalGroups_parses : ∀ (groups : List (List Nat)) (pre : RStr), (∀ g ∈ groups, g.length = 9) →
    (∀ g ∈ groups, ∀ d ∈ g, d < 10) →
    Parses (fractionalGroups groups.length pre) (groups.flatMap group) (pre ++ groups.flatten.map Nat.digitChar) := by
  intro groups
  induction groups with
  | nil => intro pre _ _; simpa [fractionalGroups] using Parses.pure _
  | cons g groups ih =>
    intro pre h9 hd
    have hg9 := h9 g (by simp)
    have hgd := hd g (by simp)
    have hgne : g ≠ [] := by intro h; simp [h] at hg9
    have ih' := ih (pre ++ g.map Nat.digitChar) (fun x hx => h9 x (by simp [hx])) (fun x hx => hd x (by simp [hx]))
    rw [List.length_cons, fractionalGroups, List.flatMap_cons]
    refine (group9_parses hgd hg9).bind ?_
    have e2 : showPadded 9 (digitsValue g) = g.map Nat.digitChar := by
      rw [← hg9]; exact showPadded_digits g hgd hgne
    rw [e2]
    exact ih'.cast rfl (by simp)

theorem decimalBody_parses {lead tail : List Nat} {groups fgroups : List (List Nat)} (hl : lead.length < 9)
    (ht : tail.length < 9) (hg : ∀ g ∈ groups, g.length = 9) (hf : ∀ g ∈ fgroups, g.length = 9)
    (hdl : ∀ d ∈ lead, d < 10) (hdt : ∀ d ∈ tail, d < 10)
    (hdg : ∀ g ∈ groups, ∀ d ∈ g, d < 10) (hdf : ∀ g ∈ fgroups, ∀ d ∈ g, d < 10) (pre : RStr) :
    Parses (decimalBody groups.length lead.length fgroups.length tail.length (fgroups.flatten ++ tail).length pre)
      (group lead ++ groups.flatMap group ++ (fgroups.flatMap group ++ group tail))
      (pre ++ ((if (lead ++ groups.flatten).all (· == 0) then ['0'] else strip (lead ++ groups.flatten))
        ++ (if fgroups.flatten ++ tail = [] then [] else '.' :: (fgroups.flatten ++ tail).map Nat.digitChar))) := by
  unfold decimalBody
  rw [compressedBytes_eq hl, compressedBytes_eq ht, List.append_assoc]
  -- leading group
  have h1 : Parses (if groupBytes lead.length > 0 then do
        let number ← P.uintBE (groupBytes lead.length)
        if number > 0 then return (true, pre ++ showNat number) else return (false, pre)
      else return (false, pre) : P (Bool × RStr)) (group lead) (decide (strip lead ≠ []), pre ++ strip lead) := by
    by_cases hne : lead = []
    · subst hne
      have : groupBytes ([] : List Nat).length = 0 := rfl
      simp only [this, gt_iff_lt, Nat.lt_irrefl, if_false, group_nil]
      simpa [strip] using Parses.pure _
    · have hb := (group_bound hdl (by omega) hne).1
      simp only [gt_iff_lt, hb, if_true]
      refine ((group_parses hdl (by omega) hne).bind (e2 := []) ?_).cast (by simp) rfl
      by_cases hv : digitsValue lead = 0
      · have e2 : strip lead = [] := strip_eq_nil.2 hv
        rw [if_neg (by omega), e2]
        simpa using Parses.pure _
      · have e2 : strip lead ≠ [] := fun h => hv (strip_eq_nil.1 h)
        rw [if_pos (by omega), showNat_strip hdl e2]
        simpa [e2] using Parses.pure _
  refine h1.bind ?_
  refine (integralGroups_parses pre groups lead hg hdg).bind ?_
  simp only
  -- the integral part is complete
  generalize hI : lead ++ groups.flatten = integral
  have e1 : (if decide (strip integral ≠ []) = true then pre ++ strip integral else pre ++ strip integral ++ ['0'])
      = pre ++ (if integral.all (· == 0) then ['0'] else strip integral) := by
    by_cases h : strip integral = []
    · have h' := strip_eq_nil_iff_all.1 h
      simp only [h, ne_eq, not_true_eq_false, decide_false, Bool.false_eq_true, if_false, List.append_nil, h', if_true]
    · have h' : ¬ (integral.all (· == 0) = true) := fun hh => h (strip_eq_nil_iff_all.2 hh)
      simp only [h, ne_eq, not_false_eq_true, decide_true, if_true]
      rw [if_neg h']
  rw [e1]
  generalize (if integral.all (· == 0) then ['0'] else strip integral) = I
  -- the point
  have e2 : (if (fgroups.flatten ++ tail).length > 0 then pre ++ I ++ ['.'] else pre ++ I)
      = pre ++ I ++ (if fgroups.flatten ++ tail = [] then [] else ['.']) := by
    by_cases h : fgroups.flatten ++ tail = []
    · simp only [h, List.length_nil, gt_iff_lt, Nat.lt_irrefl, if_false, if_true, List.append_nil]
    · have : (fgroups.flatten ++ tail).length > 0 := List.length_pos_iff.2 h
      simp only [this, if_true, h, if_false]
  rw [e2]
  refine (fractionalGroups_parses fgroups _ hf hdf).bind ?_
  -- last group
  by_cases hne : tail = []
  · subst hne
    have : groupBytes ([] : List Nat).length = 0 := rfl
    simp only [this, gt_iff_lt, Nat.lt_irrefl, if_false, group_nil]
    refine (Parses.pure _).cast rfl ?_
    by_cases h : fgroups.flatten = [] <;> simp [h]
  · have hb := (group_bound hdt (by omega) hne).1
    simp only [gt_iff_lt, hb, if_true]
    refine ((group_parses hdt (by omega) hne).map _).cast rfl ?_
    rw [showPadded_digits tail hdt hne]
    simp [hne]

/-! ## Sign -/

theorem unsign (b : UInt8) : b.toNat < 128 →
    ((b + 128) &&& 0x80 == 0) = false ∧ (b + 128) ^^^ 0x80 = b ∧
    ((255 - b + 128) &&& 0x80 == 0) = true ∧ (255 - b + 128) ^^^ 0x80 = 255 - b := by
  have : ∀ n < 256, (UInt8.ofNat n).toNat < 128 →
    ((UInt8.ofNat n + 128) &&& 0x80 == 0) = false ∧ (UInt8.ofNat n + 128) ^^^ 0x80 = UInt8.ofNat n ∧
    ((255 - UInt8.ofNat n + 128) &&& 0x80 == 0) = true ∧ (255 - UInt8.ofNat n + 128) ^^^ 0x80 = 255 - UInt8.ofNat n := by
    decide +kernel
  have h := this b.toNat b.toNat_lt
  rwa [show UInt8.ofNat b.toNat = b by simp] at h

theorem invert_invert (b : UInt8) : (255 - b) ^^^ 0xFF = b := by
  have : ∀ n < 256, (255 - UInt8.ofNat n) ^^^ 0xFF = UInt8.ofNat n := by decide +kernel
  have h := this b.toNat b.toNat_lt
  rwa [show UInt8.ofNat b.toNat = b by simp] at h

theorem signed_length (neg : Bool) (body : Bytes) : (signed neg body).length = body.length := by
  cases neg <;> cases body <;> simp [signed]

theorem flatMap_group9_length {gs : List (List Nat)} (h : ∀ g ∈ gs, g.length = 9) : (gs.flatMap group).length = gs.length * 4 := by
  induction gs with
  | nil => rfl
  | cons g gs ih =>
    rw [List.flatMap_cons, List.length_append, ih fun x hx => h x (by simp [hx]), group_length, h g (by simp), List.length_cons]
    simp only [groupBytes]
    omega

theorem flatten9_length {gs : List (List Nat)} (h : ∀ g ∈ gs, g.length = 9) : gs.flatten.length = gs.length * 9 := by
  induction gs with
  | nil => rfl
  | cons g gs ih =>
    rw [List.flatten_cons, List.length_append, ih fun x hx => h x (by simp [hx]), h g (by simp), List.length_cons]
    omega

theorem decimalCell_parses (m : Mode) {md : Nat} {v : MySqlValue} {e : Bytes} (h : DecimalCell md v e) :
    Parses (parseColumn m 246 md) e v := by
  cases h with
  | @mk p s neg integral fractional body hp hp' hs hi hf hdi hdf hb =>
  cases hb with
  | @mk lead tail groups fgroups hl ht hg hfg =>
  refine Parses.map (f := MySqlValue.decimal) (p := parseDecimal m (p + 256 * s)) ?_
  have m1 : (p + 256 * s) &&& 0xFF = p := by
    rw [show (0xFF : Nat) = 2 ^ 8 - 1 by rfl, Nat.and_two_pow_sub_one_eq_mod]; omega
  have m2 : ((p + 256 * s) >>> 8) % 256 = s := by rw [Nat.shiftRight_eq_div_pow]; omega
  have hgl := flatten9_length hg
  have hfl := flatten9_length hfg
  rw [List.length_append] at hi hf
  have n1 : (p - s) / 9 = groups.length := by omega
  have n2 : s / 9 = fgroups.length := by omega
  have n3 : p - s - groups.length * 9 = lead.length := by omega
  have n4 : s - fgroups.length * 9 = tail.length := by omega
  have hdl : ∀ d ∈ lead, d < 10 := fun d hd => hdi d (by simp [hd])
  have hdt : ∀ d ∈ tail, d < 10 := fun d hd => hdf d (by simp [hd])
  have hdg : ∀ g ∈ groups, ∀ d ∈ g, d < 10 := fun g hg d hd => hdi d (by
    rw [List.mem_append]; right; exact List.mem_flatten.2 ⟨g, hg, hd⟩)
  have hdfg : ∀ g ∈ fgroups, ∀ d ∈ g, d < 10 := fun g hg d hd => hdf d (by
    rw [List.mem_append]; left; exact List.mem_flatten.2 ⟨g, hg, hd⟩)
  generalize hB : group lead ++ groups.flatMap group ++ (fgroups.flatMap group ++ group tail) = body
  have hlen : body.length = groups.length * 4 + compressedBytes lead.length + fgroups.length * 4 + compressedBytes tail.length := by
    rw [← hB]
    simp only [List.length_append, group_length, flatMap_group9_length hg, flatMap_group9_length hfg, compressedBytes_eq hl,
      compressedBytes_eq ht]
    omega
  have hhead : ∃ b tl, body = b :: tl ∧ b.toNat < 128 := by
    have := groups_head (gs := lead :: groups ++ fgroups ++ [tail])
      (by intro g hg'
          simp only [List.cons_append, List.append_assoc, List.mem_cons, List.mem_append, List.not_mem_nil, or_false] at hg'
          rcases hg' with h | h | h | h
          · rw [h]; omega
          · rw [hg g h]
          · rw [hfg g h]
          · rw [h]; omega)
      (by intro g hg'
          simp only [List.cons_append, List.append_assoc, List.mem_cons, List.mem_append, List.not_mem_nil, or_false] at hg'
          rcases hg' with h | h | h | h
          · rw [h]; exact hdl
          · exact hdg g h
          · exact hdfg g h
          · rw [h]; exact hdt)
    have hflat : (lead :: groups ++ fgroups ++ [tail]).flatMap group = body := by
      rw [← hB]; simp
    rw [hflat] at this
    rcases this with h | h
    · exfalso
      rw [h] at hlen
      have c1 := compressedBytes_eq hl
      have c2 := compressedBytes_eq ht
      have g1 : groupBytes lead.length = 0 → lead.length = 0 := by simp only [groupBytes]; omega
      have g2 : groupBytes tail.length = 0 → tail.length = 0 := by simp only [groupBytes]; omega
      simp only [List.length_nil] at hlen
      omega
    · exact h
  obtain ⟨b, tl, hbt, hb128⟩ := hhead
  unfold parseDecimal
  simp only [m1, m2]
  rw [show subU m 16 p s = .ok (p - s) by simp [subU, hs], lift_ok_bind]
  simp only [DIGITS_PER_INT, Nat.mod_eq_of_lt (show p - s < 256 by omega), n1, n2, n3, n4]
  have hlt : body.length < 2 ^ 63 := by
    rw [hlen]
    have hc : ∀ n, compressedBytes n ≤ 4 := by
      intro n; unfold compressedBytes; split <;> omega
    have := hc lead.length
    have := hc tail.length
    omega
  have hbody := decimalBody_parses hl ht hg hfg hdl hdt hdg hdfg (if neg then ['-'] else [])
  rw [hB] at hbody
  have hrun := hbody.run
  rw [show (fgroups.flatten ++ tail).length = s by rw [List.length_append]; omega] at hrun
  refine ((readVec_parses (n := groups.length * 4 + compressedBytes lead.length + fgroups.length * 4 + compressedBytes tail.length)
    (bs := signed neg body) (by rw [signed_length, hlen]) (by omega)).bind (e2 := []) ?_).cast (by simp) rfl
  obtain ⟨u1, u2, u3, u4⟩ := unsign b hb128
  subst hbt
  cases neg with
  | false =>
    simp only [signed, Bool.false_eq_true, if_false, u1, u2] at hrun ⊢
    rw [hrun]
    exact (Parses.pure _).cast rfl (by simp [decimalText, strip])
  | true =>
    simp only [signed, if_true, List.map_cons, u3, u4, invert_invert, List.map_map] at hrun ⊢
    have : tl.map ((fun x => x ^^^ 0xFF) ∘ fun x => 255 - x) = tl := by
      conv => rhs; rw [← List.map_id tl]
      exact List.map_congr_left fun x _ => invert_invert x
    rw [this, hrun]
    exact (Parses.pure _).cast rfl (by simp [decimalText, strip])

/-- Every digit string has an encoding. -/
theorem decimalBody_exists (integral fractional : List Nat) : ∃ body, DecimalBody integral fractional body := by
  have split : ∀ (n : Nat) (ds : List Nat), ds.length = n →
      ∃ gs : List (List Nat), ∃ tail : List Nat, tail.length < 9 ∧ (∀ g ∈ gs, g.length = 9) ∧ ds = gs.flatten ++ tail := by
    intro n
    induction n using Nat.strongRecOn with
    | _ n ih =>
      intro ds hds
      by_cases h : n < 9
      · exact ⟨[], ds, by omega, by simp, by simp⟩
      · obtain ⟨gs, tail, h1, h2, h3⟩ := ih (n - 9) (by omega) (ds.drop 9) (by simp [hds])
        refine ⟨ds.take 9 :: gs, tail, h1, ?_, ?_⟩
        · intro g hg
          rcases List.mem_cons.1 hg with rfl | hg
          · simp; omega
          · exact h2 g hg
        · rw [List.flatten_cons, List.append_assoc, ← h3, List.take_append_drop]
  obtain ⟨fgs, tail, h1, h2, rfl⟩ := split _ fractional rfl
  obtain ⟨gs, lead, h3, h4, h5⟩ := split _ integral.reverse rfl
  have : integral = lead.reverse ++ ((gs.map List.reverse).reverse).flatten := by
    have := congrArg List.reverse h5
    rw [List.reverse_reverse, List.reverse_append, List.reverse_flatten] at this
    exact this
  rw [this]
  refine ⟨_, .mk (by simpa using h3) h1 ?_ h2⟩
  intro g hg
  simp only [List.mem_reverse, List.mem_map] at hg
  obtain ⟨g', hg', rfl⟩ := hg
  simpa using h4 g' hg'

end MysqlCdc
