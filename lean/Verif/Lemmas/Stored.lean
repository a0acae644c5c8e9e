import Verif.Spec.Stored
import Verif.Props.AnyValues
/-!
# A decoded value determines the bytes it was decoded from
-/

namespace MysqlCdc

open Spec

theorem numberCell_bytes {t1 t2 : UInt8} {v : MySqlValue} {e1 e2 : Bytes} (h1 : NumberCell t1 v e1) (h2 : NumberCell t2 v e2) : e1 = e2 := by
  cases h1 <;> cases h2 <;> rfl

theorem Spec.UpToMillis.of_eq {t : UInt8} {md : Nat} {e1 e2 : Bytes} (h : e1 = e2) : UpToMillis t md e1 e2 := h ▸ .same _

theorem fraction_bytes {t : UInt8} {fsp u1 u2 : Nat} {f1 f2 : Bytes} (ht : t = 17 ∨ t = 18 ∨ t = 19) (h1 : Fraction fsp u1 f1)
    (h2 : Fraction fsp u2 f2) (hu : u1 / 1000 = u2 / 1000) (time : Bytes) : UpToMillis t fsp (time ++ f1) (time ++ f2) := by
  by_cases hk : fsp ≤ 3
  · have div : ∀ {u : Nat} {f : Bytes}, Fraction fsp u f → 1000 ∣ u := by
      intro u f h
      have big : 1000 ∣ 10 ^ (6 - fsp) := by
        have : (1000 : Nat) = 10 ^ 3 := rfl
        rw [this]
        exact Nat.pow_dvd_pow 10 (by omega)
      cases h with
      | none h hm => subst hm; simp
      | one h hm hd => exact Nat.dvd_trans big hd
      | two h hm hd => exact Nat.dvd_trans big hd
      | three h hm hd => exact Nat.dvd_trans big hd
    have d1 := div h1
    have d2 := div h2
    have : u1 = u2 := by omega
    subst this
    refine UpToMillis.of_eq ?_
    cases h1 <;> cases h2 <;> first | rfl | omega
  · cases h1 with
    | none h => omega
    | one h => omega
    | two h hm hd =>
      cases h2 with
      | two h' hm' hd' =>
        have : fsp = 4 := by omega
        subst this
        refine .below ht (.inl ⟨rfl, rfl, rfl⟩) ?_ ?_ ?_ <;> omega
      | _ => omega
    | three h hm hd =>
      cases h2 with
      | three h' hm' hd' => refine .below ht (.inr ⟨by omega, rfl, rfl⟩) ?_ ?_ ?_ <;> omega
      | _ => omega

theorem timeCell_bytes {t1 t2 : UInt8} {md : Nat} {v1 v2 : MySqlValue} {e1 e2 : Bytes} (h1 : TimeCell t1 md v1 e1) (h2 : TimeCell t2 md v2 e2)
    (ht : t1 = t2) (hv : v1 = v2) : UpToMillis t1 md e1 e2 := by
  cases h1 with
  | year h h' =>
    refine UpToMillis.of_eq ?_
    cases h2 <;> simp_all
  | yearZero =>
    refine UpToMillis.of_eq ?_
    cases h2 <;> simp_all
    omega
  | date | time | timestamp | dateTime =>
    refine UpToMillis.of_eq ?_
    cases h2 <;> simp_all
  | time2 hh hm hs hf =>
    cases h2 with
    | time2 hh' hm' hs' hf' =>
      simp only [MySqlValue.time.injEq, Time.mk.injEq] at hv
      obtain ⟨rfl, rfl, rfl, hu⟩ := hv
      exact fraction_bytes (by simp) hf hf' hu _
    | _ => simp_all
  | @timestamp2 _ s1 u1 _ hs hf =>
    cases h2 with
    | @timestamp2 _ s2 u2 _ hs' hf' =>
      simp only [MySqlValue.timestamp.injEq] at hv
      have := fraction_lt hf
      have := fraction_lt hf'
      have hu : u1 / 1000 = u2 / 1000 := by omega
      have hse : s1 = s2 := by omega
      rw [hse]
      exact fraction_bytes (by simp) hf hf' hu _
    | _ => simp_all
  | dateTime2 hy hmo hd hh hm hs hf =>
    cases h2 with
    | dateTime2 hy' hmo' hd' hh' hm' hs' hf' =>
      simp only [MySqlValue.dateTime.injEq, DateTime.mk.injEq] at hv
      obtain ⟨rfl, rfl, rfl, rfl, rfl, rfl, hu⟩ := hv
      exact fraction_bytes (by simp) hf hf' hu _
    | _ => simp_all

/-! ## DECIMAL -/

theorem digitChar_inj {a b : Nat} (ha : a < 10) (hb : b < 10) (h : Nat.digitChar a = Nat.digitChar b) : a = b := by
  have : ∀ a < 10, ∀ b < 10, Nat.digitChar a = Nat.digitChar b → a = b := by decide
  exact this a ha b hb h

theorem map_digitChar_inj {xs ys : List Nat} (hx : ∀ d ∈ xs, d < 10) (hy : ∀ d ∈ ys, d < 10) (h : xs.map Nat.digitChar = ys.map Nat.digitChar) :
    xs = ys := by
  induction xs generalizing ys with
  | nil => cases ys with
    | nil => rfl
    | cons _ _ => simp at h
  | cons x xs ih =>
    cases ys with
    | nil => simp at h
    | cons y ys =>
      simp only [List.map_cons, List.cons.injEq] at h
      rw [digitChar_inj (hx x (by simp)) (hy y (by simp)) h.1, ih (fun d hd => hx d (by simp [hd])) (fun d hd => hy d (by simp [hd])) h.2]

/-- The leading zeros of a number of known length can be put back. -/
theorem dropZeros_inj {xs ys : List Nat} (hl : xs.length = ys.length) (h : xs.dropWhile (· == 0) = ys.dropWhile (· == 0)) : xs = ys := by
  induction xs generalizing ys with
  | nil => exact (List.eq_nil_of_length_eq_zero hl.symm).symm
  | cons x xs ih =>
    cases ys with
    | nil => simp at hl
    | cons y ys =>
      simp only [List.length_cons, Nat.add_right_cancel_iff] at hl
      have lx := (List.dropWhile_suffix (l := xs) (· == 0)).length_le
      have ly := (List.dropWhile_suffix (l := ys) (· == 0)).length_le
      simp only [List.dropWhile_cons] at h
      by_cases h1 : x = 0 <;> by_cases h2 : y = 0
      · subst h1 h2
        simp at h
        rw [ih hl h]
      · simp [h1, h2] at h
        have := congrArg List.length h
        simp at this
        omega
      · simp [h1, h2] at h
        have := congrArg List.length h
        simp at this
        omega
      · simpa [h1, h2] using h

theorem digitChar_ne {a : Nat} (ha : a < 10) : Nat.digitChar a ≠ '-' ∧ Nat.digitChar a ≠ '.' := by
  revert a
  decide

/-- The integral part as it is printed. -/
def integralText (integral : List Nat) : RStr := if integral.all (· == 0) then ['0'] else (integral.dropWhile (· == 0)).map Nat.digitChar

theorem integralText_digits {i : List Nat} (h : ∀ d ∈ i, d < 10) : ∃ ds : List Nat, ds ≠ [] ∧ (∀ d ∈ ds, d < 10) ∧ integralText i = ds.map Nat.digitChar := by
  unfold integralText
  split
  · exact ⟨[0], by simp, by simp, by decide⟩
  · next hn =>
    refine ⟨i.dropWhile (· == 0), ?_, fun d hd => h d ((List.dropWhile_suffix _).mem hd), rfl⟩
    intro hc
    apply hn
    have := List.takeWhile_append_dropWhile (p := (· == 0)) (l := i)
    rw [hc, List.append_nil] at this
    rw [← this]
    exact List.all_takeWhile

theorem integralText_inj {i1 i2 : List Nat} (hl : i1.length = i2.length) (h1 : ∀ d ∈ i1, d < 10) (h2 : ∀ d ∈ i2, d < 10)
    (h : integralText i1 = integralText i2) : i1 = i2 := by
  have zeros : ∀ {i : List Nat}, i.all (· == 0) = true → i = List.replicate i.length 0 := by
    intro i hi
    rw [List.eq_replicate_iff]
    exact ⟨rfl, by simpa using hi⟩
  have lead : ∀ {i : List Nat}, (∀ d ∈ i, d < 10) → ¬ i.all (· == 0) = true → ['0'] ≠ (i.dropWhile (· == 0)).map Nat.digitChar := by
    intro i hd hi hc
    cases hdw : i.dropWhile (· == 0) with
    | nil => rw [hdw] at hc; simp at hc
    | cons x xs =>
      rw [hdw] at hc
      simp only [List.map_cons, List.cons.injEq] at hc
      have hx : x < 10 := hd x ((List.dropWhile_suffix _).mem (by rw [hdw]; simp))
      have : x = 0 := digitChar_inj hx (by omega) (by rw [← hc.1]; rfl)
      have hn := List.head_dropWhile_not (p := (· == 0)) (l := i) (by rw [hdw]; simp)
      simp only [hdw, List.head_cons] at hn
      simp [this] at hn
  unfold integralText at h
  split at h <;> split at h
  · next a1 a2 => rw [zeros a1, zeros a2, hl]
  · next a1 a2 => exact absurd h (lead h2 a2)
  · next a1 a2 => exact absurd h.symm (lead h1 a1)
  · exact dropZeros_inj hl (map_digitChar_inj (fun d hd => h1 d ((List.dropWhile_suffix _).mem hd)) (fun d hd => h2 d ((List.dropWhile_suffix _).mem hd)) h)

/-- What is before the first point and what is after it. -/
theorem point_inj {xs1 xs2 ys1 ys2 : RStr} (h1 : '.' ∉ xs1) (h2 : '.' ∉ xs2) (h : xs1 ++ '.' :: ys1 = xs2 ++ '.' :: ys2) : xs1 = xs2 ∧ ys1 = ys2 := by
  induction xs1 generalizing xs2 with
  | nil =>
    cases xs2 with
    | nil => simpa using h
    | cons x xs2 => simp at h h2; exact absurd h.1 h2.1
  | cons x xs1 ih =>
    cases xs2 with
    | nil => simp at h h1; exact absurd h.1.symm h1.1
    | cons y xs2 =>
      simp only [List.cons_append, List.cons.injEq] at h
      have := ih (fun hm => h1 (by simp [hm])) (fun hm => h2 (by simp [hm])) h.2
      exact ⟨by rw [h.1, this.1], this.2⟩

theorem decimalText_inj {n1 n2 : Bool} {i1 i2 f1 f2 : List Nat} (hi : i1.length = i2.length) (hf : f1.length = f2.length)
    (a1 : ∀ d ∈ i1, d < 10) (a2 : ∀ d ∈ i2, d < 10) (b1 : ∀ d ∈ f1, d < 10) (b2 : ∀ d ∈ f2, d < 10)
    (h : decimalText n1 i1 f1 = decimalText n2 i2 f2) : n1 = n2 ∧ i1 = i2 ∧ f1 = f2 := by
  have form : ∀ n i f, decimalText n i f = (if n then ['-'] else []) ++ (integralText i ++ (if f = [] then [] else '.' :: f.map Nat.digitChar)) := by
    intro n i f
    unfold decimalText integralText
    rw [List.append_assoc]
  rw [form, form] at h
  obtain ⟨d1, ne1, lt1, e1⟩ := integralText_digits a1
  obtain ⟨d2, ne2, lt2, e2⟩ := integralText_digits a2
  have nodot : ∀ {ds : List Nat}, (∀ d ∈ ds, d < 10) → '.' ∉ ds.map Nat.digitChar := by
    intro ds hd hm
    obtain ⟨d, hd', he⟩ := List.mem_map.1 hm
    exact (digitChar_ne (hd d hd')).2 he
  have rest : integralText i1 ++ (if f1 = [] then [] else '.' :: f1.map Nat.digitChar)
      = integralText i2 ++ (if f2 = [] then [] else '.' :: f2.map Nat.digitChar) → i1 = i2 ∧ f1 = f2 := by
    intro hr
    by_cases hf1 : f1 = []
    · have hf2 : f2 = [] := List.eq_nil_of_length_eq_zero (by rw [← hf, hf1]; rfl)
      simp only [hf1, hf2, if_true, List.append_nil] at hr
      exact ⟨integralText_inj hi a1 a2 hr, by rw [hf1, hf2]⟩
    · have hf2 : f2 ≠ [] := by rintro rfl; exact hf1 (List.eq_nil_of_length_eq_zero hf)
      simp only [hf1, hf2, if_false] at hr
      have := point_inj (by rw [e1]; exact nodot lt1) (by rw [e2]; exact nodot lt2) hr
      exact ⟨integralText_inj hi a1 a2 this.1, map_digitChar_inj b1 b2 this.2⟩
  cases d1 with
  | nil => exact absurd rfl ne1
  | cons x1 d1 =>
    cases d2 with
    | nil => exact absurd rfl ne2
    | cons x2 d2 =>
      have m1 := (digitChar_ne (lt1 x1 (by simp))).1
      have m2 := (digitChar_ne (lt2 x2 (by simp))).1
      cases n1 <;> cases n2
      · exact ⟨rfl, rest (by simpa using h)⟩
      · rw [e1, e2] at h; simp at h
      · rw [e1, e2] at h; simp at h
      · exact ⟨rfl, rest (by simpa using h)⟩

theorem flatten_nines {xs ys : List (List Nat)} (hx : ∀ g ∈ xs, g.length = 9) (hy : ∀ g ∈ ys, g.length = 9) (h : xs.flatten = ys.flatten) : xs = ys := by
  induction xs generalizing ys with
  | nil =>
    cases ys with
    | nil => rfl
    | cons y ys =>
      have := congrArg List.length h
      have hl := hy y (by simp)
      simp at this
      omega
  | cons x xs ih =>
    cases ys with
    | nil =>
      have := congrArg List.length h
      have hl := hx x (by simp)
      simp only [List.flatten_cons, List.flatten_nil, List.length_append, List.length_nil] at this
      omega
    | cons y ys =>
      simp only [List.flatten_cons] at h
      obtain ⟨rfl, h'⟩ := List.append_inj h (by rw [hx x (by simp), hy y (by simp)])
      rw [ih (fun g hg => hx g (by simp [hg])) (fun g hg => hy g (by simp [hg])) h']

theorem nines_length {xs : List (List Nat)} (hx : ∀ g ∈ xs, g.length = 9) : xs.flatten.length = 9 * xs.length := by
  induction xs with
  | nil => rfl
  | cons x xs ih =>
    have := ih fun g hg => hx g (by simp [hg])
    have hl := hx x (by simp)
    simp only [List.flatten_cons, List.length_append, List.length_cons] at *
    omega

theorem decimalBody_bytes {i1 i2 f1 f2 : List Nat} {b1 b2 : Bytes} (h1 : DecimalBody i1 f1 b1) (h2 : DecimalBody i2 f2 b2) (hi : i1 = i2) (hf : f1 = f2) :
    b1 = b2 := by
  cases h1 with
  | @mk lead1 tail1 g1 k1 hl1 ht1 hg1 hk1 =>
    cases h2 with
    | @mk lead2 tail2 g2 k2 hl2 ht2 hg2 hk2 =>
      have a1 := nines_length hg1
      have a2 := nines_length hg2
      have a3 := nines_length hk1
      have a4 := nines_length hk2
      have n1 := congrArg List.length hi
      have n2 := congrArg List.length hf
      simp only [List.length_append] at n1 n2
      obtain ⟨rfl, hg⟩ := List.append_inj hi (by omega)
      obtain ⟨hk, rfl⟩ := List.append_inj hf (by omega)
      rw [flatten_nines hg1 hg2 hg, flatten_nines hk1 hk2 hk]

theorem decimalCell_bytes {m1 m2 : Nat} {v1 v2 : MySqlValue} {e1 e2 : Bytes} (h1 : DecimalCell m1 v1 e1) (h2 : DecimalCell m2 v2 e2) (hm : m1 = m2)
    (hv : v1 = v2) : e1 = e2 := by
  cases h1 with
  | @mk p1 s1 n1 i1 f1 b1 hp hp' hs hi hf hdi hdf hb =>
    cases h2 with
    | @mk p2 s2 n2 i2 f2 b2 kp kp' ks ki kf kdi kdf kb =>
      have : p1 = p2 := by omega
      subst this
      have : s1 = s2 := by omega
      subst this
      simp only [MySqlValue.decimal.injEq] at hv
      obtain ⟨rfl, rfl, rfl⟩ := decimalText_inj (by omega) (by omega) hdi kdi hdf kdf hv
      rw [decimalBody_bytes hb kb rfl rfl]

/-! ## Text, blobs, BIT, ENUM, SET -/

theorem bitsOf_inj {n v1 v2 : Nat} (h1 : v1 < 2 ^ n) (h2 : v2 < 2 ^ n) (h : bitsOf n v1 = bitsOf n v2) : v1 = v2 := by
  refine Nat.eq_of_testBit_eq fun k => ?_
  by_cases hk : k < n
  · have := congrArg (fun l => l[n - 1 - k]?) h
    simp only [bitsOf, List.getElem?_map, List.getElem?_range (show n - 1 - k < n by omega), Option.map_some, Option.some.injEq] at this
    rw [show n - 1 - (n - 1 - k) = k by omega] at this
    rw [Nat.testBit_eq_decide_div_mod_eq, Nat.testBit_eq_decide_div_mod_eq]
    simpa using this
  · rw [Nat.testBit_lt_two_pow (Nat.lt_of_lt_of_le h1 (Nat.pow_le_pow_right (by omega) (by omega))),
      Nat.testBit_lt_two_pow (Nat.lt_of_lt_of_le h2 (Nat.pow_le_pow_right (by omega) (by omega)))]

theorem dataCell_bytes {t1 t2 : UInt8} {m1 m2 : Nat} {v1 v2 : MySqlValue} {e1 e2 : Bytes} (h1 : DataCell t1 m1 v1 e1) (h2 : DataCell t2 m2 v2 e2)
    (ht : t1 = t2) (hm : m1 = m2) (hv : v1 = v2) : e1 = e2 := by
  cases h1 with
  | varChar hs h =>
    cases h2 with
    | varChar hs' h' => simp only [MySqlValue.string.injEq] at hv; subst hm hv; rw [h.2, h'.2]
    | _ => simp_all
  | varString hs h =>
    cases h2 with
    | varString hs' h' => simp only [MySqlValue.string.injEq] at hv; subst hm hv; rw [h.2, h'.2]
    | _ => simp_all
  | @char size _ _ hs h =>
    cases h2 with
    | @char size' _ _ hs' h' =>
      simp only [MySqlValue.string.injEq] at hv
      have : size = size' := by unfold charMeta at hm; omega
      subst this hv
      rw [h.2, h'.2]
    | _ => simp_all
  | @enum width n hw hn =>
    cases h2 with
    | @enum width' n' hw' hn' =>
      simp only [MySqlValue.enum.injEq] at hv
      have : width = width' := by omega
      rw [this, hv]
    | _ => simp_all
  | @set width n hw _ hn =>
    cases h2 with
    | @set width' n' hw' _ hn' =>
      simp only [MySqlValue.set.injEq] at hv
      have : width = width' := by omega
      rw [this, hv]
    | _ => simp_all
  | blob =>
    cases h2 with
    | blob => simp only [MySqlValue.blob.injEq] at hv; rw [hm, hv]
    | _ => simp_all
  | @bit n v hn hv' =>
    cases h2 with
    | @bit n' v' hn' hv'' =>
      have : n = n' := by omega
      subst this
      simp only [MySqlValue.bit.injEq] at hv
      rw [bitsOf_inj hv' hv'' hv]
    | _ => simp_all

/-! ## Any value -/

theorem cell_bytes {t : UInt8} {md : Nat} {v : MySqlValue} {e1 e2 : Bytes} (h1 : Cell t md v e1) (h2 : Cell t md v e2) :
    UpToMillis t md e1 e2 := by
  have kind : ∀ {t t' : UInt8} {md md' : Nat} {v : MySqlValue} {e e' : Bytes}, NumberCell t v e → TimeCell t' md v e' → False := by
    intro t t' md md' v e e' a b; cases a <;> cases b
  have kind2 : ∀ {t t' : UInt8} {md : Nat} {v : MySqlValue} {e e' : Bytes}, NumberCell t v e → DataCell t' md v e' → False := by
    intro t t' md v e e' a b; cases a <;> cases b
  have kind3 : ∀ {t t' : UInt8} {md md' : Nat} {v : MySqlValue} {e e' : Bytes}, TimeCell t md v e → DataCell t' md' v e' → False := by
    intro t t' md md' v e e' a b; cases a <;> cases b
  have kind4 : ∀ {t : UInt8} {md : Nat} {v : MySqlValue} {e e' : Bytes}, NumberCell t v e → DecimalCell md v e' → False := by
    intro t md v e e' a b; cases a <;> cases b
  have kind5 : ∀ {t : UInt8} {md md' : Nat} {v : MySqlValue} {e e' : Bytes}, TimeCell t md v e → DecimalCell md' v e' → False := by
    intro t md md' v e e' a b; cases a <;> cases b
  have kind6 : ∀ {t : UInt8} {md md' : Nat} {v : MySqlValue} {e e' : Bytes}, DataCell t md v e → DecimalCell md' v e' → False := by
    intro t md md' v e e' a b; cases a <;> cases b
  generalize ht : t = t' at h2
  cases h1 with
  | number a =>
    cases h2 with
    | number b => exact .of_eq (numberCell_bytes a b)
    | decimal b => exact (kind4 a b).elim
    | time b _ => exact (kind (md' := 0) a b).elim
    | data b => exact (kind2 a b).elim
  | decimal a =>
    cases h2 with
    | number b => exact (kind4 b a).elim
    | decimal b => exact .of_eq (decimalCell_bytes a b rfl rfl)
    | time b _ => exact (kind5 b a).elim
    | data b => exact (kind6 b a).elim
  | time a _ =>
    cases h2 with
    | number b => exact (kind (md' := 0) b a).elim
    | decimal b => exact (kind5 a b).elim
    | time b _ => exact timeCell_bytes (ht ▸ a) b rfl rfl
    | data b => exact (kind3 a b).elim
  | data a =>
    cases h2 with
    | number b => exact (kind2 b a).elim
    | decimal b => exact (kind6 a b).elim
    | time b _ => exact (kind3 b a).elim
    | data b => exact .of_eq (dataCell_bytes a b ht rfl rfl)

/-- A value that is shown is in the library's own format, or is the year 0. -/
theorem shown_cell {t : UInt8} {md : Nat} {v : ServerValue} {e : Bytes} {w : MySqlValue} (h : ServerCell t md v e) (hs : Shown v (.ok w)) :
    Cell t md w e ∨ (w = .year 1900 ∧ e = le 1 0) := by
  cases hs with
  | value => cases h with | value h => exact .inl h
  | text =>
    cases h with
    | varChar h1 h2 => exact .inl (.data (.varChar h1 h2))
    | varString h1 h2 => exact .inl (.data (.varString h1 h2))
    | char h1 h2 => exact .inl (.data (.char h1 h2))
  | yearZero => cases h; exact .inr ⟨rfl, rfl⟩

theorem not_1900 {t : UInt8} {md : Nat} {e : Bytes} : ¬ Cell t md (.year 1900) e := by
  intro h
  cases h with
  | number h => cases h
  | decimal h => cases h
  | time h _ => cases h; omega
  | data h => cases h

theorem serverCell_bytes {t : UInt8} {md : Nat} {v1 v2 : ServerValue} {e1 e2 : Bytes} {w : MySqlValue} (h1 : ServerCell t md v1 e1)
    (h2 : ServerCell t md v2 e2) (s1 : Shown v1 (.ok w)) (s2 : Shown v2 (.ok w)) : UpToMillis t md e1 e2 := by
  rcases shown_cell h1 s1 with a | ⟨a, ha⟩
  · rcases shown_cell h2 s2 with b | ⟨b, hb⟩
    · exact cell_bytes a b
    · subst b; exact absurd a not_1900
  · rcases shown_cell h2 s2 with b | ⟨b, hb⟩
    · subst a; exact absurd b not_1900
    · exact .of_eq (by rw [ha, hb])

/-! ## Rows -/

/-- A stored value is shown in one way. -/
theorem serverCell_shown {t : UInt8} {md : Nat} {v1 v2 : ServerValue} {e : Bytes} {r1 r2 : Except Err MySqlValue} (h1 : ServerCell t md v1 e)
    (h2 : ServerCell t md v2 e) (s1 : Shown v1 r1) (s2 : Shown v2 r2) : r1 = r2 := by
  have a := serverCell_runs ⟨true⟩ h1 s1
  have b := serverCell_runs ⟨true⟩ h2 s2
  cases r1 <;> cases r2 <;>
    · have a := a [] []
      rw [b [] []] at a
      simp_all

theorem rowShown_unique {cs : List (UInt8 × Nat)} {row : List Stored} {cells1 cells2 : List (Option MySqlValue)} (h1 : RowShown cs row cells1)
    (h2 : RowShown cs row cells2) : cells1 = cells2 := by
  induction h1 generalizing cells2 with
  | nil => cases h2; rfl
  | absent h ih => cases h2 with | absent h' => rw [ih h']
  | null h ih => cases h2 with | null h' => rw [ih h']
  | bytes hc hs h ih =>
    cases h2 with
    | bytes hc' hs' h' =>
      have := serverCell_shown hc hc' hs hs'
      simp only [Except.ok.injEq] at this
      rw [ih h', this]

theorem rowShown_inj {cs : List (UInt8 × Nat)} {row1 row2 : List Stored} {cells : List (Option MySqlValue)} (h1 : RowShown cs row1 cells)
    (h2 : RowShown cs row2 cells) (hp : row1.map Stored.present = row2.map Stored.present) : RowUpToMillis cs row1 row2 := by
  induction h1 generalizing row2 with
  | nil => cases h2; exact .nil
  | absent h ih =>
    cases h2 with
    | absent h' => exact .absent (ih h' (by simpa using hp))
    | null h' => simp [Stored.present] at hp
  | null h ih =>
    cases h2 with
    | absent h' => simp [Stored.present] at hp
    | null h' => exact .null (ih h' (by simpa [Stored.present] using hp))
  | bytes hc hs h ih =>
    cases h2 with
    | bytes hc' hs' h' =>
      exact .bytes (serverCell_bytes hc hc' hs hs') (ih h' (by simpa [Stored.present] using hp))

/-- The row in terms of the values of C112. -/
theorem storedCells_server {cs : List (UInt8 × Nat)} {row : List Stored} (h : StoredCells cs row) :
    ∃ states, ServerCells cs states (row.flatMap Stored.data) ∧ states.map ServerState.present = row.map Stored.present ∧
      states.filterMap ServerState.nullFlag = row.filterMap Stored.nullFlag ∧
      (∀ cells, InTurn ShownCell states (.ok cells) → RowShown cs row cells) ∧
      ∀ cells e, RowShown cs row cells → ¬InTurn ShownCell states (.error e) := by
  induction h with
  | nil => exact ⟨[], .nil, rfl, rfl, fun cells h => by cases h; exact .nil, fun cells e _ h => by cases h⟩
  | absent h ih =>
    obtain ⟨states, h1, h2, h3, h4, h5⟩ := ih
    refine ⟨.absent :: states, .absent (by simpa [Stored.data] using h1), by simp [h2, ServerState.present, Stored.present],
      by simp [List.filterMap_cons, h3, ServerState.nullFlag, Stored.nullFlag], fun cells h => ?_, fun cells e hr h => ?_⟩
    · cases h with
      | cons a b => cases a; exact .absent (h4 _ b)
    · cases hr with
      | absent hr =>
        cases h with
        | here a => cases a
        | later a b => exact h5 _ _ hr b
  | null h ih =>
    obtain ⟨states, h1, h2, h3, h4, h5⟩ := ih
    refine ⟨.null :: states, .null (by simpa [Stored.data] using h1), by simp [h2, ServerState.present, Stored.present],
      by simp [h3, ServerState.nullFlag, Stored.nullFlag], fun cells h => ?_, fun cells e hr h => ?_⟩
    · cases h with
      | cons a b => cases a; exact .null (h4 _ b)
    · cases hr with
      | null hr =>
        cases h with
        | here a => cases a
        | later a b => exact h5 _ _ hr b
  | @bytes t md v e cs row hc h ih =>
    obtain ⟨states, h1, h2, h3, h4, h5⟩ := ih
    refine ⟨.value v :: states, ?_, by simp [h2, ServerState.present, Stored.present],
      by simp [h3, ServerState.nullFlag, Stored.nullFlag], fun cells h => ?_, fun cells e hr h => ?_⟩
    · simp only [List.flatMap_cons, Stored.data]
      exact .value hc h1
    · cases h with
      | cons a b => cases a with | value hs => exact .bytes hc hs (h4 _ b)
    · cases hr with
      | bytes hc' hs' hr =>
        cases h with
        | here a => cases a with | refused a => exact absurd (serverCell_shown hc hc' a hs') (by simp)
        | later a b => exact h5 _ _ hr b

theorem storedImage_server {columns : List (UInt8 × Nat)} {present : List Bool} {row : List Stored} {e : Bytes} (h : StoredImage columns present row e) :
    ∃ states, ServerImage columns present states e ∧ (∀ shown, ShownRow states (.ok shown) → RowShown columns row shown.cells) ∧
      ∀ cells e, RowShown columns row cells → ¬ShownRow states (.error e) := by
  obtain ⟨hp, hc, bitmap, hb, rfl⟩ := h
  obtain ⟨states, h1, h2, h3, h4, h5⟩ := storedCells_server hc
  refine ⟨states, ⟨by rw [h2, hp], bitmap, _, by rw [h3]; exact hb, h1, rfl⟩, fun shown hs => ?_, fun cells e hr hs => ?_⟩
  · cases hs with
    | row h => exact h4 _ h
  · cases hs with
    | refused h => exact h5 _ _ hr h

theorem storedRows_server {columns : List (UInt8 × Nat)} {present : List Bool} {rows : List (List Stored)} {data : Bytes}
    (h : Each (StoredImage columns present) rows data) :
    ∃ srows, Each (ServerImage columns present) srows data ∧ srows.length = rows.length ∧
      (∀ shown, InTurn ShownRow srows (.ok shown) →
        List.Forall₂ (fun row s => row.map Stored.present = present ∧ RowShown columns row s.cells) rows shown) ∧
      ∀ e, (∀ row ∈ rows, ∃ cells, RowShown columns row cells) → ¬InTurn ShownRow srows (.error e) := by
  induction h with
  | nil => exact ⟨[], .nil, rfl, fun shown h => by cases h; exact .nil, fun e _ h => by cases h⟩
  | @cons row _ _ _ h _ ih =>
    obtain ⟨srows, h1, h2, h3, h6⟩ := ih
    obtain ⟨states, h4, h5, h7⟩ := storedImage_server h
    refine ⟨states :: srows, .cons h4 h1, by simp [h2], fun shown hs => ?_, fun e hr hs => ?_⟩
    · cases hs with
      | cons a b => exact .cons ⟨h.1, h5 _ a⟩ (h3 _ b)
    · cases hs with
      | here a =>
        obtain ⟨cells, hc⟩ := hr row (by simp)
        exact h7 _ _ hc a
      | later a b => exact h6 _ (fun row hm => hr row (by simp [hm])) b

theorem forall2_join {α β : Type} {R : α → β → Prop} {S : α → α → Prop} (key : ∀ a1 a2 b, R a1 b → R a2 b → S a1 a2) {as1 as2 : List α}
    {bs : List β} (h1 : List.Forall₂ R as1 bs) (h2 : List.Forall₂ R as2 bs) : List.Forall₂ S as1 as2 := by
  induction h1 generalizing as2 with
  | nil => cases h2; exact .nil
  | cons h _ ih => cases h2 with | cons h' hs' => exact .cons (key _ _ _ h h') (ih hs')

/-- Columns that hold no more than milliseconds. -/
theorem millis_eq {cs : List (UInt8 × Nat)} {row1 row2 : List Stored} (h : RowUpToMillis cs row1 row2) (hk : Millis cs) : row1 = row2 := by
  induction h with
  | nil => rfl
  | absent h ih => rw [ih fun c hc => hk c (by simp [hc])]
  | null h ih => rw [ih fun c hc => hk c (by simp [hc])]
  | @bytes t md e1 e2 cs row1 row2 hc h ih =>
    rw [ih fun c hc => hk c (by simp [hc])]
    cases hc with
    | same => rfl
    | below ht hm =>
      have := hk (t, md) (by simp) ht
      simp only at this
      omega

theorem storedUpdates_server {columns : List (UInt8 × Nat)} {before after : List Bool} {rows : List (List Stored × List Stored)} {data : Bytes}
    (h : Each (fun pair e => ∃ e1 e2, StoredImage columns before pair.1 e1 ∧ StoredImage columns after pair.2 e2 ∧ e = e1 ++ e2) rows data) :
    ∃ srows, Each (fun pair e => ∃ e1 e2, ServerImage columns before pair.1 e1 ∧ ServerImage columns after pair.2 e2 ∧ e = e1 ++ e2) srows data ∧
      srows.length = rows.length ∧ (∀ shown, InTurn ShownPair srows (.ok shown) → List.Forall₂ (fun pair s =>
        (pair.1.map Stored.present = before ∧ RowShown columns pair.1 s.beforeUpdate.cells) ∧
        (pair.2.map Stored.present = after ∧ RowShown columns pair.2 s.afterUpdate.cells)) rows shown) ∧
      ∀ e, (∀ pair ∈ rows, (∃ cells, RowShown columns pair.1 cells) ∧ ∃ cells, RowShown columns pair.2 cells) →
        ¬InTurn ShownPair srows (.error e) := by
  induction h with
  | nil => exact ⟨[], .nil, rfl, fun shown h => by cases h; exact .nil, fun e _ h => by cases h⟩
  | @cons pair _ e _ h _ ih =>
    obtain ⟨srows, h1, h2, h3, h8⟩ := ih
    obtain ⟨e1, e2, i1, i2, rfl⟩ := h
    obtain ⟨s1, h4, h5, h9⟩ := storedImage_server i1
    obtain ⟨s2, h6, h7, h10⟩ := storedImage_server i2
    refine ⟨(s1, s2) :: srows, .cons ⟨_, _, h4, h6, rfl⟩ h1, by simp [h2], fun shown hs => ?_, fun e hr hs => ?_⟩
    · cases hs with
      | cons a b =>
        cases a with
        | pair a1 a2 => exact .cons ⟨⟨i1.1, h5 _ a1⟩, ⟨i2.1, h7 _ a2⟩⟩ (h3 _ b)
    · cases hs with
      | here a =>
        obtain ⟨⟨c1, hc1⟩, c2, hc2⟩ := hr pair (by simp)
        cases a with
        | before a => exact h9 _ _ hc1 a
        | after _ a => exact h10 _ _ hc2 a
      | later a b => exact h8 _ (fun pair hm => hr pair (by simp [hm])) b

/-! ## What is lost -/

theorem be_inj {k a b : Nat} (ha : a < 256 ^ k) (hb : b < 256 ^ k) (h : be k a = be k b) : a = b := by
  rw [← beVal_be_of_lt ha, ← beVal_be_of_lt hb, h]

theorem fraction_split {fsp u width unit n : Nat} {f time x : Bytes} (hf : Fraction fsp u f)
    (hm : fsp = 4 ∧ width = 2 ∧ unit = 100 ∨ (fsp = 5 ∨ fsp = 6) ∧ width = 3 ∧ unit = 1)
    (hn : n * unit < 1000000) (h : x ++ f = time ++ be width n) : x = time ∧ u = n * unit := by
  cases hf with
  | none => omega
  | one => omega
  | two h4 hu hd =>
    rcases hm with ⟨rfl, rfl, rfl⟩ | ⟨h5, rfl, rfl⟩
    · have hs := List.append_inj' h (by simp)
      have := be_inj (by omega) (by omega) hs.2
      refine ⟨hs.1, ?_⟩
      have : 100 ∣ u := hd
      omega
    · omega
  | three h4 hu hd =>
    rcases hm with ⟨rfl, rfl, rfl⟩ | ⟨h5, rfl, rfl⟩
    · omega
    · have hs := List.append_inj' h (by simp)
      have := be_inj (by omega) (by omega) hs.2
      exact ⟨hs.1, by omega⟩

theorem timeCell_split {t : UInt8} {md : Nat} {w : MySqlValue} {e : Bytes} (h : Cell t md w e) (ht : t = 17 ∨ t = 18 ∨ t = 19) : TimeCell t md w e := by
  cases h with
  | number h => cases h <;> simp at ht
  | decimal h => exact absurd ht (by decide)
  | time h => exact h
  | data h =>
    cases h with
    | blob h => rcases ht with rfl | rfl | rfl <;> simp at h
    | varChar | varString | char | enum | set | bit => exact absurd ht (by decide)

/-- What is below a millisecond is lost. -/
theorem upToMillis_shown {t : UInt8} {md : Nat} {v1 v2 : ServerValue} {e1 e2 : Bytes} {w1 w2 : MySqlValue} (h : UpToMillis t md e1 e2)
    (h1 : ServerCell t md v1 e1) (h2 : ServerCell t md v2 e2) (s1 : Shown v1 (.ok w1)) (s2 : Shown v2 (.ok w2)) : w1 = w2 := by
  cases h with
  | same => simpa using serverCell_shown h1 h2 s1 s2
  | @below time width unit n1 n2 ht hm b1 b2 hn =>
    have cell : ∀ {v : ServerValue} {n : Nat} {w : MySqlValue}, ServerCell t md v (time ++ be width n) → Shown v (.ok w) →
        TimeCell t md w (time ++ be width n) := by
      intro v n w hc hs
      rcases shown_cell hc hs with a | ⟨-, a⟩
      · exact timeCell_split a ht
      · have := congrArg List.length a
        simp only [List.length_append, be_length, le_length] at this
        omega
    have c1 := cell h1 s1
    have c2 := cell h2 s2
    clear cell h1 h2 s1 s2
    generalize hx : time ++ be width n1 = x1 at c1
    generalize hy : time ++ be width n2 = x2 at c2
    cases c1 with
    | time2 hh hmi hs hf =>
      obtain ⟨rfl, rfl⟩ := fraction_split hf hm b1 hx.symm
      cases c2 with
      | time2 hh' hmi' hs' hf' =>
        obtain ⟨he, rfl⟩ := fraction_split hf' hm b2 hy.symm
        have := be_inj (by omega) (by omega) he
        simp only [MySqlValue.time.injEq, Time.mk.injEq]
        omega
    | timestamp2 hs hf =>
      obtain ⟨rfl, rfl⟩ := fraction_split hf hm b1 hx.symm
      cases c2 with
      | timestamp2 hs' hf' =>
        obtain ⟨he, rfl⟩ := fraction_split hf' hm b2 hy.symm
        have := be_inj (by omega) (by omega) he
        simp only [MySqlValue.timestamp.injEq]
        omega
    | dateTime2 hy1 hmo hd hh hmi hs hf =>
      obtain ⟨rfl, rfl⟩ := fraction_split hf hm b1 hx.symm
      cases c2 with
      | dateTime2 hy1' hmo' hd' hh' hmi' hs' hf' =>
        obtain ⟨he, rfl⟩ := fraction_split hf' hm b2 hy.symm
        have := be_inj (by omega) (by omega) he
        simp only [MySqlValue.dateTime.injEq, DateTime.mk.injEq]
        omega
    | _ => simp at ht

theorem rowUpToMillis_shown {cs : List (UInt8 × Nat)} {row1 row2 : List Stored} {cells1 cells2 : List (Option MySqlValue)} (h : RowUpToMillis cs row1 row2)
    (h1 : RowShown cs row1 cells1) (h2 : RowShown cs row2 cells2) : cells1 = cells2 := by
  induction h generalizing cells1 cells2 with
  | nil => cases h1; cases h2; rfl
  | absent h ih => cases h1 with | absent h1 => cases h2 with | absent h2 => rw [ih h1 h2]
  | null h ih => cases h1 with | null h1 => cases h2 with | null h2 => rw [ih h1 h2]
  | bytes hc h ih =>
    cases h1 with
    | bytes c1 s1 h1 => cases h2 with | bytes c2 s2 h2 => rw [ih h1 h2, upToMillis_shown hc c1 c2 s1 s2]

end MysqlCdc
