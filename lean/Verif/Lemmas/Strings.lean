import Verif.Model.Strings
/-!
# Splitting, joining, trimming, decimal numbers
-/

namespace MysqlCdc

theorem splitOn_ne_nil (sep : Char) (s : RStr) : splitOn sep s ≠ [] := by
  cases s with
  | nil => simp [splitOn]
  | cons c cs =>
    simp only [splitOn]
    split
    · simp
    · split <;> simp

theorem splitOn_of_not_mem (sep : Char) (s : RStr) (h : sep ∉ s) : splitOn sep s = [s] := by
  induction s with
  | nil => rfl
  | cons c cs ih =>
    simp only [List.mem_cons, not_or] at h
    simp only [splitOn, ih h.2]
    rw [if_neg (fun e => h.1 e.symm)]

theorem splitOn_append_sep (sep : Char) (s t : RStr) (h : sep ∉ s) : splitOn sep (s ++ sep :: t) = s :: splitOn sep t := by
  induction s with
  | nil => simp [splitOn]
  | cons c cs ih =>
    simp only [List.mem_cons, not_or] at h
    simp only [List.cons_append, splitOn, ih h.2]
    rw [if_neg (fun e => h.1 e.symm)]

theorem joinWith_eq (sep : Char) (parts : List RStr) : joinWith sep parts = [sep].intercalate parts := by
  induction parts using joinWith.induct with
  | case1 => rfl
  | case2 x => simp [joinWith, List.intercalate]
  | case3 x y ys ih =>
    rw [joinWith, ih]
    simp [List.intercalate]

theorem splitOn_joinWith (sep : Char) (parts : List RStr) (hne : parts ≠ []) (h : ∀ p ∈ parts, sep ∉ p) :
    splitOn sep (joinWith sep parts) = parts := by
  induction parts using joinWith.induct with
  | case1 => exact absurd rfl hne
  | case2 x => simp only [joinWith]; exact splitOn_of_not_mem _ _ (h x (by simp))
  | case3 x y ys ih =>
    rw [joinWith, splitOn_append_sep _ _ _ (h x (by simp)), ih (by simp) (fun p hp => h p (by simp [hp]))]

theorem mem_joinWith {sep c : Char} {parts : List RStr} (h : c ∈ joinWith sep parts) : c = sep ∨ ∃ p ∈ parts, c ∈ p := by
  induction parts using joinWith.induct with
  | case1 => simp [joinWith] at h
  | case2 x => simp only [joinWith] at h; exact Or.inr ⟨x, by simp, h⟩
  | case3 x y ys ih =>
    simp only [joinWith, List.mem_append, List.mem_cons] at h
    rcases h with h | h | h
    · exact Or.inr ⟨x, by simp, h⟩
    · exact Or.inl h
    · rcases ih h with h | ⟨p, hp, h⟩
      · exact Or.inl h
      · exact Or.inr ⟨p, by simp [hp], h⟩

/-! ## trim -/

theorem dropWhile_append_of_all {α : Type} (p : α → Bool) (a b : List α) (h : ∀ c ∈ a, p c = true) :
    (a ++ b).dropWhile p = b.dropWhile p := by
  induction a with
  | nil => rfl
  | cons x xs ih => simp [h x (by simp), ih (fun c hc => h c (by simp [hc]))]

theorem dropWhile_head {α : Type} (p : α → Bool) (b : List α) (h : ∀ c, b.head? = some c → p c = false) :
    b.dropWhile p = b := by
  cases b with
  | nil => rfl
  | cons x xs => simp [h x rfl]

/-- Blanks around a text that neither starts nor ends with a blank are removed. -/
theorem trim_pad (l s r : RStr) (hl : ∀ c ∈ l, isWhitespace c = true) (hr : ∀ c ∈ r, isWhitespace c = true)
    (h1 : ∀ c, s.head? = some c → isWhitespace c = false) (h2 : ∀ c, s.getLast? = some c → isWhitespace c = false) :
    trim (l ++ s ++ r) = s := by
  unfold trim
  rw [List.append_assoc, dropWhile_append_of_all _ _ _ hl]
  cases s with
  | nil =>
    simp only [List.nil_append]
    rw [← List.append_nil r, dropWhile_append_of_all _ _ _ hr]
    rfl
  | cons x xs =>
    rw [dropWhile_head _ (x :: xs ++ r) (by intro c hc; simp at hc; subst hc; exact h1 _ rfl)]
    rw [List.reverse_append, dropWhile_append_of_all _ _ _ (by intro c hc; exact hr c (by simpa using hc))]
    rw [dropWhile_head _ _ (by intro c hc; rw [List.head?_reverse] at hc; exact h2 c hc), List.reverse_reverse]

theorem trim_self (s : RStr) (h1 : ∀ c, s.head? = some c → isWhitespace c = false)
    (h2 : ∀ c, s.getLast? = some c → isWhitespace c = false) : trim s = s := by
  simpa using trim_pad [] s [] (by simp) (by simp) h1 h2

theorem removeChar_self (c : Char) (s : RStr) (h : c ∉ s) : removeChar c s = s := by
  unfold removeChar
  rw [List.filter_eq_self]
  intro a ha
  simp
  rintro rfl
  exact h ha

/-! ## Decimal numbers -/

theorem digitVal_of_isDigit {c : Char} (h : c.isDigit = true) : digitVal c = some (c.toNat - 48) := by
  rw [Char.isDigit_iff_toNat] at h
  have h' : 48 ≤ c.toNat ∧ c.toNat ≤ 57 := h
  unfold digitVal
  rw [if_pos h']

theorem isDigit_of_digitVal {c : Char} {d : Nat} (h : digitVal c = some d) : c.isDigit = true ∧ d = c.toNat - 48 := by
  unfold digitVal at h
  split at h
  · rename_i hc
    rw [Char.isDigit_iff_toNat]
    injection h with h
    exact ⟨⟨hc.1, hc.2⟩, h.symm⟩
  · cases h

theorem ofDigitChars_ge (s : List Char) (acc : Nat) : acc ≤ Nat.ofDigitChars 10 s acc := by
  induction s generalizing acc with
  | nil => simp [Nat.ofDigitChars]
  | cons c cs ih =>
    rw [Nat.ofDigitChars_cons]
    have := ih (10 * acc + (c.toNat - '0'.toNat))
    omega

theorem parseDigits_eq (bits : Nat) (s : RStr) (acc : Nat) (hs : ∀ c ∈ s, c.isDigit = true)
    (hv : Nat.ofDigitChars 10 s acc < 2 ^ bits) : parseDigits bits acc s = some (Nat.ofDigitChars 10 s acc) := by
  induction s generalizing acc with
  | nil => simp [parseDigits, Nat.ofDigitChars]
  | cons c cs ih =>
    rw [Nat.ofDigitChars_cons] at hv ⊢
    have e : 10 * acc + (c.toNat - '0'.toNat) = acc * 10 + (c.toNat - 48) := by
      rw [Nat.mul_comm]; rfl
    rw [e] at hv ⊢
    have hge := ofDigitChars_ge cs (acc * 10 + (c.toNat - 48))
    simp only [parseDigits, digitVal_of_isDigit (hs c (by simp))]
    rw [if_pos (by omega)]
    exact ih _ (fun c hc => hs c (by simp [hc])) hv

theorem parseUnsigned_digits (bits : Nat) (s : RStr) (hne : s ≠ []) (hs : ∀ c ∈ s, c.isDigit = true)
    (hv : Nat.ofDigitChars 10 s 0 < 2 ^ bits) : parseUnsigned bits s = .ok (Nat.ofDigitChars 10 s 0) := by
  have hp := parseDigits_eq bits s 0 hs hv
  unfold parseUnsigned
  split
  · exact absurd rfl hne
  · have := hs '+' (by simp); simp at this
  · have := hs '+' (by simp); simp at this
  · rw [hp]

theorem showNat_isDigit (n : Nat) : ∀ c ∈ showNat n, c.isDigit = true :=
  fun _ hc => Nat.isDigit_of_mem_toDigits (by decide) (by decide) hc

theorem showNat_ne_nil (n : Nat) : showNat n ≠ [] := Nat.toDigits_ne_nil

theorem ofDigitChars_showNat (n : Nat) : Nat.ofDigitChars 10 (showNat n) 0 = n := by
  simp [showNat]

theorem parseUnsigned_showNat (bits n : Nat) (h : n < 2 ^ bits) : parseUnsigned bits (showNat n) = .ok n := by
  have := parseUnsigned_digits bits (showNat n) (showNat_ne_nil n) (showNat_isDigit n) (by rwa [ofDigitChars_showNat])
  rwa [ofDigitChars_showNat] at this

theorem isDigit_facts {c : Char} (h : c.isDigit = true) :
    c ≠ '-' ∧ c ≠ ',' ∧ c ≠ ':' ∧ c ≠ '\n' ∧ c ≠ '+' ∧ isWhitespace c = false := by
  rw [Char.isDigit_iff_toNat] at h
  have h' : 48 ≤ c.toNat ∧ c.toNat ≤ 57 := h
  refine ⟨?_, ?_, ?_, ?_, ?_, ?_⟩
  iterate 5 (rintro rfl; simp at h)
  simp only [isWhitespace, Bool.or_eq_false_iff, Bool.and_eq_false_iff, decide_eq_false_iff_not, beq_eq_false_iff_ne]
  omega

theorem parseUnsigned_returns (bits : Nat) (s : RStr) :
    (∃ n, parseUnsigned bits s = .ok n) ∨ parseUnsigned bits s = .err .parseInt := by
  unfold parseUnsigned
  split <;> try (split) <;> simp
  all_goals simp

end MysqlCdc
