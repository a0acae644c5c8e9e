import Verif.Model.Strings
import Verif.Lemmas.Utf8
/-!
# Sorting strings does not depend on the order they come in
-/

namespace MysqlCdc

theorem bytesLe_total (a b : Bytes) : (bytesLe a b || bytesLe b a) = true := by
  induction a generalizing b with
  | nil => simp [bytesLe]
  | cons x a ih =>
    cases b with
    | nil => simp [bytesLe]
    | cons y b =>
      simp only [bytesLe]
      rcases Nat.lt_trichotomy x.toNat y.toNat with h | h | h
      · simp [h]
      · simp only [h, Nat.lt_irrefl, if_false]; exact ih b
      · simp [h, Nat.not_lt_of_lt h]

theorem bytesLe_trans (a b c : Bytes) (h1 : bytesLe a b = true) (h2 : bytesLe b c = true) : bytesLe a c = true := by
  induction a generalizing b c with
  | nil => simp [bytesLe]
  | cons x a ih =>
    cases b with
    | nil => simp [bytesLe] at h1
    | cons y b =>
      cases c with
      | nil => simp [bytesLe] at h2
      | cons z c =>
        simp only [bytesLe] at *
        split at h1
        · split at h2
          · rw [if_pos (by omega)]
          · split at h2
            · cases h2
            · rw [if_pos (by omega)]
        · split at h1
          · cases h1
          · split at h2
            · rw [if_pos (by omega)]
            · split at h2
              · cases h2
              · rw [if_neg (by omega), if_neg (by omega)]; exact ih b c h1 h2

theorem bytesLe_antisymm (a b : Bytes) (h1 : bytesLe a b = true) (h2 : bytesLe b a = true) : a = b := by
  induction a generalizing b with
  | nil =>
    cases b with
    | nil => rfl
    | cons y b => simp [bytesLe] at h2
  | cons x a ih =>
    cases b with
    | nil => simp [bytesLe] at h1
    | cons y b =>
      simp only [bytesLe] at *
      split at h1
      · rw [if_neg (by omega), if_pos (by omega)] at h2; cases h2
      · split at h1
        · cases h1
        · rw [if_neg (by omega), if_neg (by omega)] at h2
          rw [ih b h1 h2, UInt8.toNat_inj.1 (show x.toNat = y.toNat by omega)]

theorem sortStrings_pairwise (l : List RStr) : (sortStrings l).Pairwise (fun a b => strLe a b = true) :=
  List.pairwise_mergeSort (le := strLe) (fun a b c => bytesLe_trans (utf8Bytes a) (utf8Bytes b) (utf8Bytes c))
    (fun a b => bytesLe_total (utf8Bytes a) (utf8Bytes b)) l

theorem sortStrings_perm (l : List RStr) : (sortStrings l).Perm l := List.mergeSort_perm l _

theorem sortStrings_eq_of_perm {a b : List RStr} (h : a.Perm b) : sortStrings a = sortStrings b := by
  apply List.Perm.eq_of_pairwise (le := fun a b => strLe a b = true) _ (sortStrings_pairwise a) (sortStrings_pairwise b)
    ((sortStrings_perm a).trans (h.trans (sortStrings_perm b).symm))
  intro x y _ _ h1 h2
  exact utf8Bytes_inj (bytesLe_antisymm _ _ h1 h2)

end MysqlCdc
