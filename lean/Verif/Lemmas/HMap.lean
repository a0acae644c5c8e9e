import Verif.Model.Strings
/-!
# Association-list maps
-/

namespace MysqlCdc.HMap

variable {κ ν : Type} [DecidableEq κ]

theorem get?_eq_some_mem {m : HMap κ ν} {k : κ} {v : ν} (h : m.get? k = some v) : (k, v) ∈ m := by
  induction m with
  | nil => simp [get?] at h
  | cons e m ih =>
    obtain ⟨k', v'⟩ := e
    simp only [get?] at h
    split at h
    · simp_all
    · simp [ih h]

theorem mem_get? {m : HMap κ ν} (hn : (m.map (·.1)).Nodup) {k : κ} {v : ν} (h : (k, v) ∈ m) : m.get? k = some v := by
  induction m with
  | nil => simp at h
  | cons e m ih =>
    obtain ⟨k', v'⟩ := e
    simp only [List.map_cons, List.nodup_cons] at hn
    simp only [get?]
    rcases List.mem_cons.1 h with h | h
    · simp at h; simp [h]
    · rw [if_neg, ih hn.2 h]
      rintro rfl
      exact hn.1 (List.mem_map.2 ⟨_, h, rfl⟩)

theorem get?_eq_none {m : HMap κ ν} {k : κ} : m.get? k = none ↔ k ∉ m.map (·.1) := by
  induction m with
  | nil => simp [get?]
  | cons e m ih =>
    obtain ⟨k', v'⟩ := e
    simp only [get?]
    split
    · simp_all
    · rw [ih]; simp; intro _ h; simp_all

theorem get?_insert (m : HMap κ ν) (k k' : κ) (v : ν) :
    (m.insert k v).get? k' = if k = k' then some v else m.get? k' := by
  induction m with
  | nil => simp [insert, get?]
  | cons e m ih =>
    obtain ⟨k'', v''⟩ := e
    simp only [insert]
    split
    · subst_vars; simp only [get?]; split <;> simp_all
    · simp only [get?, ih]; split <;> split <;> simp_all

theorem keys_insert (m : HMap κ ν) (k : κ) (v : ν) :
    (m.insert k v).map (·.1) = if k ∈ m.map (·.1) then m.map (·.1) else m.map (·.1) ++ [k] := by
  induction m with
  | nil => simp [insert]
  | cons e m ih =>
    obtain ⟨k', v'⟩ := e
    simp only [insert]
    split
    · subst_vars; simp
    · rename_i h
      rw [List.map_cons, ih]
      have : ¬ k = k' := fun h' => h h'.symm
      split <;> simp_all

theorem nodup_insert {m : HMap κ ν} (hn : (m.map (·.1)).Nodup) (k : κ) (v : ν) :
    ((m.insert k v).map (·.1)).Nodup := by
  rw [keys_insert]
  split
  · exact hn
  · rename_i h
    rw [List.nodup_append]
    refine ⟨hn, by simp, ?_⟩
    intro a ha b hb
    simp at hb
    subst hb
    rintro rfl
    exact h ha

theorem mem_insert {m : HMap κ ν} (hn : (m.map (·.1)).Nodup) {k k' : κ} {v v' : ν} :
    (k', v') ∈ m.insert k v ↔ (k = k' ∧ v' = v) ∨ (k ≠ k' ∧ (k', v') ∈ m) := by
  constructor
  · intro h
    have := mem_get? (nodup_insert hn k v) h
    rw [get?_insert] at this
    split at this
    · left; simp_all
    · right; exact ⟨by assumption, get?_eq_some_mem this⟩
  · intro h
    apply get?_eq_some_mem
    rw [get?_insert]
    rcases h with ⟨rfl, rfl⟩ | ⟨h, h'⟩
    · simp
    · rw [if_neg h]; exact mem_get? hn h'

/-- Two maps with distinct keys and the same lookups are permutations of each other. -/
theorem perm_of_get? {m₁ m₂ : HMap κ ν} [DecidableEq ν] (h1 : (m₁.map (·.1)).Nodup) (h2 : (m₂.map (·.1)).Nodup)
    (h : ∀ k, m₁.get? k = m₂.get? k) : m₁.Perm m₂ := by
  have n1 : m₁.Nodup := (List.pairwise_map.1 h1).imp (fun hne heq => hne (by rw [heq]))
  have n2 : m₂.Nodup := (List.pairwise_map.1 h2).imp (fun hne heq => hne (by rw [heq]))
  rw [List.perm_ext_iff_of_nodup n1 n2]
  intro ⟨k, v⟩
  constructor
  · intro hm; exact get?_eq_some_mem ((h k) ▸ mem_get? h1 hm)
  · intro hm; exact get?_eq_some_mem ((h k).symm ▸ mem_get? h2 hm)

theorem get?_perm {m₁ m₂ : HMap κ ν} (h1 : (m₁.map (·.1)).Nodup) (h : m₁.Perm m₂) (k : κ) :
    m₁.get? k = m₂.get? k := by
  have h2 : (m₂.map (·.1)).Nodup := (h.map _).nodup_iff.1 h1
  cases hk : m₁.get? k with
  | some v => exact (mem_get? h2 (h.mem_iff.1 (get?_eq_some_mem hk))).symm
  | none =>
    rw [get?_eq_none] at hk
    symm
    rw [get?_eq_none]
    rwa [← (h.map _).mem_iff]

end MysqlCdc.HMap
