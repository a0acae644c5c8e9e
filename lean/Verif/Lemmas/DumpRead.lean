import Verif.Lemmas.Packets
import Verif.Spec.Packets
/-!
# A dump request can be read in one way only
-/

namespace MysqlCdc

open Spec

theorem le_append_inj {k a b : Nat} {x y : Bytes} (ha : a < 256 ^ k) (hb : b < 256 ^ k) (h : le k a ++ x = le k b ++ y) : a = b ∧ x = y := by
  obtain ⟨h1, h2⟩ := List.append_inj h (by rw [le_length, le_length])
  exact ⟨le_inj ha hb h1, h2⟩

theorem intervals_inj {a b : List Interval} {x y : Bytes} (ha : ∀ iv ∈ a, iv.start < 2 ^ 64 ∧ iv.end < 2 ^ 64 - 1)
    (hb : ∀ iv ∈ b, iv.start < 2 ^ 64 ∧ iv.end < 2 ^ 64 - 1) (hl : a.length = b.length)
    (h : intervalsBytes a ++ x = intervalsBytes b ++ y) : a = b ∧ x = y := by
  induction a generalizing b with
  | nil =>
    obtain rfl : b = [] := List.length_eq_zero_iff.1 hl.symm
    exact ⟨rfl, h⟩
  | cons i a ih =>
    cases b with
    | nil => simp at hl
    | cons j b =>
      have hi := ha i (by simp)
      have hj := hb j (by simp)
      simp only [intervalsBytes, List.flatMap_cons, List.append_assoc] at h
      obtain ⟨h1, h⟩ := le_append_inj (k := 8) (by omega) (by omega) h
      obtain ⟨h2, h⟩ := le_append_inj (k := 8) (by omega) (by omega) h
      obtain ⟨rfl, rfl⟩ := ih (fun iv hiv => ha iv (by simp [hiv])) (fun iv hiv => hb iv (by simp [hiv])) (by simpa using hl) h
      refine ⟨?_, rfl⟩
      obtain rfl : i = j := by
        cases i; cases j
        simp only at h1 h2
        obtain rfl := h1
        congr
        omega
      rfl

theorem gtidSets_inj {a b : List (Bytes × List Interval)} {x y : Bytes}
    (ha : ∀ s ∈ a, s.1.length = 16 ∧ s.2.length < 2 ^ 64 ∧ ∀ iv ∈ s.2, iv.start < 2 ^ 64 ∧ iv.end < 2 ^ 64 - 1)
    (hb : ∀ s ∈ b, s.1.length = 16 ∧ s.2.length < 2 ^ 64 ∧ ∀ iv ∈ s.2, iv.start < 2 ^ 64 ∧ iv.end < 2 ^ 64 - 1)
    (hl : a.length = b.length)
    (h : (a.flatMap fun s => s.1 ++ le 8 s.2.length ++ intervalsBytes s.2) ++ x =
      (b.flatMap fun s => s.1 ++ le 8 s.2.length ++ intervalsBytes s.2) ++ y) : a = b ∧ x = y := by
  induction a generalizing b with
  | nil =>
    obtain rfl : b = [] := List.length_eq_zero_iff.1 hl.symm
    exact ⟨rfl, h⟩
  | cons i a ih =>
    cases b with
    | nil => simp at hl
    | cons j b =>
      have hi := ha i (by simp)
      have hj := hb j (by simp)
      simp only [List.flatMap_cons, List.append_assoc] at h
      obtain ⟨h1, h⟩ := List.append_inj h (by rw [hi.1, hj.1])
      obtain ⟨h2, h⟩ := le_append_inj (k := 8) (by omega) (by omega) h
      obtain ⟨h3, h⟩ := intervals_inj hi.2.2 hj.2.2 h2 h
      obtain ⟨rfl, rfl⟩ := ih (b := b) (fun s hs => ha s (by simp [hs])) (fun s hs => hb s (by simp [hs])) (by simpa using hl)
        (by simpa using h)
      exact ⟨by rw [Prod.ext h1 h3], rfl⟩

/-- The set a server reads from a dump request is the one that was written. -/
theorem dumpGtid_read {flags id flags' id' position position' : Nat} {file file' : RStr} {sets sets' : List (Bytes × List Interval)} {p : Bytes}
    (h : DumpGtidPacket flags id file position sets p) (h' : DumpGtidPacket flags' id' file' position' sets' p) : sets = sets' := by
  generalize hp : p = q at h'
  cases h with
  | mk h1 h2 h3 h4 h5 h6 =>
    cases h' with
    | mk g1 g2 g3 g4 g5 g6 =>
      simp only [List.append_assoc] at hp
      obtain ⟨-, hp⟩ := le_append_inj (by decide) (by decide) hp
      obtain ⟨-, hp⟩ := le_append_inj (k := 2) h1 g1 hp
      obtain ⟨-, hp⟩ := le_append_inj (k := 4) h2 g2 hp
      obtain ⟨hl, hp⟩ := le_append_inj (k := 4) h3 g3 hp
      obtain ⟨-, hp⟩ := List.append_inj hp hl
      obtain ⟨-, hp⟩ := le_append_inj (k := 8) (by omega) (by omega) hp
      obtain ⟨-, hp⟩ := le_append_inj (k := 4) h6 g6 hp
      unfold gtidSetBytes at hp
      obtain ⟨hl, hp⟩ := le_append_inj (k := 8) (by have := h5.1; omega) (by have := g5.1; omega) hp
      exact (gtidSets_inj h5.2 g5.2 hl (x := []) (y := []) (by simpa using hp)).1

/-- A dump request by position is none by GTIDs. -/
theorem dump_not_gtid {flags id flags' id' position position' : Nat} {file file' : RStr} {sets : List (Bytes × List Interval)} {p : Bytes}
    (h : DumpPacket flags id file position p) : ¬DumpGtidPacket flags' id' file' position' sets p := by
  intro h'
  generalize hp : p = q at h'
  cases h
  cases h'
  simp only [List.append_assoc] at hp
  have := (le_append_inj (by decide) (by decide) hp).1
  omega

end MysqlCdc
