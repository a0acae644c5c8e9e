import Verif.Spec.Files
import Verif.Lemmas.Channel
import Verif.Lemmas.Events
import Verif.Lemmas.Decoded
import Verif.Lemmas.Safe
/-!
# Event headers as bytes
-/

namespace MysqlCdc

open Spec

theorem headerBytes_length (h : EventHeader) : (headerBytes h).length = 19 := by simp [headerBytes]

/-- Every 19 bytes are a header. -/
theorem header_exists (bs : Bytes) (hl : bs.length = 19) : ∃ h, HeaderFits h ∧ headerBytes h = bs := by
  have part : ∀ i k, i + k ≤ 19 → ((bs.drop i).take k).length = k := by intro i k h; simp; omega
  have bound : ∀ i k, i + k ≤ 19 → leVal ((bs.drop i).take k) < 256 ^ k := by
    intro i k h
    have := leVal_lt ((bs.drop i).take k)
    rwa [part i k h] at this
  refine ⟨⟨leVal ((bs.drop 0).take 4), leVal ((bs.drop 4).take 1), leVal ((bs.drop 5).take 4), leVal ((bs.drop 9).take 4),
    leVal ((bs.drop 13).take 4), leVal ((bs.drop 17).take 2)⟩, ⟨bound 0 4 (by omega), bound 4 1 (by omega), bound 5 4 (by omega),
    bound 9 4 (by omega), bound 13 4 (by omega), bound 17 2 (by omega)⟩, ?_⟩
  unfold headerBytes
  simp only [le_leVal' (part 0 4 (by omega)), le_leVal' (part 4 1 (by omega)), le_leVal' (part 5 4 (by omega)),
    le_leVal' (part 9 4 (by omega)), le_leVal' (part 13 4 (by omega)), le_leVal' (part 17 2 (by omega))]
  have glue : ∀ (i k : Nat) (tail : Bytes), tail = bs.drop (i + k) → (bs.drop i).take k ++ tail = bs.drop i := by
    intro i k tail ht
    rw [ht, ← List.drop_drop]
    exact List.take_append_drop k _
  simp only [List.append_assoc]
  have e : (bs.drop 17).take 2 = bs.drop 17 := List.take_of_length_le (by simp; omega)
  rw [e, glue 13 4 _ rfl, glue 9 4 _ rfl, glue 5 4 _ rfl, glue 4 1 _ rfl, glue 0 4 _ rfl, List.drop_zero]

theorem parseHeader_run {h : EventHeader} (hf : HeaderFits h) (rest : Bytes) : parseHeader.run (headerBytes h ++ rest) = .ok h :=
  (parseHeader_parses hf).run_append rest

theorem headerBytes_inj {h h' : EventHeader} (hf : HeaderFits h) (hf' : HeaderFits h') (he : headerBytes h = headerBytes h') :
    h = h' := by
  have h1 := parseHeader_run hf []
  rw [he, parseHeader_run hf' []] at h1
  simpa using h1.symm

/-- The header at the start of at least 19 bytes. -/
theorem split_header (bs : Bytes) (hl : 19 ≤ bs.length) :
    ∃ h, HeaderFits h ∧ bs = headerBytes h ++ bs.drop 19 := by
  obtain ⟨h, hf, he⟩ := header_exists (bs.take 19) (by simp; omega)
  exact ⟨h, hf, by rw [he, List.take_append_drop]⟩

/-- Fewer than 19 bytes are no header. -/
theorem parseHeader_short (bs : Bytes) (hl : bs.length < 19) : ∃ e, parseHeader.run bs = .err e := by
  unfold P.run
  cases hr : parseHeader bs 0 with
  | err e => exact ⟨e, rfl⟩
  | panic =>
    exfalso
    have : Safe bs parseHeader fun _ => True := by
      unfold parseHeader
      exact (Safe.uLE bs 4).bind fun _ _ => (Safe.uLE bs 1).bind fun _ _ => (Safe.uLE bs 4).bind fun _ _ =>
        (Safe.uLE bs 4).bind fun _ _ => (Safe.uLE bs 4).bind fun _ _ => (Safe.uLE bs 2).map _
    exact (this 0).1 hr
  | hang =>
    exfalso
    simp only [parseHeader, P.seq_apply] at hr
    have hang : ∀ k pos, P.uLE k bs pos ≠ .hang := by
      intro k pos
      unfold P.uLE
      rw [P.seq_apply]
      unfold P.readExact
      split <;> simp
    have : ∀ {β : Type} (k pos : Nat) (f : Nat × Nat → Res β), (P.uLE k bs pos).bind f = .hang →
        ∃ x, P.uLE k bs pos = .ok x ∧ f x = .hang := by
      intro β k pos f h
      cases hu : P.uLE k bs pos with
      | ok x => rw [hu] at h; exact ⟨x, rfl, h⟩
      | err e => rw [hu] at h; simp at h
      | panic => rw [hu] at h; simp at h
      | hang => exact absurd hu (hang k pos)
    obtain ⟨_, -, hr⟩ := this _ _ _ hr
    obtain ⟨_, -, hr⟩ := this 1 _ _ hr
    obtain ⟨_, -, hr⟩ := this _ _ _ hr
    obtain ⟨_, -, hr⟩ := this _ _ _ hr
    obtain ⟨_, -, hr⟩ := this _ _ _ hr
    obtain ⟨_, -, hr⟩ := this _ _ _ hr
    simp at hr
  | ok x =>
    exfalso
    simp only [parseHeader, P.seq_apply] at hr
    have : ∀ {β : Type} (k pos : Nat) (f : Nat × Nat → Res β) (y : β), (P.uLE k bs pos).bind f = .ok y →
        ∃ x, P.uLE k bs pos = .ok x ∧ f x = .ok y := by
      intro β k pos f y h
      cases hu : P.uLE k bs pos with
      | ok x => rw [hu] at h; exact ⟨x, rfl, h⟩
      | _ => rw [hu] at h; simp at h
    obtain ⟨_, h1, hr⟩ := this _ _ _ _ hr
    obtain ⟨rfl, -, -, -⟩ := uLE_inv h1
    obtain ⟨_, h2, hr⟩ := this 1 _ _ _ hr
    obtain ⟨rfl, -, -, -⟩ := uLE_inv h2
    obtain ⟨_, h3, hr⟩ := this _ _ _ _ hr
    obtain ⟨rfl, -, -, -⟩ := uLE_inv h3
    obtain ⟨_, h4, hr⟩ := this _ _ _ _ hr
    obtain ⟨rfl, -, -, -⟩ := uLE_inv h4
    obtain ⟨_, h5, hr⟩ := this _ _ _ _ hr
    obtain ⟨rfl, -, -, -⟩ := uLE_inv h5
    obtain ⟨_, h6, hr⟩ := this _ _ _ _ hr
    obtain ⟨-, -, h7, -⟩ := uLE_inv h6
    simp at h7
    omega

end MysqlCdc
