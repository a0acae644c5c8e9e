import Verif.Spec.Safety
import Verif.Lemmas.Bitmaps
import Verif.Lemmas.Progress
/-!
# What was in the bytes when a parser succeeded
-/

namespace MysqlCdc

open Spec

theorem readExact_inv {n : Nat} {buf : Bytes} {pos : Nat} {r : Bytes × Nat} (h : P.readExact n buf pos = .ok r) :
    r = ((buf.drop pos).take n, pos + n) ∧ n ≤ (buf.drop pos).length := by
  unfold P.readExact at h
  split at h
  · next hl => simp at h; exact ⟨h.symm, by simpa using hl⟩
  · simp at h

theorem uLE_inv {k : Nat} {buf : Bytes} {pos : Nat} {r : Nat × Nat} (h : P.uLE k buf pos = .ok r) :
    r = (leVal ((buf.drop pos).take k), pos + k) ∧ le k r.1 = (buf.drop pos).take k ∧ k ≤ (buf.drop pos).length ∧
      r.1 < 256 ^ k := by
  unfold P.uLE at h
  rw [P.seq_apply] at h
  cases h1 : P.readExact k buf pos with
  | ok x =>
    obtain ⟨e, hl⟩ := readExact_inv h1
    rw [h1] at h
    simp at h
    subst e
    rw [← h]
    have hlen : ((buf.drop pos).take k).length = k := by rw [List.length_take]; omega
    refine ⟨rfl, ?_, hl, ?_⟩
    · have := le_leVal ((buf.drop pos).take k)
      rwa [hlen] at this
    · have := leVal_lt ((buf.drop pos).take k)
      rwa [hlen] at this
  | _ => rw [h1] at h; simp at h

theorem u8_inv {buf : Bytes} {pos : Nat} {r : Nat × Nat} (h : P.u8 buf pos = .ok r) :
    ∃ b, buf.drop pos = b :: buf.drop (pos + 1) ∧ r = (b.toNat, pos + 1) := by
  obtain ⟨h1, _, h3, _⟩ := uLE_inv (k := 1) h
  cases hd : buf.drop pos with
  | nil => rw [hd] at h3; simp at h3
  | cons b bs =>
    rw [hd] at h1
    refine ⟨b, ?_, by simpa [leVal] using h1⟩
    rw [← List.drop_drop, hd]
    simp

theorem readLenEncNum_inv {buf : Bytes} {pos : Nat} {r : Nat × Nat} (h : readLenEncNum buf pos = .ok r) :
    ∃ enc, LenEnc r.1 enc ∧ enc <+: buf.drop pos ∧ r.2 = pos + enc.length := by
  unfold readLenEncNum at h
  rw [P.seq_apply] at h
  cases h1 : P.u8 buf pos with
  | ok x =>
    obtain ⟨b, hd, rfl⟩ := u8_inv h1
    rw [h1] at h
    simp only [Res.bind] at h
    have two : ∀ (k : Nat) (mark : UInt8), b = mark → P.uLE k buf (pos + 1) = .ok r →
        (mark :: le k r.1) <+: buf.drop pos ∧ r.2 = pos + (mark :: le k r.1).length ∧ r.1 < 256 ^ k := by
      intro k mark hb hr
      obtain ⟨e1, e2, e3, e4⟩ := uLE_inv hr
      refine ⟨?_, by rw [List.length_cons, le_length, e1]; simp only; omega, e4⟩
      rw [e2, hd, hb]
      exact List.cons_prefix_cons.2 ⟨rfl, List.take_prefix _ _⟩
    have mark : ∀ n : Nat, n < 256 → b.toNat = n → b = UInt8.ofNat n := by
      intro n hn hb
      apply UInt8.toNat_inj.1
      rw [hb]; simp [Nat.mod_eq_of_lt hn]
    split at h
    · next hlt =>
      simp at h
      subst h
      refine ⟨le 1 b.toNat, .one hlt, ?_, by simp⟩
      rw [hd, show le 1 b.toNat = [b] by simp [le]]
      exact List.cons_prefix_cons.2 ⟨rfl, List.nil_prefix⟩
    · split at h
      · simp [P.fail] at h
      · split at h
        · next hb => obtain ⟨p1, p2, p3⟩ := two 2 _ (mark _ (by omega) hb) h; exact ⟨_, .two (by simpa using p3), p1, p2⟩
        · split at h
          · next hb => obtain ⟨p1, p2, p3⟩ := two 3 _ (mark _ (by omega) hb) h; exact ⟨_, .three (by simpa using p3), p1, p2⟩
          · split at h
            · next hb => obtain ⟨p1, p2, p3⟩ := two 8 _ (mark _ (by omega) hb) h; exact ⟨_, .eight (by simpa using p3), p1, p2⟩
            · simp [P.fail] at h
  | _ => rw [h1] at h; simp at h

/-- A parser that succeeded did not read past the end. -/
def Within {α : Type} (p : P α) : Prop := ∀ buf pos r, p buf pos = .ok r → r.2 ≤ max pos buf.length

theorem Within.bind {α β : Type} {p : P α} {f : α → P β} (h1 : Within p) (h2 : ∀ a, Within (f a)) : Within (p >>= f) := by
  intro buf pos r hr
  rw [P.seq_apply] at hr
  cases hp : p buf pos with
  | ok x =>
    rw [hp] at hr
    have := h1 buf pos x hp
    have := h2 x.1 buf x.2 r hr
    omega
  | _ => rw [hp] at hr; simp at hr

theorem Within.u8 : Within P.u8 := by
  intro buf pos r h
  obtain ⟨b, hd, rfl⟩ := u8_inv h
  have : (buf.drop pos).length = buf.length - pos := List.length_drop
  rw [hd] at this
  simp at this ⊢
  omega

theorem Within.lift {α : Type} (r : Res α) : Within (P.lift r) := by
  intro buf pos x h
  cases r <;> simp [P.lift] at h
  rw [← h]; simp only; omega

theorem Within.bitmapLoop {set : Nat → UInt8 → List Bool → Res (List Bool)} (is : List Nat) (res : List Bool) :
    Within (bitmapLoop set is res) := by
  induction is generalizing res with
  | nil => intro buf pos r h; simp [MysqlCdc.bitmapLoop] at h; rw [← h]; simp only; omega
  | cons i is ih => exact Within.u8.bind fun v => (Within.lift _).bind fun r => ih r

theorem readBitmap_inv {n : Nat} {buf : Bytes} {pos : Nat} {r : List Bool × Nat}
    (h : readBitmapLittleEndian n buf pos = .ok r) :
    r.1.length = n ∧ BitmapAt buf pos r.1 ∧ r.2 = pos + bytesFor n := by
  have hn : n < 2 ^ 63 := by
    apply Classical.byContradiction
    intro hc
    unfold readBitmapLittleEndian at h
    rw [show allocZeroed n = .panic by simp [allocZeroed, hc]] at h
    simp [P.lift] at h
  have hstep := (Step.bitmapLE n buf pos).2 r h
  have hin : r.2 ≤ max pos buf.length :=
    ((Within.lift (allocZeroed n)).bind fun _ => Within.bitmapLoop _ _) buf pos r h
  by_cases h0 : n = 0
  · subst h0
    have : readBitmapLittleEndian 0 buf pos = .ok ([], pos) := rfl
    rw [this] at h
    simp at h
    subst h
    refine ⟨rfl, ⟨[], ⟨by simp [bytesFor], by simp⟩, List.nil_prefix⟩, rfl⟩
  · have hlen : pos + bytesFor n ≤ buf.length := by unfold bytesFor; omega
    let enc := (buf.drop pos).take (bytesFor n)
    have hel : enc.length = bytesFor n := by simp [enc]; omega
    let bits := (List.range n).map fun i => bitOf (enc[i / 8]?.getD 0) (i % 8)
    have hbl : bits.length = n := by simp [bits]
    have hb : BitmapLE bits enc := by
      refine ⟨by rw [hel, hbl], fun i b hi => ?_⟩
      have hin' : i < n := by rw [← hbl]; exact (List.getElem?_eq_some_iff.1 hi).1
      have hi8 : i / 8 < enc.length := by rw [hel]; unfold bytesFor; omega
      refine ⟨enc[i / 8], List.getElem?_eq_getElem hi8, ?_⟩
      simp only [bits, List.getElem?_map, List.getElem?_range hin', Option.map_some, Option.some.injEq,
        List.getElem?_eq_getElem hi8, Option.getD_some] at hi
      exact hi
    have hp := readBitmapLittleEndian_parses hb (by omega) (buf.take pos) (buf.drop (pos + bytesFor n))
    have hsplit : buf.take pos ++ (enc ++ buf.drop (pos + bytesFor n)) = buf := by
      simp only [enc]
      rw [← List.drop_drop, List.take_append_drop, List.take_append_drop]
    rw [hsplit, hbl, show (buf.take pos).length = pos by simp; omega, h] at hp
    simp only [Res.ok.injEq] at hp
    subst hp
    refine ⟨hbl, ⟨enc, hb, List.take_prefix _ _⟩, by simp [hel]⟩

theorem bind_inv {α β : Type} {p : P α} {f : α → P β} {buf : Bytes} {pos : Nat} {r : β × Nat} (h : (p >>= f) buf pos = .ok r) :
    ∃ x, p buf pos = .ok x ∧ f x.1 buf x.2 = .ok r := by
  rw [P.seq_apply] at h
  cases hp : p buf pos with
  | ok x => rw [hp] at h; exact ⟨x, rfl, h⟩
  | _ => rw [hp] at h; simp at h

theorem seek_inv {k : Int} {buf : Bytes} {pos : Nat} {r : Unit × Nat} (h : P.seekCur k buf pos = .ok r) :
    0 ≤ (pos : Int) + k ∧ r.2 = ((pos : Int) + k).toNat := by
  unfold P.seekCur at h
  split at h
  · next h0 => simp at h; exact ⟨h0, by rw [← h]⟩
  · simp at h

theorem parseHead_inv {version : Nat} {buf : Bytes} {r : (Nat × Nat × Nat) × Nat} (h : parseHead version buf 0 = .ok r) :
    ColumnCountAt version buf r.1.2.2 r.2 ∧ r.1.1 = leVal (buf.take 6) := by
  unfold parseHead at h
  obtain ⟨x, h1, h⟩ := bind_inv h
  obtain ⟨rfl, _⟩ := uLE_inv h1
  obtain ⟨y, h2, h⟩ := bind_inv h
  obtain ⟨rfl, _⟩ := uLE_inv h2
  split at h
  · next hv =>
    obtain ⟨z, h3, h⟩ := bind_inv h
    obtain ⟨rfl, _⟩ := uLE_inv h3
    obtain ⟨s, h4, h⟩ := bind_inv h
    obtain ⟨p1, p2⟩ := seek_inv h4
    obtain ⟨w, h5, h⟩ := bind_inv h
    obtain ⟨enc, q1, q2, q3⟩ := readLenEncNum_inv h5
    simp only [P.ret_apply, Res.ok.injEq] at h
    subst h
    have hs : s.2 = 8 + leVal ((buf.drop 8).take 2) := by
      rw [p2]
      simp only [Nat.zero_add, Nat.reduceAdd] at p1 ⊢
      omega
    refine ⟨⟨enc, q1, ?_⟩, rfl⟩
    simp only [hv, if_true]
    rw [← hs]
    exact ⟨q2, q3⟩
  · next hv =>
    obtain ⟨w, h5, h⟩ := bind_inv h
    obtain ⟨enc, q1, q2, q3⟩ := readLenEncNum_inv h5
    simp only [P.ret_apply, Res.ok.injEq] at h
    subst h
    refine ⟨⟨enc, q1, ?_⟩, rfl⟩
    simp only [hv, if_false]
    exact ⟨q2, q3⟩

end MysqlCdc
