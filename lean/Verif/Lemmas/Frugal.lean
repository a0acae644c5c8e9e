import Verif.Lemmas.Memory
import Verif.Lemmas.Exact
/-!
# How much memory is asked for

The requests of a parser are paid for by the bytes it reads, `K` for each, and by a credit that it is given and that it leaves to what follows.
-/

namespace MysqlCdc

open Spec

/-- The requests of a parser that stopped: a paid part, and perhaps one request that is not paid for because the bytes end before it is filled. -/
def Stops {α : Type} (B : Nat) (r : Res α) (sizes : List Nat) : Prop :=
  ∃ us big, sizes = us ++ big ∧ us.sum ≤ B ∧ big.length ≤ 1 ∧ (big ≠ [] → r = .err (.io .unexpectedEof))

/-- `K` for each byte read and the credit `cin` pay for the requests and leave the credit `cout`. -/
def Frugal {α : Type} (K cin : Nat) (p : PM α) (cout : α → Nat) : Prop := ∀ buf pos,
  (∀ a pos', (p buf pos).1 = .ok (a, pos') → pos ≤ pos' ∧
    (p buf pos).2.sum + K * min pos buf.length + cout a ≤ K * min pos' buf.length + cin) ∧
  ((∀ x, (p buf pos).1 ≠ .ok x) → (p buf pos).1 ≠ .hang → Stops (K * buf.length + cin - K * min pos buf.length) (p buf pos).1 (p buf pos).2)

theorem Stops.mono {α : Type} {B C : Nat} {r : Res α} {ts : List Nat} (h : Stops B r ts) (hBC : B ≤ C) : Stops C r ts := by
  obtain ⟨us, big, h1, h2, h3, h4⟩ := h
  exact ⟨us, big, h1, by omega, h3, h4⟩

theorem Stops.none {α : Type} (B : Nat) (r : Res α) : Stops B r [] := ⟨[], [], rfl, by simp, by simp, by simp⟩

theorem Stops.prepend {α β : Type} {B C : Nat} {r : Res α} {r' : Res β} {us : List Nat} (ts : List Nat) (h : Stops B r us) (hC : ts.sum + B ≤ C)
    (hr : r = .err (.io .unexpectedEof) → r' = .err (.io .unexpectedEof)) : Stops C r' (ts ++ us) := by
  obtain ⟨vs, big, rfl, h2, h3, h4⟩ := h
  exact ⟨ts ++ vs, big, by simp, by rw [List.sum_append]; omega, h3, fun hb => hr (h4 hb)⟩

theorem Stops.cast {α β : Type} {B : Nat} {r : Res α} {r' : Res β} {ts : List Nat} (h : Stops B r ts)
    (hr : r = .err (.io .unexpectedEof) → r' = .err (.io .unexpectedEof)) : Stops B r' ts := by
  obtain ⟨us, big, h1, h2, h3, h4⟩ := h
  exact ⟨us, big, h1, h2, h3, fun hb => hr (h4 hb)⟩

theorem min_mul_le (K pos len : Nat) : K * min pos len ≤ K * len := Nat.mul_le_mul_left K (by omega)

theorem Frugal.mono {α : Type} {K cin cin' : Nat} {p : PM α} {cout cout' : α → Nat} (h : Frugal K cin p cout) (d : Nat) (hi : cin + d ≤ cin')
    (ho : ∀ a, cout' a ≤ cout a + d) : Frugal K cin' p cout' := by
  intro buf pos
  refine ⟨fun a pos' hr => ?_, fun hr hh => ((h buf pos).2 hr hh).mono ?_⟩
  · have := (h buf pos).1 a pos' hr
    have := ho a
    exact ⟨by omega, by omega⟩
  · omega

theorem Frugal.bind {α β : Type} {K cin : Nat} {p : PM α} {f : α → PM β} {cmid : α → Nat} {cout : β → Nat} (h1 : Frugal K cin p cmid)
    (h2 : ∀ a, Frugal K (cmid a) (f a) cout) : Frugal K cin (p >>= f) cout := by
  intro buf pos
  rw [PM.bind_def]
  have a1 := h1 buf pos
  have m1 := min_mul_le K pos buf.length
  unfold PM.seq
  revert a1
  rcases p buf pos with ⟨⟨a, pos'⟩ | e | _ | _, ts⟩
  · intro a1
    have a2 := a1.1 a pos' rfl
    have b := h2 a buf pos'
    have m2 := min_mul_le K pos' buf.length
    refine ⟨fun b' pos'' hr => ?_, fun hr hh => (b.2 hr hh).prepend ts ?_ id⟩
    · have := b.1 b' pos'' hr
      refine ⟨by omega, ?_⟩
      simp only [List.sum_append] at *
      omega
    · simp only at *
      omega
  · intro a1
    refine ⟨fun _ _ h => (nomatch h), fun _ _ => ?_⟩
    exact (a1.2 (by simp) (by simp)).cast (by simp)
  · intro a1
    refine ⟨fun _ _ h => (nomatch h), fun _ _ => ?_⟩
    exact (a1.2 (by simp) (by simp)).cast (by simp)
  · intro _
    exact ⟨fun _ _ h => (nomatch h), fun _ h => absurd rfl h⟩

theorem Frugal.free {α : Type} {k : Nat} {p : P α} (K c : Nat) (h : Step k p) : Frugal K c (.free p) (fun _ => c) := by
  intro buf pos
  refine ⟨fun a pos' hr => ?_, fun _ _ => Stops.none _ _⟩
  have := (h buf pos).2 (a, pos') hr
  simp only at this
  refine ⟨by omega, ?_⟩
  have : K * min pos buf.length ≤ K * min pos' buf.length := Nat.mul_le_mul_left K (by omega)
  simp only [PM.free, List.sum_nil]
  omega

theorem Frugal.pure {α : Type} (K c : Nat) (a : α) : Frugal K c (Pure.pure a) (fun _ => c) := Frugal.free K c (Step.pure a)

theorem Frugal.map {α β : Type} {K cin c : Nat} {p : PM α} (h : Frugal K cin p (fun _ => c)) (f : α → β) :
    Frugal K cin (p >>= fun a => Pure.pure (f a)) (fun _ => c) := h.bind fun _ => .pure K c _

theorem Frugal.request (K c n : Nat) : Frugal K (c + n) (.request n) (fun _ => c) := by
  intro buf pos
  refine ⟨fun a pos' hr => ?_, fun h _ => absurd rfl (h _)⟩
  simp only [PM.request, Res.ok.injEq, Prod.mk.injEq] at hr
  obtain ⟨_, rfl⟩ := hr
  simp [PM.request]
  omega

/-- A request that is filled with what is read. -/
theorem Frugal.fill {α : Type} {p : P α} {n k : Nat} (K c : Nat) (size : α → Nat) (hK : n ≤ K * k) (h1 : EndsOnly p) (h2 : n < 2 ^ 63 → ∀ buf pos, p buf pos ≠ .panic)
    (h4 : ∀ buf pos r, p buf pos = .ok r → r.2 = pos + k ∧ (k ≠ 0 → pos + k ≤ buf.length) ∧ size r.1 + n ≤ K * k) :
    Frugal K c (PM.alloc n >>= fun _ => .free p) (fun a => c + size a) := by
  intro buf pos
  rw [PM.bind_def]
  unfold PM.seq PM.alloc
  by_cases hn : n < 2 ^ 63
  · rw [if_pos hn]
    simp only [PM.free, List.append_nil]
    refine ⟨fun a pos' hr => ?_, fun hr hh => ⟨[], [n], rfl, by simp, by simp, fun _ => ?_⟩⟩
    · obtain ⟨q1, q2, q3⟩ := h4 buf pos _ hr
      simp only at q1 q3
      subst q1
      refine ⟨by omega, ?_⟩
      simp only [List.sum_cons, List.sum_nil]
      by_cases hk : k = 0
      · subst hk; simp only [Nat.mul_zero, Nat.add_zero] at *; omega
      · have := q2 hk
        rw [Nat.min_eq_left (by omega : pos ≤ buf.length), Nat.min_eq_left this, Nat.mul_add]
        omega
    · cases hp : p buf pos with
      | ok x => exact absurd hp (hr x)
      | err e => rw [h1 buf pos e hp]
      | panic => exact absurd hp (h2 hn buf pos)
      | hang => exact absurd hp hh
  · rw [if_neg hn]
    exact ⟨fun _ _ h => (nomatch h), fun _ _ => Stops.none _ _⟩

theorem Frugal.readVec (K c n : Nat) (hK : 1 ≤ K) : Frugal K c (.readVec n) (fun bs => c + (K - 1) * bs.length) := by
  have hn : n ≤ K * n := Nat.le_mul_of_pos_left n hK
  refine Frugal.fill K c (fun bs => (K - 1) * bs.length) hn (ends_readExact n) (fun _ buf pos => ((Safe.readExact buf n) pos).1) fun buf pos r hr => ?_
  unfold P.readExact at hr
  split at hr
  · next h =>
    simp only [Res.ok.injEq] at hr
    subst hr
    rw [List.length_drop] at h
    refine ⟨rfl, fun _ => by omega, ?_⟩
    simp only [List.length_take, List.length_drop]
    rw [Nat.min_eq_left h, Nat.sub_mul]
    omega
  · cases hr

theorem Frugal.bitmap {set : Nat → UInt8 → List Bool → Res (List Bool)} (K c n : Nat) (hK : 8 ≤ K) (h1 : ∀ i v r e, set i v r ≠ .err e)
    (h2 : n < 2 ^ 63 → ∀ buf, Safe buf (bitmapLoop set (List.range ((n + 7) / 8)) (List.replicate n false)) fun _ => True) :
    Frugal K c (PM.alloc n >>= fun _ => .free (bitmapLoop set (List.range ((n + 7) / 8)) (List.replicate n false)))
      (fun _ => c + (K - 8) * ((n + 7) / 8)) := by
  have e : K * ((n + 7) / 8) = (K - 8) * ((n + 7) / 8) + 8 * ((n + 7) / 8) := by rw [← Nat.add_mul, Nat.sub_add_cancel hK]
  refine Frugal.fill K c (fun _ => (K - 8) * ((n + 7) / 8)) (k := (n + 7) / 8) (by omega) (ends_bitmapLoop h1 _ _) (fun hn buf pos => (h2 hn buf pos).1) fun buf pos r hr => ?_
  have := bitmapLoop_length hr
  rw [List.length_range] at this
  refine ⟨this.1, fun hk => this.2 ?_, by omega⟩
  intro hc
  rw [List.range_eq_nil] at hc
  exact hk hc

theorem Frugal.bitmapLE (K c n : Nat) (hK : 8 ≤ K) : Frugal K c (readBitmapLittleEndianM n) (fun _ => c + (K - 8) * ((n + 7) / 8)) :=
  Frugal.bitmap K c n hK (fun _ _ _ _ => setBitsLE_ne_err _ _ _ _ _ _) fun hn buf => by
    have := Safe.bitmapLE (buf := buf) hn
    unfold readBitmapLittleEndian at this
    rw [allocZeroed_ok hn] at this
    exact this.any

theorem Frugal.bitmapBE (K c n : Nat) (hK : 8 ≤ K) : Frugal K c (readBitmapBigEndianM n) (fun _ => c + (K - 8) * ((n + 7) / 8)) :=
  Frugal.bitmap K c n hK (fun _ _ _ _ => setBitsBE_ne_err _ _ _ _ _ _ _) fun hn buf => by
    have := Safe.bitmapBE (buf := buf) hn
    unfold readBitmapBigEndian at this
    rw [allocZeroed_ok hn] at this
    exact this.any

theorem Frugal.bitmapRev (K c n : Nat) (hK : 8 ≤ K) : Frugal K c (readBitmapRevertedM n) (fun _ => c + (K - 8) * ((n + 7) / 8)) :=
  Frugal.bitmap K c n hK (fun _ _ _ _ => setBitsRev_ne_err _ _ _ _ _ _) fun hn buf => by
    have := Safe.bitmapRev (buf := buf) hn
    unfold readBitmapReverted at this
    rw [allocZeroed_ok hn] at this
    exact this.any

/-- The credit after reading a vector is left to what needs none. -/
theorem Frugal.keep {α : Type} {K c : Nat} {p : PM α} {cout : α → Nat} (h : Frugal K c p cout) (ho : ∀ a, c ≤ cout a) : Frugal K c p (fun _ => c) :=
  h.mono 0 (by omega) (by simpa using ho)

theorem Frugal.readString (K c n : Nat) (hK : 1 ≤ K) : Frugal K c (readStringM n) (fun _ => c) :=
  ((Frugal.readVec K c n hK).keep fun _ => by omega).bind fun _ => Frugal.free K c (Step.lift (fromUtf8_ne_hang _))

theorem Frugal.readLenEncStr (K c : Nat) (hK : 1 ≤ K) : Frugal K c readLenEncStrM (fun _ => c) :=
  (Frugal.free K c Step.readLenEncNum).bind fun n => .readString K c n hK

theorem Frugal.within {α : Type} {K' : Nat} {p : PM α} {cout : α → Nat} (K c : Nat) (h : Frugal K' 0 p cout) (bytes : Bytes) :
    Frugal K (c + K' * bytes.length) (.within p bytes) (fun _ => c) := by
  intro buf pos
  have a := h bytes 0
  have m1 := min_mul_le K pos buf.length
  unfold PM.within
  revert a
  rcases p bytes 0 with ⟨⟨a, pos'⟩ | e | _ | _, ts⟩
  · intro a1
    refine ⟨fun b pos'' hr => ?_, fun hr => absurd rfl (hr _)⟩
    simp only [Res.ok.injEq, Prod.mk.injEq] at hr
    obtain ⟨_, rfl⟩ := hr
    have a2 := (a1.1 a pos' rfl).2
    have m2 := min_mul_le K' pos' bytes.length
    refine ⟨Nat.le_refl _, ?_⟩
    simp only at *
    omega
  · intro a1
    refine ⟨fun _ _ h => (nomatch h), fun _ _ => ?_⟩
    have := (a1.2 (by simp) (by simp)).prepend (r' := (Res.err e : Res (α × Nat))) (C := K * buf.length + (c + K' * bytes.length) - K * min pos buf.length) []
      (by simp; omega) (by simp)
    simpa using this
  · intro a1
    refine ⟨fun _ _ h => (nomatch h), fun _ _ => ?_⟩
    have := (a1.2 (by simp) (by simp)).prepend (r' := (Res.panic : Res (α × Nat))) (C := K * buf.length + (c + K' * bytes.length) - K * min pos buf.length) []
      (by simp; omega) (by simp)
    simpa using this
  · intro _
    exact ⟨fun _ _ h => (nomatch h), fun _ h => absurd rfl h⟩

theorem Frugal.times {α : Type} {K c : Nat} {p : PM α} (h : Frugal K c p (fun _ => c)) (n : Nat) : Frugal K c (PM.times n p) (fun _ => c) := by
  induction n with
  | zero => exact .pure K c _
  | succ n ih => exact h.bind fun a => ih.map _

/-- A loop each of whose iterations leaves the credit it found, if it moves on. -/
theorem Frugal.loop {α : Type} {K c : Nat} {p : PM α}
    (h : ∀ buf pos, pos < buf.length → (∀ a pos', (p buf pos).1 = .ok (a, pos') → pos < pos' →
      (p buf pos).2.sum + K * min pos buf.length + c ≤ K * min pos' buf.length + c) ∧
      ((∀ x, (p buf pos).1 ≠ .ok x) → (p buf pos).1 ≠ .hang →
        Stops (K * buf.length + c - K * min pos buf.length) (p buf pos).1 (p buf pos).2)) :
    Frugal K c (PM.whileData p) (fun _ => c) := by
  intro buf pos
  induction hn : buf.length - pos using Nat.strongRecOn generalizing pos with
  | _ n ih =>
    rw [PM.whileData]
    have m1 := min_mul_le K pos buf.length
    split
    · next hlt =>
      have a1 := h buf pos hlt
      revert a1
      rcases p buf pos with ⟨⟨a, pos'⟩ | e | _ | _, ts⟩
      · intro a1
        simp only
        split
        · next hp =>
          have a2 := a1.1 a pos' rfl hp
          have b := ih (buf.length - pos') (by omega) pos' rfl
          have m2 := min_mul_le K pos' buf.length
          revert b
          rcases PM.whileData p buf pos' with ⟨⟨as, pos''⟩ | e | _ | _, us⟩
          · intro b
            refine ⟨fun v q hq => ?_, fun hr => absurd rfl (hr _)⟩
            simp only [Res.ok.injEq, Prod.mk.injEq] at hq
            obtain ⟨_, rfl⟩ := hq
            have := b.1 as pos'' rfl
            refine ⟨by omega, ?_⟩
            simp only [List.sum_append] at *
            omega
          · intro b
            refine ⟨fun _ _ h => (nomatch h), fun _ _ => ?_⟩
            exact (b.2 (by simp) (by simp)).prepend ts (by simp only at *; omega) (by simp)
          · intro b
            refine ⟨fun _ _ h => (nomatch h), fun _ _ => ?_⟩
            exact (b.2 (by simp) (by simp)).prepend ts (by simp only at *; omega) (by simp)
          · intro _
            exact ⟨fun _ _ h => (nomatch h), fun _ h => absurd rfl h⟩
        · exact ⟨fun _ _ h => (nomatch h), fun _ h => absurd rfl h⟩
      · intro a1
        refine ⟨fun _ _ h => (nomatch h), fun _ _ => ?_⟩
        exact (a1.2 (by simp) (by simp)).cast (by simp)
      · intro a1
        refine ⟨fun _ _ h => (nomatch h), fun _ _ => ?_⟩
        exact (a1.2 (by simp) (by simp)).cast (by simp)
      · intro _
        exact ⟨fun _ _ h => (nomatch h), fun _ h => absurd rfl h⟩
    · refine ⟨fun a pos' hr => ?_, fun hr => absurd rfl (hr _)⟩
      simp only [Res.ok.injEq, Prod.mk.injEq] at hr
      obtain ⟨_, rfl⟩ := hr
      simp

theorem Frugal.whileData {α : Type} {K c : Nat} {p : PM α} (h : Frugal K c p (fun _ => c)) : Frugal K c (PM.whileData p) (fun _ => c) :=
  Frugal.loop fun buf pos _ => ⟨fun a pos' hr _ => ((h buf pos).1 a pos' hr).2, (h buf pos).2⟩

/-- A loop whose body never moves on runs for ever, if it is entered and the body succeeds. -/
theorem Frugal.whileStuck {α : Type} {K c : Nat} {p : PM α} {cout : α → Nat} (h : Frugal K c p cout)
    (hs : ∀ buf pos a pos', (p buf pos).1 = .ok (a, pos') → pos' = pos) : Frugal K c (PM.whileData p) (fun _ => c) :=
  Frugal.loop fun buf pos _ => ⟨fun a pos' hr hp => absurd (hs buf pos a pos' hr) (by omega), (h buf pos).2⟩

end MysqlCdc
