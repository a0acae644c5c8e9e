import Verif.Lemmas.Session
import Verif.Lemmas.Channel
/-!
# Pre- and postconditions of set-up code
-/

namespace MysqlCdc

/-- The outcome is a value and a session with `Q`, or a failure in a session with `E`; `E`'s first argument is the
error, if the failure is one (and not a panic or a hang). -/
def Outcome {α : Type} (Q : α → Sess → Prop) (E : Option Err → Sess → Prop) : Res α × Sess → Prop
  | (.ok a, s') => Q a s'
  | (.err e, s') => E (some e) s'
  | (.panic, s') => E none s'
  | (.hang, s') => E none s'

/-- From a session with `P`, every outcome of the code is described by `Q` and `E`. -/
def Holds {α : Type} (P : Sess → Prop) (p : S α) (Q : α → Sess → Prop) (E : Option Err → Sess → Prop) : Prop :=
  ∀ s, P s → Outcome Q E (p s)

section
variable {α β : Type} {P P' : Sess → Prop} {E : Option Err → Sess → Prop}

theorem Holds.bind {p : S α} {f : α → S β} {Q : α → Sess → Prop} {R : β → Sess → Prop} (hp : Holds P p Q E)
    (hf : ∀ a, Holds (Q a) (f a) R E) : Holds P (p >>= f) R E := by
  intro s hs
  rw [S.bind_eq]
  have h := hp s hs
  revert h
  rcases p s with ⟨r, s'⟩
  cases r with
  | ok a => exact fun h => hf a s' h
  | err e => exact fun h => h
  | panic => exact fun h => h
  | hang => exact fun h => h

theorem Holds.conseq {p : S α} {Q Q' : α → Sess → Prop} (h : Holds P p Q E) (hP : ∀ s, P' s → P s)
    (hQ : ∀ a s, Q a s → Q' a s) : Holds P' p Q' E := by
  intro s hs
  have := h s (hP s hs)
  revert this
  rcases p s with ⟨r, s'⟩
  cases r with
  | ok a => exact hQ a s'
  | err e => exact fun h => h
  | panic => exact fun h => h
  | hang => exact fun h => h

theorem Holds.pre {p : S α} {Q : α → Sess → Prop} (h : Holds P p Q E) (hP : ∀ s, P' s → P s) : Holds P' p Q E :=
  h.conseq hP fun _ _ h => h

theorem Holds.post {p : S α} {Q Q' : α → Sess → Prop} (h : Holds P p Q E) (hQ : ∀ a s, Q a s → Q' a s) : Holds P p Q' E :=
  h.conseq (fun _ h => h) hQ

/-- A hypothesis that does not depend on the session. -/
theorem Holds.assume {p : S α} {Q : α → Sess → Prop} {A : Prop} (h : A → Holds P p Q E) : Holds (fun s => A ∧ P s) p Q E :=
  fun s hs => h hs.1 s hs.2

theorem Holds.ret {a : α} {Q : α → Sess → Prop} (h : ∀ s, P s → Q a s) : Holds P (pure a : S α) Q E := fun s hs => h s hs

theorem Holds.lift (r : Res α) (hE : ∀ b s, P s → E b s) : Holds P (S.lift r) (fun a s => r = .ok a ∧ P s) E := by
  intro s hs
  unfold S.lift
  cases r with
  | ok a => exact ⟨rfl, hs⟩
  | err e => exact hE _ s hs
  | panic => exact hE _ s hs
  | hang => exact hE _ s hs

theorem Holds.fail {Q : α → Sess → Prop} (e : Err) (hE : ∀ s, P s → E (some e) s) : Holds P (S.fail e : S α) Q E :=
  fun s hs => hE s hs

theorem Holds.client : Holds P S.client (fun c s => c = s.client ∧ P s) E := fun _ hs => ⟨rfl, hs⟩

/-- Reading the client, when its value does not matter. -/
theorem Holds.clientBind {f : Client → S β} {R : β → Sess → Prop} (hf : ∀ c, Holds P (f c) R E) : Holds P (S.client >>= f) R E :=
  .bind .client fun c => (hf c).pre fun _ h => h.2

theorem Holds.ite {c : Prop} [Decidable c] {p q : S α} {Q : α → Sess → Prop} (hp : c → Holds P p Q E) (hq : ¬ c → Holds P q Q E) :
    Holds P (if c then p else q) Q E := by
  split
  · exact hp ‹_›
  · exact hq ‹_›

end

/-- From a frame to a postcondition. -/
theorem SRel.holds {α : Type} {R : Sess → Sess → Prop} {p : S α} (h : SRel R p) {P Q : Sess → Prop}
    (hQ : ∀ s s', P s → R s s' → Q s') : Holds P p (fun _ => Q) (fun _ => Q) := by
  intro s hs
  have := hQ s _ hs (h s)
  revert this
  rcases p s with ⟨r, s'⟩
  cases r <;> exact fun h => h

theorem Holds.weaken {α : Type} {P : Sess → Prop} {p : S α} {Q : α → Sess → Prop} {E E' : Option Err → Sess → Prop} (h : Holds P p Q E)
    (hE : ∀ b s, E b s → E' b s) : Holds P p Q E' := by
  intro s hs
  have := h s hs
  revert this
  rcases p s with ⟨r, s'⟩
  cases r with
  | ok a => exact fun h => h
  | err e => exact hE _ _
  | panic => exact hE _ _
  | hang => exact hE _ _

/-- A postcondition of every outcome. -/
theorem Holds.always {α : Type} {P Q : Sess → Prop} {p : S α} (h : Holds P p (fun _ => Q) (fun _ => Q)) {s : Sess} (hs : P s) :
    Q (p s).2 := by
  have := h s hs
  revert this
  rcases p s with ⟨r, s'⟩
  cases r <;> exact fun h => h

/-- The trace only grows. -/
def Grows (s s' : Sess) : Prop := s.chan.trace <+: s'.chan.trace

theorem frame_grows : Frame Grows where
  refl _ := List.prefix_rfl
  trans := List.IsPrefix.trans
  read s := by
    show s.chan.trace <+: (s.chan.readPacket).2.trace
    rcases hr : s.chan.readPacket with ⟨r, ch⟩
    cases r with
    | ok x => obtain ⟨-, -, rest, -, rfl⟩ := readPacket_inv hr; exact List.prefix_append _ _
    | err e => obtain ⟨-, rfl⟩ := readPacket_fail hr (by simp); exact List.prefix_rfl
    | panic => obtain ⟨-, rfl⟩ := readPacket_fail hr (by simp); exact List.prefix_rfl
    | hang => obtain ⟨-, rfl⟩ := readPacket_fail hr (by simp); exact List.prefix_rfl
  write p n s := by
    show s.chan.trace <+: (s.chan.writePacket p n).2.trace
    obtain ⟨out, ws, hw⟩ := writePacket_frame s.chan p n
    rw [hw]
    exact List.prefix_append _ _

theorem fullFrame_grows : FullFrame Grows where
  toFrame := frame_grows
  reset _ := List.prefix_rfl
  adjust := frame_grows.adjustStartingPosition fun _ _ _ => List.prefix_rfl

/-- What a successful sequence did. -/
theorem S.bind_ok {α β : Type} {p : S α} {f : α → S β} {s s' : Sess} {b : β} (h : (p >>= f) s = (.ok b, s')) :
    ∃ a s1, p s = (.ok a, s1) ∧ f a s1 = (.ok b, s') := by
  rw [S.bind_eq] at h
  rcases hp : p s with ⟨r, s1⟩
  rw [hp] at h
  cases r with
  | ok a => exact ⟨a, s1, rfl, h⟩
  | err e => simp at h
  | panic => simp at h
  | hang => simp at h

end MysqlCdc
