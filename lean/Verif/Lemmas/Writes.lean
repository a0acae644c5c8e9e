import Verif.Spec.Writes
import Verif.Spec.Dialogue
import Verif.Lemmas.Channel
/-!
Writing packets, for C95.
-/

namespace MysqlCdc

open Spec

theorem writeAll_takes {ws ws' : List WriteStep} {bs : Bytes} (h : TakesAll ws bs ws') (ch : Channel) (hw : ch.writes = ws) :
    ch.writeAll bs = (.ok (), { ch with output := ch.output ++ bs, writes := ws' }) := by
  induction h generalizing ch with
  | nothing =>
    subst hw
    rw [Channel.writeAll, if_pos rfl]
    simp
  | @whole bs hb =>
    have := List.length_pos_iff.2 hb
    rw [Channel.writeAll, if_neg hb]
    simp only [Channel.write, hw]
    rw [dif_pos ⟨this, hb⟩, Channel.writeAll]
    simp
  | @part n ws ws' bs hb hn h ih =>
    have hpos := List.length_pos_iff.2 hb
    rw [Channel.writeAll, if_neg hb]
    simp only [Channel.write, hw]
    rw [dif_pos ⟨by omega, hb⟩]
    have hd : bs.drop (min n bs.length) = bs.drop n := by
      rcases Nat.le_total n bs.length with h | h
      · rw [Nat.min_eq_left h]
      · rw [Nat.min_eq_right h, List.drop_length, List.drop_of_length_le h]
    rw [hd, ih _ rfl]
    simp

theorem writeAll_refuses {ws ws' : List WriteStep} {bs taken : Bytes} {k : IoKind} (h : Refuses ws bs taken k ws') (ch : Channel)
    (hw : ch.writes = ws) : ch.writeAll bs = (.err (.io k), { ch with output := ch.output ++ taken, writes := ws' }) := by
  induction h generalizing ch with
  | fail hb =>
    rw [Channel.writeAll, if_neg hb]
    simp [Channel.write, hw]
  | zero hb =>
    rw [Channel.writeAll, if_neg hb]
    simp [Channel.write, hw, WRITE_ZERO]
  | @part n ws ws' bs taken k hb hn h ih =>
    have hpos := List.length_pos_iff.2 hb
    rw [Channel.writeAll, if_neg hb]
    simp only [Channel.write, hw]
    rw [dif_pos ⟨by omega, hb⟩]
    have hd : bs.drop (min n bs.length) = bs.drop n := by
      rcases Nat.le_total n bs.length with h | h
      · rw [Nat.min_eq_left h]
      · rw [Nat.min_eq_right h, List.drop_length, List.drop_of_length_le h]
    rw [hd, ih _ rfl]
    simp

theorem takes_or_refuses (ws : List WriteStep) (bs : Bytes) :
    (∃ ws', TakesAll ws bs ws') ∨ ∃ taken k ws', Refuses ws bs taken k ws' := by
  induction ws generalizing bs with
  | nil =>
    by_cases hb : bs = []
    · subst hb; exact .inl ⟨_, .nothing⟩
    · exact .inl ⟨_, .whole hb⟩
  | cons w ws ih =>
    by_cases hb : bs = []
    · subst hb; exact .inl ⟨_, .nothing⟩
    · cases w with
      | fail k => exact .inr ⟨_, _, _, .fail hb⟩
      | accept n =>
        cases n with
        | zero => exact .inr ⟨_, _, _, .zero hb⟩
        | succ n =>
          rcases ih (bs.drop (n + 1)) with ⟨ws', h⟩ | ⟨taken, k, ws', h⟩
          · exact .inl ⟨_, .part hb (by omega) h⟩
          · exact .inr ⟨_, _, _, .part hb (by omega) h⟩

theorem carries_or_breaks (ws : List WriteStep) (p : Bytes) (n : Nat) :
    (∃ wire ws', CarriesOne ws p n wire ws') ∨ ∃ wire k ws', Breaks ws p n wire k ws' := by
  rcases takes_or_refuses ws (le 3 p.length) with ⟨ws1, h1⟩ | ⟨taken, k, ws', h⟩
  · rcases takes_or_refuses ws1 (le 1 n) with ⟨ws2, h2⟩ | ⟨taken, k, ws', h⟩
    · match ws2, h2 with
      | [], h2 => exact .inl ⟨_, _, .mk h1 h2 .whole⟩
      | .accept _ :: _, h2 => exact .inl ⟨_, _, .mk h1 h2 .part⟩
      | .fail _ :: _, h2 => exact .inr ⟨_, _, _, .payload h1 h2⟩
    · exact .inr ⟨_, _, _, .number h1 h⟩
  · exact .inr ⟨_, _, _, .length h⟩

theorem le_sendable {p : Bytes} (_hp : Sendable p) : le 3 (p.length % 2 ^ 32) = le 3 p.length := by
  rw [← le_mod 3 (p.length % 2 ^ 32), ← le_mod 3 p.length]
  congr 1
  omega

theorem writePacket_carries {p wire : Bytes} {n : Nat} {ws' : List WriteStep} (ch : Channel) (hp : Sendable p)
    (h : CarriesOne ch.writes p n wire ws') :
    ch.writePacket p n = (.ok (), { ch with output := ch.output ++ wire, writes := ws', trace := ch.trace ++ [.sent n p] }) := by
  obtain @⟨ws1, ws2, ws3, taken, h1, h2, h3⟩ := h
  unfold Channel.writePacket
  simp only
  rw [if_neg (by unfold Sendable at hp; omega), leBytes_eq, leBytes_eq, le_sendable hp, writeAll_takes h1 { ch with trace := ch.trace ++ [.sent n p] } rfl]
  simp only
  rw [writeAll_takes h2 _ rfl]
  cases h3 <;> simp [Channel.write]

theorem writePacket_breaks {p wire : Bytes} {n : Nat} {k : IoKind} {ws' : List WriteStep} (ch : Channel) (hp : Sendable p)
    (h : Breaks ch.writes p n wire k ws') :
    ch.writePacket p n = (.err (.io k), { ch with output := ch.output ++ wire, writes := ws', trace := ch.trace ++ [.sent n p] }) := by
  unfold Channel.writePacket
  simp only
  rw [if_neg (by unfold Sendable at hp; omega), leBytes_eq, leBytes_eq, le_sendable hp]
  cases h with
  | length h => rw [writeAll_refuses h { ch with trace := ch.trace ++ [.sent n p] } rfl]
  | number h1 h =>
    rw [writeAll_takes h1 { ch with trace := ch.trace ++ [.sent n p] } rfl]
    simp only
    rw [writeAll_refuses h _ rfl]
    simp
  | payload h1 h2 =>
    rw [writeAll_takes h1 { ch with trace := ch.trace ++ [.sent n p] } rfl]
    simp only
    rw [writeAll_takes h2 _ rfl]
    simp [Channel.write]

theorem writePacket_refused (ch : Channel) {p : Bytes} (n : Nat) (hp : ¬Sendable p) :
    ch.writePacket p n = (.panic, { ch with trace := ch.trace ++ [.sent n p] }) := by
  unfold Channel.writePacket
  simp only
  rw [if_pos (by unfold Sendable at hp; omega)]

/-- What writing does depends only on the steps, and it leaves the input and other things alone. -/
theorem writePacket_local (ch : Channel) (p : Bytes) (n : Nat) (input : Bytes) (trace : List Packet) :
    Channel.writePacket { ch with input := input, trace := trace } p n = ((ch.writePacket p n).1,
      { ch with input := input, output := (ch.writePacket p n).2.output, writes := (ch.writePacket p n).2.writes, trace := trace ++ [.sent n p] }) := by
  by_cases hp : Sendable p
  · rcases carries_or_breaks ch.writes p n with ⟨wire, ws', h⟩ | ⟨wire, k, ws', h⟩
    · rw [writePacket_carries ch hp h, writePacket_carries { ch with input := input, trace := trace } hp h]
    · rw [writePacket_breaks ch hp h, writePacket_breaks { ch with input := input, trace := trace } hp h]
  · rw [writePacket_refused ch n hp, writePacket_refused { ch with input := input, trace := trace } n hp]

/-- The connection after packets have been written to it. -/
def Channel.sends (ch : Channel) (sent : List (Bytes × Nat)) : Channel := sent.foldl (fun ch x => (ch.writePacket x.1 x.2).2) ch

theorem sends_snoc (ch : Channel) (sent : List (Bytes × Nat)) (p : Bytes) (n : Nat) :
    ch.sends (sent ++ [(p, n)]) = ((ch.sends sent).writePacket p n).2 := by
  simp [Channel.sends]

theorem writePacket_keeps (ch : Channel) (p : Bytes) (n : Nat) : (ch.writePacket p n).2 =
    { ch with output := (ch.writePacket p n).2.output, writes := (ch.writePacket p n).2.writes, trace := ch.trace ++ [.sent n p] } := by
  have := congrArg (·.2) (writePacket_local ch p n ch.input ch.trace)
  exact this

/-- The connection takes all these packets, perhaps not whole. -/
def Going (ch : Channel) (sent : List (Bytes × Nat)) : Prop :=
  ∀ a p n b, sent = a ++ (p, n) :: b → ((ch.sends a).writePacket p n).1 = .ok ()

theorem going_nil (ch : Channel) : Going ch [] := by
  intro a p n b h
  simp at h

theorem going_init {ch : Channel} {a b : List (Bytes × Nat)} (h : Going ch (a ++ b)) : Going ch a := by
  rintro a' p n b' rfl
  exact h a' p n (b' ++ b) (by simp)

theorem going_last {ch : Channel} {a : List (Bytes × Nat)} {p : Bytes} {n : Nat} (h : Going ch (a ++ [(p, n)])) :
    ((ch.sends a).writePacket p n).1 = .ok () := h a p n [] rfl

theorem going_snoc {ch : Channel} {a : List (Bytes × Nat)} {p : Bytes} {n : Nat} (h : Going ch a)
    (h1 : ((ch.sends a).writePacket p n).1 = .ok ()) : Going ch (a ++ [(p, n)]) := by
  intro a' p' n' b' he
  rcases List.eq_nil_or_concat b' with rfl | ⟨b, x, rfl⟩
  · have := List.append_inj' he rfl
    obtain ⟨rfl, h2⟩ := this
    cases h2
    exact h1
  · have : a ++ [(p, n)] = (a' ++ (p', n') :: b) ++ [x] := by rw [he]; simp
    obtain ⟨rfl, -⟩ := List.append_inj' this rfl
    exact h a' p' n' b rfl

theorem sends_carries {ws ws' : List WriteStep} {sent : List (Bytes × Nat)} {wire : Bytes} (h : Carries ws sent wire ws') (ch : Channel)
    (hw : ch.writes = ws) (hs : ∀ x ∈ sent, Sendable x.1) :
    Going ch sent ∧ (ch.sends sent).output = ch.output ++ wire ∧ (ch.sends sent).writes = ws' := by
  induction h with
  | nil => exact ⟨going_nil _, by simp [Channel.sends], hw⟩
  | @snoc ws1 ws2 sent p wire wire' n h h1 ih =>
    obtain ⟨i1, i2, i3⟩ := ih (fun x hx => hs x (by simp [hx]))
    have := writePacket_carries (ch.sends sent) (hs (p, n) (by simp)) (by rw [i3]; exact h1)
    rw [sends_snoc, this]
    refine ⟨going_snoc i1 (by rw [this]), ?_, rfl⟩
    simp [i2]

theorem takesAll_free (bs : Bytes) : TakesAll [] bs [] := by
  by_cases hb : bs = []
  · subst hb; exact .nothing
  · exact .whole hb

theorem frames_snoc (sent : List (Bytes × Nat)) (p : Bytes) (n : Nat) : frames (sent ++ [(p, n)]) = frames sent ++ frame p n := by
  induction sent with
  | nil => simp [frames]
  | cons x sent ih => simp [frames, ih]

theorem carries_free (sent : List (Bytes × Nat)) : Carries [] sent (frames sent) [] := by
  induction sent using List.reverseRecOn with
  | nil => exact .nil
  | append_singleton sent x ih =>
    obtain ⟨p, n⟩ := x
    rw [frames_snoc]
    exact .snoc ih (.mk (takesAll_free _) (takesAll_free _) .whole)

theorem sends_free (ch : Channel) (sent : List (Bytes × Nat)) (hw : ch.writes = []) (hs : ∀ x ∈ sent, Sendable x.1) :
    Going ch sent ∧ (ch.sends sent).output = ch.output ++ frames sent ∧ (ch.sends sent).writes = [] :=
  sends_carries (carries_free sent) ch hw hs

end MysqlCdc
