import Verif.Spec.Frames
import Verif.Lemmas.Packets
/-!
# Reading and writing packets
-/

namespace MysqlCdc

open Spec

theorem frame_length (p : Bytes) (n : Nat) : (frame p n).length = 4 + p.length := by simp [frame]; omega

theorem frames_append (a b : List (Bytes × Nat)) : frames (a ++ b) = frames a ++ frames b := by
  induction a with
  | nil => rfl
  | cons x a ih => simp [frames, ih]

theorem sentOf_append (a b : List Packet) : sentOf (a ++ b) = sentOf a ++ sentOf b := by
  induction a with
  | nil => rfl
  | cons x a ih => cases x <;> simp [sentOf, ih]

theorem receivedOf_append (a b : List Packet) : receivedOf (a ++ b) = receivedOf a ++ receivedOf b := by
  induction a with
  | nil => rfl
  | cons x a ih => cases x <;> simp [receivedOf, ih]

theorem le_leVal' {bs : Bytes} {k : Nat} (h : bs.length = k) : le k (leVal bs) = bs := by
  subst h
  exact le_leVal bs

/-! ## Reading -/

theorem readPacket_frame (ch : Channel) (p rest : Bytes) (n : Nat) (hp : p.length < 2 ^ 24) (hn : n < 2 ^ 8)
    (hi : ch.input = frame p n ++ rest) :
    ch.readPacket = (.ok (p, n), { ch with input := rest, trace := ch.trace ++ [.received n p] }) := by
  have h4 : (le 3 p.length ++ le 1 n).length = 4 := by simp
  have e : ch.input = (le 3 p.length ++ le 1 n) ++ (p ++ rest) := by rw [hi, frame, List.append_assoc]
  have h1 : ch.readExact PACKET_HEADER_SIZE = (.ok (le 3 p.length ++ le 1 n), { ch with input := p ++ rest }) := by
    unfold Channel.readExact PACKET_HEADER_SIZE
    rw [if_pos (by rw [e]; simp; omega), e, ← h4, List.take_left, List.drop_left]
  have t3 : (le 3 p.length ++ le 1 n).take 3 = le 3 p.length := List.take_left' (by simp)
  have d3 : (le 3 p.length ++ le 1 n).drop 3 = le 1 n := List.drop_left' (by simp)
  unfold Channel.readPacket
  rw [h1]
  simp only [t3, d3, leVal_le_of_lt (show p.length < 256 ^ 3 by simpa using hp),
    leVal_le_of_lt (show n < 256 ^ 1 by simpa using hn)]
  unfold Channel.readExact
  simp

/-- A packet that was read was there, framed; and nothing else changed. -/
theorem readPacket_inv {ch ch' : Channel} {p : Bytes} {n : Nat} (h : ch.readPacket = (.ok (p, n), ch')) :
    p.length < 2 ^ 24 ∧ n < 2 ^ 8 ∧ ∃ rest, ch.input = frame p n ++ rest ∧
      ch' = { ch with input := rest, trace := ch.trace ++ [.received n p] } := by
  unfold Channel.readPacket Channel.readExact PACKET_HEADER_SIZE at h
  split at h
  · rename_i header c1 h1
    split at h1
    · rename_i h4
      obtain ⟨rfl, rfl⟩ : ch.input.take 4 = header ∧ { ch with input := ch.input.drop 4 } = c1 := by simpa using h1
      simp only at h
      split at h
      · rename_i packet c2 h2
        split at h2
        · rename_i hl
          simp only [Prod.mk.injEq, Res.ok.injEq] at h2 h
          obtain ⟨rfl, rfl⟩ := h2
          obtain ⟨⟨rfl, rfl⟩, rfl⟩ := h
          have t3 : ((ch.input.take 4).take 3).length = 3 := by simp; omega
          have d3 : ((ch.input.take 4).drop 3).length = 1 := by simp; omega
          have b3 := leVal_lt ((ch.input.take 4).take 3)
          have b1 := leVal_lt ((ch.input.take 4).drop 3)
          rw [t3] at b3
          rw [d3] at b1
          simp only [List.length_drop] at hl
          have hlen : ((ch.input.drop 4).take (leVal ((ch.input.take 4).take 3))).length = leVal ((ch.input.take 4).take 3) := by
            simp only [List.length_take, List.length_drop]; omega
          refine ⟨by rw [hlen]; simpa using b3, by simpa using b1, (ch.input.drop 4).drop (leVal ((ch.input.take 4).take 3)), ?_, rfl⟩
          rw [frame, hlen, le_leVal' t3, le_leVal' d3, List.take_append_drop, List.append_assoc, List.take_append_drop,
            List.take_append_drop]
        · simp at h2
      all_goals simp at h
    · simp at h1
  all_goals simp at h

/-- A failed read loses what there was and changes nothing else. -/
theorem readPacket_fail {ch ch' : Channel} {r : Res (Bytes × Nat)} (h : ch.readPacket = (r, ch')) (hr : ∀ x, r ≠ .ok x) :
    r = .err (.io ch.ending) ∧ ch' = { ch with input := [] } := by
  unfold Channel.readPacket Channel.readExact PACKET_HEADER_SIZE at h
  split at h
  · rename_i header c1 h1
    split at h1
    · obtain ⟨rfl, rfl⟩ : ch.input.take 4 = header ∧ { ch with input := ch.input.drop 4 } = c1 := by simpa using h1
      simp only at h
      split at h
      · simp only [Prod.mk.injEq] at h
        exact absurd h.1.symm (hr _)
      · rename_i e c2 h2
        split at h2
        · simp at h2
        · simp only [Prod.mk.injEq, Res.err.injEq] at h2 h
          obtain ⟨rfl, rfl⟩ := h2
          exact ⟨h.1.symm, h.2.symm⟩
      · rename_i c2 h2; split at h2 <;> simp at h2
      · rename_i c2 h2; split at h2 <;> simp at h2
    · simp at h1
  · rename_i e c1 h1
    split at h1
    · simp at h1
    · simp only [Prod.mk.injEq, Res.err.injEq] at h1 h
      obtain ⟨rfl, rfl⟩ := h1
      exact ⟨h.1.symm, h.2.symm⟩
  · rename_i c1 h1; split at h1 <;> simp at h1
  · rename_i c1 h1; split at h1 <;> simp at h1

/-! ## Writing -/

/-- One write: a prefix is handed over; the list of what later writes do gets shorter. -/
theorem write_cases (ch : Channel) (bs : Bytes) :
    (∃ n, (ch.write bs).1 = .ok n ∧ n ≤ bs.length ∧ (ch.write bs).2 = { ch with output := ch.output ++ bs.take n, writes := ch.writes.tail } ∧
      (ch.writes = [] ∧ n = bs.length ∨ ∃ k, WriteStep.accept k ∈ ch.writes ∧ n = min k bs.length)) ∨
    (∃ k, (ch.write bs).1 = .err (.io k) ∧ WriteStep.fail k ∈ ch.writes ∧ (ch.write bs).2 = { ch with writes := ch.writes.tail }) := by
  unfold Channel.write
  split
  · rename_i h
    exact .inl ⟨_, rfl, Nat.le_refl _, by simp [h], .inl ⟨h, rfl⟩⟩
  · rename_i n ws h
    refine .inl ⟨_, rfl, Nat.min_le_right _ _, ?_, .inr ⟨n, by simp [h], rfl⟩⟩
    simp only [h, List.tail_cons]
    congr 2
    exact List.take_eq_take_iff.2 (by omega)
  · rename_i k ws h
    exact .inr ⟨k, rfl, by simp [h], by simp [h]⟩

/-- `write_all`: a prefix is handed over, everything if it succeeds; it never panics. -/
theorem writeAll_cases (ch : Channel) (bs : Bytes) :
    ∃ k ws, ws <:+ ch.writes ∧ (ch.writeAll bs).2 = { ch with output := ch.output ++ bs.take k, writes := ws } ∧
      ((ch.writeAll bs).1 = .ok () ∧ bs.length ≤ k ∨ ∃ e, (ch.writeAll bs).1 = .err (.io e)) := by
  induction hl : bs.length using Nat.strongRecOn generalizing ch bs with
  | _ n ih =>
    rw [Channel.writeAll]
    split
    · rename_i h
      exact ⟨0, ch.writes, List.suffix_refl _, by simp, .inl ⟨rfl, by simp [← hl, h]⟩⟩
    · rename_i hne
      have hpos := List.length_pos_iff.2 hne
      rcases write_cases ch bs with ⟨k, h1, hk, h2, _⟩ | ⟨e, h1, _, h2⟩
      · rcases hw : ch.write bs with ⟨r, c⟩
        rw [hw] at h1 h2
        simp only at h1 h2
        subst h1 h2
        simp only
        split
        · rename_i h0
          have hd : (bs.drop k).length = bs.length - k := by simp
          obtain ⟨j, ws, hs, h3, h4⟩ := ih (bs.length - k) (by omega)
            { ch with output := ch.output ++ bs.take k, writes := ch.writes.tail } (bs.drop k) hd
          refine ⟨k + j, ws, hs.trans (List.tail_suffix _), ?_, ?_⟩
          · rw [h3, List.take_add]
            simp
          · rcases h4 with ⟨h4, h5⟩ | h4
            · exact .inl ⟨h4, by omega⟩
            · exact .inr h4
        · exact ⟨k, ch.writes.tail, List.tail_suffix _, rfl, .inr ⟨_, rfl⟩⟩
      · rcases hw : ch.write bs with ⟨r, c⟩
        rw [hw] at h1 h2
        simp only at h1 h2
        subst h1 h2
        exact ⟨0, ch.writes.tail, List.tail_suffix _, by simp, .inr ⟨e, rfl⟩⟩

theorem take_frame_length (p : Bytes) (n k : Nat) : (frame p n).take (min 3 k) = (le 3 p.length).take k := by
  rw [frame, List.append_assoc, List.take_append_of_le_length (by rw [le_length]; omega)]
  exact List.take_eq_take_iff.2 (by rw [le_length]; omega)

theorem take_frame_seq (p : Bytes) (n k : Nat) : (frame p n).take (3 + min 1 k) = le 3 p.length ++ (le 1 n).take k := by
  rw [frame, List.take_append_of_le_length (by rw [List.length_append, le_length, le_length]; omega), List.take_append,
    List.take_of_length_le (by rw [le_length]; omega), le_length]
  congr 1
  exact List.take_eq_take_iff.2 (by rw [le_length]; omega)

theorem take_frame_payload (p : Bytes) (n k : Nat) :
    (frame p n).take (4 + k) = le 3 p.length ++ le 1 n ++ p.take k := by
  have h : (le 3 p.length ++ le 1 n).length = 4 := by simp
  rw [frame, List.take_append, List.take_of_length_le (by omega), h]
  simp

/-- `write_packet` on a packet of at most four gigabytes. -/
theorem writePacket_cases (ch : Channel) (p : Bytes) (n : Nat) (hp : p.length < 2 ^ 32) :
    (2 ^ 24 ≤ p.length ∧ ch.writePacket p n = (.panic, { ch with trace := ch.trace ++ [.sent n p] })) ∨
    (p.length < 2 ^ 24 ∧ ∃ k ws, ws <:+ ch.writes ∧
      (ch.writePacket p n).2 =
        { ch with output := ch.output ++ (frame p n).take k, writes := ws, trace := ch.trace ++ [.sent n p] } ∧
      (((ch.writePacket p n).1 = .ok () ∧ 4 ≤ k ∧
          ((∀ a, WriteStep.accept a ∈ ch.writes → p.length ≤ a) → 4 + p.length ≤ k)) ∨
        ∃ e, (ch.writePacket p n).1 = .err (.io e))) := by
  unfold Channel.writePacket
  simp only [Nat.mod_eq_of_lt hp]
  by_cases hb : 2 ^ 24 ≤ p.length
  · exact .inl ⟨hb, by rw [if_pos hb]⟩
  right
  rw [if_neg (by omega)]
  refine ⟨by omega, ?_⟩
  rw [leBytes_eq, leBytes_eq]
  obtain ⟨k1, ws1, hs1, e1, o1⟩ := writeAll_cases { ch with trace := ch.trace ++ [.sent n p] } (le 3 p.length)
  rcases hw : Channel.writeAll { ch with trace := ch.trace ++ [.sent n p] } (le 3 p.length) with ⟨r, c⟩
  rw [hw] at e1 o1
  simp only at e1 o1
  subst e1
  rcases o1 with ⟨rfl, hk1⟩ | ⟨e, rfl⟩
  · have t1 : (le 3 p.length).take k1 = le 3 p.length := List.take_of_length_le hk1
    simp only [t1]
    obtain ⟨k2, ws2, hs2, e2, o2⟩ := writeAll_cases
      { ch with output := ch.output ++ le 3 p.length, writes := ws1, trace := ch.trace ++ [.sent n p] } (le 1 n)
    rcases hw2 : Channel.writeAll
      { ch with output := ch.output ++ le 3 p.length, writes := ws1, trace := ch.trace ++ [.sent n p] } (le 1 n) with ⟨r2, c2⟩
    rw [hw2] at e2 o2
    simp only at e2 o2
    subst e2
    rcases o2 with ⟨rfl, hk2⟩ | ⟨e, rfl⟩
    · have t2 : (le 1 n).take k2 = le 1 n := List.take_of_length_le hk2
      simp only [t2]
      rcases write_cases { ch with output := ch.output ++ le 3 p.length ++ le 1 n, writes := ws2, trace := ch.trace ++ [.sent n p] } p with ⟨k3, h1, hk, h2, hc⟩ | ⟨e, h1, _, h2⟩
      · rcases hw3 : Channel.write { ch with output := ch.output ++ le 3 p.length ++ le 1 n, writes := ws2, trace := ch.trace ++ [.sent n p] } p with ⟨r3, c3⟩
        rw [hw3] at h1 h2
        simp only at h1 h2
        subst h1 h2
        simp only
        refine ⟨4 + k3, ws2.tail, (List.tail_suffix _).trans (hs2.trans hs1), ?_, .inl ⟨trivial, by omega, ?_⟩⟩
        · rw [take_frame_payload]
          simp [List.append_assoc]
        · intro ha
          rcases hc with ⟨_, rfl⟩ | ⟨a, hm, rfl⟩
          · omega
          · have := ha a ((hs2.trans hs1).subset hm)
            omega
      · rcases hw3 : Channel.write { ch with output := ch.output ++ le 3 p.length ++ le 1 n, writes := ws2, trace := ch.trace ++ [.sent n p] } p with ⟨r3, c3⟩
        rw [hw3] at h1 h2
        simp only at h1 h2
        subst h1 h2
        simp only
        refine ⟨4, ws2.tail, (List.tail_suffix _).trans (hs2.trans hs1), ?_, .inr ⟨e, rfl⟩⟩
        have := take_frame_payload p n 0
        rw [List.take_zero, List.append_nil] at this
        rw [this, List.append_assoc]
    · simp only
      refine ⟨3 + min 1 k2, ws2, hs2.trans hs1, ?_, .inr ⟨e, rfl⟩⟩
      rw [take_frame_seq, List.append_assoc]
  · refine ⟨min 3 k1, ws1, hs1, ?_, .inr ⟨e, rfl⟩⟩
    rw [take_frame_length]

/-- `write_packet` leaves the input alone and records the packet, however long it is. -/
theorem writePacket_frame (ch : Channel) (p : Bytes) (n : Nat) :
    ∃ out ws, (ch.writePacket p n).2 = { ch with output := out, writes := ws, trace := ch.trace ++ [.sent n p] } := by
  unfold Channel.writePacket
  simp only
  split
  · exact ⟨_, _, rfl⟩
  · obtain ⟨k1, ws1, -, e1, -⟩ := writeAll_cases { ch with trace := ch.trace ++ [.sent n p] } (leBytes 3 (p.length % 2 ^ 32))
    rcases hw : Channel.writeAll { ch with trace := ch.trace ++ [.sent n p] } (leBytes 3 (p.length % 2 ^ 32)) with ⟨r, c⟩
    rw [hw] at e1
    simp only at e1
    subst e1
    cases r with
    | ok _ =>
      simp only
      generalize ch.output ++ (leBytes 3 (p.length % 2 ^ 32)).take k1 = out1 at hw
      obtain ⟨k2, ws2, -, e2, -⟩ := writeAll_cases
        { ch with output := out1, writes := ws1, trace := ch.trace ++ [.sent n p] } (leBytes 1 n)
      rcases hw2 : Channel.writeAll
        { ch with output := out1, writes := ws1, trace := ch.trace ++ [.sent n p] } (leBytes 1 n) with ⟨r2, c2⟩
      rw [hw2] at e2
      simp only at e2
      subst e2
      cases r2 with
      | ok _ =>
        simp only [Channel.write]
        cases ws2 with
        | nil => exact ⟨_, _, rfl⟩
        | cons w ws2 => cases w <;> exact ⟨_, _, rfl⟩
      | err e => exact ⟨_, _, rfl⟩
      | panic => exact ⟨_, _, rfl⟩
      | hang => exact ⟨_, _, rfl⟩
    | err e => exact ⟨_, _, rfl⟩
    | panic => exact ⟨_, _, rfl⟩
    | hang => exact ⟨_, _, rfl⟩

end MysqlCdc
