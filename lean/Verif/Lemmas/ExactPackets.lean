import Verif.Lemmas.ExactRowEvents
import Verif.Lemmas.Channel
import Verif.Lemmas.Packets
import Verif.Spec.AcceptedPackets
/-!
# Exactly which packets of the server are understood
-/

namespace MysqlCdc

open Spec

theorem takeWhile_split (t : Bytes) : (0 : UInt8) ∉ t.takeWhile (· != 0) ∧
    (t = t.takeWhile (· != 0) ∨ ∃ rest, t = t.takeWhile (· != 0) ++ 0 :: rest) := by
  constructor
  · intro h
    have := List.all_takeWhile (p := (· != (0 : UInt8))) (l := t)
    rw [List.all_eq_true] at this
    simpa using this 0 h
  · have hs := List.takeWhile_append_dropWhile (p := (· != (0 : UInt8))) (l := t)
    cases hd : t.dropWhile (· != 0) with
    | nil => rw [hd, List.append_nil] at hs; exact .inl hs.symm
    | cons b rest =>
      have hb := List.head?_dropWhile_not (· != (0 : UInt8)) t
      rw [hd] at hb hs
      simp only [List.head?_cons, bne_eq_false_iff_eq] at hb
      rw [hb] at hs
      exact .inr ⟨rest, hs.symm⟩

theorem ExactEnd.nullTerm {α : Type} {f : RStr → P α} {S : RStr → α → Bytes → Prop} (h : ∀ s, ExactEnd (f s) (S s)) :
    ExactEnd (readNullTermString >>= f) (fun v t => ∃ s rest, ZeroEnded s t rest ∧ S s v rest) := by
  intro buf pos v
  obtain ⟨h0, hsplit⟩ := takeWhile_split (buf.drop pos)
  generalize ht : buf.drop pos = t at *
  have hread : ∀ (k : Bytes) (rest : Bytes), t = k ++ rest → t.take ((t.takeWhile (· != 0)).length + 1) = k →
      ((∃ q, (readNullTermString >>= f) buf pos = .ok (v, q)) ↔ ∃ s, k.dropLast = utf8Bytes s ∧ S s v rest) := by
    intro k rest hk hu
    have hu' : P.readUntil 0 buf pos = .ok (k, pos + k.length) := by
      unfold P.readUntil
      simp only [ht, hu]
    have hr : ∀ s, readNullTermString buf pos = .ok (s, pos + k.length) ↔ k.dropLast = utf8Bytes s := by
      intro s
      rw [← fromUtf8_iff]
      unfold readNullTermString
      rw [P.seq_apply, hu']
      simp only [Res.bind, P.lift]
      cases fromUtf8 k.dropLast <;> simp
    have hr' : ∀ s q, readNullTermString buf pos = .ok (s, q) → q = pos + k.length := by
      intro s q hq
      unfold readNullTermString at hq
      rw [P.seq_apply, hu'] at hq
      simp only [Res.bind, P.lift] at hq
      cases hc : fromUtf8 k.dropLast with
      | ok a => rw [hc] at hq; simp at hq; exact hq.2.symm
      | _ => rw [hc] at hq; simp at hq
    have hrest : ∀ s, (∃ q, f s buf (pos + k.length) = .ok (v, q)) ↔ S s v rest := by
      intro s
      rw [h s, ← List.drop_drop, ht, hk, List.drop_left]
    constructor
    · rintro ⟨q, hq⟩
      obtain ⟨⟨s, q1⟩, h1, h2⟩ := bind_inv hq
      obtain rfl := hr' s q1 h1
      exact ⟨s, (hr s).1 h1, (hrest s).1 ⟨q, h2⟩⟩
    · rintro ⟨s, h1, h2⟩
      obtain ⟨q, hq⟩ := (hrest s).2 h2
      exact ⟨q, by rw [P.seq_apply, (hr s).2 h1]; exact hq⟩
  rcases hsplit with hall | ⟨rest, hrest⟩
  · -- no zero
    have hno : (0 : UInt8) ∉ t := by rw [hall]; exact h0
    rw [hread t [] (by simp) (by rw [← hall]; exact List.take_of_length_le (by omega))]
    constructor
    · rintro ⟨s, h1, h2⟩; exact ⟨s, [], .cut hno h1, h2⟩
    · rintro ⟨s, rest, hz, h2⟩
      cases hz with
      | zero hn =>
        rw [hn.2] at hno
        simp at hno
      | cut _ h1 => exact ⟨s, h1, h2⟩
  · generalize hw : t.takeWhile (· != 0) = w at *
    have hk : t.take (w.length + 1) = w ++ [0] := by
      rw [hrest, show w ++ 0 :: rest = (w ++ [0]) ++ rest by simp, List.take_append_of_le_length (by simp)]
      exact List.take_of_length_le (by simp)
    rw [hread (w ++ [0]) rest (by rw [hrest]; simp) hk, List.dropLast_concat]
    constructor
    · rintro ⟨s, h1, h2⟩
      refine ⟨s, rest, ?_, h2⟩
      rw [hrest, show w ++ 0 :: rest = (w ++ [0]) ++ rest by simp]
      exact .zero ⟨h1 ▸ h0, by rw [h1]⟩
    · rintro ⟨s, rest', hz, h2⟩
      generalize ht' : t = t' at hz
      cases hz with
      | zero hn =>
        obtain ⟨n1, rfl⟩ := hn
        have he : w ++ 0 :: rest = utf8Bytes s ++ 0 :: rest' := by rw [← hrest, ht']; simp
        have h3 : w = utf8Bytes s := by
          have h4 := takeWhile_until (r := rest) h0
          have h5 := takeWhile_until (r := rest') n1
          rw [← he] at h5
          exact h4.symm.trans h5
        rw [h3] at he
        have h6 := List.append_cancel_left he
        simp only [List.cons.injEq, true_and] at h6
        subst h6
        exact ⟨s, h3, h2⟩
      | cut hno _ =>
        rw [← ht', hrest] at hno
        simp at hno

theorem ExactEnd.retAll {α : Type} (a : α) : ExactEnd (Pure.pure a : P α) (fun v _ => v = a) := by
  intro buf pos v
  simp [P.ret_apply, eq_comm]

theorem exact_greetingName {α : Type} (caps : Nat) (f : RStr → α) :
    ExactEnd (do
      let name ← if caps &&& CAP_PLUGIN_AUTH > 0 then readNullTermString else pure []
      pure (f name))
      (fun v t => ∃ plugin t5, (if hasBit caps 19 then ZeroEnded plugin t t5 else plugin = [] ∧ t5 = t) ∧ v = f plugin) := by
  simp only [CAP_PLUGIN_AUTH, and_pow_pos]
  cases hasBit caps 19 with
  | true =>
    simp only [if_true]
    exact ExactEnd.nullTerm fun s => ExactEnd.retAll (f s)
  | false =>
    simp only [Bool.false_eq_true, if_false]
    refine (ExactEnd.retAll (f [])).cast fun v t => ?_
    constructor
    · rintro rfl; exact ⟨[], t, ⟨rfl, rfl⟩, rfl⟩
    · rintro ⟨_, _, ⟨rfl, rfl⟩, rfl⟩; rfl

theorem exact_greetingTail {α : Type} (caps : Nat) (scramble1 : RStr) (f : RStr → RStr → α) :
    ExactEnd (do
      let scramble ← if caps &&& CAP_SECURE_CONNECTION > 0 then do
          let more ← readNullTermString
          pure (scramble1 ++ more)
        else pure scramble1
      let name ← if caps &&& CAP_PLUGIN_AUTH > 0 then readNullTermString else pure []
      pure (f scramble name))
      (fun v t => ∃ scramble2 t4 plugin t5, (if hasBit caps 15 then ZeroEnded scramble2 t t4 else scramble2 = [] ∧ t4 = t) ∧
        (if hasBit caps 19 then ZeroEnded plugin t4 t5 else plugin = [] ∧ t5 = t4) ∧ v = f (scramble1 ++ scramble2) plugin) := by
  simp only [CAP_SECURE_CONNECTION, and_pow_pos]
  cases hasBit caps 15 with
  | true =>
    simp only [if_true]
    refine ExactEnd.cast (ExactEnd.nullTerm fun more => exact_greetingName caps (f (scramble1 ++ more))) ?_
    intro v t
    constructor
    · rintro ⟨s, t4, h1, plugin, t5, h2, h3⟩; exact ⟨s, t4, plugin, t5, h1, h2, h3⟩
    · rintro ⟨s, t4, plugin, t5, h1, h2, h3⟩; exact ⟨s, t4, h1, plugin, t5, h2, h3⟩
  | false =>
    simp only [Bool.false_eq_true, if_false]
    refine (exact_greetingName caps (f scramble1)).cast fun v t => ?_
    constructor
    · rintro ⟨plugin, t5, h2, h3⟩; exact ⟨[], t, plugin, t5, ⟨rfl, rfl⟩, h2, by simpa using h3⟩
    · rintro ⟨_, _, plugin, t5, ⟨rfl, rfl⟩, h2, h3⟩; exact ⟨plugin, t5, h2, by simpa using h3⟩

theorem exact_greeting : ExactEnd parseHandshake LooseGreeting := by
  unfold parseHandshake
  refine ExactEnd.cast (Exact.u8.bindEnd fun protocol => ExactEnd.nullTerm fun version => (Exact.uLE 4).bindEnd fun id =>
    ExactEnd.nullTerm fun scramble1 => (Exact.readVec 2).bindEnd fun flags1 => Exact.u8.bindEnd fun collation =>
    (Exact.uLE 2).bindEnd fun status => (Exact.readVec 2).bindEnd fun flags2 => Exact.u8.bindEnd fun length =>
    (Exact.readString 6).bindEnd fun filler => (Exact.readVec 4).bindEnd fun flags3 =>
    exact_greetingTail (leVal (flags1 ++ flags2 ++ flags3)) scramble1 fun scramble name =>
      HandshakePacket.mk protocol version id scramble (leVal (flags1 ++ flags2 ++ flags3)) collation status filler length name) ?_
  intro v t
  constructor
  · rintro ⟨protocol, _, t1, ⟨h1, rfl⟩, ⟨version, _, h2, id, _, t2, ⟨h3, rfl⟩, ⟨scramble1, _, h4, _, flags1, _, ⟨-, hf1, rfl⟩,
      ⟨collation, _, _, ⟨h6, rfl⟩, ⟨status, _, _, ⟨h7, rfl⟩, ⟨_, flags2, _, ⟨-, hf2, rfl⟩, ⟨length, _, _, ⟨h8, rfl⟩, ⟨filler, _, _,
      ⟨-, hfill, rfl⟩, ⟨_, flags3, t3, ⟨-, hf3, rfl⟩, ⟨scramble2, t4, plugin, t5, h10, h11, rfl⟩, rfl⟩, rfl⟩, rfl⟩, rfl⟩, rfl⟩, rfl⟩,
      rfl⟩, rfl⟩, rfl⟩
    have b1 := leVal_lt flags1
    have b2 := leVal_lt flags2
    have b3 := leVal_lt flags3
    rw [hf1] at b1
    rw [hf2] at b2
    rw [hf3] at b3
    have hcaps : leVal (flags1 ++ flags2 ++ flags3) = leVal flags1 + 2 ^ 16 * leVal flags2 + 2 ^ 32 * leVal flags3 := by
      rw [leVal_append, leVal_append, List.length_append, hf1, hf2]; omega
    have e1 : flags1 = le 2 (leVal (flags1 ++ flags2 ++ flags3) % 2 ^ 16) := by
      rw [hcaps, show (leVal flags1 + 2 ^ 16 * leVal flags2 + 2 ^ 32 * leVal flags3) % 2 ^ 16 = leVal flags1 by omega, le_leVal' hf1]
    have e2 : flags2 = le 2 (leVal (flags1 ++ flags2 ++ flags3) / 2 ^ 16 % 2 ^ 16) := by
      rw [hcaps, show (leVal flags1 + 2 ^ 16 * leVal flags2 + 2 ^ 32 * leVal flags3) / 2 ^ 16 % 2 ^ 16 = leVal flags2 by omega,
        le_leVal' hf2]
    have e3 : flags3 = le 4 (leVal (flags1 ++ flags2 ++ flags3) / 2 ^ 32) := by
      rw [hcaps, show (leVal flags1 + 2 ^ 16 * leVal flags2 + 2 ^ 32 * leVal flags3) / 2 ^ 32 = leVal flags3 by omega, le_leVal' hf3]
    generalize leVal (flags1 ++ flags2 ++ flags3) = caps at *
    subst e1 e2 e3
    refine .mk h1 h2 h3 ?_ (by omega) h6 h7 h8 hfill h10 h11
    simpa only [List.append_assoc] using h4
  · rintro ⟨h1, h2, h3, h4, h5, h6, h7, h8, h9, h10, h11⟩
    simp only [List.append_assoc] at h4
    have hc := caps_val h5
    refine ⟨_, _, _, ⟨h1, rfl⟩, ⟨_, _, h2, _, _, _, ⟨h3, rfl⟩, ⟨_, _, h4, _, _, _, ⟨by decide, le_length _ _, rfl⟩,
      ⟨_, _, _, ⟨h6, rfl⟩, ⟨_, _, _, ⟨h7, rfl⟩, ⟨_, _, _, ⟨by decide, le_length _ _, rfl⟩, ⟨_, _, _, ⟨h8, rfl⟩, ⟨_, _, _,
      ⟨by decide, h9, rfl⟩, ⟨_, _, _, ⟨by decide, le_length _ _, rfl⟩, ⟨_, _, _, _, by rw [hc]; exact h10, by rw [hc]; exact h11,
      by rw [hc]⟩, rfl⟩, rfl⟩, rfl⟩, rfl⟩, rfl⟩, rfl⟩, rfl⟩, rfl⟩, rfl⟩

theorem exact_switch : ExactEnd parseAuthSwitch LooseSwitch := by
  unfold parseAuthSwitch
  refine ExactEnd.cast (ExactEnd.nullTerm fun name => ExactEnd.nullTerm fun data => ExactEnd.retAll
    (AuthPluginSwitchPacket.mk name data)) ?_
  intro v t
  constructor
  · rintro ⟨name, t1, h1, data, t2, h2, rfl⟩; exact ⟨t1, t2, h1, h2⟩
  · rintro ⟨t1, t2, h1, h2⟩; exact ⟨_, t1, h1, _, t2, h2, rfl⟩

theorem exact_eof : ExactEnd parseEndOfFile EofBody := by
  unfold parseEndOfFile
  refine ExactEnd.cast ((Exact.uLE 2).bindEnd fun warnings => (Exact.uLE 2).bindEnd fun status => ExactEnd.retAll
    (EndOfFilePacket.mk warnings status)) ?_
  intro v t
  constructor
  · rintro ⟨w, _, _, ⟨h1, rfl⟩, ⟨s, _, x, ⟨h2, rfl⟩, rfl, rfl⟩, rfl⟩
    rw [← List.append_assoc]
    exact .mk h1 h2
  · rintro ⟨h1, h2⟩
    rw [List.append_assoc]
    exact ⟨_, _, _, ⟨h1, rfl⟩, ⟨_, _, _, ⟨h2, rfl⟩, rfl, rfl⟩, rfl⟩

theorem exact_errorPacket : ExactEnd parseErrorPacket LooseError := by
  unfold parseErrorPacket
  refine ExactEnd.cast ((Exact.uLE 2).bindEnd (S := fun (code : Nat) (v : ErrorPacket) t => ∃ text : RStr, t = utf8Bytes text ∧
    (text.head? = some '#' ∧ v = ⟨code, text.drop 6, some ((text.drop 1).take 5)⟩ ∨
      ¬text.head? = some '#' ∧ v = ⟨code, text, none⟩)) fun code => ?_) ?_
  · intro buf pos v
    constructor
    · rintro ⟨q, hq⟩
      obtain ⟨⟨text, q1⟩, h1, h2⟩ := bind_inv hq
      refine ⟨text, (ExactEnd.toString buf pos text).1 ⟨_, h1⟩, ?_⟩
      split at h2 <;> simp only [P.ret_apply, Res.ok.injEq, Prod.mk.injEq] at h2
      · next h => exact .inl ⟨h, h2.1.symm⟩
      · next h => exact .inr ⟨h, h2.1.symm⟩
    · rintro ⟨text, h1, h2⟩
      obtain ⟨q, hq⟩ := (ExactEnd.toString buf pos text).2 h1
      refine ⟨q, ?_⟩
      rw [P.seq_apply, hq]
      rcases h2 with ⟨h2, rfl⟩ | ⟨h2, rfl⟩
      · simp only [Res.bind, h2, if_true]; rfl
      · simp only [Res.bind, h2, if_false]; rfl
  · intro v t
    constructor
    · rintro ⟨code, _, _, ⟨h1, rfl⟩, ⟨text, rfl, ⟨h2, rfl⟩ | ⟨h2, rfl⟩⟩, rfl⟩
      · obtain ⟨tail, rfl⟩ : ∃ tail, text = '#' :: tail := by
          cases text with
          | nil => simp at h2
          | cons a b => simp at h2; exact ⟨b, by rw [h2]⟩
        simp only [List.drop_succ_cons, List.drop_zero]
        have : tail = tail.take 5 ++ tail.drop 5 := (List.take_append_drop 5 tail).symm
        refine cast ?_ (LooseError.marked (code := code) (state := tail.take 5) (message := tail.drop 5) h1 ?_)
        · rw [List.cons_append, ← this]
        · rw [List.length_take]
          by_cases hl : 5 ≤ tail.length
          · left; omega
          · right
            exact ⟨by omega, List.drop_eq_nil_of_le (by omega)⟩
      · exact .unmarked h1 h2
    · rintro (⟨h1, h2⟩ | ⟨h1, h2⟩)
      · next code state message =>
        refine ⟨code, _, _, ⟨h1, rfl⟩, ⟨_, rfl, .inl ⟨rfl, ?_⟩⟩, rfl⟩
        simp only [List.cons_append, List.drop_succ_cons, List.drop_zero]
        rcases h2 with h2 | ⟨h2, rfl⟩
        · rw [← h2, List.drop_left, List.take_left]
        · rw [List.append_nil, List.drop_eq_nil_of_le (by omega), List.take_of_length_le (by omega)]
      · exact ⟨_, _, _, ⟨h1, rfl⟩, ⟨_, rfl, .inr ⟨h2, rfl⟩⟩, rfl⟩

theorem exact_textRow : ExactEnd parseResultSetRow LooseRow :=
  ExactEnd.whileData Exact.lenEncStr fun _ h => (text_parses h).2 rfl

end MysqlCdc
