import Verif.Spec.Packets
import Verif.Lemmas.Events
import Verif.Lemmas.TableMap
import Verif.Model.Commands
import Mathlib.Data.Nat.Bitwise
/-!
# Parsers and writers of the client/server protocol
-/

namespace MysqlCdc

open Spec

theorem leBytes_eq (k n : Nat) : leBytes k n = le k n := by
  induction k generalizing n with
  | zero => rfl
  | succ k ih => rw [leBytes, le_succ, ih]

theorem le_mod (k n : Nat) : le k (n % 256 ^ k) = le k n := by
  induction k generalizing n with
  | zero => rfl
  | succ k ih =>
    rw [le_succ, le_succ]
    congr 1
    · apply UInt8.toNat_inj.1
      simp only [UInt8.toNat_ofNat']
      rw [Nat.pow_succ, Nat.mul_comm, Nat.mod_mul]
      omega
    · rw [← ih (n / 256), ← ih (n % 256 ^ (k + 1) / 256)]
      congr 1
      rw [Nat.pow_succ, Nat.mul_comm, Nat.mod_mul_right_div_self, Nat.mod_mod]

theorem le_inj {k a b : Nat} (ha : a < 256 ^ k) (hb : b < 256 ^ k) (h : le k a = le k b) : a = b := by
  rw [← leVal_le_of_lt ha, ← leVal_le_of_lt hb, h]

theorem leVal_append (a b : Bytes) : leVal (a ++ b) = leVal a + 256 ^ a.length * leVal b := by
  induction a with
  | nil => simp [leVal]
  | cons x a ih =>
    simp only [List.cons_append, leVal, ih, List.length_cons, Nat.pow_succ]
    rw [Nat.mul_add, Nat.add_assoc, Nat.mul_comm (256 ^ a.length) 256, Nat.mul_assoc]

/-- A parser reads a given text in at most one way. -/
theorem Parses.unique {α : Type} {p : P α} {e1 e2 r1 r2 : Bytes} {v1 v2 : α} (h1 : Parses p e1 v1) (h2 : Parses p e2 v2)
    (h : e1 ++ r1 = e2 ++ r2) : v1 = v2 := by
  have a := h1.run_append r1
  have b := h2.run_append r2
  rw [h, b] at a
  simpa using a.symm

theorem ParsesEnd.unique {α : Type} {p : P α} {e1 e2 : Bytes} {v1 v2 : α} (h1 : ParsesEnd p e1 v1) (h2 : ParsesEnd p e2 v2)
    (h : e1 = e2) : v1 = v2 := by
  have a := h1.run
  have b := h2.run
  rw [h, b] at a
  simpa using a.symm

theorem takeWhile_until {d : UInt8} {a r : Bytes} (h : d ∉ a) : (a ++ d :: r).takeWhile (· != d) = a := by
  induction a with
  | nil => simp
  | cons x a ih =>
    simp only [List.mem_cons, not_or] at h
    have hx : (x != d) = true := by simpa using fun hh => h.1 hh.symm
    simp [hx, ih h.2]

theorem readNullTermString_parses {s : RStr} {enc : Bytes} (h : NullTerm s enc) : Parses readNullTermString enc s := by
  obtain ⟨h0, rfl⟩ := h
  intro pre rest
  have ht : (utf8Bytes s ++ [0] ++ rest).takeWhile (· != 0) = utf8Bytes s := by
    rw [List.append_assoc]; exact takeWhile_until h0
  have hk : (utf8Bytes s ++ [0] ++ rest).take ((utf8Bytes s).length + 1) = utf8Bytes s ++ [0] := by
    rw [List.take_append_of_le_length (by simp)]
    exact List.take_of_length_le (by simp)
  unfold readNullTermString
  rw [P.seq_apply]
  have : P.readUntil 0 (pre ++ (utf8Bytes s ++ [0] ++ rest)) pre.length
      = .ok (utf8Bytes s ++ [0], pre.length + (utf8Bytes s ++ [0]).length) := by
    unfold P.readUntil
    simp only [List.drop_left, ht, hk]
  rw [this]
  simp [P.lift, fromUtf8_utf8Bytes]

theorem hasBit_iff (n k : Nat) : hasBit n k = n.testBit k := by
  rw [hasBit, Nat.testBit_eq_decide_div_mod_eq]
  simp [BEq.beq]

theorem and_pow_pos (n k : Nat) : (n &&& 1 <<< k > 0) ↔ hasBit n k = true := by
  rw [hasBit_iff, Nat.one_shiftLeft, Nat.and_two_pow]
  cases n.testBit k <;> simp [Nat.two_pow_pos]

theorem caps_val {caps : Nat} (h : caps < 2 ^ 64) :
    leVal (le 2 (caps % 2 ^ 16) ++ le 2 (caps / 2 ^ 16 % 2 ^ 16) ++ le 4 (caps / 2 ^ 32)) = caps := by
  rw [leVal_append, leVal_append, leVal_le_of_lt (by omega), leVal_le_of_lt (by omega), leVal_le_of_lt (by omega)]
  simp only [List.length_append, le_length]
  omega

theorem readString_zeros : Parses (readString 6) (List.replicate 6 0) (List.replicate 6 '\x00') :=
  (readString_parses (n := 6) (s := List.replicate 6 '\x00') (by decide) (by decide)).cast (by decide) rfl

theorem parseHandshake_parses {h : HandshakePacket} {bs : Bytes} (hg : Greeting h bs) : parseHandshake.run bs = .ok h := by
  cases hg with
  | @mk protocol id caps collation status length version scramble1 scramble2 plugin versionBytes scrambleBytes extra h1 h2 h3 h4
      h5 h6 h7 h8 h9 part2 pluginBytes h10 h11 =>
    suffices hp : Parses parseHandshake
        (le 1 protocol ++ versionBytes ++ le 4 id ++ scrambleBytes ++ le 2 (caps % 2 ^ 16) ++ le 1 collation ++ le 2 status
          ++ le 2 (caps / 2 ^ 16 % 2 ^ 16) ++ le 1 length ++ List.replicate 6 0 ++ le 4 (caps / 2 ^ 32) ++ part2 ++ pluginBytes)
        ⟨protocol, version, id, scramble1 ++ scramble2, caps, collation, status, List.replicate 6 '\x00', length, plugin⟩ from
      hp.run_append extra
    unfold parseHandshake
    simp only [List.append_assoc]
    refine (u8_parses h1).bind ?_
    refine (readNullTermString_parses h2).bind ?_
    refine (uLE_parses (k := 4) (by simpa using h3)).bind ?_
    refine (readNullTermString_parses h4).bind ?_
    refine (readVec_parses (n := 2) (le_length _ _) (by decide)).bind ?_
    refine (u8_parses h7).bind ?_
    refine (uLE_parses (k := 2) (by simpa using h8)).bind ?_
    refine (readVec_parses (n := 2) (le_length _ _) (by decide)).bind ?_
    refine (u8_parses h9).bind ?_
    refine readString_zeros.bind ?_
    refine (readVec_parses (n := 4) (le_length _ _) (by decide)).bind ?_
    have hc := caps_val h6
    rw [List.append_assoc] at hc
    simp only [hc, CAP_SECURE_CONNECTION, CAP_PLUGIN_AUTH, and_pow_pos]
    have tail : ∀ scramble : RStr, Parses (do
        let authPluginName ← if hasBit caps 19 = true then readNullTermString else pure []
        (pure ⟨protocol, version, id, scramble, caps, collation, status, List.replicate 6 '\x00', length, authPluginName⟩ :
          P HandshakePacket)) pluginBytes
        ⟨protocol, version, id, scramble, caps, collation, status, List.replicate 6 '\x00', length, plugin⟩ := by
      intro scramble
      cases hb : hasBit caps 19 with
      | true =>
        rw [hb] at h11
        simp only [if_true] at h11 ⊢
        exact (readNullTermString_parses h11).map _
      | false =>
        rw [hb] at h11
        simp only [Bool.false_eq_true, if_false] at h11 ⊢
        obtain ⟨rfl, rfl⟩ := h11
        exact Parses.pure _
    cases hb : hasBit caps 15 with
    | true =>
      rw [hb] at h10
      simp only [if_true] at h10 ⊢
      exact (readNullTermString_parses h10.1).bind (((Parses.pure _).bind (tail (scramble1 ++ scramble2))).cast rfl rfl)
    | false =>
      rw [hb] at h10
      simp only [Bool.false_eq_true, if_false] at h10 ⊢
      obtain ⟨rfl, rfl⟩ := h10
      rw [List.append_nil]
      exact ((Parses.pure scramble1).bind (tail scramble1)).cast rfl rfl

theorem utf8Bytes_append (a b : RStr) : utf8Bytes (a ++ b) = utf8Bytes a ++ utf8Bytes b := by
  simp [utf8Bytes]

theorem parseErrorPacket_parses {e : ErrorPacket} {bs : Bytes} (h : ErrorBody e bs) : parseErrorPacket.run bs = .ok e := by
  apply ParsesEnd.run
  unfold parseErrorPacket
  cases h with
  | @marked code state message h1 h2 =>
    rw [show le 2 code ++ utf8Bytes ['#'] ++ utf8Bytes state ++ utf8Bytes message
        = le 2 code ++ utf8Bytes ('#' :: (state ++ message)) by
      rw [show '#' :: (state ++ message) = ['#'] ++ (state ++ message) from rfl, utf8Bytes_append, utf8Bytes_append]; simp]
    refine (uLE_parses (k := 2) (by simpa using h1)).bindEnd ?_
    refine (readToString_parses _).bind ?_
    have e1 : List.drop 6 ('#' :: (state ++ message)) = message := by
      rw [show 6 = 5 + 1 from rfl, List.drop_succ_cons, ← h2, List.drop_left]
    have e2 : List.take 5 (List.drop 1 ('#' :: (state ++ message))) = state := by
      rw [List.drop_succ_cons, List.drop_zero, ← h2, List.take_left]
    rw [if_pos (by rfl), e1, e2]
    exact ParsesEnd.pure _
  | unmarked h1 h2 =>
    refine (uLE_parses (k := 2) (by simpa using h1)).bindEnd ?_
    refine (readToString_parses _).bind ?_
    rw [if_neg h2]
    exact ParsesEnd.pure _

theorem parseAuthSwitch_parses {e : AuthPluginSwitchPacket} {bs : Bytes} (h : SwitchBody e bs) :
    parseAuthSwitch.run bs = .ok e := by
  cases h with
  | mk h1 h2 =>
    refine Parses.run_append (p := parseAuthSwitch) ?_ _
    unfold parseAuthSwitch
    exact (readNullTermString_parses h1).bind ((readNullTermString_parses h2).map _)

theorem parseEndOfFile_parses {e : EndOfFilePacket} {bs : Bytes} (h : EofBody e bs) : parseEndOfFile.run bs = .ok e := by
  cases h with
  | mk h1 h2 =>
    refine Parses.run_append (p := parseEndOfFile) ?_ _
    unfold parseEndOfFile
    exact (uLE_parses (k := 2) (by simpa using h1)).bind ((uLE_parses (k := 2) (by simpa using h2)).map _)

end MysqlCdc
