import Verif.Lemmas.Exact
import Verif.Lemmas.ExactEvents
import Verif.Lemmas.Rows
import Verif.Spec.AcceptedRows
/-!
# Exactness of the decoders of cells, rows and row events
-/

namespace MysqlCdc

open Spec

theorem Exact.uintLE (w : Nat) : Exact (P.uintLE w) (Wide w) := by
  unfold P.uintLE
  by_cases h8 : 8 < w
  · rw [if_pos h8]
    exact Exact.panic.cast fun v e => by simp only [Wide, false_iff]; omega
  · rw [if_neg h8]
    by_cases h0 : w = 0
    · subst h0
      refine ((Exact.readExact 0).bind fun _ => Exact.ite (fun _ => Exact.panic) fun _ => Exact.ret _).cast fun v e => ?_
      simp [Wide]
    · refine ((Exact.readExact w).bind fun bs => Exact.ite (fun _ => Exact.panic) fun _ => Exact.ret (leVal bs)).cast fun v e => ?_
      constructor
      · rintro ⟨bs, _, _, ⟨rfl, rfl⟩, ⟨h, _⟩ | ⟨_, rfl, rfl⟩, rfl⟩
        · exact absurd h h0
        · rename_i bs
          exact ⟨by omega, by omega, leVal_lt _, by rw [List.append_nil, le_leVal]⟩
      · rintro ⟨_, _, h3, rfl⟩
        exact ⟨le w v, le w v, [], ⟨le_length _ _, rfl⟩, .inr ⟨h0, by rw [leVal_le_of_lt h3], rfl⟩, by simp⟩

theorem Exact.uintBE (w : Nat) : Exact (P.uintBE w) (fun n e => 1 ≤ w ∧ w ≤ 8 ∧ n < 256 ^ w ∧ e = be w n) := by
  unfold P.uintBE
  by_cases h8 : 8 < w
  · rw [if_pos h8]
    exact Exact.panic.cast fun v e => by simp only [false_iff]; omega
  · rw [if_neg h8]
    by_cases h0 : w = 0
    · subst h0
      refine ((Exact.readExact 0).bind fun _ => Exact.ite (fun _ => Exact.panic) fun _ => Exact.ret _).cast fun v e => ?_
      simp
    · have : (do let bs ← P.readExact w; if w = 0 then P.panic else Pure.pure (beVal bs)) = P.uBE w := by
        simp only [h0, if_false]
        rfl
      rw [this]
      exact (Exact.uBE w).cast fun v e =>
        ⟨fun h => ⟨by omega, by omega, h.1, h.2⟩, fun h => ⟨h.2.2.1, h.2.2.2⟩⟩

theorem exact_text (md : Nat) : Exact (parseString md) (LooseText md) := by
  unfold parseString
  by_cases h : md < 256
  · simp only [h, if_true]
    refine (Exact.u8.bind fun n => Exact.readString n).cast fun s e => ?_
    simp only [LooseText, h, if_true]
    constructor
    · rintro ⟨n, _, _, ⟨h1, rfl⟩, ⟨_, rfl, rfl⟩, rfl⟩; exact ⟨h1, rfl⟩
    · rintro ⟨h1, rfl⟩; exact ⟨_, _, _, ⟨h1, rfl⟩, ⟨by omega, rfl, rfl⟩, rfl⟩
  · simp only [h, if_false]
    refine ((Exact.uLE 2).bind fun n => Exact.readString n).cast fun s e => ?_
    simp only [LooseText, h, if_false]
    constructor
    · rintro ⟨n, _, _, ⟨h1, rfl⟩, ⟨_, rfl, rfl⟩, rfl⟩; exact ⟨h1, rfl⟩
    · rintro ⟨h1, rfl⟩; exact ⟨_, _, _, ⟨h1, rfl⟩, ⟨by omega, rfl, rfl⟩, rfl⟩

theorem exact_blob (md : Nat) : Exact (parseBlob md) (LooseBlob md) := by
  unfold parseBlob
  refine ((Exact.uintLE md).bind fun n => Exact.readVec n).cast fun bs e => ?_
  constructor
  · rintro ⟨n, len, _, h1, ⟨h2, rfl, rfl⟩, rfl⟩; exact ⟨len, h2, h1, rfl⟩
  · rintro ⟨len, h1, h2, rfl⟩; exact ⟨_, len, _, h2, ⟨h1, rfl, rfl⟩, rfl⟩

theorem shr8 (n : Nat) : n >>> 8 = n / 256 := Nat.shiftRight_eq_div_pow n 8

theorem and255 (n : Nat) : n &&& 0xFF = n % 256 := Nat.and_two_pow_sub_one_eq_mod n 8

theorem exact_bit {md : Nat} (hmd : md < 2 ^ 16) : Exact (parseBit md) (LooseBit md) := by
  unfold parseBit
  refine ((Exact.bitmapBE _).map List.reverse).cast fun bits e => ?_
  rw [shr8, and255]
  constructor
  · rintro ⟨b, ⟨_, h1, h2⟩, rfl⟩; exact ⟨by simpa using h1, by simpa using h2⟩
  · rintro ⟨h1, h2⟩; exact ⟨bits.reverse, ⟨by omega, by simpa using h1, h2⟩, by simp⟩

theorem exact_date : Exact parseDate LooseDate := by
  unfold parseDate
  refine ((Exact.uLE 3).map _).cast fun d e => ?_
  simp only [Nat.shiftRight_eq_div_pow, Nat.shiftLeft_eq, Nat.one_mul]
  constructor
  · rintro ⟨n, ⟨h, rfl⟩, rfl⟩
    have := LooseDate.mk (y := n / 2 ^ 9) (mo := n / 2 ^ 5 % 2 ^ 4) (d := n % 2 ^ 5) (by omega) (by omega) (by omega)
    rw [show n % 2 ^ 5 + 2 ^ 5 * (n / 2 ^ 5 % 2 ^ 4) + 2 ^ 9 * (n / 2 ^ 9) = n by omega] at this
    rwa [Nat.mod_eq_of_lt (show n / 2 ^ 9 < 2 ^ 16 by omega), Nat.mod_eq_of_lt (show n / 2 ^ 5 % 2 ^ 4 < 2 ^ 8 by omega),
      Nat.mod_eq_of_lt (show n % 2 ^ 5 < 2 ^ 8 by omega)]
  · rintro ⟨h1, h2, h3⟩
    refine ⟨_, ⟨by omega, rfl⟩, ?_⟩
    simp only [Date.mk.injEq]
    refine ⟨?_, ?_, ?_⟩ <;> omega

theorem exact_time : Exact parseTime LooseTime := by
  unfold parseTime
  refine ((Exact.uLE 3).bind fun n => Exact.ite (fun _ => Exact.fail _) fun _ => Exact.ret _).cast fun t e => ?_
  constructor
  · rintro ⟨n, _, _, ⟨h, rfl⟩, ⟨_, h'⟩ | ⟨hn, rfl, rfl⟩, rfl⟩
    · exact h'.elim
    · have := LooseTime.mk (h := n / 100 / 100) (mi := n / 100 % 100) (s := n % 100) (by omega) (by omega) (by omega)
      rw [show n / 100 / 100 * 10000 + n / 100 % 100 * 100 + n % 100 = n by omega] at this
      rwa [Nat.mod_eq_of_lt (show n / 100 % 100 < 2 ^ 8 by omega), Nat.mod_eq_of_lt (show n % 100 < 2 ^ 8 by omega), List.append_nil]
  · rintro ⟨h1, h2, h3⟩
    rename_i h mi s
    refine ⟨h * 10000 + mi * 100 + s, _, [], ⟨by omega, rfl⟩, .inr ⟨by omega, ?_, rfl⟩, by simp⟩
    simp only [Time.mk.injEq, and_true]
    refine ⟨?_, ?_, ?_⟩ <;> omega

theorem exact_dateTime : Exact parseDateTime LooseDateTime := by
  unfold parseDateTime
  refine ((Exact.uLE 8).map _).cast fun d e => ?_
  constructor
  · rintro ⟨n, ⟨h, rfl⟩, rfl⟩
    have := LooseDateTime.mk (y := n / 100 / 100 / 100 / 100 / 100) (mo := n / 100 / 100 / 100 / 100 % 100)
      (d := n / 100 / 100 / 100 % 100) (h := n / 100 / 100 % 100) (mi := n / 100 % 100) (s := n % 100)
      (by omega) (by omega) (by omega) (by omega) (by omega) (by omega)
    rwa [show ((((n / 100 / 100 / 100 / 100 / 100 * 100 + n / 100 / 100 / 100 / 100 % 100) * 100 + n / 100 / 100 / 100 % 100) * 100 +
      n / 100 / 100 % 100) * 100 + n / 100 % 100) * 100 + n % 100 = n by omega] at this
  · rintro ⟨h1, h2, h3, h4, h5, h6⟩
    refine ⟨_, ⟨by omega, rfl⟩, ?_⟩
    simp only [DateTime.mk.injEq, and_true]
    refine ⟨?_, ?_, ?_, ?_, ?_, ?_⟩ <;> omega

theorem exact_fraction (m : Mode) {md : Nat} (hmd : md < 2 ^ 16) : Exact (parseFractionalPart m md) (LooseFraction m md) := by
  unfold parseFractionalPart
  refine ((Exact.lift (addU m 16 md 1)).bind fun sum => Exact.ite (fun _ => Exact.ret 0) fun _ => (Exact.uintBE (sum / 2)).bind fun n =>
    Exact.ite (fun _ => Exact.ret _) fun _ => Exact.ite (fun _ => Exact.panic) fun _ => Exact.ret 0).cast fun micros e => ?_
  have hadd : ∀ sum, addU m 16 md 1 = .ok sum ↔ md < 65535 ∧ sum = md + 1 ∨ md = 65535 ∧ m.checks = false ∧ sum = 0 := by
    intro sum
    unfold addU
    by_cases h : md + 1 < 2 ^ 16
    · rw [if_pos h]; simp only [Res.ok.injEq]; omega
    · rw [if_neg h]
      obtain rfl : md = 65535 := by omega
      cases m.checks <;> simp [eq_comm]
  simp only [hadd]
  constructor
  · rintro ⟨sum, _, _, ⟨hs, rfl⟩, ⟨h0, rfl, rfl⟩ | ⟨h0, n, _, _, ⟨w1, w8, hn, rfl⟩, hr, rfl⟩, rfl⟩
    · refine .none ?_
      rcases hs with ⟨h1, rfl⟩ | ⟨h1, h2, rfl⟩
      · left; omega
      · exact .inr ⟨h1, h2⟩
    · rcases hs with ⟨hf, rfl⟩ | ⟨h1, h2, rfl⟩
      · rcases hr with ⟨h3, rfl, rfl⟩ | ⟨h3, ⟨_, hf⟩ | ⟨hm, rfl, rfl⟩⟩
        · simpa using LooseFraction.some hf rfl w1 h3 hn
        · exact hf.elim
        · have hl : (be ((md + 1) / 2) n).length = (md + 1) / 2 := by simp
          simpa using LooseFraction.wide (m := m) (fsp := md) (bs := be ((md + 1) / 2) n) (by simpa using hm) hf hl (by omega) (by omega)
      · simp at w1
  · intro h
    cases h with
    | none h =>
      rcases h with rfl | ⟨rfl, hm⟩
      · exact ⟨1, [], [], ⟨.inl ⟨by omega, rfl⟩, rfl⟩, .inl ⟨by decide, rfl, rfl⟩, rfl⟩
      · exact ⟨0, [], [], ⟨.inr ⟨rfl, hm, rfl⟩, rfl⟩, .inl ⟨by decide, rfl, rfl⟩, rfl⟩
    | @some width n hf hw h1 h3 hn =>
      subst hw
      exact ⟨md + 1, [], _, ⟨.inl ⟨hf, rfl⟩, rfl⟩, .inr ⟨by omega, n, _, [], ⟨by omega, by omega, hn, rfl⟩, .inl ⟨h3, rfl, rfl⟩, by simp; rfl⟩,
        by simp⟩
    | wide hm hf hw h4 h8 =>
      refine ⟨md + 1, [], e, ⟨.inl ⟨hf, rfl⟩, rfl⟩, .inr ⟨by omega, beVal e, e, [], ⟨by omega, by omega, ?_, ?_⟩,
        .inr ⟨by omega, .inr ⟨by simp [hm], rfl, rfl⟩⟩, by simp⟩, by simp⟩
      · rw [← hw]
        have := leVal_lt e.reverse
        simpa [beVal] using this
      · rw [← hw]
        have := le_leVal e.reverse
        rw [List.length_reverse] at this
        rw [be, beVal, this, List.reverse_reverse]

theorem looseFraction_lt {m : Mode} {fsp micros : Nat} {e : Bytes} (h : LooseFraction m fsp micros e) : micros / 1000 < 2 ^ 32 := by
  cases h with
  | none | wide => omega
  | @some width n hf hw h1 h3 hn =>
    obtain rfl | rfl | rfl : width = 1 ∨ width = 2 ∨ width = 3 := by omega
    all_goals simp only [Nat.reducePow, Nat.reduceSub] at hn ⊢; omega

theorem exact_time2 (m : Mode) {md : Nat} (hmd : md < 2 ^ 16) : Exact (parseTime2 m md) (LooseTime2 m md) := by
  unfold parseTime2
  refine ((Exact.uBE 3).bind fun n => (exact_fraction m hmd).bind fun micros => Exact.ite (fun _ => Exact.fail _) fun _ =>
    Exact.ret _).cast fun t e => ?_
  simp only [Nat.shiftRight_eq_div_pow, Nat.shiftLeft_eq, Nat.one_mul, Nat.and_one_is_mod]
  constructor
  · rintro ⟨n, _, _, ⟨h, rfl⟩, ⟨micros, frac, _, hf, ⟨_, h'⟩ | ⟨hn, rfl, rfl⟩, rfl⟩, rfl⟩
    · exact h'.elim
    · have := LooseTime2.mk (m := m) (fsp := md) (unused := n / 2 ^ 22 % 2) (h := n / 2 ^ 12 % 2 ^ 10) (mi := n / 2 ^ 6 % 2 ^ 6)
        (s := n % 2 ^ 6) (by omega) (by omega) (by omega) (by omega) hf
      rw [show 2 ^ 23 + 2 ^ 22 * (n / 2 ^ 22 % 2) + 2 ^ 12 * (n / 2 ^ 12 % 2 ^ 10) + 2 ^ 6 * (n / 2 ^ 6 % 2 ^ 6) + n % 2 ^ 6 = n by omega] at this
      rwa [Nat.mod_eq_of_lt (looseFraction_lt hf), List.append_nil]
  · rintro ⟨h1, h2, h3, h4, hf⟩
    rename_i unused h mi s micros frac
    refine ⟨_, _, _, ⟨by omega, rfl⟩, ⟨micros, frac, [], hf, .inr ⟨by omega, ?_, rfl⟩, by simp⟩, rfl⟩
    have := looseFraction_lt hf
    simp only [Time.mk.injEq]
    refine ⟨?_, ?_, ?_, ?_⟩ <;> omega

theorem exact_dateTime2 (m : Mode) {md : Nat} (hmd : md < 2 ^ 16) : Exact (parseDateTime2 m md) (LooseDateTime2 m md) := by
  unfold parseDateTime2
  refine ((Exact.uintBE 5).bind fun n => (exact_fraction m hmd).map _).cast fun t e => ?_
  simp only [Nat.shiftRight_eq_div_pow, Nat.shiftLeft_eq, Nat.one_mul]
  constructor
  · rintro ⟨n, _, _, ⟨_, _, h, rfl⟩, ⟨micros, hf, rfl⟩, rfl⟩
    have := LooseDateTime2.mk (m := m) (fsp := md) (sign := n / 2 ^ 39) (y := n / 2 ^ 22 % 2 ^ 17 / 13) (mo := n / 2 ^ 22 % 2 ^ 17 % 13)
      (d := n / 2 ^ 17 % 2 ^ 5) (h := n / 2 ^ 12 % 2 ^ 5) (mi := n / 2 ^ 6 % 2 ^ 6)
      (s := n % 2 ^ 6) (by omega) (by omega) (by omega) (by omega) (by omega) (by omega) (by omega) hf
    rw [show 2 ^ 39 * (n / 2 ^ 39) + 2 ^ 22 * (n / 2 ^ 22 % 2 ^ 17 / 13 * 13 + n / 2 ^ 22 % 2 ^ 17 % 13) + 2 ^ 17 * (n / 2 ^ 17 % 2 ^ 5)
      + 2 ^ 12 * (n / 2 ^ 12 % 2 ^ 5) + 2 ^ 6 * (n / 2 ^ 6 % 2 ^ 6) + n % 2 ^ 6 = n by omega] at this
    rwa [Nat.mod_eq_of_lt (looseFraction_lt hf), Nat.mod_eq_of_lt (show n / 2 ^ 22 % 2 ^ 17 / 13 < 2 ^ 16 by omega)]
  · rintro ⟨h1, h2, h3, h4, h5, h6, h7, hf⟩
    rename_i sign y mo d h mi s micros frac
    refine ⟨_, _, _, ⟨by omega, by omega, by omega, rfl⟩, ⟨micros, hf, ?_⟩, rfl⟩
    have := looseFraction_lt hf
    have hym : (2 ^ 39 * sign + 2 ^ 22 * (y * 13 + mo) + 2 ^ 17 * d + 2 ^ 12 * h + 2 ^ 6 * mi + s) / 2 ^ 22 % 2 ^ 17 = y * 13 + mo := by omega
    simp only [DateTime.mk.injEq, hym]
    refine ⟨?_, ?_, ?_, ?_, ?_, ?_, ?_⟩ <;> omega

theorem exact_timestamp2 (m : Mode) {md : Nat} (hmd : md < 2 ^ 16) : Exact (parseTimestamp2 m md)
    (fun v e => ∃ s micros frac, s < 2 ^ 32 ∧ LooseFraction m md micros frac ∧ e = be 4 s ++ frac ∧ v = s * 1000 + micros / 1000) := by
  unfold parseTimestamp2
  refine ((Exact.uBE 4).bind fun n => (exact_fraction m hmd).map _).cast fun t e => ?_
  constructor
  · rintro ⟨n, _, _, ⟨h, rfl⟩, ⟨micros, hf, rfl⟩, rfl⟩; exact ⟨n, micros, _, by simpa using h, hf, rfl, rfl⟩
  · rintro ⟨n, micros, frac, h, hf, rfl, rfl⟩; exact ⟨n, _, frac, ⟨by simpa using h, rfl⟩, ⟨micros, hf, rfl⟩, rfl⟩

/-! ## DECIMAL -/

theorem showNat_eq (n : Nat) : showNat n = Nat.toDigits 10 n := rfl

theorem showPadded_eq (w n : Nat) : showPadded w n = padded w n := rfl

/-- The loop over the groups of the integral part, without the reading. -/
def groupsFold (started : Bool) (result : RStr) : List Nat → Bool × RStr
  | [] => (started, result)
  | n :: ns => if started then groupsFold true (result ++ padded 9 n) ns
    else if n > 0 then groupsFold true (result ++ showNat n) ns else groupsFold false result ns

theorem exact_integralGroups (k : Nat) (started : Bool) (result : RStr) : Exact (integralGroups k started result)
    (fun r e => ∃ groups : List Nat, groups.length = k ∧ (∀ n ∈ groups, n < 2 ^ 32) ∧ e = groups.flatMap (be 4) ∧
      r = groupsFold started result groups) := by
  induction k generalizing started result with
  | zero =>
    refine (Exact.ret (started, result)).cast fun r e => ?_
    constructor
    · rintro ⟨rfl, rfl⟩; exact ⟨[], rfl, by simp, rfl, rfl⟩
    · rintro ⟨groups, h, _, rfl, rfl⟩
      obtain rfl := List.eq_nil_of_length_eq_zero h
      exact ⟨rfl, rfl⟩
  | succ k ih =>
    unfold integralGroups
    refine ((Exact.uBE 4).bind fun n => Exact.ite (fun _ => ih true _) fun _ => Exact.ite (fun _ => ih true _) fun _ => ih false _).cast
      fun r e => ?_
    constructor
    · rintro ⟨n, _, _, ⟨hn, rfl⟩, ⟨h, gs, rfl, h2, rfl, rfl⟩ | ⟨h, ⟨h', gs, rfl, h2, rfl, rfl⟩ | ⟨h', gs, rfl, h2, rfl, rfl⟩⟩, rfl⟩
      all_goals
        refine ⟨n :: gs, rfl, ?_, rfl, ?_⟩
        · simp only [List.mem_cons, forall_eq_or_imp]; exact ⟨by simpa using hn, h2⟩
        · simp only [groupsFold, if_true, if_false, *]; try rfl
    · rintro ⟨gs, h, h2, rfl, rfl⟩
      match gs, h, h2 with
      | n :: gs, h, h2 =>
      simp only [List.mem_cons, forall_eq_or_imp] at h2
      refine ⟨n, _, _, ⟨by simpa using h2.1, rfl⟩, ?_, rfl⟩
      have hk : gs.length = k := by simpa using h
      cases started with
      | true => exact .inl ⟨rfl, gs, hk, h2.2, rfl, rfl⟩
      | false =>
        by_cases h0 : n > 0
        · exact .inr ⟨by simp, .inl ⟨h0, gs, hk, h2.2, rfl, by simp [groupsFold, h0]⟩⟩
        · exact .inr ⟨by simp, .inr ⟨h0, gs, hk, h2.2, rfl, by simp [groupsFold, h0]⟩⟩

theorem groupsFold_true (result : RStr) (gs : List Nat) : groupsFold true result gs = (true, result ++ gs.flatMap (padded 9)) := by
  induction gs generalizing result with
  | nil => simp [groupsFold]
  | cons n gs ih => simp [groupsFold, ih]

theorem groupsFold_false (result : RStr) (gs : List Nat) : groupsFold false result gs =
    match gs.dropWhile (· == 0) with
    | [] => (false, result)
    | n :: rest => (true, result ++ (Nat.toDigits 10 n ++ rest.flatMap (padded 9))) := by
  induction gs with
  | nil => simp [groupsFold]
  | cons n gs ih =>
    by_cases h : n = 0
    · subst h; simpa [groupsFold] using ih
    · rw [List.dropWhile_cons_of_neg (by simpa using h)]
      simp [groupsFold, groupsFold_true, showNat_eq, Nat.pos_of_ne_zero h]

theorem groupsFold_text (result : RStr) (lead : Nat) (gs : List Nat) :
    (let r := groupsFold false result (lead :: gs); if r.1 then r.2 else r.2 ++ ['0']) = result ++ groupsText (lead :: gs) := by
  rw [groupsFold_false]
  unfold groupsText
  cases (lead :: gs).dropWhile (· == 0) <;> simp

theorem groupsFold_one (result : RStr) (lead : Nat) (gs : List Nat) :
    groupsFold (groupsFold false result [lead]).1 (groupsFold false result [lead]).2 gs = groupsFold false result (lead :: gs) := by
  by_cases h : lead = 0
  · subst h; simp [groupsFold]
  · simp [groupsFold, Nat.pos_of_ne_zero h]

theorem exact_fractionalGroups (k : Nat) (result : RStr) : Exact (fractionalGroups k result)
    (fun r e => ∃ groups : List Nat, groups.length = k ∧ (∀ n ∈ groups, n < 2 ^ 32) ∧ e = groups.flatMap (be 4) ∧
      r = result ++ groups.flatMap (padded 9)) := by
  induction k generalizing result with
  | zero =>
    refine (Exact.ret result).cast fun r e => ?_
    constructor
    · rintro ⟨rfl, rfl⟩; exact ⟨[], rfl, by simp, rfl, by simp⟩
    · rintro ⟨groups, h, _, rfl, rfl⟩
      obtain rfl := List.eq_nil_of_length_eq_zero h
      exact ⟨by simp, rfl⟩
  | succ k ih =>
    unfold fractionalGroups
    refine ((Exact.uBE 4).bind fun n => ih _).cast fun r e => ?_
    constructor
    · rintro ⟨n, _, _, ⟨hn, rfl⟩, ⟨gs, rfl, h2, rfl, rfl⟩, rfl⟩
      refine ⟨n :: gs, rfl, ?_, rfl, by simp [showPadded_eq]⟩
      simp only [List.mem_cons, forall_eq_or_imp]
      exact ⟨by simpa using hn, h2⟩
    · rintro ⟨gs, h, h2, rfl, rfl⟩
      match gs, h, h2 with
      | n :: gs, h, h2 =>
      simp only [List.mem_cons, forall_eq_or_imp] at h2
      exact ⟨n, _, _, ⟨by simpa using h2.1, rfl⟩, ⟨gs, by simpa using h, h2.2, rfl, by simp [showPadded_eq]⟩, rfl⟩

theorem be_zero (n : Nat) : be 0 n = [] := rfl

theorem exact_decimalBody {ui ci uf cf : Nat} (scale : Nat) (result : RStr) (hci : ci < 9) (hcf : cf < 9) :
    Exact (decimalBody ui ci uf cf scale result) (fun r e => ∃ (lead : Nat) (groups fgroups : List Nat) (tail : Nat), lead < 256 ^ groupBytes ci ∧
      groups.length = ui ∧ (∀ n ∈ groups, n < 2 ^ 32) ∧ fgroups.length = uf ∧ (∀ n ∈ fgroups, n < 2 ^ 32) ∧
      tail < 256 ^ groupBytes cf ∧
      e = be (groupBytes ci) lead ++ groups.flatMap (be 4) ++ fgroups.flatMap (be 4) ++ be (groupBytes cf) tail ∧
      r = result ++ groupsText (lead :: groups) ++ (if scale > 0 then ['.'] else []) ++ fgroups.flatMap (padded 9) ++
        (if cf = 0 then [] else padded cf tail)) := by
  have size_le : ∀ {n}, n < 9 → groupBytes n ≤ 4 := by
    intro n h
    obtain rfl | rfl | rfl | rfl | rfl | rfl | rfl | rfl | rfl : n = 0 ∨ n = 1 ∨ n = 2 ∨ n = 3 ∨ n = 4 ∨ n = 5 ∨ n = 6 ∨ n = 7 ∨ n = 8 := by
      omega
    all_goals decide
  have size_zero : ∀ {n}, n < 9 → (groupBytes n = 0 ↔ n = 0) := by
    intro n h
    obtain rfl | rfl | rfl | rfl | rfl | rfl | rfl | rfl | rfl : n = 0 ∨ n = 1 ∨ n = 2 ∨ n = 3 ∨ n = 4 ∨ n = 5 ∨ n = 6 ∨ n = 7 ∨ n = 8 := by
      omega
    all_goals decide
  unfold decimalBody
  simp only [compressedBytes_eq hci, compressedBytes_eq hcf]
  have h1 : Exact (if groupBytes ci > 0 then do
      let number ← P.uintBE (groupBytes ci)
      if number > 0 then return (true, result ++ showNat number) else return (false, result)
    else return (false, result) : P (Bool × RStr)) (fun r e => ∃ lead, lead < 256 ^ groupBytes ci ∧ e = be (groupBytes ci) lead ∧
      r = groupsFold false result [lead]) := by
    refine (Exact.ite (fun _ => (Exact.uintBE (groupBytes ci)).bind fun n => Exact.ite (fun _ => Exact.ret _) fun _ => Exact.ret _)
      fun _ => Exact.ret _).cast fun r e => ?_
    have := size_le hci
    constructor
    · rintro (⟨h0, n, _, _, ⟨_, _, hn, rfl⟩, ⟨h2, rfl, rfl⟩ | ⟨h2, rfl, rfl⟩, rfl⟩ | ⟨h0, rfl, rfl⟩)
      · exact ⟨n, hn, by simp, by simp [groupsFold, h2]⟩
      · exact ⟨n, hn, by simp, by simp [groupsFold, h2]⟩
      · have hz : groupBytes ci = 0 := by omega
        exact ⟨0, by simp [hz], by simp [hz, be_zero], by simp [groupsFold]⟩
    · rintro ⟨n, hn, rfl, rfl⟩
      by_cases h0 : groupBytes ci > 0
      · refine .inl ⟨h0, n, _, [], ⟨h0, by omega, hn, rfl⟩, ?_, by simp⟩
        by_cases h2 : n > 0
        · exact .inl ⟨h2, by simp [groupsFold, h2], rfl⟩
        · exact .inr ⟨h2, by simp [groupsFold, h2], rfl⟩
      · have hz : groupBytes ci = 0 := by omega
        obtain rfl : n = 0 := by simpa [hz] using hn
        exact .inr ⟨h0, by simp [groupsFold], by rw [hz, be_zero]⟩
  have h4 : ∀ r : RStr, Exact (if groupBytes cf > 0 then do
      let value ← P.uintBE (groupBytes cf)
      return r ++ showPadded cf value
    else return r : P RStr) (fun r' e => ∃ tail, tail < 256 ^ groupBytes cf ∧ e = be (groupBytes cf) tail ∧
      r' = r ++ if cf = 0 then [] else padded cf tail) := by
    intro r
    refine (Exact.ite (fun _ => (Exact.uintBE (groupBytes cf)).map _) fun _ => Exact.ret _).cast fun r' e => ?_
    have := size_le hcf
    have hz' := size_zero hcf
    constructor
    · rintro (⟨h0, n, ⟨_, _, hn, rfl⟩, rfl⟩ | ⟨h0, rfl, rfl⟩)
      · exact ⟨n, hn, by simp, by rw [if_neg (by omega), showPadded_eq]⟩
      · have hz : groupBytes cf = 0 := by omega
        exact ⟨0, by simp [hz], by simp [hz, be_zero], by simp [hz'.1 hz]⟩
    · rintro ⟨n, hn, rfl, rfl⟩
      by_cases h0 : groupBytes cf > 0
      · exact .inl ⟨h0, n, ⟨h0, by omega, hn, rfl⟩, by rw [if_neg (by omega), showPadded_eq]⟩
      · have hz : groupBytes cf = 0 := by omega
        exact .inr ⟨h0, by simp [hz'.1 hz], by rw [hz, be_zero]⟩
  refine (h1.bind (S := fun a r e => ∃ b e1 e2, (∃ groups : List Nat, groups.length = ui ∧ (∀ n ∈ groups, n < 2 ^ 32) ∧
    e1 = groups.flatMap (be 4) ∧ b = groupsFold a.1 a.2 groups) ∧ (∃ c e3 e4, (∃ fgroups : List Nat, fgroups.length = uf ∧
    (∀ n ∈ fgroups, n < 2 ^ 32) ∧ e3 = fgroups.flatMap (be 4) ∧ c = (if b.1 then b.2 else b.2 ++ ['0']) ++
      (if scale > 0 then ['.'] else []) ++ fgroups.flatMap (padded 9)) ∧
    (∃ tail, tail < 256 ^ groupBytes cf ∧ e4 = be (groupBytes cf) tail ∧ r = c ++ if cf = 0 then [] else padded cf tail) ∧
      e2 = e3 ++ e4) ∧ e = e1 ++ e2) fun a => ?_).cast fun r e => ?_
  · refine (exact_integralGroups ui a.1 a.2).bind (S := fun b r e2 => ∃ c e3 e4, (∃ fgroups : List Nat, fgroups.length = uf ∧
      (∀ n ∈ fgroups, n < 2 ^ 32) ∧ e3 = fgroups.flatMap (be 4) ∧ c = (if b.1 then b.2 else b.2 ++ ['0']) ++
        (if scale > 0 then ['.'] else []) ++ fgroups.flatMap (padded 9)) ∧
      (∃ tail, tail < 256 ^ groupBytes cf ∧ e4 = be (groupBytes cf) tail ∧ r = c ++ if cf = 0 then [] else padded cf tail) ∧
        e2 = e3 ++ e4) fun b => ?_
    have := (exact_fractionalGroups uf ((if b.1 then b.2 else b.2 ++ ['0']) ++ (if scale > 0 then ['.'] else []))).bind fun r => h4 r
    have he : ((if b.1 then b.2 else b.2 ++ ['0']) ++ (if scale > 0 then ['.'] else []) : RStr) =
        if scale > 0 then (if b.1 then b.2 else b.2 ++ ['0']) ++ ['.'] else (if b.1 then b.2 else b.2 ++ ['0']) := by
      generalize (if b.1 then b.2 else b.2 ++ ['0'] : RStr) = x
      by_cases h : scale > 0 <;> simp [h]
    rw [he] at this ⊢
    exact this
  · constructor
    · rintro ⟨_, _, _, ⟨lead, hl, rfl, rfl⟩, ⟨_, _, _, ⟨groups, hg, hg', rfl, rfl⟩, ⟨_, _, _, ⟨fgroups, hf, hf', rfl, rfl⟩,
        ⟨tail, ht, rfl, rfl⟩, rfl⟩, rfl⟩, rfl⟩
      refine ⟨lead, groups, fgroups, tail, hl, hg, hg', hf, hf', ht, by simp, ?_⟩
      rw [groupsFold_one]
      have := groupsFold_text result lead groups
      simp only at this
      rw [this]
    · rintro ⟨lead, groups, fgroups, tail, hl, hg, hg', hf, hf', ht, rfl, rfl⟩
      refine ⟨_, _, _, ⟨lead, hl, rfl, rfl⟩, ⟨_, _, _, ⟨groups, hg, hg', rfl, rfl⟩, ⟨_, _, _, ⟨fgroups, hf, hf', rfl, rfl⟩,
        ⟨tail, ht, rfl, ?_⟩, rfl⟩, rfl⟩, by simp⟩
      rw [groupsFold_one]
      have := groupsFold_text result lead groups
      simp only at this
      rw [this]

theorem resign (b : UInt8) : ((b &&& 0x80 == 0) = false → (b ^^^ 0x80).toNat < 128 ∧ b = (b ^^^ 0x80) + 128) ∧
    ((b &&& 0x80 == 0) = true → (b ^^^ 0x80 ^^^ 0xFF).toNat < 128 ∧ b = (255 - (b ^^^ 0x80 ^^^ 0xFF)) + 128) := by
  have : ∀ n < 256, ((UInt8.ofNat n &&& 0x80 == 0) = false → (UInt8.ofNat n ^^^ 0x80).toNat < 128 ∧
      UInt8.ofNat n = (UInt8.ofNat n ^^^ 0x80) + 128) ∧
    ((UInt8.ofNat n &&& 0x80 == 0) = true → (UInt8.ofNat n ^^^ 0x80 ^^^ 0xFF).toNat < 128 ∧
      UInt8.ofNat n = (255 - (UInt8.ofNat n ^^^ 0x80 ^^^ 0xFF)) + 128) := by decide +kernel
  have h := this b.toNat b.toNat_lt
  rwa [show UInt8.ofNat b.toNat = b by simp] at h

theorem revert_revert (b : UInt8) : 255 - (b ^^^ 0xFF) = b := by
  have : ∀ n < 256, 255 - (UInt8.ofNat n ^^^ 0xFF) = UInt8.ofNat n := by decide +kernel
  have h := this b.toNat b.toNat_lt
  rwa [show UInt8.ofNat b.toNat = b by simp] at h

/-- Undoing the sign, as a relation. -/
theorem signed_iff (e body : Bytes) (negative : Bool) :
    ((∃ b bs, body = b :: bs ∧ b.toNat < 128) ∧ e = signed negative body) ↔
    ∃ v0 vs, e = v0 :: vs ∧ negative = (v0 &&& 0x80 == 0) ∧
      body = if negative then ((v0 ^^^ 0x80) :: vs).map (· ^^^ 0xFF) else (v0 ^^^ 0x80) :: vs := by
  constructor
  · rintro ⟨⟨b, bs, rfl, hb⟩, rfl⟩
    obtain ⟨h1, h2, h3, h4⟩ := unsign b hb
    cases negative with
    | false => exact ⟨b + 128, bs, rfl, h1.symm, by simp [h2]⟩
    | true =>
      refine ⟨255 - b + 128, bs.map (255 - ·), rfl, h3.symm, ?_⟩
      simp only [h4, if_true, List.map_cons, invert_invert, List.map_map]
      congr 1
      exact (List.map_id'' (fun x => invert_invert x) bs).symm
  · rintro ⟨v0, vs, rfl, hneg, rfl⟩
    obtain ⟨h1, h2⟩ := resign v0
    cases negative with
    | false =>
      obtain ⟨h3, h4⟩ := h1 hneg.symm
      exact ⟨⟨_, _, rfl, h3⟩, by simp only [signed, Bool.false_eq_true, if_false]; rw [← h4]⟩
    | true =>
      obtain ⟨h3, h4⟩ := h2 hneg.symm
      refine ⟨⟨_, _, rfl, h3⟩, ?_⟩
      simp only [signed, if_true, List.map_cons, List.map_map]
      rw [← h4]
      congr 1
      exact (List.map_id'' (fun x => revert_revert x) vs).symm

theorem Exact.run_iff {α : Type} {p : P α} {R : α → Bytes → Prop} (h : Exact p R) (v : α) (bs : Bytes) :
    p.run bs = .ok v ↔ ∃ e, R v e ∧ e <+: bs := by
  have := h.toEnd.run v bs
  rw [this]
  constructor
  · rintro ⟨e, x, h, rfl⟩; exact ⟨e, h, List.prefix_append _ _⟩
  · rintro ⟨e, h, x, rfl⟩; exact ⟨e, x, h, rfl⟩

theorem flatMap_be4_length (gs : List Nat) : (gs.flatMap (be 4)).length = gs.length * 4 := by
  induction gs with
  | nil => rfl
  | cons g gs ih => simp [ih]; omega

theorem exact_decimal (m : Mode) {md : Nat} (hmd : md < 2 ^ 16) : Exact (parseDecimal m md) (LooseDecimal m md) := by
  have m1 : md &&& 0xFF = md % 256 := and255 md
  have m2 : (md >>> 8) % 256 = md / 256 := by rw [shr8]; omega
  unfold parseDecimal
  simp only [m1, m2, DIGITS_PER_INT]
  have hsub : ∀ d, subU m 16 (md % 256) (md / 256) = .ok d ↔ (md / 256 ≤ md % 256 ∧ d = md % 256 - md / 256 ∨
      md % 256 < md / 256 ∧ m.checks = false ∧ d = md % 256 + 2 ^ 16 - md / 256) := by
    intro d
    unfold subU
    by_cases h : md / 256 ≤ md % 256
    · rw [if_pos h]; simp only [Res.ok.injEq]; omega
    · rw [if_neg h]
      cases m.checks <;> simp [eq_comm] <;> omega
  have hcell : ∀ d, Exact (do
      let value ← P.readVec (d % 256 / 9 * 4 + compressedBytes (d % 256 - d % 256 / 9 * 9) + md / 256 / 9 * 4 +
        compressedBytes (md / 256 - md / 256 / 9 * 9))
      match value with
      | [] => P.panic
      | v0 :: vs =>
        P.lift ((decimalBody (d % 256 / 9) (d % 256 - d % 256 / 9 * 9) (md / 256 / 9) (md / 256 - md / 256 / 9 * 9) (md / 256)
          (if (v0 &&& 128 == 0) = true then (['-'], List.map (fun x => x ^^^ 255) ((v0 ^^^ 128) :: vs))
            else ([], (v0 ^^^ 128) :: vs)).1).run
          (if (v0 &&& 128 == 0) = true then (['-'], List.map (fun x => x ^^^ 255) ((v0 ^^^ 128) :: vs))
            else ([], (v0 ^^^ 128) :: vs)).2) : P RStr)
      (fun r e => ∃ negative body, ((∃ b bs, body = b :: bs ∧ b.toNat < 128) ∧ e = signed negative body) ∧
        ∃ (lead : Nat) (groups fgroups : List Nat) (tail : Nat), lead < 256 ^ groupBytes (d % 256 % 9) ∧
      groups.length = d % 256 / 9 ∧ (∀ n ∈ groups, n < 2 ^ 32) ∧ fgroups.length = md / 256 / 9 ∧ (∀ n ∈ fgroups, n < 2 ^ 32) ∧
      tail < 256 ^ groupBytes (md / 256 % 9) ∧
      body = be (groupBytes (d % 256 % 9)) lead ++ groups.flatMap (be 4) ++ fgroups.flatMap (be 4) ++ be (groupBytes (md / 256 % 9)) tail ∧
      r = (if negative then ['-'] else []) ++ groupsText (lead :: groups) ++ (if md / 256 > 0 then ['.'] else []) ++
        fgroups.flatMap (padded 9) ++ (if md / 256 % 9 = 0 then [] else padded (md / 256 % 9) tail)) := by
    intro d
    rw [show d % 256 - d % 256 / 9 * 9 = d % 256 % 9 by omega, show md / 256 - md / 256 / 9 * 9 = md / 256 % 9 by omega,
      compressedBytes_eq (by omega), compressedBytes_eq (by omega)]
    have hbody := fun result => exact_decimalBody (ui := d % 256 / 9) (ci := d % 256 % 9) (uf := md / 256 / 9) (cf := md / 256 % 9)
      (md / 256) result (by omega) (by omega)
    have hsmall : d % 256 / 9 * 4 + groupBytes (d % 256 % 9) + md / 256 / 9 * 4 + groupBytes (md / 256 % 9) < 2 ^ 63 := by
      unfold groupBytes; omega
    refine ((Exact.readVec _).bind (S := fun value r e => e = [] ∧ ∃ v0 vs, value = v0 :: vs ∧
        ∃ e', (∃ (lead : Nat) (groups fgroups : List Nat) (tail : Nat), lead < 256 ^ groupBytes (d % 256 % 9) ∧
        groups.length = d % 256 / 9 ∧ (∀ n ∈ groups, n < 2 ^ 32) ∧ fgroups.length = md / 256 / 9 ∧ (∀ n ∈ fgroups, n < 2 ^ 32) ∧
        tail < 256 ^ groupBytes (md / 256 % 9) ∧
        e' = be (groupBytes (d % 256 % 9)) lead ++ groups.flatMap (be 4) ++ fgroups.flatMap (be 4) ++ be (groupBytes (md / 256 % 9)) tail ∧
        r = (if (v0 &&& 128 == 0) = true then (['-'], List.map (fun x => x ^^^ 255) ((v0 ^^^ 128) :: vs))
            else (([] : RStr), (v0 ^^^ 128) :: vs)).1 ++ groupsText (lead :: groups) ++ (if md / 256 > 0 then ['.'] else []) ++
          fgroups.flatMap (padded 9) ++ (if md / 256 % 9 = 0 then [] else padded (md / 256 % 9) tail)) ∧
        e' <+: (if (v0 &&& 128 == 0) = true then (['-'], List.map (fun x => x ^^^ 255) ((v0 ^^^ 128) :: vs))
            else (([] : RStr), (v0 ^^^ 128) :: vs)).2) fun value => ?_).cast fun r e => ?_
    · cases value with
      | nil => exact Exact.panic.cast fun r e => by simp
      | cons v0 vs =>
        refine (Exact.lift _).cast fun r e => ?_
        rw [(hbody _).run_iff]
        constructor
        · rintro ⟨h, rfl⟩; exact ⟨rfl, v0, vs, rfl, h⟩
        · rintro ⟨rfl, v0', vs', heq, h⟩
          obtain ⟨rfl, rfl⟩ := List.cons.inj heq
          exact ⟨h, rfl⟩
    · constructor
      · rintro ⟨value, _, _, ⟨_, hlen, rfl⟩, ⟨rfl, v0, vs, rfl, e', ⟨lead, groups, fgroups, tail, h1, h2, h3, h4, h5, h6, h7, h8⟩, hpre⟩, rfl⟩
        refine ⟨v0 &&& 0x80 == 0, e', ?_, lead, groups, fgroups, tail, h1, h2, h3, h4, h5, h6, h7, ?_⟩
        · rw [List.append_nil, signed_iff]
          refine ⟨v0, vs, rfl, rfl, ?_⟩
          have hl : e'.length = (v0 :: vs).length := by
            rw [hlen, h7]; simp only [List.length_append, be_length, flatMap_be4_length, h2, h4]; omega
          split
          · next h =>
            rw [if_pos h] at hpre
            exact hpre.eq_of_length (by simpa using hl)
          · next h =>
            rw [if_neg h] at hpre
            exact hpre.eq_of_length (by simpa using hl)
        · rw [h8]; split <;> rfl
      · rintro ⟨negative, body, hs, lead, groups, fgroups, tail, h1, h2, h3, h4, h5, h6, h7, h8⟩
        have hlen : body.length = d % 256 / 9 * 4 + groupBytes (d % 256 % 9) + md / 256 / 9 * 4 + groupBytes (md / 256 % 9) := by
          rw [h7]; simp only [List.length_append, be_length, flatMap_be4_length, h2, h4]; omega
        have hlen' : e.length = body.length := by rw [hs.2, signed_length]
        obtain ⟨v0, vs, rfl, rfl, hb⟩ := (signed_iff e body negative).1 hs
        refine ⟨_, _, [], ⟨hsmall, hlen'.trans hlen, rfl⟩, ⟨rfl, v0, vs, rfl, body, ⟨lead, groups, fgroups, tail, h1, h2, h3, h4, h5, h6,
          h7, ?_⟩, ?_⟩, by simp⟩
        · rw [h8]; split <;> rfl
        · rw [hb]; split <;> exact List.prefix_rfl
  refine ((Exact.lift _).bind fun d => hcell d).cast fun r e => ?_
  have hdot : ∀ (x : RStr), (if md / 256 > 0 then ['.'] else []) ++ x = if md / 256 = 0 then x else '.' :: x := by
    intro x; by_cases h : md / 256 = 0
    · simp [h]
    · simp [h, Nat.pos_of_ne_zero h]
  constructor
  · rintro ⟨d, _, _, ⟨hd, rfl⟩, ⟨negative, body, ⟨htop, rfl⟩, lead, groups, fgroups, tail, h1, h2, h3, h4, h5, h6, h7, rfl⟩, rfl⟩
    rw [hsub] at hd
    have := LooseDecimal.mk (m := m) (p := md % 256) (s := md / 256) (digits := d % 256) (negative := negative) (by omega) (by omega)
      (by rcases hd with ⟨h, rfl⟩ | ⟨h, hm, rfl⟩
          · exact .inl ⟨h, by omega⟩
          · exact .inr ⟨h, hm, by omega⟩) h1 h2 h3 h4 h5 h6 h7 htop
    rw [show md % 256 + 256 * (md / 256) = md by omega] at this
    rw [List.nil_append]
    convert this using 1
    simp only [List.append_assoc]
    congr 2
    rw [hdot]
    by_cases h : md / 256 = 0
    · have : fgroups = [] := List.eq_nil_of_length_eq_zero (by omega)
      simp [h, this]
    · simp [h]
  · intro h
    cases h with
    | @mk p s digits lead tail groups fgroups negative body hp hs hd hl hg hg' hf hf' ht hb htop =>
    have e1 : (p + 256 * s) % 256 = p := by omega
    have e2 : (p + 256 * s) / 256 = s := by omega
    simp only [e1, e2] at hsub hdot ⊢
    have hd' : ∃ d, subU m 16 p s = .ok d ∧ d % 256 = digits := by
      rcases hd with ⟨h, rfl⟩ | ⟨h, hm, rfl⟩
      · exact ⟨p - s, (hsub _).2 (.inl ⟨h, rfl⟩), by omega⟩
      · exact ⟨_, (hsub _).2 (.inr ⟨h, hm, rfl⟩), by omega⟩
    obtain ⟨d, hd1, hd2⟩ := hd'
    refine ⟨d, [], _, ⟨hd1, rfl⟩, ⟨negative, body, ⟨htop, rfl⟩, lead, groups, fgroups, tail, ?_⟩, rfl⟩
    rw [hd2]
    refine ⟨hl, hg, hg', hf, hf', ht, hb, ?_⟩
    simp only [List.append_assoc]
    congr 2
    rw [hdot]
    by_cases h : s = 0
    · have : fgroups = [] := List.eq_nil_of_length_eq_zero (by omega)
      simp [h, this]
    · simp [h]

/-! ## Cells -/

theorem exact_tiny (m : Mode) (md : Nat) : Exact (parseCell m 1 md) (NumberCell 1) :=
  ((Exact.uLE 1).map MySqlValue.tinyInt).cast fun v e => by
    constructor
    · rintro ⟨n, ⟨h, rfl⟩, rfl⟩; exact .tiny (by simpa using h)
    · intro h; cases h; exact ⟨_, ⟨by simpa, rfl⟩, rfl⟩

theorem exact_short (m : Mode) (md : Nat) : Exact (parseCell m 2 md) (NumberCell 2) :=
  ((Exact.uLE 2).map MySqlValue.smallInt).cast fun v e => by
    constructor
    · rintro ⟨n, ⟨h, rfl⟩, rfl⟩; exact .short (by simpa using h)
    · intro h; cases h; exact ⟨_, ⟨by simpa, rfl⟩, rfl⟩

theorem exact_long (m : Mode) (md : Nat) : Exact (parseCell m 3 md) (NumberCell 3) :=
  ((Exact.uLE 4).map MySqlValue.int).cast fun v e => by
    constructor
    · rintro ⟨n, ⟨h, rfl⟩, rfl⟩; exact .long (by simpa using h)
    · intro h; cases h; exact ⟨_, ⟨by simpa, rfl⟩, rfl⟩

theorem exact_float (m : Mode) (md : Nat) : Exact (parseCell m 4 md) (NumberCell 4) :=
  ((Exact.uLE 4).map MySqlValue.float).cast fun v e => by
    constructor
    · rintro ⟨n, ⟨h, rfl⟩, rfl⟩; exact .float (by simpa using h)
    · intro h; cases h; exact ⟨_, ⟨by simpa, rfl⟩, rfl⟩

theorem exact_double (m : Mode) (md : Nat) : Exact (parseCell m 5 md) (NumberCell 5) :=
  ((Exact.uLE 8).map MySqlValue.double).cast fun v e => by
    constructor
    · rintro ⟨n, ⟨h, rfl⟩, rfl⟩; exact .double (by simpa using h)
    · intro h; cases h; exact ⟨_, ⟨by simpa, rfl⟩, rfl⟩

theorem exact_longLong (m : Mode) (md : Nat) : Exact (parseCell m 8 md) (NumberCell 8) :=
  ((Exact.uLE 8).map MySqlValue.bigInt).cast fun v e => by
    constructor
    · rintro ⟨n, ⟨h, rfl⟩, rfl⟩; exact .longLong (by simpa using h)
    · intro h; cases h; exact ⟨_, ⟨by simpa, rfl⟩, rfl⟩

theorem exact_int24 (m : Mode) (md : Nat) : Exact (parseCell m 9 md) (NumberCell 9) :=
  ((Exact.uLE 3).map MySqlValue.mediumInt).cast fun v e => by
    constructor
    · rintro ⟨n, ⟨h, rfl⟩, rfl⟩; exact .int24 (by simpa using h)
    · intro h; cases h; exact ⟨_, ⟨by simpa, rfl⟩, rfl⟩

theorem exact_cell (m : Mode) (code : Nat) {md : Nat} (hmd : md < 2 ^ 16) : Exact (parseCell m code md) (TakenValue m code md) := by
  unfold TakenValue
  split
  · exact exact_tiny m md
  · exact exact_short m md
  · exact exact_long m md
  · exact exact_float m md
  · exact exact_double m md
  · refine (((Exact.uLE 4).map (· * 1000)).map MySqlValue.timestamp).cast fun v e => ?_
    simp
  · exact exact_longLong m md
  · exact exact_int24 m md
  · exact exact_date.map MySqlValue.date
  · exact exact_time.map MySqlValue.time
  · exact exact_dateTime.map MySqlValue.dateTime
  · refine ((Exact.u8.map (1900 + ·)).map MySqlValue.year).cast fun v e => ?_
    simp
  · exact (exact_text md).map MySqlValue.string
  · exact (exact_bit hmd).map MySqlValue.bit
  · refine ((exact_timestamp2 m hmd).map MySqlValue.timestamp).cast fun v e => ?_
    constructor
    · rintro ⟨_, ⟨s, micros, frac, h1, h2, rfl, rfl⟩, rfl⟩; exact ⟨s, micros, frac, h1, h2, rfl, rfl⟩
    · rintro ⟨s, micros, frac, h1, h2, rfl, rfl⟩; exact ⟨_, ⟨s, micros, frac, h1, h2, rfl, rfl⟩, rfl⟩
  · exact (exact_dateTime2 m hmd).map MySqlValue.dateTime
  · exact (exact_time2 m hmd).map MySqlValue.time
  · exact (exact_blob md).map MySqlValue.blob
  · exact (exact_decimal m hmd).map MySqlValue.decimal
  · exact (Exact.uintLE md).map (fun n => MySqlValue.enum (n % 2 ^ 32))
  · exact (Exact.uintLE md).map MySqlValue.set
  · exact (exact_blob md).map MySqlValue.blob
  · exact (exact_blob md).map MySqlValue.blob
  · exact (exact_blob md).map MySqlValue.blob
  · exact (exact_blob md).map MySqlValue.blob
  · exact (exact_text md).map MySqlValue.string
  · exact (exact_text md).map MySqlValue.string
  · exact (exact_blob md).map MySqlValue.blob
  · rename_i hn
    intro buf pos v q
    simp only [false_and, exists_false, iff_false]
    intro h
    unfold parseCell at h
    obtain ⟨⟨t, q1⟩, ht, hc⟩ := bind_inv h
    obtain ⟨ht, -⟩ := (Exact.lift _ _ _ _ _).1 ht |>.choose_spec.1
    unfold ColumnType.fromCode at ht
    split at ht
    all_goals cases ht
    all_goals first
      | cases hc
      | clear h hc; simp_all

theorem unpack_bits : ∀ b < 256, (b &&& 0x30 ≠ 0x30 ↔ b / 16 % 4 ≠ 3) ∧ b ||| 0x30 = b + 16 * (3 - b / 16 % 4) ∧
    ((b &&& 0x30) ^^^ 0x30) <<< 4 = 256 * (3 - b / 16 % 4) := by decide +kernel

theorem or_high {low k : Nat} (h : low < 256) : low ||| 256 * k = low + 256 * k := by
  have := Nat.two_pow_add_eq_or_of_lt (i := 8) (b := low) (by omega) k
  rw [Nat.or_comm, show 256 * k = 2 ^ 8 * k by rfl, ← this]
  omega

theorem unpacked_iff {md : Nat} (hmd : md < 2 ^ 16) (code md' : Nat) :
    getActualStringType 254 md = (code, md') ↔ Unpacked md code md' := by
  unfold getActualStringType
  by_cases h : md < 256
  · rw [if_pos h]
    constructor
    · intro he
      obtain ⟨rfl, rfl⟩ := Prod.mk.inj he
      exact .plain h
    · intro hu
      cases hu with
      | plain => rfl
      | char hr hl h3 => exfalso; omega
      | other hl h => exfalso; omega
      | long hh => exfalso; omega
  · rw [if_neg h]
    have e1 : (md >>> 8) % 256 = md / 256 := by rw [shr8]; omega
    simp only [e1, and255]
    obtain ⟨b1, b2, b3⟩ := unpack_bits (md / 256) (by omega)
    rw [b2, b3, or_high (by omega)]
    simp only [b1]
    constructor
    · intro he
      split at he
      · next h3 =>
        obtain ⟨rfl, rfl⟩ := Prod.mk.inj he
        have := Unpacked.long (high := md / 256) (low := md % 256) (k := 3 - md / 256 / 16 % 4) (by omega) (by omega) (by omega) (by omega)
          (by omega)
        rwa [show md / 256 * 256 + md % 256 = md by omega] at this
      · next h3 =>
        by_cases h4 : md / 256 = ColumnType.enum.code ∨ md / 256 = ColumnType.set.code
        · rw [if_pos h4] at he
          obtain ⟨rfl, rfl⟩ := Prod.mk.inj he
          have := Unpacked.other (real := md / 256) (low := md % 256) (by omega) h4
          rwa [show md / 256 * 256 + md % 256 = md by omega] at this
        · rw [if_neg h4] at he
          obtain ⟨rfl, rfl⟩ := Prod.mk.inj he
          have := Unpacked.char (real := md / 256) (low := md % 256) (by omega) (by omega) (by omega)
            (fun h => h4 (.inl h)) (fun h => h4 (.inr h))
          rwa [show md / 256 * 256 + md % 256 = md by omega] at this
    · intro hu
      cases hu with
      | plain h' => exact absurd h' h
      | @char real _ hr hl h3 h4 h5 =>
        rw [show (real * 256 + md') / 256 = real by omega, show (real * 256 + md') % 256 = md' by omega, if_neg (by omega),
          if_neg (show ¬(real = ColumnType.enum.code ∨ real = ColumnType.set.code) from fun h => h.elim h4 h5)]
      | other hl h3 =>
        rw [show (code * 256 + md') / 256 = code by omega, show (code * 256 + md') % 256 = md' by omega,
          if_neg (by rcases h3 with rfl | rfl <;> decide), if_pos (show code = ColumnType.enum.code ∨ code = ColumnType.set.code from h3)]
      | @long high low k hh hr hl h3 hk =>
        rw [show (high * 256 + low) / 256 = high by omega, show (high * 256 + low) % 256 = low by omega, if_pos (by omega),
          show 3 - high / 16 % 4 = k by omega]

theorem unpacked_lt {md code md' : Nat} (h : Unpacked md code md') : md' < 2 ^ 16 := by
  cases h with
  | plain h => omega
  | char hr hl h => omega
  | other hl h => omega
  | long hh hr hl h hk => omega

theorem fromCode_string {code : Nat} : ColumnType.fromCode code = .ok .string ↔ code = 254 := by
  constructor
  · intro h
    unfold ColumnType.fromCode at h
    split at h <;> first | rfl | exact absurd h (by simp)
  · rintro rfl; rfl

theorem fromCode_taken {m : Mode} {code md : Nat} {v : MySqlValue} {e : Bytes} (h : TakenValue m code md v e) :
    ∃ t, ColumnType.fromCode code = .ok t := by
  unfold TakenValue at h
  split at h <;> first | exact ⟨_, rfl⟩ | exact h.elim

theorem exact_column (m : Mode) (t : UInt8) {md : Nat} (hmd : md < 2 ^ 16) :
    Exact (parseColumn m t.toNat md) (TakenCell m t md) := by
  unfold parseColumn
  by_cases h254 : t = 254
  · subst h254
    have hcell := exact_cell m (getActualStringType 254 md).1 (md := (getActualStringType 254 md).2)
      (unpacked_lt ((unpacked_iff hmd _ _).1 rfl))
    refine hcell.cast fun v e => ?_
    constructor
    · intro h; exact .packed rfl ((unpacked_iff hmd _ _).1 rfl) h
    · rintro (⟨ht, _⟩ | ⟨_, hu, h⟩)
      · exact absurd rfl ht
      · rw [← unpacked_iff hmd] at hu
        rw [hu]; exact h
  · have ht : t.toNat ≠ 254 := fun h => h254 (UInt8.toNat_inj.1 h)
    refine ((Exact.lift (ColumnType.fromCode t.toNat)).bindOf (S := fun _ => TakenValue m t.toNat md) fun ct e hct => ?_).cast fun v e => ?_
    · have : ct ≠ .string := fun h => ht (fromCode_string.1 (h ▸ hct.1))
      simp only [this, if_false]
      exact exact_cell m _ hmd
    · constructor
      · rintro ⟨_, _, _, ⟨_, rfl⟩, h, rfl⟩; exact .plain h254 h
      · rintro (⟨_, h⟩ | ⟨h, _, _⟩)
        · obtain ⟨ct, hct⟩ := fromCode_taken h
          exact ⟨ct, [], e, ⟨hct, rfl⟩, h, rfl⟩
        · exact absurd h h254

/-! ## Rows -/

/-- Reads the same columns without indices: the flags of the columns present, the NULL flags of those left. -/
def columnsLoop (m : Mode) : List (UInt8 × Nat) → List Bool → List Bool → P (List (Option MySqlValue))
  | [], _, _ => return []
  | _ :: _, [], _ => P.panic
  | _ :: cs, false :: ps, ns => do
    let rest ← columnsLoop m cs ps ns
    return none :: rest
  | _ :: _, true :: _, [] => P.panic
  | _ :: cs, true :: ps, true :: ns => do
    let rest ← columnsLoop m cs ps ns
    return none :: rest
  | c :: cs, true :: ps, false :: ns => do
    let cell ← parseColumn m c.1.toNat c.2
    let rest ← columnsLoop m cs ps ns
    return some cell :: rest

theorem rowLoop_columns (m : Mode) (table : TableMapEvent) (present nulls : List Bool)
    (hlen : table.columnMetadata.length = table.columnTypes.length) (k i skipped : Nat) (hk : i + k = table.columnTypes.length)
    (hs : skipped ≤ i) :
    rowLoop m table present nulls (List.range' i k) skipped =
      columnsLoop m ((table.columnTypes.zip table.columnMetadata).drop i) (present.drop i) (nulls.drop (i - skipped)) := by
  induction k generalizing i skipped with
  | zero =>
    rw [List.drop_eq_nil_of_le (by simp; omega)]
    simp [rowLoop, columnsLoop]
  | succ k ih =>
    have hi : i < (table.columnTypes.zip table.columnMetadata).length := by simp; omega
    have hi1 : i < table.columnTypes.length := by omega
    have hi2 : i < table.columnMetadata.length := by omega
    rw [List.drop_eq_getElem_cons hi, List.getElem_zip, List.range'_succ]
    unfold rowLoop
    by_cases hp : i < present.length
    · rw [List.drop_eq_getElem_cons hp, List.getElem?_eq_getElem hp]
      cases hpb : present[i] with
      | false =>
        simp only [columnsLoop]
        rw [ih (i + 1) (skipped + 1) (by omega) (by omega), show i + 1 - (skipped + 1) = i - skipped by omega]
      | true =>
        by_cases hn : i - skipped < nulls.length
        · rw [List.drop_eq_getElem_cons hn, List.getElem?_eq_getElem hn]
          cases hnb : nulls[i - skipped] with
          | true =>
            simp only [columnsLoop]
            rw [ih (i + 1) skipped (by omega) (by omega), show i + 1 - skipped = i - skipped + 1 by omega]
          | false =>
            simp only [columnsLoop, List.getElem?_eq_getElem hi1, List.getElem?_eq_getElem hi2]
            rw [ih (i + 1) skipped (by omega) (by omega), show i + 1 - skipped = i - skipped + 1 by omega]
        · rw [List.drop_eq_nil_of_le (show nulls.length ≤ i - skipped by omega), List.getElem?_eq_none (show nulls.length ≤ i - skipped by omega)]
          simp only [columnsLoop]
    · rw [List.drop_eq_nil_of_le (show present.length ≤ i by omega), List.getElem?_eq_none (show present.length ≤ i by omega)]
      simp only [columnsLoop]

set_option linter.unusedSimpArgs false in
/-- The columns of a row, as states. -/
theorem exact_columnsLoop (m : Mode) (cs : List (UInt8 × Nat)) (hcs : ∀ c ∈ cs, c.2 < 2 ^ 16) (ps ns : List Bool) :
    Exact (columnsLoop m cs ps ns) (fun cells e => ∃ states more, cs.length ≤ ps.length ∧
      ps.take cs.length = states.map ColState.present ∧ ns = states.filterMap ColState.nullFlag ++ more ∧
      TakenCells m cs states e ∧ cells = states.map ColState.cell) := by
  induction cs generalizing ps ns with
  | nil =>
    refine (Exact.ret []).cast fun cells e => ?_
    constructor
    · rintro ⟨rfl, rfl⟩; exact ⟨[], ns, by simp, by simp, by simp, .nil, rfl⟩
    · rintro ⟨states, more, _, _, _, h, rfl⟩
      cases h
      exact ⟨rfl, rfl⟩
  | cons c cs ih =>
    have ih := ih fun c hc => hcs c (by simp [hc])
    match ps, ns with
    | [], ns =>
      refine Exact.panic.cast fun cells e => ?_
      simp
    | false :: ps, ns =>
      refine ((ih ps ns).map (none :: ·)).cast fun cells e => ?_
      constructor
      · rintro ⟨_, ⟨states, more, h0, h1, rfl, h3, rfl⟩, rfl⟩
        exact ⟨.absent :: states, more, by simpa using h0, by simp [h1, ColState.present], by simp [List.filterMap_cons, ColState.nullFlag], .absent h3,
          by simp [ColState.cell]⟩
      · rintro ⟨states, more, h0, h1, h2, h3, rfl⟩
        cases h3 with
        | absent h3 =>
          refine ⟨_, ⟨_, more, by simpa using h0, by simpa [ColState.present] using h1, by simpa [List.filterMap_cons, ColState.nullFlag] using h2, h3, rfl⟩,
            by simp [ColState.cell]⟩
        | null h3 => simp [ColState.present] at h1
        | value hc h3 => simp [ColState.present] at h1
    | true :: ps, [] =>
      refine Exact.panic.cast fun cells e => ?_
      simp only [false_iff]
      rintro ⟨states, more, h0, h1, h2, h3, rfl⟩
      cases h3 with
      | absent h3 => simp [ColState.present] at h1
      | null h3 => simp [List.filterMap_cons, ColState.nullFlag] at h2
      | value hc h3 => simp [List.filterMap_cons, ColState.nullFlag] at h2
    | true :: ps, true :: ns =>
      refine ((ih ps ns).map (none :: ·)).cast fun cells e => ?_
      constructor
      · rintro ⟨_, ⟨states, more, h0, h1, rfl, h3, rfl⟩, rfl⟩
        exact ⟨.null :: states, more, by simpa using h0, by simp [h1, ColState.present], by simp [List.filterMap_cons, ColState.nullFlag], .null h3,
          by simp [ColState.cell]⟩
      · rintro ⟨states, more, h0, h1, h2, h3, rfl⟩
        cases h3 with
        | absent h3 => simp [ColState.present] at h1
        | null h3 =>
          refine ⟨_, ⟨_, more, by simpa using h0, by simpa [ColState.present] using h1, by simpa [List.filterMap_cons, ColState.nullFlag] using h2, h3, rfl⟩,
            by simp [ColState.cell]⟩
        | value hc h3 => simp [List.filterMap_cons, ColState.nullFlag] at h2
    | true :: ps, false :: ns =>
      refine ((exact_column m c.1 (hcs c (by simp))).bind fun cell => (ih ps ns).map (some cell :: ·)).cast fun cells e => ?_
      constructor
      · rintro ⟨v, _, _, hv, ⟨_, ⟨states, more, h0, h1, rfl, h3, rfl⟩, rfl⟩, rfl⟩
        exact ⟨.value v :: states, more, by simpa using h0, by simp [h1, ColState.present], by simp [List.filterMap_cons, ColState.nullFlag], .value hv h3,
          by simp [ColState.cell]⟩
      · rintro ⟨states, more, h0, h1, h2, h3, rfl⟩
        cases h3 with
        | absent h3 => simp [ColState.present] at h1
        | null h3 => simp [List.filterMap_cons, ColState.nullFlag] at h2
        | value hc h3 =>
          refine ⟨_, _, _, hc, ⟨_, ⟨_, more, by simpa using h0, by simpa [ColState.present] using h1,
            by simpa [List.filterMap_cons, ColState.nullFlag] using h2, h3, rfl⟩, by simp [ColState.cell]⟩, rfl⟩

/-- What the cache holds for a table: metadata for each column, of 16 bits. -/
def ProperTable (table : TableMapEvent) : Prop :=
  table.columnMetadata.length = table.columnTypes.length ∧ ∀ n ∈ table.columnMetadata, n < 2 ^ 16

/-- The declared columns of a table. -/
def tableColumns (table : TableMapEvent) : List (UInt8 × Nat) := table.columnTypes.zip table.columnMetadata

theorem tableColumns_length {table : TableMapEvent} (h : ProperTable table) : (tableColumns table).length = table.columnTypes.length := by
  simp [tableColumns, h.1]

theorem nullFlags_length (states : List ColState) :
    (states.filterMap ColState.nullFlag).length = (states.map ColState.present).count true := by
  induction states with
  | nil => rfl
  | cons s states ih => cases s <;> simp [List.filterMap_cons, ColState.nullFlag, ColState.present, ih]

theorem getBitsNumber_count (bits : List Bool) : getBitsNumber bits = bits.count true := by
  unfold getBitsNumber
  rw [List.count_eq_length_filter]

theorem exact_row (m : Mode) {table : TableMapEvent} (h : ProperTable table) (present : List Bool) (hp : present.length < 2 ^ 63) :
    Exact (parseRow m table present (getBitsNumber present))
      (fun row e => (tableColumns table).length ≤ present.length ∧ TakenImage m (tableColumns table) present row e) := by
  unfold parseRow
  have hrow : ∀ ns, Exact (rowLoop m table present ns (List.range table.columnTypes.length) 0) (fun cells e => ∃ states more,
      (tableColumns table).length ≤ present.length ∧
      present.take (tableColumns table).length = states.map ColState.present ∧ ns = states.filterMap ColState.nullFlag ++ more ∧
      TakenCells m (tableColumns table) states e ∧ cells = states.map ColState.cell) := by
    intro ns
    have := rowLoop_columns m table present ns h.1 table.columnTypes.length 0 0 (by omega) (by omega)
    rw [List.range_eq_range', this]
    simp only [List.drop_zero]
    exact exact_columnsLoop m _ (fun c hc => h.2 _ (List.of_mem_zip hc).2) _ _
  refine ((Exact.bitmapLE _).bind fun ns => (hrow ns).map RowData.mk).cast fun row e => ?_
  · rw [getBitsNumber_count]
    have hcount : present.count true = (present.take (tableColumns table).length).count true +
        (present.drop (tableColumns table).length).count true := by
      rw [← List.count_append, List.take_append_drop]
    constructor
    · rintro ⟨ns, bitmap, data, ⟨h1, h2, h3⟩, ⟨_, ⟨states, more, h4, h5, rfl, h6, rfl⟩, rfl⟩, rfl⟩
      refine ⟨h4, states, more, bitmap, data, h5, ?_, h3, h6, rfl, rfl⟩
      rw [List.length_append, nullFlags_length, ← h5] at h2
      omega
    · rintro ⟨h4, states, more, bitmap, data, h5, h7, h3, h6, rfl, rfl⟩
      refine ⟨_, bitmap, data, ⟨?_, ?_, h3⟩, ⟨_, ⟨states, more, h4, h5, rfl, h6, rfl⟩, rfl⟩, rfl⟩
      · have := List.count_le_length (a := true) (l := present); omega
      · rw [List.length_append, nullFlags_length, ← h5]; omega

end MysqlCdc
