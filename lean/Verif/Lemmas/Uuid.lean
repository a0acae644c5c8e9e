import Verif.Lemmas.GtidAdd
/-!
# Uuid text
-/

namespace MysqlCdc
open Spec

theorem hexDecode_iff (s : RStr) (bs : Bytes) : hexDecode s = .ok bs ↔ HexPairs s bs := by
  induction s using hexDecode.induct generalizing bs with
  | case1 =>
    simp only [hexDecode]
    constructor
    · intro h; injection h with h; subst h; exact .nil
    · intro h; cases h; rfl
  | case2 c =>
    simp only [hexDecode]
    constructor
    · intro h; cases h
    · intro h; cases h
  | case3 a b rest x y hy hx ih =>
    simp only [hexDecode, hx, hy]
    rw [hexVal_eq] at hx hy
    constructor
    · intro h
      cases hd : hexDecode rest with
      | ok r =>
        simp only [hd, Res.bind_ok, Res.pure_eq, Res.ok.injEq] at h
        subst h
        rw [show x * 16 = 16 * x by omega]
        exact .byte hx hy ((ih r).1 hd)
      | err e => simp [hd] at h
      | panic => simp [hd] at h
      | hang => simp [hd] at h
    · intro h
      cases h with
      | byte h1 h2 h3 =>
        rw [hx] at h1; rw [hy] at h2
        simp at h1 h2; subst h1; subst h2
        rw [(ih _).2 h3, Nat.mul_comm]
        rfl
  | case4 a b rest h =>
    constructor
    · intro h'
      rw [hexDecode] at h'
      split at h'
      · rename_i h1 h2; exact absurd h2 (h _ _ h1)
      · cases h'
    · intro h'
      cases h' with
      | byte h1 h2 h3 =>
        rw [← hexVal_eq] at h1 h2
        exact absurd h2 (h _ _ h1)

/-- `hex::decode` returns. -/
theorem hexDecode_returns (s : RStr) : (∃ bs, hexDecode s = .ok bs) ∨ hexDecode s = .err .fromHex := by
  induction s using hexDecode.induct with
  | case1 => left; exact ⟨[], rfl⟩
  | case2 c => right; rfl
  | case3 a b rest x y hx hy ih =>
    simp only [hexDecode, hx, hy]
    rcases ih with ⟨bs, h⟩ | h
    · left; simp [h]
    · right; simp [h]
  | case4 a b rest h =>
    right
    rw [hexDecode]
    split
    · rename_i h1 h2; exact absurd h2 (h _ _ h1)
    · rfl

theorem removeChar_eq (c : Char) (s : RStr) : removeChar c s = s.filter (· ≠ c) := rfl

/-- What `Uuid::parse` accepts. -/
theorem uuid_parse_ok_iff (t : RStr) (u : Uuid) : Uuid.parse t = .ok u ↔ u.uuid = t ∧ UuidOk u := by
  simp only [Uuid.parse, removeChar_eq]
  constructor
  · intro h
    rcases hexDecode_returns (t.filter (· ≠ '-')) with ⟨bs, hb⟩ | hb
    · rw [hb] at h
      simp only [Res.bind_ok] at h
      split at h
      · cases h
      · rename_i hl
        simp at h
        subst h
        refine ⟨rfl, by simp; omega, bs.drop 16, ?_⟩
        simp only [List.take_append_drop]
        exact (hexDecode_iff _ _).1 hb
    · rw [hb] at h; cases h
  · rintro ⟨rfl, hl, extra, hx⟩
    rw [show hexDecode _ = _ from (hexDecode_iff _ _).2 hx]
    simp only [Res.bind_ok]
    rw [if_neg (by simp; omega)]
    cases u
    simp only at *
    simp [← hl]

theorem hexChar_eq : ∀ n < 16, hexChar n = Nat.digitChar n := by decide

theorem hexEncode_eq (d : Bytes) : hexEncode d = hexText d := by
  induction d with
  | nil => rfl
  | cons b bs ih =>
    have hb := b.toNat_lt
    simp only [hexEncode, hexText, List.flatMap_cons, ih]
    rw [hexChar_eq _ (by omega), hexChar_eq _ (by omega)]
    rfl

theorem hexText_append (a b : Bytes) : hexText (a ++ b) = hexText a ++ hexText b := by simp [hexText]

theorem hexText_length (a : Bytes) : (hexText a).length = 2 * a.length := by
  induction a with
  | nil => rfl
  | cons b bs ih => simp only [hexText, List.flatMap_cons, List.length_append] at *; simp [ih]; omega

theorem digitChar_hex : ∀ n < 16, hexDigit? (Nat.digitChar n) = some n ∧ Nat.digitChar n ≠ '-' ∧
    Nat.digitChar n ∈ "0123456789abcdef".toList ∧ Nat.digitChar n ≠ ',' ∧ Nat.digitChar n ≠ '\n' ∧ Nat.digitChar n ≠ ':' ∧
    isWhitespace (Nat.digitChar n) = false := by decide

theorem mem_hexText {c : Char} {d : Bytes} (h : c ∈ hexText d) : ∃ n < 16, c = Nat.digitChar n := by
  simp only [hexText, List.mem_flatMap] at h
  obtain ⟨b, _, h⟩ := h
  have := b.toNat_lt
  simp at h
  rcases h with rfl | rfl
  · exact ⟨_, by omega, rfl⟩
  · exact ⟨_, by omega, rfl⟩

theorem hexText_filter (d : Bytes) : (hexText d).filter (· ≠ '-') = hexText d := by
  rw [List.filter_eq_self]
  intro c hc
  obtain ⟨n, hn, rfl⟩ := mem_hexText hc
  simp [(digitChar_hex n hn).2.1]

theorem hexPairs_hexText (d : Bytes) : HexPairs (hexText d) d := by
  induction d with
  | nil => exact .nil
  | cons b bs ih =>
    have hb := b.toNat_lt
    have h : b = UInt8.ofNat (16 * (b.toNat / 16) + b.toNat % 16) := by
      rw [Nat.div_add_mod]; simp
    rw [show hexText (b :: bs) = Nat.digitChar (b.toNat / 16) :: Nat.digitChar (b.toNat % 16) :: hexText bs from rfl]
    conv => arg 2; rw [h]
    exact .byte (digitChar_hex _ (by omega)).1 (digitChar_hex _ (by omega)).1 ih

theorem uuidText_filter (d : Bytes) : (uuidText d).filter (· ≠ '-') = hexText d := by
  unfold uuidText
  simp only [List.filter_append, hexText_filter]
  simp only [show List.filter (fun x => decide (x ≠ '-')) ['-'] = [] from rfl, List.append_nil, ← hexText_append]
  congr 1
  rw [show d.drop 10 = (d.drop 8).drop 2 by simp, List.append_assoc, List.take_append_drop,
    show d.drop 8 = (d.drop 6).drop 2 by simp, List.append_assoc, List.take_append_drop,
    show d.drop 6 = (d.drop 4).drop 2 by simp, List.append_assoc, List.take_append_drop, List.take_append_drop]

theorem uuidText_hexOf (d : Bytes) : HexOf (uuidText d) d := by
  unfold HexOf
  rw [uuidText_filter]
  exact hexPairs_hexText d

theorem uuidText_names (d : Bytes) (h : d.length = 16) : Names (uuidText d) d :=
  ⟨h, [], by simpa using uuidText_hexOf d⟩

theorem UuidCanon_ok {u : Uuid} (h : UuidCanon u) : UuidOk u := by
  unfold UuidOk
  rw [h.2]
  exact uuidText_names _ h.1

theorem uuidText_length (d : Bytes) (h : d.length = 16) : (uuidText d).length = 36 := by
  simp [uuidText, hexText_length, h]

theorem uuidText_inj {a b : Bytes} (h : uuidText a = uuidText b) : a = b :=
  hexPairs_unique (uuidText_hexOf a) (by rw [h]; exact uuidText_hexOf b)

/-- Uuid::new writes the usual text. -/
theorem uuid_new_eq (d : Bytes) (h : d.length = 16) : Uuid.new d = ⟨d, uuidText d⟩ := by
  match d, h with
  | [d0, d1, d2, d3, d4, d5, d6, d7, d8, d9, d10, d11, d12, d13, d14, d15], _ =>
    simp [Uuid.new, hexEncode_eq, hexText, insertDash, uuidText]

end MysqlCdc
