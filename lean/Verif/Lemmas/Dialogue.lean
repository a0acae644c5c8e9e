import Verif.Spec.Dialogue
import Verif.Lemmas.ExactPackets
import Verif.Props.SetUpWorks
import Verif.Props.GtidGrammar
import Verif.Props.AcceptedPackets
/-!
The steps of the conversation, each as an equivalence.
-/

namespace MysqlCdc

open Spec

theorem check_iff {q : Bytes} {message : String} {u : Unit} : checkErrorPacket q message = .ok u ↔ NoError q := by
  unfold NoError
  cases q with
  | nil => simp [checkErrorPacket]
  | cons b rest =>
    by_cases hb : b = 0xFF
    · subst hb
      simp only [checkErrorPacket, RESP_ERROR, if_true]
      constructor
      · intro h; split at h <;> simp at h
      · rintro ⟨b, r, h, hne⟩; simp only [List.cons.injEq] at h; exact absurd h.1.symm hne
    · simp only [checkErrorPacket, RESP_ERROR, hb, if_false]
      constructor
      · intro _; exact ⟨b, rest, rfl, hb⟩
      · intro _; trivial

theorem next_iff {m : Mode} {n k : Nat} (hn : n < 2 ^ 8) : addU m 8 n 1 = .ok k ↔ NextNumber m n k := by
  unfold addU NextNumber
  split
  · simp only [Res.ok.injEq]; omega
  · cases hm : m.checks with
    | true => simp; omega
    | false => simp only [Bool.false_eq_true, if_false, Res.ok.injEq, true_and]; omega

theorem known_iff {name : RStr} : Known name ↔ ∃ plugin, getAuthPlugin name = .ok plugin := by
  constructor
  · exact getAuthPlugin_known
  · rintro ⟨plugin, h⟩
    unfold getAuthPlugin at h
    split at h
    · exact .inl ‹_›
    · split at h
      · exact .inr ‹_›
      · simp at h

theorem xor_iff {a key x : Bytes} : xorBytes a key = .ok x ↔ Masked key a x ∧ (key = [] → x = []) := by
  constructor
  · intro h
    refine ⟨xorBytes_masked h, ?_⟩
    rintro rfl
    have hl := (xorBytes_masked h).1
    by_cases ha : a = []
    · subst ha; exact List.length_eq_zero_iff.1 hl
    · rw [(xorBytes_nil ha).2 rfl] at h; simp at h
  · rintro ⟨⟨h1, h2⟩, h3⟩
    unfold xorBytes
    split
    · next h =>
      have := h3 (List.isEmpty_iff.1 h.1)
      subst this
      exact absurd (List.length_eq_zero_iff.1 h1.symm) h.2
    · next h =>
      simp only [Res.ok.injEq]
      apply List.ext_getElem?
      intro i
      rw [List.getElem?_mapIdx]
      cases hi : a[i]? with
      | none =>
        have := List.getElem?_eq_none_iff.1 hi
        simp only [Option.map_none]
        rw [List.getElem?_eq_none_iff.2 (by omega)]
      | some b =>
        have hlt : i < a.length := by
          by_contra hge
          rw [List.getElem?_eq_none_iff.2 (by omega)] at hi
          simp at hi
        have hk : key ≠ [] := by
          rintro rfl
          have := h3 rfl
          subst this
          simp at h1
          rw [← h1] at hlt
          omega
        have hpos : 0 < key.length := List.length_pos_iff.2 hk
        have hmod : i % key.length < key.length := Nat.mod_lt _ hpos
        have hget : key[i % key.length]? = some key[i % key.length] := List.getElem?_eq_getElem hmod
        rw [h2 i b _ hi hget]
        simp [List.getD, hget]

/-- The answer to a scramble, by method. -/
theorem auth_iff {c : Crypto} {password scramble name : RStr} {x : Bytes} :
    AuthAnswer c password scramble name x ↔
      ∃ plugin, getAuthPlugin name = .ok plugin ∧ encryptPassword c password scramble plugin = .ok x := by
  constructor
  · rintro (h | h)
    · exact ⟨.mySqlNativePassword, rfl, xor_iff.2 h⟩
    · exact ⟨.cachingSha2Password, rfl, xor_iff.2 h⟩
  · rintro ⟨plugin, h1, h2⟩
    unfold getAuthPlugin at h1
    split at h1
    · next h =>
      obtain rfl := Res.ok.inj h1
      subst h
      exact .native (xor_iff.1 h2)
    · split at h1
      · next h =>
        obtain rfl := Res.ok.inj h1
        subst h
        exact .sha2 (xor_iff.1 h2)
      · simp at h1

theorem ssl_bytes : sslRequestCommand UTF8_MB4_GENERAL_CI = clientHead (clientCaps + 2 ^ 11) := by decide +kernel

theorem response_iff {c : Crypto} {o : ReplicaOptions} {g : HandshakePacket} {plugin : AuthPlugin} {p : Bytes} :
    authenticateCommand c o g plugin UTF8_MB4_GENERAL_CI = .ok p ↔
      ∃ auth, encryptPassword c o.password g.scramble plugin = .ok auth ∧ Response o g.authPluginName auth p := by
  unfold authenticateCommand Response
  cases h : encryptPassword c o.password g.scramble plugin with
  | ok auth =>
    have h1 : (CAP_LONG_FLAG ||| CAP_PROTOCOL_41 ||| CAP_SECURE_CONNECTION ||| CAP_PLUGIN_AUTH) = clientCaps := by decide
    have h2 : (clientCaps ||| CAP_CONNECT_WITH_DB) = clientCaps + 2 ^ 3 := by decide
    have h3 : leBytes 1 UTF8_MB4_GENERAL_CI = [45] := by decide
    simp only [Res.ok.injEq, exists_eq_left', h1]
    cases ho : o.database with
    | none =>
      simp only [Option.isSome_none, Bool.false_eq_true, if_false, nullTermString, clientHead, h3, leBytes_eq]
      show Res.ok _ = _ ↔ _
      rw [Res.ok.injEq, eq_comm]
      simp only [List.append_assoc]
    | some d =>
      simp only [Option.isSome_some, if_true, nullTermString, clientHead, h3, leBytes_eq, h2]
      show Res.ok _ = _ ↔ _
      rw [Res.ok.injEq, eq_comm]
      simp only [List.append_assoc]
  | err e => simp
  | panic => simp
  | hang => simp

theorem rsa_iff {c : Crypto} {key : Bytes} {password scramble : RStr} {body : Bytes} :
    rsaPassword c key password scramble = .ok body ↔
      ∃ x, Masked (utf8Bytes scramble) (utf8Bytes password ++ [0]) x ∧ scramble ≠ [] ∧ c.rsa key x = some body := by
  unfold rsaPassword
  have hne : utf8Bytes scramble = [] ↔ scramble = [] := by
    constructor
    · intro h; exact utf8Bytes_inj (b := []) h
    · rintro rfl; rfl
  constructor
  · intro h
    cases hx : xorBytes (utf8Bytes password ++ [0]) (utf8Bytes scramble) with
    | ok x =>
      rw [hx] at h
      have hm := xor_iff.1 hx
      refine ⟨x, hm.1, fun hs => ?_, ?_⟩
      · have := hm.2 (hne.2 hs)
        subst this
        have := hm.1.1
        simp at this
      · cases hr : c.rsa key x with
        | none => simp only [bind, Res.bind, hr] at h; cases h
        | some b => simp only [bind, Res.bind, hr, Res.ok.injEq] at h; rw [h]
    | err e => rw [hx] at h; cases h
    | panic => rw [hx] at h; cases h
    | hang => rw [hx] at h; cases h
  · rintro ⟨x, h1, h2, h3⟩
    rw [xor_iff.2 ⟨h1, fun h => absurd (hne.1 h) h2⟩]
    simp only [bind, Res.bind, h3]

theorem fast_iff {q : Bytes} {b : Bool} : isFastAuthSuccess q = .ok b ↔
    q ≠ [] ∧ q ≠ [1] ∧ (b = true ↔ ∃ rest, q = 1 :: 3 :: rest) := by
  unfold isFastAuthSuccess byteAt
  match q with
  | [] => simp [bind, Res.bind]
  | [x] =>
    by_cases hx : x = 1
    · simp [bind, Res.bind, hx]
    · simp [bind, Res.bind, hx, pure]
  | x :: y :: rest =>
    by_cases hx : x = 1
    · subst hx
      by_cases hy : y = 3
      · simp [bind, Res.bind, hy, pure]
      · have : (y == 3) = false := by simpa using hy
        simp [bind, Res.bind, hy, pure, this]
    · simp [bind, Res.bind, hx, pure]

theorem ssl_offered (caps : Nat) : (caps &&& CAP_SSL != 0) = hasBit caps 11 := by
  have := and_pow_pos caps 11
  rw [show (1 <<< 11 : Nat) = CAP_SSL from rfl] at this
  cases hb : hasBit caps 11 with
  | true =>
    have := this.2 hb
    simp only [bne_iff_ne, ne_eq]
    omega
  | false =>
    have h0 : ¬(caps &&& CAP_SSL > 0) := fun h => by simp [this.1 h] at hb
    simp only [bne_eq_false_iff_eq]
    omega

theorem display_iff (l : GtidList) : l.display = [','].intercalate (l.gtids.map gtidNumeral) := by
  unfold GtidList.display
  rw [joinWith_eq]
  congr 1
  apply List.map_congr_left
  intro g _
  simp [MGtid.display, gtidNumeral, showNat]

theorem checksum_iff {name : RStr} {cs : ChecksumType} : ChecksumType.fromName name = .ok cs ↔ ChecksumName cs name := by
  unfold ChecksumType.fromName
  cases cs <;> simp only [ChecksumName]
  · constructor
    · intro h; split at h
      · assumption
      · split at h <;> simp at h
    · rintro rfl; rfl
  · constructor
    · intro h; split at h
      · simp at h
      · split at h
        · assumption
        · simp at h
    · rintro rfl; rfl

theorem cellAt_iff {rows : List (List RStr)} {a b : Nat} {cell : RStr} :
    cellAt rows a b = .ok cell ↔ ∃ row, rows[a]? = some row ∧ row[b]? = some cell := by
  unfold cellAt
  cases rows[a]? with
  | none => simp
  | some row => cases h : row[b]? <;> simp [h]

end MysqlCdc
