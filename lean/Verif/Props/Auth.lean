import Verif.Spec.Auth
import Verif.Props.Packets
/-!
# Password responses: C56, C57, C66
-/

namespace MysqlCdc

open Spec

theorem xorBytes_eq (a b : Bytes) (h : b.length = a.length) : xorBytes a b = .ok (xored a b) := by
  unfold xorBytes
  by_cases ha : a = []
  · subst ha
    simp [xored]
  · have hb : b ≠ [] := by
      intro hb
      subst hb
      exact ha (List.length_eq_zero_iff.1 h.symm)
    rw [if_neg (by simp [hb])]
    congr 1
    apply List.ext_getElem
    · simp [xored, h]
    · intro i h1 h2
      simp only [List.length_mapIdx] at h1
      have hi : i < b.length := by omega
      simp [xored, h, Nat.mod_eq_of_lt h1, List.getElem?_eq_getElem hi]

theorem xored_length {a b : Bytes} (h : b.length = a.length) : (xored a b).length = a.length := by
  simp [xored, h]

theorem xored_cancel {a b : Bytes} (h : b.length = a.length) : xored (xored a b) b = a := by
  apply List.ext_getElem
  · simp [xored, h]
  · intro i h1 h2
    simp [xored, UInt8.xor_assoc]

theorem xored_fix {a b d : Bytes} (hb : b.length = a.length) (hd : d.length = a.length) (h : xored (xored a b) d = a) : b = d := by
  apply List.ext_getElem (by rw [hb, hd])
  intro i h1 h2
  have h3 : a[i]'(by omega) ^^^ b[i] ^^^ d[i] = a[i]'(by omega) := by
    have := List.getElem_of_eq h (i := i) (by simp [xored]; omega)
    simpa [xored] using this
  have h4 := congrArg (a[i]'(by omega) ^^^ ·) h3
  simp only [← UInt8.xor_assoc, UInt8.xor_self, UInt8.zero_xor] at h4
  exact UInt8.xor_eq_zero_iff.1 h4

/-- C56. Whatever the hash function (with 20 bytes of output), the password (not empty) and the scramble, the response sent for
mysql_native_password passes the server's check against the stored double hash. -/
theorem C56_native_password (c : Crypto) (hc : ∀ x, (c.sha1 x).length = 20) (password scramble : RStr) (hp : password ≠ []) :
    ∃ response, encryptPassword c password scramble .mySqlNativePassword = .ok response ∧
      nativeAccepts c.sha1 (utf8Bytes scramble) (storedHash c.sha1 (utf8Bytes password)) response := by
  have hl : (c.sha1 (utf8Bytes scramble ++ c.sha1 (c.sha1 (utf8Bytes password)))).length = (c.sha1 (utf8Bytes password)).length := by
    rw [hc, hc]
  refine ⟨_, xorBytes_eq _ _ hl, ?_⟩
  have hne : utf8Bytes password ≠ [] := by
    cases password with
    | nil => exact absurd rfl hp
    | cons ch cs =>
      intro h
      have := fromUtf8_utf8Bytes (ch :: cs)
      rw [h] at this
      simp [fromUtf8, utf8Decode] at this
  rw [storedHash, if_neg hne]
  refine ⟨by rw [xored_length hl, hc], ?_⟩
  rw [xored_cancel hl]

/-! SHA-1 and SHA-256 have outputs of 20 and 32 bytes, so the theorems apply to them. -/

theorem foldl_length {α : Type} (f : List Nat → α → List Nat) (n : Nat) (hf : ∀ s a, s.length = n → (f s a).length = n)
    (xs : List α) (s : List Nat) (hs : s.length = n) : (xs.foldl f s).length = n := by
  induction xs generalizing s with
  | nil => exact hs
  | cons x xs ih => exact ih _ (hf s x hs)

theorem round1_length (s : List Nat) (a : Nat × Nat) (h : s.length = 5) : (round1 s a).length = 5 := by
  unfold round1
  split <;> simp_all

theorem round256_length (s : List Nat) (a : Nat × Nat) (h : s.length = 8) : (round256 s a).length = 8 := by
  unfold round256
  split <;> simp_all

theorem flatMap_be_length (ws : List Nat) : (ws.flatMap (be 4)).length = 4 * ws.length := by
  induction ws with
  | nil => rfl
  | cons w ws ih => simp [be, le_length, ih]; omega

theorem sha1_length (msg : Bytes) : (sha1 msg).length = 20 := by
  unfold sha1
  rw [flatMap_be_length, foldl_length block1 5 (fun s a hs => ?_) _ _ rfl]
  rw [block1, List.length_zipWith, foldl_length round1 5 round1_length _ _ hs, hs]
  rfl

theorem sha256_length (msg : Bytes) : (sha256 msg).length = 32 := by
  unfold sha256
  rw [flatMap_be_length, foldl_length block256 8 (fun s a hs => ?_) _ _ rfl]
  rw [block256, List.length_zipWith, foldl_length round256 8 round256_length _ _ hs, hs]
  rfl

/-- The real hash functions. -/
def realCrypto : Crypto := ⟨sha1, sha256, fun _ _ => none⟩

example : (∀ x, (realCrypto.sha1 x).length = 20) ∧ "secret".toList ≠ [] := ⟨sha1_length, by decide⟩

/-! ## C66: accounts without a password -/

/-- C66 is false: the server wants an empty response for an account without a password, but for every hash function and every
scramble twenty bytes are sent, so the log-in is refused. -/
theorem C66_empty_password_false (c : Crypto) (hc : ∀ x, (c.sha1 x).length = 20) (scramble : RStr) :
    ∃ response, encryptPassword c [] scramble .mySqlNativePassword = .ok response ∧
      ¬ nativeAccepts c.sha1 (utf8Bytes scramble) (storedHash c.sha1 []) response := by
  have hl : (c.sha1 (utf8Bytes scramble ++ c.sha1 (c.sha1 (utf8Bytes [])))).length = (c.sha1 (utf8Bytes [])).length := by
    rw [hc, hc]
  refine ⟨_, xorBytes_eq _ _ hl, ?_⟩
  intro h
  have := congrArg List.length (show xored _ _ = [] from h)
  rw [xored_length hl, hc] at this
  simp at this

example : ∀ x, (realCrypto.sha1 x).length = 20 := sha1_length

/-! ## C57: caching_sha2_password -/

/-- C57. The response is always built, has 32 bytes, and is `SHA256(password) XOR SHA256(scramble || stage2)`: the server accepts
it when the two orders of hashing agree, and, if no two different texts of 32 bytes have the same hash, only then. (Missing: the
acceptance for every scramble; see `C57_fast_path_false`.) -/
theorem C57_fast_path_partial (c : Crypto) (hc : ∀ x, (c.sha256 x).length = 32) (password scramble : RStr) (hp : utf8Bytes password ≠ []) :
    ∃ response, encryptPassword c password scramble .cachingSha2Password = .ok response ∧
      (c.sha256 (utf8Bytes scramble ++ c.sha256 (c.sha256 (utf8Bytes password)))
          = c.sha256 (c.sha256 (c.sha256 (utf8Bytes password)) ++ utf8Bytes scramble) →
        sha2Accepts c.sha256 (utf8Bytes scramble) (storedHash c.sha256 (utf8Bytes password)) response) ∧
      ((∀ x y : Bytes, x.length = 32 → y.length = 32 → c.sha256 x = c.sha256 y → x = y) →
        sha2Accepts c.sha256 (utf8Bytes scramble) (storedHash c.sha256 (utf8Bytes password)) response →
        c.sha256 (utf8Bytes scramble ++ c.sha256 (c.sha256 (utf8Bytes password)))
          = c.sha256 (c.sha256 (c.sha256 (utf8Bytes password)) ++ utf8Bytes scramble)) := by
  have hl : (c.sha256 (utf8Bytes scramble ++ c.sha256 (c.sha256 (utf8Bytes password)))).length
      = (c.sha256 (utf8Bytes password)).length := by rw [hc, hc]
  refine ⟨_, xorBytes_eq _ _ hl, fun h => ?_, fun hi h => ?_⟩
  · rw [storedHash, if_neg hp]
    refine ⟨by rw [xored_length hl, hc], ?_⟩
    rw [← h, xored_cancel hl]
  · rw [storedHash, if_neg hp] at h
    obtain ⟨_, h⟩ := h
    have h1 := hi _ _ (by rw [xored_length (by rw [xored_length hl, hc, hc]), xored_length hl, hc]) (hc _) h
    exact xored_fix (by rw [hc, hc]) (by rw [hc, hc]) h1

/-- The two orders agree for instance for an empty scramble. -/
example : (∀ x, (realCrypto.sha256 x).length = 32) ∧ utf8Bytes "secret".toList ≠ [] ∧
    realCrypto.sha256 (utf8Bytes [] ++ realCrypto.sha256 (realCrypto.sha256 (utf8Bytes "secret".toList)))
      = realCrypto.sha256 (realCrypto.sha256 (realCrypto.sha256 (utf8Bytes "secret".toList)) ++ utf8Bytes []) :=
  ⟨sha256_length, by decide +kernel, by rw [show utf8Bytes [] = [] from rfl, List.nil_append, List.append_nil]⟩

/-- C57 is false: with the real SHA-256, the password "secret" and a scramble of 20 characters, the response is refused by the
fast path (the server hashes stage2 before the scramble, the client after it). -/
theorem C57_fast_path_false :
    ∃ response, encryptPassword realCrypto "secret".toList "abcdefghijklmnopqrst".toList .cachingSha2Password = .ok response ∧
      ¬ sha2Accepts sha256 (utf8Bytes "abcdefghijklmnopqrst".toList) (storedHash sha256 (utf8Bytes "secret".toList)) response := by
  refine ⟨_, xorBytes_eq _ _ (by rw [realCrypto, sha256_length, sha256_length]), ?_⟩
  rw [storedHash, if_neg (by decide +kernel)]
  rintro ⟨_, h⟩
  revert h
  decide +kernel

end MysqlCdc
