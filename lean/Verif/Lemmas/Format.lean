import Verif.Lemmas.Events
/-!
# Format description events
-/

namespace MysqlCdc

open Spec

theorem seekInt_parses {k : Int} {bs : Bytes} (h : (bs.length : Int) = k) : Parses (P.seekCur k) bs () := by
  subst h; exact seek_parses rfl

theorem takeWhile_text {s : RStr} {pad : Bytes} (h2 : (0 : UInt8) ∉ utf8Bytes s) (h3 : ∀ b ∈ pad, b = 0) :
    (utf8Bytes s ++ pad).takeWhile (· != 0) = utf8Bytes s := by
  rw [List.takeWhile_append_of_pos]
  · cases pad with
    | nil => simp
    | cons b bs => simp [h3 b (by simp)]
  · intro b hb
    have : b ≠ 0 := fun h => h2 (h ▸ hb)
    simpa using this

/-- The length of the event's own payload as the code computes it: `(event_length as u8) - 19`. -/
theorem expected_length {m : Mode} {L : Nat} (h : m.checks = false ∨ 19 ≤ L % 256) (hL : 19 ≤ L) :
    subU m 8 (L % 256) EVENT_HEADER_SIZE = .ok ((L - 19) % 256) := by
  unfold subU EVENT_HEADER_SIZE
  split
  · congr 1; omega
  · rename_i hlt
    rcases h with h | h
    · rw [h]; simp only [Bool.false_eq_true, if_false]; congr 1; omega
    · omega

/-- The part all format descriptions share, up to the post-header length of the event itself. -/
theorem parseFormat_head {m : Mode} {header : EventHeader} {version : Nat} {server : RStr} {pad created l1 tail : Bytes}
    {headerLength own : UInt8} {exp : Nat} {event : FormatDescriptionEvent}
    (h1 : version < 2 ^ 16) (h2 : (0 : UInt8) ∉ utf8Bytes server) (h3 : ∀ b ∈ pad, b = 0)
    (h4 : (utf8Bytes server).length + pad.length = 50) (h5 : created.length = 4) (h6 : l1.length = 14)
    (hexp : subU m 8 (header.eventLength % 256) EVENT_HEADER_SIZE = .ok exp)
    (ht : Parses (if own.toNat ≠ exp then (do
        P.seekCur ((own.toNat : Int) - EVENT_TYPES_OFFSET - FORMAT_DESCRIPTION_CODE)
        let code ← P.u8
        let checksumType ← P.lift (ChecksumType.fromCode code)
        return { binlogVersion := version, serverVersion := server, checksumType })
      else return { binlogVersion := version, serverVersion := server, checksumType := .none }) tail event) :
    Parses (parseFormatDescription m header)
      (le 2 version ++ ((utf8Bytes server ++ pad) ++ ((created ++ [headerLength]) ++ (l1 ++ ([own] ++ tail))))) event := by
  unfold parseFormatDescription
  refine (uLE_parses (k := 2) (by simpa using h1)).bind ?_
  refine (readExact_parses' (by simpa using h4)).bind ?_
  rw [takeWhile_text h2 h3, utf8Decode_utf8Bytes]
  simp only [P.pure_bind']
  refine (seekInt_parses (by simp [h5])).bind ?_
  refine (seekInt_parses (by simp [h6, FORMAT_DESCRIPTION_CODE])).bind ?_
  refine (u8_byte own).bind ?_
  rw [hexp, lift_ok_bind]
  exact ht

/-- The checksum algorithm byte, after the rest of the table. -/
theorem parseFormat_code {version : Nat} {server : RStr} {own : UInt8} {exp : Nat} {l2 : Bytes} {ck : ChecksumType}
    {code : UInt8} (hne : own.toNat ≠ exp) (hown : own.toNat = 57 + (15 + l2.length))
    (hck : ChecksumType.fromCode code.toNat = .ok ck) :
    Parses (if own.toNat ≠ exp then (do
        P.seekCur ((own.toNat : Int) - EVENT_TYPES_OFFSET - FORMAT_DESCRIPTION_CODE)
        let code ← P.u8
        let checksumType ← P.lift (ChecksumType.fromCode code)
        return ({ binlogVersion := version, serverVersion := server, checksumType } : FormatDescriptionEvent))
      else return { binlogVersion := version, serverVersion := server, checksumType := .none })
      (l2 ++ [code]) ⟨version, server, ck⟩ := by
  rw [if_pos hne]
  refine (seekInt_parses (by rw [hown]; simp [EVENT_TYPES_OFFSET, FORMAT_DESCRIPTION_CODE]; omega)).bind ?_
  refine ((u8_byte code).bind (e2 := []) (b := ⟨version, server, ck⟩) ?_).cast (by simp) rfl
  rw [hck, lift_ok_bind]
  exact Parses.pure _

theorem split_at_14 {lengths : Bytes} (h : (lengths[14]?).map UInt8.toNat = some (57 + lengths.length)) :
    ∃ l1 own l2, lengths = l1 ++ ([own] ++ l2) ∧ l1.length = 14 ∧ own.toNat = 57 + (15 + l2.length) := by
  obtain ⟨own, h1, h2⟩ := Option.map_eq_some_iff.1 h
  obtain ⟨hlt, h3⟩ := List.getElem?_eq_some_iff.1 h1
  refine ⟨lengths.take 14, own, lengths.drop 15, ?_, by simp; omega, ?_⟩
  · rw [← h3]
    have := (List.take_append_drop 14 lengths).symm
    rw [List.drop_eq_getElem_cons hlt] at this
    exact this
  · rw [h2]; simp; omega

/-- A format description event decodes to its values. -/
theorem parseFormat_run {m : Mode} {header : EventHeader} {event : FormatDescriptionEvent} {known : Bool}
    {body : Bytes} (h : FormatBody known event body) (hl : header.eventLength = 19 + body.length)
    (hm : m.checks = false ∨ 19 ≤ header.eventLength % 256) :
    (parseFormatDescription m header).run body = .ok event := by
  cases h with
  | @mk version server checksum pad created lengths tail headerLength h1 h2 h3 h4 h5 h6 h7 =>
  obtain ⟨l1, own, l2, rfl, hl1, hown⟩ := split_at_14 h6
  have hexp := expected_length hm (by omega)
  have hown' := own.toNat_lt
  simp only [List.length_append, le_length, List.length_singleton, hl1, h5] at hl
  cases h7 with
  | absent =>
    have hexp2 : (header.eventLength - 19) % 256 = own.toNat := by
      simp only [List.length_nil] at hl
      omega
    rw [hexp2] at hexp
    have := (parseFormat_head (headerLength := headerLength) (own := own) (tail := []) (event := ⟨version, server, .none⟩)
      h1 h2 h3 h4 h5 hl1 hexp (by rw [if_neg (by simp)]; exact Parses.pure _)).run_append l2
    simpa using this
  | @none sum hs =>
    have hne : own.toNat ≠ (header.eventLength - 19) % 256 := by
      simp only [List.length_cons, hs] at hl
      omega
    have := (parseFormat_head (headerLength := headerLength) h1 h2 h3 h4 h5 hl1 hexp
      (parseFormat_code (ck := .none) (code := 0) hne hown rfl)).run_append sum
    simpa using this
  | @crc32 sum hs =>
    have hne : own.toNat ≠ (header.eventLength - 19) % 256 := by
      simp only [List.length_cons, hs] at hl
      omega
    have := (parseFormat_head (headerLength := headerLength) h1 h2 h3 h4 h5 hl1 hexp
      (parseFormat_code (ck := .crc32) (code := 1) hne hown rfl)).run_append sum
    simpa using this

/-- The same when the last four bytes (the checksum) have been cut off. -/
theorem parseFormat_run_cut {m : Mode} {header : EventHeader} {version : Nat} {server : RStr} {checksum : ChecksumType}
    {pad created lengths sum : Bytes} {headerLength code : UInt8}
    (h1 : version < 2 ^ 16) (h2 : (0 : UInt8) ∉ utf8Bytes server) (h3 : ∀ b ∈ pad, b = 0)
    (h4 : (utf8Bytes server).length + pad.length = 50) (h5 : created.length = 4)
    (h6 : (lengths[14]?).map UInt8.toNat = some (57 + lengths.length))
    (hc : ChecksumType.fromCode code.toNat = .ok checksum) (hs : sum.length = 4)
    (hl : header.eventLength = 19 + (le 2 version ++ (utf8Bytes server ++ pad) ++ created ++ [headerLength] ++ lengths
      ++ code :: sum).length)
    (hm : m.checks = false ∨ 19 ≤ header.eventLength % 256) :
    (parseFormatDescription m header).run
      (le 2 version ++ (utf8Bytes server ++ pad) ++ created ++ [headerLength] ++ lengths ++ [code])
      = .ok ⟨version, server, checksum⟩ := by
  obtain ⟨l1, own, l2, rfl, hl1, hown⟩ := split_at_14 h6
  have hexp := expected_length hm (by omega)
  have hown' := own.toNat_lt
  have hne : own.toNat ≠ (header.eventLength - 19) % 256 := by
    simp only [List.length_append, le_length, hl1, h5, List.length_cons, hs] at hl
    omega
  have := (parseFormat_head (headerLength := headerLength) h1 h2 h3 h4 h5 hl1 hexp
    (parseFormat_code (ck := checksum) (code := code) hne hown hc)).run
  simpa using this

end MysqlCdc
