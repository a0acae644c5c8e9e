import Verif.Lemmas.Format
/-!
# Properties of the events that need no table map: C11, C16, C36, C39–C43
-/

namespace MysqlCdc

open Spec

/-! ## C39: event headers -/

/-- C39. The six fields of any header are recovered, wherever it stands in the data. -/
theorem C39_header_decoded (h : EventHeader) (hf : HeaderFits h) (rest : Bytes) :
    parseHeader.run (headerBytes h ++ rest) = .ok h := (parseHeader_parses hf).run_append rest

/-- C39. Every 19 bytes are a header, and there is only one header with those bytes: decoding is total and exact. -/
theorem C39_header_total (bs : Bytes) (hl : 19 ≤ bs.length) :
    ∃ h, HeaderFits h ∧ bs.take 19 = headerBytes h ∧ parseHeader.run bs = .ok h := by
  obtain ⟨a, b, rfl, ha⟩ : ∃ a b, bs = a ++ b ∧ a.length = 19 :=
    ⟨bs.take 19, bs.drop 19, by simp, by simp; omega⟩
  have split : ∀ (k : Nat) (l : Bytes), k ≤ l.length → ∃ n, n < 256 ^ k ∧ l = le k n ++ l.drop k := by
    intro k l hk
    have h1 := le_leVal (l.take k)
    have h2 := leVal_lt (l.take k)
    rw [List.length_take_of_le hk] at h1 h2
    exact ⟨leVal (l.take k), h2, by rw [h1, List.take_append_drop]⟩
  obtain ⟨n1, b1, e1⟩ := split 4 a (by omega)
  obtain ⟨n2, b2, e2⟩ := split 1 (a.drop 4) (by simp; omega)
  obtain ⟨n3, b3, e3⟩ := split 4 ((a.drop 4).drop 1) (by simp; omega)
  obtain ⟨n4, b4, e4⟩ := split 4 (((a.drop 4).drop 1).drop 4) (by simp; omega)
  obtain ⟨n5, b5, e5⟩ := split 4 ((((a.drop 4).drop 1).drop 4).drop 4) (by simp; omega)
  obtain ⟨n6, b6, e6⟩ := split 2 (((((a.drop 4).drop 1).drop 4).drop 4).drop 4) (by simp; omega)
  have e7 : ((((((a.drop 4).drop 1).drop 4).drop 4).drop 4).drop 2) = [] := by
    apply List.eq_nil_of_length_eq_zero; simp; omega
  have hf : HeaderFits ⟨n1, n2, n3, n4, n5, n6⟩ := ⟨b1, b2, b3, b4, b5, b6⟩
  have he : a = headerBytes ⟨n1, n2, n3, n4, n5, n6⟩ := by
    rw [e7, List.append_nil] at e6
    unfold headerBytes
    simp only [List.append_assoc]
    rw [← e6, ← e5, ← e4, ← e3, ← e2, ← e1]
  refine ⟨_, hf, ?_, ?_⟩
  · rw [List.take_left' ha, he]
  · rw [he]; exact (parseHeader_parses hf).run_append b

/-- C39. Anything shorter than 19 bytes is rejected with "unexpected end of file". -/
theorem C39_short_header_rejected (bs : Bytes) (hl : bs.length < 19) :
    parseHeader.run bs = .err (.io .unexpectedEof) := by
  have key : ∀ k pos, (P.uLE k) bs pos = if k ≤ bs.length - pos then .ok (leVal ((bs.drop pos).take k), pos + k)
      else .err (.io .unexpectedEof) := by
    intro k pos
    simp only [P.uLE, P.seq_apply, P.readExact, List.length_drop]
    split <;> simp
  have key8 : ∀ pos, P.u8 bs pos = if 1 ≤ bs.length - pos then .ok (leVal ((bs.drop pos).take 1), pos + 1)
      else .err (.io .unexpectedEof) := key 1
  simp only [P.run, parseHeader, P.seq_apply, key, key8]
  by_cases h1 : 4 ≤ bs.length - 0
  · rw [if_pos h1]; simp only [Res.bind]
    by_cases h2 : 1 ≤ bs.length - (0 + 4)
    · rw [if_pos h2]; simp only
      by_cases h3 : 4 ≤ bs.length - (0 + 4 + 1)
      · rw [if_pos h3]; simp only
        by_cases h4 : 4 ≤ bs.length - (0 + 4 + 1 + 4)
        · rw [if_pos h4]; simp only
          by_cases h5 : 4 ≤ bs.length - (0 + 4 + 1 + 4 + 4)
          · rw [if_pos h5]; simp only
            rw [if_neg (by omega)]
          · rw [if_neg h5]
        · rw [if_neg h4]
      · rw [if_neg h3]
    · rw [if_neg h2]
  · rw [if_neg h1]; rfl

example : HeaderFits ⟨1700000000, 2, 7, 120, 4294967295, 65535⟩ := by simp [HeaderFits]
example : (headerBytes ⟨1700000000, 2, 7, 120, 4294967295, 65535⟩).length = 19 := by decide

/-! ## C40: length-encoded integers and strings -/

/-- C40. Every length-encoded form of every 64-bit integer is recovered. -/
theorem C40_integers (n : Nat) (enc rest : Bytes) (h : LenEnc n enc) : readLenEncNum.run (enc ++ rest) = .ok n :=
  (readLenEncNum_parses h).run_append rest

/-- C40. Every 64-bit integer has such a form, the one servers write. -/
theorem C40_every_integer (n : Nat) (h : n < 2 ^ 64) (rest : Bytes) : readLenEncNum.run (lenEnc n ++ rest) = .ok n :=
  (readLenEncNum_parses (lenEnc_spec h)).run_append rest

/-- C40. The two first bytes that start no length-encoded integer are rejected. -/
theorem C40_markers_rejected (first : UInt8) (rest : Bytes) (h : first = 0xFB ∨ first = 0xFF) :
    ∃ msg, readLenEncNum.run (first :: rest) = .err (.str msg) := by
  have h8 : P.u8 (first :: rest) 0 = .ok (first.toNat, 1) := by simpa using u8_byte first [] rest
  rcases h with rfl | rfl
  · exact ⟨"Length encoded integer cannot be NULL.", by simp only [P.run, readLenEncNum, P.seq_apply, h8]; rfl⟩
  · exact ⟨"Unexpected length-encoded integer", by simp only [P.run, readLenEncNum, P.seq_apply, h8]; rfl⟩

/-- C40. Length-encoded strings are recovered. -/
theorem C40_strings (s : RStr) (enc rest : Bytes) (h : LenEncStr s enc) (hs : (utf8Bytes s).length < 2 ^ 63) :
    readLenEncStr.run (enc ++ rest) = .ok s := (readLenEncStr_parses h hs).run_append rest

example : LenEnc 251 [0xFC, 251, 0] := LenEnc.two (n := 251) (by decide)
example : LenEnc 3 [0xFE, 3, 0, 0, 0, 0, 0, 0, 0] := LenEnc.eight (n := 3) (by decide)
example : LenEncStr "né".toList [3, 0x6e, 0xc3, 0xa9] := ⟨[3], LenEnc.one (by decide), by decide +kernel⟩

/-! ## C41: bitmaps -/

/-- The bits a byte string holds under a bit-to-(byte, weight) map. -/
private theorem bits_exist (n : Nat) (f : Nat → Bool) : ∃ bits : List Bool, bits.length = n ∧
    ∀ i b, bits[i]? = some b → b = f i ∧ i < n := by
  refine ⟨(List.range n).map f, by simp, fun i b h => ?_⟩
  rw [List.getElem?_map] at h
  obtain ⟨j, hj, rfl⟩ := Option.map_eq_some_iff.1 h
  obtain ⟨h1, h2⟩ := List.getElem?_eq_some_iff.1 hj
  simp at h1 h2
  subst h2
  exact ⟨rfl, h1⟩

/-- C41, little-endian reader: any `bytesFor n` bytes are read as exactly `n` bits, bit `i` being the bit of weight
`2^(i mod 8)` of byte `i / 8`; the padding bits do not matter and nothing more is read. -/
theorem C41_little_endian (n : Nat) (enc rest : Bytes) (hn : n < 2 ^ 63) (hl : enc.length = bytesFor n) :
    ∃ bits, bits.length = n ∧ BitmapLE bits enc ∧ readBitmapLittleEndian n (enc ++ rest) 0 = .ok (bits, enc.length) := by
  obtain ⟨bits, h1, h2⟩ := bits_exist n (fun i => bitOf (enc.getD (i / 8) 0) (i % 8))
  have hb : BitmapLE bits enc := by
    refine ⟨by rw [h1, hl], fun i b hb => ?_⟩
    obtain ⟨rfl, hi⟩ := h2 i b hb
    have : i / 8 < enc.length := by rw [hl]; unfold bytesFor; omega
    exact ⟨enc[i / 8], by simp [this], by simp [List.getD, this]⟩
  subst h1
  exact ⟨bits, rfl, hb, by simpa using readBitmapLittleEndian_parses hb hn [] rest⟩

/-- C41, big-endian reader: as above with the bytes in the opposite order. -/
theorem C41_big_endian (n : Nat) (enc rest : Bytes) (hn : n < 2 ^ 63) (hl : enc.length = bytesFor n) :
    ∃ bits, bits.length = n ∧ BitmapBE bits enc ∧ readBitmapBigEndian n (enc ++ rest) 0 = .ok (bits, enc.length) := by
  obtain ⟨bits, h1, h2⟩ := bits_exist n (fun i => bitOf (enc.getD (enc.length - 1 - i / 8) 0) (i % 8))
  have hb : BitmapBE bits enc := by
    refine ⟨by rw [h1, hl], fun i b hb => ?_⟩
    obtain ⟨rfl, hi⟩ := h2 i b hb
    have : enc.length - 1 - i / 8 < enc.length := by rw [hl]; unfold bytesFor; omega
    exact ⟨enc[enc.length - 1 - i / 8], by simp [this], by simp [List.getD, this]⟩
  subst h1
  exact ⟨bits, rfl, hb, by simpa using readBitmapBigEndian_parses hb hn [] rest⟩

/-- C41, most-significant-bit-first reader. -/
theorem C41_msb_first (n : Nat) (enc rest : Bytes) (hn : n < 2 ^ 63) (hl : enc.length = bytesFor n) :
    ∃ bits, bits.length = n ∧ BitmapMsb bits enc ∧ readBitmapReverted n (enc ++ rest) 0 = .ok (bits, enc.length) := by
  obtain ⟨bits, h1, h2⟩ := bits_exist n (fun i => bitOf (enc.getD (i / 8) 0) (7 - i % 8))
  have hb : BitmapMsb bits enc := by
    refine ⟨by rw [h1, hl], fun i b hb => ?_⟩
    obtain ⟨rfl, hi⟩ := h2 i b hb
    have : i / 8 < enc.length := by rw [hl]; unfold bytesFor; omega
    exact ⟨enc[i / 8], by simp [this], by simp [List.getD, this]⟩
  subst h1
  exact ⟨bits, rfl, hb, by simpa using readBitmapReverted_parses hb hn [] rest⟩

/-- Tests: eleven bits in two bytes, for the three bit orders. -/
example : (readBitmapLittleEndian 11).run [0x05, 0xFC] =
    .ok [true, false, true, false, false, false, false, false, false, false, true] := by decide +kernel
example : (readBitmapBigEndian 11).run [0xFC, 0x05] =
    .ok [true, false, true, false, false, false, false, false, false, false, true] := by decide +kernel
example : (readBitmapReverted 11).run [0xA0, 0x3F] =
    .ok [true, false, true, false, false, false, false, false, false, false, true] := by decide +kernel

/-! ## C42: plain events -/

/-- C42. An event of a plain type is decoded to exactly the encoded values, in every decoder state (with or without a
checksum), and leaves the decoder as it was. -/
theorem C42_plain_events (m : Mode) (st : EventParser) (header : EventHeader) (event : BinlogEvent) (body slice : Bytes)
    (hb : PlainBody header.eventType event body) (hs : WithChecksum st.checksumType body slice) :
    parseEvent m st header slice = (.ok event, st) := by
  rw [parseEvent_of_body hs (dispatch_plain hb)]
  generalize hc : header.eventType = code at hb
  cases hb <;> rfl

/-- A query event as MySQL writes it, with a checksum. -/
example : ∃ slice, PlainBody 2 (.query ⟨9, 1, 0, [0, 0], "shop".toList, "BEGIN".toList⟩) slice ∧
    WithChecksum .crc32 slice (slice ++ [1, 2, 3, 4]) ∧
    slice = [9, 0, 0, 0, 1, 0, 0, 0, 4, 0, 0, 2, 0, 0, 0, 115, 104, 111, 112, 0, 66, 69, 71, 73, 78] := by
  refine ⟨_, .query (by decide) (by decide) (by decide +kernel) (by decide) (by decide), ⟨_, rfl, rfl⟩, by decide +kernel⟩

/-! ## C16: MariaDB GTID events -/

/-- C16. A MariaDB GTID event gives the domain and sequence of its payload and the server id of its header; a GTID list event
gives the listed GTIDs in order. (A list whose count carries flag bits in its upper four bits is outside the format used here.) -/
theorem C16_mariadb_gtid_events (m : Mode) (st : EventParser) (header : EventHeader) (event : BinlogEvent)
    (body slice : Bytes) (hb : MariaBody header header.eventType event body) (hs : WithChecksum st.checksumType body slice) :
    parseEvent m st header slice = (.ok event, st) := by
  rw [parseEvent_of_body hs (dispatch_maria hb)]
  generalize hc : header.eventType = code at hb
  cases hb <;> rfl

example : MariaBody ⟨0, 162, 77, 42, 500, 8⟩ 162 (.mariaDbGtid ⟨⟨3, 77, 258⟩, 1⟩)
    ([2, 1, 0, 0, 0, 0, 0, 0] ++ [3, 0, 0, 0] ++ [1] ++ [9]) :=
  .gtid (sequence := 258) (domain := 3) (flags := 1) (by decide) (by decide) (by decide)
example : MariaBody ⟨0, 163, 77, 42, 500, 8⟩ 163 (.mariaDbGtidList ⟨⟨[⟨0, 1, 5⟩, ⟨2, 1, 7⟩]⟩⟩)
    (le 4 2 ++ ((le 4 0 ++ le 4 1 ++ le 8 5) ++ (le 4 2 ++ le 4 1 ++ le 8 7)) ++ []) :=
  .gtidList (gtids := [⟨0, 1, 5⟩, ⟨2, 1, 7⟩]) (extra := []) (by decide) (by decide)

/-! ## C11: previous-gtids events -/

theorem has_foldl_insert (sets : List (Bytes × List Interval)) (acc : HMap RStr UuidSet)
    (hsets : ∀ s ∈ sets, s.1.length = 16) (hn : (sets.map (·.1)).Nodup)
    (hacc : ∀ k, k ∈ acc.map (·.1) → ∀ s ∈ sets, k ≠ uuidText s.1) :
    (sets.map fun s => (⟨⟨s.1, uuidText s.1⟩, s.2⟩ : UuidSet)).foldl (fun r s => HMap.insert r s.sourceId.uuid s) acc
      = acc ++ sets.map fun s => (uuidText s.1, (⟨⟨s.1, uuidText s.1⟩, s.2⟩ : UuidSet)) := by
  induction sets generalizing acc with
  | nil => simp
  | cons s sets ih =>
    have hins : HMap.insert acc (uuidText s.1) (⟨⟨s.1, uuidText s.1⟩, s.2⟩ : UuidSet)
        = acc ++ [(uuidText s.1, (⟨⟨s.1, uuidText s.1⟩, s.2⟩ : UuidSet))] := by
      have hk : ∀ k ∈ acc.map (·.1), k ≠ uuidText s.1 := fun k hk => hacc k hk s (by simp)
      clear hacc ih
      induction acc with
      | nil => rfl
      | cons p acc iha =>
        obtain ⟨k, v⟩ := p
        rw [HMap.insert, if_neg (hk k (by simp)), iha (fun k' hk' => hk k' (by simp [hk']))]
        rfl
    simp only [List.map_cons, List.foldl_cons]
    rw [hins, ih _ (fun x hx => hsets x (by simp [hx])) (by simp at hn; exact hn.2)]
    · simp
    · intro k hk x hx
      simp only [List.map_append, List.map_cons, List.map_nil, List.mem_append, List.mem_singleton] at hk
      rcases hk with hk | rfl
      · exact hacc k hk x (by simp [hx])
      · intro he
        have := uuidText_inj he
        simp only [List.map_cons, List.nodup_cons] at hn
        exact hn.1 (by rw [this]; exact List.mem_map_of_mem hx)

/-- C11. Decoding a previous-gtids event that encodes any number of distinct servers with any number of intervals gives
exactly those servers, each with exactly its intervals (closed, in order). -/
theorem C11_previous_gtids (m : Mode) (st : EventParser) (header : EventHeader) (sets : List (Bytes × List Interval))
    (extra slice : Bytes) (ht : header.eventType = 35) (hf : GtidSetFits sets) (hn : (sets.map (·.1)).Nodup)
    (hs : WithChecksum st.checksumType (gtidSetBytes sets ++ extra) slice) :
    ∃ g, parseEvent m st header slice = (.ok (.mySqlPrevGtids ⟨g⟩), st) ∧
      g.uuidSets = (sets.map fun s => (uuidText s.1, ⟨⟨s.1, uuidText s.1⟩, s.2⟩)) ∧
      ∀ server n, Has g server n ↔ ∃ s ∈ sets, s.1 = server ∧ InIvs n s.2 := by
  have h0 := (parsePreviousGtids_parses m hf).run_append extra
  rw [has_foldl_insert sets [] (fun s hs => (hf.2 s hs).1) hn (by simp)] at h0
  have h1 := run_bind_ret BinlogEvent.mySqlPrevGtids h0
  have h2 : dispatchEvent m st.tableMap header = (do return .mySqlPrevGtids (← parsePreviousGtids m)) := by
    unfold dispatchEvent
    rw [ht]
    rfl
  rw [← h2] at h1
  refine ⟨_, parseEvent_of_body hs h1, by simp, fun server n => ?_⟩
  simp only [Has, List.nil_append, List.mem_map]
  constructor
  · rintro ⟨kv, ⟨s, hs, rfl⟩, h2, h3⟩
    exact ⟨s, hs, h2, h3⟩
  · rintro ⟨s, hs, h2, h3⟩
    exact ⟨_, ⟨s, hs, rfl⟩, h2, h3⟩

example : GtidSetFits [(List.replicate 16 1, [⟨1, 5⟩, ⟨8, 8⟩]), (List.replicate 16 2, [⟨3, 3⟩])] := by
  refine ⟨by decide, ?_⟩
  simp

/-! ## C36: format description events -/

/-- C36, partial. Version, server version text and checksum algorithm are recovered from every v4 format description event,
from servers with and without checksums, for any number of event types, and the algorithm is in force from then on. Missing:
with overflow checks on, events whose length modulo 256 is below 19; see `C36_long_event_false`. -/
theorem C36_format_description_partial (m : Mode) (st : EventParser) (header : EventHeader) (known : Bool)
    (event : FormatDescriptionEvent) (body : Bytes) (ht : header.eventType = 15) (hb : FormatBody known event body)
    (hl : header.eventLength = 19 + body.length) (hk : st.checksumType = .crc32 → known = true)
    (hm : m.checks = false ∨ 19 ≤ header.eventLength % 256) :
    parseEvent m st header body = (.ok (.formatDescription event), { st with checksumType := event.checksumType }) := by
  have run : ∀ {bs : Bytes} {ev : FormatDescriptionEvent}, (parseFormatDescription m header).run bs = .ok ev →
      (dispatchEvent m st.tableMap header).run bs = .ok (.formatDescription ev) := by
    intro bs ev h
    unfold dispatchEvent
    rw [ht]
    exact run_bind_ret BinlogEvent.formatDescription h
  cases hck : st.checksumType with
  | none =>
    have := parseEvent_of_body (m := m) (st := st) (header := header) (slice := body) (body := body)
      ⟨[], by simp [hck], by simp⟩ (run (parseFormat_run hb hl hm))
    rw [this]; rfl
  | crc32 =>
    have hk' := hk hck
    subst hk'
    cases hb with
    | @mk version server checksum pad created lengths tail headerLength h1 h2 h3 h4 h5 h6 h7 =>
    obtain ⟨code, sum, rfl, hs, hc⟩ : ∃ code sum, tail = code :: sum ∧ sum.length = 4 ∧
        ChecksumType.fromCode code.toNat = .ok checksum := by
      cases h7 with
      | none h => exact ⟨0, _, rfl, h, rfl⟩
      | crc32 h => exact ⟨1, _, rfl, h, rfl⟩
    have h := run (parseFormat_run_cut (headerLength := headerLength) h1 h2 h3 h4 h5 h6 hc hs hl hm)
    have := parseEvent_of_body (m := m) (st := st) (header := header)
      (slice := le 2 version ++ (utf8Bytes server ++ pad) ++ created ++ [headerLength] ++ lengths ++ code :: sum)
      ⟨sum, by simp [hck, hs], by simp⟩ h
    rw [this]; rfl

/-- MySQL 5.7 writes 38 event types; the table's own entry is 57 + 38 = 95. -/
example : FormatBody true ⟨4, "5.7.30-log".toList, .crc32⟩
    (le 2 4 ++ (utf8Bytes "5.7.30-log".toList ++ List.replicate 40 0) ++ [1, 2, 3, 4] ++ [19]
      ++ (List.replicate 14 8 ++ [95] ++ List.replicate 23 0) ++ [1, 9, 9, 9, 9]) :=
  .mk (by decide) (by decide +kernel) (by simp) (by decide +kernel) (by decide) (by decide) (.crc32 rfl)

/-- C36 is false as stated: a server with 180 event types writes a 256-byte format description event, on which a build with
overflow checks panics. -/
theorem C36_long_event_false :
    ∃ header event body, FormatBody false event body ∧ header.eventType = 15 ∧ header.eventLength = 19 + body.length ∧
      (parseEvent ⟨true⟩ EventParser.new header body).1 = .panic := by
  refine ⟨⟨0, 15, 1, 256, 256, 0⟩, ⟨4, "9".toList, .none⟩,
    le 2 4 ++ (utf8Bytes "9".toList ++ List.replicate 49 0) ++ [1, 2, 3, 4] ++ [19]
      ++ (List.replicate 14 8 ++ [237] ++ List.replicate 165 0) ++ [],
    .mk (by decide) (by decide +kernel) (by simp) (by decide +kernel) (by decide) (by decide +kernel) .absent, rfl,
    by decide +kernel, by decide +kernel⟩

/-! ## C43: text is UTF-8 -/

/-- C43. A string of given length is accepted exactly when its bytes are the UTF-8 encoding of some text, and then it is that
text (which no other bytes encode); otherwise the whole read is an error. -/
theorem C43_sized_text (bs rest : Bytes) (hl : bs.length < 2 ^ 63) :
    (∀ s, readString bs.length (bs ++ rest) 0 = .ok (s, bs.length) ↔ utf8Bytes s = bs) ∧
    ((∀ s, utf8Bytes s ≠ bs) → readString bs.length (bs ++ rest) 0 = .err .fromUtf8) := by
  have h1 : P.readVec bs.length (bs ++ rest) 0 = .ok (bs, bs.length) := by
    simpa using readVec_parses (bs := bs) rfl hl [] rest
  have h2 : readString bs.length (bs ++ rest) 0 =
      match utf8Decode bs with | some s => .ok (s, bs.length) | none => .err .fromUtf8 := by
    simp only [readString, P.seq_apply, h1, Res.bind]
    cases h : utf8Decode bs <;> simp [P.lift, fromUtf8, h]
  rw [h2]
  constructor
  · intro s
    cases h : utf8Decode bs with
    | none =>
      simp only [reduceCtorEq, false_iff]
      intro hs
      rw [← hs, utf8Decode_utf8Bytes] at h
      cases h
    | some s' =>
      have := (utf8Decode_eq_some_iff.1 h)
      simp only [Res.ok.injEq, Prod.mk.injEq, and_true]
      constructor
      · rintro rfl; exact this.symm
      · intro hs; exact utf8Bytes_inj (by rw [hs, ← this])
  · intro hno
    cases h : utf8Decode bs with
    | none => rfl
    | some s' => exact absurd (utf8Decode_eq_some_iff.1 h).symm (hno s')

/-- C43. Text that runs to the end of the event. -/
theorem C43_text_to_end (bs : Bytes) :
    (∀ s, readToString.run bs = .ok s ↔ utf8Bytes s = bs) ∧
    ((∀ s, utf8Bytes s ≠ bs) → readToString.run bs = .err (.io .invalidData)) := by
  have h2 : readToString.run bs =
      match utf8Decode bs with | some s => .ok s | none => .err (.io .invalidData) := by
    simp only [readToString, P.run, P.seq_apply, P.rest, Res.bind, List.drop_zero]
    cases h : utf8Decode bs <;> simp [P.fail]
  rw [h2]
  constructor
  · intro s
    cases h : utf8Decode bs with
    | none =>
      simp only [reduceCtorEq, false_iff]
      intro hs
      rw [← hs, utf8Decode_utf8Bytes] at h
      cases h
    | some s' =>
      have := (utf8Decode_eq_some_iff.1 h)
      simp only [Res.ok.injEq]
      constructor
      · rintro rfl; exact this.symm
      · intro hs; exact utf8Bytes_inj (by rw [hs, ← this])
  · intro hno
    cases h : utf8Decode bs with
    | none => rfl
    | some s' => exact absurd (utf8Decode_eq_some_iff.1 h).symm (hno s')

/-- C43 for a whole event: a rotate event is accepted exactly when its file name is UTF-8. -/
theorem C43_rotate_event (m : Mode) (st : EventParser) (header : EventHeader) (position : Nat) (name slice : Bytes)
    (ht : header.eventType = 4) (hp : position < 2 ^ 64)
    (hs : WithChecksum st.checksumType (le 8 position ++ name) slice) :
    (∀ s, parseEvent m st header slice = (.ok (.rotate ⟨s, position⟩), st) ↔ utf8Bytes s = name) ∧
    ((∀ s, utf8Bytes s ≠ name) → parseEvent m st header slice = (.err (.io .invalidData), st)) := by
  have h1 : (P.uLE 8) (le 8 position ++ name) 0 = .ok (position, 8) := by
    simpa using uLE_parses (k := 8) (n := position) (by simpa using hp) [] name
  have h2 : (dispatchEvent m st.tableMap header).run (le 8 position ++ name) =
      match utf8Decode name with
      | some s => .ok (.rotate ⟨s, position⟩)
      | none => .err (.io .invalidData) := by
    unfold dispatchEvent
    rw [ht]
    simp only [EventType.fromCode, P.run, P.seq_apply, parseRotate, h1, Res.bind, readToString, P.rest]
    rw [show (le 8 position ++ name).drop 8 = name by simp [List.drop_left']]
    cases h : utf8Decode name <;> simp [P.fail]
  have h3 : ∀ {event}, (dispatchEvent m st.tableMap header).run (le 8 position ++ name) = .ok event →
      parseEvent m st header slice = (.ok event, st.record event) := fun h => parseEvent_of_body hs h
  constructor
  · intro s
    constructor
    · intro h
      cases hd : utf8Decode name with
      | none =>
        rw [hd] at h2
        simp [parseEvent, eventBody_of_checksum hs, h2] at h
      | some s' =>
        rw [hd] at h2
        rw [h3 h2] at h
        simp only [Prod.mk.injEq, Res.ok.injEq, BinlogEvent.rotate.injEq, RotateEvent.mk.injEq, and_true] at h
        rw [← h.1]
        exact (utf8Decode_eq_some_iff.1 hd).symm
    · rintro rfl
      rw [utf8Decode_utf8Bytes] at h2
      exact h3 h2
  · intro hno
    cases hd : utf8Decode name with
    | none =>
      rw [hd] at h2
      simp [parseEvent, eventBody_of_checksum hs, h2]
    | some s' => exact absurd (utf8Decode_eq_some_iff.1 hd).symm (hno s')

example : utf8Bytes "bin-é.1".toList = [98, 105, 110, 45, 0xc3, 0xa9, 46, 49] := by decide +kernel
/-- Latin-1 text is no UTF-8 text. -/
example : ∀ s, utf8Bytes s ≠ [98, 0xe9, 46] := fun s h => by
  have := utf8Decode_utf8Bytes s
  rw [h, show utf8Decode [98, 0xe9, 46] = none by decide +kernel] at this
  cases this

end MysqlCdc
