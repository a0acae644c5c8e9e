import Verif.Lemmas.Faults
/-!
# Which events other than row events crash the decoder
-/

namespace MysqlCdc

open Spec

/-! ## Previous GTIDs -/

theorem crash_prevInterval (m : Mode) : Faults .crash (parsePrevInterval m)
    (fun t => ∃ start rest, m.checks = true ∧ start < 2 ^ 64 ∧ t = le 8 start ++ le 8 0 ++ rest) := by
  unfold parsePrevInterval
  refine (Faults.then (Exact.uLE 8) (crash_uLE 8) fun a => Faults.then (Exact.uLE 8) (crash_uLE 8) fun b =>
    (Faults.lift .crash (subU m 64 b 1)).map _).cast fun t => ?_
  constructor
  · rintro ⟨a, _, _, ⟨h1, rfl⟩, ⟨b, _, rest, ⟨h2, rfl⟩, h3, rfl⟩, rfl⟩
    unfold subU Fault.as at h3
    by_cases hb : 1 ≤ b
    · rw [if_pos hb] at h3; cases h3
    · obtain rfl : b = 0 := by omega
      refine ⟨a, rest, ?_, by simpa using h1, by simp⟩
      cases hm : m.checks with
      | true => rfl
      | false => rw [hm] at h3; simp at h3
  · rintro ⟨start, rest, hm, h1, rfl⟩
    refine ⟨start, _, _, ⟨by simpa using h1, rfl⟩, ⟨0, _, rest, ⟨by omega, rfl⟩, ?_, rfl⟩, by simp⟩
    simp [subU, hm, Fault.as]

theorem crash_prevSet (m : Mode) : Faults .crash (parsePrevUuidSet m)
    (fun t => ∃ sid n ivs data start rest, m.checks = true ∧ sid.length = 16 ∧ n < 2 ^ 64 ∧ ivs.length < n ∧
      Each (PreviousInterval m) ivs data ∧ start < 2 ^ 64 ∧ t = sid ++ le 8 n ++ data ++ (le 8 start ++ le 8 0) ++ rest) := by
  unfold parsePrevUuidSet
  refine (Faults.thenOf (Exact.readExact 16) (crash_readExact 16) (K2 := fun _ t => ∃ n data ivs t1, n < 2 ^ 64 ∧ ivs.length < n ∧
      Each (PreviousInterval m) ivs data ∧ (∃ start rest, m.checks = true ∧ start < 2 ^ 64 ∧ t1 = le 8 start ++ le 8 0 ++ rest) ∧
      t = le 8 n ++ data ++ t1) fun sid e h => ?_).cast fun t => ?_
  · rw [uuid_new_eq _ h.1]
    dsimp only
    rw [uuidSet_new_nil, lift_ok_bind]
    refine (Faults.then (Exact.uLE 8) (crash_uLE 8) fun n => (Faults.times (exact_prevInterval m) (crash_prevInterval m) n).map _).cast fun t => ?_
    constructor
    · rintro ⟨n, _, _, ⟨h1, rfl⟩, ⟨ivs, data, t1, h2, h3, h4, rfl⟩, rfl⟩
      exact ⟨n, data, ivs, t1, by simpa using h1, h2, h3, h4, by simp⟩
    · rintro ⟨n, data, ivs, t1, h1, h2, h3, h4, rfl⟩
      exact ⟨n, _, _, ⟨by simpa using h1, rfl⟩, ⟨ivs, data, t1, h2, h3, h4, rfl⟩, by simp⟩
  · constructor
    · rintro ⟨_, sid, _, ⟨h1, rfl⟩, ⟨n, data, ivs, _, h2, h3, h4, ⟨start, rest, hm, h5, rfl⟩, rfl⟩, rfl⟩
      exact ⟨sid, n, ivs, data, start, rest, hm, h1, h2, h3, h4, h5, by simp⟩
    · rintro ⟨sid, n, ivs, data, start, rest, hm, h1, h2, h3, h4, h5, rfl⟩
      exact ⟨_, sid, _, ⟨h1, rfl⟩, ⟨n, data, ivs, _, h2, h3, h4, ⟨start, rest, hm, h5, rfl⟩, rfl⟩, by simp⟩

theorem crash_previous (m : Mode) : Faults .crash (parsePreviousGtids m) (PreviousCrash m) := by
  unfold parsePreviousGtids
  refine (Faults.then (Exact.uLE 8) (crash_uLE 8) fun a => (Faults.times (exact_prevSet m) (crash_prevSet m) a).map _).cast fun t => ?_
  constructor
  · rintro ⟨count, _, _, ⟨h1, rfl⟩, ⟨us, data1, _, h2, h3, ⟨sid, n, ivs, data2, start, rest, hm, h4, h5, h6, h7, h8, rfl⟩, rfl⟩, rfl⟩
    obtain ⟨sets, rfl, h3'⟩ := each_exists.1 h3
    have := PreviousCrash.mk (rest := rest) hm (by simpa using h1) (by simpa using h2) h3' h4 h5 h6 h7 h8
    simpa only [List.append_assoc] using this
  · rintro ⟨hm, h1, h2, h3, h4, h5, h6, h7, h8⟩
    rename_i count n start sets ivs sid data1 data2 rest
    exact ⟨count, _, _, ⟨by simpa using h1, rfl⟩, ⟨sets.map wireEntry, data1, _, by simpa using h2, each_exists.2 ⟨sets, rfl, h3⟩,
      ⟨sid, n, ivs, data2, start, rest, hm, h4, h5, h6, h7, h8, rfl⟩, rfl⟩, by simp⟩

/-! ## Format description -/

theorem crash_formatRest (m : Mode) (header : EventHeader) (version : Nat) (server : RStr) :
    Faults .crash (formatRest m header version server) (fun t => m.checks = true ∧ header.eventLength % 256 < 19 ∧ 20 ≤ t.length) := by
  unfold formatRest
  have h3 : ∀ own exp : Nat, Faults .crash (if own ≠ exp then do
      let skip : Int := (own : Int) - EVENT_TYPES_OFFSET - FORMAT_DESCRIPTION_CODE
      P.seekCur skip
      let code ← P.u8
      let checksumType ← P.lift (ChecksumType.fromCode code)
      return { binlogVersion := version, serverVersion := server, checksumType }
    else
      return ({ binlogVersion := version, serverVersion := server, checksumType := .none } : FormatDescriptionEvent)) (fun _ => False) := by
    intro own exp
    refine Faults.safe (Q := fun _ _ => True) fun buf => Safe.ite ?_ (Safe.pure trivial)
    exact (Safe.seek buf _).bind fun _ _ => (Safe.u8 buf).bind fun c _ =>
      (Safe.lift (Q := fun _ => True) (checksumType_ne_panic c) fun _ _ => trivial).bind fun _ _ => Safe.pure trivial
  have h2 := Faults.then Exact.u8 crash_u8 fun own => Faults.bind (Exact.lift (subU m 8 (header.eventLength % 256) EVENT_HEADER_SIZE))
    (Faults.lift .crash _) fun exp => h3 own exp
  refine Faults.cast ((h2.seek 14).seek 5) fun t => ?_
  have hsub : subU m 8 (header.eventLength % 256) EVENT_HEADER_SIZE = Fault.as .crash ↔ m.checks = true ∧ header.eventLength % 256 < 19 := by
    unfold subU EVENT_HEADER_SIZE Fault.as
    by_cases h : 19 ≤ header.eventLength % 256
    · rw [if_pos h]; simp; omega
    · rw [if_neg h]
      cases m.checks <;> simp; omega
  simp only [hsub, List.drop_drop, and_false, false_and, exists_false, or_false]
  constructor
  · rintro ⟨own, _, t1, ⟨h1, rfl⟩, ⟨hm, hl⟩, ht⟩
    have := congrArg List.length ht
    simp at this
    exact ⟨hm, hl, by omega⟩
  · rintro ⟨hm, hl, hlen⟩
    have hlt : 19 < t.length := by omega
    refine ⟨t[19].toNat, _, t.drop 20, ⟨t[19].toNat_lt, rfl⟩, ⟨hm, hl⟩, ?_⟩
    rw [show le 1 t[19].toNat = [t[19]] by simp [le], List.drop_eq_getElem_cons hlt]
    rfl

theorem crash_format (m : Mode) (header : EventHeader) : Faults .crash (parseFormatDescription m header) (FormatCrash m header.eventLength) := by
  rw [parseFormat_eq]
  refine (Faults.then (Exact.uLE 2) (crash_uLE 2) fun version => Faults.then (Exact.readExact 50) (crash_readExact 50)
    (K2 := fun raw t => (∃ server, raw.takeWhile (· != 0) = utf8Bytes server) ∧ m.checks = true ∧ header.eventLength % 256 < 19 ∧
      20 ≤ t.length) fun raw => ?_).cast fun t => ?_
  · cases hd : utf8Decode (raw.takeWhile (· != 0)) with
    | none =>
      refine (Faults.fail .crash _).cast fun t => ?_
      simp only [false_iff]
      rintro ⟨⟨server, hs⟩, _⟩
      rw [utf8Decode_eq_some_iff.2 hs] at hd
      cases hd
    | some server =>
      refine (crash_formatRest m header version server).cast fun t => ?_
      constructor
      · intro h; exact ⟨⟨server, utf8Decode_eq_some_iff.1 hd⟩, h⟩
      · exact fun h => h.2
  · constructor
    · rintro ⟨version, _, _, ⟨h1, rfl⟩, ⟨raw, _, rest, ⟨h2, rfl⟩, ⟨⟨server, hs⟩, hm, hl, h5⟩, rfl⟩, rfl⟩
      obtain ⟨pad, rfl, h3, h4⟩ := takeWhile_server.1 hs
      have := FormatCrash.mk hm hl (by simpa using h1) h3 h4 (by simpa using h2) h5
      simpa only [List.append_assoc] using this
    · rintro ⟨hm, hl, h1, h2, h3, h4, h5⟩
      rename_i version server pad rest
      exact ⟨version, _, _, ⟨by simpa using h1, rfl⟩, ⟨_, _, rest, ⟨by simpa using h4, rfl⟩,
        ⟨⟨server, takeWhile_server.2 ⟨pad, rfl, h2, h3⟩⟩, hm, hl, h5⟩, rfl⟩, by simp⟩

/-! ## Table maps -/

theorem hugeText_ne : ¬HugeText [] := by
  rintro ⟨n, l, rest, h, _, he⟩
  exact LenEnc_ne_nil h (List.append_eq_nil_iff.1 he.symm).1

theorem crash_stringArray : Faults .crash parseStringArray (AfterSome Text HugeText) :=
  Faults.whileStep Exact.lenEncStr crash_lenEncStr (fun _ h => (text_parses h).2 rfl) hugeText_ne

theorem hugeValues_ne : ¬HugeValues [] := by
  rintro ⟨n, l, names, e, t1, h, _, _, _, he⟩
  rw [List.append_assoc] at he
  exact LenEnc_ne_nil h (List.append_eq_nil_iff.1 he.symm).1

theorem crash_typeValues : Faults .crash parseTypeValues (AfterSome Values HugeValues) := by
  refine Faults.whileStep exact_values ?_ (fun _ h => (values_parses h).2 rfl) hugeValues_ne
  refine (Faults.then Exact.lenEncNum crash_lenEncNum fun n => Faults.times Exact.lenEncStr crash_lenEncStr n).cast fun t => ?_
  constructor
  · rintro ⟨n, l, _, h1, ⟨names, e, t1, h2, h3, h4, rfl⟩, rfl⟩; exact ⟨n, l, names, e, t1, h1, h2, h3, h4, by simp⟩
  · rintro ⟨n, l, names, e, t1, h1, h2, h3, h4, rfl⟩; exact ⟨n, l, _, h1, ⟨names, e, t1, h2, h3, h4, rfl⟩, by simp⟩

theorem crash_intArray : Faults .crash parseIntArray (fun _ => False) :=
  (Faults.whileStep exact_looseNum (crash_lenEncNum.map asU32) (fun _ ⟨_, h, _⟩ => LenEnc_ne_nil h rfl) id).cast fun t => by
    simp [AfterSome]

theorem crash_intMap : Faults .crash parseIntMap (fun _ => False) := by
  refine (Faults.whileStep exact_loosePair (K := fun _ => False) ?_ (fun _ => loosePair_ne) id).cast fun t => by simp [AfterSome]
  exact (Faults.then Exact.lenEncNum crash_lenEncNum fun a => crash_lenEncNum.map fun b => (asU32 a, asU32 b)).cast fun t => by simp

theorem crash_charset : Faults .crash parseDefaultCharset (fun _ => False) :=
  (Faults.then Exact.lenEncNum crash_lenEncNum fun a => crash_intMap.map fun cs => DefaultCharset.mk (asU32 a) cs).cast fun t => by simp

theorem crash_bitmapRev {n : Nat} (h : n < 2 ^ 63) : Faults .crash (readBitmapReverted n) (fun _ => False) :=
  Faults.safe fun _ => Safe.bitmapRev h

theorem crash_run_lift {α β : Type} {p : P α} {K : Bytes → Prop} (h : Faults .crash p K) (payload : Bytes) (g : α → β) :
    Faults .crash (P.lift (p.run payload) >>= fun v => Pure.pure (g v)) (fun _ => K payload) :=
  ((Faults.lift .crash (p.run payload)).map g).cast fun _ => h.run payload

theorem metadataCode {code : Nat} : (∃ mt, MetadataType.fromCode code = .ok mt) ↔ 1 ≤ code ∧ code ≤ 12 := by
  constructor
  · rintro ⟨mt, h⟩
    unfold MetadataType.fromCode at h
    split at h <;> first | omega | cases h
  · rintro ⟨h1, h2⟩
    obtain rfl | rfl | rfl | rfl | rfl | rfl | rfl | rfl | rfl | rfl | rfl | rfl : code = 1 ∨ code = 2 ∨ code = 3 ∨ code = 4 ∨ code = 5 ∨
      code = 6 ∨ code = 7 ∨ code = 8 ∨ code = 9 ∨ code = 10 ∨ code = 11 ∨ code = 12 := by omega
    all_goals exact ⟨_, rfl⟩

theorem payloadCrash_code {code : UInt8} {payload : Bytes} (h : PayloadCrash code payload) :
    1 ≤ code.toNat ∧ code.toNat ≤ 12 := by cases h <;> decide

theorem crash_field {types : Bytes} (ht : ∀ t ∈ types, ∃ l, metaLayout t = some l) (hlen : types.length < 2 ^ 63) :
    Faults .crash (parseMetadataField types) FieldCrash := by
  have hnum : (types.filter isNumeric).length ≤ types.length := List.length_filter_le _ _
  have key : ∀ code mt (payload : Bytes), MetadataType.fromCode code = .ok mt → Faults .crash (match mt with
      | .signedness => (do
        let count ← P.lift (numericColumnCount types)
        let v ← P.lift ((readBitmapReverted count).run payload)
        return fun t : TableMetadata => { t with signedness := some v } : P (TableMetadata → TableMetadata))
      | .defaultCharset => do
        let v ← P.lift (parseDefaultCharset.run payload)
        return fun t => { t with defaultCharset := some v }
      | .columnCharset => do
        let v ← P.lift (parseIntArray.run payload)
        return fun t => { t with columnCharsets := some v }
      | .columnName => do
        let v ← P.lift (parseStringArray.run payload)
        return fun t => { t with columnNames := some v }
      | .setStrValue => do
        let v ← P.lift (parseTypeValues.run payload)
        return fun t => { t with setStringValues := some v }
      | .enumStrValue => do
        let v ← P.lift (parseTypeValues.run payload)
        return fun t => { t with enumStringValues := some v }
      | .geometryType => do
        let v ← P.lift (parseIntArray.run payload)
        return fun t => { t with geometryTypes := some v }
      | .simplePrimaryKey => do
        let v ← P.lift (parseIntArray.run payload)
        return fun t => { t with simplePrimaryKeys := some v }
      | .primaryKeyWithPrefix => do
        let v ← P.lift (parseIntMap.run payload)
        return fun t => { t with primaryKeysWithPrefix := some v }
      | .enumAndSetDefaultCharset => do
        let v ← P.lift (parseDefaultCharset.run payload)
        return fun t => { t with enumAndSetDefaultCharset := some v }
      | .enumAndSetColumnCharset => do
        let v ← P.lift (parseIntArray.run payload)
        return fun t => { t with enumAndSetColumnCharsets := some v }
      | .columnVisibility => do
        let v ← P.lift ((readBitmapReverted types.length).run payload)
        return fun t => { t with columnVisibility := some v })
      (fun _ => PayloadCrash (UInt8.ofNat code) payload) := by
    intro code mt payload hc
    unfold MetadataType.fromCode at hc
    split at hc <;> simp only [Res.ok.injEq, reduceCtorEq] at hc <;> subst hc
    · simp only [numericColumnCount_ok ht, lift_ok_bind]
      exact (crash_run_lift (crash_bitmapRev (by omega)) payload _).cast fun t => ⟨False.elim, fun h => by cases h⟩
    · exact (crash_run_lift crash_charset payload _).cast fun t => ⟨False.elim, fun h => by cases h⟩
    · exact (crash_run_lift crash_intArray payload _).cast fun t => ⟨False.elim, fun h => by cases h⟩
    · exact (crash_run_lift crash_stringArray payload _).cast fun t => ⟨.names, fun h => by cases h with | names h => exact h⟩
    · exact (crash_run_lift crash_typeValues payload _).cast fun t => ⟨.setValues, fun h => by cases h with | setValues h => exact h⟩
    · exact (crash_run_lift crash_typeValues payload _).cast fun t => ⟨.enumValues, fun h => by cases h with | enumValues h => exact h⟩
    · exact (crash_run_lift crash_intArray payload _).cast fun t => ⟨False.elim, fun h => by cases h⟩
    · exact (crash_run_lift crash_intArray payload _).cast fun t => ⟨False.elim, fun h => by cases h⟩
    · exact (crash_run_lift crash_intMap payload _).cast fun t => ⟨False.elim, fun h => by cases h⟩
    · exact (crash_run_lift crash_charset payload _).cast fun t => ⟨False.elim, fun h => by cases h⟩
    · exact (crash_run_lift crash_intArray payload _).cast fun t => ⟨False.elim, fun h => by cases h⟩
    · exact (crash_run_lift (crash_bitmapRev hlen) payload _).cast fun t => ⟨False.elim, fun h => by cases h⟩
  unfold parseMetadataField
  refine (Faults.then Exact.u8 crash_u8 fun code => Faults.bindOf (Exact.lift (MetadataType.fromCode code)) (Faults.lift .crash _)
    fun mt _ hmt => Faults.then Exact.lenEncNum crash_lenEncNum fun n => Faults.bind (Exact.readVec n) (crash_readVec n) fun payload =>
    key code mt payload hmt.1).cast fun t => ?_
  constructor
  · rintro ⟨code, _, _, ⟨h1, rfl⟩, h | ⟨mt, _, _, ⟨h2, rfl⟩, ⟨n, len, _, h3, h4, rfl⟩, rfl⟩, rfl⟩
    · exact absurd h (metadataType_ne_panic code)
    · have hcode : (UInt8.ofNat code).toNat = code := by simp; omega
      rw [show le 1 code = [UInt8.ofNat code] by simp [le]]
      rcases h4 with h4 | ⟨_, payload, rest, ⟨h4, rfl, rfl⟩, h5, rfl⟩
      · have := FieldCrash.huge (code := UInt8.ofNat code) (rest := by assumption) (by rw [hcode]; exact metadataCode.1 ⟨mt, h2⟩) h3 h4
        simpa using this
      · have := FieldCrash.payload (rest := rest) h3 h4 h5
        simpa using this
  · intro h
    cases h with
    | @huge code n len rest hc hl hn =>
      obtain ⟨mt, hmt⟩ := metadataCode.2 hc
      exact ⟨code.toNat, _, _, ⟨code.toNat_lt, rfl⟩, .inr ⟨mt, _, _, ⟨hmt, rfl⟩, ⟨n, len, rest, hl, .inl hn, rfl⟩, rfl⟩, by simp [le]⟩
    | @payload code len payload rest hl hn h =>
      obtain ⟨mt, hmt⟩ := metadataCode.2 (payloadCrash_code h)
      exact ⟨code.toNat, _, _, ⟨code.toNat_lt, rfl⟩, .inr ⟨mt, _, _, ⟨hmt, rfl⟩, ⟨_, len, _, hl, .inr ⟨payload, payload, rest, ⟨hn, rfl, rfl⟩,
        by simpa using h, rfl⟩, rfl⟩, rfl⟩, by simp [le]⟩

theorem fieldCrash_ne : ¬FieldCrash [] := by
  intro h
  generalize hz : ([] : Bytes) = z at h
  cases h <;> simp at hz

theorem crash_tableMetadata {types : Bytes} (ht : ∀ t ∈ types, ∃ l, metaLayout t = some l) (hlen : types.length < 2 ^ 63) :
    Faults .crash (parseTableMetadata types) (AfterSome (LooseField types) FieldCrash) := by
  unfold parseTableMetadata
  refine ((Faults.whileStep (exact_field ht hlen) (crash_field ht hlen) ?_ fieldCrash_ne).map _).cast fun t => ?_
  · rintro f ⟨field, _, code, len, payload, _, _, _, h⟩
    cases h
  · unfold AfterSome
    simp only [each_ofMap]
    constructor
    · rintro ⟨_, e, t1, ⟨fields, rfl, h⟩, hk, rfl⟩; exact ⟨fields, e, t1, h, hk, rfl⟩
    · rintro ⟨fields, e, t1, h, hk, rfl⟩; exact ⟨_, e, t1, ⟨fields, rfl, h⟩, hk, rfl⟩

theorem afterSome_ne {α : Type} {R : α → Bytes → Prop} {K : Bytes → Prop} (hK : ¬K []) : ¬AfterSome R K [] := by
  rintro ⟨vs, e, t1, _, hk, he⟩
  exact hK ((List.append_eq_nil_iff.1 he.symm).2 ▸ hk)

theorem crash_tableMap : Faults .crash parseTableMap TableMapCrash := by
  unfold parseTableMap parseMetadata
  have h6 : ∀ (tableId : Nat) (db table : RStr) (types : Bytes) (ms : List Nat) (nulls : List Bool)
      (_ : ∀ t ∈ types, ∃ l, metaLayout t = some l) (_ : types.length < 2 ^ 63), Faults .crash (do
        let more ← P.hasData
        if more then
          let tableMetadata ← parseTableMetadata types
          return { tableId, databaseName := db, tableName := table, columnTypes := types, columnMetadata := ms, nullBitmap := nulls,
                   tableMetadata := some tableMetadata }
        else
          return ({ tableId, databaseName := db, tableName := table, columnTypes := types, columnMetadata := ms, nullBitmap := nulls,
                    tableMetadata := none } : TableMapEvent))
        (AfterSome (LooseField types) FieldCrash) := by
    intro tableId db table types ms nulls ht hlen
    refine (Faults.hasData fun b => Faults.ite (fun _ => (crash_tableMetadata ht hlen).map _)
      fun _ => Faults.ret .crash _).cast fun opt => ?_
    cases opt with
    | nil => simp [afterSome_ne (R := LooseField types) fieldCrash_ne]
    | cons o os => simp
  have h5 := fun (tableId : Nat) (db table : RStr) => Faults.then Exact.lenEncNum crash_lenEncNum fun n =>
    Faults.bindOf (Exact.readVec n) (crash_readVec n) fun types e2 (hR : _ ∧ _ ∧ _) =>
    Faults.then Exact.lenEncNum crash_lenEncNum fun _ => Faults.thenOf (Exact.forEach exact_columnMeta types)
      (Faults.safe (Q := fun _ _ => True) fun buf => (Safe.forEach types fun x => Safe.columnMetadata buf x).imp fun _ _ => trivial) fun ms e3 hm =>
    Faults.bind (Exact.bitmapLE n) (crash_bitmapLE n) fun nulls => h6 tableId db table types ms nulls
      (by obtain ⟨ps, rfl, _, h⟩ := hm; exact columnMeta_known h) (by rw [hR.2.1]; exact hR.1)
  have n5 : ∀ {K : Nat → Bytes → Prop}, ¬∃ (n : Nat) (e t1 : Bytes), LenEnc n e ∧ K n t1 ∧ ([] : Bytes) = e ++ t1 := by
    rintro K ⟨n, e1, e2, h, _, he⟩
    obtain ⟨rfl, _⟩ := List.append_eq_nil_iff.1 he.symm
    exact LenEnc_ne_nil h rfl
  have n3 : ∀ {K : Nat → Bytes → Prop}, ¬∃ (n : Nat) (e t1 : Bytes), (n < 2 ^ 8 ∧ e = le 1 n) ∧ K n t1 ∧ ([] : Bytes) = e ++ t1 := by
    rintro K ⟨n, e1, e2, ⟨_, rfl⟩, _, he⟩; simp [le] at he
  have h4 := fun (tableId : Nat) (db : RStr) => Faults.thenOf Exact.u8 crash_u8 fun n e (hn : _ ∧ _) =>
    Faults.thenOf (Exact.readString n) ((crash_readString n).cast (L := fun _ => False) fun t => by simp; omega) fun table _ _ =>
    (h5 tableId db table).skip n5 1
  have h3 := fun (tableId : Nat) => Faults.thenOf Exact.u8 crash_u8 fun n e (hn : _ ∧ _) =>
    Faults.thenOf (Exact.readString n) ((crash_readString n).cast (L := fun _ => False) fun t => by simp; omega) fun db _ _ =>
    (h4 tableId db).skip n3 1
  have h2 := Faults.then (Exact.uLE 6) (crash_uLE 6) fun tableId => (h3 tableId).skip n3 2
  refine Faults.cast h2 fun body => ?_
  constructor
  · rintro ⟨tableId, _, _, ⟨g1, rfl⟩, ⟨flags, _, g2, ⟨dbn, _, _, ⟨g3, rfl⟩, ⟨db, _, _, ⟨_, rfl, rfl⟩, ⟨z1, _, gz1, ⟨tn, _, _, ⟨g4, rfl⟩,
      ⟨table, _, _, ⟨_, rfl, rfl⟩, ⟨z2, _, gz2, ⟨n, count, rest, g5, g6, rfl⟩, rfl⟩, rfl⟩, rfl⟩, rfl⟩, rfl⟩, rfl⟩, rfl⟩, rfl⟩
    obtain ⟨z1, rfl⟩ := List.length_eq_one_iff.1 gz1
    obtain ⟨z2, rfl⟩ := List.length_eq_one_iff.1 gz2
    rcases g6 with hn | ⟨types, _, _, ⟨g5', g5'', rfl⟩, ⟨ms, ml, _, g6, ⟨_, cm, _, ⟨ps, rfl, rfl, g7⟩, hk, rfl⟩, rfl⟩, rfl⟩
    · have := TableMapCrash.columns (z1 := z1) (z2 := z2) (rest := rest) g1 g2 g3 g4 g5 hn
      simpa only [List.append_assoc] using this
    · rw [List.length_map] at g5''
      subst g5''
      rcases hk with hk | ⟨nulls, bm, opt, ⟨_, g8, g9⟩, g10, rfl⟩
      · omega
      · have := TableMapCrash.metadata (z1 := z1) (z2 := z2) g1 g2 g3 g4 g5 g5' g7 g6 g8 g9 g10
        simpa only [List.append_assoc] using this
  · rintro (⟨g1, g2, g3, g4, g5, hn⟩ | ⟨g1, g2, g3, g4, g5, g5', g6, g8, g9, g10, g11⟩)
    · rename_i tableId n flags count rest db table z1 z2
      refine ⟨tableId, _, _, ⟨g1, rfl⟩, ⟨flags, _, g2, ⟨_, _, _, ⟨g3, rfl⟩, ⟨db, _, _, ⟨by omega, rfl, rfl⟩, ⟨[z1], _, rfl, ⟨_, _, _, ⟨g4, rfl⟩,
        ⟨table, _, _, ⟨by omega, rfl, rfl⟩, ⟨[z2], _, rfl, ⟨_, count, rest, g5, .inl hn, rfl⟩, rfl⟩, rfl⟩, rfl⟩, rfl⟩, rfl⟩, rfl⟩, rfl⟩, ?_⟩
      simp only [List.append_assoc]
    · rename_i tableId metaSize flags db table columns nulls z1 z2 count ml cm bm opt
      refine ⟨tableId, _, _, ⟨g1, rfl⟩, ⟨flags, _, g2, ⟨_, _, _, ⟨g3, rfl⟩, ⟨db, _, _, ⟨by omega, rfl, rfl⟩, ⟨[z1], _, rfl, ⟨_, _, _, ⟨g4, rfl⟩,
        ⟨table, _, _, ⟨by omega, rfl, rfl⟩, ⟨[z2], _, rfl, ⟨_, count, _, g5, .inr ⟨_, _, _, ⟨g5', by simp, rfl⟩, ⟨_, ml, _, g8, ⟨_, cm, _,
        ⟨columns, rfl, rfl, g6⟩, .inr ⟨nulls, bm, opt, ⟨g5', g9, g10⟩, g11, rfl⟩, rfl⟩, rfl⟩, rfl⟩, rfl⟩, rfl⟩, rfl⟩, rfl⟩, rfl⟩, rfl⟩, rfl⟩, rfl⟩, ?_⟩
      simp only [List.append_assoc]

end MysqlCdc
