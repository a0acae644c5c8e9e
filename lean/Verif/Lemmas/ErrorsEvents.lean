import Verif.Lemmas.FaultsEvents
import Verif.Spec.Errors
/-!
# With which error events other than row events are refused
-/

namespace MysqlCdc

open Spec

/-- `p` fails with the end of the bytes only. -/
def EndsOnly {α : Type} (p : P α) : Prop := ∀ buf pos e, p buf pos = .err e → e = .io .unexpectedEof

theorem EndsOnly.faults {α : Type} {p : P α} (h : EndsOnly p) {e : Err} (he : e ≠ .io .unexpectedEof) : Faults (.error e) p (fun _ => False) :=
  Faults.never fun buf pos hp => he (h buf pos e hp)

theorem EndsOnly.ret {α : Type} (a : α) : EndsOnly (Pure.pure a : P α) := fun _ _ _ h => nomatch h

theorem EndsOnly.panic {α : Type} : EndsOnly (P.panic : P α) := fun _ _ _ h => nomatch h

theorem EndsOnly.lift {α : Type} {r : Res α} (h : ∀ e, r = .err e → e = .io .unexpectedEof) : EndsOnly (P.lift r) := by
  intro buf pos e he
  cases r with
  | err e' => exact h e (by simpa [P.lift] using he)
  | _ => simp [P.lift] at he

theorem EndsOnly.bind {α β : Type} {p : P α} {f : α → P β} (h1 : EndsOnly p) (h2 : ∀ a, EndsOnly (f a)) : EndsOnly (p >>= f) := by
  intro buf pos e he
  rw [P.seq_apply] at he
  cases hp : p buf pos with
  | ok x => rw [hp] at he; exact h2 _ _ _ _ he
  | err e' => rw [hp] at he; simp only [Res.bind, Res.err.injEq] at he; exact he ▸ h1 _ _ _ hp
  | panic => rw [hp] at he; cases he
  | hang => rw [hp] at he; cases he

theorem EndsOnly.map {α β : Type} {p : P α} (h : EndsOnly p) (f : α → β) : EndsOnly (p >>= fun a => Pure.pure (f a)) := h.bind fun _ => EndsOnly.ret _

theorem EndsOnly.ite {α : Type} {c : Prop} [Decidable c] {p q : P α} (h1 : EndsOnly p) (h2 : EndsOnly q) : EndsOnly (if c then p else q) := by
  split <;> assumption

theorem EndsOnly.run {α : Type} {p : P α} (h : EndsOnly p) {bs : Bytes} {e : Err} (he : p.run bs = .err e) : e = .io .unexpectedEof := by
  unfold P.run at he
  cases hp : p bs 0 with
  | ok x => rw [hp] at he; cases he
  | err e' => rw [hp] at he; simp only [Res.err.injEq] at he; exact he ▸ h _ _ _ hp
  | panic => rw [hp] at he; cases he
  | hang => rw [hp] at he; cases he

theorem EndsOnly.times {α : Type} {p : P α} (h : EndsOnly p) (n : Nat) : EndsOnly (P.times n p) := by
  induction n with
  | zero => exact EndsOnly.ret _
  | succ n ih => exact h.bind fun _ => ih.map _

theorem ends_readExact (n : Nat) : EndsOnly (P.readExact n) := by
  intro buf pos e he
  unfold P.readExact at he
  split at he
  · cases he
  · exact (Res.err.inj he).symm

theorem ends_alloc (n : Nat) : EndsOnly (P.lift (allocZeroed n)) := EndsOnly.lift fun e h => by
  unfold allocZeroed at h
  split at h <;> cases h

theorem ends_readVec (n : Nat) : EndsOnly (P.readVec n) := (ends_alloc n).bind fun _ => ends_readExact n
theorem ends_uLE (n : Nat) : EndsOnly (P.uLE n) := (ends_readExact n).map _
theorem ends_uBE (n : Nat) : EndsOnly (P.uBE n) := (ends_readExact n).map _
theorem ends_u8 : EndsOnly P.u8 := ends_uLE 1

theorem ends_uintLE (w : Nat) : EndsOnly (P.uintLE w) := by
  unfold P.uintLE
  exact EndsOnly.ite EndsOnly.panic (EndsOnly.bind (ends_readExact w) fun _ => EndsOnly.ite EndsOnly.panic (EndsOnly.ret _))

theorem ends_uintBE (w : Nat) : EndsOnly (P.uintBE w) := by
  unfold P.uintBE
  exact EndsOnly.ite EndsOnly.panic (EndsOnly.bind (ends_readExact w) fun _ => EndsOnly.ite EndsOnly.panic (EndsOnly.ret _))

theorem ends_bitmapLoop {set : Nat → UInt8 → List Bool → Res (List Bool)} (h : ∀ i v r e, set i v r ≠ .err e) (is : List Nat) (r : List Bool) :
    EndsOnly (bitmapLoop set is r) := by
  induction is generalizing r with
  | nil => exact EndsOnly.ret _
  | cons i is ih => exact ends_u8.bind fun _ => (EndsOnly.lift fun e he => absurd he (h _ _ _ _)).bind fun _ => ih _

theorem setBitsLE_ne_err (bits i : Nat) (v : UInt8) (ys : List Nat) (r : List Bool) (e : Err) : setBitsLE bits i v ys r ≠ .err e := by
  induction ys generalizing r with
  | nil => simp [setBitsLE]
  | cons y ys ih => unfold setBitsLE; dsimp only; split <;> [simp; (split <;> [exact ih _; simp])]

theorem setBitsBE_ne_err (bits k i : Nat) (v : UInt8) (ys : List Nat) (r : List Bool) (e : Err) : setBitsBE bits k i v ys r ≠ .err e := by
  induction ys generalizing r with
  | nil => simp [setBitsBE]
  | cons y ys ih => unfold setBitsBE; dsimp only; split <;> [exact ih _; (split <;> [exact ih _; simp])]

theorem setBitsRev_ne_err (bits i : Nat) (v : UInt8) (ys : List Nat) (r : List Bool) (e : Err) : setBitsRev bits i v ys r ≠ .err e := by
  induction ys generalizing r with
  | nil => simp [setBitsRev]
  | cons y ys ih => unfold setBitsRev; dsimp only; split <;> [simp; (split <;> [exact ih _; simp])]

theorem ends_bitmapLE (n : Nat) : EndsOnly (readBitmapLittleEndian n) :=
  (ends_alloc n).bind fun _ => ends_bitmapLoop (fun _ _ _ _ => setBitsLE_ne_err _ _ _ _ _ _) _ _
theorem ends_bitmapBE (n : Nat) : EndsOnly (readBitmapBigEndian n) :=
  (ends_alloc n).bind fun _ => ends_bitmapLoop (fun _ _ _ _ => setBitsBE_ne_err _ _ _ _ _ _ _) _ _
theorem ends_bitmapRev (n : Nat) : EndsOnly (readBitmapReverted n) :=
  (ends_alloc n).bind fun _ => ends_bitmapLoop (fun _ _ _ _ => setBitsRev_ne_err _ _ _ _ _ _) _ _

theorem subU_ne_err (m : Mode) (w a b : Nat) (e : Err) : subU m w a b ≠ .err e := by
  unfold subU; split <;> [simp; (split <;> simp)]

theorem addU_ne_err (m : Mode) (w a b : Nat) (e : Err) : addU m w a b ≠ .err e := by
  unfold addU; split <;> [simp; (split <;> simp)]

/-! ## Numbers and texts -/

theorem notText_iff {t : Bytes} : NotText t ↔ utf8Decode t = none := by
  unfold NotText
  cases h : utf8Decode t with
  | none => simp only [iff_true]; intro s hs; rw [utf8Decode_eq_some_iff.2 hs] at h; cases h
  | some s => simp only [reduceCtorEq, iff_false]; intro hn; exact hn s (utf8Decode_eq_some_iff.1 h)

theorem notText_ne : ¬NotText [] := fun h => h [] rfl

theorem fromUtf8_err {t : Bytes} {e : Err} : fromUtf8 t = .err e ↔ e = .fromUtf8 ∧ NotText t := by
  rw [notText_iff]
  unfold fromUtf8
  cases utf8Decode t <;> simp [eq_comm]

theorem numError_ne {e : Err} : ¬NumError e [] := fun h => nomatch h

variable {e : Err} (he : e ≠ .io .unexpectedEof)
include he

theorem err_lenEncNum : Faults (.error e) readLenEncNum (NumError e) := by
  unfold readLenEncNum
  have hfail : ∀ s, Faults (.error e) (P.fail (.str s) : P Nat) (fun _ => e = .str s) := by
    intro s buf pos
    simp [P.fail, Fault.as, eq_comm]
  refine (Faults.then Exact.u8 (ends_u8.faults he) fun a => Faults.ite (fun _ => Faults.ret _ _) fun _ => Faults.ite (fun _ => hfail _)
    fun _ => Faults.ite (fun _ => (ends_uLE 2).faults he) fun _ => Faults.ite (fun _ => (ends_uLE 3).faults he) fun _ =>
    Faults.ite (fun _ => (ends_uLE 8).faults he) fun _ => hfail _).cast fun t => ?_
  simp only [and_false, false_or]
  constructor
  · rintro ⟨a, _, t1, ⟨ha, rfl⟩, ⟨_, h⟩, rfl⟩
    rcases h with ⟨rfl, rfl⟩ | ⟨h1, h2, h3, h4, rfl⟩
    · exact .null
    · obtain rfl : a = 0xFF := by omega
      exact .marker
  · rintro (_ | _)
    · exact ⟨0xFB, _, _, ⟨by decide, rfl⟩, ⟨by decide, .inl ⟨rfl, rfl⟩⟩, rfl⟩
    · exact ⟨0xFF, _, _, ⟨by decide, rfl⟩, ⟨by decide, .inr ⟨by decide, by decide, by decide, by decide, rfl⟩⟩, rfl⟩

theorem err_readString (n : Nat) : Faults (.error e) (readString n) (TextError n e) := by
  refine (Faults.then (Exact.readVec n) ((ends_readVec n).faults he) fun v => Faults.lift _ (fromUtf8 v)).cast fun t => ?_
  simp only [Fault.as, fromUtf8_err]
  constructor
  · rintro ⟨v, _, t1, ⟨h1, h2, rfl⟩, ⟨rfl, h3⟩, rfl⟩; exact .mk h2 h1 h3
  · rintro ⟨h1, h2, h3⟩; exact ⟨_, _, _, ⟨h2, h1, rfl⟩, ⟨rfl, h3⟩, rfl⟩

theorem err_lenEncStr : Faults (.error e) readLenEncStr (CountedError e) := by
  refine (Faults.bind Exact.lenEncNum (err_lenEncNum he) fun n => err_readString he n).cast fun t => ?_
  constructor
  · rintro (h | ⟨n, l, t1, h1, h2, rfl⟩)
    · exact .count h
    · exact .text h1 h2
  · rintro (h | ⟨h1, h2⟩)
    · exact .inl h
    · exact .inr ⟨_, _, _, h1, h2, rfl⟩

omit he in
theorem err_toString : Faults (.error e) readToString (TailError e) := by
  intro buf pos
  unfold readToString
  rw [P.seq_apply]
  simp only [P.rest, Res.bind, Fault.as]
  cases h : utf8Decode (buf.drop pos) with
  | none =>
    simp only [P.fail, Res.err.injEq]
    exact ⟨fun h' => h' ▸ .mk (notText_iff.2 h), fun ⟨_⟩ => rfl⟩
  | some s =>
    simp only [P.ret_apply, reduceCtorEq, false_iff]
    rintro ⟨h'⟩
    rw [notText_iff.1 h'] at h; cases h

omit he in
theorem countedError_ne : ¬CountedError e [] := by
  intro h
  generalize hz : ([] : Bytes) = z at h
  cases h with
  | count h => subst hz; exact numError_ne h
  | text hl _ => exact LenEnc_ne_nil hl (List.append_eq_nil_iff.1 hz.symm).1

omit he in
theorem pairError_ne : ¬PairError e [] := by
  intro h
  generalize hz : ([] : Bytes) = z at h
  cases h with
  | key h => subst hz; exact numError_ne h
  | value hl _ => exact LenEnc_ne_nil hl (List.append_eq_nil_iff.1 hz.symm).1

omit he in
theorem valuesError_ne : ¬ValuesError e [] := by
  intro h
  generalize hz : ([] : Bytes) = z at h
  cases h with
  | count h => subst hz; exact numError_ne h
  | value hl _ _ _ => rw [List.append_assoc] at hz; exact LenEnc_ne_nil hl (List.append_eq_nil_iff.1 hz.symm).1

omit he in
theorem tailError_ne : ¬TailError e [] := fun ⟨h⟩ => notText_ne h

/-! ## Table maps -/

theorem err_stringArray : Faults (.error e) parseStringArray (AfterSome Text (CountedError e)) :=
  Faults.whileStep Exact.lenEncStr (err_lenEncStr he) (fun _ h => (text_parses h).2 rfl) countedError_ne

theorem err_typeValues : Faults (.error e) parseTypeValues (AfterSome Values (ValuesError e)) := by
  refine Faults.whileStep exact_values ?_ (fun _ h => (values_parses h).2 rfl) valuesError_ne
  refine (Faults.bind Exact.lenEncNum (err_lenEncNum he) fun n => Faults.times Exact.lenEncStr (err_lenEncStr he) n).cast fun t => ?_
  constructor
  · rintro (h | ⟨n, l, _, h1, ⟨names, e, t1, h2, h3, h4, rfl⟩, rfl⟩)
    · exact .count h
    · rw [← List.append_assoc]; exact .value h1 h2 h3 h4
  · rintro (h | ⟨h1, h2, h3, h4⟩)
    · exact .inl h
    · exact .inr ⟨_, _, _, h1, ⟨_, _, _, h2, h3, h4, rfl⟩, by simp⟩

theorem err_intArray : Faults (.error e) parseIntArray (AfterSome LooseNum (NumError e)) :=
  Faults.whileStep exact_looseNum ((err_lenEncNum he).map asU32) (fun _ ⟨_, h, _⟩ => LenEnc_ne_nil h rfl) numError_ne

theorem err_intMap : Faults (.error e) parseIntMap (AfterSome LoosePair (PairError e)) := by
  refine Faults.whileStep exact_loosePair ?_ (fun _ => loosePair_ne) pairError_ne
  refine (Faults.bind Exact.lenEncNum (err_lenEncNum he) fun a => (err_lenEncNum he).map fun b => (asU32 a, asU32 b)).cast fun t => ?_
  constructor
  · rintro (h | ⟨n, l, t1, h1, h2, rfl⟩)
    · exact .key h
    · exact .value h1 h2
  · rintro (h | ⟨h1, h2⟩)
    · exact .inl h
    · exact .inr ⟨_, _, _, h1, h2, rfl⟩

theorem err_charset : Faults (.error e) parseDefaultCharset (CharsetError e) := by
  refine (Faults.bind Exact.lenEncNum (err_lenEncNum he) fun a => (err_intMap he).map fun cs => DefaultCharset.mk (asU32 a) cs).cast fun t => ?_
  constructor
  · rintro (h | ⟨n, l, t1, h1, h2, rfl⟩)
    · exact .default h
    · exact .pair h1 h2
  · rintro (h | ⟨h1, h2⟩)
    · exact .inl h
    · exact .inr ⟨_, _, _, h1, h2, rfl⟩

omit he in
theorem err_run_lift {α β : Type} {p : P α} {K : Bytes → Prop} (h : Faults (.error e) p K) (payload : Bytes) (g : α → β) :
    Faults (.error e) (P.lift (p.run payload) >>= fun v => Pure.pure (g v)) (fun _ => K payload) :=
  ((Faults.lift (.error e) (p.run payload)).map g).cast fun _ => h.run payload

omit he in
theorem metadataCode_err {code : Nat} : MetadataType.fromCode code = .err e ↔
    e = .str "Table metadata type is not supported" ∧ (code = 0 ∨ 12 < code) := by
  by_cases h : 1 ≤ code ∧ code ≤ 12
  · obtain ⟨mt, hmt⟩ := metadataCode.2 h
    rw [hmt]
    simp only [reduceCtorEq, false_iff]
    omega
  · have : MetadataType.fromCode code = .err (.str "Table metadata type is not supported") := by
      unfold MetadataType.fromCode
      split <;> first | rfl | omega
    rw [this, Res.err.injEq]
    constructor
    · rintro rfl; exact ⟨rfl, by omega⟩
    · rintro ⟨rfl, _⟩; rfl

omit he in
theorem payloadError_code {code : UInt8} {payload : Bytes} (h : PayloadError e code payload) : 1 ≤ code.toNat ∧ code.toNat ≤ 12 := by
  cases h with
  | charset hc => simp at hc; rcases hc with rfl | rfl <;> decide
  | numbers hc => simp at hc; rcases hc with rfl | rfl | rfl | rfl <;> decide
  | names => decide
  | values hc => simp at hc; rcases hc with rfl | rfl <;> decide
  | pairs => decide

theorem err_field {types : Bytes} (ht : ∀ t ∈ types, ∃ l, metaLayout t = some l) :
    Faults (.error e) (parseMetadataField types) (FieldError e) := by
  have key : ∀ code mt (payload : Bytes), MetadataType.fromCode code = .ok mt → Faults (.error e) (match mt with
      | .signedness => (do
        let count ← P.lift (numericColumnCount types)
        let v ← P.lift ((readBitmapReverted count).run payload)
        return fun t : TableMetadata => { t with signedness := some v } : P (TableMetadata → TableMetadata))
      | .defaultCharset => do
        let v ← P.lift (parseDefaultCharset.run payload)
        return fun t => { t with defaultCharset := some v }
      | .columnCharset => do
        let v ← P.lift (parseIntArray.run payload)
        return fun t => { t with columnCharsets := some v }
      | .columnName => do
        let v ← P.lift (parseStringArray.run payload)
        return fun t => { t with columnNames := some v }
      | .setStrValue => do
        let v ← P.lift (parseTypeValues.run payload)
        return fun t => { t with setStringValues := some v }
      | .enumStrValue => do
        let v ← P.lift (parseTypeValues.run payload)
        return fun t => { t with enumStringValues := some v }
      | .geometryType => do
        let v ← P.lift (parseIntArray.run payload)
        return fun t => { t with geometryTypes := some v }
      | .simplePrimaryKey => do
        let v ← P.lift (parseIntArray.run payload)
        return fun t => { t with simplePrimaryKeys := some v }
      | .primaryKeyWithPrefix => do
        let v ← P.lift (parseIntMap.run payload)
        return fun t => { t with primaryKeysWithPrefix := some v }
      | .enumAndSetDefaultCharset => do
        let v ← P.lift (parseDefaultCharset.run payload)
        return fun t => { t with enumAndSetDefaultCharset := some v }
      | .enumAndSetColumnCharset => do
        let v ← P.lift (parseIntArray.run payload)
        return fun t => { t with enumAndSetColumnCharsets := some v }
      | .columnVisibility => do
        let v ← P.lift ((readBitmapReverted types.length).run payload)
        return fun t => { t with columnVisibility := some v })
      (fun _ => PayloadError e (UInt8.ofNat code) payload) := by
    intro code mt payload hc
    have chs : ∀ {code : UInt8}, code ∈ [2, 10] → (CharsetError e payload ↔ PayloadError e code payload) := by
      intro code hc
      refine ⟨.charset hc, fun h => ?_⟩
      simp only [List.mem_cons, List.not_mem_nil, or_false] at hc
      rcases hc with rfl | rfl <;> cases h <;> first | assumption | (rename_i h _; exact absurd h (by decide))
    have nums : ∀ {code : UInt8}, code ∈ [3, 7, 8, 11] → (AfterSome LooseNum (NumError e) payload ↔ PayloadError e code payload) := by
      intro code hc
      refine ⟨.numbers hc, fun h => ?_⟩
      simp only [List.mem_cons, List.not_mem_nil, or_false] at hc
      rcases hc with rfl | rfl | rfl | rfl <;> cases h <;> first | assumption | (rename_i h _; exact absurd h (by decide))
    have vals : ∀ {code : UInt8}, code ∈ [5, 6] → (AfterSome Values (ValuesError e) payload ↔ PayloadError e code payload) := by
      intro code hc
      refine ⟨.values hc, fun h => ?_⟩
      simp only [List.mem_cons, List.not_mem_nil, or_false] at hc
      rcases hc with rfl | rfl <;> cases h <;> first | assumption | (rename_i h _; exact absurd h (by decide))
    have bits : ∀ {code : UInt8}, code ∈ [1, 12] → ¬PayloadError e code payload := by
      intro code hc h
      simp only [List.mem_cons, List.not_mem_nil, or_false] at hc
      rcases hc with rfl | rfl <;> cases h <;> (rename_i h _; exact absurd h (by decide))
    unfold MetadataType.fromCode at hc
    split at hc <;> simp only [Res.ok.injEq, reduceCtorEq] at hc <;> subst hc
    · simp only [numericColumnCount_ok ht, lift_ok_bind]
      exact (err_run_lift ((ends_bitmapRev _).faults he) payload _).cast fun t => ⟨False.elim, bits (by decide)⟩
    · exact (err_run_lift (err_charset he) payload _).cast fun t => chs (by decide)
    · exact (err_run_lift (err_intArray he) payload _).cast fun t => nums (by decide)
    · refine (err_run_lift (err_stringArray he) payload _).cast fun t => ⟨.names, fun h => ?_⟩
      cases h <;> first | assumption | (rename_i h _; exact absurd h (by decide))
    · exact (err_run_lift (err_typeValues he) payload _).cast fun t => vals (by decide)
    · exact (err_run_lift (err_typeValues he) payload _).cast fun t => vals (by decide)
    · exact (err_run_lift (err_intArray he) payload _).cast fun t => nums (by decide)
    · exact (err_run_lift (err_intArray he) payload _).cast fun t => nums (by decide)
    · refine (err_run_lift (err_intMap he) payload _).cast fun t => ⟨.pairs, fun h => ?_⟩
      cases h <;> first | assumption | (rename_i h _; exact absurd h (by decide))
    · exact (err_run_lift (err_charset he) payload _).cast fun t => chs (by decide)
    · exact (err_run_lift (err_intArray he) payload _).cast fun t => nums (by decide)
    · exact (err_run_lift ((ends_bitmapRev _).faults he) payload _).cast fun t => ⟨False.elim, bits (by decide)⟩
  unfold parseMetadataField
  refine (Faults.then Exact.u8 (ends_u8.faults he) fun code => Faults.bindOf (Exact.lift (MetadataType.fromCode code)) (Faults.lift _ _)
    fun mt _ hmt => Faults.bind Exact.lenEncNum (err_lenEncNum he) fun n => Faults.then (Exact.readVec n) ((ends_readVec n).faults he)
    fun payload => key code mt payload hmt.1).cast fun t => ?_
  simp only [Fault.as, metadataCode_err]
  constructor
  · rintro ⟨code, _, _, ⟨h1, rfl⟩, ⟨rfl, h⟩ | ⟨mt, _, _, ⟨h2, rfl⟩, h3 | ⟨n, len, _, h3, ⟨_, payload, rest, ⟨h4, rfl, rfl⟩, h5, rfl⟩, rfl⟩, rfl⟩, rfl⟩
    all_goals
      have hcode : (UInt8.ofNat code).toNat = code := by simp; omega
      rw [show le 1 code = [UInt8.ofNat code] by simp [le]]
    · exact .code (by omega)
    · exact .length (by rw [hcode]; exact metadataCode.1 ⟨mt, h2⟩) h3
    · have := FieldError.payload (rest := rest) h3 h4 h5
      simpa using this
  · intro h
    cases h with
    | @code code rest hc => exact ⟨code.toNat, _, rest, ⟨code.toNat_lt, rfl⟩, .inl ⟨rfl, hc⟩, by simp [le]⟩
    | @length _ code t hc h =>
      obtain ⟨mt, hmt⟩ := metadataCode.2 hc
      exact ⟨code.toNat, _, t, ⟨code.toNat_lt, rfl⟩, .inr ⟨mt, [], t, ⟨hmt, rfl⟩, .inl h, rfl⟩, by simp [le]⟩
    | @payload _ code len payload rest hl hn h =>
      obtain ⟨mt, hmt⟩ := metadataCode.2 (payloadError_code h)
      exact ⟨code.toNat, _, _, ⟨code.toNat_lt, rfl⟩, .inr ⟨mt, _, _, ⟨hmt, rfl⟩, .inr ⟨_, len, _, hl, ⟨payload, payload, rest, ⟨hn, rfl, rfl⟩,
        by simpa using h, rfl⟩, rfl⟩, rfl⟩, by simp [le]⟩

omit he in
theorem fieldError_ne : ¬FieldError e [] := by
  intro h
  generalize hz : ([] : Bytes) = z at h
  cases h <;> simp at hz

theorem err_tableMetadata {types : Bytes} (ht : ∀ t ∈ types, ∃ l, metaLayout t = some l) (hlen : types.length < 2 ^ 63) :
    Faults (.error e) (parseTableMetadata types) (AfterSome (LooseField types) (FieldError e)) := by
  unfold parseTableMetadata
  refine ((Faults.whileStep (exact_field ht hlen) (err_field he ht) ?_ fieldError_ne).map _).cast fun t => ?_
  · rintro f ⟨field, _, code, len, payload, _, _, _, h⟩
    cases h
  · unfold AfterSome
    simp only [each_ofMap]
    constructor
    · rintro ⟨_, e, t1, ⟨fields, rfl, h⟩, hk, rfl⟩; exact ⟨fields, e, t1, h, hk, rfl⟩
    · rintro ⟨fields, e, t1, h, hk, rfl⟩; exact ⟨_, e, t1, ⟨fields, rfl, h⟩, hk, rfl⟩

omit he in
theorem columnType_err {t : UInt8} : ColumnType.fromCode t.toNat = .err e ↔ e = .str "Unknown column type" ∧ metaLayout t = none := by
  have hk := metaLayout_known t
  cases hl : metaLayout t with
  | some l =>
    obtain ⟨c, hc⟩ := hk.1 ⟨l, hl⟩
    simp [hc]
  | none =>
    simp only [hl, reduceCtorEq, exists_false, false_iff] at hk
    unfold ColumnType.fromCode at hk ⊢
    split at hk <;> first | exact absurd ⟨_, rfl⟩ hk | simp [eq_comm]

theorem err_columnMeta (t : UInt8) :
    Faults (.error e) (parseColumnMetadata t) (fun _ => e = .str "Unknown column type" ∧ metaLayout t = none) := by
  unfold parseColumnMetadata
  refine (Faults.bind (Exact.lift (ColumnType.fromCode t.toNat)) (Faults.lift _ _) (K2 := fun _ _ => False) fun ct => ?_).cast fun e => ?_
  · split <;> first | exact ends_u8.faults he | exact (ends_uLE 2).faults he | exact (ends_uBE 2).faults he | exact Faults.ret _ _
  · simp only [Fault.as, columnType_err, and_false, false_and, exists_false, or_false]

omit he in
theorem Faults.forEach {α β : Type} {g : Fault} {f : α → P β} {R : α → β → Bytes → Prop} {K : α → Bytes → Prop}
    (h1 : ∀ a, Exact (f a) (R a)) (h : ∀ a, Faults g (f a) (K a)) (xs : List α) :
    Faults g (P.forEach xs f) (fun t => ∃ (ps : List (α × β)) (a : α) (more : List α) (e t1 : Bytes), xs = ps.map (·.1) ++ a :: more ∧
      Each (fun p e => R p.1 p.2 e) ps e ∧ K a t1 ∧ t = e ++ t1) := by
  induction xs with
  | nil => exact (Faults.ret g []).cast fun t => by simp
  | cons x xs ih =>
    refine (Faults.bind (h1 x) (h x) fun b => ih.map fun bs => b :: bs).cast fun t => ?_
    constructor
    · rintro (hk | ⟨b, e1, _, r1, ⟨ps, a, more, e2, t1, rfl, hs, hk, rfl⟩, rfl⟩)
      · exact ⟨[], x, xs, [], t, rfl, .nil, hk, rfl⟩
      · exact ⟨(x, b) :: ps, a, more, e1 ++ e2, t1, rfl, .cons r1 hs, hk, by simp⟩
    · rintro ⟨ps, a, more, e, t1, hx, hs, hk, rfl⟩
      cases hs with
      | nil =>
        simp only [List.map_nil, List.nil_append, List.cons.injEq] at hx
        obtain ⟨rfl, rfl⟩ := hx
        exact .inl hk
      | @cons p ps e1 e2 r hs =>
        simp only [List.map_cons, List.cons_append, List.cons.injEq] at hx
        obtain ⟨rfl, rfl⟩ := hx
        exact .inr ⟨p.2, e1, e2 ++ t1, r, ⟨ps, a, more, e2, t1, rfl, hs, hk, rfl⟩, by simp⟩

theorem err_tableMap : Faults (.error e) parseTableMap (TableMapError e) := by
  unfold parseTableMap parseMetadata
  have h6 : ∀ (tableId : Nat) (db table : RStr) (types : Bytes) (ms : List Nat) (nulls : List Bool)
      (_ : ∀ t ∈ types, ∃ l, metaLayout t = some l) (_ : types.length < 2 ^ 63), Faults (.error e) (do
        let more ← P.hasData
        if more then
          let tableMetadata ← parseTableMetadata types
          return { tableId, databaseName := db, tableName := table, columnTypes := types, columnMetadata := ms, nullBitmap := nulls,
                   tableMetadata := some tableMetadata }
        else
          return ({ tableId, databaseName := db, tableName := table, columnTypes := types, columnMetadata := ms, nullBitmap := nulls,
                    tableMetadata := none } : TableMapEvent))
        (AfterSome (LooseField types) (FieldError e)) := by
    intro tableId db table types ms nulls ht hlen
    refine (Faults.hasData fun b => Faults.ite (fun _ => (err_tableMetadata he ht hlen).map _)
      fun _ => Faults.ret _ _).cast fun opt => ?_
    cases opt with
    | nil => simp [afterSome_ne (R := LooseField types) fieldError_ne]
    | cons o os => simp
  have h5 := fun (tableId : Nat) (db table : RStr) => Faults.bind Exact.lenEncNum (err_lenEncNum he) fun n =>
    Faults.thenOf (Exact.readVec n) ((ends_readVec n).faults he) fun types e2 (hR : _ ∧ _ ∧ _) =>
    Faults.bind Exact.lenEncNum (err_lenEncNum he) fun _ => Faults.bindOf (Exact.forEach exact_columnMeta types)
      (Faults.forEach exact_columnMeta (err_columnMeta he) types) fun ms e3 hm =>
    Faults.then (Exact.bitmapLE n) ((ends_bitmapLE n).faults he) fun nulls => h6 tableId db table types ms nulls
      (by obtain ⟨ps, rfl, _, h⟩ := hm; exact columnMeta_known h) (by rw [hR.2.1]; exact hR.1)
  have n5 : ∀ {K : Nat → Bytes → Prop}, ¬(NumError e [] ∨ ∃ (n : Nat) (e t1 : Bytes), LenEnc n e ∧ K n t1 ∧ ([] : Bytes) = e ++ t1) := by
    rintro K (h | ⟨n, e1, e2, h, _, he⟩)
    · exact numError_ne h
    · obtain ⟨rfl, _⟩ := List.append_eq_nil_iff.1 he.symm
      exact LenEnc_ne_nil h rfl
  have n3 : ∀ {K : Nat → Bytes → Prop}, ¬∃ (n : Nat) (e t1 : Bytes), (n < 2 ^ 8 ∧ e = le 1 n) ∧ K n t1 ∧ ([] : Bytes) = e ++ t1 := by
    rintro K ⟨n, e1, e2, ⟨_, rfl⟩, _, he⟩; simp [le] at he
  have h4 := fun (tableId : Nat) (db : RStr) => Faults.then Exact.u8 (ends_u8.faults he) fun n =>
    Faults.bind (Exact.readString n) (err_readString he n) fun table => (h5 tableId db table).skip n5 1
  have h3 := fun (tableId : Nat) => Faults.then Exact.u8 (ends_u8.faults he) fun n =>
    Faults.bind (Exact.readString n) (err_readString he n) fun db => (h4 tableId db).skip n3 1
  have h2 := Faults.then (Exact.uLE 6) ((ends_uLE 6).faults he) fun tableId => (h3 tableId).skip n3 2
  refine Faults.cast h2 fun body => ?_
  constructor
  · rintro ⟨tableId, _, _, ⟨g1, rfl⟩, ⟨flags, _, g2, ⟨dbn, _, t, ⟨g3, rfl⟩, h, rfl⟩, rfl⟩, rfl⟩
    rcases h with h | ⟨db, _, _, ⟨_, rfl, rfl⟩, ⟨z1, _, gz1, ⟨tn, _, t, ⟨g4, rfl⟩, h, rfl⟩, rfl⟩, rfl⟩
    · have := TableMapError.db g1 g2 g3 h
      simpa only [List.append_assoc] using this
    obtain ⟨z1, rfl⟩ := List.length_eq_one_iff.1 gz1
    rcases h with h | ⟨table, _, _, ⟨_, rfl, rfl⟩, ⟨z2, _, gz2, h, rfl⟩, rfl⟩
    · have := TableMapError.table (z1 := z1) g1 g2 g3 g4 h
      simpa only [List.append_assoc] using this
    obtain ⟨z2, rfl⟩ := List.length_eq_one_iff.1 gz2
    have hs := TableStart.mk (z1 := z1) (z2 := z2) g1 g2 g3 g4
    rcases h with h | ⟨n, count, _, g5, ⟨_, types, _, ⟨g5', rfl, rfl⟩, h, rfl⟩, rfl⟩
    · have := TableMapError.count hs h
      simpa only [List.append_assoc] using this
    rcases h with h | ⟨ms, ml, t, g6, h, rfl⟩
    · have := TableMapError.metaSize hs g5 g5' h
      simpa only [List.append_assoc] using this
    rcases h with ⟨ps, a, more, cm, t1, rfl, g7, ⟨rfl, g8⟩, rfl⟩ | ⟨_, cm, _, ⟨ps, rfl, rfl, g7⟩, ⟨nulls, bm, opt, ⟨_, g8, g9⟩, g10, rfl⟩, rfl⟩
    · rw [List.length_append, List.length_map] at g5 g5'
      have := TableMapError.columnType (rest := t1) hs g5 g5' g6 g7 g8
      simpa only [List.append_assoc] using this
    · rw [List.length_map] at g5 g5' g8
      have := TableMapError.metadata hs g5 g5' g7 g6 g8 g9 g10
      simpa only [List.append_assoc] using this
  · intro h
    cases h with
    | db g1 g2 g3 h => exact ⟨_, _, _, ⟨g1, rfl⟩, ⟨_, _, g2, ⟨_, _, _, ⟨g3, rfl⟩, .inl h, rfl⟩, rfl⟩, by simp only [List.append_assoc]⟩
    | @table _ _ _ _ _ db z1 g1 g2 g3 g4 h =>
      exact ⟨_, _, _, ⟨g1, rfl⟩, ⟨_, _, g2, ⟨_, _, _, ⟨g3, rfl⟩, .inr ⟨db, _, _, ⟨by omega, rfl, rfl⟩, ⟨[z1], _, rfl, ⟨_, _, _, ⟨g4, rfl⟩,
        .inl h, rfl⟩, rfl⟩, rfl⟩, rfl⟩, rfl⟩, by simp only [List.append_assoc]⟩
    | count hs h =>
      obtain ⟨g1, g2, g3, g4⟩ := hs
      rename_i tableId flags db table z1 z2
      exact ⟨_, _, _, ⟨g1, rfl⟩, ⟨_, _, g2, ⟨_, _, _, ⟨g3, rfl⟩, .inr ⟨db, _, _, ⟨by omega, rfl, rfl⟩, ⟨[z1], _, rfl, ⟨_, _, _, ⟨g4, rfl⟩,
        .inr ⟨table, _, _, ⟨by omega, rfl, rfl⟩, ⟨[z2], _, rfl, .inl h, rfl⟩, rfl⟩, rfl⟩, rfl⟩, rfl⟩, rfl⟩, rfl⟩, by simp only [List.append_assoc]⟩
    | @metaSize _ _ count types t hs g5 g5' h =>
      obtain ⟨g1, g2, g3, g4⟩ := hs
      rename_i tableId flags db table z1 z2
      exact ⟨_, _, _, ⟨g1, rfl⟩, ⟨_, _, g2, ⟨_, _, _, ⟨g3, rfl⟩, .inr ⟨db, _, _, ⟨by omega, rfl, rfl⟩, ⟨[z1], _, rfl, ⟨_, _, _, ⟨g4, rfl⟩,
        .inr ⟨table, _, _, ⟨by omega, rfl, rfl⟩, ⟨[z2], _, rfl, .inr ⟨_, count, _, g5, ⟨_, types, t, ⟨g5', rfl, rfl⟩, .inl h, rfl⟩, rfl⟩,
        rfl⟩, rfl⟩, rfl⟩, rfl⟩, rfl⟩, rfl⟩, rfl⟩, by simp only [List.append_assoc]⟩
    | @columnType metaSize _ count ml cm rest more columns type hs g5 g5' g8 g6 h =>
      obtain ⟨g1, g2, g3, g4⟩ := hs
      rename_i tableId flags db table z1 z2
      exact ⟨_, _, _, ⟨g1, rfl⟩, ⟨_, _, g2, ⟨_, _, _, ⟨g3, rfl⟩, .inr ⟨db, _, _, ⟨by omega, rfl, rfl⟩, ⟨[z1], _, rfl, ⟨_, _, _, ⟨g4, rfl⟩,
        .inr ⟨table, _, _, ⟨by omega, rfl, rfl⟩, ⟨[z2], _, rfl, .inr ⟨_, count, _, g5, ⟨_, _, _, ⟨g5', by simp, rfl⟩, .inr ⟨metaSize, ml, _, g8,
        .inl ⟨columns, type, more, cm, rest, rfl, g6, ⟨rfl, h⟩, rfl⟩, rfl⟩, rfl⟩, rfl⟩,
        rfl⟩, rfl⟩, rfl⟩, rfl⟩, rfl⟩, rfl⟩, rfl⟩, by simp only [List.append_assoc]⟩
    | @metadata _ metaSize _ count ml cm bm opt columns nulls hs g5 g5' g6 g8 g9 g10 h =>
      obtain ⟨g1, g2, g3, g4⟩ := hs
      rename_i tableId flags db table z1 z2
      exact ⟨_, _, _, ⟨g1, rfl⟩, ⟨_, _, g2, ⟨_, _, _, ⟨g3, rfl⟩, .inr ⟨db, _, _, ⟨by omega, rfl, rfl⟩, ⟨[z1], _, rfl, ⟨_, _, _, ⟨g4, rfl⟩,
        .inr ⟨table, _, _, ⟨by omega, rfl, rfl⟩, ⟨[z2], _, rfl, .inr ⟨_, count, _, g5, ⟨_, _, _, ⟨g5', by simp, rfl⟩, .inr ⟨metaSize, ml, _, g8,
        .inr ⟨_, cm, _, ⟨columns, rfl, rfl, g6⟩, ⟨nulls, bm, opt, ⟨g5', g9, g10⟩, h, rfl⟩, rfl⟩, rfl⟩, rfl⟩, rfl⟩,
        rfl⟩, rfl⟩, rfl⟩, rfl⟩, rfl⟩, rfl⟩, rfl⟩, by simp only [List.append_assoc]⟩

/-! ## Other events -/

theorem err_query : Faults (.error e) parseQuery (QueryError e) := by
  unfold parseQuery
  refine (Faults.then (Exact.uLE 4) ((ends_uLE 4).faults he) fun a => Faults.then (Exact.uLE 4) ((ends_uLE 4).faults he) fun b =>
    Faults.then Exact.u8 (ends_u8.faults he) fun c => Faults.then (Exact.uLE 2) ((ends_uLE 2).faults he) fun d =>
    Faults.then (Exact.uLE 2) ((ends_uLE 2).faults he) fun n => Faults.then (Exact.readVec n) ((ends_readVec n).faults he) fun f =>
    Faults.bind (Exact.readString c) (err_readString he c) fun g =>
    (err_toString.map fun s => QueryEvent.mk a b d f g s).skip tailError_ne 1).cast fun t => ?_
  constructor
  · rintro ⟨a, _, _, ⟨h1, rfl⟩, ⟨b, _, _, ⟨h2, rfl⟩, ⟨c, _, _, ⟨h3, rfl⟩, ⟨d, _, _, ⟨h4, rfl⟩, ⟨n, _, _, ⟨h5, rfl⟩,
      ⟨_, f, t, ⟨h6, rfl, rfl⟩, h, rfl⟩, rfl⟩, rfl⟩, rfl⟩, rfl⟩, rfl⟩
    rcases h with h | ⟨g, _, _, ⟨h7, rfl, rfl⟩, ⟨sep, t1, hsep, h, rfl⟩, rfl⟩
    · have := QueryError.db (by simpa using h1) (by simpa using h2) h3 (by simpa using h4) (by simpa using h5) h
      simpa only [List.append_assoc] using this
    · obtain ⟨sep, rfl⟩ := List.length_eq_one_iff.1 hsep
      have := QueryError.sql (sep := sep) (by simpa using h1) (by simpa using h2) h3 (by simpa using h4) (by simpa using h5) h
      simpa only [List.append_assoc] using this
  · intro h
    cases h with
    | db h1 h2 h3 h4 h5 h =>
      exact ⟨_, _, _, ⟨by simpa using h1, rfl⟩, ⟨_, _, _, ⟨by simpa using h2, rfl⟩, ⟨_, _, _, ⟨h3, rfl⟩, ⟨_, _, _, ⟨by simpa using h4, rfl⟩,
        ⟨_, _, _, ⟨by simpa using h5, rfl⟩, ⟨_, _, _, ⟨by omega, rfl, rfl⟩, .inl h, rfl⟩, rfl⟩, rfl⟩, rfl⟩, rfl⟩, by simp only [List.append_assoc]⟩
    | @sql _ _ _ status t db sep h1 h2 h3 h4 h5 h =>
      exact ⟨_, _, _, ⟨by simpa using h1, rfl⟩, ⟨_, _, _, ⟨by simpa using h2, rfl⟩, ⟨_, _, _, ⟨h3, rfl⟩, ⟨_, _, _, ⟨by simpa using h4, rfl⟩,
        ⟨_, _, _, ⟨by simpa using h5, rfl⟩, ⟨_, _, _, ⟨by omega, rfl, rfl⟩, .inr ⟨db, _, _, ⟨by omega, rfl, rfl⟩, ⟨[sep], t, rfl, h, rfl⟩, rfl⟩, rfl⟩,
        rfl⟩, rfl⟩, rfl⟩, rfl⟩, by simp only [List.append_assoc]⟩

theorem err_userVar : Faults (.error e) parseUserVar (UserVarError e) := by
  unfold parseUserVar
  refine (Faults.then (Exact.uLE 4) ((ends_uLE 4).faults he) fun a => Faults.bind (Exact.readString a) (err_readString he a) fun name =>
    Faults.then Exact.u8 (ends_u8.faults he) fun isNull => Faults.ite (fun _ => Faults.ret _ _) fun _ =>
    Faults.then Exact.u8 (ends_u8.faults he) fun b => Faults.then (Exact.uLE 4) ((ends_uLE 4).faults he) fun c =>
    Faults.then (Exact.uLE 4) ((ends_uLE 4).faults he) fun d => Faults.bind (Exact.readString d) (err_readString he d) fun val =>
    (ends_u8.faults he).map fun f => UserVarEvent.mk name (some ⟨b, c, val, f⟩)).cast fun t => ?_
  constructor
  · rintro ⟨a, _, _, ⟨h1, rfl⟩, h | ⟨name, _, _, ⟨h2, rfl, rfl⟩, ⟨isNull, _, _, ⟨h3, rfl⟩, ⟨_, h⟩ | ⟨h0, ⟨b, _, _, ⟨h4, rfl⟩, ⟨c, _, _, ⟨h5, rfl⟩,
      ⟨d, _, _, ⟨h6, rfl⟩, h | ⟨_, _, _, _, h, _⟩, rfl⟩, rfl⟩, rfl⟩⟩, rfl⟩, rfl⟩, rfl⟩
    · exact .name (by simpa using h1) h
    · exact h.elim
    · obtain rfl : isNull = 0 := by omega
      have := UserVarError.value (name := name) (by simpa using h1) h4 (by simpa using h5) (by simpa using h6) h
      rw [show le 1 0 = [0] from rfl]
      simpa only [List.append_assoc] using this
    · exact h.elim
  · intro h
    cases h with
    | name hn h => exact ⟨_, _, _, ⟨by simpa using hn, rfl⟩, .inl h, rfl⟩
    | @value name type collation n t h1 h2 h3 hn h =>
      exact ⟨_, _, _, ⟨by simpa using h1, rfl⟩, .inr ⟨name, _, _, ⟨by omega, rfl, rfl⟩, ⟨0, _, _, ⟨by omega, rfl⟩, .inr ⟨by simp, ⟨_, _, _,
        ⟨h2, rfl⟩, ⟨_, _, _, ⟨by simpa using h3, rfl⟩, ⟨_, _, _, ⟨by simpa using hn, rfl⟩, .inl h, rfl⟩, rfl⟩, rfl⟩⟩, rfl⟩, rfl⟩,
        by simp [show le 1 0 = [0] from rfl]⟩

omit he in
theorem ends_previous (m : Mode) : EndsOnly (parsePreviousGtids m) := by
  have h1 : EndsOnly (parsePrevInterval m) := (ends_uLE 8).bind fun _ => (ends_uLE 8).bind fun _ =>
    (EndsOnly.lift fun e h => absurd h (subU_ne_err _ _ _ _ _)).map _
  have h2 : EndsOnly (parsePrevUuidSet m) := (ends_readExact 16).bind fun _ => (EndsOnly.lift fun e h => by rw [uuidSet_new_nil] at h; cases h).bind fun _ =>
    (ends_uLE 8).bind fun _ => (h1.times _).map _
  exact (ends_uLE 8).bind fun _ => (h2.times _).map _

omit he in
theorem ends_gtidList : EndsOnly parseGtidList := by
  have h1 : EndsOnly parseListGtid := (ends_uLE 4).bind fun _ => (ends_uLE 4).bind fun _ => (ends_uLE 8).map _
  exact (ends_uLE 4).bind fun _ => (h1.times _).map _

/-! ## Format description -/

omit he in
theorem bind_err_iff {α β : Type} {p : P α} {f : α → P β} {buf : Bytes} {pos : Nat} :
    (p >>= f) buf pos = .err e ↔ p buf pos = .err e ∨ ∃ x q, p buf pos = .ok (x, q) ∧ f x buf q = .err e := by
  rw [P.seq_apply]
  cases p buf pos with
  | ok x => obtain ⟨x, q⟩ := x; simp [Res.bind]
  | _ => simp [Res.bind]

theorem ends_ne {α : Type} {p : P α} (h : EndsOnly p) {buf : Bytes} {pos : Nat} : p buf pos = .err e ↔ False :=
  ⟨fun hp => he (h _ _ _ hp), False.elim⟩

omit he in
theorem checksum_err {c : Nat} : ChecksumType.fromCode c = .err e ↔ 1 < c ∧ e = .str "The master checksum type is not supported" := by
  unfold ChecksumType.fromCode
  split
  · simp
  · simp
  · rename_i h0 h1
    simp only [Res.err.injEq]
    constructor
    · rintro rfl; exact ⟨by have : c ≠ 0 := h0; have : c ≠ 1 := h1; omega, rfl⟩
    · rintro ⟨_, rfl⟩; rfl

omit he in
theorem lift_err_iff {α : Type} {r : Res α} {buf : Bytes} {pos : Nat} : P.lift r buf pos = .err e ↔ r = .err e := by
  cases r <;> simp [P.lift]

omit he in
theorem seek_err {k : Int} {buf : Bytes} {pos : Nat} (h : 0 ≤ (pos : Int) + k) : P.seekCur k buf pos ≠ .err e := by
  unfold P.seekCur
  rw [if_pos h]; simp

theorem formatRest_err (m : Mode) (header : EventHeader) (version : Nat) (server : RStr) (body : Bytes) :
    formatRest m header version server body 52 = .err e ↔
      (m.checks = true → 19 ≤ header.eventLength % 256) ∧ ∃ own code : UInt8, body[71]? = some own ∧
        (own.toNat + 19) % 256 ≠ header.eventLength % 256 ∧ body[own.toNat]? = some code ∧ 1 < code.toNat ∧
        e = .str "The master checksum type is not supported" := by
  unfold formatRest
  have hu : ∀ {pos}, P.u8 body pos = .err e ↔ False := ends_ne he ends_u8
  have hs1 : P.seekCur 5 body 52 = .err e ↔ False := ⟨seek_err (by decide), False.elim⟩
  simp only [bind_err_iff, hu, hs1, seek_iff, u8_at, lift_err_iff, subU_ne_err, lift_iff, subU_expected, FORMAT_DESCRIPTION_CODE,
    EVENT_TYPES_OFFSET, false_or]
  constructor
  · rintro ⟨_, q1, h1, h | ⟨_, q2, h2, own, q3, ⟨b, hb, rfl, rfl⟩, exp, q4, ⟨⟨hm, h3, h4⟩, rfl⟩, h⟩⟩
    · exact absurd h (seek_err (by omega))
    obtain rfl : q2 = 71 := by omega
    have hb' := b.toNat_lt
    refine ⟨hm, ?_⟩
    by_cases hne : b.toNat ≠ exp
    · rw [if_pos hne] at h
      simp only [bind_err_iff, hu, seek_iff, u8_at, lift_err_iff, lift_iff, false_or, checksum_err] at h
      rcases h with h | ⟨_, q5, h5, c, q6, ⟨cb, hcb, rfl, rfl⟩, h | ⟨ck, q7, h6, h7⟩⟩
      · exact absurd h (seek_err (by omega))
      · obtain rfl : q5 = b.toNat := by omega
        exact ⟨b, cb, hb, by omega, hcb, h.1, h.2⟩
      · cases h7
    · rw [if_neg hne] at h
      cases h
  · rintro ⟨hm, own, code, hown, hl, hc, hc', rfl⟩
    have hb' := own.toNat_lt
    obtain ⟨exp, hexp, hexp'⟩ : ∃ exp, exp < 256 ∧ (exp + 19) % 256 = header.eventLength % 256 :=
      ⟨(header.eventLength + 237) % 256, by omega, by omega⟩
    refine ⟨(), 57, by omega, .inr ⟨(), 71, by omega, _, 72, ⟨own, hown, rfl, rfl⟩, exp, 72, ⟨⟨hm, hexp, hexp'⟩, rfl⟩, ?_⟩⟩
    rw [if_pos (by omega)]
    simp only [bind_err_iff, hu, seek_iff, u8_at, lift_err_iff, lift_iff, false_or, checksum_err]
    exact .inr ⟨(), own.toNat, by omega, _, _, ⟨code, hc, rfl, rfl⟩, .inl ⟨hc', trivial⟩⟩

omit he in
theorem takeWhile_raw {raw server : Bytes} : raw.takeWhile (· != 0) = server ↔
    ∃ pad, raw = server ++ pad ∧ (0 : UInt8) ∉ server ∧ (pad = [] ∨ pad.head? = some 0) := by
  constructor
  · rintro rfl
    refine ⟨raw.dropWhile (· != 0), List.takeWhile_append_dropWhile.symm, ?_, ?_⟩
    · intro h
      have := (List.all_takeWhile (p := (· != (0 : UInt8))) (l := raw))
      rw [List.all_eq_true] at this
      simpa using this _ h
    · cases hd : raw.dropWhile (· != 0) with
      | nil => exact .inl rfl
      | cons b bs =>
        right
        have : (b != 0) = false := by
          have := List.head_dropWhile_not (· != (0 : UInt8)) (l := raw) (by rw [hd]; simp)
          simpa [hd] using this
        simpa using this
  · rintro ⟨pad, rfl, h1, h2⟩
    rw [List.takeWhile_append_of_pos (by intro b hb; simp; rintro rfl; exact h1 hb)]
    have : pad.takeWhile (· != 0) = [] := by
      rcases h2 with rfl | h
      · rfl
      · cases pad with
        | nil => rfl
        | cons b bs => simp at h; subst h; rfl
    rw [this, List.append_nil]

theorem err_format (m : Mode) (header : EventHeader) (body : Bytes) :
    parseFormatDescription m header body 0 = .err e ↔ FormatError m header.eventLength e body := by
  rw [parseFormat_eq]
  simp only [bind_err_iff, ends_ne he (ends_uLE 2), ends_ne he (ends_readExact 50), false_or]
  constructor
  · rintro ⟨version, q1, g1, raw, q2, g2, h⟩
    obtain ⟨e1, ⟨v1, rfl⟩, ⟨t1, p1⟩, rfl⟩ := (Exact.uLE 2 _ _ _ _).1 g1
    obtain ⟨e2, ⟨v2, rfl⟩, ⟨t2, p2⟩, rfl⟩ := (Exact.readExact 50 _ _ _ _).1 g2
    rw [le_length, v2] at h
    have hbody : body = le 2 version ++ e2 ++ t2 := by
      rw [List.append_assoc, p2]
      simp only [Nat.zero_add, List.drop_zero] at p1 ⊢
      conv_lhs => rw [← p1]
      rw [← p1, List.drop_left]
    cases hd : utf8Decode (e2.takeWhile (· != 0)) with
    | none =>
      rw [hd] at h
      simp only [P.fail, Res.err.injEq] at h
      subst h
      obtain ⟨pad, hp, h2, h3⟩ := takeWhile_raw.1 (rfl : e2.takeWhile (· != 0) = _)
      rw [hbody, hp]
      have hn := notText_iff.2 hd
      rw [hp, List.length_append] at v2
      exact .server (by simpa using v1) h2 h3 v2 hn
    | some server =>
      rw [hd] at h
      obtain ⟨hm, own, code, hown, hl, hc, hc', rfl⟩ := (formatRest_err he m header version server body).1 h
      obtain ⟨pad, rfl, h2, h3⟩ := takeWhile_server.1 (utf8Decode_eq_some_iff.1 hd)
      exact .algorithm (by simpa using v1) h2 h3 (by simpa using v2) hm hbody hown hl hc hc'
  · intro h
    have start : ∀ {version : Nat} {raw rest : Bytes}, version < 2 ^ 16 → raw.length = 50 →
        P.uLE 2 (le 2 version ++ raw ++ rest) 0 = .ok (version, 2) ∧ P.readExact 50 (le 2 version ++ raw ++ rest) 2 = .ok (raw, 52) := by
      intro version raw rest h1 h2
      refine ⟨(Exact.uLE 2 _ _ _ _).2 ⟨_, ⟨by simpa using h1, rfl⟩, ⟨raw ++ rest, by simp⟩, by simp⟩,
        (Exact.readExact 50 _ _ _ _).2 ⟨_, ⟨h2, rfl⟩, ⟨rest, ?_⟩, by omega⟩⟩
      rw [List.append_assoc, List.drop_left' (le_length 2 version)]
    cases h with
    | @server version server pad rest h1 h2 h3 h4 h =>
      obtain ⟨s1, s2⟩ := start (raw := server ++ pad) (rest := rest) h1 (by simpa using h4)
      refine ⟨version, 2, s1, _, 52, s2, ?_⟩
      rw [takeWhile_raw.2 ⟨pad, rfl, h2, h3⟩, notText_iff.1 h]
      rfl
    | @algorithm version server pad rest _ own code h1 h2 h3 h4 hm hb ho hl hc hc' =>
      obtain ⟨s1, s2⟩ := start (raw := utf8Bytes server ++ pad) (rest := rest) h1 (by simpa using h4)
      rw [← hb] at s1 s2
      refine ⟨version, 2, s1, _, 52, s2, ?_⟩
      rw [utf8Decode_eq_some_iff.2 (takeWhile_server.2 ⟨pad, rfl, h2, h3⟩)]
      exact (formatRest_err he m header version server body).2 ⟨hm, own, code, ho, hl, hc, hc', rfl⟩

end MysqlCdc
