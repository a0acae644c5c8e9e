import Verif.Lemmas.ErrorsEvents
import Verif.Lemmas.FaultsRows
/-!
# With which error row events are refused
-/

namespace MysqlCdc

open Spec

/-! ## Values -/

theorem ends_fraction (m : Mode) (md : Nat) : EndsOnly (parseFractionalPart m md) := by
  unfold parseFractionalPart
  exact (EndsOnly.lift fun e h => absurd h (addU_ne_err _ _ _ _ _)).bind fun _ => EndsOnly.ite (EndsOnly.ret _) ((ends_uintBE _).bind fun _ =>
    EndsOnly.ite (EndsOnly.ret _) (EndsOnly.ite EndsOnly.panic (EndsOnly.ret _)))

theorem ends_dateTime2 (m : Mode) (md : Nat) : EndsOnly (parseDateTime2 m md) := by
  unfold parseDateTime2
  exact (ends_uintBE 5).bind fun _ => (ends_fraction m md).map _

theorem ends_timestamp2 (m : Mode) (md : Nat) : EndsOnly (parseTimestamp2 m md) := by
  unfold parseTimestamp2
  exact (ends_uBE 4).bind fun _ => (ends_fraction m md).map _

theorem ends_blob (md : Nat) : EndsOnly (parseBlob md) := (ends_uintLE md).bind fun _ => ends_readVec _

theorem ends_integralGroups (k : Nat) (started : Bool) (result : RStr) : EndsOnly (integralGroups k started result) := by
  induction k generalizing started result with
  | zero => exact EndsOnly.ret _
  | succ k ih => exact (ends_uBE 4).bind fun _ => EndsOnly.ite (ih _ _) (EndsOnly.ite (ih _ _) (ih _ _))

theorem ends_fractionalGroups (k : Nat) (result : RStr) : EndsOnly (fractionalGroups k result) := by
  induction k generalizing result with
  | zero => exact EndsOnly.ret _
  | succ k ih => exact (ends_uBE 4).bind fun _ => ih _

theorem ends_decimalBody (ui ci uf cf scale : Nat) (result : RStr) : EndsOnly (decimalBody ui ci uf cf scale result) := by
  unfold decimalBody
  exact (EndsOnly.ite ((ends_uintBE _).bind fun _ => EndsOnly.ite (EndsOnly.ret _) (EndsOnly.ret _)) (EndsOnly.ret _)).bind fun ⟨_, _⟩ =>
    (ends_integralGroups _ _ _).bind fun ⟨_, _⟩ => (ends_fractionalGroups _ _).bind fun _ =>
    EndsOnly.ite ((ends_uintBE _).map _) (EndsOnly.ret _)

theorem ends_decimal (m : Mode) (md : Nat) : EndsOnly (parseDecimal m md) := by
  unfold parseDecimal
  refine (EndsOnly.lift fun e h => absurd h (subU_ne_err _ _ _ _ _)).bind fun _ => (ends_readVec _).bind fun v => ?_
  cases v with
  | nil => exact EndsOnly.panic
  | cons v0 vs => exact EndsOnly.lift fun e h => (ends_decimalBody _ _ _ _ _ _).run h

theorem ends_bit (md : Nat) : EndsOnly (parseBit md) := (ends_bitmapBE _).map _

variable {e : Err} (he : e ≠ .io .unexpectedEof)
include he

theorem err_text (md : Nat) : Faults (.error e) (parseString md) (fun t => ∃ n t1, n < 256 ^ (if md < 256 then 1 else 2) ∧ TextError n e t1 ∧
    t = le (if md < 256 then 1 else 2) n ++ t1) := by
  unfold parseString
  by_cases h : md < 256
  · simp only [h, if_true]
    refine (Faults.then Exact.u8 (ends_u8.faults he) fun n => err_readString he n).cast fun t => ?_
    constructor
    · rintro ⟨n, _, t1, ⟨h1, rfl⟩, h2, rfl⟩; exact ⟨n, t1, by simpa using h1, h2, rfl⟩
    · rintro ⟨n, t1, h1, h2, rfl⟩; exact ⟨n, _, t1, ⟨by simpa using h1, rfl⟩, h2, rfl⟩
  · simp only [h, if_false]
    refine (Faults.then (Exact.uLE 2) ((ends_uLE 2).faults he) fun n => err_readString he n).cast fun t => ?_
    constructor
    · rintro ⟨n, _, t1, ⟨h1, rfl⟩, h2, rfl⟩; exact ⟨n, t1, h1, h2, rfl⟩
    · rintro ⟨n, t1, h1, h2, rfl⟩; exact ⟨n, _, t1, ⟨h1, rfl⟩, h2, rfl⟩

omit he in
theorem fail_faults {α : Type} (e' : Err) : Faults (.error e) (P.fail e' : P α) (fun _ => e = e') := by
  intro buf pos
  simp [P.fail, Fault.as, eq_comm]

theorem err_time : Faults (.error e) parseTime (fun t => e = .str "Parsing negative TIME values is not supported in this version" ∧
    ∃ n rest, 2 ^ 23 ≤ n ∧ n < 2 ^ 24 ∧ t = le 3 n ++ rest) := by
  unfold parseTime
  refine (Faults.then (Exact.uLE 3) ((ends_uLE 3).faults he) fun n => Faults.ite (fun _ => fail_faults _) fun _ => Faults.ret _ _).cast fun t => ?_
  simp only [and_false, or_false]
  constructor
  · rintro ⟨n, _, rest, ⟨h1, rfl⟩, ⟨h2, rfl⟩, rfl⟩; exact ⟨rfl, n, rest, h2, by simpa using h1, rfl⟩
  · rintro ⟨rfl, n, rest, h2, h1, rfl⟩; exact ⟨n, _, rest, ⟨by simpa using h1, rfl⟩, ⟨h2, rfl⟩, rfl⟩

omit he in
theorem signBit {n : Nat} (h : n < 2 ^ 24) : (n >>> 23) &&& 1 = 0 ↔ n < 2 ^ 23 := by
  rw [Nat.and_one_is_mod, Nat.shiftRight_eq_div_pow]
  omega

theorem err_time2 (m : Mode) {md : Nat} (hmd : md < 2 ^ 16) : Faults (.error e) (parseTime2 m md)
    (fun t => e = .str "Parsing negative TIME values is not supported in this version" ∧
      ∃ n micros frac rest, n < 2 ^ 23 ∧ LooseFraction m md micros frac ∧ t = be 3 n ++ frac ++ rest) := by
  unfold parseTime2
  refine (Faults.then (Exact.uBE 3) ((ends_uBE 3).faults he) fun n => Faults.then (exact_fraction m hmd) ((ends_fraction m md).faults he)
    fun micros => Faults.ite (fun _ => fail_faults _) fun _ => Faults.ret _ _).cast fun t => ?_
  simp only [and_false, or_false]
  constructor
  · rintro ⟨n, _, _, ⟨h1, rfl⟩, ⟨micros, frac, rest, h2, ⟨h3, rfl⟩, rfl⟩, rfl⟩
    exact ⟨rfl, n, micros, frac, rest, (signBit (by simpa using h1)).1 h3, h2, by simp⟩
  · rintro ⟨rfl, n, micros, frac, rest, h3, h2, rfl⟩
    exact ⟨n, _, _, ⟨by omega, rfl⟩, ⟨micros, frac, rest, h2, ⟨(signBit (by omega)).2 h3, rfl⟩, rfl⟩, by simp⟩

theorem err_cell (m : Mode) {code : Nat} (hcode : code < 256) {md : Nat} (hmd : md < 2 ^ 16) :
    Faults (.error e) (parseCell m code md) (ValueError m code md e) := by
  unfold parseCell
  cases hct : ColumnType.fromCode code with
  | ok ct =>
    rw [lift_ok_bind]
    unfold ColumnType.fromCode at hct
    split at hct <;> simp only [Res.ok.injEq, reduceCtorEq] at hct <;> subst hct
    all_goals unfold ValueError; simp only
    all_goals first
      | exact fail_faults _
      | exact (err_text he md).map _
      | exact (err_time he).map _
      | exact (err_time2 he m hmd).map _
      | (refine Faults.cast (K := fun _ => False) ?_ fun t => ⟨False.elim, fun h => absurd h.1 (by decide)⟩
         first
           | exact (ends_u8.faults he).map _
           | exact ((ends_uLE _).faults he).map _
           | exact ((ends_bit md).faults he).map _
           | exact ((ends_timestamp2 m md).faults he).map _
           | exact ((ends_dateTime2 m md).faults he).map _
           | exact ((ends_blob md).faults he).map _
           | exact ((ends_decimal m md).faults he).map _
           | exact ((ends_uintLE md).faults he).map _
           | exact (((ends_uLE _).faults he).map _).map _)
  | err e' =>
    have h8 : (UInt8.ofNat code).toNat = code := by simp; omega
    have := columnType_err (e := e') (t := UInt8.ofNat code)
    rw [h8] at this
    obtain ⟨rfl, hl⟩ := this.1 hct
    have hf : (P.lift (.err (.str "Unknown column type")) : P ColumnType) = P.fail (.str "Unknown column type") := rfl
    intro buf pos
    have : ValueError m code md e (buf.drop pos) ↔ metaLayout (UInt8.ofNat code) = none ∧ e = .str "Unknown column type" := by
      unfold ColumnType.fromCode at hct
      split at hct <;> first | (cases hct; done) | (unfold ValueError; split <;> first | contradiction | rfl)
    rw [this, P.seq_apply]
    simp only [P.lift, Res.bind, Fault.as, Res.err.injEq, hl, true_and, eq_comm]
  | panic => exact absurd hct (columnType_ne_panic code)
  | hang =>
    unfold ColumnType.fromCode at hct
    split at hct <;> cases hct

omit he in
theorem unpacked_code {md code md' : Nat} (hmd : md < 2 ^ 16) (h : Unpacked md code md') : code < 256 := by
  cases h with
  | plain _ => decide
  | char _ _ _ _ _ => decide
  | other _ h => omega
  | long _ _ _ _ _ => omega

theorem err_column (m : Mode) (t : UInt8) {md : Nat} (hmd : md < 2 ^ 16) :
    Faults (.error e) (parseColumn m t.toNat md) (CellError m t md e) := by
  unfold parseColumn
  by_cases h254 : t = 254
  · subst h254
    have hcell := err_cell he m (code := (getActualStringType 254 md).1) (md := (getActualStringType 254 md).2)
      (unpacked_code hmd ((unpacked_iff hmd _ _).1 rfl)) (unpacked_lt ((unpacked_iff hmd _ _).1 rfl))
    refine hcell.cast fun t => ?_
    constructor
    · intro h; exact .packed rfl ((unpacked_iff hmd _ _).1 rfl) h
    · rintro (⟨ht, _⟩ | ⟨_, hu, h⟩)
      · exact absurd rfl ht
      · rw [← unpacked_iff hmd] at hu
        rw [hu]; exact h
  · have ht : t.toNat ≠ 254 := fun h => h254 (UInt8.toNat_inj.1 h)
    have : (do
        let t_1 ← P.lift (ColumnType.fromCode t.toNat)
        match if t_1 = .string then getActualStringType t.toNat md else (t.toNat, md) with
          | (columnType, metadata) => parseCell m columnType metadata : P MySqlValue) = parseCell m t.toNat md := by
      cases hct : ColumnType.fromCode t.toNat with
      | ok ct =>
        have : ct ≠ .string := fun h => ht (fromCode_string.1 (h ▸ hct))
        rw [lift_ok_bind]
        simp only [this, if_false]
      | _ => unfold parseCell; rw [hct]; rfl
    refine Faults.cast (K := ValueError m t.toNat md e) ?_ fun b => ?_
    · rw [this]; exact err_cell he m t.toNat_lt hmd
    · constructor
      · exact .plain h254
      · rintro (⟨_, h⟩ | ⟨h, _, _⟩)
        · exact h
        · exact absurd h h254

/-! ## Rows -/

theorem err_columnsLoop (m : Mode) (cs : List (UInt8 × Nat)) (hcs : ∀ c ∈ cs, c.2 < 2 ^ 16) (ps ns : List Bool)
    (hn : ps.count true ≤ ns.length) : Faults (.error e) (columnsLoop m cs ps ns) (CellsError m e cs ps ns) := by
  induction cs generalizing ps ns with
  | nil =>
    unfold columnsLoop
    exact (Faults.ret _ _).cast fun t => ⟨False.elim, fun h => by cases h⟩
  | cons c cs ih =>
    have ih := ih (fun c hc => hcs c (List.mem_cons_of_mem _ hc))
    match ps, ns with
    | [], ns =>
      unfold columnsLoop
      exact (EndsOnly.panic.faults he).cast fun t => ⟨False.elim, fun h => by cases h⟩
    | false :: ps, ns =>
      unfold columnsLoop
      exact ((ih ps ns (by simpa using hn)).map _).cast fun t => ⟨.absent, fun h => by cases h with | absent h => exact h⟩
    | true :: ps, [] => simp at hn
    | true :: ps, true :: ns =>
      unfold columnsLoop
      exact ((ih ps ns (by simpa using hn)).map _).cast fun t => ⟨.null, fun h => by cases h with | null h => exact h⟩
    | true :: ps, false :: ns =>
      unfold columnsLoop
      have hc := hcs c List.mem_cons_self
      refine (Faults.bind (exact_column m c.1 hc) (err_column he m c.1 hc) fun v => (ih ps ns (by simpa using hn)).map _).cast fun t => ?_
      constructor
      · rintro (h | ⟨v, e, t1, h1, h2, rfl⟩)
        · exact .cell h
        · exact .value h1 h2
      · intro h
        cases h with
        | value h1 h2 => exact .inr ⟨_, _, _, h1, h2, rfl⟩
        | cell h => exact .inl h

theorem err_row (m : Mode) {table : TableMapEvent} (h : ProperTable table) (present : List Bool) (hp : present.length < 2 ^ 63) :
    Faults (.error e) (parseRow m table present (getBitsNumber present)) (ImageError m e (tableColumns table) present) := by
  unfold parseRow
  have hcount := List.count_le_length (a := true) (l := present)
  have hrow : ∀ ns, present.count true ≤ ns.length → Faults (.error e) (rowLoop m table present ns (List.range table.columnTypes.length) 0)
      (CellsError m e (tableColumns table) present ns) := by
    intro ns hns
    have := rowLoop_columns m table present ns h.1 table.columnTypes.length 0 0 (by omega) (by omega)
    rw [List.range_eq_range', this]
    simp only [List.drop_zero]
    exact err_columnsLoop he m _ (fun c hc => h.2 _ (List.of_mem_zip hc).2) _ _ hns
  rw [getBitsNumber_count]
  refine (Faults.thenOf (Exact.bitmapLE _) ((ends_bitmapLE _).faults he) fun ns _ hns =>
    (hrow ns (by omega)).map RowData.mk).cast fun t => ?_
  constructor
  · rintro ⟨ns, bitmap, t1, ⟨_, h2, h3⟩, h4, rfl⟩; exact ⟨ns, bitmap, t1, h2, h3, h4, rfl⟩
  · rintro ⟨ns, bitmap, t1, h2, h3, h4, rfl⟩; exact ⟨ns, bitmap, t1, ⟨by omega, h2, h3⟩, h4, rfl⟩

/-! ## The start of an event -/

theorem err_head {α : Type} {version : Nat} (hv : version = 1 ∨ version = 2) {k : Nat × Nat × Nat → P α}
    {B : Nat → Nat → Nat → Bytes → Prop} (hk : ∀ t f n, Faults (.error e) (k (t, f, n)) (B t f n)) :
    Faults (.error e) (parseHead version >>= k)
      (fun body => HeadError e version body ∨ ∃ t f n rest, HeadOf version t f n body rest ∧ B t f n rest) := by
  have huLE := fun n => (ends_uLE n).faults he
  have hnum := err_lenEncNum he
  rcases hv with rfl | rfl
  · have hp : parseHead 1 >>= k = (P.uLE 6 >>= fun t => P.uLE 2 >>= fun f => readLenEncNum >>= fun n => k (t, f, n)) := by
      simp only [parseHead, P.bind_bind, P.ret_bind, show ¬(1 = 2) by decide, if_false]
    rw [hp]
    refine Faults.cast (Faults.then (Exact.uLE 6) (huLE 6) fun t => Faults.then (Exact.uLE 2) (huLE 2) fun f =>
      Faults.bind Exact.lenEncNum hnum fun n => hk t f n) fun body => ?_
    constructor
    · rintro ⟨t, _, _, ⟨ht, rfl⟩, ⟨f, _, t1, ⟨hf, rfl⟩, h | ⟨n, count, data, hn, hB, rfl⟩, rfl⟩, rfl⟩
      · left
        have := HeadError.v1 (by simpa using ht) (by simpa using hf) h
        simpa using this
      · refine .inr ⟨t, f, n, data, ?_, hB⟩
        have := HeadOf.taken (rest := data) (.plain (.v1 (by simpa using ht) (by simpa using hf) hn))
        simpa using this
    · rintro (h | ⟨t, f, n, rest, hh, hB⟩)
      · cases h with
        | v1 ht hf h => exact ⟨_, _, _, ⟨by simpa using ht, rfl⟩, ⟨_, _, _, ⟨by simpa using hf, rfl⟩, .inl h, rfl⟩, by simp⟩
      · cases hh with
        | taken hh =>
          cases hh with
          | plain hh =>
            cases hh with
            | v1 ht hf hn =>
              exact ⟨t, _, _, ⟨by simpa using ht, rfl⟩, ⟨f, _, _, ⟨by simpa using hf, rfl⟩, .inr ⟨n, _, rest, hn, hB, rfl⟩, rfl⟩, by simp⟩
        | back hv _ _ _ => cases hv
  · have hp : parseHead 2 >>= k = (P.uLE 6 >>= fun t => P.uLE 2 >>= fun f => P.uLE 2 >>= fun e => P.seekCur ((e : Int) - 2) >>= fun _ =>
        readLenEncNum >>= fun n => k (t, f, n)) := by
      simp only [parseHead, P.bind_bind, P.ret_bind, if_true]
    rw [hp]
    refine Faults.cast (Faults.then (Exact.uLE 6) (huLE 6) fun t => Faults.then (Exact.uLE 2) (huLE 2) fun f =>
      Faults.extra (huLE 2) (Faults.bind Exact.lenEncNum hnum fun n => hk t f n)) fun body => ?_
    constructor
    · rintro ⟨t, _, _, ⟨ht, rfl⟩, ⟨f, _, _, ⟨hf, rfl⟩, ⟨x, t1, hx, rfl, hr⟩, rfl⟩, rfl⟩
      rcases hr with ⟨h2, h | ⟨n, count, data, hn, hB, heq⟩⟩ | ⟨rfl, h | ⟨n, count, data, hn, hB, heq⟩⟩ | ⟨rfl, h | ⟨n, count, data, hn, hB, heq⟩⟩
      · have hne : t1.drop (x - 2) ≠ [] := by
          intro h0; rw [h0] at h; exact numError_ne h
        have hlen : x - 2 < t1.length := by
          have := mt List.drop_eq_nil_iff.2 hne; omega
        have hx' : (t1.take (x - 2)).length + 2 = x := by rw [List.length_take]; omega
        left
        have := HeadError.v2 (extra := t1.take (x - 2)) (by simpa using ht) (by simpa using hf) (by omega) h
        rw [hx'] at this
        simp only [List.append_assoc, List.take_append_drop] at this
        exact this
      · have hne : t1.drop (x - 2) ≠ [] := by
          rw [heq]; intro h; exact LenEnc_ne_nil hn (List.append_eq_nil_iff.1 h).1
        have hlen : x - 2 < t1.length := by
          have := mt List.drop_eq_nil_iff.2 hne; omega
        have hx' : (t1.take (x - 2)).length + 2 = x := by rw [List.length_take]; omega
        refine .inr ⟨t, f, n, data, ?_, hB⟩
        have := HeadOf.taken (rest := data)
          (.plain (.v2 (extra := t1.take (x - 2)) (by simpa using ht) (by simpa using hf) (by omega) hn))
        rw [hx'] at this
        simp only [List.append_assoc] at this
        rw [← heq, List.take_append_drop] at this
        exact this
      · cases h
      · obtain ⟨rfl, rfl, rfl⟩ := lenEnc_zero hn heq
        refine .inr ⟨t, f, 0, data, ?_, hB⟩
        have := HeadOf.taken (rest := data) (.odd (tableId := t) (flags := f) (by simpa using ht) (by simpa using hf))
        rw [show le 2 1 = [1, 0] from rfl]
        simpa using this
      · cases h
      · obtain ⟨rfl, rfl, rfl⟩ := lenEnc_zero hn heq
        refine .inr ⟨t, f, 0, _, ?_, hB⟩
        have := HeadOf.back (rest := t1) (version := 2) (columns := 0) (tableId := t) (flags := f) rfl (by simpa using ht) (by simpa using hf) rfl
        rw [show le 2 0 = [0, 0] from rfl]
        simpa using this
    · rintro (h | ⟨t, f, n, rest, hh, hB⟩)
      · cases h with
        | @v2 t f extra t1 ht hf hx h =>
          exact ⟨t, _, _, ⟨by simpa using ht, rfl⟩, ⟨f, _, _, ⟨by simpa using hf, rfl⟩, ⟨extra.length + 2, extra ++ t1, hx, rfl,
            .inl ⟨by omega, .inl (by simpa using h)⟩⟩, rfl⟩, by simp⟩
      · cases hh with
        | taken hh =>
          cases hh with
          | plain hh =>
            cases hh with
            | @v2 _ _ _ extra count ht hf hx hn =>
              refine ⟨t, _, _, ⟨by simpa using ht, rfl⟩, ⟨f, _, _, ⟨by simpa using hf, rfl⟩, ⟨extra.length + 2, extra ++ count ++ rest, hx, rfl,
                .inl ⟨by omega, .inr ⟨n, count, rest, hn, hB, ?_⟩⟩⟩, rfl⟩, by simp⟩
              simp
          | odd ht hf =>
            exact ⟨t, _, _, ⟨by simpa using ht, rfl⟩, ⟨f, _, _, ⟨by simpa using hf, rfl⟩, ⟨1, rest, by decide, rfl,
              .inr (.inl ⟨rfl, .inr ⟨0, [0], rest, .one (n := 0) (by decide), hB, rfl⟩⟩)⟩, rfl⟩, by simp; rfl⟩
        | @back rest _ ht hf hc =>
          subst hc
          exact ⟨t, _, _, ⟨by simpa using ht, rfl⟩, ⟨f, _, _, ⟨by simpa using hf, rfl⟩, ⟨0, rest, by decide, rfl,
              .inr (.inr ⟨rfl, .inr ⟨0, [0], 0 :: rest, .one (n := 0) (by decide), hB, rfl⟩⟩)⟩, rfl⟩, by simp; rfl⟩

/-! ## Events -/

omit he in
theorem cachedColumns_none {tm : TableMapCache} {id : Nat} : cachedColumns tm id = none ↔ tm.get? id = none := by
  unfold cachedColumns
  cases tm.get? id <;> simp

theorem err_rowsEvent (m : Mode) {tm : TableMapCache} (htm : ProperCache tm) {version : Nat} (hv : version = 1 ∨ version = 2) :
    Faults (.error e) (parseRowsEvent m tm version) (RowsError m version (cachedColumns tm) e) := by
  unfold parseRowsEvent
  have hlist : ∀ (tableId : Nat) (present : List Bool), present.length < 2 ^ 63 → Faults (.error e) (parseRowDataList m tm tableId present)
      (fun data => cachedColumns tm tableId = none ∧ e = TABLE_MAP_NOT_FOUND ∨ ∃ columns, cachedColumns tm tableId = some columns ∧
        AfterSome (fun row e => e ≠ [] ∧ columns.length ≤ present.length ∧
        TakenImage m columns present row e) (fun t => t ≠ [] ∧ ImageError m e columns present t) data) := by
    intro tableId present hp
    unfold parseRowDataList
    simp only [cachedColumns_some, cachedColumns_none]
    cases hg : tm.get? tableId with
    | none => exact (fail_faults _).cast fun t => by simp
    | some table =>
      refine Faults.cast (Faults.whileData (exact_row m (htm _ _ hg) present hp) (err_row he m (htm _ _ hg) present hp)) fun t => ?_
      simp
  refine (err_head he hv fun tableId flags n => Faults.thenOf (Exact.bitmapLE n) ((ends_bitmapLE n).faults he)
    fun present _ hp => (hlist tableId present (by omega)).map _).cast fun body => ?_
  constructor
  · rintro (h | ⟨t, f, n, rest, hh, ⟨present, bitmap, data, ⟨h1, h2, h3⟩, ⟨h4, rfl⟩ | ⟨columns, h4, h5⟩, rfl⟩⟩)
    · exact .head h
    · exact .table hh h1 h2 h3 h4
    · subst h2
      exact .row hh h1 rfl h3 h4 h5
  · intro h
    cases h with
    | head h => exact .inl h
    | table hh hn hp hb ht => exact .inr ⟨_, _, _, _, hh, ⟨_, _, _, ⟨hn, hp, hb⟩, .inl ⟨ht, rfl⟩, rfl⟩⟩
    | row hh hn hp hb ht hr =>
      subst hp
      exact .inr ⟨_, _, _, _, hh, ⟨_, _, _, ⟨hn, rfl, hb⟩, .inr ⟨_, ht, hr⟩, rfl⟩⟩

theorem err_updateRowsEvent (m : Mode) {tm : TableMapCache} (htm : ProperCache tm) {version : Nat} (hv : version = 1 ∨ version = 2) :
    Faults (.error e) (parseUpdateRowsEvent m tm version) (UpdatesError m version (cachedColumns tm) e) := by
  unfold parseUpdateRowsEvent
  have hlist : ∀ (tableId n : Nat) (before after : List Bool), n < 2 ^ 63 → before.length = n → after.length = n →
      Faults (.error e) (parseUpdateRowDataList m tm tableId before after)
      (fun data => cachedColumns tm tableId = none ∧ e = TABLE_MAP_NOT_FOUND ∨ ∃ columns, cachedColumns tm tableId = some columns ∧
        AfterSome (fun row e => e ≠ [] ∧ columns.length ≤ n ∧ ∃ e1 e2,
          TakenImage m columns before (UpdateRowData.beforeUpdate row) e1 ∧ TakenImage m columns after row.afterUpdate e2 ∧ e = e1 ++ e2)
        (fun t => t ≠ [] ∧ (ImageError m e columns before t ∨ columns.length ≤ n ∧ ∃ row e' t1, TakenImage m columns before row e' ∧
          ImageError m e columns after t1 ∧ t = e' ++ t1)) data) := by
    intro tableId n before after hn h1 h2
    unfold parseUpdateRowDataList
    simp only [cachedColumns_some, cachedColumns_none]
    cases hg : tm.get? tableId with
    | none => exact (fail_faults _).cast fun t => by simp
    | some table =>
      have hp := htm _ _ hg
      have hc := (Faults.bind (exact_row m hp before (by omega)) (err_row he m hp before (by omega)) fun b =>
        (err_row he m hp after (by omega)).map fun a => UpdateRowData.mk b a)
      have hc' := hc.cast (L := fun t => ImageError m e (tableColumns table) before t ∨ (tableColumns table).length ≤ n ∧ ∃ row e' t1,
          TakenImage m (tableColumns table) before row e' ∧ ImageError m e (tableColumns table) after t1 ∧ t = e' ++ t1) fun t => by
        rw [h1]
        constructor
        · rintro (h | ⟨row, e, t1, ⟨h1, h2⟩, h3, rfl⟩)
          · exact .inl h
          · exact .inr ⟨h1, row, e, t1, h2, h3, rfl⟩
        · rintro (h | ⟨h1, row, e, t1, h2, h3, rfl⟩)
          · exact .inl h
          · exact .inr ⟨row, e, t1, ⟨h1, h2⟩, h3, rfl⟩
      refine Faults.cast (Faults.whileData (exact_updateRow m hp hn h1 h2) hc') fun t => ?_
      simp
  refine (err_head he hv fun tableId flags n => Faults.thenOf (Exact.bitmapLE n) ((ends_bitmapLE n).faults he)
    fun before _ hp => Faults.thenOf (Exact.bitmapLE n) ((ends_bitmapLE n).faults he)
    fun after _ hp' => (hlist tableId n before after hp.1 hp.2.1 hp'.2.1).map _).cast fun body => ?_
  constructor
  · rintro (h | ⟨t, f, n, rest, hh, ⟨before, bitmap1, _, ⟨h1, h2, h3⟩, ⟨after, bitmap2, data, ⟨_, h6, h7⟩, ⟨h4, rfl⟩ | ⟨columns, h4, h5⟩, rfl⟩, rfl⟩⟩)
    · exact .head h
    · rw [← List.append_assoc] at hh
      exact .table hh h1 h2 h6 h3 h7 h4
    · rw [← List.append_assoc] at hh
      exact .row hh h1 h2 h6 h3 h7 h4 h5
  · intro h
    cases h with
    | head h => exact .inl h
    | table hh hn hp1 hp2 hb1 hb2 ht =>
      exact .inr ⟨_, _, _, _, hh, ⟨_, _, _, ⟨hn, hp1, hb1⟩, ⟨_, _, _, ⟨hn, hp2, hb2⟩, .inl ⟨ht, rfl⟩, rfl⟩, List.append_assoc _ _ _⟩⟩
    | row hh hn hp1 hp2 hb1 hb2 ht hr =>
      exact .inr ⟨_, _, _, _, hh, ⟨_, _, _, ⟨hn, hp1, hb1⟩, ⟨_, _, _, ⟨hn, hp2, hb2⟩, .inr ⟨_, ht, hr⟩, rfl⟩, List.append_assoc _ _ _⟩⟩

end MysqlCdc
