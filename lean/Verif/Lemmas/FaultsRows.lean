import Verif.Lemmas.Faults
/-!
# Which row events crash the decoder, and which it never gets done with
-/

namespace MysqlCdc

open Spec

/-! ## Values -/

theorem any_be (k : Nat) (e : Bytes) (h : e.length = k) : ∃ n, n < 256 ^ k ∧ e = be k n := by
  subst h
  have h1 := leVal_lt e.reverse
  have h2 := le_leVal e.reverse
  rw [List.length_reverse] at h1 h2
  exact ⟨beVal e, h1, by unfold be beVal; rw [h2, List.reverse_reverse]⟩

theorem crash_fraction (m : Mode) {md : Nat} (hmd : md < 2 ^ 16) : Faults .crash (parseFractionalPart m md) (FractionCrash m md) := by
  unfold parseFractionalPart
  refine (Faults.bind (Exact.lift (addU m 16 md 1)) (Faults.lift .crash _) fun sum => Faults.ite (fun _ => Faults.ret .crash 0) fun _ =>
    Faults.bind (Exact.uintBE (sum / 2)) (crash_uintBE _) fun n => Faults.ite (fun _ => Faults.ret .crash _) fun _ =>
    Faults.ite (fun _ => Faults.panic) fun _ => Faults.ret .crash 0).cast fun t => ?_
  simp only [and_false, false_or, or_false, and_true, NoWidth, FractionCrash]
  by_cases h : md = 65535
  · subst h
    cases hm : m.checks with
    | true => simp [addU, hm, Fault.as]
    | false => simp [addU, hm, Fault.as]
  · have hadd : addU m 16 md 1 = .ok (md + 1) := by simp [addU]; omega
    rw [hadd]
    constructor
    · rintro (h1 | ⟨sum, _, _, ⟨h1, rfl⟩, ⟨h2, h3⟩, rfl⟩)
      · cases h1
      · cases h1
        rcases h3 with (h3 | h3) | ⟨n, _, t1, ⟨h3, h4, h5, rfl⟩, ⟨h6, h7⟩, rfl⟩
        · omega
        · exact .inr (.inl ⟨by omega, h3⟩)
        · refine .inr (.inr ⟨h7, by omega, by omega, h4, ?_⟩)
          simp
    · rintro (⟨h1, _⟩ | ⟨h1, h2⟩ | ⟨hm, h1, h2, h3, h4⟩)
      · exact absurd h1 h
      · exact .inr ⟨_, [], t, ⟨rfl, rfl⟩, ⟨by omega, .inl (.inr h2)⟩, rfl⟩
      · refine .inr ⟨_, [], t, ⟨rfl, rfl⟩, ⟨by omega, .inr ?_⟩, rfl⟩
        have hlen : (t.take ((md + 1) / 2)).length = (md + 1) / 2 := by rw [List.length_take]; omega
        obtain ⟨n, hn, he⟩ := any_be _ _ hlen
        exact ⟨n, _, t.drop ((md + 1) / 2), ⟨by omega, h3, hn, he⟩, ⟨by omega, hm⟩, (List.take_append_drop _ t).symm⟩

theorem timeCrash_iff (m : Mode) (k md : Nat) (t : Bytes) :
    (∃ (a : Nat) (e t1 : Bytes), (a < 256 ^ k ∧ e = be k a) ∧ FractionCrash m md t1 ∧ t = e ++ t1) ↔ TimeCrash m k md t := by
  constructor
  · rintro ⟨a, _, t1, ⟨_, rfl⟩, h, rfl⟩; exact ⟨_, t1, by simp, h, rfl⟩
  · rintro ⟨e, t1, hl, h, rfl⟩
    obtain ⟨n, hn, rfl⟩ := any_be k e hl
    exact ⟨n, _, t1, ⟨hn, rfl⟩, h, rfl⟩

theorem crash_time2 (m : Mode) {md : Nat} (hmd : md < 2 ^ 16) : Faults .crash (parseTime2 m md) (TimeCrash m 3 md) := by
  unfold parseTime2
  refine (Faults.then (Exact.uBE 3) (crash_uBE 3) fun n => Faults.bind (exact_fraction m hmd) (crash_fraction m hmd) fun micros =>
    Faults.ite (fun _ => Faults.fail .crash _) fun _ => Faults.ret .crash _).cast fun t => ?_
  simp only [and_false, or_false, false_and, exists_false]
  exact timeCrash_iff m 3 md t

theorem crash_dateTime2 (m : Mode) {md : Nat} (hmd : md < 2 ^ 16) : Faults .crash (parseDateTime2 m md) (TimeCrash m 5 md) := by
  unfold parseDateTime2
  refine (Faults.bind (Exact.uintBE 5) (crash_uintBE 5) fun n => (crash_fraction m hmd).map _).cast fun t => ?_
  have h5 : ¬NoWidth 5 := by unfold NoWidth; omega
  rw [← timeCrash_iff]
  simp [h5]

theorem crash_timestamp2 (m : Mode) {md : Nat} (hmd : md < 2 ^ 16) : Faults .crash (parseTimestamp2 m md) (TimeCrash m 4 md) := by
  unfold parseTimestamp2
  refine (Faults.then (Exact.uBE 4) (crash_uBE 4) fun n => (crash_fraction m hmd).map _).cast fun t => ?_
  exact timeCrash_iff m 4 md t

theorem crash_blob (md : Nat) : Faults .crash (parseBlob md) (BlobCrash md) := by
  unfold parseBlob
  exact (Faults.bind (Exact.uintLE md) (crash_uintLE md) fun n => crash_readVec n).cast fun t => Iff.rfl

theorem crash_decimal (m : Mode) {md : Nat} (hmd : md < 2 ^ 16) : Faults .crash (parseDecimal m md)
    (fun _ => m.checks = true ∧ md % 256 < md / 256 ∨ md = 0) := by
  have m1 : md &&& 0xFF = md % 256 := and255 md
  have m2 : (md >>> 8) % 256 = md / 256 := by rw [shr8]; omega
  unfold parseDecimal
  simp only [m1, m2, DIGITS_PER_INT]
  have hbody : ∀ (v : Bytes) (k ui ci uf cf : Nat), v.length = k → Faults .crash
      (match v with
      | [] => P.panic
      | v0 :: vs =>
        P.lift ((decimalBody ui ci uf cf (md / 256) (if (v0 &&& 0x80 == 0) = true then (['-'], ((v0 ^^^ 0x80) :: vs).map (· ^^^ 0xFF)) else ([], (v0 ^^^ 0x80) :: vs)).1).run
          (if (v0 &&& 0x80 == 0) = true then (['-'], ((v0 ^^^ 0x80) :: vs).map (· ^^^ 0xFF)) else ([], (v0 ^^^ 0x80) :: vs)).2) : P RStr)
      (fun _ => k = 0) := by
    intro v k ui ci uf cf hk
    cases v with
    | nil => exact Faults.panic.cast fun t => by simpa using hk.symm
    | cons v0 vs =>
      refine (Faults.lift .crash _).cast fun t => ?_
      constructor
      · intro h; exact absurd h (P.run_ne_panic (Safe.decimalBody _ _ _ _ _ _ _))
      · intro h; subst hk; simp at h
  have hc : ∀ n, compressedBytes n = 0 → n = 0 := by
    intro n hn
    unfold compressedBytes at hn
    split at hn <;> first | rfl | cases hn
  have hc' : ∀ n, compressedBytes n ≤ 4 := compressedBytes_le
  refine (Faults.bindOf (Exact.lift (subU m 16 (md % 256) (md / 256))) (Faults.lift .crash _) fun d e hd =>
    Faults.bindOf (Exact.readVec _) (crash_readVec _) fun v _ hv => hbody v _ _ _ _ _ hv.2.1).cast fun t => ?_
  constructor
  · rintro (h | ⟨d, _, _, ⟨h1, rfl⟩, h | ⟨v, _, t1, ⟨h2, h3, rfl⟩, h, rfl⟩, rfl⟩)
    · left
      unfold subU Fault.as at h
      by_cases hle : md / 256 ≤ md % 256
      · rw [if_pos hle] at h; cases h
      · rw [if_neg hle] at h
        cases hm : m.checks with
        | true => exact ⟨rfl, by omega⟩
        | false => rw [hm] at h; simp at h
    · exfalso
      have h1 := hc' (d % 256 - d % 256 / 9 * 9)
      have h2 := hc' (md / 256 - md / 256 / 9 * 9)
      omega
    · right
      have h4 := hc _ (show compressedBytes (d % 256 - d % 256 / 9 * 9) = 0 by omega)
      have h5 := hc _ (show compressedBytes (md / 256 - md / 256 / 9 * 9) = 0 by omega)
      have h6 : md / 256 = 0 := by omega
      rw [h6] at h1
      simp [subU] at h1
      have h7 : d % 256 / 9 = 0 := by omega
      omega
  · rintro (⟨hm, h⟩ | rfl)
    · left
      unfold subU Fault.as
      rw [if_neg (by omega), hm]; rfl
    · right
      exact ⟨0, [], t, ⟨by simp [subU], rfl⟩, .inr ⟨[], [], t, ⟨by decide, rfl, rfl⟩, rfl, rfl⟩, rfl⟩

theorem crash_text (md : Nat) : Faults .crash (parseString md) (fun _ => False) := Faults.safe fun buf => Safe.parseString buf

theorem crash_bit {md : Nat} (hmd : md < 2 ^ 16) : Faults .crash (parseBit md) (fun _ => False) := by
  unfold parseBit
  refine ((crash_bitmapBE _).map List.reverse).cast fun t => ?_
  rw [shr8, and255]
  simp; omega

theorem crash_time : Faults .crash parseTime (fun _ => False) := by
  unfold parseTime
  refine (Faults.then (Exact.uLE 3) (crash_uLE 3) fun n => Faults.ite (fun _ => Faults.fail .crash _) fun _ => Faults.ret .crash _).cast fun t => ?_
  simp

theorem fromCode_crash {m : Mode} {code md : Nat} {t : Bytes} (h : ValueCrash m code md t) : ∃ ct, ColumnType.fromCode code = .ok ct := by
  unfold ValueCrash at h
  split at h <;> first | exact ⟨_, rfl⟩ | exact h.elim

theorem crash_cell (m : Mode) (code : Nat) {md : Nat} (hmd : md < 2 ^ 16) : Faults .crash (parseCell m code md) (ValueCrash m code md) := by
  have hlift : Faults .crash (P.lift (ColumnType.fromCode code)) (fun _ => False) :=
    (Faults.lift .crash _).cast fun t => ⟨fun h => columnType_ne_panic code h, False.elim⟩
  unfold parseCell
  refine (Faults.thenOf (Exact.lift (ColumnType.fromCode code)) hlift (K2 := fun ct => ValueCrash m code md) fun ct e hct => ?_).cast fun t => ?_
  · obtain ⟨hct, -⟩ := hct
    unfold ColumnType.fromCode at hct
    split at hct <;> simp only [Res.ok.injEq, reduceCtorEq] at hct <;> subst hct
    all_goals unfold ValueCrash; simp only
    all_goals first
      | exact Faults.fail .crash _
      | exact crash_u8.map _
      | exact (crash_uLE _).map _
      | exact (crash_text md).map _
      | exact (crash_bit hmd).map _
      | exact (crash_timestamp2 m hmd).map _
      | exact (crash_dateTime2 m hmd).map _
      | exact (crash_time2 m hmd).map _
      | exact (crash_blob md).map _
      | exact (crash_decimal m hmd).map _
      | exact (crash_uintLE md).map _
      | exact ((crash_uLE _).map _).map _
      | exact (crash_u8.map _).map _
      | exact (crash_time).map _
  · constructor
    · rintro ⟨ct, _, t1, ⟨_, rfl⟩, h, rfl⟩; exact h
    · intro h
      obtain ⟨ct, hct⟩ := fromCode_crash h
      exact ⟨ct, [], t, ⟨hct, rfl⟩, h, rfl⟩

theorem crash_column (m : Mode) (t : UInt8) {md : Nat} (hmd : md < 2 ^ 16) :
    Faults .crash (parseColumn m t.toNat md) (CellCrash m t md) := by
  unfold parseColumn
  by_cases h254 : t = 254
  · subst h254
    have hcell := crash_cell m (getActualStringType 254 md).1 (md := (getActualStringType 254 md).2)
      (unpacked_lt ((unpacked_iff hmd _ _).1 rfl))
    refine hcell.cast fun e => ?_
    constructor
    · intro h; exact .packed rfl ((unpacked_iff hmd _ _).1 rfl) h
    · rintro (⟨ht, _⟩ | ⟨_, hu, h⟩)
      · exact absurd rfl ht
      · rw [← unpacked_iff hmd] at hu
        rw [hu]; exact h
  · have ht : t.toNat ≠ 254 := fun h => h254 (UInt8.toNat_inj.1 h)
    have hlift : Faults .crash (P.lift (ColumnType.fromCode t.toNat)) (fun _ => False) :=
      (Faults.lift .crash _).cast fun _ => ⟨fun h => columnType_ne_panic _ h, False.elim⟩
    refine (Faults.thenOf (Exact.lift (ColumnType.fromCode t.toNat)) hlift (K2 := fun _ => ValueCrash m t.toNat md) fun ct e hct => ?_).cast fun e => ?_
    · have : ct ≠ .string := fun h => ht (fromCode_string.1 (h ▸ hct.1))
      simp only [this, if_false]
      exact crash_cell m _ hmd
    · constructor
      · rintro ⟨_, _, _, ⟨_, rfl⟩, h, rfl⟩; exact .plain h254 h
      · rintro (⟨_, h⟩ | ⟨h, _, _⟩)
        · obtain ⟨ct, hct⟩ := fromCode_crash h
          exact ⟨ct, [], e, ⟨hct, rfl⟩, h, rfl⟩
        · exact absurd h h254

/-! ## Rows -/

theorem crash_columnsLoop (m : Mode) (cs : List (UInt8 × Nat)) (hcs : ∀ c ∈ cs, c.2 < 2 ^ 16) (ps ns : List Bool)
    (hn : ps.count true ≤ ns.length) : Faults .crash (columnsLoop m cs ps ns) (CellsCrash m cs ps ns) := by
  induction cs generalizing ps ns with
  | nil =>
    unfold columnsLoop
    exact (Faults.ret .crash _).cast fun t => ⟨False.elim, fun h => by cases h⟩
  | cons c cs ih =>
    have ih := ih (fun c hc => hcs c (List.mem_cons_of_mem _ hc))
    match ps, ns with
    | [], ns =>
      unfold columnsLoop
      exact Faults.panic.cast fun t => ⟨fun _ => .missing, fun _ => trivial⟩
    | false :: ps, ns =>
      unfold columnsLoop
      exact ((ih ps ns (by simpa using hn)).map _).cast fun t => ⟨.absent, fun h => by cases h with | absent h => exact h⟩
    | true :: ps, [] => simp at hn
    | true :: ps, true :: ns =>
      unfold columnsLoop
      exact ((ih ps ns (by simpa using hn)).map _).cast fun t => ⟨.null, fun h => by cases h with | null h => exact h⟩
    | true :: ps, false :: ns =>
      unfold columnsLoop
      have hc := hcs c List.mem_cons_self
      refine (Faults.bind (exact_column m c.1 hc) (crash_column m c.1 hc) fun v => (ih ps ns (by simpa using hn)).map _).cast fun t => ?_
      constructor
      · rintro (h | ⟨v, e, t1, h1, h2, rfl⟩)
        · exact .cell h
        · exact .value h1 h2
      · intro h
        cases h with
        | value h1 h2 => exact .inr ⟨_, _, _, h1, h2, rfl⟩
        | cell h => exact .inl h

theorem crash_row (m : Mode) {table : TableMapEvent} (h : ProperTable table) (present : List Bool) (hp : present.length < 2 ^ 63) :
    Faults .crash (parseRow m table present (getBitsNumber present)) (ImageCrash m (tableColumns table) present) := by
  unfold parseRow
  have hcount := List.count_le_length (a := true) (l := present)
  have hrow : ∀ ns, present.count true ≤ ns.length → Faults .crash (rowLoop m table present ns (List.range table.columnTypes.length) 0)
      (CellsCrash m (tableColumns table) present ns) := by
    intro ns hns
    have := rowLoop_columns m table present ns h.1 table.columnTypes.length 0 0 (by omega) (by omega)
    rw [List.range_eq_range', this]
    simp only [List.drop_zero]
    exact crash_columnsLoop m _ (fun c hc => h.2 _ (List.of_mem_zip hc).2) _ _ hns
  rw [getBitsNumber_count]
  refine (Faults.thenOf (Exact.bitmapLE _) ((crash_bitmapLE _).cast (L := fun _ => False) fun t => by simp; omega) fun ns _ hns =>
    (hrow ns (by omega)).map RowData.mk).cast fun t => ?_
  constructor
  · rintro ⟨ns, bitmap, t1, ⟨_, h2, h3⟩, h4, rfl⟩; exact ⟨ns, bitmap, t1, h2, h3, h4, rfl⟩
  · rintro ⟨ns, bitmap, t1, h2, h3, h4, rfl⟩; exact ⟨ns, bitmap, t1, ⟨by omega, h2, h3⟩, h4, rfl⟩

/-! ## The start of an event -/

theorem Faults.extra {α : Type} {f : Fault} (huLE : Faults f (P.uLE 2) (fun _ => False)) {k : P α} {K : Bytes → Prop} (h : Faults f k K) :
    Faults f (do
      let extraDataLength ← P.uLE 2
      P.seekCur ((extraDataLength : Int) - 2)
      k) (fun t => ∃ n t1, n < 2 ^ 16 ∧ t = le 2 n ++ t1 ∧
        (2 ≤ n ∧ K (t1.drop (n - 2)) ∨ n = 1 ∧ K (0 :: t1) ∨ n = 0 ∧ K (0 :: 0 :: t1))) := by
  intro buf pos
  have ok_of : ∀ n t1, n < 2 ^ 16 → buf.drop pos = le 2 n ++ t1 → P.uLE 2 buf pos = .ok (n, pos + 2) := fun n t1 hn ht =>
    (Exact.uLE 2 buf pos n _).2 ⟨_, ⟨by simpa using hn, rfl⟩, ⟨t1, ht.symm⟩, by simp⟩
  rw [P.seq_apply]
  cases hp : P.uLE 2 buf pos with
  | ok x =>
    obtain ⟨n, q⟩ := x
    obtain ⟨_, ⟨hn, rfl⟩, ⟨t1, ht⟩, rfl⟩ := (Exact.uLE 2 _ _ _ _).1 hp
    have hs : P.seekCur ((n : Int) - 2) buf (pos + (le 2 n).length) = .ok ((), pos + n) := by
      unfold P.seekCur
      rw [le_length, if_pos (by omega)]
      congr 2
      omega
    simp only [Res.bind]
    rw [P.seq_apply, hs]
    simp only [Res.bind]
    rw [h buf (pos + n), ← List.drop_drop, ← ht]
    have key : K ((le 2 n ++ t1).drop n) ↔ (2 ≤ n ∧ K (t1.drop (n - 2)) ∨ n = 1 ∧ K (0 :: t1) ∨ n = 0 ∧ K (0 :: 0 :: t1)) := by
      by_cases h2 : 2 ≤ n
      · rw [List.drop_append, le_length, List.drop_eq_nil_of_le (by simpa using h2), List.nil_append]
        constructor
        · intro hr; exact .inl ⟨h2, hr⟩
        · rintro (⟨_, hr⟩ | ⟨h, _⟩ | ⟨h, _⟩)
          · exact hr
          · omega
          · omega
      · obtain rfl | rfl : n = 1 ∨ n = 0 := by omega
        · rw [show (le 2 1 ++ t1).drop 1 = 0 :: t1 from rfl]; simp
        · rw [show (le 2 0 ++ t1).drop 0 = 0 :: 0 :: t1 from rfl]; simp
    rw [key]
    constructor
    · intro hk; exact ⟨n, t1, by simpa using hn, rfl, hk⟩
    · rintro ⟨n', t', hn', he, hk⟩
      have := ok_of n' t' hn' (by rw [← ht]; exact he)
      rw [hp] at this
      simp only [Res.ok.injEq, Prod.mk.injEq] at this
      obtain ⟨rfl, _⟩ := this
      obtain ⟨_, rfl⟩ := List.append_inj he rfl
      exact hk
  | err e =>
    simp only [Res.bind]
    constructor
    · intro h; exact ((huLE buf pos).1 (by rw [hp]; exact Fault.err_as.2 (Fault.err_as.1 h))).elim
    · rintro ⟨n, t1, hn, he, _⟩; rw [ok_of n t1 hn he] at hp; cases hp
  | panic => exact absurd hp (Safe.uLE buf 2 pos).1
  | hang => exact absurd hp (Step.uLE 2 buf pos).1

/-- The start of a row event, followed by what depends on it. -/
theorem Faults.head {α : Type} {g : Fault} (huLE : ∀ n, Faults g (P.uLE n) (fun _ => False)) (hnum : Faults g readLenEncNum (fun _ => False))
    {version : Nat} (hv : version = 1 ∨ version = 2) {k : Nat × Nat × Nat → P α}
    {B : Nat → Nat → Nat → Bytes → Prop} (hk : ∀ t f n, Faults g (k (t, f, n)) (B t f n)) :
    Faults g (parseHead version >>= k) (fun body => ∃ t f n rest, HeadOf version t f n body rest ∧ B t f n rest) := by
  rcases hv with rfl | rfl
  · have hp : parseHead 1 >>= k = (P.uLE 6 >>= fun t => P.uLE 2 >>= fun f => readLenEncNum >>= fun n => k (t, f, n)) := by
      simp only [parseHead, P.bind_bind, P.ret_bind, show ¬(1 = 2) by decide, if_false]
    rw [hp]
    refine Faults.cast (Faults.then (Exact.uLE 6) (huLE 6) fun t => Faults.then (Exact.uLE 2) (huLE 2) fun f =>
      Faults.then Exact.lenEncNum hnum fun n => hk t f n) fun body => ?_
    constructor
    · rintro ⟨t, _, _, ⟨ht, rfl⟩, ⟨f, _, _, ⟨hf, rfl⟩, ⟨n, count, data, hn, hB, rfl⟩, rfl⟩, rfl⟩
      refine ⟨t, f, n, data, ?_, hB⟩
      have := HeadOf.taken (rest := data) (.plain (.v1 (by simpa using ht) (by simpa using hf) hn))
      simpa using this
    · rintro ⟨t, f, n, rest, hh, hB⟩
      cases hh with
      | taken hh =>
        cases hh with
        | plain hh =>
          cases hh with
          | v1 ht hf hn =>
            exact ⟨t, _, _, ⟨by simpa using ht, rfl⟩, ⟨f, _, _, ⟨by simpa using hf, rfl⟩, ⟨n, _, rest, hn, hB, rfl⟩, rfl⟩, by simp⟩
      | back hv _ _ _ => cases hv
  · have hp : parseHead 2 >>= k = (P.uLE 6 >>= fun t => P.uLE 2 >>= fun f => P.uLE 2 >>= fun e => P.seekCur ((e : Int) - 2) >>= fun _ =>
        readLenEncNum >>= fun n => k (t, f, n)) := by
      simp only [parseHead, P.bind_bind, P.ret_bind, if_true]
    rw [hp]
    refine Faults.cast (Faults.then (Exact.uLE 6) (huLE 6) fun t => Faults.then (Exact.uLE 2) (huLE 2) fun f =>
      Faults.extra (huLE 2) (Faults.then Exact.lenEncNum hnum fun n => hk t f n)) fun body => ?_
    constructor
    · rintro ⟨t, _, _, ⟨ht, rfl⟩, ⟨f, _, _, ⟨hf, rfl⟩, ⟨e, t1, he, rfl, hr⟩, rfl⟩, rfl⟩
      rcases hr with ⟨h2, n, count, data, hn, hB, heq⟩ | ⟨rfl, n, count, data, hn, hB, heq⟩ | ⟨rfl, n, count, data, hn, hB, heq⟩
      · have hne : t1.drop (e - 2) ≠ [] := by
          rw [heq]; intro h; exact LenEnc_ne_nil hn (List.append_eq_nil_iff.1 h).1
        have hlen : e - 2 < t1.length := by
          have := mt List.drop_eq_nil_iff.2 hne; omega
        have hx : (t1.take (e - 2)).length + 2 = e := by rw [List.length_take]; omega
        refine ⟨t, f, n, data, ?_, hB⟩
        have := HeadOf.taken (rest := data)
          (.plain (.v2 (extra := t1.take (e - 2)) (by simpa using ht) (by simpa using hf) (by omega) hn))
        rw [hx] at this
        simp only [List.append_assoc] at this
        rw [← heq, List.take_append_drop] at this
        exact this
      · obtain ⟨rfl, rfl, rfl⟩ := lenEnc_zero hn heq
        refine ⟨t, f, 0, data, ?_, hB⟩
        have := HeadOf.taken (rest := data) (.odd (tableId := t) (flags := f) (by simpa using ht) (by simpa using hf))
        rw [show le 2 1 = [1, 0] from rfl]
        simpa using this
      · obtain ⟨rfl, rfl, rfl⟩ := lenEnc_zero hn heq
        refine ⟨t, f, 0, _, ?_, hB⟩
        have := HeadOf.back (rest := t1) (version := 2) (columns := 0) (tableId := t) (flags := f) rfl (by simpa using ht) (by simpa using hf) rfl
        rw [show le 2 0 = [0, 0] from rfl]
        simpa using this
    · rintro ⟨t, f, n, rest, hh, hB⟩
      cases hh with
      | taken hh =>
        cases hh with
        | plain hh =>
          cases hh with
          | @v2 _ _ _ extra count ht hf he hn =>
            refine ⟨t, _, _, ⟨by simpa using ht, rfl⟩, ⟨f, _, _, ⟨by simpa using hf, rfl⟩, ⟨extra.length + 2, extra ++ count ++ rest, he, rfl,
              .inl ⟨by omega, n, count, rest, hn, hB, ?_⟩⟩, rfl⟩, by simp⟩
            simp
        | odd ht hf =>
          exact ⟨t, _, _, ⟨by simpa using ht, rfl⟩, ⟨f, _, _, ⟨by simpa using hf, rfl⟩, ⟨1, rest, by decide, rfl,
            .inr (.inl ⟨rfl, 0, [0], rest, .one (n := 0) (by decide), hB, rfl⟩)⟩, rfl⟩, by simp; rfl⟩
      | @back rest _ ht hf hc =>
        subst hc
        exact ⟨t, _, _, ⟨by simpa using ht, rfl⟩, ⟨f, _, _, ⟨by simpa using hf, rfl⟩, ⟨0, rest, by decide, rfl,
            .inr (.inr ⟨rfl, 0, [0], 0 :: rest, .one (n := 0) (by decide), hB, rfl⟩)⟩, rfl⟩, by simp; rfl⟩

/-! ## Events -/

theorem cachedColumns_some {tm : TableMapCache} {id : Nat} {columns : List (UInt8 × Nat)} :
    cachedColumns tm id = some columns ↔ ∃ table, tm.get? id = some table ∧ tableColumns table = columns := by
  unfold cachedColumns tableColumns
  cases tm.get? id <;> simp

theorem crash_rowsEvent (m : Mode) {tm : TableMapCache} (htm : ProperCache tm) {version : Nat} (hv : version = 1 ∨ version = 2) :
    Faults .crash (parseRowsEvent m tm version) (RowsCrash m version (cachedColumns tm)) := by
  unfold parseRowsEvent
  have hlist : ∀ (tableId : Nat) (present : List Bool), present.length < 2 ^ 63 → Faults .crash (parseRowDataList m tm tableId present)
      (fun data => ∃ columns, cachedColumns tm tableId = some columns ∧ AfterSome (fun row e => e ≠ [] ∧ columns.length ≤ present.length ∧
        TakenImage m columns present row e) (fun t => t ≠ [] ∧ ImageCrash m columns present t) data) := by
    intro tableId present hp
    unfold parseRowDataList
    simp only [cachedColumns_some]
    cases hg : tm.get? tableId with
    | none => exact (Faults.fail .crash _).cast fun t => by simp
    | some table =>
      refine Faults.cast (Faults.whileData (exact_row m (htm _ _ hg) present hp) (crash_row m (htm _ _ hg) present hp)) fun t => ?_
      simp
  refine (Faults.head crash_uLE crash_lenEncNum hv fun tableId flags n => Faults.bindOf (Exact.bitmapLE n) (crash_bitmapLE n)
    fun present _ hp => (hlist tableId present (by omega)).map _).cast fun body => ?_
  constructor
  · rintro ⟨t, f, n, rest, hh, hn | ⟨present, bitmap, data, ⟨h1, h2, h3⟩, ⟨columns, h4, h5⟩, rfl⟩⟩
    · exact .columns hh hn
    · subst h2
      exact .row hh h1 rfl h3 h4 h5
  · rintro (⟨hh, hn⟩ | ⟨hh, hn, hp, hb, ht, hr⟩)
    · exact ⟨_, _, _, _, hh, .inl hn⟩
    · subst hp
      exact ⟨_, _, _, _, hh, .inr ⟨_, _, _, ⟨hn, rfl, hb⟩, ⟨_, ht, hr⟩, rfl⟩⟩

/-- The step of the loop over the rows of UPDATE_ROWS. -/
theorem exact_updateRow (m : Mode) {table : TableMapEvent} (h : ProperTable table) {n : Nat} {before after : List Bool} (hn : n < 2 ^ 63)
    (h1 : before.length = n) (h2 : after.length = n) : Exact (do
      let beforeUpdate ← parseRow m table before (getBitsNumber before)
      let afterUpdate ← parseRow m table after (getBitsNumber after)
      return ({ beforeUpdate, afterUpdate } : UpdateRowData)) (fun row e => (tableColumns table).length ≤ n ∧ ∃ e1 e2,
        TakenImage m (tableColumns table) before row.beforeUpdate e1 ∧ TakenImage m (tableColumns table) after row.afterUpdate e2 ∧
        e = e1 ++ e2) := by
  have hr1 := exact_row m h before (by omega)
  have hr2 := exact_row m h after (by omega)
  refine (hr1.bind fun b => hr2.map fun a => UpdateRowData.mk b a).cast fun row e => ?_
  rw [h1, h2]
  constructor
  · rintro ⟨b, e1, e2, ⟨h1, h2⟩, ⟨a, ⟨h3, h4⟩, rfl⟩, rfl⟩
    exact ⟨h1, e1, e2, h2, h4, rfl⟩
  · rintro ⟨h1, e1, e2, h2, h4, rfl⟩
    exact ⟨row.beforeUpdate, e1, e2, ⟨h1, h2⟩, ⟨row.afterUpdate, ⟨h1, h4⟩, rfl⟩, rfl⟩

theorem crash_updateRowsEvent (m : Mode) {tm : TableMapCache} (htm : ProperCache tm) {version : Nat} (hv : version = 1 ∨ version = 2) :
    Faults .crash (parseUpdateRowsEvent m tm version) (UpdatesCrash m version (cachedColumns tm)) := by
  unfold parseUpdateRowsEvent
  have hlist : ∀ (tableId n : Nat) (before after : List Bool), n < 2 ^ 63 → before.length = n → after.length = n →
      Faults .crash (parseUpdateRowDataList m tm tableId before after)
      (fun data => ∃ columns, cachedColumns tm tableId = some columns ∧ AfterSome (fun row e => e ≠ [] ∧ columns.length ≤ n ∧ ∃ e1 e2,
          TakenImage m columns before (UpdateRowData.beforeUpdate row) e1 ∧ TakenImage m columns after row.afterUpdate e2 ∧ e = e1 ++ e2)
        (fun t => t ≠ [] ∧ (ImageCrash m columns before t ∨ columns.length ≤ n ∧ ∃ row e t1, TakenImage m columns before row e ∧
          ImageCrash m columns after t1 ∧ t = e ++ t1)) data) := by
    intro tableId n before after hn h1 h2
    unfold parseUpdateRowDataList
    simp only [cachedColumns_some]
    cases hg : tm.get? tableId with
    | none => exact (Faults.fail .crash _).cast fun t => by simp
    | some table =>
      have hp := htm _ _ hg
      have hc := (Faults.bind (exact_row m hp before (by omega)) (crash_row m hp before (by omega)) fun b =>
        (crash_row m hp after (by omega)).map fun a => UpdateRowData.mk b a)
      have hc' := hc.cast (L := fun t => ImageCrash m (tableColumns table) before t ∨ (tableColumns table).length ≤ n ∧ ∃ row e t1,
          TakenImage m (tableColumns table) before row e ∧ ImageCrash m (tableColumns table) after t1 ∧ t = e ++ t1) fun t => by
        rw [h1]
        constructor
        · rintro (h | ⟨row, e, t1, ⟨h1, h2⟩, h3, rfl⟩)
          · exact .inl h
          · exact .inr ⟨h1, row, e, t1, h2, h3, rfl⟩
        · rintro (h | ⟨h1, row, e, t1, h2, h3, rfl⟩)
          · exact .inl h
          · exact .inr ⟨row, e, t1, ⟨h1, h2⟩, h3, rfl⟩
      refine Faults.cast (Faults.whileData (exact_updateRow m hp hn h1 h2) hc') fun t => ?_
      simp
  refine (Faults.head crash_uLE crash_lenEncNum hv fun tableId flags n => Faults.bindOf (Exact.bitmapLE n) (crash_bitmapLE n)
    fun before _ hp => Faults.thenOf (Exact.bitmapLE n) ((crash_bitmapLE n).cast (L := fun _ => False) fun t => by simp; omega)
    fun after _ hp' => (hlist tableId n before after hp.1 hp.2.1 hp'.2.1).map _).cast fun body => ?_
  constructor
  · rintro ⟨t, f, n, rest, hh, hn | ⟨before, bitmap1, _, ⟨h1, h2, h3⟩, ⟨after, bitmap2, data, ⟨_, h6, h7⟩, ⟨columns, h4, h5⟩, rfl⟩, rfl⟩⟩
    · exact .columns hh hn
    · rw [← List.append_assoc] at hh
      exact .row hh h1 h2 h6 h3 h7 h4 h5
  · rintro (⟨hh, hn⟩ | ⟨hh, hn, hp1, hp2, hb1, hb2, ht, hr⟩)
    · exact ⟨_, _, _, _, hh, .inl hn⟩
    · exact ⟨_, _, _, _, hh, .inr ⟨_, _, _, ⟨hn, hp1, hb1⟩, ⟨_, _, _, ⟨hn, hp2, hb2⟩, ⟨_, ht, hr⟩, rfl⟩, by simp⟩⟩

/-! ## Loops -/

theorem takenCells_absent {m : Mode} {cs : List (UInt8 × Nat)} {ss : List ColState} {e : Bytes} (h : TakenCells m cs ss e)
    (hs : ∀ s ∈ ss, ColState.present s = false) : e = [] := by
  induction h with
  | nil => rfl
  | absent _ ih => exact ih fun s h => hs s (List.mem_cons_of_mem _ h)
  | null _ _ => exact absurd (hs _ List.mem_cons_self) (by simp [ColState.present])
  | value _ _ _ => exact absurd (hs _ List.mem_cons_self) (by simp [ColState.present])

theorem absentCells (m : Mode) (cs : List (UInt8 × Nat)) : TakenCells m cs (List.replicate cs.length .absent) [] := by
  induction cs with
  | nil => exact .nil
  | cons c cs ih => exact .absent ih

theorem allFalse {bits : List Bool} (h : true ∉ bits) : bits = List.replicate bits.length false := by
  refine List.eq_replicate_iff.2 ⟨rfl, fun b hb => ?_⟩
  cases b with
  | false => rfl
  | true => exact absurd hb h

/-- An image without a column present has no bytes. -/
theorem image_of_none {m : Mode} {columns : List (UInt8 × Nat)} {present : List Bool} (h0 : true ∉ present) {row : RowData} {e : Bytes}
    (h : TakenImage m columns present row e) : e = [] := by
  obtain ⟨states, more, bitmap, data, h1, h2, h3, h4, rfl, _⟩ := h
  have hs : ∀ s ∈ states, ColState.present s = false := by
    intro s hs
    have : ColState.present s ∈ present := List.mem_of_mem_take (h1 ▸ List.mem_map_of_mem hs)
    cases hp : ColState.present s with
    | false => rfl
    | true => rw [hp] at this; exact absurd this h0
  rw [takenCells_absent h4 hs, List.append_nil]
  have hm : more = [] := List.eq_nil_of_length_eq_zero (by
    rw [h2, List.count_eq_zero]; exact fun h => h0 (List.mem_of_mem_drop h))
  have hf : states.filterMap ColState.nullFlag = [] := List.eq_nil_of_length_eq_zero (by
    rw [nullFlags_length, ← h1, List.count_eq_zero]; exact fun h => h0 (List.mem_of_mem_take h))
  rw [hm, hf] at h3
  exact bitmapLE_nil h3

theorem none_image (m : Mode) {columns : List (UInt8 × Nat)} {present : List Bool} (h0 : true ∉ present)
    (hc : columns.length ≤ present.length) : ∃ row, TakenImage m columns present row [] := by
  refine ⟨_, List.replicate columns.length .absent, [], [], [], ?_, ?_, ?_, absentCells m columns, rfl, rfl⟩
  · rw [allFalse h0, List.take_replicate, List.map_replicate, Nat.min_eq_left hc]; rfl
  · rw [List.length_nil, eq_comm, List.count_eq_zero]; exact fun h => h0 (List.mem_of_mem_drop h)
  · have : (List.replicate columns.length ColState.absent).filterMap ColState.nullFlag = [] := by
      rw [List.filterMap_replicate]; rfl
    rw [this]
    exact ⟨rfl, by simp⟩

theorem image_none {m : Mode} {columns : List (UInt8 × Nat)} {present : List Bool} {row : RowData}
    (h : TakenImage m columns present row []) : true ∉ present := by
  obtain ⟨states, more, bitmap, data, h1, h2, h3, h4, he, _⟩ := h
  obtain ⟨rfl, rfl⟩ := List.append_eq_nil_iff.1 he.symm
  have hl := h3.1
  simp only [List.length_nil, bytesFor, List.length_append] at hl
  rw [nullFlags_length, ← h1, h2] at hl
  rw [← List.count_eq_zero, ← List.take_append_drop columns.length present, List.count_append]
  omega

theorem loop_uLE (n : Nat) : Faults .loop (P.uLE n) (fun _ => False) := Faults.noHang (Step.uLE n).noHang
theorem loop_bitmapLE (n : Nat) : Faults .loop (readBitmapLittleEndian n) (fun _ => False) := Faults.noHang (Step.bitmapLE n).noHang

/-- Once no column is present, all data makes the loop. -/
theorem afterSome_none {α : Type} {R : α → Bytes → Prop} {data : Bytes} (h : (∃ a, R a []) → ∀ a e, R a e → e = []) :
    AfterSome (fun v e => e ≠ [] ∧ R v e) (fun t => t ≠ [] ∧ ∃ a, R a []) data ↔ data ≠ [] ∧ ∃ a, R a [] := by
  constructor
  · rintro ⟨vs, e, t1, hs, ⟨hne, ha⟩, rfl⟩
    cases hs with
    | nil => exact ⟨hne, ha⟩
    | cons r _ => exact absurd (h ha _ _ r.2) r.1
  · rintro ⟨hne, ha⟩
    exact ⟨[], [], data, .nil, ⟨hne, ha⟩, rfl⟩

theorem loop_rowsEvent (m : Mode) {tm : TableMapCache} (htm : ProperCache tm) {version : Nat} (hv : version = 1 ∨ version = 2) :
    Faults .loop (parseRowsEvent m tm version) (RowsLoop version (cachedColumns tm)) := by
  unfold parseRowsEvent
  have hlist : ∀ (tableId : Nat) (present : List Bool), present.length < 2 ^ 63 → Faults .loop (parseRowDataList m tm tableId present)
      (fun data => ∃ columns, cachedColumns tm tableId = some columns ∧ columns.length ≤ present.length ∧ true ∉ present ∧ data ≠ []) := by
    intro tableId present hp
    unfold parseRowDataList
    simp only [cachedColumns_some]
    cases hg : tm.get? tableId with
    | none => exact (Faults.fail .loop _).cast fun t => by simp
    | some table =>
      refine Faults.cast (Faults.whileData (exact_row m (htm _ _ hg) present hp) (Faults.noHang (step_row m table present _).noHang)) fun t => ?_
      simp only [false_or, true_and]
      rw [afterSome_none (by rintro ⟨a, h1, h2⟩ b e ⟨_, h3⟩; exact image_of_none (image_none h2) h3)]
      constructor
      · rintro ⟨hne, a, h1, h2⟩; exact ⟨_, ⟨_, rfl, rfl⟩, h1, image_none h2, hne⟩
      · rintro ⟨_, ⟨_, hs, rfl⟩, h1, h2, hne⟩
        cases hs
        obtain ⟨row, hrow⟩ := none_image m h2 h1
        exact ⟨hne, row, h1, hrow⟩
  refine (Faults.head loop_uLE (Faults.noHang Step.readLenEncNum.noHang) hv fun tableId flags n =>
    Faults.thenOf (Exact.bitmapLE n) (loop_bitmapLE n) fun present _ hp => (hlist tableId present (by omega)).map _).cast fun body => ?_
  constructor
  · rintro ⟨t, f, n, rest, hh, ⟨present, bitmap, data, ⟨h1, h2, h3⟩, ⟨columns, h4, h5, h6, h7⟩, rfl⟩⟩
    subst h2
    exact .mk hh h1 rfl h3 h4 h5 h6 h7
  · rintro ⟨hh, hn, hp, hb, ht, hc, h0, hd⟩
    subst hp
    exact ⟨_, _, _, _, hh, ⟨_, _, _, ⟨hn, rfl, hb⟩, ⟨_, ht, hc, h0, hd⟩, rfl⟩⟩

theorem loop_updateRowsEvent (m : Mode) {tm : TableMapCache} (htm : ProperCache tm) {version : Nat} (hv : version = 1 ∨ version = 2) :
    Faults .loop (parseUpdateRowsEvent m tm version) (UpdatesLoop version (cachedColumns tm)) := by
  unfold parseUpdateRowsEvent
  have hlist : ∀ (tableId n : Nat) (before after : List Bool), n < 2 ^ 63 → before.length = n → after.length = n →
      Faults .loop (parseUpdateRowDataList m tm tableId before after)
      (fun data => ∃ columns, cachedColumns tm tableId = some columns ∧ columns.length ≤ n ∧ true ∉ before ∧ true ∉ after ∧ data ≠ []) := by
    intro tableId n before after hn h1 h2
    unfold parseUpdateRowDataList
    simp only [cachedColumns_some]
    cases hg : tm.get? tableId with
    | none => exact (Faults.fail .loop _).cast fun t => by simp
    | some table =>
      have hp := htm _ _ hg
      have none : ∀ row : UpdateRowData, ((tableColumns table).length ≤ n ∧ ∃ e1 e2,
          TakenImage m (tableColumns table) before row.beforeUpdate e1 ∧ TakenImage m (tableColumns table) after row.afterUpdate e2 ∧
          ([] : Bytes) = e1 ++ e2) → true ∉ before ∧ true ∉ after := by
        rintro row ⟨h3, e1, e2, h4, h5, he⟩
        obtain ⟨rfl, rfl⟩ := List.append_eq_nil_iff.1 he.symm
        exact ⟨image_none h4, image_none h5⟩
      have hstep : NoHang (do
          let beforeUpdate ← parseRow m table before (getBitsNumber before)
          let afterUpdate ← parseRow m table after (getBitsNumber after)
          return ({ beforeUpdate, afterUpdate } : UpdateRowData)) :=
        (step_row m table before _).noHang.bind fun _ => ((step_row m table after _).map _).noHang
      refine Faults.cast (Faults.whileData (exact_updateRow m hp hn h1 h2) (Faults.noHang hstep)) fun t => ?_
      simp only [false_or, true_and]
      rw [afterSome_none (by
        rintro ⟨a, ha⟩ b e ⟨_, e1, e2, h3, h4, rfl⟩
        obtain ⟨h5, h6⟩ := none a ha
        rw [image_of_none h5 h3, image_of_none h6 h4]; rfl)]
      constructor
      · rintro ⟨hne, a, ha⟩; exact ⟨_, ⟨_, rfl, rfl⟩, ha.1, (none a ha).1, (none a ha).2, hne⟩
      · rintro ⟨_, ⟨_, hs, rfl⟩, h3, h4, h5, hne⟩
        cases hs
        obtain ⟨row1, hrow1⟩ := none_image m h4 (columns := tableColumns table) (by omega)
        obtain ⟨row2, hrow2⟩ := none_image m h5 (columns := tableColumns table) (by omega)
        exact ⟨hne, ⟨row1, row2⟩, h3, [], [], hrow1, hrow2, rfl⟩
  refine (Faults.head loop_uLE (Faults.noHang Step.readLenEncNum.noHang) hv fun tableId flags n =>
    Faults.thenOf (Exact.bitmapLE n) (loop_bitmapLE n) fun before _ hp => Faults.thenOf (Exact.bitmapLE n) (loop_bitmapLE n)
    fun after _ hp' => (hlist tableId n before after hp.1 hp.2.1 hp'.2.1).map _).cast fun body => ?_
  constructor
  · rintro ⟨t, f, n, rest, hh, ⟨before, bitmap1, _, ⟨h1, h2, h3⟩, ⟨after, bitmap2, data, ⟨_, h6, h7⟩, ⟨columns, h4, h5, h8, h9, h10⟩, rfl⟩, rfl⟩⟩
    rw [← List.append_assoc] at hh
    exact .mk hh h1 h2 h6 h3 h7 h4 h5 h8 h9 h10
  · rintro ⟨hh, hn, hp1, hp2, hb1, hb2, ht, hc, h1, h2, hd⟩
    exact ⟨_, _, _, _, hh, ⟨_, _, _, ⟨hn, hp1, hb1⟩, ⟨_, _, _, ⟨hn, hp2, hb2⟩, ⟨_, ht, hc, h1, h2, hd⟩, rfl⟩, by simp⟩⟩

end MysqlCdc
