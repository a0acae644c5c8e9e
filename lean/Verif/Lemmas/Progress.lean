import Verif.Model.EventParser
import Verif.Lemmas.Parses
/-!
# Termination and progress of the parsers
-/

namespace MysqlCdc

/-- Never loops for ever. -/
def NoHang {α : Type} (p : P α) : Prop := ∀ buf pos, p buf pos ≠ .hang

/-- Never loops for ever, and reads at least `k` bytes when it succeeds. -/
def Step {α : Type} (k : Nat) (p : P α) : Prop :=
  ∀ buf pos, p buf pos ≠ .hang ∧ ∀ r, p buf pos = .ok r → pos + k ≤ r.2

theorem Step.noHang {α : Type} {k : Nat} {p : P α} (h : Step k p) : NoHang p := fun buf pos => (h buf pos).1

theorem Step.weaken {α : Type} {k j : Nat} {p : P α} (h : Step k p) (hj : j ≤ k) : Step j p := fun buf pos =>
  ⟨(h buf pos).1, fun r hr => by have := (h buf pos).2 r hr; omega⟩

theorem Step.bind {α β : Type} {k j : Nat} {p : P α} {f : α → P β} (h1 : Step k p) (h2 : ∀ a, Step j (f a)) :
    Step (k + j) (p >>= f) := by
  intro buf pos
  rw [P.seq_apply]
  have a1 := h1 buf pos
  cases hp : p buf pos with
  | ok r =>
    have a2 := h2 r.1 buf r.2
    have a3 := a1.2 r hp
    exact ⟨a2.1, fun r' hr' => by have := a2.2 r' hr'; omega⟩
  | err e => exact ⟨by simp, by simp⟩
  | panic => exact ⟨by simp, by simp⟩
  | hang => exact absurd hp a1.1

theorem NoHang.bind {α β : Type} {p : P α} {f : α → P β} (h1 : NoHang p) (h2 : ∀ a, NoHang (f a)) : NoHang (p >>= f) := by
  intro buf pos
  rw [P.seq_apply]
  cases hp : p buf pos with
  | ok r => exact h2 r.1 buf r.2
  | err e => simp
  | panic => simp
  | hang => exact absurd hp (h1 buf pos)

/-- Only the first part need make progress. -/
theorem Step.bind0 {α β : Type} {k : Nat} {p : P α} {f : α → P β} (h1 : Step k p) (h2 : ∀ a, Step 0 (f a)) :
    Step k (p >>= f) := h1.bind h2

theorem Step.pure {α : Type} (a : α) : Step 0 (Pure.pure a : P α) := fun buf pos => by
  constructor
  · simp
  · intro r hr; simp at hr; rw [← hr]; simp

theorem Step.fail {α : Type} (k : Nat) (e : Err) : Step k (P.fail e : P α) := fun buf pos => by simp [P.fail]
theorem Step.panic {α : Type} (k : Nat) : Step k (P.panic : P α) := fun buf pos => by simp [P.panic]
theorem Step.lift {α : Type} {r : Res α} (h : r ≠ .hang) : Step 0 (P.lift r) := fun buf pos => by
  cases r <;> simp_all [P.lift]

theorem Step.readExact (n : Nat) : Step n (P.readExact n) := fun buf pos => by
  unfold P.readExact
  split
  · refine ⟨by simp, fun r hr => ?_⟩
    simp at hr; rw [← hr]; exact Nat.le_refl _
  · simp

theorem Step.map {α β : Type} {k : Nat} {p : P α} (h : Step k p) (f : α → β) : Step k (p >>= fun a => Pure.pure (f a)) :=
  h.bind0 fun _ => .pure _

theorem Step.uLE (k : Nat) : Step k (P.uLE k) := (Step.readExact k).map _
theorem Step.uBE (k : Nat) : Step k (P.uBE k) := (Step.readExact k).map _
theorem Step.u8 : Step 1 P.u8 := (Step.readExact 1).map _

theorem Step.uintLE (k : Nat) : Step k (P.uintLE k) := by
  unfold P.uintLE
  split
  · exact .panic _
  · refine (Step.readExact k).bind0 fun bs => ?_
    split
    · exact .panic _
    · exact .pure _

theorem Step.uintBE (k : Nat) : Step k (P.uintBE k) := by
  unfold P.uintBE
  split
  · exact .panic _
  · refine (Step.readExact k).bind0 fun bs => ?_
    split
    · exact .panic _
    · exact .pure _

theorem Step.alloc (n : Nat) : Step 0 (P.lift (allocZeroed n)) := by
  apply Step.lift
  unfold allocZeroed
  split <;> simp

theorem Step.readVec (n : Nat) : Step n (P.readVec n) := by
  unfold P.readVec
  simpa using (Step.alloc n).bind fun _ => Step.readExact n

theorem Step.seek (n : Nat) : Step n (P.seekCur n) := fun buf pos => by
  unfold P.seekCur
  rw [if_pos (by omega)]
  refine ⟨by simp, fun r hr => ?_⟩
  simp at hr; rw [← hr]; simp only; omega

theorem NoHang.seek (n : Int) : NoHang (P.seekCur n) := fun buf pos => by
  unfold P.seekCur
  split <;> simp

theorem Step.rest : Step 0 P.rest := fun buf pos => by
  refine ⟨by simp [P.rest], fun r hr => ?_⟩
  simp [P.rest] at hr; rw [← hr]; simp only; omega

theorem Step.readToString : Step 0 readToString := by
  refine Step.rest.bind0 fun bs => ?_
  split
  · exact .pure _
  · exact .fail _ _

theorem fromUtf8_ne_hang (bs : Bytes) : fromUtf8 bs ≠ .hang := by
  unfold fromUtf8
  split <;> simp

theorem Step.readString (n : Nat) : Step n (readString n) := (Step.readVec n).bind0 fun _ => .lift (fromUtf8_ne_hang _)

theorem Step.ite {α : Type} {k : Nat} {c : Prop} [Decidable c] {p q : P α} (hp : Step k p) (hq : Step k q) :
    Step k (if c then p else q) := by
  split
  · exact hp
  · exact hq

theorem Step.readLenEncNum : Step 1 readLenEncNum := by
  unfold MysqlCdc.readLenEncNum
  refine Step.u8.bind0 fun first => ?_
  refine .ite (.pure _) (.ite (.fail _ _) (.ite ((Step.uLE 2).weaken (by omega)) (.ite ((Step.uLE 3).weaken (by omega))
    (.ite ((Step.uLE 8).weaken (by omega)) (.fail _ _)))))

theorem Step.readLenEncStr : Step 1 readLenEncStr :=
  Step.readLenEncNum.bind0 fun n => (Step.readString n).weaken (by omega)

theorem Step.times {α : Type} {k : Nat} {p : P α} (h : Step k p) (n : Nat) : Step (n * k) (P.times n p) := by
  induction n with
  | zero => rw [Nat.zero_mul]; exact Step.pure (α := List α) []
  | succ n ih =>
    unfold P.times
    rw [Nat.succ_mul, Nat.add_comm]
    exact h.bind fun a => ih.map _

theorem Step.times0 {α : Type} {p : P α} (h : Step 0 p) (n : Nat) : Step 0 (P.times n p) := by simpa using h.times n

theorem Step.forEach {α β : Type} {f : α → P β} (xs : List α) (h : ∀ x, Step 0 (f x)) : Step 0 (P.forEach xs f) := by
  induction xs with
  | nil => exact Step.pure (α := List β) []
  | cons x xs ih => exact (h x).bind0 fun b => ih.map _

theorem Step.whileData {α : Type} {p : P α} (h : Step 1 p) : Step 0 (P.whileData p) := by
  intro buf pos
  induction hn : buf.length - pos using Nat.strongRecOn generalizing pos with
  | _ n ih =>
    subst hn
    rw [P.whileData]
    split
    · next hlt =>
      have hp := h buf pos
      cases hr : p buf pos with
      | ok r =>
        obtain ⟨a, pos'⟩ := r
        have hadv : pos + 1 ≤ pos' := hp.2 _ hr
        simp only
        rw [if_pos (by omega)]
        have i := ih (buf.length - pos') (by omega) pos' rfl
        cases hw : P.whileData p buf pos' with
        | ok r' =>
          have := i.2 _ hw
          refine ⟨by simp, fun r hr => ?_⟩
          simp at hr; rw [← hr]; simp only; omega
        | err e => simp
        | panic => simp
        | hang => exact absurd hw i.1
      | err e => simp
      | panic => simp
      | hang => exact absurd hr hp.1
    · refine ⟨by simp, fun r hr => ?_⟩
      simp at hr; rw [← hr]; simp

theorem P.run_ne_hang {α : Type} {p : P α} (h : NoHang p) (bs : Bytes) : p.run bs ≠ .hang := by
  unfold P.run
  cases hp : p bs 0 with
  | hang => exact absurd hp (h _ _)
  | _ => simp

/-! ## Bitmaps -/

theorem setBitsLE_ne_hang (bits i : Nat) (v : UInt8) (ys : List Nat) (res : List Bool) : setBitsLE bits i v ys res ≠ .hang := by
  induction ys generalizing res with
  | nil => simp [setBitsLE]
  | cons y ys ih =>
    unfold setBitsLE
    simp only
    split
    · simp
    · split
      · exact ih _
      · simp

theorem setBitsBE_ne_hang (bits n i : Nat) (v : UInt8) (ys : List Nat) (res : List Bool) :
    setBitsBE bits n i v ys res ≠ .hang := by
  induction ys generalizing res with
  | nil => simp [setBitsBE]
  | cons y ys ih =>
    unfold setBitsBE
    simp only
    split
    · exact ih _
    · split
      · exact ih _
      · simp

theorem setBitsRev_ne_hang (bits i : Nat) (v : UInt8) (ys : List Nat) (res : List Bool) :
    setBitsRev bits i v ys res ≠ .hang := by
  induction ys generalizing res with
  | nil => simp [setBitsRev]
  | cons y ys ih =>
    unfold setBitsRev
    simp only
    split
    · simp
    · split
      · exact ih _
      · simp

theorem Step.bitmapLoop {set : Nat → UInt8 → List Bool → Res (List Bool)} (h : ∀ i v r, set i v r ≠ .hang) (is : List Nat)
    (res : List Bool) : Step is.length (bitmapLoop set is res) := by
  induction is generalizing res with
  | nil => exact .pure _
  | cons i is ih =>
    unfold MysqlCdc.bitmapLoop
    rw [List.length_cons, Nat.add_comm]
    refine Step.u8.bind fun v => ?_
    simpa using (Step.lift (h i _ res)).bind fun r => ih r

theorem Step.bitmapLE (bits : Nat) : Step ((bits + 7) / 8) (readBitmapLittleEndian bits) := by
  unfold readBitmapLittleEndian
  simpa using (Step.alloc bits).bind fun _ =>
    Step.bitmapLoop (fun i v r => setBitsLE_ne_hang bits i v (List.range 8) r) (List.range ((bits + 7) / 8))
      (List.replicate bits false)

theorem Step.bitmapBE (bits : Nat) : Step ((bits + 7) / 8) (readBitmapBigEndian bits) := by
  unfold readBitmapBigEndian
  simpa using (Step.alloc bits).bind fun _ =>
    Step.bitmapLoop (fun i v r => setBitsBE_ne_hang bits _ i v (List.range 8) r) (List.range ((bits + 7) / 8))
      (List.replicate bits false)

theorem Step.bitmapRev (bits : Nat) : Step ((bits + 7) / 8) (readBitmapReverted bits) := by
  unfold readBitmapReverted
  simpa using (Step.alloc bits).bind fun _ =>
    Step.bitmapLoop (fun i v r => setBitsRev_ne_hang bits i v (List.range 8) r) (List.range ((bits + 7) / 8))
      (List.replicate bits false)

/-! ## Events without rows -/

theorem subU_ne_hang (m : Mode) (b x y : Nat) : subU m b x y ≠ .hang := by
  unfold subU
  split
  · simp
  · split <;> simp

theorem addU_ne_hang (m : Mode) (b x y : Nat) : addU m b x y ≠ .hang := by
  unfold addU
  split
  · simp
  · split <;> simp

theorem noHang_query : NoHang parseQuery := by
  unfold parseQuery
  refine (Step.uLE 4).noHang.bind fun _ => (Step.uLE 4).noHang.bind fun _ => Step.u8.noHang.bind fun _ =>
    (Step.uLE 2).noHang.bind fun _ => (Step.uLE 2).noHang.bind fun _ => (Step.readVec _).noHang.bind fun _ =>
    (Step.readString _).noHang.bind fun _ => (NoHang.seek 1).bind fun _ => Step.readToString.noHang.bind fun _ =>
    (Step.pure _).noHang

theorem noHang_userVar : NoHang parseUserVar := by
  unfold parseUserVar
  refine (Step.uLE 4).noHang.bind fun _ => (Step.readString _).noHang.bind fun _ => Step.u8.noHang.bind fun _ => ?_
  split
  · exact (Step.pure _).noHang
  · exact Step.u8.noHang.bind fun _ => (Step.uLE 4).noHang.bind fun _ => (Step.uLE 4).noHang.bind fun _ =>
      (Step.readString _).noHang.bind fun _ => Step.u8.noHang.bind fun _ => (Step.pure _).noHang

theorem checksumType_ne_hang (c : Nat) : ChecksumType.fromCode c ≠ .hang := by
  unfold ChecksumType.fromCode
  split <;> simp

theorem noHang_formatDescription (m : Mode) (h : EventHeader) : NoHang (parseFormatDescription m h) := by
  unfold parseFormatDescription
  refine (Step.uLE 2).noHang.bind fun _ => (Step.readExact 50).noHang.bind fun raw => ?_
  split
  · refine (Step.pure _).noHang.bind fun _ => (NoHang.seek _).bind fun _ => (NoHang.seek _).bind fun _ =>
      Step.u8.noHang.bind fun n => (Step.lift (subU_ne_hang _ _ _ _)).noHang.bind fun e => ?_
    split
    · exact (NoHang.seek _).bind fun _ => Step.u8.noHang.bind fun c =>
        (Step.lift (checksumType_ne_hang c)).noHang.bind fun _ => (Step.pure _).noHang
    · exact (Step.pure _).noHang
  · exact (Step.fail 0 _).noHang.bind fun _ => (NoHang.seek _).bind fun _ => (NoHang.seek _).bind fun _ =>
      Step.u8.noHang.bind fun n => (Step.lift (subU_ne_hang _ _ _ _)).noHang.bind fun e => by
        split
        · exact (NoHang.seek _).bind fun _ => Step.u8.noHang.bind fun c =>
            (Step.lift (checksumType_ne_hang c)).noHang.bind fun _ => (Step.pure _).noHang
        · exact (Step.pure _).noHang

theorem noHang_previousGtids (m : Mode) (hnew : ∀ id, UuidSet.new m id [] ≠ .hang) : NoHang (parsePreviousGtids m) := by
  have hi : Step 0 (parsePrevInterval m) :=
    ((Step.uLE 8).bind fun _ => (Step.uLE 8).bind fun _ => (Step.lift (subU_ne_hang _ _ _ _)).map _).weaken (by omega)
  have hs : Step 0 (parsePrevUuidSet m) :=
    ((Step.readExact 16).bind fun _ => (Step.lift (hnew _)).bind fun _ => (Step.uLE 8).bind fun n =>
      (hi.times0 n).map _).weaken (by omega)
  exact (Step.uLE 8).noHang.bind fun n => ((hs.times0 n).map _).noHang

theorem noHang_gtidList : NoHang parseGtidList := by
  have hg : Step 0 parseListGtid :=
    ((Step.uLE 4).bind fun _ => (Step.uLE 4).bind fun _ => (Step.uLE 8).map _).weaken (by omega)
  exact (Step.uLE 4).noHang.bind fun n => ((hg.times0 n).map _).noHang

/-! ## Table maps -/

theorem columnType_ne_hang (c : Nat) : ColumnType.fromCode c ≠ .hang := by
  unfold ColumnType.fromCode
  split <;> simp

theorem numericColumnCount_ne_hang (cs : Bytes) : numericColumnCount cs ≠ .hang := by
  induction cs with
  | nil => simp [numericColumnCount]
  | cons c cs ih =>
    unfold numericColumnCount
    cases h1 : ColumnType.fromCode c.toNat with
    | ok t =>
      cases h2 : numericColumnCount cs with
      | ok n => simp only [Res.bind_ok]; split <;> simp
      | err e => simp
      | panic => simp
      | hang => exact absurd h2 ih
    | err e => simp
    | panic => simp
    | hang => exact absurd h1 (columnType_ne_hang _)

theorem metadataType_ne_hang (c : Nat) : MetadataType.fromCode c ≠ .hang := by
  unfold MetadataType.fromCode
  split <;> simp

theorem noHang_intArray : NoHang parseIntArray := (Step.whileData (Step.readLenEncNum.map _)).noHang
theorem noHang_stringArray : NoHang parseStringArray := (Step.whileData Step.readLenEncStr).noHang
theorem step_intMap : Step 0 parseIntMap :=
  Step.whileData ((Step.readLenEncNum.bind fun _ => Step.readLenEncNum.map _).weaken (by omega))
theorem noHang_typeValues : NoHang parseTypeValues :=
  (Step.whileData (Step.readLenEncNum.bind0 fun n => (Step.readLenEncStr.weaken (by omega)).times0 n)).noHang
theorem noHang_defaultCharset : NoHang parseDefaultCharset :=
  Step.readLenEncNum.noHang.bind fun _ => (step_intMap.map _).noHang

theorem step_metadataField (types : Bytes) : Step 1 (parseMetadataField types) := by
  unfold parseMetadataField
  refine Step.u8.bind0 fun code => (Step.lift (metadataType_ne_hang _)).bind0 fun t =>
    (Step.readLenEncNum.weaken (by omega)).bind0 fun n => ((Step.readVec n).weaken (by omega)).bind0 fun bs => ?_
  have fin : ∀ {α : Type} {p : P α} (f : α → TableMetadata → TableMetadata), NoHang p →
      Step 0 (P.lift (p.run bs) >>= fun v => (Pure.pure (f v) : P (TableMetadata → TableMetadata))) :=
    fun f h => (Step.lift (P.run_ne_hang h bs)).map _
  cases t with
  | signedness => exact (Step.lift (numericColumnCount_ne_hang _)).bind0 fun c => fin _ (Step.bitmapRev c).noHang
  | defaultCharset => exact fin _ noHang_defaultCharset
  | columnCharset => exact fin _ noHang_intArray
  | columnName => exact fin _ noHang_stringArray
  | setStrValue => exact fin _ noHang_typeValues
  | enumStrValue => exact fin _ noHang_typeValues
  | geometryType => exact fin _ noHang_intArray
  | simplePrimaryKey => exact fin _ noHang_intArray
  | primaryKeyWithPrefix => exact fin _ step_intMap.noHang
  | enumAndSetDefaultCharset => exact fin _ noHang_defaultCharset
  | enumAndSetColumnCharset => exact fin _ noHang_intArray
  | columnVisibility => exact fin _ (Step.bitmapRev _).noHang

theorem step_columnMetadata (c : UInt8) : Step 0 (parseColumnMetadata c) := by
  unfold parseColumnMetadata
  refine (Step.lift (columnType_ne_hang _)).bind0 fun t => ?_
  have h1 := Step.u8.weaken (j := 0) (by omega)
  have h2 := (Step.uLE 2).weaken (j := 0) (by omega)
  have h3 := (Step.uBE 2).weaken (j := 0) (by omega)
  cases t <;> first | exact h1 | exact h2 | exact h3 | exact .pure _

theorem noHang_tableMap : NoHang parseTableMap := by
  unfold parseTableMap
  refine (Step.uLE 6).noHang.bind fun _ => (NoHang.seek 2).bind fun _ => Step.u8.noHang.bind fun _ =>
    (Step.readString _).noHang.bind fun _ => (NoHang.seek 1).bind fun _ => Step.u8.noHang.bind fun _ =>
    (Step.readString _).noHang.bind fun _ => (NoHang.seek 1).bind fun _ => Step.readLenEncNum.noHang.bind fun n =>
    (Step.readVec n).noHang.bind fun types => Step.readLenEncNum.noHang.bind fun _ =>
    (Step.forEach types step_columnMetadata).noHang.bind fun _ => (Step.bitmapLE n).noHang.bind fun _ => ?_
  refine NoHang.bind (p := P.hasData) (fun buf pos => by simp [P.hasData]) fun more => ?_
  split
  · exact NoHang.bind (p := parseTableMetadata types) ((Step.whileData (step_metadataField types)).map _).noHang
      fun _ => (Step.pure _).noHang
  · exact (Step.pure _).noHang

/-! ## Rows -/

theorem step_fractional (m : Mode) (md : Nat) : Step 0 (parseFractionalPart m md) := by
  unfold parseFractionalPart
  refine (Step.lift (addU_ne_hang _ _ _ _)).bind0 fun s => ?_
  simp only
  refine .ite (.pure _) (((Step.uintBE _).weaken (by omega)).bind0 fun f => .ite (.pure _) (.ite (.panic _) (.pure _)))

theorem step_integralGroups (k : Nat) (started : Bool) (res : RStr) : Step 0 (integralGroups k started res) := by
  induction k generalizing started res with
  | zero => exact .pure _
  | succ k ih =>
    unfold integralGroups
    exact ((Step.uBE 4).weaken (by omega)).bind0 fun n => .ite (ih _ _) (.ite (ih _ _) (ih _ _))

theorem step_fractionalGroups (k : Nat) (res : RStr) : Step 0 (fractionalGroups k res) := by
  induction k generalizing res with
  | zero => exact .pure _
  | succ k ih =>
    unfold fractionalGroups
    exact ((Step.uBE 4).weaken (by omega)).bind0 fun n => ih _

theorem step_decimalBody (a b c d e : Nat) (res : RStr) : Step 0 (decimalBody a b c d e res) := by
  unfold decimalBody
  simp only
  refine Step.bind0 ?_ fun x => ?_
  · exact .ite (((Step.uintBE _).weaken (by omega)).bind0 fun n => .ite (.pure _) (.pure _)) (.pure _)
  · exact (step_integralGroups _ _ _).bind0 fun y => (step_fractionalGroups _ _).bind0 fun r =>
      .ite (((Step.uintBE _).weaken (by omega)).bind0 fun v => .pure _) (.pure _)

theorem step_decimal (m : Mode) (md : Nat) : Step 0 (parseDecimal m md) := by
  unfold parseDecimal
  simp only
  refine (Step.lift (subU_ne_hang _ _ _ _)).bind0 fun d => ((Step.readVec _).weaken (by omega)).bind0 fun v => ?_
  split
  · exact .panic _
  · exact .lift (P.run_ne_hang (step_decimalBody _ _ _ _ _ _).noHang _)

theorem step_blob (md : Nat) : Step 0 (parseBlob md) :=
  ((Step.uintLE md).bind fun n => Step.readVec n |>.weaken (j := 0) (by omega)).weaken (by omega)

theorem step_cell (m : Mode) (t md : Nat) : Step 0 (parseCell m t md) := by
  have f : ∀ {α : Type} {k : Nat} {p : P α} (g : α → MySqlValue), Step k p →
      Step 0 (p >>= fun a => (Pure.pure (g a) : P MySqlValue)) := fun g h => (h.map g).weaken (by omega)
  unfold parseCell
  refine (Step.lift (columnType_ne_hang _)).bind0 fun t => ?_
  cases t with
  | tiny => exact f _ .u8
  | short => exact f _ (.uLE 2)
  | int24 => exact f _ (.uLE 3)
  | long => exact f _ (.uLE 4)
  | longLong => exact f _ (.uLE 8)
  | float => exact f _ (.uLE 4)
  | double => exact f _ (.uLE 8)
  | newDecimal => exact f _ (step_decimal m md)
  | string | varChar | varString =>
    refine f _ (k := 0) ?_
    unfold parseString
    exact Step.ite (Step.u8.weaken (by omega) |>.bind0 fun n => (Step.readString n).weaken (by omega))
      ((Step.uLE 2).weaken (by omega) |>.bind0 fun n => (Step.readString n).weaken (by omega))
  | bit => exact f _ ((Step.bitmapBE _).map _)
  | enum => exact f (fun n => .enum (n % 2 ^ 32)) (Step.uintLE md)
  | set => exact f _ (Step.uintLE md)
  | tinyBlob | mediumBlob | longBlob | blob | geometry | json => exact f _ (step_blob md)
  | year => exact f _ (Step.u8.map _)
  | date => exact f _ ((Step.uLE 3).map _)
  | time =>
    refine f _ (k := 0) ?_
    unfold parseTime
    exact ((Step.uLE 3).weaken (by omega)).bind0 fun r => .ite (.fail _ _) (.pure _)
  | timeStamp => exact f _ ((Step.uLE 4).map _)
  | dateTime => exact f _ ((Step.uLE 8).map _)
  | time2 =>
    refine f _ (k := 0) ?_
    unfold parseTime2
    exact ((Step.uBE 3).weaken (by omega)).bind0 fun r => (step_fractional m md).bind0 fun _ => .ite (.fail _ _) (.pure _)
  | timeStamp2 =>
    refine f _ (k := 0) ?_
    unfold parseTimestamp2
    exact ((Step.uBE 4).weaken (by omega)).bind0 fun r => (step_fractional m md).map _
  | dateTime2 =>
    refine f _ (k := 0) ?_
    unfold parseDateTime2
    exact ((Step.uintBE 5).weaken (by omega)).bind0 fun r => (step_fractional m md).map _
  | decimal | null | newDate => exact .fail _ _

theorem step_column (m : Mode) (t md : Nat) : Step 0 (parseColumn m t md) :=
  (Step.lift (columnType_ne_hang _)).bind0 fun _ => step_cell m _ _

theorem step_rowLoop (m : Mode) (table : TableMapEvent) (present nulls : List Bool) (is : List Nat) (skipped : Nat) :
    Step 0 (rowLoop m table present nulls is skipped) := by
  induction is generalizing skipped with
  | nil => exact .pure _
  | cons i is ih =>
    unfold rowLoop
    split
    · exact .panic _
    · exact (ih _).map _
    · split
      · exact .panic _
      · exact (ih _).map _
      · split
        · exact (step_column m _ _).bind0 fun c => (ih _).map _
        · exact .panic _

theorem step_row (m : Mode) (table : TableMapEvent) (present : List Bool) (n : Nat) :
    Step ((n + 7) / 8) (parseRow m table present n) :=
  (Step.bitmapLE n).bind0 fun nulls => (step_rowLoop m table present nulls _ 0).map _

theorem noHang_head (v : Nat) : NoHang (parseHead v) := by
  unfold parseHead
  refine (Step.uLE 6).noHang.bind fun _ => (Step.uLE 2).noHang.bind fun _ => ?_
  split
  · exact (Step.uLE 2).noHang.bind fun _ => (NoHang.seek _).bind fun _ => (Step.readLenEncNum.map _).noHang
  · exact (Step.readLenEncNum.map _).noHang

end MysqlCdc
