import Verif.Lemmas.Frugal
/-!
# How much memory the events ask for
-/

namespace MysqlCdc

open Spec

/-! ## Table maps -/

theorem Frugal.stringArray (K c : Nat) (hK : 1 ≤ K) : Frugal K c parseStringArrayM (fun _ => c) := (Frugal.readLenEncStr K c hK).whileData

theorem Frugal.typeValues (K c : Nat) (hK : 1 ≤ K) : Frugal K c parseTypeValuesM (fun _ => c) :=
  Frugal.whileData ((Frugal.free K c Step.readLenEncNum).bind fun n => (Frugal.readLenEncStr K c hK).times n)

theorem Frugal.metadataField (c : Nat) (types : Bytes) : Frugal 9 c (parseMetadataFieldM types) (fun _ => c) := by
  unfold parseMetadataFieldM
  refine (Frugal.free 9 c Step.u8).bind fun code => (Frugal.free 9 c (Step.lift (metadataType_ne_hang _))).bind fun t =>
    (Frugal.free 9 c Step.readLenEncNum).bind fun n => (Frugal.readVec 9 c n (by omega)).bind fun bs => ?_
  have fin : ∀ {α : Type} {p : P α} (f : α → TableMetadata → TableMetadata), NoHang p →
      Frugal 9 (c + (9 - 1) * bs.length) (.free (P.lift (p.run bs)) >>= fun v => (Pure.pure (f v) : PM (TableMetadata → TableMetadata)))
        (fun _ => c) :=
    fun f h => ((Frugal.free 9 _ (Step.lift (P.run_ne_hang h bs))).map _).mono 0 (Nat.le_refl _) fun _ => Nat.le_add_right _ _
  have sub : ∀ {α : Type} {p : PM α} {cout : α → Nat} (f : α → TableMetadata → TableMetadata), Frugal 8 0 p cout →
      Frugal 9 (c + (9 - 1) * bs.length) (.within p bs >>= fun v => (Pure.pure (f v) : PM (TableMetadata → TableMetadata)))
        (fun _ => c) :=
    fun f h => (Frugal.within 9 c h bs).map _
  cases t with
  | signedness => exact (Frugal.free 9 _ (Step.lift (numericColumnCount_ne_hang _))).bind fun n => sub _ (Frugal.bitmapRev 8 0 n (by omega))
  | defaultCharset => exact fin _ noHang_defaultCharset
  | columnCharset => exact fin _ noHang_intArray
  | columnName => exact sub _ (Frugal.stringArray 8 0 (by omega))
  | setStrValue => exact sub _ (Frugal.typeValues 8 0 (by omega))
  | enumStrValue => exact sub _ (Frugal.typeValues 8 0 (by omega))
  | geometryType => exact fin _ noHang_intArray
  | simplePrimaryKey => exact fin _ noHang_intArray
  | primaryKeyWithPrefix => exact fin _ step_intMap.noHang
  | enumAndSetDefaultCharset => exact fin _ noHang_defaultCharset
  | enumAndSetColumnCharset => exact fin _ noHang_intArray
  | columnVisibility => exact sub _ (Frugal.bitmapRev 8 0 _ (by omega))

theorem Frugal.tableMap : Frugal 9 0 parseTableMapM (fun _ => 0) := by
  unfold parseTableMapM
  refine (Frugal.free 9 0 (Step.uLE 6)).bind fun _ => (Frugal.free 9 0 (Step.seek 2)).bind fun _ => (Frugal.free 9 0 Step.u8).bind fun _ =>
    (Frugal.readString 9 0 _ (by omega)).bind fun _ => (Frugal.free 9 0 (Step.seek 1)).bind fun _ => (Frugal.free 9 0 Step.u8).bind fun _ =>
    (Frugal.readString 9 0 _ (by omega)).bind fun _ => (Frugal.free 9 0 (Step.seek 1)).bind fun _ => (Frugal.free 9 0 Step.readLenEncNum).bind fun n =>
    (Frugal.readVec 9 0 n (by omega)).bind fun types => (Frugal.free 9 _ Step.readLenEncNum).bind fun _ => ?_
  refine Frugal.bind (cmid := fun _ => 0) ?_ fun _ => ((Frugal.bitmapLE 9 0 n (by omega)).keep (by omega)).bind fun _ =>
    Frugal.bind (cmid := fun _ => 0) (Frugal.free (k := 0) 9 0 fun buf pos => by simp [P.hasData]) fun more => ?_
  · refine Frugal.bind (cmid := fun _ => 0) ((Frugal.request 9 0 (2 * types.length)).mono 0 (by omega) fun _ => by omega) fun _ =>
      Frugal.free 9 0 (Step.forEach types step_columnMetadata)
  · split
    · exact Frugal.bind (cmid := fun _ => 0) ((Frugal.metadataField 0 types).whileData.map _) fun _ => .pure 9 0 _
    · exact .pure 9 0 _

/-! ## Cells and rows -/

theorem Frugal.decimal (K c : Nat) (hK : 1 ≤ K) (m : Mode) (md : Nat) : Frugal K c (parseDecimalM m md) (fun _ => c) := by
  unfold parseDecimalM
  refine (Frugal.free K c (Step.lift (subU_ne_hang _ _ _ _))).bind fun _ => ((Frugal.readVec K c _ hK).keep fun _ => by omega).bind fun v => ?_
  refine Frugal.free (k := 0) K c ?_
  split
  · exact .panic _
  · exact Step.lift (P.run_ne_hang (step_decimalBody _ _ _ _ _ _).noHang _)

theorem Frugal.string (K c : Nat) (hK : 1 ≤ K) (md : Nat) : Frugal K c (parseStringM md) (fun _ => c) := by
  unfold parseStringM
  split
  · exact (Frugal.free K c Step.u8).bind fun n => .readString K c n hK
  · exact (Frugal.free K c (Step.uLE 2)).bind fun n => .readString K c n hK

theorem Frugal.bit (K c : Nat) (hK : 8 ≤ K) (md : Nat) : Frugal K c (parseBitM md) (fun _ => c) :=
  ((Frugal.bitmapBE K c _ hK).keep (by omega)).map _

theorem Frugal.blob (K c : Nat) (hK : 1 ≤ K) (md : Nat) : Frugal K c (parseBlobM md) (fun _ => c) :=
  (Frugal.free K c (Step.uintLE md)).bind fun n => (Frugal.readVec K c n hK).keep fun _ => by omega

theorem Frugal.cell (K c : Nat) (hK : 8 ≤ K) (m : Mode) (t md : Nat) : Frugal K c (parseCellM m t md) (fun _ => c) := by
  have h1 : 1 ≤ K := by omega
  unfold parseCellM
  refine (Frugal.free K c (Step.lift (columnType_ne_hang _))).bind fun ct => ?_
  cases ct with
  | newDecimal => exact (Frugal.decimal K c h1 m md).map _
  | string | varChar | varString => exact (Frugal.string K c h1 md).map _
  | bit => exact (Frugal.bit K c hK md).map _
  | tinyBlob | mediumBlob | longBlob | blob | geometry | json => exact (Frugal.blob K c h1 md).map _
  | _ => exact Frugal.free K c (step_cell m t md)

theorem Frugal.rowLoop (K c : Nat) (hK : 8 ≤ K) (m : Mode) (table : TableMapEvent) (present nulls : List Bool) (is : List Nat) (skipped : Nat) :
    Frugal K c (rowLoopM m table present nulls is skipped) (fun _ => c) := by
  induction is generalizing skipped with
  | nil => exact .pure K c _
  | cons i is ih =>
    unfold rowLoopM
    have pan : Frugal K c (.free (P.panic : P (List (Option MySqlValue)))) (fun _ => c) := Frugal.free (k := 0) K c (.panic _)
    split
    · exact pan
    · exact (ih _).map _
    · split
      · exact pan
      · exact (ih _).map _
      · split
        · exact Frugal.bind (cmid := fun _ => c) ((Frugal.free K c (Step.lift (columnType_ne_hang _))).bind fun _ => .cell K c hK m _ _) fun _ => (ih _).map _
        · exact pan

/-- One row: its vector is paid for by the credit, and each byte of its bitmap gives more than the bitmap asks for. -/
theorem Frugal.row (K c : Nat) (hK : 8 ≤ K) (m : Mode) (cell : Nat) (table : TableMapEvent) (present : List Bool) (n : Nat) :
    Frugal K (c + cell * table.columnTypes.length) (parseRowM m cell table present n) (fun _ => c + (K - 8) * ((n + 7) / 8)) :=
  (Frugal.request K c _).bind fun _ => (Frugal.bitmapLE K c n hK).bind fun nulls => (Frugal.rowLoop K _ hK m table present nulls _ 0).map _

theorem rowLoop_stuck (m : Mode) (table : TableMapEvent) (present nulls : List Bool) (h : ∀ i : Nat, present[i]? ≠ some true) (is : List Nat)
    (skipped : Nat) {buf : Bytes} {pos : Nat} {r : List (Option MySqlValue) × Nat}
    (hr : rowLoop m table present nulls is skipped buf pos = .ok r) : r.2 = pos := by
  induction is generalizing skipped pos r with
  | nil => simp [rowLoop] at hr; rw [← hr]
  | cons i is ih =>
    unfold rowLoop at hr
    have hi := h i
    revert hr hi
    rcases present[i]? with _ | _ | _
    · intro hr; cases hr
    · intro hr _
      obtain ⟨x, h1, h2⟩ := bind_inv hr
      have := ih _ h1
      simp at h2
      rw [← h2]; exact this
    · intro _ hi; exact absurd rfl hi

/-- With no column present, reading a row reads nothing. -/
theorem row_stuck (m : Mode) (table : TableMapEvent) (present : List Bool) (h : getBitsNumber present = 0) {buf : Bytes} {pos : Nat}
    {r : RowData × Nat} (hr : parseRow m table present (getBitsNumber present) buf pos = .ok r) : r.2 = pos := by
  have none_true : ∀ i : Nat, present[i]? ≠ some true := by
    intro i hi
    have hm : true ∈ present := List.mem_of_getElem? hi
    unfold getBitsNumber at h
    have := List.eq_nil_of_length_eq_zero h
    have h2 : true ∈ present.filter (· == true) := List.mem_filter.2 ⟨hm, rfl⟩
    rw [this] at h2
    cases h2
  rw [h] at hr
  obtain ⟨x, h1, h2⟩ := bind_inv hr
  have e : x = ([], pos) := by
    have : readBitmapLittleEndian 0 buf pos = .ok ([], pos) := rfl
    rw [this] at h1
    exact (Res.ok.inj h1).symm
  subst e
  obtain ⟨y, h3, h4⟩ := bind_inv h2
  have := rowLoop_stuck m table present [] none_true _ _ h3
  simp at h4
  rw [← h4]; exact this

theorem Frugal.rowDataList (m : Mode) (cell : Nat) (table : TableMapEvent) (present : List Bool) :
    Frugal (8 + cell * table.columnTypes.length) (cell * table.columnTypes.length)
      (PM.whileData (parseRowM m cell table present (getBitsNumber present))) (fun _ => cell * table.columnTypes.length) := by
  have h := Frugal.row (8 + cell * table.columnTypes.length) 0 (by omega) m cell table present (getBitsNumber present)
  rw [Nat.zero_add] at h
  by_cases h0 : getBitsNumber present = 0
  · exact h.whileStuck fun buf pos a pos' hr => row_stuck m table present h0 ((Erases.row m cell table present _ buf pos).symm.trans hr)
  · refine Frugal.whileData (h.mono 0 (by omega) fun _ => ?_)
    rw [Nat.zero_add, Nat.add_sub_cancel_left, Nat.add_zero]
    exact Nat.le_mul_of_pos_right _ (by omega)

theorem Frugal.updateRowDataList (m : Mode) (cell : Nat) (table : TableMapEvent) (before after : List Bool) :
    Frugal (8 + 2 * (cell * table.columnTypes.length)) (2 * (cell * table.columnTypes.length))
      (PM.whileData (do
        let beforeUpdate ← parseRowM m cell table before (getBitsNumber before)
        let afterUpdate ← parseRowM m cell table after (getBitsNumber after)
        return ({ beforeUpdate, afterUpdate } : UpdateRowData))) (fun _ => 2 * (cell * table.columnTypes.length)) := by
  generalize hW : cell * table.columnTypes.length = W
  have h1 := Frugal.row (8 + 2 * W) W (by omega) m cell table before (getBitsNumber before)
  have h2 := Frugal.row (8 + 2 * W) (2 * W * ((getBitsNumber before + 7) / 8)) (by omega) m cell table after (getBitsNumber after)
  rw [hW] at h1 h2
  rw [Nat.add_sub_cancel_left] at h1 h2
  have h : Frugal (8 + 2 * W) (2 * W) (do
      let beforeUpdate ← parseRowM m cell table before (getBitsNumber before)
      let afterUpdate ← parseRowM m cell table after (getBitsNumber after)
      return ({ beforeUpdate, afterUpdate } : UpdateRowData))
      (fun _ => 2 * W * ((getBitsNumber before + 7) / 8) + 2 * W * ((getBitsNumber after + 7) / 8)) :=
    (h1.mono 0 (by omega) fun _ => Nat.le_refl _).bind fun _ =>
      Frugal.bind (h2.mono 0 (by omega) fun _ => Nat.le_refl _) fun _ => .pure _ _ _
  by_cases h0 : getBitsNumber before = 0 ∧ getBitsNumber after = 0
  · refine h.whileStuck fun buf pos a pos' hr => ?_
    have hr' := (((Erases.row m cell table before _).bind fun b => (Erases.row m cell table after _).map
      fun a => ({ beforeUpdate := b, afterUpdate := a } : UpdateRowData)) buf pos).symm.trans hr
    obtain ⟨x, h3, h4⟩ := bind_inv hr'
    obtain ⟨y, h5, h6⟩ := bind_inv h4
    have e1 := row_stuck m table before h0.1 h3
    have e2 := row_stuck m table after h0.2 h5
    simp at h6
    rw [← h6.2, e2, e1]
  · refine Frugal.whileData (h.mono 0 (by omega) fun _ => ?_)
    rw [← Nat.mul_add, Nat.add_zero]
    exact Nat.le_mul_of_pos_right _ (by omega)

/-! ## Events -/

theorem Frugal.query : Frugal 1 0 parseQueryM (fun _ => 0) := by
  unfold parseQueryM
  exact (Frugal.free 1 0 (Step.uLE 4)).bind fun _ => (Frugal.free 1 0 (Step.uLE 4)).bind fun _ => (Frugal.free 1 0 Step.u8).bind fun _ =>
    (Frugal.free 1 0 (Step.uLE 2)).bind fun _ => (Frugal.free 1 0 (Step.uLE 2)).bind fun _ =>
    ((Frugal.readVec 1 0 _ (by omega)).keep fun _ => by omega).bind fun _ =>
    (Frugal.readString 1 0 _ (by omega)).bind fun _ => (Frugal.free 1 0 (Step.seek 1)).bind fun _ => (Frugal.free 1 0 Step.readToString).map _

theorem Frugal.userVar : Frugal 1 0 parseUserVarM (fun _ => 0) := by
  unfold parseUserVarM
  refine (Frugal.free 1 0 (Step.uLE 4)).bind fun _ => (Frugal.readString 1 0 _ (by omega)).bind fun _ => (Frugal.free 1 0 Step.u8).bind fun isNull => ?_
  split
  · exact .pure 1 0 _
  · exact (Frugal.free 1 0 Step.u8).bind fun _ => (Frugal.free 1 0 (Step.uLE 4)).bind fun _ => (Frugal.free 1 0 (Step.uLE 4)).bind fun _ =>
      (Frugal.readString 1 0 _ (by omega)).bind fun _ => (Frugal.free 1 0 Step.u8).map _

/-- All requests of a parser, from wherever it starts. -/
theorem Frugal.total {α : Type} {K cin : Nat} {p : PM α} {cout : α → Nat} (h : Frugal K cin p cout) (buf : Bytes) (pos : Nat)
    (hh : (p buf pos).1 ≠ .hang) : Stops (K * buf.length + cin) (p buf pos).1 (p buf pos).2 := by
  have a := h buf pos
  revert a hh
  rcases p buf pos with ⟨⟨a, pos'⟩ | e | _ | _, ts⟩
  · intro _ a1
    have := (a1.1 a pos' rfl).2
    have m := min_mul_le K pos' buf.length
    exact ⟨ts, [], by simp, by simp only at this ⊢; omega, by simp, by simp⟩
  · intro hh a1; exact (a1.2 (by simp) hh).mono (by omega)
  · intro hh a1; exact (a1.2 (by simp) hh).mono (by omega)
  · intro hh _; exact absurd rfl hh

end MysqlCdc
