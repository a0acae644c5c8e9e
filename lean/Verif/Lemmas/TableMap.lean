import Verif.Spec.TableMap
import Verif.Lemmas.Format
import Mathlib.Data.List.Induction
/-!
# Round-trip of table map events
-/

namespace MysqlCdc

open Spec

theorem Spec.Each.imp {α : Type} {R S : α → Bytes → Prop} {vs : List α} {e : Bytes} (h : Each R vs e)
    (hi : ∀ v e, R v e → S v e) : Each S vs e := by
  induction h with
  | nil => exact .nil
  | cons h _ ih => exact .cons (hi _ _ h) ih

theorem whileData_each {α : Type} {p : P α} {vs : List α} {enc : Bytes}
    (h : Each (fun v e => Parses p e v ∧ e ≠ []) vs enc) : ParsesEnd (P.whileData p) enc vs := by
  induction h with
  | nil =>
    intro pre
    rw [P.whileData]
    simp
  | @cons v vs e es h hs ih =>
    intro pre
    have h1 := h.1 pre es
    have h2 := ih (pre ++ e)
    have h3 : 0 < e.length := List.length_pos_iff.2 h.2
    rw [P.whileData, if_pos (by simp; omega), h1]
    simp only [List.append_assoc, List.length_append] at h2 ⊢
    simp only [show pre.length < pre.length + e.length by omega, if_true, h2]
    simp [Nat.add_assoc]

theorem times_each {α : Type} {p : P α} {vs : List α} {enc : Bytes} (h : Each (fun v e => Parses p e v) vs enc) :
    Parses (P.times vs.length p) enc vs := by
  induction h with
  | nil => exact Parses.pure []
  | cons h _ ih => exact h.bind (ih.map _)

theorem forEach_each {α β : Type} {f : α → P β} {vs : List (α × β)} {enc : Bytes}
    (h : Each (fun v e => Parses (f v.1) e v.2) vs enc) : Parses (P.forEach (vs.map (·.1)) f) enc (vs.map (·.2)) := by
  induction h with
  | nil => exact Parses.pure []
  | cons h _ ih => exact h.bind (ih.map _)

/-! ## Optional metadata -/

theorem num_parses {n : Nat} {e : Bytes} (h : Num n e) :
    Parses (do let value ← readLenEncNum; return asU32 value) e n ∧ e ≠ [] := by
  refine ⟨?_, LenEnc_ne_nil h.2⟩
  have := (readLenEncNum_parses h.2).map asU32
  rwa [show asU32 n = n from Nat.mod_eq_of_lt h.1] at this

theorem numPair_parses {p : Nat × Nat} {e : Bytes} (h : NumPair p e) :
    Parses (do let key ← readLenEncNum; let value ← readLenEncNum; return (asU32 key, asU32 value)) e p ∧ e ≠ [] := by
  obtain ⟨a, b, ⟨h1, h2⟩, ⟨h3, h4⟩, rfl⟩ := h
  refine ⟨?_, by simp [LenEnc_ne_nil h2]⟩
  refine (readLenEncNum_parses h2).bind ?_
  have := (readLenEncNum_parses h4).map (fun v => (asU32 p.1, asU32 v))
  exact this.cast rfl (by rw [show asU32 p.1 = p.1 from Nat.mod_eq_of_lt h1, show asU32 p.2 = p.2 from Nat.mod_eq_of_lt h3])

theorem text_parses {s : RStr} {e : Bytes} (h : Text s e) : Parses readLenEncStr e s ∧ e ≠ [] := by
  refine ⟨readLenEncStr_parses h.2 h.1, ?_⟩
  obtain ⟨l, hl, rfl⟩ := h.2
  simp [LenEnc_ne_nil hl]

theorem values_parses {ss : List RStr} {e : Bytes} (h : Values ss e) :
    Parses (do let length ← readLenEncNum; P.times length readLenEncStr) e ss ∧ e ≠ [] := by
  obtain ⟨a, b, h1, h2, rfl⟩ := h
  refine ⟨?_, by simp [LenEnc_ne_nil h1]⟩
  exact (readLenEncNum_parses h1).bind (times_each (h2.imp fun _ _ h => (text_parses h).1))

theorem intArray_parses {ns : List Nat} {e : Bytes} (h : Each Num ns e) : ParsesEnd parseIntArray e ns :=
  whileData_each (h.imp fun _ _ => num_parses)

theorem intMap_parses {ns : List (Nat × Nat)} {e : Bytes} (h : Each NumPair ns e) : ParsesEnd parseIntMap e ns :=
  whileData_each (h.imp fun _ _ => numPair_parses)

theorem stringArray_parses {ss : List RStr} {e : Bytes} (h : Each Text ss e) : ParsesEnd parseStringArray e ss :=
  whileData_each (h.imp fun _ _ => text_parses)

theorem typeValues_parses {vs : List (List RStr)} {e : Bytes} (h : Each Values vs e) : ParsesEnd parseTypeValues e vs :=
  whileData_each (h.imp fun _ _ => values_parses)

theorem defaultCharset_parses {c : DefaultCharset} {e : Bytes} (h : Charset c e) : ParsesEnd parseDefaultCharset e c := by
  obtain ⟨a, b, ⟨h1, h2⟩, h3, rfl⟩ := h
  unfold parseDefaultCharset
  refine (readLenEncNum_parses h2).bindEnd ?_
  rw [show asU32 c.defaultCharsetCollation = c.defaultCharsetCollation from Nat.mod_eq_of_lt h1]
  exact (intMap_parses h3).map _

/-- The published column types are exactly those the code knows. -/
theorem metaLayout_known (t : UInt8) : (∃ l, metaLayout t = some l) ↔ ∃ c, ColumnType.fromCode t.toNat = .ok c := by
  have : ∀ n < 256, (∃ l, metaLayout (UInt8.ofNat n) = some l) ↔ ∃ c, ColumnType.fromCode (UInt8.ofNat n).toNat = .ok c := by
    intro n hn
    have : ((metaLayout (UInt8.ofNat n)).isSome = true ↔
      (match ColumnType.fromCode (UInt8.ofNat n).toNat with | .ok _ => true | _ => false) = true) := by
      revert n
      decide +kernel
    rw [← Option.isSome_iff_exists, this]
    cases ColumnType.fromCode (UInt8.ofNat n).toNat <;> simp
  have h := this t.toNat t.toNat_lt
  rwa [show UInt8.ofNat t.toNat = t by simp] at h

theorem numericColumnCount_ok {types : Bytes} (h : ∀ t ∈ types, ∃ l, metaLayout t = some l) :
    numericColumnCount types = .ok (types.filter isNumeric).length := by
  induction types with
  | nil => rfl
  | cons t ts ih =>
    obtain ⟨c, hc⟩ := (metaLayout_known t).1 (h t (by simp))
    rw [numericColumnCount, ih fun x hx => h x (by simp [hx]), hc]
    clear ih
    have key : isNumeric t = (match (motive := ColumnType → Bool) c with
      | .tiny | .short | .int24 | .long | .longLong | .float | .double | .newDecimal => true
      | _ => false) := by
      have : ∀ n < 256, ∀ c, ColumnType.fromCode (UInt8.ofNat n).toNat = .ok c → isNumeric (UInt8.ofNat n) = (match c with
        | .tiny | .short | .int24 | .long | .longLong | .float | .double | .newDecimal => true
        | _ => false) := by
        have hx : ∀ n < 256, (match ColumnType.fromCode (UInt8.ofNat n).toNat with
          | .ok c => isNumeric (UInt8.ofNat n) == (match c with
              | .tiny | .short | .int24 | .long | .longLong | .float | .double | .newDecimal => true
              | _ => false)
          | _ => true) = true := by decide +kernel
        intro n hn c hc
        have := hx n hn
        rw [hc] at this
        simpa using this
      have h := this t.toNat t.toNat_lt c
      rw [show UInt8.ofNat t.toNat = t by simp] at h
      exact h hc
    rw [List.filter_cons, key]
    cases c <;> simp

/-- The update of the record that a field stands for. -/
def assignOf : MetaField → TableMetadata → TableMetadata
  | .signedness x, t => { t with signedness := some x }
  | .defaultCharset x, t => { t with defaultCharset := some x }
  | .columnCharset x, t => { t with columnCharsets := some x }
  | .columnName x, t => { t with columnNames := some x }
  | .setValues x, t => { t with setStringValues := some x }
  | .enumValues x, t => { t with enumStringValues := some x }
  | .geometryTypes x, t => { t with geometryTypes := some x }
  | .primaryKey x, t => { t with simplePrimaryKeys := some x }
  | .primaryKeyPrefix x, t => { t with primaryKeysWithPrefix := some x }
  | .enumSetDefaultCharset x, t => { t with enumAndSetDefaultCharset := some x }
  | .enumSetColumnCharset x, t => { t with enumAndSetColumnCharsets := some x }
  | .visibility x, t => { t with columnVisibility := some x }

theorem metaField_parses {types : Bytes} {f : MetaField} {e : Bytes} (ht : ∀ t ∈ types, ∃ l, metaLayout t = some l)
    (hlen : types.length < 2 ^ 63)
    (h : MetaFieldBytes types f e) : Parses (parseMetadataField types) e (assignOf f) ∧ e ≠ [] := by
  obtain ⟨code, len, payload, hp, hl, hle, rfl⟩ := h
  refine ⟨?_, by simp⟩
  have hd : ∀ {α : Type} {p : P α} {v : α} {k : α → TableMetadata → TableMetadata}, ParsesEnd p payload v →
      Parses (P.lift (p.run payload) >>= fun v => (pure (k v) : P _)) [] (k v) := by
    intro α p v k h
    rw [h.run, lift_ok_bind]
    exact Parses.pure _
  unfold parseMetadataField
  rw [List.append_assoc]
  refine (u8_byte code).bind ?_
  have hfin : ∀ {k : Bytes → P (TableMetadata → TableMetadata)}, Parses (k payload) [] (assignOf f) →
      Parses (readLenEncNum >>= fun n => P.readVec n >>= k) (len ++ payload) (assignOf f) := by
    intro k hk
    refine (readLenEncNum_parses hle).bind ?_
    exact ((readVec_parses rfl hl).bind hk).cast (by simp) rfl
  have hnum : (types.filter isNumeric).length ≤ types.length := List.length_filter_le _ _
  cases hp with
  | signedness h hb =>
    refine hfin ?_
    simp only [numericColumnCount_ok ht, lift_ok_bind]
    rw [← hb]
    exact hd (k := fun v t => { t with signedness := some v }) (readBitmapReverted_parses h (by omega)).end
  | defaultCharset h => exact hfin (hd (k := fun v t => { t with defaultCharset := some v }) (defaultCharset_parses h))
  | columnCharset h => exact hfin (hd (k := fun v t => { t with columnCharsets := some v }) (intArray_parses h))
  | columnName h => exact hfin (hd (k := fun v t => { t with columnNames := some v }) (stringArray_parses h))
  | setValues h => exact hfin (hd (k := fun v t => { t with setStringValues := some v }) (typeValues_parses h))
  | enumValues h => exact hfin (hd (k := fun v t => { t with enumStringValues := some v }) (typeValues_parses h))
  | geometryTypes h => exact hfin (hd (k := fun v t => { t with geometryTypes := some v }) (intArray_parses h))
  | primaryKey h => exact hfin (hd (k := fun v t => { t with simplePrimaryKeys := some v }) (intArray_parses h))
  | primaryKeyPrefix h => exact hfin (hd (k := fun v t => { t with primaryKeysWithPrefix := some v }) (intMap_parses h))
  | enumSetDefaultCharset h =>
    exact hfin (hd (k := fun v t => { t with enumAndSetDefaultCharset := some v }) (defaultCharset_parses h))
  | enumSetColumnCharset h =>
    exact hfin (hd (k := fun v t => { t with enumAndSetColumnCharsets := some v }) (intArray_parses h))
  | visibility h hb =>
    refine hfin ?_
    simp only
    rw [← hb]
    exact hd (k := fun v t => { t with columnVisibility := some v }) (readBitmapReverted_parses h (by omega)).end

theorem lastOf_snoc {α β : Type} (f : α → Option β) (xs : List α) (x : α) :
    lastOf f (xs ++ [x]) = (f x).or (lastOf f xs) := by
  unfold lastOf
  rw [List.filterMap_append]
  cases h : f x <;> simp [h]

theorem metaOf_fold (fields : List MetaField) :
    MetaOf fields ((fields.map assignOf).foldl (fun t f => f t) TableMetadata.empty) := by
  induction fields using List.reverseRecOn with
  | nil => constructor <;> rfl
  | append_singleton fields f ih =>
    rw [List.map_append, List.foldl_append]
    simp only [List.map_cons, List.map_nil, List.foldl_cons, List.foldl_nil]
    generalize (fields.map assignOf).foldl (fun t f => f t) TableMetadata.empty = t at ih
    obtain ⟨h1, h2, h3, h4, h5, h6, h7, h8, h9, h10, h11, h12⟩ := ih
    constructor <;> rw [lastOf_snoc] <;> cases f <;> simp [assignOf, *]

theorem tableMetadata_parses {types : Bytes} {fields : List MetaField} {e : Bytes}
    (ht : ∀ t ∈ types, ∃ l, metaLayout t = some l) (hlen : types.length < 2 ^ 63)
    (h : Each (MetaFieldBytes types) fields e) :
    ∃ t, MetaOf fields t ∧ ParsesEnd (parseTableMetadata types) e t := by
  refine ⟨_, metaOf_fold fields, ?_⟩
  have h' : Each (fun v e => Parses (parseMetadataField types) e v ∧ e ≠ []) (fields.map assignOf) e := by
    induction h with
    | nil => exact .nil
    | cons h _ ih => exact .cons (metaField_parses ht hlen h) ih
  exact (whileData_each h').map _

theorem columnMeta_eq : ∀ t l, metaLayout t = some l → parseColumnMetadata t =
    (match l with | .nothing => pure 0 | .byte => P.u8 | .littleEndian => P.uLE 2 | .bigEndian => P.uBE 2) := by
  intro t l hl
  obtain ⟨c, hc⟩ := (metaLayout_known t).1 ⟨l, hl⟩
  unfold parseColumnMetadata
  rw [hc, lift_ok_bind]
  have hx : ∀ n < 256, (match ColumnType.fromCode (UInt8.ofNat n).toNat, metaLayout (UInt8.ofNat n) with
      | .ok c, some l => (match c with
          | .geometry | .json | .tinyBlob | .mediumBlob | .longBlob | .blob | .float | .double | .timeStamp2 | .dateTime2
          | .time2 => (match l with | .byte => true | _ => false)
          | .bit | .varChar | .varString | .newDecimal => (match l with | .littleEndian => true | _ => false)
          | .enum | .set | .string => (match l with | .bigEndian => true | _ => false)
          | _ => (match l with | .nothing => true | _ => false))
      | _, _ => true) = true := by decide +kernel
  have := hx t.toNat t.toNat_lt
  rw [show UInt8.ofNat t.toNat = t by simp, hc, hl] at this
  cases c <;> cases l <;> first | rfl | (simp at this)

theorem columnMeta_parses {c : UInt8 × Nat} {e : Bytes} (h : ColumnMeta c e) : Parses (parseColumnMetadata c.1) e c.2 := by
  cases h with
  | nothing h => rw [columnMeta_eq _ _ h]; exact Parses.pure 0
  | byte h hn => rw [columnMeta_eq _ _ h]; exact u8_parses hn
  | littleEndian h hn => rw [columnMeta_eq _ _ h]; exact uLE_parses (k := 2) hn
  | bigEndian h hn => rw [columnMeta_eq _ _ h]; exact uBE_parses (k := 2) hn

theorem columnMeta_known {columns : List (UInt8 × Nat)} {e : Bytes} (h : Each ColumnMeta columns e) :
    ∀ t ∈ columns.map (·.1), ∃ l, metaLayout t = some l := by
  induction h with
  | nil => simp
  | @cons v vs e es h _ ih =>
    intro t ht
    simp only [List.map_cons, List.mem_cons] at ht
    rcases ht with rfl | ht
    · cases h with
      | nothing h => exact ⟨_, h⟩
      | byte h => exact ⟨_, h⟩
      | littleEndian h => exact ⟨_, h⟩
      | bigEndian h => exact ⟨_, h⟩
    · exact ih t ht

theorem hasData_apply (buf : Bytes) (pos : Nat) : P.hasData buf pos = .ok (decide (pos < buf.length), pos) := rfl

theorem hasData_bind {α : Type} {f : Bool → P α} {e : Bytes} {v : α} (h : ParsesEnd (f (decide (e ≠ []))) e v) :
    ParsesEnd (P.hasData >>= f) e v := by
  intro pre
  rw [P.seq_apply, hasData_apply]
  simp only [Res.bind]
  have : decide (pre.length < (pre ++ e).length) = decide (e ≠ []) := by
    cases e <;> simp
  rw [this]
  exact h pre

theorem parseTableMap_parses {tableId : Nat} {db table : RStr} {columns : List (UInt8 × Nat)} {nulls : List Bool}
    {fields : List MetaField} {body : Bytes} (h : TableMapBody tableId db table columns nulls fields body) :
    ∃ t, (fields = [] ∧ t = none ∨ fields ≠ [] ∧ ∃ md, t = some md ∧ MetaOf fields md) ∧
      ParsesEnd parseTableMap body ⟨tableId, db, table, columns.map (·.1), columns.map (·.2), nulls, t⟩ := by
  cases h with
  | @mk flags _ _ _ _ _ count metaLength colMeta bitmap opt h1 h2 h3 h4 h5 h5' h6 h8 h9 h10 h11 =>
  have hknown := columnMeta_known h6
  obtain ⟨md, hmd, hpmd⟩ := tableMetadata_parses hknown (by simpa using h5') h11
  refine ⟨if opt = [] then none else some md, ?_, ?_⟩
  · cases h11 with
    | nil => left; exact ⟨rfl, by simp⟩
    | @cons v vs e es h hs =>
      right
      have : e ≠ [] := (metaField_parses hknown (by simpa using h5') h).2
      exact ⟨by simp, md, by simp [this], hmd⟩
  · unfold parseTableMap
    simp only [List.append_assoc]
    refine (uLE_parses (k := 6) (by simpa using h1)).bindEnd ?_
    refine (seek_parses (n := 2) h2).bindEnd ?_
    refine (u8_parses h3).bindEnd ?_
    refine (readString_parses rfl (by omega)).bindEnd ?_
    refine (seek_parses (n := 1) rfl).bindEnd ?_
    refine (u8_parses h4).bindEnd ?_
    refine (readString_parses rfl (by omega)).bindEnd ?_
    refine (seek_parses (n := 1) rfl).bindEnd ?_
    refine (readLenEncNum_parses h5).bindEnd ?_
    refine (readVec_parses (by simp) h5').bindEnd ?_
    refine (readLenEncNum_parses h8).bindEnd ?_
    refine (forEach_each (f := parseColumnMetadata) (h6.imp fun _ _ => columnMeta_parses)).bindEnd ?_
    rw [← h9]
    refine (readBitmapLittleEndian_parses h10 (by omega)).bindEnd ?_
    refine hasData_bind ?_
    by_cases ho : opt = []
    · subst ho
      simp only [ne_eq, not_true_eq_false, decide_false, Bool.false_eq_true, if_false, if_true]
      exact ParsesEnd.pure _
    · simp only [ne_eq, ho, not_false_eq_true, decide_true, if_true, if_false]
      exact hpmd.map _

end MysqlCdc
