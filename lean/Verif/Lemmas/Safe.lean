import Verif.Spec.Safety
import Verif.Lemmas.Bitmaps
import Verif.Lemmas.Cells
import Verif.Lemmas.Events
import Verif.Lemmas.Progress
/-!
# Absence of panics
-/

namespace MysqlCdc

open Spec

/-- On the slice `buf` the parser never panics, and its results satisfy `Q`. -/
def Safe {α : Type} (buf : Bytes) (p : P α) (Q : α → Prop) : Prop :=
  ∀ pos, p buf pos ≠ .panic ∧ ∀ r, p buf pos = .ok r → Q r.1

theorem Safe.bind {α β : Type} {buf : Bytes} {p : P α} {f : α → P β} {Q : α → Prop} {R : β → Prop} (h1 : Safe buf p Q)
    (h2 : ∀ a, Q a → Safe buf (f a) R) : Safe buf (p >>= f) R := by
  intro pos
  rw [P.seq_apply]
  have a1 := h1 pos
  cases hp : p buf pos with
  | ok r => exact h2 r.1 (a1.2 r hp) r.2
  | err e => exact ⟨by simp, by simp⟩
  | panic => exact absurd hp a1.1
  | hang => exact ⟨by simp, by simp⟩

theorem Safe.imp {α : Type} {buf : Bytes} {p : P α} {Q R : α → Prop} (h : Safe buf p Q) (hi : ∀ a, Q a → R a) : Safe buf p R :=
  fun pos => ⟨(h pos).1, fun r hr => hi _ ((h pos).2 r hr)⟩

theorem Safe.any {α : Type} {buf : Bytes} {p : P α} {Q : α → Prop} (h : Safe buf p Q) : Safe buf p fun _ => True :=
  h.imp fun _ _ => trivial

theorem Safe.pure {α : Type} {buf : Bytes} {a : α} {Q : α → Prop} (h : Q a) : Safe buf (Pure.pure a : P α) Q := fun pos => by
  refine ⟨by simp, fun r hr => ?_⟩
  simp at hr; rw [← hr]; exact h

theorem Safe.map {α β : Type} {buf : Bytes} {p : P α} {Q : α → Prop} (h : Safe buf p Q) (f : α → β) :
    Safe buf (p >>= fun a => Pure.pure (f a)) fun _ => True := h.bind fun _ _ => .pure trivial

theorem Safe.fail {α : Type} {buf : Bytes} (e : Err) (Q : α → Prop) : Safe buf (P.fail e : P α) Q := fun pos => by simp [P.fail]

theorem Safe.lift {α : Type} {buf : Bytes} {r : Res α} {Q : α → Prop} (h : r ≠ .panic) (hq : ∀ a, r = .ok a → Q a) :
    Safe buf (P.lift r) Q := fun pos => by
  cases r <;> simp_all [P.lift]

theorem Safe.ite {α : Type} {buf : Bytes} {c : Prop} [Decidable c] {p q : P α} {Q : α → Prop} (hp : Safe buf p Q)
    (hq : Safe buf q Q) : Safe buf (if c then p else q) Q := by
  split
  · exact hp
  · exact hq

theorem Safe.readExact (buf : Bytes) (n : Nat) : Safe buf (P.readExact n) fun bs => bs.length = n ∧ bs <:+: buf := fun pos => by
  unfold P.readExact
  split
  · next h =>
    refine ⟨by simp, fun r hr => ?_⟩
    simp at hr; rw [← hr]
    refine ⟨by simpa using h, ?_⟩
    exact (List.take_prefix _ _).isInfix.trans (List.drop_suffix _ _).isInfix
  · simp

theorem Safe.readVec {buf : Bytes} {n : Nat} (h : n < 2 ^ 63) : Safe buf (P.readVec n) fun bs => bs.length = n ∧ bs <:+: buf := by
  unfold P.readVec
  rw [allocZeroed_ok h]
  exact .readExact buf n

theorem Safe.uLE (buf : Bytes) (k : Nat) : Safe buf (P.uLE k) fun n => n < 256 ^ k :=
  (Safe.readExact buf k).bind fun bs h => .pure (by have := leVal_lt bs; rwa [h.1] at this)

theorem Safe.uBE (buf : Bytes) (k : Nat) : Safe buf (P.uBE k) fun _ => True := (Safe.readExact buf k).map _

theorem Safe.u8 (buf : Bytes) : Safe buf P.u8 fun n => n < 256 := Safe.uLE buf 1

theorem Safe.uintLE {buf : Bytes} {k : Nat} (h1 : 1 ≤ k) (h2 : k ≤ 8) : Safe buf (P.uintLE k) fun n => n < 256 ^ k := by
  unfold P.uintLE
  rw [if_neg (by omega)]
  simp only [show k ≠ 0 by omega, if_false]
  exact Safe.uLE buf k

theorem Safe.uintBE {buf : Bytes} {k : Nat} (h1 : 1 ≤ k) (h2 : k ≤ 8) : Safe buf (P.uintBE k) fun _ => True := by
  unfold P.uintBE
  rw [if_neg (by omega)]
  simp only [show k ≠ 0 by omega, if_false]
  exact Safe.uBE buf k

theorem Safe.seek (buf : Bytes) (n : Int) : Safe buf (P.seekCur n) fun _ => True := fun pos => by
  unfold P.seekCur
  split <;> simp

theorem Safe.readToString (buf : Bytes) : Safe buf readToString fun _ => True := by
  refine Safe.bind (p := P.rest) (Q := fun _ => True) (fun pos => by simp [P.rest]) fun bs _ => ?_
  split
  · exact .pure trivial
  · exact .fail _ _

theorem fromUtf8_ne_panic (bs : Bytes) : fromUtf8 bs ≠ .panic := by
  unfold fromUtf8
  split <;> simp

theorem Safe.readString {buf : Bytes} {n : Nat} (h : n < 2 ^ 63) : Safe buf (readString n) fun _ => True :=
  (Safe.readVec h).bind fun _ _ => .lift (fromUtf8_ne_panic _) fun _ _ => trivial

theorem Safe.times {α : Type} {buf : Bytes} {p : P α} {Q : α → Prop} (h : Safe buf p Q) (n : Nat) :
    Safe buf (P.times n p) fun _ => True := by
  induction n with
  | zero => exact Safe.pure (α := List α) trivial
  | succ n ih => exact h.bind fun a _ => ih.map _

theorem Safe.forEach {α β : Type} {buf : Bytes} {f : α → P β} {Q : β → Prop} (xs : List α) (h : ∀ x, Safe buf (f x) Q) :
    Safe buf (P.forEach xs f) fun _ => True := by
  induction xs with
  | nil => exact Safe.pure (α := List β) trivial
  | cons x xs ih => exact (h x).bind fun b _ => ih.map _

theorem Safe.whileData {α : Type} {buf : Bytes} {p : P α} {Q : α → Prop} (h : Safe buf p Q) :
    Safe buf (P.whileData p) fun _ => True := by
  intro pos
  refine ⟨?_, fun _ _ => trivial⟩
  induction hn : buf.length - pos using Nat.strongRecOn generalizing pos with
  | _ n ih =>
    subst hn
    rw [P.whileData]
    split
    · cases hr : p buf pos with
      | ok r =>
        obtain ⟨a, pos'⟩ := r
        simp only
        split
        · have i := ih (buf.length - pos') (by omega) pos' rfl
          cases hw : P.whileData p buf pos' with
          | panic => exact absurd hw i
          | _ => simp
        · simp
      | panic => exact absurd hr (h pos).1
      | _ => simp
    · simp

theorem P.run_ne_panic {α : Type} {bs : Bytes} {p : P α} {Q : α → Prop} (h : Safe bs p Q) : p.run bs ≠ .panic := by
  unfold P.run
  cases hp : p bs 0 with
  | panic => exact absurd hp (h 0).1
  | _ => simp

/-! ## Length-encoded integers -/

theorem AbsurdLength_infix {a b : Bytes} (h : a <:+: b) (hb : ¬ AbsurdLength b) : ¬ AbsurdLength a := by
  rintro ⟨l, h1, h2, h3⟩
  exact hb ⟨l, h1, h2, h3.trans h⟩

theorem Safe.readLenEncNum {buf : Bytes} (hb : ¬ AbsurdLength buf) : Safe buf readLenEncNum fun n => n < 2 ^ 63 := by
  intro pos
  unfold MysqlCdc.readLenEncNum
  rw [P.seq_apply]
  have a1 := Safe.u8 buf pos
  cases hp : P.u8 buf pos with
  | ok r =>
    obtain ⟨first, pos'⟩ := r
    have hf : first < 256 := a1.2 _ hp
    simp only [Res.bind]
    by_cases h1 : first < 0xFB
    · rw [if_pos h1]; exact Safe.pure (buf := buf) (a := first) (Q := fun n => n < 2 ^ 63) (by omega) pos'
    rw [if_neg h1]
    by_cases h2 : first = 0xFB
    · rw [if_pos h2]; exact Safe.fail (buf := buf) _ (fun n => n < 2 ^ 63) pos'
    rw [if_neg h2]
    by_cases h3 : first = 0xFC
    · rw [if_pos h3]; exact (Safe.uLE buf 2).imp (R := fun n => n < 2 ^ 63) (fun _ h => by omega) pos'
    rw [if_neg h3]
    by_cases h4 : first = 0xFD
    · rw [if_pos h4]; exact (Safe.uLE buf 3).imp (R := fun n => n < 2 ^ 63) (fun _ h => by omega) pos'
    rw [if_neg h4]
    by_cases h5 : first = 0xFE
    · rw [if_pos h5]
      refine ⟨(Safe.uLE buf 8 pos').1, fun r hr => ?_⟩
      apply Classical.byContradiction
      intro hbig
      apply hb
      simp only [P.u8, P.seq_apply, P.readExact] at hp
      split at hp
      · next hlen =>
        simp only [Res.bind, P.ret_apply, Res.ok.injEq, Prod.mk.injEq] at hp
        obtain ⟨hp1, hp2⟩ := hp
        subst hp2
        simp only [P.uLE, P.seq_apply, P.readExact] at hr
        split at hr
        · next hlen2 =>
          simp only [Res.bind, P.ret_apply, Res.ok.injEq] at hr
          subst hr
          have hd : buf.drop pos = 0xFE :: buf.drop (pos + 1) := by
            cases hdr : buf.drop pos with
            | nil => rw [hdr] at hlen; simp at hlen
            | cons b bs =>
              rw [hdr] at hp1
              have : b.toNat = 254 := by simp [leVal] at hp1; omega
              have hb' : b = 0xFE := by apply UInt8.toNat_inj.1; rw [this]; rfl
              rw [hb']
              congr 1
              rw [show pos + 1 = 1 + pos by omega, Nat.add_comm, ← List.drop_drop, hdr]
              simp
          refine ⟨(buf.drop (pos + 1)).take 8, by simpa using hlen2, by simpa using hbig, ?_⟩
          have : (0xFE :: (buf.drop (pos + 1)).take 8) = (buf.drop pos).take 9 := by rw [hd]; simp
          rw [this]
          exact (List.take_prefix _ _).isInfix.trans (List.drop_suffix _ _).isInfix
        · simp at hr
      · simp at hp
    · rw [if_neg h5]; exact Safe.fail (buf := buf) _ (fun n => n < 2 ^ 63) pos'
  | err e => exact ⟨by simp, by simp⟩
  | panic => exact absurd hp a1.1
  | hang => exact ⟨by simp, by simp⟩

theorem Safe.readLenEncStr {buf : Bytes} (hb : ¬ AbsurdLength buf) : Safe buf readLenEncStr fun _ => True :=
  (Safe.readLenEncNum hb).bind fun _ h => .readString h

/-! ## Bitmaps -/

theorem Safe.bitmapLoop {buf : Bytes} {bits : Nat} {set : Nat → UInt8 → List Bool → Res (List Bool)} (is : List Nat)
    (h : ∀ i ∈ is, ∀ v r, r.length = bits → ∃ r', set i v r = .ok r' ∧ r'.length = bits) (res : List Bool)
    (hl : res.length = bits) : Safe buf (bitmapLoop set is res) fun r => r.length = bits := by
  induction is generalizing res with
  | nil => exact .pure hl
  | cons i is ih =>
    unfold MysqlCdc.bitmapLoop
    refine (Safe.u8 buf).bind fun v _ => ?_
    obtain ⟨r', h1, h2⟩ := h i (by simp) (UInt8.ofNat v) res hl
    rw [h1]
    exact ih (fun j hj => h j (by simp [hj])) r' h2

theorem Safe.bitmapLE {buf : Bytes} {bits : Nat} (h : bits < 2 ^ 63) :
    Safe buf (readBitmapLittleEndian bits) fun r => r.length = bits := by
  unfold readBitmapLittleEndian
  rw [allocZeroed_ok h]
  refine Safe.bitmapLoop (buf := buf) (bits := bits) _ (fun i hi v r hr => ?_) _ (by simp)
  obtain ⟨r', h1, h2⟩ := setBitsLE_stores v r hr (by simpa [bytesFor] using hi)
  exact ⟨r', h1, h2.1⟩

theorem Safe.bitmapBE {buf : Bytes} {bits : Nat} (h : bits < 2 ^ 63) :
    Safe buf (readBitmapBigEndian bits) fun r => r.length = bits := by
  unfold readBitmapBigEndian
  rw [allocZeroed_ok h]
  refine Safe.bitmapLoop (buf := buf) (bits := bits) _ (fun i hi v r hr => ?_) _ (by simp)
  obtain ⟨r', h1, h2⟩ := setBitsBE_stores v r hr
  exact ⟨r', h1, h2.1⟩

theorem Safe.bitmapRev {buf : Bytes} {bits : Nat} (h : bits < 2 ^ 63) :
    Safe buf (readBitmapReverted bits) fun r => r.length = bits := by
  unfold readBitmapReverted
  rw [allocZeroed_ok h]
  refine Safe.bitmapLoop (buf := buf) (bits := bits) _ (fun i hi v r hr => ?_) _ (by simp)
  obtain ⟨r', h1, h2⟩ := setBitsRev_stores v r hr (by simpa [bytesFor] using hi)
  exact ⟨r', h1, h2.1⟩

/-! ## Plain events -/

theorem Safe.query (buf : Bytes) : Safe buf parseQuery fun _ => True := by
  unfold parseQuery
  refine (Safe.uLE buf 4).bind fun _ _ => (Safe.uLE buf 4).bind fun _ _ => (Safe.u8 buf).bind fun d hd =>
    (Safe.uLE buf 2).bind fun _ _ => (Safe.uLE buf 2).bind fun s hs => ?_
  exact (Safe.readVec (by omega)).bind fun _ _ => (Safe.readString (by omega)).bind fun _ _ => (Safe.seek buf 1).bind fun _ _ =>
    (Safe.readToString buf).map _

theorem Safe.userVar (buf : Bytes) : Safe buf parseUserVar fun _ => True := by
  unfold parseUserVar
  refine (Safe.uLE buf 4).bind fun n hn => (Safe.readString (by omega)).bind fun _ _ => (Safe.u8 buf).bind fun _ _ => ?_
  refine .ite (.pure trivial) ?_
  exact (Safe.u8 buf).bind fun _ _ => (Safe.uLE buf 4).bind fun _ _ => (Safe.uLE buf 4).bind fun v hv =>
    (Safe.readString (by omega)).bind fun _ _ => (Safe.u8 buf).map _

theorem checksumType_ne_panic (c : Nat) : ChecksumType.fromCode c ≠ .panic := by
  unfold ChecksumType.fromCode
  split <;> simp

theorem Safe.formatDescription {m : Mode} {h : EventHeader} (buf : Bytes) (hh : m.checks = true → 19 ≤ h.eventLength % 256) :
    Safe buf (parseFormatDescription m h) fun _ => True := by
  have hsub : subU m 8 (h.eventLength % 256) EVENT_HEADER_SIZE ≠ .panic := by
    unfold subU EVENT_HEADER_SIZE
    split
    · simp
    · next hn =>
      split
      · next hc => exact absurd (hh hc) hn
      · simp
  unfold parseFormatDescription
  refine (Safe.uLE buf 2).bind fun _ _ => (Safe.readExact buf 50).bind fun raw _ => ?_
  split
  · refine (Safe.pure (Q := fun _ => True) trivial).bind fun _ _ => (Safe.seek buf _).bind fun _ _ => (Safe.seek buf _).bind
      fun _ _ => (Safe.u8 buf).bind fun n _ => (Safe.lift (Q := fun _ => True) hsub fun _ _ => trivial).bind fun e _ => ?_
    exact .ite ((Safe.seek buf _).bind fun _ _ => (Safe.u8 buf).bind fun c _ =>
      (Safe.lift (Q := fun _ => True) (checksumType_ne_panic c) fun _ _ => trivial).map _) (.pure trivial)
  · exact (Safe.fail _ fun _ => False).bind fun _ h => h.elim

theorem Safe.previousGtids {m : Mode} (hm : m.checks = false) (buf : Bytes) : Safe buf (parsePreviousGtids m) fun _ => True := by
  have hi : Safe buf (parsePrevInterval m) fun _ => True := by
    unfold parsePrevInterval
    refine (Safe.uLE buf 8).bind fun _ _ => (Safe.uLE buf 8).bind fun _ _ => Safe.map (Q := fun _ => True) (.lift ?_ fun _ _ => trivial) _
    unfold subU
    rw [hm]
    split <;> simp
  have hs : Safe buf (parsePrevUuidSet m) fun _ => True := by
    unfold parsePrevUuidSet
    refine (Safe.readExact buf 16).bind fun _ _ => ?_
    simp only [uuidSet_new_nil]
    exact (Safe.uLE buf 8).bind fun n _ => (hi.times n).map _
  exact (Safe.uLE buf 8).bind fun n _ => (hs.times n).map _

theorem Safe.gtidList (buf : Bytes) : Safe buf parseGtidList fun _ => True := by
  have hg : Safe buf parseListGtid fun _ => True :=
    (Safe.uLE buf 4).bind fun _ _ => (Safe.uLE buf 4).bind fun _ _ => (Safe.uLE buf 8).map _
  exact (Safe.uLE buf 4).bind fun n _ => (hg.times n).map _

/-! ## Table maps -/

theorem columnType_ne_panic (c : Nat) : ColumnType.fromCode c ≠ .panic := by
  unfold ColumnType.fromCode
  split <;> simp

theorem numericColumnCount_safe (cs : Bytes) :
    numericColumnCount cs ≠ .panic ∧ ∀ n, numericColumnCount cs = .ok n → n ≤ cs.length := by
  induction cs with
  | nil => simp [numericColumnCount]
  | cons c cs ih =>
    unfold numericColumnCount
    cases h1 : ColumnType.fromCode c.toNat with
    | ok t =>
      cases h2 : numericColumnCount cs with
      | ok k =>
        have := ih.2 k h2
        simp only [Res.bind_ok]
        split <;> simp <;> omega
      | err e => simp
      | panic => exact absurd h2 ih.1
      | hang => simp
    | err e => simp
    | panic => exact absurd h1 (columnType_ne_panic _)
    | hang => simp

theorem metadataType_ne_panic (c : Nat) : MetadataType.fromCode c ≠ .panic := by
  unfold MetadataType.fromCode
  split <;> simp

theorem Safe.intArray {buf : Bytes} (hb : ¬ AbsurdLength buf) : Safe buf parseIntArray fun _ => True :=
  Safe.whileData ((Safe.readLenEncNum hb).map _)
theorem Safe.stringArray {buf : Bytes} (hb : ¬ AbsurdLength buf) : Safe buf parseStringArray fun _ => True :=
  Safe.whileData (Safe.readLenEncStr hb)
theorem Safe.intMap {buf : Bytes} (hb : ¬ AbsurdLength buf) : Safe buf parseIntMap fun _ => True :=
  Safe.whileData ((Safe.readLenEncNum hb).bind fun _ _ => (Safe.readLenEncNum hb).map _)
theorem Safe.typeValues {buf : Bytes} (hb : ¬ AbsurdLength buf) : Safe buf parseTypeValues fun _ => True :=
  Safe.whileData ((Safe.readLenEncNum hb).bind fun n _ => (Safe.readLenEncStr hb).times n)
theorem Safe.defaultCharset {buf : Bytes} (hb : ¬ AbsurdLength buf) : Safe buf parseDefaultCharset fun _ => True :=
  (Safe.readLenEncNum hb).bind fun _ _ => (Safe.intMap hb).map _

theorem Safe.metadataField {buf : Bytes} (hb : ¬ AbsurdLength buf) {types : Bytes} (ht : types.length < 2 ^ 63) :
    Safe buf (parseMetadataField types) fun _ => True := by
  unfold parseMetadataField
  refine (Safe.u8 buf).bind fun code _ => (Safe.lift (Q := fun _ => True) (metadataType_ne_panic _) fun _ _ => trivial).bind
    fun t _ => (Safe.readLenEncNum hb).bind fun n hn => (Safe.readVec hn).bind fun bs hbs => ?_
  have hb' := AbsurdLength_infix hbs.2 hb
  have fin : ∀ {α : Type} {p : P α} {Q : α → Prop} (f : α → TableMetadata → TableMetadata), Safe bs p Q →
      Safe buf (P.lift (p.run bs) >>= fun v => (Pure.pure (f v) : P (TableMetadata → TableMetadata))) fun _ => True :=
    fun f h => Safe.map (Q := fun _ => True) (.lift (P.run_ne_panic h) fun _ _ => trivial) _
  have hc := numericColumnCount_safe types
  cases t with
  | signedness => exact (Safe.lift hc.1 hc.2).bind fun c hc => fin _ (Safe.bitmapRev (by omega))
  | defaultCharset => exact fin _ (.defaultCharset hb')
  | columnCharset => exact fin _ (.intArray hb')
  | columnName => exact fin _ (.stringArray hb')
  | setStrValue => exact fin _ (.typeValues hb')
  | enumStrValue => exact fin _ (.typeValues hb')
  | geometryType => exact fin _ (.intArray hb')
  | simplePrimaryKey => exact fin _ (.intArray hb')
  | primaryKeyWithPrefix => exact fin _ (.intMap hb')
  | enumAndSetDefaultCharset => exact fin _ (.defaultCharset hb')
  | enumAndSetColumnCharset => exact fin _ (.intArray hb')
  | columnVisibility => exact fin _ (Safe.bitmapRev ht)

theorem Safe.columnMetadata (buf : Bytes) (c : UInt8) : Safe buf (parseColumnMetadata c) fun _ => True := by
  unfold parseColumnMetadata
  refine (Safe.lift (Q := fun _ => True) (columnType_ne_panic _) fun _ _ => trivial).bind fun t _ => ?_
  have h1 := (Safe.u8 buf).any
  have h2 := (Safe.uLE buf 2).any
  have h3 := Safe.uBE buf 2
  cases t <;> first | exact h1 | exact h2 | exact h3 | exact .pure trivial

theorem Safe.tableMap {buf : Bytes} (hb : ¬ AbsurdLength buf) : Safe buf parseTableMap fun _ => True := by
  unfold parseTableMap
  refine (Safe.uLE buf 6).bind fun _ _ => (Safe.seek buf 2).bind fun _ _ => (Safe.u8 buf).bind fun a ha =>
    (Safe.readString (by omega)).bind fun _ _ => (Safe.seek buf 1).bind fun _ _ => (Safe.u8 buf).bind fun b hb' =>
    (Safe.readString (by omega)).bind fun _ _ => (Safe.seek buf 1).bind fun _ _ => (Safe.readLenEncNum hb).bind fun n hn =>
    (Safe.readVec hn).bind fun types ht => (Safe.readLenEncNum hb).bind fun _ _ =>
    (Safe.forEach types (Safe.columnMetadata buf)).bind fun _ _ => (Safe.bitmapLE hn).bind fun _ _ => ?_
  refine Safe.bind (p := P.hasData) (Q := fun _ => True) (fun pos => by simp [P.hasData]) fun more _ => ?_
  refine .ite ?_ (.pure trivial)
  have h1 : Safe buf (parseTableMetadata types) fun _ => True :=
    (Safe.whileData (Safe.metadataField hb (types := types) (by rw [ht.1]; exact hn))).map _
  exact h1.map _

/-! ## Rows -/

theorem Safe.fractional (m : Mode) {md : Nat} (h : md ≤ 6) (buf : Bytes) : Safe buf (parseFractionalPart m md) fun _ => True := by
  unfold parseFractionalPart
  have : addU m 16 md 1 = .ok (md + 1) := by unfold addU; rw [if_pos (by omega)]
  rw [this]
  rw [lift_ok_bind]
  simp only
  split
  · exact .pure trivial
  · refine (Safe.uintBE (by omega) (by omega)).bind fun f _ => ?_
    rw [if_pos (by omega)]
    exact .pure trivial

theorem Safe.integralGroups (buf : Bytes) (k : Nat) (started : Bool) (res : RStr) :
    Safe buf (integralGroups k started res) fun _ => True := by
  induction k generalizing started res with
  | zero => exact .pure trivial
  | succ k ih =>
    unfold MysqlCdc.integralGroups
    exact (Safe.uBE buf 4).bind fun n _ => .ite (ih _ _) (.ite (ih _ _) (ih _ _))

theorem Safe.fractionalGroups (buf : Bytes) (k : Nat) (res : RStr) : Safe buf (fractionalGroups k res) fun _ => True := by
  induction k generalizing res with
  | zero => exact .pure trivial
  | succ k ih =>
    unfold MysqlCdc.fractionalGroups
    exact (Safe.uBE buf 4).bind fun n _ => ih _

theorem compressedBytes_le (n : Nat) : compressedBytes n ≤ 4 := by
  unfold compressedBytes
  split <;> omega

theorem compressedBytes_pos {n : Nat} (h : 1 ≤ n) : 1 ≤ compressedBytes n := by
  unfold compressedBytes
  split <;> omega

theorem Safe.decimalBody (buf : Bytes) (a b c d e : Nat) (res : RStr) :
    Safe buf (decimalBody a b c d e res) fun _ => True := by
  unfold MysqlCdc.decimalBody
  simp only
  refine Safe.bind (Q := fun _ => True) ?_ fun x _ => ?_
  · split
    · next h =>
      refine (Safe.uintBE h ?_).bind fun n _ => .ite (.pure trivial) (.pure trivial)
      have := compressedBytes_le b
      omega
    · exact .pure trivial
  · refine (Safe.integralGroups buf _ _ _).bind fun y _ => (Safe.fractionalGroups buf _ _).bind fun r _ => ?_
    split
    · next h =>
      refine (Safe.uintBE h ?_).map _
      have := compressedBytes_le d
      omega
    · exact .pure trivial

theorem Safe.decimal (m : Mode) {md : Nat} (h0 : md < 2 ^ 16) (h1 : 1 ≤ md % 256) (h2 : md / 256 ≤ md % 256) (buf : Bytes) :
    Safe buf (parseDecimal m md) fun _ => True := by
  unfold parseDecimal
  have e1 : md &&& 0xFF = md % 256 := by rw [show (0xFF : Nat) = 2 ^ 8 - 1 by rfl, Nat.and_two_pow_sub_one_eq_mod]
  have e2 : (md >>> 8) % 256 = md / 256 := by rw [Nat.shiftRight_eq_div_pow]; omega
  rw [e1, e2]
  have e3 : subU m 16 (md % 256) (md / 256) = .ok (md % 256 - md / 256) := by unfold subU; rw [if_pos h2]
  simp only [e3, lift_ok_bind, DIGITS_PER_INT]
  have e4 : (md % 256 - md / 256) % 256 = md % 256 - md / 256 := by omega
  rw [e4]
  generalize hi : md % 256 - md / 256 = i
  generalize hs : md / 256 = s at *
  have c1 := compressedBytes_le (i - i / 9 * 9)
  have c2 := compressedBytes_le (s - s / 9 * 9)
  refine (Safe.readVec (by omega)).bind fun v hv => ?_
  split
  · exfalso
    have hl := hv.1
    simp only [List.length_nil] at hl
    have k1 : compressedBytes (i - i / 9 * 9) = 0 := by omega
    have k2 : compressedBytes (s - s / 9 * 9) = 0 := by omega
    have k3 : ¬ 1 ≤ i - i / 9 * 9 := fun h => by have := compressedBytes_pos h; omega
    have k4 : ¬ 1 ≤ s - s / 9 * 9 := fun h => by have := compressedBytes_pos h; omega
    omega
  · exact .lift (P.run_ne_panic (Safe.decimalBody _ _ _ _ _ _ _)) fun _ _ => trivial

theorem Safe.parseString {md : Nat} (buf : Bytes) : Safe buf (parseString md) fun _ => True := by
  unfold MysqlCdc.parseString
  exact Safe.ite ((Safe.u8 buf).bind fun n h => .readString (by omega)) ((Safe.uLE buf 2).bind fun n h => .readString (by omega))

theorem Safe.blob {md : Nat} (h1 : 1 ≤ md) (h2 : md ≤ 4) (buf : Bytes) : Safe buf (parseBlob md) fun _ => True := by
  refine (Safe.uintLE h1 (by omega)).bind fun n hn => (Safe.readVec ?_).any
  have : 256 ^ md ≤ 256 ^ 4 := Nat.pow_le_pow_right (by omega) h2
  omega

/-- Cells of any type whose metadata is as servers send it (STRING columns already unpacked). -/
def SaneCell (t md : Nat) : Prop :=
  md < 2 ^ 16 ∧ (t = 246 → 1 ≤ md % 256 ∧ md / 256 ≤ md % 256) ∧ (t ∈ [17, 18, 19] → md ≤ 6) ∧
  (t ∈ [245, 249, 250, 251, 252, 255] → 1 ≤ md ∧ md ≤ 4) ∧ (t ∈ [247, 248] → 1 ≤ md ∧ md ≤ 8)

theorem columnType_inv {c : Nat} {t : ColumnType} (h : ColumnType.fromCode c = .ok t) : c = t.code := by
  unfold ColumnType.fromCode at h
  split at h <;> simp at h <;> subst h <;> rfl

theorem Safe.cell (m : Mode) {t md : Nat} (h : SaneCell t md) (buf : Bytes) : Safe buf (parseCell m t md) fun _ => True := by
  obtain ⟨h0, h1, h2, h3, h4⟩ := h
  unfold parseCell
  refine (Safe.lift (Q := fun ct => t = ct.code) (columnType_ne_panic _) fun ct hct => columnType_inv hct).bind fun ct hct => ?_
  cases ct with
  | tiny => exact (Safe.u8 buf).map _
  | short => exact (Safe.uLE buf 2).map _
  | int24 => exact (Safe.uLE buf 3).map _
  | long => exact (Safe.uLE buf 4).map _
  | longLong => exact (Safe.uLE buf 8).map _
  | float => exact (Safe.uLE buf 4).map _
  | double => exact (Safe.uLE buf 8).map _
  | newDecimal => exact (Safe.decimal m h0 (h1 hct).1 (h1 hct).2 buf).map _
  | string => exact (Safe.parseString buf).map _
  | varChar => exact (Safe.parseString buf).map _
  | varString => exact (Safe.parseString buf).map _
  | bit =>
    refine Safe.map (Q := fun _ => True) ?_ _
    unfold parseBit
    refine (Safe.bitmapBE ?_).map _
    have : md &&& 0xFF ≤ 0xFF := Nat.and_le_right
    have : md >>> 8 ≤ md := Nat.shiftRight_le _ _
    omega
  | enum =>
    have := h4 (by rw [hct]; decide)
    exact (Safe.uintLE this.1 this.2).bind fun n _ => .pure trivial
  | set =>
    have := h4 (by rw [hct]; decide)
    exact (Safe.uintLE this.1 this.2).map _
  | tinyBlob | mediumBlob | longBlob | blob | geometry | json =>
    have := h3 (by rw [hct]; decide)
    exact (Safe.blob this.1 this.2 buf).map _
  | year => exact Safe.map (p := parseYear) ((Safe.u8 buf).map _) _
  | date => exact Safe.map (p := parseDate) ((Safe.uLE buf 3).map _) _
  | time =>
    refine Safe.map (p := parseTime) (Q := fun _ => True) ?_ _
    unfold parseTime
    exact (Safe.uLE buf 3).bind fun _ _ => .ite (.fail _ _) (.pure trivial)
  | timeStamp => exact Safe.map (p := parseTimestamp) ((Safe.uLE buf 4).map _) _
  | dateTime => exact Safe.map (p := parseDateTime) ((Safe.uLE buf 8).map _) _
  | time2 =>
    refine Safe.map (p := parseTime2 m md) (Q := fun _ => True) ?_ _
    unfold parseTime2
    exact (Safe.uBE buf 3).bind fun _ _ => (Safe.fractional m (h2 (by rw [hct]; decide)) buf).bind fun _ _ =>
      .ite (.fail _ _) (.pure trivial)
  | timeStamp2 =>
    refine Safe.map (p := parseTimestamp2 m md) (Q := fun _ => True) ?_ _
    unfold parseTimestamp2
    exact (Safe.uBE buf 4).bind fun _ _ => (Safe.fractional m (h2 (by rw [hct]; decide)) buf).map _
  | dateTime2 =>
    refine Safe.map (p := parseDateTime2 m md) (Q := fun _ => True) ?_ _
    unfold parseDateTime2
    exact (Safe.uintBE (by omega) (by omega)).bind fun _ _ => (Safe.fractional m (h2 (by rw [hct]; decide)) buf).map _
  | decimal | null | newDate => exact .fail _ _

theorem saneCell_of_column {t : UInt8} {md : Nat} (h : SaneColumn t md) : SaneCell t.toNat md := by
  obtain ⟨h0, h1, h2, h3, h4, _⟩ := h
  have key : ∀ n : Nat, n < 256 → t.toNat = n → t = UInt8.ofNat n := by
    intro n hn h
    apply UInt8.toNat_inj.1
    rw [h]
    simp [Nat.mod_eq_of_lt hn]
  refine ⟨h0, fun h => h1 (key 246 (by omega) h), fun h => h2 ?_, fun h => h3 ?_, fun h => h4 ?_⟩
  · simp only [List.mem_cons, List.not_mem_nil, or_false] at h ⊢
    rcases h with h | h | h <;> rw [key _ (by omega) h] <;> decide
  · simp only [List.mem_cons, List.not_mem_nil, or_false] at h ⊢
    rcases h with h | h | h | h | h | h <;> rw [key _ (by omega) h] <;> decide
  · simp only [List.mem_cons, List.not_mem_nil, or_false] at h ⊢
    rcases h with h | h <;> rw [key _ (by omega) h] <;> decide

theorem Safe.column (m : Mode) {t : UInt8} {md : Nat} (h : SaneColumn t md) (buf : Bytes) :
    Safe buf (parseColumn m t.toNat md) fun _ => True := by
  unfold parseColumn
  refine (Safe.lift (Q := fun ct => t.toNat = ct.code) (columnType_ne_panic _) fun ct hct => columnType_inv hct).bind
    fun ct hct => ?_
  simp only
  by_cases hs : ct = .string
  · rw [if_pos hs]
    have ht : t.toNat = 254 := by rw [hct, hs]; rfl
    have ht' : t = 254 := by apply UInt8.toNat_inj.1; rw [ht]; rfl
    rw [ht]
    rcases h.2.2.2.2.2 ht' with ⟨n, hn, rfl⟩ | ⟨k, hk1, hk2, rfl | rfl⟩
    · rw [actual_char hn]
      exact Safe.cell m ⟨by omega, by simp, by simp, by simp, by simp⟩ buf
    · rw [actual_enum (by omega)]
      exact Safe.cell m ⟨by omega, by simp, by simp, by simp, fun _ => ⟨hk1, hk2⟩⟩ buf
    · rw [actual_set (by omega)]
      exact Safe.cell m ⟨by omega, by simp, by simp, by simp, fun _ => ⟨hk1, hk2⟩⟩ buf
  · rw [if_neg hs]
    exact Safe.cell m (saneCell_of_column h) buf

theorem Safe.rowLoop (m : Mode) {table : TableMapEvent} (ht : SaneTable table) {present nulls : List Bool}
    (hp : table.columnTypes.length ≤ present.length) (hn : nulls.length = getBitsNumber present) (buf : Bytes)
    (k i skipped : Nat) (hk : i + k = table.columnTypes.length)
    (hsk : i = skipped + getBitsNumber (present.take i)) :
    Safe buf (rowLoop m table present nulls (List.range' i k) skipped) fun _ => True := by
  induction k generalizing i skipped with
  | zero => exact .pure trivial
  | succ k ih =>
    rw [List.range'_succ]
    unfold MysqlCdc.rowLoop
    have hi : i < present.length := by omega
    rw [List.getElem?_eq_getElem hi]
    have htake : present.take (i + 1) = present.take i ++ [present[i]] := by simp
    cases hb : present[i] with
    | false =>
      refine Safe.map (ih (i + 1) (skipped + 1) (by omega) ?_) _
      rw [htake, hb]
      simp [getBitsNumber] at *
      omega
    | true =>
      have hcount : getBitsNumber (present.take (i + 1)) = getBitsNumber (present.take i) + 1 := by
        rw [htake, hb]; simp [getBitsNumber]
      have hle : getBitsNumber (present.take (i + 1)) ≤ getBitsNumber present := by
        unfold getBitsNumber
        exact ((List.take_sublist _ _).filter _).length_le
      have hlt : i - skipped < nulls.length := by omega
      simp only
      rw [List.getElem?_eq_getElem hlt]
      cases nulls[i - skipped] with
      | true => exact Safe.map (ih (i + 1) skipped (by omega) (by omega)) _
      | false =>
        have h1 : i < table.columnTypes.length := by omega
        have h2 : i < table.columnMetadata.length := by rw [ht.1]; exact h1
        simp only [List.getElem?_eq_getElem h1, List.getElem?_eq_getElem h2]
        refine (Safe.column m (ht.2 i _ _ (List.getElem?_eq_getElem h1) (List.getElem?_eq_getElem h2)) buf).bind fun c _ => ?_
        exact Safe.map (ih (i + 1) skipped (by omega) (by omega)) _

theorem Safe.row (m : Mode) {table : TableMapEvent} (ht : SaneTable table) {present : List Bool}
    (hp : table.columnTypes.length ≤ present.length) (hl : present.length < 2 ^ 63) (buf : Bytes) :
    Safe buf (parseRow m table present (getBitsNumber present)) fun _ => True := by
  unfold parseRow
  have : getBitsNumber present ≤ present.length := List.length_filter_le _ _
  refine (Safe.bitmapLE (by omega)).bind fun nulls hn => ?_
  rw [List.range_eq_range']
  exact Safe.map (Safe.rowLoop m ht hp hn buf _ 0 0 (by omega) (by simp [getBitsNumber])) _

end MysqlCdc
