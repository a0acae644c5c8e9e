import Verif.Lemmas.ExactRows
/-!
# Exactness of the decoders of row events
-/

namespace MysqlCdc

open Spec

/-- A step that reads nothing never ends. -/
theorem ExactEnd.whileProgress {α : Type} {p : P α} {R : α → Bytes → Prop} (h : Exact p R) :
    ExactEnd (P.whileData p) (Each fun v e => e ≠ [] ∧ R v e) := by
  intro buf pos v
  constructor
  · rintro ⟨q, hq⟩
    induction hn : buf.length - pos using Nat.strongRecOn generalizing pos v q with
    | _ n ih =>
      subst hn
      rw [P.whileData] at hq
      split at hq
      · rename_i hlt
        cases hp : p buf pos with
        | ok x =>
          obtain ⟨a, q1⟩ := x
          rw [hp] at hq
          obtain ⟨e, r, ⟨t, ht⟩, rfl⟩ := (h _ _ _ _).1 hp
          simp only at hq
          split at hq
          · rename_i hprog
            cases hw : P.whileData p buf (pos + e.length) with
            | ok y =>
              obtain ⟨as, q2⟩ := y
              rw [hw] at hq
              simp only [Res.ok.injEq, Prod.mk.injEq] at hq
              obtain ⟨rfl, rfl⟩ := hq
              have := ih _ (by omega) _ _ _ hw rfl
              rw [← List.drop_drop, ← ht, List.drop_left] at this
              rw [← ht]
              exact .cons ⟨by rintro rfl; simp at hprog, r⟩ this
            | _ => rw [hw] at hq; simp at hq
          · simp at hq
        | _ => rw [hp] at hq; simp at hq
      · simp only [Res.ok.injEq, Prod.mk.injEq] at hq
        obtain ⟨rfl, rfl⟩ := hq
        rw [List.drop_eq_nil_of_le (by omega)]
        exact .nil
  · intro hs
    generalize ht : buf.drop pos = t at hs
    induction hs generalizing pos with
    | nil =>
      have := List.drop_eq_nil_iff.1 ht
      rw [P.whileData, if_neg (by omega)]
      exact ⟨_, rfl⟩
    | @cons a as e es r hs ih =>
      have hpos := List.length_pos_iff.2 r.1
      have hlt : pos < buf.length := by
        have := congrArg List.length ht
        simp only [List.length_drop, List.length_append] at this
        omega
      have hp := (h buf pos a (pos + e.length)).2 ⟨e, r.2, ⟨es, ht.symm⟩, rfl⟩
      obtain ⟨q, hq⟩ := ih (pos + e.length) (by rw [← List.drop_drop, ht, List.drop_left])
      rw [P.whileData, if_pos hlt, hp]
      simp only [show pos < pos + e.length by omega, if_true, hq]
      exact ⟨_, rfl⟩

/-- The extra data of version 2. The length counts its own two bytes; the decoder goes back when it is smaller than that. -/
theorem exact_extra {α : Type} {k : P α} {R : α → Bytes → Prop} (h : ExactEnd k R) :
    ExactEnd (do
      let extraDataLength ← P.uLE 2
      P.seekCur ((extraDataLength : Int) - 2)
      k) (fun v t => ∃ n t1, n < 2 ^ 16 ∧ t = le 2 n ++ t1 ∧
        (2 ≤ n ∧ R v (t1.drop (n - 2)) ∨ n = 1 ∧ R v (0 :: t1) ∨ n = 0 ∧ R v (0 :: 0 :: t1))) := by
  intro buf pos v
  have key : ∀ n t1 q, n < 2 ^ 16 → buf.drop pos = le 2 n ++ t1 → ((∃ q' : Nat, (q' : Int) = (pos + 2 : Nat) + ((n : Int) - 2) ∧ k buf q' = .ok (v, q)) ↔
      k buf (pos + n) = .ok (v, q)) := by
    intro n t1 q hn ht
    constructor
    · rintro ⟨q', h1, h2⟩
      obtain rfl : q' = pos + n := by omega
      exact h2
    · intro h2; exact ⟨pos + n, by omega, h2⟩
  have drop_at : ∀ n t1, n < 2 ^ 16 → buf.drop pos = le 2 n ++ t1 → ((∃ q, k buf (pos + n) = .ok (v, q)) ↔
      (2 ≤ n ∧ R v (t1.drop (n - 2)) ∨ n = 1 ∧ R v (0 :: t1) ∨ n = 0 ∧ R v (0 :: 0 :: t1))) := by
    intro n t1 hn ht
    rw [h buf (pos + n) v, ← List.drop_drop, ht]
    by_cases h2 : 2 ≤ n
    · rw [List.drop_append, le_length, List.drop_eq_nil_of_le (by simpa using h2), List.nil_append]
      constructor
      · intro hr; exact .inl ⟨h2, hr⟩
      · rintro (⟨_, hr⟩ | ⟨h, _⟩ | ⟨h, _⟩)
        · exact hr
        · omega
        · omega
    · obtain rfl | rfl : n = 1 ∨ n = 0 := by omega
      · rw [show (le 2 1 ++ t1).drop 1 = 0 :: t1 from rfl]; simp
      · rw [show (le 2 0 ++ t1).drop 0 = 0 :: 0 :: t1 from rfl]; simp
  constructor
  · rintro ⟨q, hq⟩
    obtain ⟨n, q1, h1, h2⟩ := bind_iff.1 hq
    obtain ⟨u, q2, h3, h4⟩ := bind_iff.1 h2
    obtain ⟨_, ⟨hn, rfl⟩, ⟨t1, ht⟩, rfl⟩ := (Exact.uLE 2 _ _ _ _).1 h1
    rw [seek_iff] at h3
    rw [le_length] at h3
    exact ⟨n, t1, by simpa using hn, ht.symm, (drop_at n t1 (by simpa using hn) ht.symm).1
      ⟨q, (key n t1 q (by simpa using hn) ht.symm).1 ⟨q2, h3, h4⟩⟩⟩
  · rintro ⟨n, t1, hn, ht, hr⟩
    obtain ⟨q, hq⟩ := (drop_at n t1 hn ht).2 hr
    obtain ⟨q', h3, h4⟩ := (key n t1 q hn ht).2 hq
    refine ⟨q, bind_iff.2 ⟨n, pos + 2, (Exact.uLE 2 _ _ _ _).2 ⟨_, ⟨by simpa using hn, rfl⟩, ⟨t1, ht.symm⟩, by simp⟩,
      bind_iff.2 ⟨(), q', seek_iff.2 h3, h4⟩⟩⟩

theorem lenEnc_zero {n : Nat} {count t : Bytes} (h : LenEnc n count) {u : Bytes} (he : 0 :: u = count ++ t) : n = 0 ∧ count = [0] ∧ t = u := by
  cases h with
  | one h =>
    rw [show le 1 n = [UInt8.ofNat n] by simp [le]] at he ⊢
    obtain ⟨h1, h2⟩ := List.cons.inj he
    have h3 := congrArg UInt8.toNat h1
    simp at h3
    refine ⟨by omega, by rw [← h1], by simpa using h2.symm⟩
  | two h | three h | eight h => simp at he

theorem P.bind_bind {α β γ : Type} (p : P α) (f : α → P β) (g : β → P γ) : (p >>= f) >>= g = p >>= fun a => f a >>= g := by
  funext buf pos
  simp only [P.seq_apply]
  cases p buf pos <;> simp [Res.bind]

theorem P.ret_bind {α β : Type} (a : α) (f : α → P β) : (Pure.pure a : P α) >>= f = f a := by
  funext buf pos
  simp only [P.seq_apply, P.ret_apply, Res.bind]

/-- The start of a row event, followed by what depends on it. An event without columns can have no data. -/
theorem exact_head {α : Type} {version : Nat} (hv : version = 1 ∨ version = 2) {k : Nat × Nat × Nat → P α}
    {B : Nat → Nat → Nat → α → Bytes → Prop} (hk : ∀ t f n, ExactEnd (k (t, f, n)) (B t f n))
    (h0 : ∀ t f v data, B t f 0 v data → data = []) :
    ExactEnd (parseHead version >>= k) (fun v body => ∃ t f n head data, TakenHead version t f n head ∧ B t f n v data ∧
      body = head ++ data) := by
  rcases hv with rfl | rfl
  · have hp : parseHead 1 >>= k = (P.uLE 6 >>= fun t => P.uLE 2 >>= fun f => readLenEncNum >>= fun n => k (t, f, n)) := by
      simp only [parseHead, P.bind_bind, P.ret_bind, show ¬(1 = 2) by decide, if_false]
    rw [hp]
    refine ExactEnd.cast ((Exact.uLE 6).bindEnd fun t => (Exact.uLE 2).bindEnd fun f => Exact.lenEncNum.bindEnd fun n => hk t f n) ?_
    · intro v body
      constructor
      · rintro ⟨t, _, _, ⟨ht, rfl⟩, ⟨f, _, _, ⟨hf, rfl⟩, ⟨n, count, data, hn, hB, rfl⟩, rfl⟩, rfl⟩
        exact ⟨t, f, n, _, data, .plain (.v1 (by simpa using ht) (by simpa using hf) hn), hB, by simp⟩
      · rintro ⟨t, f, n, head, data, hh, hB, rfl⟩
        cases hh with
        | plain hh =>
          cases hh with
          | v1 ht hf hn =>
            exact ⟨t, _, _, ⟨by simpa using ht, rfl⟩, ⟨f, _, _, ⟨by simpa using hf, rfl⟩, ⟨n, _, data, hn, hB, rfl⟩, rfl⟩, by simp⟩
  · have hp : parseHead 2 >>= k = (P.uLE 6 >>= fun t => P.uLE 2 >>= fun f => P.uLE 2 >>= fun e => P.seekCur ((e : Int) - 2) >>= fun _ =>
        readLenEncNum >>= fun n => k (t, f, n)) := by
      simp only [parseHead, P.bind_bind, P.ret_bind, if_true]
    rw [hp]
    refine ExactEnd.cast
      ((Exact.uLE 6).bindEnd fun t => (Exact.uLE 2).bindEnd fun f => exact_extra (Exact.lenEncNum.bindEnd fun n => hk t f n)) ?_
    · intro v body
      constructor
      · rintro ⟨t, _, _, ⟨ht, rfl⟩, ⟨f, _, _, ⟨hf, rfl⟩, ⟨e, t1, he, rfl, hr⟩, rfl⟩, rfl⟩
        rcases hr with ⟨h2, n, count, data, hn, hB, heq⟩ | ⟨rfl, n, count, data, hn, hB, heq⟩ | ⟨rfl, n, count, data, hn, hB, heq⟩
        · have hne : t1.drop (e - 2) ≠ [] := by
            rw [heq]; intro h; exact LenEnc_ne_nil hn (List.append_eq_nil_iff.1 h).1
          have hlen : e - 2 < t1.length := by
            have := mt List.drop_eq_nil_iff.2 hne; omega
          have hx : (t1.take (e - 2)).length + 2 = e := by rw [List.length_take]; omega
          refine ⟨t, f, n, _, data, .plain (.v2 (extra := t1.take (e - 2)) (by simpa using ht) (by simpa using hf) (by omega) hn), hB, ?_⟩
          rw [hx]
          simp only [List.append_assoc]
          rw [← heq, List.take_append_drop]
        · obtain ⟨rfl, rfl, rfl⟩ := lenEnc_zero hn heq
          exact ⟨t, f, 0, _, data, .odd (by simpa using ht) (by simpa using hf), hB, by simp; rfl⟩
        · obtain ⟨rfl, rfl, rfl⟩ := lenEnc_zero hn heq
          exact absurd (h0 _ _ _ _ hB) (by simp)
      · rintro ⟨t, f, n, head, data, hh, hB, rfl⟩
        cases hh with
        | plain hh =>
          cases hh with
          | @v2 _ _ _ extra count ht hf he hn =>
            refine ⟨t, _, _, ⟨by simpa using ht, rfl⟩, ⟨f, _, _, ⟨by simpa using hf, rfl⟩, ⟨extra.length + 2, extra ++ count ++ data, he, rfl,
              .inl ⟨by omega, n, count, data, hn, hB, ?_⟩⟩, rfl⟩, by simp⟩
            simp
        | odd ht hf =>
          exact ⟨t, _, _, ⟨by simpa using ht, rfl⟩, ⟨f, _, _, ⟨by simpa using hf, rfl⟩, ⟨1, data, by decide, rfl,
            .inr (.inl ⟨rfl, 0, [0], data, .one (n := 0) (by decide), hB, rfl⟩)⟩, rfl⟩, by simp; rfl⟩

/-- Every table in the cache has metadata of 16 bits for each column. -/
def ProperCache (tm : TableMapCache) : Prop := ∀ id table, tm.get? id = some table → ProperTable table

/-- The declared columns of the tables in the cache. -/
def cachedColumns (tm : TableMapCache) (id : Nat) : Option (List (UInt8 × Nat)) :=
  (tm.get? id).map fun table => table.columnTypes.zip table.columnMetadata

theorem each_cast {α : Type} {R S : α → Bytes → Prop} (h : ∀ v e, R v e → S v e) {vs : List α} {e : Bytes} (he : Each R vs e) : Each S vs e := by
  induction he with
  | nil => exact .nil
  | cons r _ ih => exact .cons (h _ _ r) ih

theorem bitmapLE_nil {e : Bytes} (h : BitmapLE [] e) : e = [] := List.eq_nil_of_length_eq_zero (by simpa [bytesFor] using h.1)

theorem takenImage_nil {m : Mode} {columns : List (UInt8 × Nat)} (hc : columns.length ≤ 0) {row : RowData} {e : Bytes}
    (h : TakenImage m columns [] row e) : e = [] := by
  obtain ⟨states, more, bitmap, data, h1, h2, h3, h4, rfl, _⟩ := h
  obtain rfl : columns = [] := List.eq_nil_of_length_eq_zero (by omega)
  cases h4
  obtain rfl : more = [] := List.eq_nil_of_length_eq_zero (by simpa using h2)
  rw [bitmapLE_nil h3, List.nil_append]

theorem exact_rowsEvent (m : Mode) {tm : TableMapCache} (htm : ProperCache tm) {version : Nat} (hv : version = 1 ∨ version = 2) :
    ExactEnd (parseRowsEvent m tm version) (fun r body => ∃ columns, cachedColumns tm r.tableId = some columns ∧
      TakenRows m version columns r body) := by
  unfold parseRowsEvent
  refine (exact_head hv (B := fun t f n r data => ∃ columns present bitmap rest rows, cachedColumns tm t = some columns ∧ n < 2 ^ 63 ∧
    present.length = n ∧ BitmapLE present bitmap ∧
    Each (fun row e => e ≠ [] ∧ columns.length ≤ n ∧ TakenImage m columns present row e) rows rest ∧ data = bitmap ++ rest ∧
    r = ⟨t, f, n, present, rows⟩) (fun t f n => ?_) ?_).cast fun r body => ?_
  · refine ((Exact.bitmapLE n).bindEndOf (S := fun present r data => ∃ columns rows, cachedColumns tm t = some columns ∧
      Each (fun row e => e ≠ [] ∧ columns.length ≤ n ∧ TakenImage m columns present row e) rows data ∧
      r = ⟨t, f, n, present, rows⟩) fun present e hp => ?_).cast fun r data => ?_
    · unfold parseRowDataList cachedColumns
      cases ht : tm.get? t with
      | none => exact fun buf pos v => by simp [P.fail, P.seq_apply]
      | some table =>
        have hr := exact_row m (htm t table ht) present (by rw [hp.2.1]; exact hp.1)
        refine ((ExactEnd.whileProgress hr).map _).cast fun r data => ?_
        rw [hp.2.1]
        constructor
        · rintro ⟨rows, h, rfl⟩; exact ⟨_, rows, rfl, h, rfl⟩
        · rintro ⟨_, rows, hc, h, rfl⟩
          obtain rfl := Option.some.inj hc
          exact ⟨rows, h, rfl⟩
    · constructor
      · rintro ⟨present, bitmap, rest, ⟨h1, h2, h3⟩, ⟨columns, rows, h4, h5, rfl⟩, rfl⟩
        exact ⟨columns, present, bitmap, rest, rows, h4, h1, h2, h3, h5, rfl, rfl⟩
      · rintro ⟨columns, present, bitmap, rest, rows, h4, h1, h2, h3, h5, rfl, rfl⟩
        exact ⟨present, bitmap, rest, ⟨h1, h2, h3⟩, ⟨columns, rows, h4, h5, rfl⟩, rfl⟩
  · rintro t f v data ⟨columns, present, bitmap, rest, rows, _, _, hp, hb, hr, rfl, _⟩
    obtain rfl := List.eq_nil_of_length_eq_zero hp
    rw [bitmapLE_nil hb, List.nil_append]
    cases hr with
    | nil => rfl
    | cons r _ => exact absurd (takenImage_nil r.2.1 r.2.2) r.1
  · constructor
    · rintro ⟨t, f, n, head, data, hh, ⟨columns, present, bitmap, rest, rows, h4, h1, h2, h3, h5, rfl, rfl⟩, rfl⟩
      refine ⟨columns, h4, ?_⟩
      rw [← List.append_assoc]
      exact .mk hh h1 h2 h3 h5
    · rintro ⟨columns, hc, h⟩
      obtain ⟨hh, h1, h2, h3, h5⟩ := h
      exact ⟨_, _, _, _, _, hh, ⟨columns, _, _, _, _, hc, h1, h2, h3, h5, rfl, rfl⟩, by simp⟩

theorem exact_updateRowsEvent (m : Mode) {tm : TableMapCache} (htm : ProperCache tm) {version : Nat} (hv : version = 1 ∨ version = 2) :
    ExactEnd (parseUpdateRowsEvent m tm version) (fun r body => ∃ columns, cachedColumns tm r.tableId = some columns ∧
      TakenUpdates m version columns r body) := by
  unfold parseUpdateRowsEvent
  refine (exact_head hv (B := fun t f n r data => ∃ (columns : List (UInt8 × Nat)) (before after : List Bool) (bitmap1 bitmap2 rest : Bytes)
    (rows : List UpdateRowData), cachedColumns tm t = some columns ∧
    n < 2 ^ 63 ∧ before.length = n ∧ BitmapLE before bitmap1 ∧ after.length = n ∧ BitmapLE after bitmap2 ∧
    Each (fun row e => e ≠ [] ∧ columns.length ≤ n ∧ ∃ e1 e2, TakenImage m columns before row.beforeUpdate e1 ∧
        TakenImage m columns after row.afterUpdate e2 ∧ e = e1 ++ e2) rows rest ∧ data = bitmap1 ++ bitmap2 ++ rest ∧
    r = ⟨t, f, n, before, after, rows⟩) (fun t f n => ?_) ?_).cast fun r body => ?_
  · refine ((Exact.bitmapLE n).bindEndOf (S := fun before r data => ∃ after bitmap2 rest, (n < 2 ^ 63 ∧ after.length = n ∧
      BitmapLE after bitmap2) ∧ (∃ (columns : List (UInt8 × Nat)) (rows : List UpdateRowData), cachedColumns tm t = some columns ∧
      Each (fun row e => e ≠ [] ∧ columns.length ≤ n ∧ ∃ e1 e2, TakenImage m columns before row.beforeUpdate e1 ∧
        TakenImage m columns after row.afterUpdate e2 ∧ e = e1 ++ e2) rows rest ∧
      r = ⟨t, f, n, before, after, rows⟩) ∧ data = bitmap2 ++ rest) fun before _ hp => (Exact.bitmapLE n).bindEndOf
        (S := fun after (r : UpdateRowsEvent) rest => ∃ (columns : List (UInt8 × Nat)) (rows : List UpdateRowData), cachedColumns tm t = some columns ∧
      Each (fun row e => e ≠ [] ∧ columns.length ≤ n ∧ ∃ e1 e2, TakenImage m columns before row.beforeUpdate e1 ∧
        TakenImage m columns after row.afterUpdate e2 ∧ e = e1 ++ e2) rows rest ∧
      r = ⟨t, f, n, before, after, rows⟩) fun after _ hp' => ?_).cast fun r data => ?_
    · unfold parseUpdateRowDataList cachedColumns
      cases ht : tm.get? t with
      | none => exact fun buf pos v => by simp [P.fail, P.seq_apply]
      | some table =>
        have hr1 := exact_row m (htm t table ht) before (by rw [hp.2.1]; exact hp.1)
        have hr2 := exact_row m (htm t table ht) after (by rw [hp'.2.1]; exact hp'.1)
        have hr := hr1.bind fun b => hr2.map fun a => UpdateRowData.mk b a
        refine ((ExactEnd.whileProgress hr).map _).cast fun r data => ?_
        rw [hp.2.1, hp'.2.1]
        constructor
        · rintro ⟨rows, h, rfl⟩
          refine ⟨_, rows, rfl, each_cast ?_ h, rfl⟩
          rintro row e ⟨hne, b, e1, e2, ⟨h1, h2⟩, ⟨a, ⟨h3, h4⟩, rfl⟩, rfl⟩
          exact ⟨hne, h1, e1, e2, h2, h4, rfl⟩
        · rintro ⟨_, rows, hc, h, rfl⟩
          obtain rfl := Option.some.inj hc
          refine ⟨rows, each_cast ?_ h, rfl⟩
          rintro row e ⟨hne, h1, e1, e2, h2, h4, rfl⟩
          exact ⟨hne, row.beforeUpdate, e1, e2, ⟨h1, h2⟩, ⟨row.afterUpdate, ⟨h1, h4⟩, rfl⟩, rfl⟩
    · constructor
      · rintro ⟨before, bitmap1, _, ⟨h1, h2, h3⟩, ⟨after, bitmap2, rest, ⟨_, h6, h7⟩, ⟨columns, rows, h4, h5, rfl⟩, rfl⟩, rfl⟩
        exact ⟨columns, before, after, bitmap1, bitmap2, rest, rows, h4, h1, h2, h3, h6, h7, h5, by simp, rfl⟩
      · rintro ⟨columns, before, after, bitmap1, bitmap2, rest, rows, h4, h1, h2, h3, h6, h7, h5, rfl, rfl⟩
        exact ⟨before, bitmap1, _, ⟨h1, h2, h3⟩, ⟨after, bitmap2, rest, ⟨h1, h6, h7⟩, ⟨columns, rows, h4, h5, rfl⟩, rfl⟩, by simp⟩
  · rintro t f v data ⟨columns, before, after, bitmap1, bitmap2, rest, rows, _, _, hp, hb, hp', hb', hr, rfl, _⟩
    obtain rfl := List.eq_nil_of_length_eq_zero hp
    obtain rfl := List.eq_nil_of_length_eq_zero hp'
    rw [bitmapLE_nil hb, bitmapLE_nil hb', List.nil_append]
    cases hr with
    | nil => rfl
    | cons r _ =>
      obtain ⟨hne, hc, e1, e2, h1, h2, rfl⟩ := r
      exact absurd (by rw [takenImage_nil hc h1, takenImage_nil hc h2]; rfl) hne
  · constructor
    · rintro ⟨t, f, n, head, data, hh, ⟨columns, before, after, bitmap1, bitmap2, rest, rows, h4, h1, h2, h3, h6, h7, h5, rfl, rfl⟩, rfl⟩
      refine ⟨columns, h4, ?_⟩
      rw [show head ++ (bitmap1 ++ bitmap2 ++ rest) = head ++ bitmap1 ++ bitmap2 ++ rest by simp]
      exact .mk hh h1 h2 h6 h3 h7 h5
    · rintro ⟨columns, hc, h⟩
      obtain ⟨hh, h1, h2, h6, h3, h7, h5⟩ := h
      exact ⟨_, _, _, _, _, hh, ⟨columns, _, _, _, _, _, _, hc, h1, h2, h3, h6, h7, h5, rfl, rfl⟩, by simp⟩

end MysqlCdc
