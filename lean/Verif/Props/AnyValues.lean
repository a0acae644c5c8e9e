import Verif.Spec.AnyValues
import Verif.Props.Rows
/-!
# C112: row events with any values a server can store
-/

namespace MysqlCdc

open Spec

/-! ## Reading up to an error -/

/-- `p` reads `enc` and gives `r`; if this is an error, whatever follows. -/
def Runs {α : Type} (p : P α) (enc : Bytes) : Except Err α → Prop
  | .ok v => Parses p enc v
  | .error e => ∀ pre rest : Bytes, p (pre ++ (enc ++ rest)) pre.length = .err e

theorem Runs.bind {α β : Type} {p : P α} {f : α → P β} {e1 e2 : Bytes} {a : α} {r : Except Err β} (h1 : Parses p e1 a)
    (h2 : Runs (f a) e2 r) : Runs (p >>= f) (e1 ++ e2) r := by
  cases r with
  | ok b => exact Parses.bind h1 h2
  | error e =>
    intro pre rest
    have h1' := h1 pre (e2 ++ rest)
    have h2' := h2 (pre ++ e1) rest
    simp only [List.append_assoc, List.length_append] at h1' h2' ⊢
    simp [h1', h2', Res.bind]

theorem Runs.stop {α β : Type} {p : P α} {f : α → P β} {e1 e2 : Bytes} {e : Err} (h : Runs p e1 (.error e)) :
    Runs (p >>= f) (e1 ++ e2) (.error e) := by
  intro pre rest
  have h1 := h pre (e2 ++ rest)
  simp only [List.append_assoc] at h1 ⊢
  simp [h1, Res.bind]

theorem Runs.map {α β : Type} {p : P α} {enc : Bytes} {e : Err} (f : α → β) (h : Runs p enc (.error e)) :
    Runs (p >>= fun x => pure (f x)) enc (.error e) := by
  simpa using Runs.stop (f := fun x => pure (f x)) (e2 := []) h

theorem Runs.fail {α : Type} (e : Err) : Runs (P.fail e : P α) [] (.error e) := fun _ _ => rfl

/-! ## One value -/

theorem le_add (a b n : Nat) : le (a + b) n = le a n ++ le b (n / 256 ^ a) := by
  induction a generalizing n with
  | zero => simp [le]
  | succ a ih =>
    rw [show a + 1 + b = a + b + 1 by omega, le_succ, le_succ, ih, Nat.div_div_eq_div_mul, Nat.pow_succ, Nat.mul_comm 256]
    rfl

theorem be_add (a b n : Nat) : be (a + b) n = be a (n / 256 ^ b) ++ be b n := by
  unfold be
  rw [Nat.add_comm a b, le_add, List.reverse_append]

theorem be_mod (k n : Nat) : be k n = be k (n % 256 ^ k) := by
  unfold be
  congr 1
  have := le_leVal (le k n)
  rw [le_length, leVal_le] at this
  exact this.symm

theorem fraction_any (m : Mode) {fsp : Nat} (hf : fsp ≤ 6) (n : Nat) :
    ∃ micros, Parses (parseFractionalPart m fsp) (be ((fsp + 1) / 2) n) micros := by
  rw [be_mod]
  have hn : n % 256 ^ ((fsp + 1) / 2) < 256 ^ ((fsp + 1) / 2) := Nat.mod_lt _ (Nat.pow_pos (by decide))
  revert hn
  generalize n % 256 ^ ((fsp + 1) / 2) = k
  intro hn
  unfold parseFractionalPart
  rw [show addU m 16 fsp 1 = .ok (fsp + 1) by simp [addU]; omega, lift_ok_bind]
  by_cases h0 : (fsp + 1) / 2 = 0
  · simp only [h0, if_true]
    exact ⟨0, (Parses.pure 0).cast (by simp [be, le]) rfl⟩
  · simp only [h0, if_false]
    simp only [show (fsp + 1) / 2 ≤ 3 by omega, if_true]
    exact ⟨_, (uintBE_parses (by omega) (by omega) hn).map _⟩

theorem text_runs {size : Nat} {bs e : Bytes} (hs : size < 2 ^ 16) (h : SizedBytes size bs e) (hn : ∀ s, bs ≠ utf8Bytes s) :
    Runs (parseString size) e (.error .fromUtf8) := by
  obtain ⟨h1, rfl⟩ := h
  have key : Runs (readString bs.length) bs (.error .fromUtf8) := by
    unfold readString
    have hd : utf8Decode bs = none := by
      cases hd : utf8Decode bs with
      | none => rfl
      | some s => exact absurd (utf8Decode_eq_some_iff.1 hd) (hn s)
    have hv : Parses (P.readVec bs.length) bs bs := readVec_parses rfl (by omega)
    rw [← List.append_nil bs]
    refine Runs.bind (e1 := bs) (by simpa using hv) (e2 := []) ?_
    intro pre rest
    simp [P.lift, fromUtf8, hd]
  unfold parseString
  by_cases h : size < 256
  · simp only [h, if_true]
    exact Runs.bind (u8_parses (by omega)) key
  · simp only [h, if_false]
    exact Runs.bind (uLE_parses (k := 2) (by omega)) key

theorem serverCell_runs (m : Mode) {t : UInt8} {md : Nat} {v : ServerValue} {e : Bytes} {r : Except Err MySqlValue}
    (h : ServerCell t md v e) (hr : Shown v r) : Runs (parseColumn m t.toNat md) e r := by
  have text : ∀ {size : Nat} {bs e : Bytes} {r : Except Err MySqlValue}, size < 2 ^ 16 → SizedBytes size bs e → Shown (.text bs) r →
      Runs (parseString size >>= fun s => pure (MySqlValue.string s)) e r := by
    intro size bs e r hs h hr
    cases hr with
    | text => exact (parseString_parses hs h).map _
    | noText hn => exact (text_runs hs h hn).map _
  cases h with
  | value h => cases hr; exact cell_parses m h
  | varChar hs h => exact text hs h hr
  | varString hs h => exact text hs h hr
  | char hs h =>
    show Runs (parseColumn m 254 _) _ _
    rw [parseColumn_string, actual_char hs]
    exact text (by omega) h hr
  | @time h mi s hh hm hs h0 =>
    cases hr
    refine Runs.map MySqlValue.time ?_
    unfold parseTime
    refine (List.append_nil (le 3 _)) ▸ Runs.bind (uLE_parses (k := 3) (by omega)) (e2 := []) ?_
    rw [if_pos (by omega)]
    exact Runs.fail _
  | @time2 _ width h mi s micros hf hw hh hm hs hu hd h0 =>
    cases hr
    refine Runs.map MySqlValue.time ?_
    unfold parseTime2
    subst hw
    obtain ⟨frac, hfrac⟩ := fraction_any m hf (2 ^ 23 * 256 ^ ((md + 1) / 2) -
      ((2 ^ 12 * h + 2 ^ 6 * mi + s) * 256 ^ ((md + 1) / 2) + micros / 100 ^ (3 - (md + 1) / 2)))
    have hpos : 0 < (2 ^ 12 * h + 2 ^ 6 * mi + s) * 256 ^ ((md + 1) / 2) + micros / 100 ^ (3 - (md + 1) / 2) := by
      have hp : 0 < 256 ^ ((md + 1) / 2) := Nat.pow_pos (by decide)
      by_cases hz : h + mi + s = 0
      · have hm0 : 0 < micros := by omega
        have h1 : 100 ^ (3 - (md + 1) / 2) ≤ 10 ^ (6 - md) := by
          rw [show (100 : Nat) = 10 ^ 2 by rfl, ← Nat.pow_mul]
          exact Nat.pow_le_pow_right (by decide) (by omega)
        have h2 := Nat.le_of_dvd hm0 hd
        have := Nat.div_pos (Nat.le_trans h1 h2) (Nat.pow_pos (by decide))
        omega
      · have : 0 < (2 ^ 12 * h + 2 ^ 6 * mi + s) * 256 ^ ((md + 1) / 2) := Nat.mul_pos (by omega) hp
        exact Nat.lt_of_lt_of_le this (Nat.le_add_right _ _)
    have hlt : (2 ^ 23 * 256 ^ ((md + 1) / 2) -
        ((2 ^ 12 * h + 2 ^ 6 * mi + s) * 256 ^ ((md + 1) / 2) + micros / 100 ^ (3 - (md + 1) / 2))) / 256 ^ ((md + 1) / 2) < 2 ^ 23 := by
      rw [Nat.div_lt_iff_lt_mul (Nat.pow_pos (by decide))]
      have : 0 < 2 ^ 23 * 256 ^ ((md + 1) / 2) := Nat.mul_pos (by decide) (Nat.pow_pos (by decide))
      omega
    rw [be_add]
    refine Runs.bind (uBE_parses (k := 3) (Nat.lt_trans hlt (by decide))) ?_
    refine (List.append_nil (be ((md + 1) / 2) _)) ▸ Runs.bind hfrac (e2 := []) ?_
    rw [Nat.shiftRight_eq_div_pow, Nat.and_one_is_mod, if_pos (by rw [Nat.div_eq_of_lt hlt])]
    exact Runs.fail _
  | yearZero => cases hr; exact ((u8_parses (n := 0) (by decide)).map (1900 + ·)).map MySqlValue.year

/-! ## Rows -/

theorem serverCells_length {cs : List (UInt8 × Nat)} {ss : List ServerState} {e : Bytes} (h : ServerCells cs ss e) :
    ss.length = cs.length := by
  induction h <;> simp_all

theorem serverLoop_runs (m : Mode) (table : TableMapEvent) {cs : List (UInt8 × Nat)} {ss : List ServerState} {e : Bytes}
    (h : ServerCells cs ss e) : ∀ (r : Except Err (List (Option MySqlValue))) (cs0 : List (UInt8 × Nat)) (ss0 : List ServerState)
    (present nulls : List Bool), InTurn ShownCell ss r →
    ss0.length = cs0.length → Describes table (cs0 ++ cs) → present = (ss0 ++ ss).map ServerState.present →
    nulls = (ss0 ++ ss).filterMap ServerState.nullFlag →
    Runs (rowLoop m table present nulls (List.range' cs0.length cs.length)
      (cs0.length - (ss0.filterMap ServerState.nullFlag).length)) e r := by
  induction h with
  | nil => intro r cs0 ss0 present nulls hr _ _ _ _; cases hr; exact Parses.pure []
  | @absent c cs ss e h ih =>
    intro r cs0 ss0 present nulls hr hl hd hp hn
    rw [List.length_cons, List.range'_succ, rowLoop.eq_def]
    have hle : (ss0.filterMap ServerState.nullFlag).length ≤ ss0.length := List.length_filterMap_le _ _
    have hi : present[cs0.length]? = some false := by
      rw [hp, ← hl]; simp [ServerState.present]
    have ih' := fun r hr => ih r (cs0 ++ [c]) (ss0 ++ [.absent]) present nulls hr (by simp [hl]) (by simpa using hd) (by simpa using hp)
      (by simpa using hn)
    simp only [hi]
    simp only [List.length_append, List.length_singleton, List.filterMap_append, List.filterMap_cons, List.filterMap_nil,
      ServerState.nullFlag, List.append_nil] at ih'
    rw [show cs0.length + 1 - (ss0.filterMap ServerState.nullFlag).length
      = cs0.length - (ss0.filterMap ServerState.nullFlag).length + 1 by omega] at ih'
    cases hr with
    | cons hx hs => cases hx; exact Parses.map (ih' _ hs) _
    | here hx => cases hx
    | later hx hs => exact (ih' _ hs).map _
  | @null c cs ss e h ih =>
    intro r cs0 ss0 present nulls hr hl hd hp hn
    rw [List.length_cons, List.range'_succ, rowLoop.eq_def]
    have hle : (ss0.filterMap ServerState.nullFlag).length ≤ ss0.length := List.length_filterMap_le _ _
    have hi : present[cs0.length]? = some true := by
      rw [hp, ← hl]; simp [ServerState.present]
    have hj : nulls[cs0.length - (cs0.length - (ss0.filterMap ServerState.nullFlag).length)]? = some true := by
      rw [show cs0.length - (cs0.length - (ss0.filterMap ServerState.nullFlag).length) = (ss0.filterMap ServerState.nullFlag).length by omega,
        hn]
      simp [ServerState.nullFlag]
    have ih' := fun r hr => ih r (cs0 ++ [c]) (ss0 ++ [.null]) present nulls hr (by simp [hl]) (by simpa using hd) (by simpa using hp)
      (by simpa using hn)
    simp only [hi, hj]
    simp only [List.length_append, List.length_singleton, List.filterMap_append, List.filterMap_cons, List.filterMap_nil,
      ServerState.nullFlag] at ih'
    rw [show cs0.length + 1 - ((ss0.filterMap ServerState.nullFlag).length + 1)
      = cs0.length - (ss0.filterMap ServerState.nullFlag).length by omega] at ih'
    cases hr with
    | cons hx hs => cases hx; exact Parses.map (ih' _ hs) _
    | here hx => cases hx
    | later hx hs => exact (ih' _ hs).map _
  | @value t md cs v ss e es hc h ih =>
    intro r cs0 ss0 present nulls hr hl hd hp hn
    rw [List.length_cons, List.range'_succ, rowLoop.eq_def]
    have hle : (ss0.filterMap ServerState.nullFlag).length ≤ ss0.length := List.length_filterMap_le _ _
    have hi : present[cs0.length]? = some true := by
      rw [hp, ← hl]; simp [ServerState.present]
    have hj : nulls[cs0.length - (cs0.length - (ss0.filterMap ServerState.nullFlag).length)]? = some false := by
      rw [show cs0.length - (cs0.length - (ss0.filterMap ServerState.nullFlag).length) = (ss0.filterMap ServerState.nullFlag).length by omega,
        hn]
      simp [ServerState.nullFlag]
    have ht : table.columnTypes[cs0.length]? = some t := by rw [hd.1]; simp
    have hm : table.columnMetadata[cs0.length]? = some md := by rw [hd.2]; simp
    have ih' := fun r hr => ih r (cs0 ++ [(t, md)]) (ss0 ++ [.value v]) present nulls hr (by simp [hl]) (by simpa using hd)
      (by simpa using hp) (by simpa using hn)
    simp only [hi, hj, ht, hm]
    simp only [List.length_append, List.length_singleton, List.filterMap_append, List.filterMap_cons, List.filterMap_nil,
      ServerState.nullFlag] at ih'
    rw [show cs0.length + 1 - ((ss0.filterMap ServerState.nullFlag).length + 1)
      = cs0.length - (ss0.filterMap ServerState.nullFlag).length by omega] at ih'
    cases hr with
    | cons hx hs =>
      cases hx with
      | value hx => exact Parses.bind (serverCell_runs m hc hx) (Parses.map (ih' _ hs) _)
    | here hx =>
      cases hx with
      | refused hx => exact Runs.stop (serverCell_runs m hc hx)
    | later hx hs =>
      cases hx with
      | value hx => exact Runs.bind (serverCell_runs m hc hx) ((ih' _ hs).map _)

theorem server_bits (ss : List ServerState) :
    getBitsNumber (ss.map ServerState.present) = (ss.filterMap ServerState.nullFlag).length := by
  unfold getBitsNumber
  induction ss with
  | nil => rfl
  | cons s ss ih => cases s <;> simp_all [ServerState.present, ServerState.nullFlag, List.filterMap_cons]

theorem serverImage_runs (m : Mode) {table : TableMapEvent} {columns : List (UInt8 × Nat)} {present : List Bool}
    {states : List ServerState} {e : Bytes} {r : Except Err RowData} (ht : Describes table columns) (hlen : columns.length < 2 ^ 63)
    (h : ServerImage columns present states e) (hr : ShownRow states r) :
    Runs (parseRow m table present (getBitsNumber present)) e r := by
  obtain ⟨hp, bitmap, data, hb, hc, rfl⟩ := h
  subst hp
  unfold parseRow
  rw [server_bits]
  have hl := serverCells_length hc
  have hle : (states.filterMap ServerState.nullFlag).length ≤ states.length := List.length_filterMap_le _ _
  refine Runs.bind (readBitmapLittleEndian_parses hb (by omega)) ?_
  have := fun r hr => serverLoop_runs m table hc r [] [] (states.map ServerState.present) (states.filterMap ServerState.nullFlag) hr rfl ht
    rfl rfl
  simp only [List.length_nil, List.filterMap_nil, Nat.sub_self] at this
  rw [List.range_eq_range', show table.columnTypes.length = columns.length by rw [ht.1]; simp]
  cases hr with
  | row hr => exact Parses.map (this _ hr) _
  | refused hr => exact (this _ hr).map _

theorem serverImage_ne_nil {columns : List (UInt8 × Nat)} {present : List Bool} {states : List ServerState} {e : Bytes}
    (h : ServerImage columns present states e) (hp : true ∈ present) : e ≠ [] := by
  obtain ⟨rfl, bitmap, data, hb, _, rfl⟩ := h
  have hne : states.filterMap ServerState.nullFlag ≠ [] := by
    rw [List.mem_map] at hp
    obtain ⟨s, hs, hs'⟩ := hp
    cases s with
    | absent => simp [ServerState.present] at hs'
    | null => exact List.ne_nil_of_mem (List.mem_filterMap.2 ⟨_, hs, rfl⟩)
    | value v => exact List.ne_nil_of_mem (List.mem_filterMap.2 ⟨_, hs, rfl⟩)
  have h1 : 0 < (states.filterMap ServerState.nullFlag).length := List.length_pos_iff.2 hne
  have h2 := hb.1
  intro h
  simp only [List.append_eq_nil_iff] at h
  rw [h.1] at h2
  simp only [List.length_nil, bytesFor] at h2
  omega

/-! ## Events -/

/-- As `Runs`, at the end of the buffer. -/
def RunsEnd {α : Type} (p : P α) (enc : Bytes) (r : Except Err α) : Prop :=
  ∀ pre : Bytes, p (pre ++ enc) pre.length = match r with | .ok v => .ok (v, pre.length + enc.length) | .error e => .err e

theorem RunsEnd.bind {α β : Type} {p : P α} {f : α → P β} {e1 e2 : Bytes} {a : α} {r : Except Err β} (h1 : Parses p e1 a)
    (h2 : RunsEnd (f a) e2 r) : RunsEnd (p >>= f) (e1 ++ e2) r := by
  intro pre
  have h1' := h1 pre e2
  have h2' := h2 (pre ++ e1)
  simp only [List.append_assoc, List.length_append] at h1' h2' ⊢
  rw [P.seq_apply, h1']
  simp only [Res.bind, h2']
  cases r <;> simp [Nat.add_assoc]

theorem RunsEnd.map {α β : Type} {p : P α} {enc : Bytes} {r : Except Err α} (f : α → β) (h : RunsEnd p enc r) :
    RunsEnd (p >>= fun x => pure (f x)) enc (r.map f) := by
  intro pre
  rw [P.seq_apply, h pre]
  cases r <;> rfl

def outcome {α : Type} : Except Err α → Res α
  | .ok v => .ok v
  | .error e => .err e

theorem RunsEnd.run {α : Type} {p : P α} {enc : Bytes} {r : Except Err α} (h : RunsEnd p enc r) :
    p.run enc = outcome r := by
  have := h []
  simp only [List.nil_append, List.length_nil] at this
  unfold P.run
  rw [this]
  cases r <;> rfl

/-- Things read one after the other up to the end of the buffer. -/
theorem whileData_inTurn {α β : Type} {p : P β} {R : α → Bytes → Prop} {S : α → Except Err β → Prop} {xs : List α} {enc : Bytes}
    {r : Except Err (List β)} (h : Each R xs enc) (hr : InTurn S xs r)
    (key : ∀ x ∈ xs, ∀ e r, R x e → S x r → Runs p e r ∧ e ≠ []) : RunsEnd (P.whileData p) enc r := by
  intro pre
  induction h generalizing r pre with
  | nil => cases hr; rw [P.whileData]; simp
  | @cons x xs e es h hs ih =>
    have ih := fun {r} hxs => ih (r := r) hxs fun y hy => key y (by simp [hy])
    have key := key x (by simp)
    cases hr with
    | cons hx hxs =>
      obtain ⟨h1, h3⟩ := key _ _ h hx
      have h1 := h1 pre es
      have h3 : 0 < e.length := List.length_pos_iff.2 h3
      have h2 := ih hxs (pre ++ e)
      simp only [List.append_assoc, List.length_append] at h2 ⊢
      rw [P.whileData, if_pos (by simp; omega), h1]
      simp only [show pre.length < pre.length + e.length by omega, if_true, h2]
      simp [Nat.add_assoc]
    | here hx =>
      obtain ⟨h1, h3⟩ := key _ _ h hx
      have h1 := h1 pre es
      have h3 : 0 < e.length := List.length_pos_iff.2 h3
      simp only
      rw [P.whileData, if_pos (by simp; omega), h1]
    | later hx hxs =>
      obtain ⟨h1, h3⟩ := key _ _ h hx
      have h1 := h1 pre es
      have h3 : 0 < e.length := List.length_pos_iff.2 h3
      have h2 := ih hxs (pre ++ e)
      simp only [List.append_assoc, List.length_append] at h2 ⊢
      rw [P.whileData, if_pos (by simp; omega), h1]
      simp only [show pre.length < pre.length + e.length by omega, if_true, h2]

theorem serverRows_runs (m : Mode) {version : Nat} {columns : List (UInt8 × Nat)} {tableId flags : Nat} {present : List Bool}
    {rows : List (List ServerState)} {body : Bytes} {cache : TableMapCache} {table : TableMapEvent} {r : Except Err (List RowData)}
    (hc : cache.get? tableId = some table) (ht : Describes table columns) (hlen : columns.length < 2 ^ 63)
    (hp : true ∈ present ∨ rows = []) (h : ServerRows version columns tableId flags present rows body) (hr : InTurn ShownRow rows r) :
    RunsEnd (parseRowsEvent m cache version) body (r.map fun rows => ⟨tableId, flags, columns.length, present, rows⟩) := by
  cases h with
  | mk hn hh hb he =>
    unfold parseRowsEvent
    rw [List.append_assoc]
    refine RunsEnd.bind (rowsHead_parses hh) ?_
    rw [← hn]
    refine RunsEnd.bind (readBitmapLittleEndian_parses hb (by omega)) ?_
    refine RunsEnd.map (fun rows => (⟨tableId, flags, present.length, present, rows⟩ : RowsEvent)) ?_
    unfold parseRowDataList
    rw [hc]
    refine whileData_inTurn he hr fun x hx e r h1 h2 => ⟨serverImage_runs m ht hlen h1 h2, ?_⟩
    rcases hp with hp | rfl
    · exact serverImage_ne_nil h1 hp
    · simp at hx

theorem serverUpdates_runs (m : Mode) {version : Nat} {columns : List (UInt8 × Nat)} {tableId flags : Nat} {before after : List Bool}
    {rows : List (List ServerState × List ServerState)} {body : Bytes} {cache : TableMapCache} {table : TableMapEvent}
    {r : Except Err (List UpdateRowData)} (hc : cache.get? tableId = some table) (ht : Describes table columns)
    (hlen : columns.length < 2 ^ 63) (hp : true ∈ before ∨ true ∈ after ∨ rows = [])
    (h : ServerUpdates version columns tableId flags before after rows body) (hr : InTurn ShownPair rows r) :
    RunsEnd (parseUpdateRowsEvent m cache version) body
      (r.map fun rows => ⟨tableId, flags, columns.length, before, after, rows⟩) := by
  cases h with
  | mk hn1 hn2 hh hb1 hb2 he =>
    unfold parseUpdateRowsEvent
    simp only [List.append_assoc]
    refine RunsEnd.bind (rowsHead_parses hh) ?_
    simp only
    have h1 := readBitmapLittleEndian_parses hb1 (by omega)
    have h2 := readBitmapLittleEndian_parses hb2 (by omega)
    rw [hn1] at h1
    rw [hn2] at h2
    refine RunsEnd.bind h1 (RunsEnd.bind h2 ?_)
    refine RunsEnd.map (fun rows => (⟨tableId, flags, columns.length, before, after, rows⟩ : UpdateRowsEvent)) ?_
    unfold parseUpdateRowDataList
    rw [hc]
    refine whileData_inTurn he hr ?_
    rintro x hx e r ⟨e1, e2, i1, i2, rfl⟩ hs
    constructor
    · cases hs with
      | pair s1 s2 => exact Parses.bind (serverImage_runs m ht hlen i1 s1) (Parses.map (serverImage_runs m ht hlen i2 s2) _)
      | before s1 => exact Runs.stop (serverImage_runs m ht hlen i1 s1)
      | after s1 s2 => exact Runs.bind (serverImage_runs m ht hlen i1 s1) ((serverImage_runs m ht hlen i2 s2).map _)
    · rcases hp with hp | hp | rfl
      · simp [serverImage_ne_nil i1 hp]
      · simp [serverImage_ne_nil i2 hp]
      · simp at hx

/-- How `parse_event` ends when the body gives `r`. -/
theorem parseEvent_runs {m : Mode} {st : EventParser} {header : EventHeader} {body slice : Bytes} {r : Except Err BinlogEvent}
    (hs : WithChecksum st.checksumType body slice)
    (h : (dispatchEvent m st.tableMap header).run body = outcome r) :
    parseEvent m st header slice = match r with | .ok v => (.ok v, st.record v) | .error e => (.err e, st) := by
  cases r <;> simp [parseEvent, eventBody_of_checksum hs, h, outcome]

/-! ## Every row has exactly one outcome -/

theorem shown_total (v : ServerValue) : (v.Fine ∧ ∃ w, Shown v (.ok w)) ∨ (¬v.Fine ∧ ∃ e, Shown v (.error e)) := by
  cases v with
  | value v => exact .inl ⟨trivial, _, .value⟩
  | text bs =>
    by_cases h : ∃ s, bs = utf8Bytes s
    · obtain ⟨s, rfl⟩ := h
      exact .inl ⟨⟨s, rfl⟩, _, .text⟩
    · exact .inr ⟨h, _, .noText (by simpa using h)⟩
  | negative => exact .inr ⟨id, _, .negative⟩
  | yearZero => exact .inl ⟨trivial, _, .yearZero⟩

theorem shown_fine {v : ServerValue} {r : Except Err MySqlValue} (h : Shown v r) : (∃ w, r = .ok w) ↔ v.Fine := by
  cases h with
  | value => exact ⟨fun _ => trivial, fun _ => ⟨_, rfl⟩⟩
  | text => exact ⟨fun _ => ⟨_, rfl⟩, fun _ => ⟨_, rfl⟩⟩
  | noText h => exact ⟨by simp, fun ⟨s, hs⟩ => absurd hs (h s)⟩
  | negative => exact ⟨by simp, False.elim⟩
  | yearZero => exact ⟨fun _ => trivial, fun _ => ⟨_, rfl⟩⟩

theorem inTurn_total {α β : Type} {R : α → Except Err β → Prop} (h : ∀ a, ∃ r, R a r) (as : List α) : ∃ r, InTurn R as r := by
  induction as with
  | nil => exact ⟨_, .nil⟩
  | cons a as ih =>
    obtain ⟨r, ha⟩ := h a
    cases r with
    | error e => exact ⟨_, .here ha⟩
    | ok b =>
      obtain ⟨r, hr⟩ := ih
      cases r with
      | error e => exact ⟨_, .later ha hr⟩
      | ok bs => exact ⟨_, .cons ha hr⟩

theorem inTurn_ok {α β : Type} {R : α → Except Err β → Prop} {G : α → Prop} (h : ∀ a r, R a r → ((∃ b, r = .ok b) ↔ G a)) {as : List α}
    {r : Except Err (List β)} (hr : InTurn R as r) : (∃ bs, r = .ok bs) ↔ ∀ a ∈ as, G a := by
  induction hr with
  | nil => simp
  | cons ha _ ih => simpa [(h _ _ ha).1 ⟨_, rfl⟩] using ih.1 ⟨_, rfl⟩
  | here ha =>
    have := mt (h _ _ ha).2 (by simp)
    simp [this]
  | later ha _ ih =>
    have := mt ih.2 (by simp)
    simp only [reduceCtorEq, exists_false, List.mem_cons, forall_eq_or_imp, false_iff]
    exact fun hc => this hc.2

theorem shownCell_total (s : ServerState) : ∃ r, ShownCell s r := by
  cases s with
  | absent => exact ⟨_, .absent⟩
  | null => exact ⟨_, .null⟩
  | value v =>
    rcases shown_total v with ⟨_, w, h⟩ | ⟨_, e, h⟩
    · exact ⟨_, .value h⟩
    · exact ⟨_, .refused h⟩

theorem shownRow_total (states : List ServerState) : ∃ r, ShownRow states r := by
  obtain ⟨r, h⟩ := inTurn_total shownCell_total states
  cases r with
  | ok cells => exact ⟨_, .row h⟩
  | error e => exact ⟨_, .refused h⟩

theorem shownPair_total (p : List ServerState × List ServerState) : ∃ r, ShownPair p r := by
  obtain ⟨r1, h1⟩ := shownRow_total p.1
  cases r1 with
  | error e => exact ⟨_, .before h1⟩
  | ok row =>
    obtain ⟨r2, h2⟩ := shownRow_total p.2
    cases r2 with
    | error e => exact ⟨_, .after h1 h2⟩
    | ok row' => exact ⟨_, .pair h1 h2⟩

theorem shownRow_fine {states : List ServerState} {r : Except Err RowData} (h : ShownRow states r) : (∃ row, r = .ok row) ↔ FineRow states := by
  have key : ∀ (s : ServerState) r, ShownCell s r → ((∃ b, r = .ok b) ↔ ∀ v, s = .value v → v.Fine) := by
    intro s r h
    cases h with
    | absent | null => simp
    | value h => simpa using (shown_fine h).1 ⟨_, rfl⟩
    | refused h => simpa using mt (shown_fine h).2 (by simp)
  have fine : FineRow states ↔ ∀ s ∈ states, ∀ v, s = ServerState.value v → v.Fine :=
    ⟨fun h s hs v hv => h v (hv ▸ hs), fun h v hv => h _ hv v rfl⟩
  rw [fine]
  cases h with
  | row h => exact ⟨fun _ => (inTurn_ok key h).1 ⟨_, rfl⟩, fun _ => ⟨_, rfl⟩⟩
  | refused h => exact ⟨by simp, fun hf => by simpa using (inTurn_ok key h).2 hf⟩

theorem shownPair_fine {p : List ServerState × List ServerState} {r : Except Err UpdateRowData} (h : ShownPair p r) :
    (∃ row, r = .ok row) ↔ FineRow p.1 ∧ FineRow p.2 := by
  cases h with
  | pair h1 h2 => exact ⟨fun _ => ⟨(shownRow_fine h1).1 ⟨_, rfl⟩, (shownRow_fine h2).1 ⟨_, rfl⟩⟩, fun _ => ⟨_, rfl⟩⟩
  | before h1 => exact ⟨by simp, fun hf => by simpa using (shownRow_fine h1).2 hf.1⟩
  | after _ h2 => exact ⟨by simp, fun hf => by simpa using (shownRow_fine h2).2 hf.2⟩

/-! ## The property -/

/-- C112, what holds, for inserts and deletes: an event in the format of the servers, with any values, is decoded to its rows if the
library has a form for all values, and is otherwise refused with the error for the first one it has no form for; then the decoder is as
before. Missing: rows with text that is no UTF-8 or with negative times, see `C112_false`. -/
theorem C112_write_and_delete_partial (m : Mode) (st : EventParser) (header : EventHeader) {version : Nat}
    {columns : List (UInt8 × Nat)} {tableId flags : Nat} {present : List Bool} {rows : List (List ServerState)}
    {body slice : Bytes} {table : TableMapEvent} (hv : version = 1 ∨ version = 2)
    (hc : st.tableMap.get? tableId = some table) (ht : Describes table columns) (hlen : columns.length < 2 ^ 63)
    (hp : true ∈ present ∨ rows = []) (hb : ServerRows version columns tableId flags present rows body)
    (hs : WithChecksum st.checksumType body slice) :
    ∃ r, InTurn ShownRow rows r ∧ ((∃ shown, r = .ok shown) ↔ ∀ row ∈ rows, FineRow row) ∧
      (header.eventType = rowEventCode version 0 → parseEvent m st header slice = match r with
        | .ok shown => (.ok (.writeRows ⟨tableId, flags, columns.length, present, shown⟩), st)
        | .error e => (.err e, st)) ∧
      (header.eventType = rowEventCode version 2 → parseEvent m st header slice = match r with
        | .ok shown => (.ok (.deleteRows ⟨tableId, flags, columns.length, present, shown⟩), st)
        | .error e => (.err e, st)) := by
  obtain ⟨r, hr⟩ := inTurn_total shownRow_total rows
  have hrun := serverRows_runs m hc ht hlen hp hb hr
  refine ⟨r, hr, inTurn_ok (fun _ _ h => shownRow_fine h) hr, ?_, ?_⟩
  · intro he
    have := parseEvent_runs (m := m) (header := header)
      (r := (r.map fun rows => (⟨tableId, flags, columns.length, present, rows⟩ : RowsEvent)).map BinlogEvent.writeRows) hs (by
        unfold dispatchEvent
        rw [he]
        rcases hv with rfl | rfl <;> exact (hrun.map BinlogEvent.writeRows).run)
    rw [this]
    cases r <;> rfl
  · intro he
    have := parseEvent_runs (m := m) (header := header)
      (r := (r.map fun rows => (⟨tableId, flags, columns.length, present, rows⟩ : RowsEvent)).map BinlogEvent.deleteRows) hs (by
        unfold dispatchEvent
        rw [he]
        rcases hv with rfl | rfl <;> exact (hrun.map BinlogEvent.deleteRows).run)
    rw [this]
    cases r <;> rfl

/-- C112, what holds, for updates. -/
theorem C112_update_partial (m : Mode) (st : EventParser) (header : EventHeader) {version : Nat}
    {columns : List (UInt8 × Nat)} {tableId flags : Nat} {before after : List Bool} {rows : List (List ServerState × List ServerState)}
    {body slice : Bytes} {table : TableMapEvent} (hv : version = 1 ∨ version = 2)
    (hc : st.tableMap.get? tableId = some table) (ht : Describes table columns) (hlen : columns.length < 2 ^ 63)
    (hp : true ∈ before ∨ true ∈ after ∨ rows = []) (hb : ServerUpdates version columns tableId flags before after rows body)
    (hs : WithChecksum st.checksumType body slice) (he : header.eventType = rowEventCode version 1) :
    ∃ r, InTurn ShownPair rows r ∧ ((∃ shown, r = .ok shown) ↔ ∀ pair ∈ rows, FineRow pair.1 ∧ FineRow pair.2) ∧
      parseEvent m st header slice = match r with
        | .ok shown => (.ok (.updateRows ⟨tableId, flags, columns.length, before, after, shown⟩), st)
        | .error e => (.err e, st) := by
  obtain ⟨r, hr⟩ := inTurn_total shownPair_total rows
  have hrun := serverUpdates_runs m hc ht hlen hp hb hr
  refine ⟨r, hr, inTurn_ok (fun _ _ h => shownPair_fine h) hr, ?_⟩
  have := parseEvent_runs (m := m) (header := header)
    (r := (r.map fun rows => (⟨tableId, flags, columns.length, before, after, rows⟩ : UpdateRowsEvent)).map BinlogEvent.updateRows) hs (by
      unfold dispatchEvent
      rw [he]
      rcases hv with rfl | rfl <;> exact (hrun.map BinlogEvent.updateRows).run)
  rw [this]
  cases r <;> rfl

/-! ## Examples -/

/-- A table with a VARCHAR(20) and a TIME column. -/
def exTextTable : TableMapEvent := ⟨7, "db".toList, "t".toList, [15, 19], [20, 0], [true, true], none⟩

/-- A decoder that knows the table. -/
def exTextDecoder : EventParser := { EventParser.new with tableMap := [(7, exTextTable)] }

/-- The head of a version 2 event with both columns. -/
def exTextHead : Bytes := [7, 0, 0, 0, 0, 0] ++ [1, 0] ++ ([2, 0] ++ []) ++ [2]

theorem exText_rows {rows : List (List ServerState)} {data : Bytes}
    (h : Each (ServerImage [(15, 20), (19, 0)] [true, true]) rows data) :
    ServerRows 2 [(15, 20), (19, 0)] 7 1 [true, true] rows (exTextHead ++ [3] ++ data) :=
  .mk rfl (.v2 (extra := []) (count := [2]) (by decide) (by decide) (by decide) (lenEnc_one (by decide) rfl))
    (bitmapLE_of_check rfl (by decide)) h

/-- The row `("ok", 01:02:03)`. -/
theorem exText_fine : ServerImage [(15, 20), (19, 0)] [true, true] [.value (.text [111, 107]), .value (.value (.time ⟨1, 2, 3, 0⟩))]
    [0, 2, 111, 107, 0x80, 0x10, 0x83] := by
  refine ⟨rfl, [0], [2, 111, 107, 0x80, 0x10, 0x83], bitmapLE_of_check rfl (by decide), ?_, rfl⟩
  exact .value (e := [2, 111, 107]) (.varChar (by decide) ⟨by decide, by decide⟩)
    (.value (e := be 3 (2 ^ 23 + 2 ^ 12 * 1 + 2 ^ 6 * 2 + 3) ++ [])
      (.value (.time (.time2 (micros := 0) (by decide) (by decide) (by decide) (.none rfl rfl)) (by simp))) .nil)

/-- The row `("é", NULL)` of a table in Latin-1. -/
theorem exText_latin : ServerImage [(15, 20), (19, 0)] [true, true] [.value (.text [0xE9]), .null] [2, 1, 0xE9] := by
  refine ⟨rfl, [2], [1, 0xE9], bitmapLE_of_check rfl (by decide), ?_, rfl⟩
  exact .value (e := [1, 0xE9]) (.varChar (by decide) ⟨by decide, by decide⟩) (.null .nil)

/-- The row `(NULL, -01:02:03)`. -/
theorem exText_negative : ServerImage [(15, 20), (19, 0)] [true, true] [.null, .value (.negative 1 2 3 0)] [1, 0x7F, 0xEF, 0x7D] := by
  refine ⟨rfl, [1], [0x7F, 0xEF, 0x7D], bitmapLE_of_check rfl (by decide), ?_, rfl⟩
  exact .null (.value (e := be (3 + 0) (2 ^ 23 * 256 ^ 0 - ((2 ^ 12 * 1 + 2 ^ 6 * 2 + 3) * 256 ^ 0 + 0 / 100 ^ (3 - 0))))
    (.time2 (by decide) rfl (by decide) (by decide) (by decide) (by decide) (by decide) (by decide)) .nil)

/-- C112 is false: an insert of a fine row and one with Latin-1 text is refused as a whole, and so is one with a negative time. -/
theorem C112_false :
    (∃ rows body, ServerRows 2 [(15, 20), (19, 0)] 7 1 [true, true] rows body ∧ Describes exTextTable [(15, 20), (19, 0)] ∧
      ∀ m, parseEvent m exTextDecoder ⟨0, 30, 1, 0, 0, 0⟩ body = (.err .fromUtf8, exTextDecoder)) ∧
    (∃ rows body, ServerRows 2 [(15, 20), (19, 0)] 7 1 [true, true] rows body ∧ Describes exTextTable [(15, 20), (19, 0)] ∧
      ∀ m, parseEvent m exTextDecoder ⟨0, 30, 1, 0, 0, 0⟩ body =
        (.err (.str "Parsing negative TIME values is not supported in this version"), exTextDecoder)) := by
  refine ⟨⟨_, _, exText_rows (.cons exText_fine (.cons exText_latin .nil)), ⟨rfl, rfl⟩, ?_⟩,
    ⟨_, _, exText_rows (.cons exText_fine (.cons exText_negative .nil)), ⟨rfl, rfl⟩, ?_⟩⟩ <;>
  · rintro ⟨_ | _⟩ <;> decide +kernel

/-- The fine row alone is decoded. -/
example : ∀ m, parseEvent m exTextDecoder ⟨0, 30, 1, 0, 0, 0⟩ (exTextHead ++ [3] ++ ([0, 2, 111, 107, 0x80, 0x10, 0x83] ++ [])) =
    (.ok (.writeRows ⟨7, 1, 2, [true, true], [⟨[some (.string "ok".toList), some (.time ⟨1, 2, 3, 0⟩)]⟩]⟩), exTextDecoder) := by
  rintro ⟨_ | _⟩ <;> decide +kernel

/-- `C112_write_and_delete_partial` applies to the three rows, and says which error comes. -/
example (m : Mode) : parseEvent m exTextDecoder ⟨0, 30, 1, 0, 0, 0⟩ (exTextHead ++ [3] ++
      ([0, 2, 111, 107, 0x80, 0x10, 0x83] ++ ([2, 1, 0xE9] ++ ([1, 0x7F, 0xEF, 0x7D] ++ [])))) = (.err .fromUtf8, exTextDecoder) := by
  obtain ⟨r, h1, h2, h3, _⟩ := C112_write_and_delete_partial m exTextDecoder ⟨0, 30, 1, 0, 0, 0⟩ (.inr rfl) rfl
    (table := exTextTable) ⟨rfl, rfl⟩ (by decide) (.inl (by simp))
    (exText_rows (.cons exText_fine (.cons exText_latin (.cons exText_negative .nil)))) ⟨[], rfl, (List.append_nil _).symm⟩
  rw [h3 rfl]
  have latin : ∀ s, ([0xE9] : Bytes) ≠ utf8Bytes s := fun s hs => by
    have : utf8Decode [0xE9] = some s := utf8Decode_eq_some_iff.2 hs
    revert this
    rw [show utf8Decode [0xE9] = none by decide +kernel]
    simp
  have noRow : ∀ {r}, ShownRow [.value (.text [0xE9]), .null] r → r = .error .fromUtf8 := by
    intro r hr
    have hcell : ∀ {r}, ShownCell (.value (.text [0xE9])) r → r = .error .fromUtf8 := by
      intro r hr
      generalize hb : ([0xE9] : Bytes) = b at hr
      cases hr with
      | value h => cases h with
        | text => exact absurd hb (latin _)
      | refused h => cases h; rfl
    cases hr with
    | row h => cases h with
      | cons h _ => cases hcell h
    | refused h => cases h with
      | here h => cases hcell h; rfl
      | later h _ => cases hcell h
  have fineRow : ∀ {e}, ¬ShownRow [.value (.text [111, 107]), .value (.value (.time ⟨1, 2, 3, 0⟩))] (.error e) := by
    intro e hr
    obtain ⟨_, h⟩ := (shownRow_fine hr).2 (by
      intro v hv
      simp only [List.mem_cons, ServerState.value.injEq, List.not_mem_nil, or_false] at hv
      rcases hv with rfl | rfl
      · exact ⟨"ok".toList, by decide +kernel⟩
      · trivial)
    cases h
  cases h1 with
  | cons _ h => cases h with
    | cons h _ => cases noRow h
  | here h => exact absurd h fineRow
  | later _ h => cases h with
    | here h => cases noRow h; rfl
    | later h _ => cases noRow h

end MysqlCdc
