import Verif.Spec.NewTables
import Verif.Props.AnyValues
import Verif.Props.Decoder
import Verif.Props.Errors
import Verif.Props.TableMap
/-!
# C114: tables of newer servers
-/

namespace MysqlCdc

open Spec

theorem each_split {α : Type} {R : α → Bytes → Prop} {xs ys : List α} {e : Bytes} (h : Each R (xs ++ ys) e) :
    ∃ a b, Each R xs a ∧ Each R ys b ∧ e = a ++ b := by
  induction xs generalizing e with
  | nil => exact ⟨[], e, .nil, h, rfl⟩
  | cons x xs ih =>
    cases h with
    | cons h hs =>
      obtain ⟨a, b, h1, h2, rfl⟩ := ih hs
      exact ⟨_, b, .cons h h1, h2, by simp⟩

theorem each_imp_mem {α : Type} {R S : α → Bytes → Prop} {xs : List α} {e : Bytes} (h : Each R xs e) (hi : ∀ x ∈ xs, ∀ e, R x e → S x e) : Each S xs e := by
  induction h with
  | nil => exact .nil
  | cons h _ ih => exact .cons (hi _ (by simp) _ h) (ih fun x hx => hi x (by simp [hx]))

/-- The first element without the property. -/
theorem first_not {α : Type} {p : α → Prop} {xs : List α} (h : ¬ ∀ x ∈ xs, p x) : ∃ a x b, xs = a ++ x :: b ∧ (∀ y ∈ a, p y) ∧ ¬ p x := by
  induction xs with
  | nil => simp at h
  | cons x xs ih =>
    by_cases hx : p x
    · obtain ⟨a, y, b, rfl, h1, h2⟩ := ih fun h' => h (by simpa [hx] using h')
      exact ⟨x :: a, y, b, rfl, by simpa [hx] using h1, h2⟩
    · exact ⟨[], x, xs, rfl, by simp, hx⟩

theorem num_loose {n : Nat} {e : Bytes} (h : Num n e) : LooseNum n e := ⟨n, h.2, (Nat.mod_eq_of_lt h.1).symm⟩

theorem pair_loose {p : Nat × Nat} {e : Bytes} (h : NumPair p e) : LoosePair p e := by
  obtain ⟨a, b, h1, h2, rfl⟩ := h
  exact ⟨a, b, num_loose h1, num_loose h2, rfl⟩

theorem charset_loose {c : DefaultCharset} {e : Bytes} (h : Charset c e) : LooseCharset c e := by
  obtain ⟨a, b, h1, h2, rfl⟩ := h
  exact ⟨a, b, num_loose h1, h2.imp fun _ _ => pair_loose, rfl⟩

theorem field_loose {types : Bytes} {f : MetaField} {e : Bytes} (h : MetaFieldBytes types f e) : LooseField types f e := by
  obtain ⟨code, len, payload, h1, h2, h3, rfl⟩ := h
  refine ⟨code, len, payload, ?_, h2, h3, rfl⟩
  cases h1 with
  | signedness h hl => exact .signedness ⟨hl, _, [], h, by simp⟩
  | defaultCharset h => exact .defaultCharset (charset_loose h)
  | columnCharset h => exact .columnCharset (h.imp fun _ _ => num_loose)
  | columnName h => exact .columnName h
  | setValues h => exact .setValues h
  | enumValues h => exact .enumValues h
  | geometryTypes h => exact .geometryTypes (h.imp fun _ _ => num_loose)
  | primaryKey h => exact .primaryKey (h.imp fun _ _ => num_loose)
  | primaryKeyPrefix h => exact .primaryKeyPrefix (h.imp fun _ _ => pair_loose)
  | enumSetDefaultCharset h => exact .enumSetDefaultCharset (charset_loose h)
  | enumSetColumnCharset h => exact .enumSetColumnCharset (h.imp fun _ _ => num_loose)
  | visibility h hl => exact .visibility ⟨hl, _, [], h, by simp⟩

theorem oldColumn_meta {c : UInt8 × Nat} {e : Bytes} (h : ServerColumn c e) (ho : OldColumn c) : ColumnMeta c e := by
  obtain ⟨l, hl⟩ := ho
  cases h with
  | old h => exact h
  | vector => exact absurd hl (by rintro ⟨⟩)
  | varCharCompressed => exact absurd hl (by rintro ⟨⟩)
  | blobCompressed => exact absurd hl (by rintro ⟨⟩)

theorem rawName_text {name e : Bytes} {s : RStr} (h : RawName name e) (hs : name = utf8Bytes s) : Text s e := by
  subst hs
  obtain ⟨h1, l, h2, rfl⟩ := h
  exact ⟨h1, l, h2, rfl⟩

/-- Names that are all text. -/
theorem rawNames_text {names : List Bytes} {e : Bytes} (h : Each RawName names e) (ht : ∀ name ∈ names, ∃ s, name = utf8Bytes s) :
    ∃ ss : List RStr, ss.length = names.length ∧ Each Text ss e := by
  induction h with
  | nil => exact ⟨[], rfl, .nil⟩
  | @cons v vs e es h _ ih =>
    obtain ⟨ss, h1, h2⟩ := ih fun x hx => ht x (by simp [hx])
    obtain ⟨s, hs⟩ := ht v (by simp)
    exact ⟨s :: ss, by simp [h1], .cons (rawName_text h hs) h2⟩

theorem rawValues_text {values : List (List Bytes)} {e : Bytes} (h : Each RawValues values e)
    (ht : ∀ names ∈ values, ∀ name ∈ names, ∃ s, name = utf8Bytes s) : ∃ vs : List (List RStr), Each Values vs e := by
  induction h with
  | nil => exact ⟨[], .nil⟩
  | @cons v vs e es h _ ih =>
    obtain ⟨ss, h1⟩ := ih fun x hx => ht x (by simp [hx])
    obtain ⟨a, b, h2, h3, rfl⟩ := h
    obtain ⟨names, h4, h5⟩ := rawNames_text h3 (ht v (by simp))
    exact ⟨names :: ss, .cons ⟨a, b, h4 ▸ h2, h5, rfl⟩ h1⟩

/-- One of the names is no text. -/
theorem rawValues_error {values : List (List Bytes)} {e : Bytes} (h : Each RawValues values e)
    (hn : ∃ names ∈ values, ∃ name ∈ names, ∀ s, name ≠ utf8Bytes s) : AfterSome Values (ValuesError .fromUtf8) e := by
  obtain ⟨a, names, b, rfl, h1, h2⟩ := first_not (p := fun names => ∀ name ∈ names, ∃ s, name = utf8Bytes s) (xs := values) (by
    intro hall
    obtain ⟨names, h1, name, h2, h3⟩ := hn
    obtain ⟨s, hs⟩ := hall names h1 name h2
    exact h3 s hs)
  obtain ⟨e1, e2, i1, i2, rfl⟩ := each_split h
  obtain ⟨vs, hvs⟩ := rawValues_text i1 h1
  cases i2 with
  | @cons _ _ e3 es hv hs =>
    obtain ⟨l, body, j1, j2, rfl⟩ := hv
    obtain ⟨c, name, d, rfl, k1, k2⟩ := first_not h2
    obtain ⟨f1, f2, l1, l2, rfl⟩ := each_split j2
    obtain ⟨ss, hss, htx⟩ := rawNames_text l1 k1
    cases l2 with
    | @cons _ _ f3 fs hname hrest =>
      obtain ⟨hlen, ln, hl, rfl⟩ := hname
      refine ⟨vs, e1, _, hvs, ?_, rfl⟩
      have := ValuesError.value (err := .fromUtf8) (n := (c ++ name :: d).length) (names := ss) (l := l) (e := f1) (t := ln ++ (name ++ (fs ++ es))) j1
        (by simp [hss]) htx (.text hl (.mk rfl hlen fun s hs => k2 ⟨s, hs⟩))
      simpa using this

theorem field_error {types : Bytes} {err : Err} {e : Bytes} (h : ServerField types (.error err) e) (rest : Bytes) : FieldError err (e ++ rest) := by
  cases h with
  | newer hc hl => simpa using FieldError.code (rest := _ ++ (_ ++ rest)) (.inr hc)
  | values hc hv hn hp hl =>
    exact .payload hl hp (.values (by rcases hc with rfl | rfl <;> simp) (rawValues_error hv hn))

/-- A table map that the library does not know all of is refused. -/
theorem newTable_error {tableId : Nat} {columns : List (UInt8 × Nat)} {fields : List (Except Err MetaField)} {body : Bytes}
    (h : ServerTable tableId columns fields body) (hn : ¬ OldTable columns fields) : ∃ e, TableMapError e body ∧ e ≠ .io .unexpectedEof := by
  cases h with
  | @mk flags db table _ nulls _ count metaLength colMeta bitmap opt h1 h2 h3 h4 h5 h5' h6 h8 h9 h10 h11 =>
  have hstart : TableStart (le 6 tableId ++ flags ++ (le 1 (utf8Bytes db).length ++ utf8Bytes db ++ [0]) ++
      (le 1 (utf8Bytes table).length ++ utf8Bytes table ++ [0])) := .mk h1 h2 h3 h4
  by_cases hc : ∀ c ∈ columns, OldColumn c
  · have h6' : Each ColumnMeta columns colMeta := each_imp_mem h6 fun c hcm e h => oldColumn_meta h (hc c hcm)
    obtain ⟨a, f, b, rfl, i1, i2⟩ := first_not (p := fun f : Except Err MetaField => ∃ x, f = .ok x) (xs := fields) fun h => hn ⟨hc, h⟩
    obtain ⟨e1, e2, j1, j2, rfl⟩ := each_split h11
    cases f with
    | ok x => exact absurd ⟨x, rfl⟩ i2
    | error err =>
      have hne : err ≠ .io .unexpectedEof := by
        cases j2 with
        | cons h _ => cases h <;> simp
      have hfields : ∃ fs : List MetaField, Each (LooseField (columns.map (·.1))) fs e1 := by
        clear h11 j2 hn
        induction j1 with
        | nil => exact ⟨[], .nil⟩
        | @cons v vs e es h _ ih =>
          obtain ⟨fs, hfs⟩ := ih fun x hx => i1 x (by simp [hx])
          obtain ⟨x, rfl⟩ := i1 v (by simp)
          cases h with
          | old h => exact ⟨x :: fs, .cons (field_loose h) hfs⟩
      obtain ⟨fs, hfs⟩ := hfields
      cases j2 with
      | @cons _ _ e3 es h hs => exact ⟨err, .metadata hstart h5 h5' h6' h8 h9 h10 ⟨fs, e1, _, hfs, field_error h es, rfl⟩, hne⟩
  · obtain ⟨a, c, b, rfl, i1, i2⟩ := first_not hc
    obtain ⟨e1, e2, j1, j2, rfl⟩ := each_split h6
    have h6' : Each ColumnMeta a e1 := each_imp_mem j1 fun c hcm e h => oldColumn_meta h (i1 c hcm)
    have hl : metaLayout c.1 = none := by
      cases hl : metaLayout c.1 with
      | none => rfl
      | some l => exact absurd ⟨l, hl⟩ i2
    have := TableMapError.columnType (rest := e2 ++ (bitmap ++ opt)) (more := b.map (·.1)) hstart (by simpa using h5) (by simpa using h5') h8 h6' hl
    exact ⟨.str "Unknown column type", by simpa using this, by simp⟩

/-- One that it knows is in the format of C44. -/
theorem oldTable_body {tableId : Nat} {columns : List (UInt8 × Nat)} {fields : List (Except Err MetaField)} {body : Bytes}
    (h : ServerTable tableId columns fields body) (ho : OldTable columns fields) :
    ∃ db table nulls fs, TableMapBody tableId db table columns nulls fs body := by
  cases h with
  | @mk flags db table _ nulls _ count metaLength colMeta bitmap opt h1 h2 h3 h4 h5 h5' h6 h8 h9 h10 h11 =>
  have hfields : ∃ fs : List MetaField, Each (MetaFieldBytes (columns.map (·.1))) fs opt := by
    have hf := ho.2
    clear ho
    induction h11 with
    | nil => exact ⟨[], .nil⟩
    | @cons v vs e es h _ ih =>
      obtain ⟨fs, hfs⟩ := ih fun x hx => hf x (by simp [hx])
      obtain ⟨x, rfl⟩ := hf v (by simp)
      cases h with
      | old h => exact ⟨x :: fs, .cons h hfs⟩
  obtain ⟨fs, hfs⟩ := hfields
  exact ⟨db, table, nulls, fs, .mk h1 h2 h3 h4 h5 h5' (each_imp_mem h6 fun c hcm e h => oldColumn_meta h (ho.1 c hcm)) h8 h9 h10 hfs⟩

/-! ## C114 -/

/-- **C114, the table map** (part). A table map that the library knows all of is decoded with its columns and kept for its table. Any other is refused with an
error, and nothing is kept of it. -/
theorem C114_table_partial (m : Mode) (st : EventParser) (header : EventHeader) {tableId : Nat} {columns : List (UInt8 × Nat)}
    {fields : List (Except Err MetaField)} {body slice : Bytes} (ht : header.eventType = 19) (h : ServerTable tableId columns fields body)
    (hs : WithChecksum st.checksumType body slice) :
    (OldTable columns fields → ∃ t, parseEvent m st header slice = (.ok (.tableMap t), { st with tableMap := st.tableMap.insert tableId t }) ∧
      t.tableId = tableId ∧ Describes t columns) ∧
    (¬ OldTable columns fields → ∃ e, parseEvent m st header slice = (.err e, st)) := by
  constructor
  · intro ho
    obtain ⟨db, table, nulls, fs, hb⟩ := oldTable_body h ho
    obtain ⟨t, h1, h2, -, -, h3, h4, -⟩ := C44_table_map m st header ht hb hs
    exact ⟨t, by rw [h1, EventParser.record, h2], h2, h3, h4⟩
  · intro hn
    obtain ⟨e, he, hne⟩ := newTable_error h hn
    have hrun : (dispatchEvent m st.tableMap header).run body = .err e := by
      have := (((err_tableMap hne).map BinlogEvent.tableMap) body 0).2 (by simpa using he)
      simp only [dispatchEvent, ht, EventType.fromCode]
      simp only [P.run]
      rw [this]
      rfl
    refine ⟨e, ?_⟩
    unfold parseEvent
    simp only [eventBody_of_checksum hs, hrun]

theorem run_map {α β : Type} {p : P α} {f : α → β} {body : Bytes} {b : β} (h : (p >>= fun a => pure (f a)).run body = .ok b) : ∃ a, b = f a := by
  have hb : (p >>= fun a => pure (f a)) body 0 = (match p body 0 with
    | .ok (a, pos) => .ok (f a, pos) | .err e => .err e | .panic => .panic | .hang => .hang) := by
    show P.seq p _ body 0 = _
    unfold P.seq
    cases p body 0 <;> rfl
  simp only [P.run, hb] at h
  cases hp : p body 0 with
  | ok x =>
    rw [hp] at h
    exact ⟨x.1, by simpa using h.symm⟩
  | _ => rw [hp] at h; simp at h

/-- Only table map events bring table maps, for the table of their first six bytes. -/
theorem tableMap_sent {m : Mode} {st : EventParser} {header : EventHeader} {slice : Bytes} {t : TableMapEvent}
    (h : (parseEvent m st header slice).1 = .ok (.tableMap t)) : header.eventType = 19 ∧ leVal (slice.take 6) = t.tableId := by
  by_cases hr : header.eventType ∈ rowCodes
  · obtain ⟨body, -, h2⟩ := parseEvent_ok_iff.1 h
    simp only [rowCodes, List.mem_cons, List.not_mem_nil, or_false] at hr
    exfalso
    rcases hr with hc | hc | hc | hc | hc | hc <;> simp only [dispatchEvent, hc, EventType.fromCode] at h2 <;>
    · obtain ⟨a, ha⟩ := run_map h2
      cases ha
  · obtain ⟨body, ⟨sum, -, rfl⟩, ha⟩ := C81_sound hr h
    cases ha with
    | plain h => generalize header.eventType = c at h; cases h
    | maria h => generalize header.eventType = c at h; cases h
    | tableMap hc h =>
      cases h with
      | mk h1 =>
        refine ⟨hc, ?_⟩
        simp only [List.append_assoc]
        rw [List.take_left' (by simp)]
        rw [leVal_le, Nat.mod_eq_of_lt (by simpa using h1)]

/-- What a decoder knows of a table after events of which none is a table map for it. -/
theorem cache_kept {m : Mode} {st : EventParser} {events : List (EventHeader × Bytes)} {id : Nat}
    (h : ∀ x ∈ events, x.1.eventType = 19 → leVal (x.2.take 6) ≠ id) : (after m st events).tableMap.get? id = st.tableMap.get? id := by
  induction events generalizing st with
  | nil => rfl
  | cons x events ih =>
    obtain ⟨hd, p⟩ := x
    simp only [after]
    rw [ih fun y hy => h y (by simp [hy]), parseEvent_state]
    cases hr : (parseEvent m st hd p).1 with
    | ok e =>
      cases e with
      | tableMap t =>
        obtain ⟨h1, h2⟩ := tableMap_sent hr
        have h3 := h (hd, p) (by simp) h1
        simp only [EventParser.record]
        rw [HMap.get?_insert, if_neg]
        intro h4
        exact h3 (by rw [h2, h4])
      | _ => rfl
    | _ => rfl

theorem after_append (m : Mode) (st : EventParser) (a b : List (EventHeader × Bytes)) : after m st (a ++ b) = after m (after m st a) b := by
  induction a generalizing st with
  | nil => rfl
  | cons x a ih => exact ih _

/-- **C114, the rows** (part). A server sent, after any other events, the table map of a table and then events of which none is a table map with the same
number. If the library knows all of the table, then rows of it are decoded with the columns of that table map. Otherwise they are treated exactly as if that
table map had not been sent, so with the columns of an older table map with the same number, if there was one. -/
theorem C114_rows_partial (m : Mode) (st : EventParser) (before between : List (EventHeader × Bytes)) (header rows : EventHeader) {tableId : Nat}
    {columns : List (UInt8 × Nat)} {fields : List (Except Err MetaField)} {body slice event : Bytes} (ht : header.eventType = 19)
    (h : ServerTable tableId columns fields body) (hs : WithChecksum (after m st before).checksumType body slice)
    (hb : ∀ x ∈ between, x.1.eventType = 19 → leVal (x.2.take 6) ≠ tableId) (hr : rows.eventType ∈ rowTypes) (hid : leVal (event.take 6) = tableId) :
    (OldTable columns fields → ∃ t, t.tableId = tableId ∧ Describes t columns ∧
      (parseEvent m (after m st (before ++ (header, slice) :: between)) rows event).1 =
        (parseEvent m ⟨(after m st (before ++ (header, slice) :: between)).checksumType, [(tableId, t)]⟩ rows event).1) ∧
    (¬ OldTable columns fields →
      (∃ e, (parseEvent m (after m st before) header slice).1 = .err e) ∧
      parseEvent m (after m st (before ++ (header, slice) :: between)) rows event = parseEvent m (after m st (before ++ between)) rows event) := by
  obtain ⟨h1, h2⟩ := C114_table_partial m (after m st before) header ht h hs
  constructor
  · intro ho
    obtain ⟨t, h3, h4, h5⟩ := h1 ho
    refine ⟨t, h4, h5, ?_⟩
    have hget : (after m st (before ++ (header, slice) :: between)).tableMap.get? tableId = some t := by
      rw [after_append]
      simp only [after]
      rw [cache_kept hb, h3]
      simp [HMap.get?_insert]
    subst hid
    have := C32_latest_table_map m st (before ++ (header, slice) :: between) rows event hr t (by rw [← cache_after]; exact hget)
    exact this
  · intro hn
    obtain ⟨e, he⟩ := h2 hn
    refine ⟨⟨e, by rw [he]⟩, ?_⟩
    rw [after_append, after_append]
    simp only [after]
    rw [he]

/-! ## C114 is false -/

/-- The table `d.t` with one INT column. -/
def exIntTable : Bytes := [7, 0, 0, 0, 0, 0, 1, 0, 1, 100, 0, 1, 116, 0, 1, 3, 0, 0]
/-- After a restart of the server: the table `d.v` with one VECTOR column. -/
def exVectorTable : Bytes := [7, 0, 0, 0, 0, 0, 1, 0, 1, 100, 0, 1, 118, 0, 1, 242, 1, 4, 1]
/-- One row of the latter, a vector of five zeros. -/
def exVectorRow : Bytes := [7, 0, 0, 0, 0, 0, 1, 0, 2, 0, 1, 255] ++ [0] ++ le 4 20 ++ List.replicate 20 0

theorem exInt_table : ServerTable 7 [(3, 0)] [] exIntTable :=
  .mk (db := "d".toList) (table := "t".toList) (nulls := [false]) (flags := [1, 0]) (count := [1]) (metaLength := [0]) (colMeta := [] ++ []) (bitmap := [0])
    (by decide) rfl (by decide) (by decide) (.one (by decide)) (by decide) (.cons (.old (.nothing rfl)) .nil) (.one (by decide)) rfl
    (bitmapLE_of_check rfl (by decide)) .nil

theorem exVector_table : ServerTable 7 [(242, 4)] [] exVectorTable :=
  .mk (db := "d".toList) (table := "v".toList) (nulls := [true]) (flags := [1, 0]) (count := [1]) (metaLength := [1]) (colMeta := [4] ++ []) (bitmap := [1])
    (by decide) rfl (by decide) (by decide) (.one (by decide)) (by decide) (.cons (.vector (by decide)) .nil) (.one (by decide)) rfl
    (bitmapLE_of_check rfl (by decide)) .nil

/-- C114 is false: a log holds the table map of `d.t`, and that of `d.v` under the same number, since a server counts its tables anew after a restart.
The latter is refused. The one row of `d.v` is then handed out as five rows of `d.t`. -/
theorem C114_false :
    ∃ (header rows : EventHeader) (columns : List (UInt8 × Nat)) (body event : Bytes), header.eventType = 19 ∧ ServerTable 7 columns [] body ∧
      rows.eventType ∈ rowTypes ∧ leVal (event.take 6) = 7 ∧ ∀ m,
        answers m EventParser.new [(header, exIntTable), (header, body), (rows, event)] =
          [.ok (.tableMap ⟨7, "d".toList, "t".toList, [3], [0], [false], none⟩), .err (.str "Unknown column type"),
            .ok (.writeRows ⟨7, 1, 1, [true], [⟨[some (.int 20)]⟩, ⟨[some (.int 0)]⟩, ⟨[some (.int 0)]⟩, ⟨[some (.int 0)]⟩, ⟨[some (.int 0)]⟩]⟩)] ∧
        ∀ t : TableMapEvent, t.tableId = 7 → Describes t columns →
          (parseEvent m ⟨.none, [(7, t)]⟩ rows event).1 = .err (.str "Unknown column type") := by
  refine ⟨⟨0, 19, 1, 0, 0, 0⟩, ⟨0, 30, 1, 0, 0, 0⟩, [(242, 4)], exVectorTable, exVectorRow, rfl, exVector_table, by decide, by decide, ?_⟩
  intro m
  constructor
  · revert m
    rintro ⟨_ | _⟩ <;> decide +kernel
  · intro t h1 h2
    obtain ⟨id, db, table, types, md, nulls, o⟩ := t
    obtain ⟨h3, h4⟩ := h2
    simp only at h1 h3 h4
    subst h1 h3 h4
    revert m
    rintro ⟨_ | _⟩ <;> with_unfolding_all rfl

/-- `C114_rows_partial` says so of the table map of the witness: `d.v` is not known, `d.t` is. -/
example : ¬ OldTable [(242, 4)] [] ∧ OldTable [(3, 0)] [] :=
  ⟨fun h => by obtain ⟨l, hl⟩ := h.1 _ (List.mem_singleton.2 rfl); exact absurd hl (by rintro ⟨⟩), by simp [OldTable, OldColumn, metaLayout]⟩

/-- It applies after the table map of `d.t`. -/
example (m : Mode) : parseEvent m (after m EventParser.new ([(⟨0, 19, 1, 0, 0, 0⟩, exIntTable)] ++ (⟨0, 19, 1, 0, 0, 0⟩, exVectorTable) :: []))
      ⟨0, 30, 1, 0, 0, 0⟩ exVectorRow =
    parseEvent m (after m EventParser.new ([(⟨0, 19, 1, 0, 0, 0⟩, exIntTable)] ++ [])) ⟨0, 30, 1, 0, 0, 0⟩ exVectorRow := by
  refine ((C114_rows_partial m EventParser.new [(⟨0, 19, 1, 0, 0, 0⟩, exIntTable)] [] ⟨0, 19, 1, 0, 0, 0⟩ ⟨0, 30, 1, 0, 0, 0⟩ rfl exVector_table
    ⟨[], ?_, (List.append_nil _).symm⟩ (by simp) (by decide) (by decide)).2 fun h => ?_).2
  · revert m
    rintro ⟨_ | _⟩ <;> decide +kernel
  · obtain ⟨l, hl⟩ := h.1 _ (List.mem_singleton.2 rfl)
    exact absurd hl (by rintro ⟨⟩)

/-- A table with a SET of Latin-1 values, with full metadata, and one with the new metadata field 13. -/
example : ServerField [248] (.error .fromUtf8) ([5] ++ [3] ++ (([1] ++ (([1] ++ [0xE9]) ++ [])) ++ [])) := by
  refine .values (code := 5) (len := [3]) (payload := ([1] ++ (([1] ++ [0xE9]) ++ [])) ++ []) (values := [[[0xE9]]]) (.inl rfl) (.cons ⟨[1], _, .one (by decide),
    .cons ⟨by decide, [1], .one (by decide), rfl⟩ .nil, rfl⟩ .nil) ⟨[[0xE9]], by simp, [0xE9], by simp, fun s hs => ?_⟩ (by decide)
    (.one (by decide))
  have : utf8Decode [0xE9] = some s := utf8Decode_eq_some_iff.2 hs
  revert this
  rw [show utf8Decode [0xE9] = none by decide +kernel]
  simp

example : ServerField [242] (.error (.str "Table metadata type is not supported")) ([13] ++ [1] ++ [5]) := .newer (by decide) (.one (by decide))

end MysqlCdc
