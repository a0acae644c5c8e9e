import Verif.Spec.Tables
import Verif.Props.Stored
import Verif.Props.EndToEnd
import Mathlib.Data.List.Perm.Basic
/-!
# C120: a copy of the tables
-/

namespace MysqlCdc

open Spec

/-! ## Decoding a row event with any stored values -/

theorem storedRows_result (m : Mode) {st : EventParser} {header : EventHeader} {version kind : Nat} {columns : List (UInt8 × Nat)}
    {tableId flags : Nat} {present : List Bool} {rows : List (List Stored)} {body slice : Bytes} {table : TableMapEvent}
    (hv : version = 1 ∨ version = 2) (hk : kind = 0 ∨ kind = 2) (hc : st.tableMap.get? tableId = some table) (ht : Describes table columns)
    (hlen : columns.length < 2 ^ 63) (hp : true ∈ present) (hb : StoredRows version columns tableId flags present rows body)
    (hs : WithChecksum st.checksumType body slice) (he : header.eventType = rowEventCode version kind) :
    ∃ r, ((∃ shown, r = Except.ok shown) ↔ ∀ row ∈ rows, ∃ cells, RowShown columns row cells) ∧
      (∀ shown, r = .ok shown → List.Forall₂ (fun row s => row.map Stored.present = present ∧ RowShown columns row s.cells) rows shown) ∧
      parseEvent m st header slice = match r with
        | .ok shown => (.ok ((if kind = 0 then BinlogEvent.writeRows else .deleteRows) ⟨tableId, flags, columns.length, present, shown⟩), st)
        | .error e => (.err e, st) := by
  cases hb with
  | mk hn hh hbm hr =>
    obtain ⟨srows, h1, h2, h3, h4⟩ := storedRows_server hr
    obtain ⟨r, hr', _, hw, hd⟩ := C112_write_and_delete_partial m st header hv hc ht hlen (.inl hp) (.mk hn hh hbm h1) hs
    refine ⟨r, ⟨?_, fun h => ?_⟩, ?_, ?_⟩
    · rintro ⟨shown, rfl⟩ row hm
      have := h3 _ hr'
      clear * - this hm
      induction this with
      | nil => simp at hm
      | cons h _ ih =>
        rcases List.mem_cons.1 hm with rfl | hm
        · exact ⟨_, h.2⟩
        · exact ih hm
    · cases r with
      | ok shown => exact ⟨_, rfl⟩
      | error e => exact absurd hr' (h4 _ h)
    · rintro shown rfl
      exact h3 _ hr'
    · rcases hk with rfl | rfl
      · exact hw he
      · exact hd he

theorem storedUpdates_result (m : Mode) {st : EventParser} {header : EventHeader} {version : Nat} {columns : List (UInt8 × Nat)}
    {tableId flags : Nat} {before after : List Bool} {rows : List (List Stored × List Stored)} {body slice : Bytes} {table : TableMapEvent}
    (hv : version = 1 ∨ version = 2) (hc : st.tableMap.get? tableId = some table) (ht : Describes table columns)
    (hlen : columns.length < 2 ^ 63) (hp : true ∈ before) (hb : StoredUpdates version columns tableId flags before after rows body)
    (hs : WithChecksum st.checksumType body slice) (he : header.eventType = rowEventCode version 1) :
    ∃ r, ((∃ shown, r = Except.ok shown) ↔ ∀ pair ∈ rows, (∃ cells, RowShown columns pair.1 cells) ∧ ∃ cells, RowShown columns pair.2 cells) ∧
      (∀ shown, r = .ok shown → List.Forall₂ (fun pair s => (pair.1.map Stored.present = before ∧ RowShown columns pair.1 s.beforeUpdate.cells) ∧
        (pair.2.map Stored.present = after ∧ RowShown columns pair.2 s.afterUpdate.cells)) rows shown) ∧
      parseEvent m st header slice = match r with
        | .ok shown => (.ok (.updateRows ⟨tableId, flags, columns.length, before, after, shown⟩), st)
        | .error e => (.err e, st) := by
  cases hb with
  | mk hn1 hn2 hh hb1 hb2 hr =>
    obtain ⟨srows, h1, h2, h3, h4⟩ := storedUpdates_server hr
    obtain ⟨r, hr', _, hw⟩ := C112_update_partial m st header hv hc ht hlen (.inl hp) (.mk hn1 hn2 hh hb1 hb2 h1) hs he
    refine ⟨r, ⟨?_, fun h => ?_⟩, ?_, hw⟩
    · rintro ⟨shown, rfl⟩ row hm
      have := h3 _ hr'
      clear * - this hm
      induction this with
      | nil => simp at hm
      | cons h _ ih =>
        rcases List.mem_cons.1 hm with rfl | hm
        · exact ⟨⟨_, h.1.2⟩, ⟨_, h.2.2⟩⟩
        · exact ih hm
    · cases r with
      | ok shown => exact ⟨_, rfl⟩
      | error e => exact absurd hr' (h4 _ h)
    · rintro shown rfl
      exact h3 _ hr'

/-! ## Bags of rows -/

/-- A bag of rows is shown by a list of shown rows. -/
def BagShown (columns : List (UInt8 × Nat)) (rows : List (List Stored)) (copy : List (List (Option MySqlValue))) : Prop :=
  ∃ shown, List.Forall₂ (fun row cells => Stored.absent ∉ row ∧ RowShown columns row cells) rows shown ∧ shown.Perm copy

theorem BagShown.perm {columns : List (UInt8 × Nat)} {rows rows' : List (List Stored)} {copy : List (List (Option MySqlValue))}
    (h : BagShown columns rows copy) (hp : rows'.Perm rows) : BagShown columns rows' copy := by
  obtain ⟨shown, h1, h2⟩ := h
  obtain ⟨shown', h3, h4⟩ := List.perm_comp_forall₂ hp h1
  exact ⟨shown', h3, h4.trans h2⟩

theorem BagShown.append {columns : List (UInt8 × Nat)} {rows new : List (List Stored)} {copy shown : List (List (Option MySqlValue))}
    (h : BagShown columns rows copy) (hn : List.Forall₂ (fun row cells => Stored.absent ∉ row ∧ RowShown columns row cells) new shown) :
    BagShown columns (rows ++ new) (copy ++ shown) := by
  obtain ⟨s, h1, h2⟩ := h
  exact ⟨s ++ shown, List.rel_append h1 hn, h2.append_right _⟩

theorem BagShown.erase {columns : List (UInt8 × Nat)} {row : List Stored} {rows : List (List Stored)} {copy : List (List (Option MySqlValue))}
    {cells : List (Option MySqlValue)} (h : BagShown columns (row :: rows) copy) (hr : RowShown columns row cells) :
    BagShown columns rows (copy.erase cells) := by
  obtain ⟨s, h1, h2⟩ := h
  cases h1 with
  | @cons _ x _ s h3 h4 =>
    have := rowShown_unique h3.2 hr
    subst this
    refine ⟨s, h4, ?_⟩
    have := h2.erase x
    rwa [List.erase_cons_head] at this

theorem BagShown.cons {columns : List (UInt8 × Nat)} {row : List Stored} {rows : List (List Stored)} {copy : List (List (Option MySqlValue))}
    {cells : List (Option MySqlValue)} (h : BagShown columns rows copy) (ha : Stored.absent ∉ row) (hr : RowShown columns row cells) :
    BagShown columns (row :: rows) (cells :: copy) := by
  obtain ⟨s, h1, h2⟩ := h
  exact ⟨cells :: s, .cons ⟨ha, hr⟩ h1, h2.cons _⟩

theorem present_absent {row : List Stored} {n : Nat} (h : row.map Stored.present = List.replicate n true) : Stored.absent ∉ row := by
  intro hm
  have : Stored.absent.present ∈ row.map Stored.present := List.mem_map_of_mem hm
  rw [h] at this
  simp [Stored.present] at this

theorem BagShown.deletes {columns : List (UInt8 × Nat)} {rows gone : List (List Stored)} {copy : List (List (Option MySqlValue))}
    {shown : List RowData} {n : Nat} (h : BagShown columns (gone ++ rows) copy)
    (hr : List.Forall₂ (fun row (s : RowData) => row.map Stored.present = List.replicate n true ∧ RowShown columns row s.cells) gone shown) :
    BagShown columns rows (shown.foldl (fun rows r => rows.erase r.cells) copy) := by
  induction hr generalizing copy with
  | nil => exact h
  | cons hx _ ih => exact ih (h.erase hx.2)

theorem BagShown.updates {columns : List (UInt8 × Nat)} {rows rows' : List (List Stored)} {pairs : List (List Stored × List Stored)}
    {copy : List (List (Option MySqlValue))} {shown : List UpdateRowData} {n : Nat} (h : BagShown columns rows copy) (hu : Updated rows pairs rows')
    (hr : List.Forall₂ (fun pair (s : UpdateRowData) => (pair.1.map Stored.present = List.replicate n true ∧ RowShown columns pair.1 s.beforeUpdate.cells) ∧
      (pair.2.map Stored.present = List.replicate n true ∧ RowShown columns pair.2 s.afterUpdate.cells)) pairs shown) :
    BagShown columns rows' (shown.foldl (fun rows u => u.afterUpdate.cells :: rows.erase u.beforeUpdate.cells) copy) := by
  induction hu generalizing copy shown with
  | nil hp => cases hr; exact h.perm hp.symm
  | cons hp _ ih =>
    cases hr with
    | cons hx hr =>
      have := ih (((h.perm hp.symm).erase hx.1.2).cons (present_absent hx.2.1) hx.2.2) hr
      exact this

/-! ## One record -/

/-- The log has given the columns of every table that it has named. -/
def Spec.Server.Named (columns : TableName → List (UInt8 × Nat)) (s : Server) : Prop :=
  ∀ id table, s.names id = some table → s.log.columns id = some (columns table)

theorem written_log {st st' : LogState} {e : Ev} {slice : Bytes} (h : Written st e slice st') (he : NoRows e.2) : st'.columns = st.columns := by
  cases h with
  | tableMap => exact he.elim
  | _ => rfl

theorem plain_no_tableMap {code : Nat} {t : TableMapEvent} {body : Bytes} : ¬PlainBody code (.tableMap t) body := by
  intro h
  cases h

theorem maria_no_tableMap {h : EventHeader} {code : Nat} {t : TableMapEvent} {body : Bytes} : ¬MariaBody h code (.tableMap t) body := by
  intro h
  cases h

theorem written_tableMap {st st' : LogState} {h : EventHeader} {t : TableMapEvent} {slice : Bytes} {columns : List (UInt8 × Nat)}
    (hw : Written st (h, .tableMap t) slice st') (hd : Describes t columns) : st' = st.announce t.tableId columns := by
  have key : ∀ {e : Ev}, Written st e slice st' → e.2 = .tableMap t → st' = st.announce t.tableId columns := by
    intro e hw he
    cases hw with
    | @plain h e _ _ hb =>
      simp only at he
      subst he
      exact (plain_no_tableMap hb).elim
    | @maria h e _ _ hb =>
      simp only at he
      subst he
      exact (maria_no_tableMap hb).elim
    | tableMap =>
      simp only [BinlogEvent.tableMap.injEq] at he
      subst he
      rw [describes_unique hd ⟨rfl, rfl⟩]
    | _ => simp at he
  exact key hw rfl

theorem Spec.Shows.sets {columns : TableName → List (UInt8 × Nat)} {s s' : Server} {c : Kept} (h : Shows columns s c) {id : Nat} {table : TableName}
    {rows : List (List Stored)} {f : List (List (Option MySqlValue)) → List (List (Option MySqlValue))} (hid : s.names id = some table)
    (hs : s.Sets table rows s') (hf : BagShown (columns table) (s.rows table) (c.rows table) → BagShown (columns table) rows (f (c.rows table))) :
    Shows columns s' (c.onTable id f) := by
  subst hs
  have : c.onTable id f = { c with rows := fun t => if t = table then f (c.rows t) else c.rows t } := by
    unfold Kept.onTable
    rw [h.names, hid]
  rw [this]
  refine ⟨h.names, fun t => ?_⟩
  simp only
  by_cases ht : t = table
  · rw [if_pos ht, if_pos ht]
    subst ht
    exact hf (h.rows t)
  · rw [if_neg ht, if_neg ht]
    exact h.rows t

/-- What becomes of one record: it is decoded, and then the copy shows what the server has then; or it is refused, because of a value the library
has no form for. -/
theorem change_decoded {columns : TableName → List (UInt8 × Nat)} (hcol : ∀ t, columns t ≠ []) {s s' : Server} {record : EventHeader × Bytes}
    {images : List (TableName × List Stored)} (h : Change columns s record images s') (m : Mode) {p : EventParser} (k : Knows s.log p)
    (hn : s.Named columns) :
    ∃ (r : Except Err BinlogEvent) (p' : EventParser), parseEvent m p record.1 record.2 = (match r with | .ok e => .ok e | .error e => .err e, p') ∧
      Knows s'.log p' ∧ s'.Named columns ∧ ((∃ e, r = .ok e) ↔ ∀ i ∈ images, ∃ cells, RowShown (columns i.1) i.2 cells) ∧
      ∀ e c, r = .ok e → Shows columns s c → Shows columns s' (c.take e) := by
  have full : ∀ table, true ∈ List.replicate (columns table).length true := fun table => by
    have := hcol table
    simp [this]
  cases h with
  | @announce h slice t log hw hd =>
    obtain ⟨p', h1, h2⟩ := k.decode m hw
    refine ⟨.ok _, p', h1, h2, ?_, by simp, ?_⟩
    · intro id table hid
      have := written_tableMap hw hd
      subst this
      simp only [LogState.announce] at hid ⊢
      split at hid
      · next he =>
        rw [if_pos he]
        simp only [Option.some.injEq] at hid
        rw [← hid]
      · next he =>
        rw [if_neg he]
        exact hn _ _ hid
    · rintro e c ⟨⟩ hc
      exact ⟨by simp only [Kept.take, hc.names], hc.rows⟩
  | @insert h body slice version tableId flags table rows rows' _ ht hid hb hs hr hs' =>
    obtain ⟨h1, t, h2, h3⟩ := k.tables _ _ (hn _ _ hid)
    obtain ⟨r, g1, g2, g3⟩ := storedRows_result (kind := 0) (header := h) m (by tauto) (.inl rfl) h2 h3 h1 (full table) hb (k.checksum ▸ hs)
      (by rcases ht with ⟨rfl, ht⟩ | ⟨rfl, ht⟩ <;> exact ht)
    have hlog : s'.log = s.log ∧ s'.names = s.names := by
      cases hs'
      exact ⟨rfl, rfl⟩
    refine ⟨r.map fun shown => .writeRows ⟨tableId, flags, (columns table).length, List.replicate (columns table).length true, shown⟩, p, ?_, hlog.1 ▸ k, ?_, ?_, ?_⟩
    · rw [g3]
      cases r <;> rfl
    · intro id table hid
      rw [hlog.1]
      exact hn _ _ (hlog.2 ▸ hid)
    · simp only [List.mem_map, forall_exists_index, and_imp, forall_apply_eq_imp_iff₂]
      rw [← g1]
      cases r <;> simp [Except.map]
    · intro e c he hc
      cases r with
      | error => simp [Except.map] at he
      | ok shown =>
        simp only [Except.map, Except.ok.injEq] at he
        subst he
        refine hc.sets (f := fun rows => rows ++ shown.map (·.cells)) hid hs' fun hbag => ?_
        refine (hbag.append ?_).perm hr
        rw [List.forall₂_map_right_iff]
        exact (g2 _ rfl).imp fun _ _ h => ⟨present_absent h.1, h.2⟩
  | @delete h body slice version tableId flags table rows rows' _ ht hid hb hs hr hs' =>
    obtain ⟨h1, t, h2, h3⟩ := k.tables _ _ (hn _ _ hid)
    obtain ⟨r, g1, g2, g3⟩ := storedRows_result (kind := 2) (header := h) m (by tauto) (.inr rfl) h2 h3 h1 (full table) hb (k.checksum ▸ hs)
      (by rcases ht with ⟨rfl, ht⟩ | ⟨rfl, ht⟩ <;> exact ht)
    have hlog : s'.log = s.log ∧ s'.names = s.names := by
      cases hs'
      exact ⟨rfl, rfl⟩
    refine ⟨r.map fun shown => .deleteRows ⟨tableId, flags, (columns table).length, List.replicate (columns table).length true, shown⟩, p, ?_, hlog.1 ▸ k, ?_, ?_, ?_⟩
    · rw [g3]
      cases r <;> rfl
    · intro id table hid
      rw [hlog.1]
      exact hn _ _ (hlog.2 ▸ hid)
    · simp only [List.mem_map, forall_exists_index, and_imp, forall_apply_eq_imp_iff₂]
      rw [← g1]
      cases r <;> simp [Except.map]
    · intro e c he hc
      cases r with
      | error => simp [Except.map] at he
      | ok shown =>
        simp only [Except.map, Except.ok.injEq] at he
        subst he
        exact hc.sets (f := fun rows => shown.foldl (fun rows r => rows.erase r.cells) rows) hid hs' fun hbag => (hbag.perm (List.perm_append_comm.trans hr.symm)).deletes (g2 _ rfl)
  | @update h body slice version tableId flags table pairs rows' _ ht hid hb hs hr hs' =>
    obtain ⟨h1, t, h2, h3⟩ := k.tables _ _ (hn _ _ hid)
    obtain ⟨r, g1, g2, g3⟩ := storedUpdates_result (header := h) m (by tauto) h2 h3 h1 (full table) hb (k.checksum ▸ hs)
      (by rcases ht with ⟨rfl, ht⟩ | ⟨rfl, ht⟩ <;> exact ht)
    have hlog : s'.log = s.log ∧ s'.names = s.names := by
      cases hs'
      exact ⟨rfl, rfl⟩
    refine ⟨r.map fun shown => .updateRows ⟨tableId, flags, (columns table).length, List.replicate (columns table).length true,
      List.replicate (columns table).length true, shown⟩, p, ?_, hlog.1 ▸ k, ?_, ?_, ?_⟩
    · rw [g3]
      cases r <;> rfl
    · intro id table hid
      rw [hlog.1]
      exact hn _ _ (hlog.2 ▸ hid)
    · have : (∀ i ∈ pairs.flatMap fun p => [(table, p.1), (table, p.2)], ∃ cells, RowShown (columns i.1) i.2 cells) ↔
          ∀ pair ∈ pairs, (∃ cells, RowShown (columns table) pair.1 cells) ∧ ∃ cells, RowShown (columns table) pair.2 cells := by
        constructor
        · intro h pair hm
          exact ⟨h (table, pair.1) (by simp only [List.mem_flatMap]; exact ⟨pair, hm, by simp⟩),
            h (table, pair.2) (by simp only [List.mem_flatMap]; exact ⟨pair, hm, by simp⟩)⟩
        · intro h i hi
          simp only [List.mem_flatMap, List.mem_cons, List.not_mem_nil, or_false] at hi
          obtain ⟨pair, hm, rfl | rfl⟩ := hi
          · exact (h pair hm).1
          · exact (h pair hm).2
      rw [this, ← g1]
      cases r <;> simp [Except.map]
    · intro e c he hc
      cases r with
      | error => simp [Except.map] at he
      | ok shown =>
        simp only [Except.map, Except.ok.injEq] at he
        subst he
        exact hc.sets (f := fun rows => shown.foldl (fun rows u => u.afterUpdate.cells :: rows.erase u.beforeUpdate.cells) rows) hid hs'
          fun hbag => hbag.updates hr (g2 _ rfl)
  | @other h e slice log hw he =>
    obtain ⟨p', h1, h2⟩ := k.decode m hw
    refine ⟨.ok _, p', h1, h2, ?_, by simp, ?_⟩
    · intro id table hid
      simp only [written_log hw he]
      exact hn _ _ hid
    · rintro e' c ⟨⟩ hc
      have : c.take e = c := by
        cases e <;> first | rfl | exact he.elim
      rw [this]
      exact ⟨hc.names, hc.rows⟩

/-! ## The property -/

/-- C120. Iterating over the stream in which a server sends the records of what it does gives one item per record. If none is an error, a copy
that showed the server's tables before, and to which was done what the events say, shows them after. An item is an error exactly if the record
has a value for which the library has no form: so none is, exactly if all values that the log shows have one. -/
theorem C120_copy (m : Mode) {columns : TableName → List (UInt8 × Nat)} (hcol : ∀ t, columns t ≠ []) {server server' : Server}
    {records : List (EventHeader × Bytes)} {images : List (TableName × List Stored)} (h : Changes columns server records images server')
    (s : BinlogEvents) (k : Knows server.log s.parser) (hn : server.Named columns) (n : Nat) (rest : Bytes)
    (hsize : ∀ r ∈ records, r.2.length < 2 ^ 24 - 20) (hi : s.channel.input = frames (recordPackets n records) ++ rest) :
    ∃ items s', s.Yields m items s' ∧ s'.channel.input = rest ∧ items.length = records.length ∧
      ((∃ events : List Ev, items = events.map .ok) ↔ ∀ i ∈ images, ∃ cells, RowShown (columns i.1) i.2 cells) ∧
      ∀ (events : List Ev) c, items = events.map .ok → Shows columns server c → Shows columns server' (c.takeAll events) := by
  induction h generalizing s n with
  | nil =>
    refine ⟨[], s, .nil, hi, rfl, ⟨fun _ => by simp, fun _ => ⟨[], rfl⟩⟩, fun events c he hc => ?_⟩
    cases events with
    | nil => exact hc
    | cons _ _ => simp at he
  | @cons w w1 w2 record records images images' hf h _ ih =>
    obtain ⟨r, p', g1, g2, g3, g4, g5⟩ := change_decoded hcol h m k hn
    simp only [recordPackets, frames, List.append_assoc] at hi
    have hx := hsize record (by simp)
    obtain ⟨ch, h3, h4⟩ := next_event m s record.1 record.2 _ (n % 256) hf (by omega) (by omega) hi
    rw [g1] at h4
    obtain ⟨items, s', i1, i2, i3, i4, i5⟩ := ih ⟨ch, p'⟩ g2 g3 (n + 1) (fun x hx => hsize x (by simp [hx])) h3
    refine ⟨(r.map fun e => (record.1, e)) :: items, s', .item (h4.trans ?_) i1, i2, by simp [i3], ?_, ?_⟩
    · cases r <;> rfl
    · simp only [List.mem_append]
      constructor
      · rintro ⟨events, he⟩ i hi
        cases events with
        | nil => simp at he
        | cons e events =>
          simp only [List.map_cons, List.cons.injEq] at he
          rcases hi with hi | hi
          · refine g4.1 ?_ i hi
            cases r with
            | ok e => exact ⟨_, rfl⟩
            | error e => simp [Except.map] at he
          · exact i4.1 ⟨_, he.2⟩ i hi
      · intro hall
        obtain ⟨e, rfl⟩ := g4.2 fun i hi => hall i (.inl hi)
        obtain ⟨events, rfl⟩ := i4.2 fun i hi => hall i (.inr hi)
        exact ⟨(record.1, e) :: events, rfl⟩
    · intro events c he hc
      cases events with
      | nil => simp at he
      | cons e events =>
        simp only [List.map_cons, List.cons.injEq] at he
        cases r with
        | error e => simp [Except.map] at he
        | ok e' =>
          simp only [Except.map, Except.ok.injEq] at he
          obtain ⟨rfl, he⟩ := he
          have := i5 _ _ he (g5 _ _ rfl hc)
          exact this

/-- C120 from the greeting on: `replicate()` lets the client in, and the copy of the tables taken before is kept up to date by the events of its
stream. -/
theorem C120_session (m : Mode) (c : Crypto) (client : Client) (chan : Channel) (hu : Usable c client.options)
    (hw : chan.writes = []) (mariaDb : Prop) (asked : Option (RStr × Nat)) (checksum : ChecksumType) (bytes : Bytes)
    (hin : LetsIn c client.options mariaDb asked checksum bytes)
    (hasked : asked.isSome ↔ client.options.binlog.startingStrategy = .fromEnd ∧ client.options.binlog.filename = [])
    (hgtid : client.options.binlog.startingStrategy = .fromGtid →
      (mariaDb ∧ client.options.binlog.gtidList.isSome) ∨ (¬ mariaDb ∧ client.options.binlog.gtidSet.isSome))
    {columns : TableName → List (UInt8 × Nat)} (hcol : ∀ t, columns t ≠ []) {rows : TableName → List (List Stored)} {server' : Server}
    {records : List (EventHeader × Bytes)} {images : List (TableName × List Stored)}
    (h : Changes columns ⟨.start checksum, fun _ => none, rows⟩ records images server') (n : Nat) (rest : Bytes)
    (hsize : ∀ r ∈ records, r.2.length < 2 ^ 24 - 20) (hi : chan.input = bytes ++ frames (recordPackets n records) ++ rest) :
    ∃ stream client' items stream', client.replicate m c (.ok chan) = (.ok stream, client') ∧ stream.Yields m items stream' ∧
      stream'.channel.input = rest ∧ items.length = records.length ∧
      ((∃ events : List Ev, items = events.map .ok) ↔ ∀ i ∈ images, ∃ cells, RowShown (columns i.1) i.2 cells) ∧
      ∀ (events : List Ev) copy, items = events.map .ok → Shows columns ⟨.start checksum, fun _ => none, rows⟩ copy →
        Shows columns server' (copy.takeAll events) := by
  cases hin with
  | @mk g greeting way key packets replies oks hg hversion hlen hknown hway haccepts hkey hmaria hanswers hoks =>
    obtain ⟨stream, client', h1, h2, -, h3, -⟩ := C73_replicate_partial m c client chan hu.login hu.requests g (.inl hu.plain) hw greeting hg
      hversion hlen hknown way hway key packets haccepts hkey asked hasked checksum oks replies hanswers (by rw [← hmaria]; exact hoks)
      (by rw [← hmaria]; exact hgtid) (frames (recordPackets n records) ++ rest) (by rw [hi, List.append_assoc])
    obtain ⟨items, stream', h4⟩ := C120_copy m hcol h stream (h3 ▸ Knows.start checksum) (fun _ _ h => by cases h) n rest hsize h2
    exact ⟨stream, client', items, stream', h1, h4⟩

theorem present_full {cs : List (UInt8 × Nat)} {row1 row2 : List Stored} {cells : List (Option MySqlValue)}
    (h1 : Stored.absent ∉ row1 ∧ RowShown cs row1 cells) (h2 : Stored.absent ∉ row2 ∧ RowShown cs row2 cells) :
    row1.map Stored.present = row2.map Stored.present := by
  have len : ∀ {row : List Stored}, RowShown cs row cells → row.length = cells.length := by
    intro row h
    clear h1 h2
    induction h with
    | nil => rfl
    | _ => simp_all
  have full : ∀ {row : List Stored}, Stored.absent ∉ row ∧ RowShown cs row cells → row.map Stored.present = List.replicate cells.length true := by
    intro row h
    rw [← len h.2, List.eq_replicate_iff]
    refine ⟨by simp, fun b hb => ?_⟩
    obtain ⟨x, hx, rfl⟩ := List.mem_map.1 hb
    cases x with
    | absent => exact absurd hx h.1
    | _ => rfl
  rw [full h1, full h2]

/-- C120: a copy says what the server has. Two servers whose tables the same copy shows hold the same rows, up to what is below a millisecond;
if no column holds more, they hold the same. -/
theorem C120_determines {columns : TableName → List (UInt8 × Nat)} {server1 server2 : Server} {c : Kept} (h1 : Shows columns server1 c)
    (h2 : Shows columns server2 c) (t : TableName) :
    (∃ rows, (server1.rows t).Perm rows ∧ List.Forall₂ (RowUpToMillis (columns t)) rows (server2.rows t)) ∧
      (Millis (columns t) → (server1.rows t).Perm (server2.rows t)) := by
  have key : ∃ rows, (server1.rows t).Perm rows ∧ List.Forall₂ (RowUpToMillis (columns t)) rows (server2.rows t) := by
    obtain ⟨s1, a1, b1⟩ := h1.rows t
    obtain ⟨s2, a2, b2⟩ := h2.rows t
    obtain ⟨rows, h3, h4⟩ := (congrFun (congrFun (List.forall₂_comp_perm_eq_perm_comp_forall₂
      (r := fun row cells => Stored.absent ∉ row ∧ RowShown (columns t) row cells)) _) _).mp ⟨s1, a1, b1.trans b2.symm⟩
    refine ⟨rows, h3, forall2_join (fun r1 r2 cells i1 i2 => ?_) h4 a2⟩
    exact rowShown_inj i1.2 i2.2 (present_full i1 i2)
  refine ⟨key, fun hm => ?_⟩
  obtain ⟨rows, h3, h4⟩ := key
  have : rows = server2.rows t := by
    clear h3
    generalize server2.rows t = rows2 at h4
    induction h4 with
    | nil => rfl
    | cons h _ ih => rw [millis_eq h hm, ih]
  exact this ▸ h3

/-! ## An example -/

/-- Every table has an INT and a TINYINT column. -/
def exTwoColumns : TableName → List (UInt8 × Nat) := fun _ => [(3, 0), (1, 0)]

/-- The rows `(258, NULL)` and `(1, 9)`, as they are stored. -/
def exRowA : List Stored := [.bytes [2, 1, 0, 0], .null]
def exRowB : List Stored := [.bytes [1, 0, 0, 0], .bytes [9]]

/-- The rows as the library shows them. -/
def exCellsA : List (Option MySqlValue) := [some (.int 258), none]
def exCellsB : List (Option MySqlValue) := [some (.int 1), some (.tinyInt 9)]

theorem exRowA_shown : RowShown [(3, 0), (1, 0)] exRowA exCellsA :=
  .bytes (v := .value (.int 258)) (.value (.number (.long (n := 258) (by decide)))) .value (.null .nil)

theorem exRowB_shown : RowShown [(3, 0), (1, 0)] exRowB exCellsB :=
  .bytes (v := .value (.int 1)) (.value (.number (.long (n := 1) (by decide)))) .value
    (.bytes (v := .value (.tinyInt 9)) (.value (.number (.tiny (n := 9) (by decide)))) .value .nil)

theorem exRowA_image : StoredImage [(3, 0), (1, 0)] [true, true] exRowA ([2] ++ [2, 1, 0, 0]) :=
  ⟨rfl, .bytes (v := .value (.int 258)) (.value (.number (.long (n := 258) (by decide)))) (.null .nil), [2],
    show BitmapLE [false, true] [2] from bitmapLE_of_check rfl (by decide), rfl⟩

theorem exRowB_image : StoredImage [(3, 0), (1, 0)] [true, true] exRowB ([0] ++ [1, 0, 0, 0, 9]) :=
  ⟨rfl, .bytes (v := .value (.int 1)) (.value (.number (.long (n := 1) (by decide))))
    (.bytes (v := .value (.tinyInt 9)) (.value (.number (.tiny (n := 9) (by decide)))) .nil), [0],
    show BitmapLE [false, false] [0] from bitmapLE_of_check rfl (by decide), rfl⟩

theorem exTable_rows {rows : List (List Stored)} {data : Bytes} (h : Each (StoredImage [(3, 0), (1, 0)] [true, true]) rows data) :
    StoredRows 2 [(3, 0), (1, 0)] 7 1 [true, true] rows (exTextHead ++ [3] ++ data) :=
  .mk rfl (.v2 (extra := []) (count := [2]) (by decide) (by decide) (by decide) (lenEnc_one (by decide) rfl))
    (bitmapLE_of_check rfl (by decide)) h

/-- The table `db.t`. -/
def exTableName : TableName := ("db".toList, "t".toList)

/-- A server with these rows in its table and none in others. -/
def exHolder (log : LogState) (names : Nat → Option TableName) (rows : List (List Stored)) : Server :=
  ⟨log, names, fun t => if t = exTableName then rows else []⟩

/-- The log: the table is named; two rows are inserted; one is deleted; the other is updated. -/
def exChanges : List (EventHeader × Bytes) :=
  [(exTyped 19, exTableMap ++ exSum), (exTyped 30, exTextHead ++ [3] ++ ([2, 2, 1, 0, 0] ++ ([0, 1, 0, 0, 0, 9] ++ [])) ++ exSum),
    (exTyped 32, exTextHead ++ [3] ++ ([2, 2, 1, 0, 0] ++ []) ++ exSum),
    (exTyped 31, exTextHead ++ [3] ++ [3] ++ (([0, 1, 0, 0, 0, 9] ++ [2, 2, 1, 0, 0]) ++ []) ++ exSum)]

theorem exTable_update : StoredUpdates 2 [(3, 0), (1, 0)] 7 1 [true, true] [true, true] [(exRowB, exRowA)]
    (exTextHead ++ [3] ++ [3] ++ (([0, 1, 0, 0, 0, 9] ++ [2, 2, 1, 0, 0]) ++ [])) :=
  .mk rfl rfl (.v2 (extra := []) (count := [2]) (by decide) (by decide) (by decide) (lenEnc_one (by decide) rfl))
    (bitmapLE_of_check rfl (by decide)) (bitmapLE_of_check rfl (by decide)) (.cons ⟨_, _, exRowB_image, exRowA_image, rfl⟩ .nil)

theorem exHolder_sets {log : LogState} {names : Nat → Option TableName} {rows rows' : List (List Stored)} :
    (exHolder log names rows).Sets exTableName rows' (exHolder log names rows') := by
  unfold Server.Sets exHolder
  congr
  funext t
  by_cases h : t = exTableName <;> simp [h]

theorem exChanges_made : ∃ log names images, Changes exTwoColumns (exHolder (.start .crc32) (fun _ => none) [exRowA]) exChanges images
    (exHolder log names [exRowA, exRowA]) ∧ ∀ i ∈ images, ∃ cells, RowShown (exTwoColumns i.1) i.2 cells := by
  have sum : ∀ body, WithChecksum .crc32 body (body ++ exSum) := fun body => ⟨exSum, rfl, rfl⟩
  have hA : ∃ cells, RowShown [(3, 0), (1, 0)] exRowA cells := ⟨_, exRowA_shown⟩
  have hB : ∃ cells, RowShown [(3, 0), (1, 0)] exRowB cells := ⟨_, exRowB_shown⟩
  refine ⟨_, _, _, .cons (by unfold HeaderFits; decide) (.announce (t := ⟨7, "db".toList, "t".toList, [3, 1], [0, 0], [false, true], none⟩)
    (.tableMap (columns := [(3, 0), (1, 0)]) rfl exTableMap_body (sum _) (.inl ⟨rfl, rfl⟩)) ⟨rfl, rfl⟩)
    (.cons (by unfold HeaderFits; decide) (.insert (version := 2) (tableId := 7) (flags := 1) (table := exTableName)
      (rows := [exRowA, exRowB]) (rows' := [exRowB, exRowA, exRowA]) (.inr ⟨rfl, rfl⟩) rfl
      (exTable_rows (.cons exRowA_image (.cons exRowB_image .nil))) (sum _) ?_ exHolder_sets)
    (.cons (by unfold HeaderFits; decide) (.delete (version := 2) (tableId := 7) (flags := 1) (table := exTableName)
      (rows := [exRowA]) (rows' := [exRowB, exRowA]) (.inr ⟨rfl, rfl⟩) rfl
      (exTable_rows (.cons exRowA_image .nil)) (sum _) ?_ exHolder_sets)
    (.cons (by unfold HeaderFits; decide) (.update (version := 2) (tableId := 7) (flags := 1) (table := exTableName)
      (pairs := [(exRowB, exRowA)]) (rows' := [exRowA, exRowA]) (.inr ⟨rfl, rfl⟩) rfl
      exTable_update
      (sum _) (.cons (rest := [exRowA]) (show [exRowB, exRowA].Perm _ from .refl _) (.nil (.refl _))) exHolder_sets) .nil))), ?_⟩
  · decide +kernel
  · decide +kernel
  · simp only [List.map_cons, List.map_nil, List.flatMap_cons, List.flatMap_nil, List.append_nil, List.nil_append, List.cons_append,
      List.mem_cons, List.not_mem_nil, or_false, forall_eq_or_imp, forall_eq]
    exact ⟨hA, hB, hA, hB, hA⟩

/-- `C120_session` applies: the stream of a client that a MySQL server lets in. -/
example (m : Mode) : ∃ bytes stream client' items stream', exGtidUser.replicate m exCrypto (.ok { exChannel [] with input := bytes }) = (.ok stream, client') ∧
    stream.Yields m items stream' ∧ items.length = 4 ∧ ∃ events : List Ev, items = events.map .ok := by
  obtain ⟨log, names, images, h1, h2⟩ := exChanges_made
  obtain ⟨stream, client', items, stream', h3, h4, -, h5, h6, -⟩ := C120_session m exCrypto exGtidUser { exChannel [] with input := _ } exGtidUser_usable
    rfl False none .crc32 _ (exGtidUser_in _) (by simp [exGtidUser, exUser, BinlogOptions.fromMysqlGtid]) (fun _ => .inr ⟨not_false, rfl⟩) (fun _ => by simp [exTwoColumns]) h1 1 []
    (by decide +kernel) rfl
  exact ⟨_, stream, client', items, stream', h3, h4, h5, h6.2 h2⟩

/-- `C120_copy` applies: the copy of that table had the row `(258, NULL)` and then has it twice. -/
example (m : Mode) (s : BinlogEvents) (hs : s.parser = ⟨.crc32, []⟩) (hi : s.channel.input = frames (recordPackets 1 exChanges)) :
    ∃ (events : List Ev) (s' : BinlogEvents), s.Yields m (events.map .ok) s' ∧ events.length = 4 ∧
      (((⟨fun _ => none, fun t => if t = exTableName then [exCellsA] else []⟩ : Kept).takeAll events).rows exTableName).Perm [exCellsA, exCellsA] := by
  obtain ⟨log, names, images, h1, h2⟩ := exChanges_made
  obtain ⟨items, s', g1, -, g2, g3, g4⟩ := C120_copy m (fun _ => by simp [exTwoColumns]) h1 s (hs ▸ Knows.start .crc32)
    (fun _ _ h => by cases h) 1 [] (by decide +kernel) (by rw [hi, List.append_nil])
  obtain ⟨events, rfl⟩ := g3.2 h2
  refine ⟨events, s', g1, by simpa [exChanges] using g2, ?_⟩
  have hshow : Shows exTwoColumns (exHolder (.start .crc32) (fun _ => none) [exRowA])
      ⟨fun _ => none, fun t => if t = exTableName then [exCellsA] else []⟩ := by
    refine ⟨rfl, fun t => ?_⟩
    simp only [exHolder]
    by_cases ht : t = exTableName
    · rw [if_pos ht, if_pos ht]
      exact ⟨_, .cons ⟨by decide, exRowA_shown⟩ .nil, .refl _⟩
    · rw [if_neg ht, if_neg ht]
      exact ⟨_, .nil, .refl _⟩
  obtain ⟨shown, i1, i2⟩ := (g4 events _ rfl hshow).rows exTableName
  simp only [exHolder, if_true] at i1
  cases i1 with
  | cons a i1 => cases i1 with
    | cons b i1 =>
      cases i1
      rw [rowShown_unique a.2 exRowA_shown, rowShown_unique b.2 exRowA_shown] at i2
      exact i2.symm

end MysqlCdc
