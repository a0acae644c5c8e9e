import Verif.Props.Decoder
import Verif.Props.MapOrder
/-!
# The events of a table are decoded without regard to the events of other tables: C132
-/

namespace MysqlCdc

open Spec

/-- An event about one of the tables `X`: a table map (type 19) or rows, whose first six bytes are the number of the table. -/
def AboutTables (X : Nat → Bool) (e : EventHeader × Bytes) : Bool :=
  decide (e.1.eventType ∈ 19 :: rowTypes) && X (leVal (e.2.take 6))

/-- Decoders that may have different maps of the tables `X`. -/
structure AgreeOff (X : Nat → Bool) (a b : EventParser) : Prop where
  checksum : a.checksumType = b.checksumType
  tables : ∀ id, X id = false → a.tableMap.get? id = b.tableMap.get? id

theorem Spec.eventBody_ok {c : ChecksumType} {p body : Bytes} (h : eventBody c p = .ok body) : ∃ rest, p = body ++ rest := by
  unfold eventBody at h
  cases c with
  | none => cases h; exact ⟨[], by simp⟩
  | crc32 =>
    simp only at h
    split at h
    · cases h; exact ⟨_, (List.take_append_drop _ p).symm⟩
    · cases h

theorem parseTableMap_id {body : Bytes} {r : TableMapEvent × Nat} (h : parseTableMap body 0 = .ok r) :
    6 ≤ body.length ∧ r.1.tableId = leVal (body.take 6) := by
  unfold parseTableMap at h
  rw [P.seq_apply, uLE6_run] at h
  split at h
  · rename_i hl
    refine ⟨hl, ?_⟩
    generalize leVal (body.take 6) = id at h ⊢
    simp only [Res.bind] at h
    revert h
    generalize hp : (P.seekCur 2 >>= _ : P TableMapEvent) = p
    intro h
    have : Gives (fun t => t.tableId = id) p := by
      rw [← hp]
      refine .bind fun _ => .bind fun _ => .bind fun _ => .bind fun _ => .bind fun _ => .bind fun _ => .bind fun _ => .bind fun _ =>
        .bind fun _ => .bind fun _ => .bind fun _ => .bind fun _ => .bind fun more => ?_
      cases more
      · exact .ret rfl
      · exact .bind fun _ => .ret rfl
    exact this _ _ _ _ h
  · simp at h

theorem tableMap_id {m : Mode} {tables : TableMapCache} {h : EventHeader} {body rest : Bytes} {t : TableMapEvent}
    (he : (dispatchEvent m tables h).run body = .ok (.tableMap t)) : h.eventType = 19 ∧ t.tableId = leVal ((body ++ rest).take 6) := by
  have other : ∀ p : P BinlogEvent, Gives (fun e => ∀ t, e ≠ .tableMap t) p → p.run body ≠ .ok (.tableMap t) := by
    intro p hp e
    unfold P.run at e
    cases hr : p body 0 with
    | ok r => rw [hr] at e; simp at e; exact hp _ _ _ _ hr t e
    | _ => rw [hr] at e; simp at e
  unfold dispatchEvent at he
  cases hk : EventType.fromCode h.eventType with
  | tableMap =>
    rw [hk] at he
    refine ⟨?_, ?_⟩
    · revert hk
      generalize h.eventType = code
      unfold EventType.fromCode
      split <;> simp
    · simp only [P.run, P.seq_apply] at he
      cases hr : parseTableMap body 0 with
      | ok r =>
        rw [hr] at he
        simp at he
        obtain ⟨h1, h2⟩ := parseTableMap_id hr
        rw [← he, h2, List.take_append_of_le_length h1]
      | _ => rw [hr] at he; simp at he
  | _ =>
    rw [hk] at he
    first
    | exact absurd he (other _ (.bind fun _ => .ret (by simp)))
    | exact absurd he (other _ (.ret (by simp)))

theorem dispatch_notRows (m : Mode) (a b : TableMapCache) {h : EventHeader} (ht : h.eventType ∉ rowTypes) :
    dispatchEvent m a h = dispatchEvent m b h := by
  have hk : EventType.fromCode h.eventType ∉ [EventType.writeRowsV1, .updateRowsV1, .deleteRowsV1, .mySqlWriteRowsV2, .mySqlUpdateRowsV2,
      .mySqlDeleteRowsV2] := by
    revert ht
    generalize h.eventType = code
    unfold EventType.fromCode rowTypes
    split <;> simp_all
  unfold dispatchEvent
  revert hk
  cases EventType.fromCode h.eventType <;> intro hk <;> first | rfl | simp at hk

theorem rows_notFormat {m : Mode} {tables : TableMapCache} {h : EventHeader} {body : Bytes} {x : FormatDescriptionEvent}
    (ht : h.eventType ∈ 19 :: rowTypes) (he : (dispatchEvent m tables h).run body = .ok (.formatDescription x)) : False := by
  have other : ∀ p : P BinlogEvent, Gives (fun e => ∀ t, e ≠ .formatDescription t) p → p.run body ≠ .ok (.formatDescription x) := by
    intro p hp e
    unfold P.run at e
    cases hr : p body 0 with
    | ok r => rw [hr] at e; simp at e; exact hp _ _ _ _ hr x e
    | _ => rw [hr] at e; simp at e
  unfold dispatchEvent at he
  simp only [rowTypes, List.mem_cons, List.not_mem_nil, or_false] at ht
  rcases ht with ht | ht | ht | ht | ht | ht | ht <;> rw [ht] at he <;>
    exact absurd he (other _ (.bind fun _ => .ret (by simp)))

theorem answer_apart (m : Mode) (X : Nat → Bool) {a b : EventParser} (hab : AgreeOff X a b) (h : EventHeader) (p : Bytes)
    (hx : AboutTables X (h, p) = false) :
    (parseEvent m a h p).1 = (parseEvent m b h p).1 ∧ AgreeOff X (parseEvent m a h p).2 (parseEvent m b h p).2 := by
  have key : ∀ body, eventBody b.checksumType p = .ok body →
      (dispatchEvent m a.tableMap h).run body = (dispatchEvent m b.tableMap h).run body := by
    intro body hb
    obtain ⟨rest, rfl⟩ := eventBody_ok hb
    by_cases ht : h.eventType ∈ rowTypes
    · by_cases hs : body.length < 6
      · rw [dispatch_rows_short m _ h body ht hs, dispatch_rows_short m _ h body ht hs]
      · refine dispatch_rows_congr m _ _ h body ht (hab.tables _ ?_)
        simpa [AboutTables, ht, List.take_append_of_le_length (show 6 ≤ body.length by omega)] using hx
    · rw [dispatch_notRows m a.tableMap b.tableMap ht]
  unfold parseEvent
  rw [hab.checksum]
  cases hb : eventBody b.checksumType p with
  | ok body =>
    simp only
    rw [key body hb]
    cases (dispatchEvent m b.tableMap h).run body with
    | ok e =>
      refine ⟨rfl, ?_⟩
      cases e with
      | tableMap t => exact ⟨hab.checksum, fun id hid => by simp only [EventParser.record, HMap.get?_insert, hab.tables id hid]⟩
      | formatDescription x => exact ⟨rfl, hab.tables⟩
      | _ => exact hab
    | _ => exact ⟨rfl, hab⟩
  | _ => exact ⟨rfl, hab⟩

theorem state_apart (m : Mode) (X : Nat → Bool) {a b : EventParser} (hab : AgreeOff X a b) (h : EventHeader) (p : Bytes)
    (hx : AboutTables X (h, p) = true) : AgreeOff X (parseEvent m a h p).2 b := by
  unfold AboutTables at hx
  simp only [Bool.and_eq_true, decide_eq_true_eq] at hx
  unfold parseEvent
  cases hb : eventBody a.checksumType p with
  | ok body =>
    obtain ⟨rest, rfl⟩ := eventBody_ok hb
    simp only
    cases hd : (dispatchEvent m a.tableMap h).run body with
    | ok e =>
      cases e with
      | tableMap t =>
        obtain ⟨_, h2⟩ := tableMap_id (rest := rest) hd
        refine ⟨hab.checksum, fun id hid => ?_⟩
        simp only [EventParser.record, HMap.get?_insert]
        rw [if_neg, hab.tables id hid]
        rintro rfl
        rw [h2, hx.2] at hid
        cases hid
      | formatDescription x =>
        exact (rows_notFormat hx.1 hd).elim
      | _ => exact hab
    | _ => exact hab
  | _ => exact hab

/-- C132. Whatever the events are, leaving out those about some tables makes no difference to what the decoder answers to the others. -/
theorem C132_tables_apart (m : Mode) (X : Nat → Bool) (a b : EventParser) (hab : AgreeOff X a b) (es : List (EventHeader × Bytes)) :
    answers m b (es.filter fun e => !AboutTables X e) =
      ((es.zip (answers m a es)).filter fun x => !AboutTables X x.1).map (·.2) := by
  induction es generalizing a b with
  | nil => rfl
  | cons e es ih =>
    obtain ⟨h, p⟩ := e
    cases hx : AboutTables X (h, p) with
    | true =>
      rw [List.filter_cons_of_neg (by simp [hx]), answers, List.zip_cons_cons, List.filter_cons_of_neg (by simp [hx])]
      exact ih _ _ (state_apart m X hab h p hx)
    | false =>
      obtain ⟨h1, h2⟩ := answer_apart m X hab h p hx
      rw [List.filter_cons_of_pos (by simp [hx]), answers, answers, List.zip_cons_cons, List.filter_cons_of_pos (by simp [hx]),
        List.map_cons, h1, ih _ _ h2]

/-- Table 7 is mapped twice, with something refused in between; table 8 is mapped and gets a row; the row comes out with or without 7. -/
def exApart : List (EventHeader × Bytes) :=
  [sampleTableMap [1, 1], (⟨0, 2, 1, 40, 0, 0⟩, [1]), (⟨0, 19, 1, 40, 0, 0⟩, [8, 0, 0, 0, 0, 0, 1, 0, 1, 100, 0, 1, 116, 0, 1, 1, 0, 0]),
    sampleTableMap [3, 1], (⟨0, 30, 1, 60, 0, 0⟩, [8, 0, 0, 0, 0, 0, 1, 0, 2, 0, 1, 1, 0, 5])]

example : exApart.map (AboutTables fun id => id == 7) = [true, false, false, true, false] ∧
    (answers ⟨true⟩ EventParser.new (exApart.filter fun e => !AboutTables (fun id => id == 7) e)).length = 3 ∧
    (answers ⟨true⟩ EventParser.new exApart)[4]? =
      some (.ok (.writeRows ⟨8, 1, 1, [true], [⟨[some (.tinyInt 5)]⟩]⟩)) ∧
    AgreeOff (fun id => id == 7) EventParser.new EventParser.new := by
  refine ⟨by decide +kernel, by decide +kernel, by decide +kernel, rfl, fun _ _ => rfl⟩

/-- C132. So an event that is about none of these tables is decoded alike after any two histories that differ in the events about them. -/
theorem C132_any_history (m : Mode) (X : Nat → Bool) (st : EventParser) (es es' : List (EventHeader × Bytes))
    (same : (es.filter fun e => !AboutTables X e) = es'.filter fun e => !AboutTables X e) (h : EventHeader) (p : Bytes)
    (hx : AboutTables X (h, p) = false) : (parseEvent m (after m st es) h p).1 = (parseEvent m (after m st es') h p).1 := by
  have key : ∀ (es : List (EventHeader × Bytes)) (a b : EventParser), AgreeOff X a b →
      AgreeOff X (after m a es) (after m b (es.filter fun e => !AboutTables X e)) := by
    intro es
    induction es with
    | nil => exact fun _ _ h => h
    | cons e es ih =>
      intro a b hab
      obtain ⟨h, p⟩ := e
      cases hx : AboutTables X (h, p) with
      | true =>
        rw [List.filter_cons_of_neg (by simp [hx]), after]
        exact ih _ _ (state_apart m X hab h p hx)
      | false =>
        rw [List.filter_cons_of_pos (by simp [hx]), after, after]
        exact ih _ _ (answer_apart m X hab h p hx).2
  have h1 := key es st st ⟨rfl, fun _ _ => rfl⟩
  have h2 := key es' st st ⟨rfl, fun _ _ => rfl⟩
  rw [same] at h1
  rw [(answer_apart m X h1 h p hx).1, (answer_apart m X h2 h p hx).1]

end MysqlCdc
