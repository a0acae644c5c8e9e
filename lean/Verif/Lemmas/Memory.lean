import Verif.Model.Memory
import Verif.Lemmas.ErrorsEvents
/-!
# Parsers with the memory they ask for
-/

namespace MysqlCdc

open Spec

theorem PM.bind_def {α β : Type} (p : PM α) (f : α → PM β) (buf : Bytes) (pos : Nat) : (p >>= f) buf pos = PM.seq p f buf pos := rfl

/-! ## They return what the parsers do -/

/-- `q` returns what `p` returns. -/
def Erases {α : Type} (q : PM α) (p : P α) : Prop := ∀ buf pos, (q buf pos).1 = p buf pos

theorem Erases.free {α : Type} (p : P α) : Erases (.free p) p := fun _ _ => rfl
theorem Erases.pure {α : Type} (a : α) : Erases (Pure.pure a) (Pure.pure a) := fun _ _ => rfl

theorem Erases.bind {α β : Type} {q : PM α} {p : P α} {g : α → PM β} {f : α → P β} (h1 : Erases q p) (h2 : ∀ a, Erases (g a) (f a)) :
    Erases (q >>= g) (p >>= f) := by
  intro buf pos
  rw [PM.bind_def, P.seq_apply, ← h1 buf pos]
  unfold PM.seq
  rcases q buf pos with ⟨⟨a, pos'⟩ | e | _ | _, ts⟩
  · exact h2 a buf pos'
  · rfl
  · rfl
  · rfl

theorem Erases.map {α β : Type} {q : PM α} {p : P α} (h : Erases q p) (f : α → β) :
    Erases (q >>= fun a => Pure.pure (f a)) (p >>= fun a => Pure.pure (f a)) := h.bind fun _ => .pure _

theorem Erases.alloc (n : Nat) : Erases (.alloc n) (P.lift (allocZeroed n)) := by
  intro buf pos
  unfold PM.alloc allocZeroed
  split <;> rfl

/-- A request changes nothing that is returned. -/
theorem Erases.request {α : Type} {q : PM α} {p : P α} (n : Nat) (h : Erases q p) : Erases (PM.request n >>= fun _ => q) p :=
  fun buf pos => h buf pos

theorem Erases.within {α : Type} {q : PM α} {p : P α} (h : Erases q p) (bytes : Bytes) : Erases (.within q bytes) (P.lift (p.run bytes)) := by
  intro buf pos
  unfold PM.within P.run
  rw [← h bytes 0]
  rcases q bytes 0 with ⟨⟨a, pos'⟩ | e | _ | _, ts⟩ <;> rfl

theorem Erases.whileData {α : Type} {q : PM α} {p : P α} (h : Erases q p) : Erases (PM.whileData q) (P.whileData p) := by
  intro buf pos
  induction hn : buf.length - pos using Nat.strongRecOn generalizing pos with
  | _ n ih =>
    rw [PM.whileData, P.whileData, ← h buf pos]
    split
    · next hlt =>
      rcases q buf pos with ⟨⟨a, pos'⟩ | e | _ | _, ts⟩
      · simp only
        split
        · next hp =>
          have := ih (buf.length - pos') (by omega) pos' rfl
          rw [← this]
          rcases PM.whileData q buf pos' with ⟨⟨as, pos''⟩ | e | _ | _, us⟩ <;> rfl
        · rfl
      · rfl
      · rfl
      · rfl
    · rfl

theorem Erases.times {α : Type} {q : PM α} {p : P α} (h : Erases q p) (n : Nat) : Erases (PM.times n q) (P.times n p) := by
  induction n with
  | zero => exact .pure _
  | succ n ih => exact h.bind fun a => ih.map _

theorem Erases.readVec (n : Nat) : Erases (.readVec n) (P.readVec n) := (Erases.alloc n).bind fun _ => .free _

theorem Erases.readString (n : Nat) : Erases (readStringM n) (readString n) := (Erases.readVec n).bind fun _ => .free _

theorem Erases.readLenEncStr : Erases readLenEncStrM readLenEncStr := (Erases.free _).bind fun n => .readString n

theorem Erases.bitmapLE (n : Nat) : Erases (readBitmapLittleEndianM n) (readBitmapLittleEndian n) := (Erases.alloc n).bind fun _ => .free _
theorem Erases.bitmapBE (n : Nat) : Erases (readBitmapBigEndianM n) (readBitmapBigEndian n) := (Erases.alloc n).bind fun _ => .free _
theorem Erases.bitmapRev (n : Nat) : Erases (readBitmapRevertedM n) (readBitmapReverted n) := (Erases.alloc n).bind fun _ => .free _

theorem Erases.stringArray : Erases parseStringArrayM parseStringArray := Erases.readLenEncStr.whileData
theorem Erases.typeValues : Erases parseTypeValuesM parseTypeValues :=
  Erases.whileData ((Erases.free _).bind fun n => Erases.readLenEncStr.times n)

theorem Erases.metadataField (types : Bytes) : Erases (parseMetadataFieldM types) (parseMetadataField types) := by
  unfold parseMetadataFieldM parseMetadataField
  refine (Erases.free _).bind fun code => (Erases.free _).bind fun t => (Erases.free _).bind fun n => (Erases.readVec n).bind fun bs => ?_
  cases t with
  | signedness => exact (Erases.free _).bind fun c => ((Erases.bitmapRev c).within bs).map _
  | columnName => exact (Erases.stringArray.within bs).map _
  | setStrValue => exact (Erases.typeValues.within bs).map _
  | enumStrValue => exact (Erases.typeValues.within bs).map _
  | columnVisibility => exact ((Erases.bitmapRev _).within bs).map _
  | _ => exact (Erases.free _).map _

theorem Erases.tableMetadata (types : Bytes) : Erases (parseTableMetadataM types) (parseTableMetadata types) :=
  (Erases.metadataField types).whileData.map _

theorem Erases.metadata (types : Bytes) : Erases (parseMetadataM types) (parseMetadata types) := Erases.request _ (.free _)

theorem Erases.tableMap : Erases parseTableMapM parseTableMap := by
  unfold parseTableMapM parseTableMap
  refine (Erases.free _).bind fun _ => (Erases.free _).bind fun _ => (Erases.free _).bind fun _ => (Erases.readString _).bind fun _ =>
    (Erases.free _).bind fun _ => (Erases.free _).bind fun _ => (Erases.readString _).bind fun _ => (Erases.free _).bind fun _ =>
    (Erases.free _).bind fun n => (Erases.readVec n).bind fun types => (Erases.free _).bind fun _ => (Erases.metadata types).bind fun _ =>
    (Erases.bitmapLE n).bind fun _ => (Erases.free _).bind fun more => ?_
  split
  · exact (Erases.tableMetadata types).map _
  · exact .pure _

theorem Erases.decimal (m : Mode) (md : Nat) : Erases (parseDecimalM m md) (parseDecimal m md) := by
  unfold parseDecimalM parseDecimal
  exact (Erases.free _).bind fun _ => (Erases.readVec _).bind fun v => .free _

theorem Erases.string (md : Nat) : Erases (parseStringM md) (parseString md) := by
  unfold parseStringM parseString
  split
  · exact (Erases.free _).bind fun n => .readString n
  · exact (Erases.free _).bind fun n => .readString n
theorem Erases.bit (md : Nat) : Erases (parseBitM md) (parseBit md) := (Erases.bitmapBE _).map _
theorem Erases.blob (md : Nat) : Erases (parseBlobM md) (parseBlob md) := (Erases.free _).bind fun n => .readVec n

theorem Erases.cell (m : Mode) (t md : Nat) : Erases (parseCellM m t md) (parseCell m t md) := by
  intro buf pos
  unfold parseCellM
  cases hc : ColumnType.fromCode t with
  | ok c =>
    cases c with
    | newDecimal => unfold parseCell; rw [hc]; exact (Erases.decimal m md).map _ buf pos
    | string => unfold parseCell; rw [hc]; exact (Erases.string md).map _ buf pos
    | varChar => unfold parseCell; rw [hc]; exact (Erases.string md).map _ buf pos
    | varString => unfold parseCell; rw [hc]; exact (Erases.string md).map _ buf pos
    | bit => unfold parseCell; rw [hc]; exact (Erases.bit md).map _ buf pos
    | tinyBlob => unfold parseCell; rw [hc]; exact (Erases.blob md).map _ buf pos
    | mediumBlob => unfold parseCell; rw [hc]; exact (Erases.blob md).map _ buf pos
    | longBlob => unfold parseCell; rw [hc]; exact (Erases.blob md).map _ buf pos
    | blob => unfold parseCell; rw [hc]; exact (Erases.blob md).map _ buf pos
    | geometry => unfold parseCell; rw [hc]; exact (Erases.blob md).map _ buf pos
    | json => unfold parseCell; rw [hc]; exact (Erases.blob md).map _ buf pos
    | _ => rfl
  | _ => unfold parseCell; rw [hc]; rfl

theorem Erases.column (m : Mode) (t md : Nat) : Erases (parseColumnM m t md) (parseColumn m t md) :=
  (Erases.free _).bind fun _ => .cell m _ _

theorem Erases.rowLoop (m : Mode) (table : TableMapEvent) (present nulls : List Bool) (is : List Nat) (skipped : Nat) :
    Erases (rowLoopM m table present nulls is skipped) (rowLoop m table present nulls is skipped) := by
  induction is generalizing skipped with
  | nil => exact .pure _
  | cons i is ih =>
    unfold rowLoopM MysqlCdc.rowLoop
    cases present[i]? with
    | none => exact .free _
    | some b =>
      cases b with
      | false => exact (ih _).map _
      | true =>
        dsimp only
        cases nulls[i - skipped]? with
        | none => exact .free _
        | some b =>
          cases b with
          | true => exact (ih _).map _
          | false =>
            dsimp only
            cases table.columnTypes[i]? with
            | none => exact .free _
            | some t =>
              cases table.columnMetadata[i]? with
              | none => exact .free _
              | some md => exact (Erases.column m _ _).bind fun _ => (ih _).map _

theorem Erases.row (m : Mode) (cell : Nat) (table : TableMapEvent) (present : List Bool) (n : Nat) :
    Erases (parseRowM m cell table present n) (parseRow m table present n) :=
  Erases.request _ ((Erases.bitmapLE n).bind fun nulls => (Erases.rowLoop m table present nulls _ 0).map _)

theorem Erases.rowsEvent (m : Mode) (cell : Nat) (cache : TableMapCache) (v : Nat) :
    Erases (parseRowsEventM m cell cache v) (parseRowsEvent m cache v) := by
  unfold parseRowsEventM parseRowsEvent
  refine (Erases.free _).bind fun ⟨id, fl, n⟩ => (Erases.bitmapLE n).bind fun present => Erases.bind ?_ fun _ => .pure _
  unfold parseRowDataListM parseRowDataList
  cases cache.get? id with
  | none => exact .free _
  | some table => exact (Erases.row m cell table present _).whileData

theorem Erases.updateRowsEvent (m : Mode) (cell : Nat) (cache : TableMapCache) (v : Nat) :
    Erases (parseUpdateRowsEventM m cell cache v) (parseUpdateRowsEvent m cache v) := by
  unfold parseUpdateRowsEventM parseUpdateRowsEvent
  refine (Erases.free _).bind fun ⟨id, fl, n⟩ => (Erases.bitmapLE n).bind fun before => (Erases.bitmapLE n).bind fun after =>
    Erases.bind ?_ fun _ => .pure _
  unfold parseUpdateRowDataListM parseUpdateRowDataList
  cases cache.get? id with
  | none => exact .free _
  | some table => exact Erases.whileData ((Erases.row m cell table before _).bind fun _ => (Erases.row m cell table after _).map _)

theorem Erases.query : Erases parseQueryM parseQuery := by
  unfold parseQueryM parseQuery
  exact (Erases.free _).bind fun _ => (Erases.free _).bind fun _ => (Erases.free _).bind fun _ => (Erases.free _).bind fun _ =>
    (Erases.free _).bind fun _ => (Erases.readVec _).bind fun _ => (Erases.readString _).bind fun _ => (Erases.free _).bind fun _ =>
    (Erases.free _).map _

theorem Erases.userVar : Erases parseUserVarM parseUserVar := by
  unfold parseUserVarM parseUserVar
  refine (Erases.free _).bind fun _ => (Erases.readString _).bind fun _ => (Erases.free _).bind fun isNull => ?_
  split
  · exact .pure _
  · exact (Erases.free _).bind fun _ => (Erases.free _).bind fun _ => (Erases.free _).bind fun _ => (Erases.readString _).bind fun _ =>
      (Erases.free _).map _

theorem Erases.dispatch (m : Mode) (cell : Nat) (cache : TableMapCache) (header : EventHeader) :
    Erases (dispatchEventM m cell cache header) (dispatchEvent m cache header) := by
  intro buf pos
  unfold dispatchEventM dispatchEvent
  cases EventType.fromCode header.eventType with
  | tableMap => exact Erases.tableMap.map _ buf pos
  | userVar => exact Erases.userVar.map _ buf pos
  | query => exact Erases.query.map _ buf pos
  | writeRowsV1 => exact (Erases.rowsEvent m cell cache 1).map _ buf pos
  | updateRowsV1 => exact (Erases.updateRowsEvent m cell cache 1).map _ buf pos
  | deleteRowsV1 => exact (Erases.rowsEvent m cell cache 1).map _ buf pos
  | mySqlWriteRowsV2 => exact (Erases.rowsEvent m cell cache 2).map _ buf pos
  | mySqlUpdateRowsV2 => exact (Erases.updateRowsEvent m cell cache 2).map _ buf pos
  | mySqlDeleteRowsV2 => exact (Erases.rowsEvent m cell cache 2).map _ buf pos
  | _ => rfl

end MysqlCdc
