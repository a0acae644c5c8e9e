import Verif.Spec.Written
import Verif.Spec.AnyValues
import Verif.Spec.AnyText
import Verif.Spec.Copy
/-!
# Logs with records the library has no event for

Servers write text in any character set and negative times (`Spec/AnyValues`, `Spec/AnyText`). A record with such a value is part of a transaction like any
other, but the library gives an error instead of an event.
-/

namespace MysqlCdc.Spec

/-- `Refused st h slice err`: in state `st`, a server writes a record with header `h` as `slice`, with a value the library has no form for; `err` is the
error for it. -/
inductive Refused (st : LogState) (h : EventHeader) : Bytes → Err → Prop where
  /-- A statement or a variable that is no UTF-8. -/
  | text {text body slice : Bytes} {shown : RStr → BinlogEvent} {err : Err} (hb : TextBody h.eventType text shown err body)
      (hs : WithChecksum st.checksum body slice) (hn : ¬IsText text) : Refused st h slice err
  /-- Inserted or deleted rows. -/
  | rows {version tableId flags : Nat} {columns : List (UInt8 × Nat)} {present : List Bool} {rows : List (List ServerState)} {body slice : Bytes} {err : Err}
      (ht : version = 1 ∧ (h.eventType = 23 ∨ h.eventType = 25) ∨ version = 2 ∧ (h.eventType = 30 ∨ h.eventType = 32))
      (hc : st.columns tableId = some columns) (hp : true ∈ present) (hb : ServerRows version columns tableId flags present rows body)
      (hs : WithChecksum st.checksum body slice) (hr : InTurn ShownRow rows (.error err)) : Refused st h slice err
  /-- Updated rows. -/
  | updates {version tableId flags : Nat} {columns : List (UInt8 × Nat)} {before after : List Bool} {rows : List (List ServerState × List ServerState)}
      {body slice : Bytes} {err : Err} (ht : version = 1 ∧ h.eventType = 24 ∨ version = 2 ∧ h.eventType = 31)
      (hc : st.columns tableId = some columns) (hp : true ∈ before ∨ true ∈ after)
      (hb : ServerUpdates version columns tableId flags before after rows body) (hs : WithChecksum st.checksum body slice)
      (hr : InTurn ShownPair rows (.error err)) : Refused st h slice err

/-- A record of a log: its header, and the event it shows, or the error. -/
abbrev Rec := EventHeader × Except Err BinlogEvent

/-- What the iterator is to give for a record. -/
def Rec.item (r : Rec) : Except Err Ev :=
  match r.2 with
  | .ok e => .ok (r.1, e)
  | .error err => .error err

/-- `RecordsOf st records slices st'`: the records are written, one after the other, as the slices. -/
inductive RecordsOf : LogState → List Rec → List Bytes → LogState → Prop where
  | nil {st : LogState} : RecordsOf st [] [] st
  | event {st st1 st2 : LogState} {e : Ev} {slice : Bytes} {rs : List Rec} {slices : List Bytes} (hf : HeaderFits e.1)
      (h : Written st e slice st1) (ht : RecordsOf st1 rs slices st2) : RecordsOf st ((e.1, .ok e.2) :: rs) (slice :: slices) st2
  | refused {st st2 : LogState} {h : EventHeader} {err : Err} {slice : Bytes} {rs : List Rec} {slices : List Bytes} (hf : HeaderFits h)
      (hr : Refused st h slice err) (ht : RecordsOf st rs slices st2) : RecordsOf st ((h, .error err) :: rs) (slice :: slices) st2

/-- The packets of records, as `eventPackets`. -/
def recPackets : Nat → List Rec → List Bytes → List (Bytes × Nat)
  | n, r :: rs, slice :: slices => (0x00 :: (headerBytes r.1 ++ slice), n % 256) :: recPackets (n + 1) rs slices
  | _, _, _ => []

/-- A part of a log: a transaction, or a neutral event between transactions. -/
inductive RecPart (γ : Type) where
  | tx (g : γ) (records : List Rec)
  | noise (e : Ev)

def RecPart.records {γ : Type} : RecPart γ → List Rec
  | .tx _ rs => rs
  | .noise e => [(e.1, .ok e.2)]

def RecPart.txs {γ : Type} : RecPart γ → List (γ × List Rec)
  | .tx g rs => [(g, rs)]
  | .noise _ => []

/-- The part is as servers write it, when `T` says what the records of a transaction are. -/
def RecPart.Ok {γ : Type} (T : γ → List Rec → Prop) : RecPart γ → Prop
  | .tx g rs => T g rs
  | .noise e => Neutral e.2

/-- The events that records show. -/
def shownEvents : List Rec → List Ev
  | [] => []
  | (h, .ok e) :: rs => (h, e) :: shownEvents rs
  | (_, .error _) :: rs => shownEvents rs

/-- All records show events. -/
def AllShown (rs : List Rec) : Prop := ∀ r ∈ rs, ∃ e, r.2 = .ok e

/-- What is a transaction `es` of shape `T`, except that some of its records show errors. -/
def Spoilt {γ : Type} (T : γ → List Ev → Prop) (g : γ) (rs : List Rec) : Prop :=
  ∃ es, T g es ∧ List.Forall₂ (fun (r : Rec) (e : Ev) => r = (e.1, .ok e.2) ∨ ∃ err, r = (e.1, .error err)) rs es

/-- What is a transaction of shape `T` without the records that show errors. -/
def Holed {γ : Type} (T : γ → List Ev → Prop) (g : γ) (rs : List Rec) : Prop := T g (shownEvents rs)

abbrev SpoiltTx : Gtid → List Rec → Prop := Spoilt MysqlTx

abbrev HoledTx : Gtid → List Rec → Prop := Holed MysqlTx

/-! ## What an application makes of the items of a session -/

/-- It stops at the first error. -/
def upToError : List (Except Err Ev) → List Ev
  | .ok e :: items => e :: upToError items
  | _ => []

/-- It passes over errors. -/
def passOver : List (Except Err Ev) → List Ev
  | .ok e :: items => e :: passOver items
  | .error _ :: items => passOver items
  | [] => []

end MysqlCdc.Spec
