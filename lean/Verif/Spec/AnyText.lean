import Mathlib.Data.List.Forall2
import Verif.Spec.Compressed
import Verif.Spec.Events
/-!
# Statements and user variables as servers write them

MySQL and MariaDB write statements in the character set of the connection that sent them, and the value of a user variable in the form of its type: text in
its character set, integers as eight bytes, and so on.
-/

namespace MysqlCdc.Spec

/-- `TextBody code text shown err body`: an event of type `code` with the bytes `text` has the body `body`. If the bytes are text in UTF-8, `shown` gives the
event for this text; `err` is the error of the reader of the text otherwise. -/
inductive TextBody : Nat → Bytes → (RStr → BinlogEvent) → Err → Bytes → Prop where
  /-- QUERY_EVENT: the database name is in UTF-8, the statement is not always. -/
  | query {thread duration error : Nat} {status sql : Bytes} {db : RStr} (h1 : thread < 2 ^ 32) (h2 : duration < 2 ^ 32)
      (h3 : (utf8Bytes db).length < 2 ^ 8) (h4 : error < 2 ^ 16) (h5 : status.length < 2 ^ 16) :
      TextBody 2 sql (fun s => .query ⟨thread, duration, error, status, db, s⟩) (.io .invalidData)
        (le 4 thread ++ le 4 duration ++ le 1 (utf8Bytes db).length ++ le 2 error ++ le 2 status.length ++ status ++ utf8Bytes db ++ [0] ++ sql)
  /-- ROWS_QUERY_LOG_EVENT of MySQL -/
  | rowsQuery {sql : Bytes} {length : UInt8} : TextBody 29 sql (fun s => .rowsQuery ⟨s⟩) (.io .invalidData) (length :: sql)
  /-- ANNOTATE_ROWS_EVENT of MariaDB -/
  | annotateRows {sql : Bytes} : TextBody 160 sql (fun s => .rowsQuery ⟨s⟩) (.io .invalidData) sql
  /-- USER_VAR_EVENT of a variable that is not NULL -/
  | userVar {name : RStr} {value : Bytes} {type collation flags : Nat} {extra : Bytes} (h1 : (utf8Bytes name).length < 2 ^ 32)
      (h2 : type < 2 ^ 8) (h3 : collation < 2 ^ 32) (h4 : value.length < 2 ^ 32) (h5 : flags < 2 ^ 8) :
      TextBody 14 value (fun v => .userVar ⟨name, some ⟨type, collation, v, flags⟩⟩) .fromUtf8
        (le 4 (utf8Bytes name).length ++ utf8Bytes name ++ [0] ++ le 1 type ++ le 4 collation ++ le 4 value.length ++ value ++ le 1 flags ++ extra)

/-- The bytes are text in UTF-8. -/
def IsText (bs : Bytes) : Prop := ∃ s, bs = utf8Bytes s

/-! ## Transactions with statements in any character set -/

/-- One transaction in a MySQL log, with the bytes of its statements. -/
inductive LoggedTx where
  /-- a statement that is a transaction of its own, such as DDL -/
  | single (g : Gtid) (sql : Bytes)
  /-- statements between BEGIN and XID -/
  | block (g : Gtid) (sqls : List Bytes)

def LoggedTx.gtid : LoggedTx → Gtid
  | .single g _ => g
  | .block g _ => g

/-- Statements that mean nothing to the transaction they are in. -/
def PlainSql (sql : Bytes) : Prop := sql ≠ [] ∧ ∀ s ∈ ["BEGIN", "COMMIT", "ROLLBACK"], sql ≠ utf8Bytes s.toList

/-- One event on the wire: header and payload, the payload with a checksum or not. -/
def OnWire (ck : ChecksumType) (code : Nat) (Body : Bytes → Prop) (x : EventHeader × Bytes) : Prop :=
  x.1.eventType = code ∧ ∃ body, Body body ∧ WithChecksum ck body x.2

/-- The event with the GTID of a transaction. -/
def GtidOnWire (ck : ChecksumType) (g : Gtid) (x : EventHeader × Bytes) : Prop :=
  ∃ flags, OnWire ck 33 (PlainBody 33 (.mySqlGtid ⟨g, flags⟩)) x

/-- A statement. -/
def StatementOnWire (ck : ChecksumType) (sql : Bytes) (x : EventHeader × Bytes) : Prop :=
  OnWire ck 2 (fun body => ∃ shown err, TextBody 2 sql shown err body) x

/-- How a transaction is sent. -/
inductive SentTx (ck : ChecksumType) : LoggedTx → List (EventHeader × Bytes) → Prop where
  | single {g : Gtid} {sql : Bytes} {x y : EventHeader × Bytes} (hg : GtidOnWire ck g x) (hp : PlainSql sql) (hs : StatementOnWire ck sql y) :
      SentTx ck (.single g sql) [x, y]
  | block {g : Gtid} {sqls : List Bytes} {x b e : EventHeader × Bytes} {ys : List (EventHeader × Bytes)} {xid : Nat} (hg : GtidOnWire ck g x)
      (hb : StatementOnWire ck (utf8Bytes "BEGIN".toList) b) (hp : ∀ sql ∈ sqls, PlainSql sql) (hs : List.Forall₂ (StatementOnWire ck) sqls ys)
      (he : OnWire ck 16 (PlainBody 16 (.xid ⟨xid⟩)) e) : SentTx ck (.block g sqls) (x :: b :: ys ++ [e])

/-- How a list of transactions is sent. -/
inductive SentLog (ck : ChecksumType) : List LoggedTx → List (EventHeader × Bytes) → Prop where
  | nil : SentLog ck [] []
  | cons {tx : LoggedTx} {txs : List LoggedTx} {a b : List (EventHeader × Bytes)} (h : SentTx ck tx a) (hr : SentLog ck txs b) : SentLog ck (tx :: txs) (a ++ b)

/-- What an application is handed that goes on after an error: of some events (header, payload), those that were decoded, with the
decoder after them. -/
inductive HandedOut (m : Mode) : EventParser → List (EventHeader × Bytes) → List Ev → EventParser → Prop where
  | nil {st : EventParser} : HandedOut m st [] [] st
  | event {st st1 st' : EventParser} {x : EventHeader × Bytes} {e : BinlogEvent} {xs : List (EventHeader × Bytes)} {es : List Ev}
      (h : parseEvent m st x.1 x.2 = (.ok e, st1)) (hr : HandedOut m st1 xs es st') : HandedOut m st (x :: xs) ((x.1, e) :: es) st'
  | refused {st st1 st' : EventParser} {x : EventHeader × Bytes} {err : Err} {xs : List (EventHeader × Bytes)} {es : List Ev}
      (h : parseEvent m st x.1 x.2 = (.err err, st1)) (hr : HandedOut m st1 xs es st') : HandedOut m st (x :: xs) es st'

/-- The transaction can be told to be complete from what is handed out: it has an end of its own, or its statement is text. -/
def LoggedTx.Told : LoggedTx → Prop
  | .single _ sql => IsText sql
  | .block _ _ => True

end MysqlCdc.Spec
