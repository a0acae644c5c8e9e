import Verif.Spec.Stream
/-!
# Transactions as newer MySQL servers write them
-/

namespace MysqlCdc.Spec

/-- A transaction of MySQL 8.0.20 or later with `binlog_transaction_compression`: its GTID and one TRANSACTION_PAYLOAD_EVENT (40), which holds all other
events, also the one that ends the transaction. The library does not know the type; it hands out an unknown event. -/
inductive CompressedTx (g : Gtid) : List Ev → Prop where
  | mk {h0 h1 : EventHeader} {x : MySqlGtidEvent} (hx : x.gtid = g) (h : h1.eventType = 40) : CompressedTx g [(h0, .mySqlGtid x), (h1, .unknown)]

/-- A transaction of MySQL 8.3 or later with a tagged GTID: it starts with a GTID_TAGGED_LOG_EVENT (42), which the library does not know; the rest is as
in any transaction. -/
inductive TaggedTx : List Ev → Prop where
  | block {h0 hb he : EventHeader} {b e : BinlogEvent} {mid body : List Ev} (h : h0.eventType = 42) (hm : ∀ p ∈ mid, Neutral p.2) (hbegin : Begins b)
      (hi : ∀ p ∈ body, Inside p.2) (hend : Ends e) : TaggedTx ((h0, .unknown) :: mid ++ (hb, b) :: body ++ [(he, e)])
  | auto {h0 he : EventHeader} {e : BinlogEvent} {mid : List Ev} (h : h0.eventType = 42) (hm : ∀ p ∈ mid, Neutral p.2) (hauto : AutoCommits e) :
      TaggedTx ((h0, .unknown) :: mid ++ [(he, e)])

/-- Parts of a stream: ordinary transactions with their GTID, other ones of the shape `S`, neutral events. -/
def OkWith (S : List Ev → Prop) (p : Part (Option Gtid)) : Prop :=
  p.Ok fun g es => match g with | some g => MysqlTx g es | none => S es

/-- An ordinary transaction with this GTID lies entirely within the first `k` events. -/
def FinishedPlain (k : Nat) (parts : List (Part (Option Gtid))) (g : Gtid) : Prop :=
  ∃ pre es post, parts = pre ++ .tx (some g) es :: post ∧ (flat pre).length + es.length ≤ k

/-! ## Streams with all kinds of transactions -/

/-- The kinds of transactions in the log of a MySQL 8.3 server. -/
inductive TxKind where
  | plain (g : Gtid)
  | compressed (g : Gtid)
  | tagged
  /-- tagged and compressed -/
  | packed

/-- The GTID that the client gets to see. -/
def TxKind.shown : TxKind → Option Gtid
  | .plain g => some g
  | .compressed g => some g
  | .tagged => none
  | .packed => none

/-- How a transaction of each kind is written. -/
def TxKind.Written : TxKind → List Ev → Prop
  | .plain g, es => MysqlTx g es
  | .compressed g, es => CompressedTx g es
  | .tagged, es => TaggedTx es
  | .packed, es => ∃ h0 h1 : EventHeader, h0.eventType = 42 ∧ h1.eventType = 40 ∧ es = [(h0, .unknown), (h1, .unknown)]

/-- A part that shows no GTID. -/
def ShowsNone (p : Part TxKind) : Prop := ∀ kind ∈ p.gtids, kind.shown = none

/-- The transaction `g` is taken for finished within the first `k` events: it is an ordinary one that lies entirely within them, or a compressed one and an
uncompressed tagged one behind it lies within them, with no other GTID shown to the client in between. -/
def TakenForFinished (k : Nat) (parts : List (Part TxKind)) (g : Gtid) : Prop :=
  (∃ pre es post, parts = pre ++ .tx (.plain g) es :: post ∧ (flat pre).length + es.length ≤ k) ∨
  ∃ pre es mid es' post, parts = pre ++ .tx (.compressed g) es :: mid ++ .tx .tagged es' :: post ∧ (∀ p ∈ mid, ShowsNone p) ∧
    (flat (pre ++ .tx (.compressed g) es :: mid)).length + es'.length ≤ k

end MysqlCdc.Spec
