import Verif.Props.Client
/-!
# C17, C18: a new client

The commits of a client that has been made with the options of an application, and has not connected yet (or has been given events from elsewhere, such as
a file).
-/

namespace MysqlCdc

open Spec

/-- **C17** for a new client: it begins between transactions. -/
theorem C17_new_client (m : Mode) (o : ReplicaOptions) (c : Client) (hc : Client.new o = .ok c) (set : GtidSet)
    (hs : o.binlog.startingStrategy = .fromGtid) (hset : o.binlog.gtidSet = some set) (hw : Wf set) (ho : AllOrdered set)
    (parts : List (Part Gtid)) (hp : ∀ p ∈ parts, p.Ok MysqlTx) (hg : ∀ g ∈ parts.flatMap Part.gtids, GtidOk g) (k : Nat) :
    ∃ c' set', commitAll m c ((flat parts).take k) = .ok c' ∧ c'.options.binlog.gtidSet = some set' ∧
      ∀ u n, Has set' u n ↔ Has set u n ∨ ∃ g ∈ finished k parts, u = g.sourceId.data ∧ n = g.transactionId := by
  unfold Client.new at hc
  split at hc
  · cases hc
  · obtain rfl := Res.ok.inj hc
    obtain ⟨c', set', h1, h2, -, -, h3⟩ := C17_exactly_finished m ⟨o, false, none, none⟩ set ⟨hs, rfl, hset⟩ hw ho parts hp hg k
    exact ⟨c', set', h1, h2, h3⟩

/-- C18, where it holds, for a new client. -/
theorem C18_new_client_partial (m : Mode) (o : ReplicaOptions) (c : Client) (hc : Client.new o = .ok c) (list : GtidList)
    (hs : o.binlog.startingStrategy = .fromGtid) (hlist : o.binlog.gtidList = some list) (hnone : o.binlog.gtidSet = none)
    (hl : (list.gtids.map (·.domainId)).Nodup) (parts : List (Part MGtid)) (hp : ∀ p ∈ parts, p.Ok MariaTx)
    (hq : ∀ p ∈ parts, NoStatementBefore p.events) (k : Nat) :
    ∃ c' list', commitAll m c ((flat parts).take k) = .ok c' ∧ c'.options.binlog.gtidList = some list' ∧
      ∀ g, g ∈ list'.gtids ↔
        LastOf (finished k parts) g ∨ (g ∈ list.gtids ∧ ∀ y ∈ finished k parts, y.domainId ≠ g.domainId) := by
  unfold Client.new at hc
  split at hc
  · cases hc
  · obtain rfl := Res.ok.inj hc
    obtain ⟨c', list', h1, h2, -, -, h3⟩ := C18_exactly_finished_partial m ⟨o, false, none, none⟩ list ⟨hs, rfl, hlist, hnone⟩ hl parts hp hq k
    exact ⟨c', list', h1, h2, h3⟩

/-- A new client that begins at a GTID set, with the transactions of the example of C17. -/
example : ∃ c, Client.new { ReplicaOptions.default with sslMode := .disabled, binlog := .fromMysqlGtid exSet } = .ok c ∧
    (BinlogOptions.fromMysqlGtid exSet).startingStrategy = .fromGtid ∧ (BinlogOptions.fromMysqlGtid exSet).gtidSet = some exSet ∧
    (∀ p ∈ exParts, p.Ok MysqlTx) ∧ (∀ g ∈ exParts.flatMap Part.gtids, GtidOk g) ∧ finished 4 exParts = [⟨exUuid, 5⟩] :=
  ⟨_, rfl, rfl, rfl, exParts_ok.1, exParts_ok.2, by decide⟩

end MysqlCdc
