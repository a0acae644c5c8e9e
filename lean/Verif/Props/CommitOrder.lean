import Verif.Props.Client
import Verif.Props.MapOrder
/-!
# Committing transactions in another order, or again: C131

An application may apply transactions in parallel and commit each when it is done, or commit one again after having been handed it twice.
-/

namespace MysqlCdc

open Spec

/-- Committing whole transactions is adding their GTIDs. -/
theorem commitAll_flat (m : Mode) (parts : List (Part Gtid)) (hp : ∀ p ∈ parts, p.Ok MysqlTx)
    (hg : ∀ g ∈ parts.flatMap Part.gtids, GtidOk g) (c : Client) (l : Option Gtid) (set : GtidSet) (hc : Mv c false l set)
    (hw : Wf set) (ho : AllOrdered set) :
    ∃ c' l' set', commitAll m c (flat parts) = .ok c' ∧ Mv c' false l' set' ∧ addAll m set (parts.flatMap Part.gtids) = .ok set' := by
  induction parts generalizing c l set with
  | nil => exact ⟨c, l, set, by simp [flat, commitAll], hc, rfl⟩
  | cons p ps ih =>
    have hflat : flat (p :: ps) = p.events ++ flat ps := by simp [flat]
    rw [hflat, commitAll_append]
    cases p with
    | noise e =>
      obtain ⟨c1, h1, h2⟩ := keeps_neutral m false l [e] (by simpa using (show Neutral e.2 from hp (.noise e) (by simp))) c set hc
      rw [Part.events, h1]
      exact ih (fun p hp' => hp p (by simp [hp'])) (fun g hg' => hg g (by simp [Part.gtids, hg'])) c1 l set h2 hw ho
    | tx g es =>
      have hgo := hg g (by simp [Part.gtids])
      obtain ⟨b, set1, a1, a2, a3, _⟩ := addGtid_full m set g hw ho hgo.1 hgo.2
      obtain ⟨_, _, _, _, hfull⟩ := mysqlTx_split m (hp (.tx g es) (by simp)) l
      obtain ⟨c1, h1, h2⟩ := hfull c set set1 b hc a1
      rw [Part.events, h1]
      obtain ⟨c2, l', set2, i1, i2, i3⟩ := ih (fun p hp' => hp p (by simp [hp']))
        (fun g hg' => hg g (by simp [Part.gtids, hg'])) c1 (some g) set1 h2 a2 a3
      exact ⟨c2, l', set2, i1, i2, by simp [Part.gtids, addAll, a1, i3]⟩

/-- C131. Two clients that start from the same set and commit the same transactions of a MySQL server, each in an order of its own
and any of them more than once, record sets that stand for the same transactions and print as the same text, in whatever order the maps are. -/
theorem C131_mysql_any_order (m : Mode) (c₁ c₂ : Client) (set : GtidSet) (h₁ : FromSet c₁ set) (h₂ : FromSet c₂ set) (hw : Wf set)
    (hc : AllCanonical set) (hr : ∀ e ∈ set.uuidSets, InRange e.2.intervals) (ps₁ ps₂ : List (Part Gtid))
    (hp₁ : ∀ p ∈ ps₁, p.Ok MysqlTx) (hp₂ : ∀ p ∈ ps₂, p.Ok MysqlTx) (hg : ∀ g ∈ ps₁.flatMap Part.gtids, GtidOk g)
    (same : ∀ g, g ∈ ps₁.flatMap Part.gtids ↔ g ∈ ps₂.flatMap Part.gtids) :
    ∃ d₁ d₂ s₁ s₂, commitAll m c₁ (flat ps₁) = .ok d₁ ∧ commitAll m c₂ (flat ps₂) = .ok d₂ ∧
      d₁.options.binlog.gtidSet = some s₁ ∧ d₂.options.binlog.gtidSet = some s₂ ∧
      (∀ u n, Has s₁ u n ↔ Has s₂ u n) ∧ ∀ s₁' s₂', AlikeSet s₁ s₁' → AlikeSet s₂ s₂' → s₁'.display = s₂'.display := by
  have ho : AllOrdered set := fun e he => ⟨(hc e he).ordered, hr e he⟩
  have hg₂ : ∀ g ∈ ps₂.flatMap Part.gtids, GtidOk g := fun g hg' => hg g ((same g).2 hg')
  obtain ⟨d₁, _, s₁, a1, a2, a3⟩ := commitAll_flat m ps₁ hp₁ hg c₁ c₁.mysqlGtid set ⟨h₁.strategy, h₁.idle, rfl, h₁.set⟩ hw ho
  obtain ⟨d₂, _, s₂, b1, b2, b3⟩ := commitAll_flat m ps₂ hp₂ hg₂ c₂ c₂.mysqlGtid set ⟨h₂.strategy, h₂.idle, rfl, h₂.set⟩ hw ho
  obtain ⟨t₁, t₂, e1, e2, e3⟩ := C04_order_independent m set _ _ hw hc hr hg same
  obtain ⟨v₁, f1, f2⟩ := C01_history_adds_exactly m set _ hw ho hg
  obtain ⟨v₂, g1, g2⟩ := C01_history_adds_exactly m set _ hw ho hg₂
  rw [a3] at e1 f1
  rw [b3] at e2 g1
  cases e1; cases e2; cases f1; cases g1
  refine ⟨d₁, d₂, s₁, s₂, a1, b1, a2.set, b2.set, fun u n => ?_, fun s₁' s₂' x y => e3 _ _ x.2.symm y.2.symm⟩
  rw [f2, g2]
  simp only [same]

/-- C131. A transaction of a MySQL server that the set already has, committed again, leaves the set as it is. -/
theorem C131_mysql_again (m : Mode) (c : Client) (set : GtidSet) (hc : FromSet c set) (hs : CanonSet set)
    (hr : ∀ e ∈ set.uuidSets, InRange e.2.intervals) (g : Gtid) (es : List Ev) (htx : MysqlTx g es) (hu : UuidCanon g.sourceId)
    (ht : g.transactionId < 2 ^ 64 - 1) (had : Has set g.sourceId.data g.transactionId) :
    ∃ c', commitAll m c es = .ok c' ∧ FromSet c' set := by
  have ho : AllOrdered set := fun e he => ⟨(hs.intervals e he).ordered, hr e he⟩
  obtain ⟨c', l', set', h1, h2, h3⟩ := commitAll_flat m [.tx g es] (fun p hp => by cases List.mem_singleton.1 hp; exact htx)
    (by simpa [Part.gtids] using ⟨UuidCanon_ok hu, ht⟩) c c.mysqlGtid set ⟨hc.strategy, hc.idle, rfl, hc.set⟩ hs.wf ho
  obtain ⟨b, g', k1, k2, k3⟩ := C03_reports_new m set g hs hr hu ht
  have hb : b = false := by cases b with | false => rfl | true => exact absurd had (k2.1 rfl)
  simp only [List.flatMap_cons, List.flatMap_nil, Part.gtids, List.append_nil, addAll, k1, Res.bind_ok, Res.ok.injEq] at h3
  refine ⟨c', by simpa [flat, Part.events] using h1, h2.strategy, h2.transaction, ?_⟩
  rw [h2.set, ← h3, k3 hb]

/-- GTID 5, BEGIN, XID. -/
def exMysqlTx (n : Nat) : List Ev := [(exHeader 100, exGtid n), (exHeader 200, exQuery "BEGIN"), (exHeader 300, .xid ⟨7⟩)]

theorem exMysqlTx_ok (n : Nat) : MysqlTx ⟨exUuid, n⟩ (exMysqlTx n) :=
  MysqlTx.block (mid := []) (body := []) (x := ⟨⟨exUuid, n⟩, 1⟩) rfl (by simp) rfl (by simp) trivial

/-- 5, 8 and 5 again; 8 and 5. -/
example : FromSet exClient exSet ∧ Wf exSet ∧ AllCanonical exSet ∧ (∀ e ∈ exSet.uuidSets, InRange e.2.intervals) ∧
    (∀ p ∈ [Part.tx ⟨exUuid, 5⟩ (exMysqlTx 5), .tx ⟨exUuid, 8⟩ (exMysqlTx 8), .tx ⟨exUuid, 5⟩ (exMysqlTx 5)], p.Ok MysqlTx) ∧
    (∀ p ∈ [Part.tx ⟨exUuid, 8⟩ (exMysqlTx 8), .tx ⟨exUuid, 5⟩ (exMysqlTx 5)], p.Ok MysqlTx) ∧
    (∀ g ∈ [(⟨exUuid, 5⟩ : Gtid), ⟨exUuid, 8⟩, ⟨exUuid, 5⟩], GtidOk g) ∧
    (∀ g, g ∈ [(⟨exUuid, 5⟩ : Gtid), ⟨exUuid, 8⟩, ⟨exUuid, 5⟩] ↔ g ∈ [(⟨exUuid, 8⟩ : Gtid), ⟨exUuid, 5⟩]) := by
  refine ⟨⟨rfl, rfl, rfl⟩, exSet_wf, exSet_canonical, fun e he => (exSet_ordered e he).2, ?_, ?_, ?_, ?_⟩
  · simp only [List.mem_cons, List.not_mem_nil, or_false]
    rintro p (rfl | rfl | rfl) <;> exact exMysqlTx_ok _
  · simp only [List.mem_cons, List.not_mem_nil, or_false]
    rintro p (rfl | rfl) <;> exact exMysqlTx_ok _
  · simp only [List.mem_cons, List.not_mem_nil, or_false]
    rintro p (rfl | rfl | rfl) <;> exact ⟨UuidCanon_ok exUuid_canon, by decide⟩
  · intro g
    simp only [List.mem_cons, List.not_mem_nil, or_false]
    tauto

/-- C131 is false of MariaDB lists: the transactions 5 and 6 of a domain committed in the other order record 5 as the last, and 6 will
be sent again; and after the first of the two commits the list says that 5 has been dealt with, which it has not. -/
theorem C131_mariadb_any_order_false (m : Mode) : ∃ (es₅ es₆ : List Ev) (a b c : Client),
    MariaTx ⟨0, 1, 5⟩ es₅ ∧ MariaTx ⟨0, 1, 6⟩ es₆ ∧
    commitAll m exMClient (es₅ ++ es₆) = .ok a ∧ a.options.binlog.gtidList = some ⟨[⟨0, 1, 6⟩]⟩ ∧
    commitAll m exMClient (es₆ ++ es₅) = .ok b ∧ b.options.binlog.gtidList = some ⟨[⟨0, 1, 5⟩]⟩ ∧
    commitAll m exMClient es₆ = .ok c ∧ c.options.binlog.gtidList = some ⟨[⟨0, 1, 6⟩]⟩ := by
  have tx : ∀ n, MariaTx ⟨0, 1, n⟩ [(exHeader 100, exMGtid n), (exHeader 400, .xid ⟨7⟩)] := fun n =>
    MariaTx.block (x := ⟨⟨0, 1, n⟩, 0⟩) (body := []) rfl (by simp) trivial
  let at' (n : Nat) : Client :=
    { exMClient with
      mariaGtid := some ⟨0, 1, n⟩
      options := { exMClient.options with binlog := { exMClient.options.binlog with position := 400, gtidList := some ⟨[⟨0, 1, n⟩]⟩ } } }
  refine ⟨_, _, at' 6, at' 5, at' 6, tx 5, tx 6, ?_, rfl, ?_, rfl, ?_, rfl⟩ <;> (revert m; rintro ⟨_ | _⟩ <;> decide +kernel)

theorem nodup_of_domains {xs : List MGtid} (h : (xs.map (·.domainId)).Nodup) : xs.Nodup :=
  (List.pairwise_map.1 h).imp fun h e => h (by rw [e])

theorem exists_lastOf_domain (xs : List MGtid) {y : MGtid} (hy : y ∈ xs) : ∃ g, LastOf xs g ∧ g.domainId = y.domainId := by
  induction xs generalizing y with
  | nil => simp at hy
  | cons x xs ih =>
    by_cases h : ∃ z ∈ xs, z.domainId = y.domainId
    · obtain ⟨z, hz, e⟩ := h
      obtain ⟨g, ⟨a, b, e1, e2⟩, e3⟩ := ih hz
      exact ⟨g, ⟨x :: a, b, by rw [e1]; rfl, e2⟩, e3.trans e⟩
    · rcases List.mem_cons.1 hy with rfl | hy
      · exact ⟨y, ⟨[], xs, rfl, fun z hz e => h ⟨z, hz, e⟩⟩, rfl⟩
      · exact absurd ⟨y, hy, rfl⟩ h

theorem noneOf_iff_noLast (xs : List MGtid) (d : Nat) : (∀ y ∈ xs, y.domainId ≠ d) ↔ ∀ g, LastOf xs g → g.domainId ≠ d := by
  constructor
  · rintro h g ⟨a, b, e, _⟩
    exact h g (by rw [e]; simp)
  · rintro h y hy rfl
    obtain ⟨g, hg, e⟩ := exists_lastOf_domain xs hy
    exact h g hg e

/-- C131 for MariaDB lists, where in both orders the last transaction of each domain is the same one: the lists recorded have the same
entries. (Missing: other orders, see `C131_mariadb_any_order_false`; transactions with statements inside, see
`C18_statement_in_transaction_false`.) -/
theorem C131_mariadb_partial (m : Mode) (c₁ c₂ : Client) (list : GtidList) (h₁ : FromList c₁ list) (h₂ : FromList c₂ list)
    (hl : (list.gtids.map (·.domainId)).Nodup) (ps₁ ps₂ : List (Part MGtid)) (hp₁ : ∀ p ∈ ps₁, p.Ok MariaTx) (hp₂ : ∀ p ∈ ps₂, p.Ok MariaTx)
    (hs₁ : ∀ p ∈ ps₁, NoStatementBefore p.events) (hs₂ : ∀ p ∈ ps₂, NoStatementBefore p.events)
    (same : ∀ g, LastOf (ps₁.flatMap Part.gtids) g ↔ LastOf (ps₂.flatMap Part.gtids) g) :
    ∃ d₁ d₂ l₁ l₂, commitAll m c₁ (flat ps₁) = .ok d₁ ∧ commitAll m c₂ (flat ps₂) = .ok d₂ ∧
      d₁.options.binlog.gtidList = some l₁ ∧ d₂.options.binlog.gtidList = some l₂ ∧ l₁.gtids.Perm l₂.gtids := by
  have all : ∀ ps : List (Part MGtid), finished (flat ps).length ps = ps.flatMap Part.gtids := by
    intro ps
    induction ps with
    | nil => rfl
    | cons p ps ih =>
      have hflat : flat (p :: ps) = p.events ++ flat ps := by simp [flat]
      rw [finished, hflat, List.length_append, if_pos (by omega), Nat.add_sub_cancel_left, ih]
      rfl
  have key : ∀ ps : List (Part MGtid), (∀ p ∈ ps, p.Ok MariaTx) → (∀ p ∈ ps, NoStatementBefore p.events) → ∀ c, FromList c list →
      ∃ d l, commitAll m c (flat ps) = .ok d ∧ d.options.binlog.gtidList = some l ∧ (l.gtids.map (·.domainId)).Nodup ∧
        ∀ g, g ∈ l.gtids ↔ LastOf (ps.flatMap Part.gtids) g ∨ (g ∈ list.gtids ∧ ∀ y ∈ ps.flatMap Part.gtids, y.domainId ≠ g.domainId) := by
    intro ps hp hs c hc
    obtain ⟨d, l, a, b, _, e, f⟩ := C18_exactly_finished_partial m c list hc hl ps hp hs (flat ps).length
    rw [List.take_length] at a
    rw [all] at f
    exact ⟨d, l, a, b, e, f⟩
  obtain ⟨d₁, l₁, a1, a2, a3, a4⟩ := key ps₁ hp₁ hs₁ c₁ h₁
  obtain ⟨d₂, l₂, b1, b2, b3, b4⟩ := key ps₂ hp₂ hs₂ c₂ h₂
  refine ⟨d₁, d₂, l₁, l₂, a1, b1, a2, b2, ?_⟩
  rw [List.perm_ext_iff_of_nodup (nodup_of_domains a3) (nodup_of_domains b3)]
  intro g
  rw [a4, b4, same]
  have : (∀ y ∈ ps₁.flatMap Part.gtids, y.domainId ≠ g.domainId) ↔ (∀ y ∈ ps₂.flatMap Part.gtids, y.domainId ≠ g.domainId) := by
    rw [noneOf_iff_noLast, noneOf_iff_noLast]
    simp only [same]
  rw [this]

/-- Two domains, in one order and the other. -/
example : FromList exMClient ⟨[⟨0, 1, 4⟩]⟩ ∧
    (∀ g, LastOf [(⟨0, 1, 5⟩ : MGtid), ⟨2, 1, 9⟩] g ↔ LastOf [(⟨2, 1, 9⟩ : MGtid), ⟨0, 1, 5⟩] g) ∧
    MariaTx ⟨2, 1, 9⟩ [(exHeader 100, .mariaDbGtid ⟨⟨2, 1, 9⟩, 0⟩), (exHeader 400, .xid ⟨7⟩)] ∧
    NoStatementBefore [(exHeader 100, .mariaDbGtid ⟨⟨2, 1, 9⟩, 0⟩), (exHeader 400, .xid ⟨7⟩)] := by
  refine ⟨⟨rfl, rfl, rfl, rfl⟩, fun g => ?_, MariaTx.block (x := ⟨⟨2, 1, 9⟩, 0⟩) (body := []) rfl (by simp) trivial, ?_⟩
  · have key : ∀ x y : MGtid, x.domainId ≠ y.domainId → (LastOf [x, y] g ↔ g = x ∨ g = y) := by
      intro x y hne
      constructor
      · rintro ⟨a, b, e, _⟩
        have : g ∈ [x, y] := by rw [e]; simp
        simpa using this
      · rintro (rfl | rfl)
        · exact ⟨[], [y], rfl, by simpa using hne.symm⟩
        · exact ⟨[x], [], rfl, by simp⟩
    rw [key _ _ (by decide), key _ _ (by decide), or_comm]
  · intro p hp
    simp only [List.dropLast, List.mem_singleton] at hp
    subst hp
    simp [AutoCommits, Begins]

/-- C131 is false of a file position: committing the transaction that ends at 400 before the one that ends at 300 records 300. -/
theorem C131_position_any_order_false (m : Mode) : ∃ c : Client,
    commitAll m ⟨{ ReplicaOptions.default with binlog := .fromPosition "bin.1".toList 4 }, false, none, none⟩
      [(exHeader 400, .xid ⟨8⟩), (exHeader 300, .xid ⟨7⟩)] = .ok c ∧ c.options.binlog.position = 300 := by
  refine ⟨⟨{ ReplicaOptions.default with binlog := .fromPosition "bin.1".toList 300 }, false, none, none⟩, ?_, rfl⟩
  revert m
  rintro ⟨_ | _⟩ <;> decide +kernel

end MysqlCdc
