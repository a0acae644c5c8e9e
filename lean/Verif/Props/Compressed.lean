import Verif.Spec.Compressed
import Verif.Props.Recorded
import Verif.Props.Decoder
/-!
# C109: compressed transactions, and tagged GTIDs
-/

namespace MysqlCdc
open Spec

/-- What the events of a transaction of the shape `S` do to a client that is between transactions and whose pending GTID satisfies `Inv`: nothing. -/
def Silent (m : Mode) (S : List Ev → Prop) (Inv : Option Gtid → GtidSet → Prop) : Prop :=
  ∀ es, S es → ∀ k c l set, Mv c false l set → Inv l set → Wf set → AllOrdered set →
    ∃ c' tr l' set', commitAll m c (es.take k) = .ok c' ∧ Mv c' tr l' set' ∧ Wf set' ∧ AllOrdered set' ∧ (∀ u n, Has set' u n ↔ Has set u n) ∧
      (es.length ≤ k → tr = false ∧ Inv l' set')

theorem finishedPlain_cons (k : Nat) (p : Part (Option Gtid)) (ps : List (Part (Option Gtid))) (g : Gtid) : FinishedPlain k (p :: ps) g ↔
    p.events.length ≤ k ∧ ((∃ es, p = .tx (some g) es) ∨ FinishedPlain (k - p.events.length) ps g) := by
  constructor
  · rintro ⟨pre, es, post, h, hk⟩
    cases pre with
    | nil =>
      simp only [List.nil_append, List.cons.injEq] at h
      obtain ⟨rfl, rfl⟩ := h
      exact ⟨by simpa [flat, Part.events] using hk, .inl ⟨es, rfl⟩⟩
    | cons q pre =>
      simp only [List.cons_append, List.cons.injEq] at h
      obtain ⟨rfl, rfl⟩ := h
      simp only [flat, List.flatMap_cons, List.length_append] at hk
      exact ⟨by omega, .inr ⟨pre, es, post, rfl, by simp only [flat]; omega⟩⟩
  · rintro ⟨hk, ⟨es, rfl⟩ | ⟨pre, es, post, rfl, h⟩⟩
    · exact ⟨[], es, ps, rfl, by simpa [flat, Part.events] using hk⟩
    · refine ⟨p :: pre, es, post, rfl, ?_⟩
      simp only [flat, List.flatMap_cons, List.length_append] at h ⊢
      omega

/-- Silent transactions among ordinary ones. -/
theorem silent_prefix (m : Mode) {S : List Ev → Prop} {Inv : Option Gtid → GtidSet → Prop} (hS : Silent m S Inv)
    (hInv : ∀ g set, GtidOk g → Has set g.sourceId.data g.transactionId → Inv (some g) set) (parts : List (Part (Option Gtid)))
    (hp : ∀ p ∈ parts, OkWith S p) (hg : ∀ g ∈ parts.flatMap Part.gtids, ∀ x ∈ g, GtidOk x) (k : Nat) (c : Client) (l : Option Gtid) (set : GtidSet)
    (hc : Mv c false l set) (hi : Inv l set) (hw : Wf set) (ho : AllOrdered set) :
    ∃ c' set', commitAll m c ((flat parts).take k) = .ok c' ∧ c'.options.binlog.gtidSet = some set' ∧ Wf set' ∧ AllOrdered set' ∧
      ∀ u n, Has set' u n ↔ Has set u n ∨ ∃ g, FinishedPlain k parts g ∧ u = g.sourceId.data ∧ n = g.transactionId := by
  induction parts generalizing k c l set with
  | nil => exact ⟨c, set, by simp [flat, commitAll], hc.set, hw, ho, by simp [FinishedPlain]⟩
  | cons p ps ih =>
    have hflat : flat (p :: ps) = p.events ++ flat ps := by simp [flat]
    rw [hflat]
    by_cases hk : p.events.length ≤ k
    · rw [List.take_append, List.take_of_length_le hk, commitAll_append]
      have hps := fun q hq => hp q (List.mem_cons_of_mem p hq)
      have hgs : ∀ g ∈ ps.flatMap Part.gtids, ∀ x ∈ g, GtidOk x := fun g hg' => hg g (by simp only [List.flatMap_cons, List.mem_append]; exact .inr hg')
      have hcons : ∀ g, FinishedPlain k (p :: ps) g ↔ (∃ es, p = .tx (some g) es) ∨ FinishedPlain (k - p.events.length) ps g := fun g => by
        rw [finishedPlain_cons]; simp [hk]
      cases p with
      | noise e =>
        obtain ⟨c1, h1, h2⟩ := keeps_neutral m false l [e] (by simpa using (show Neutral e.2 from hp (.noise e) (by simp))) c set hc
        rw [Part.events, h1]
        obtain ⟨c2, set2, i1, i2, i3, i4, i5⟩ := ih hps hgs (k - [e].length) c1 l set h2 hi hw ho
        refine ⟨c2, set2, i1, i2, i3, i4, fun u n => ?_⟩
        rw [i5]
        simp only [hcons, reduceCtorEq, exists_false, false_or, Part.events]
      | tx g es =>
        cases g with
        | none =>
          obtain ⟨c1, tr, l1, set1, h1, h2, h3, h4, h5, h6⟩ := hS es (hp (.tx none es) (by simp)) es.length c l set hc hi hw ho
          rw [List.take_length] at h1
          obtain ⟨rfl, h7⟩ := h6 (Nat.le_refl _)
          rw [Part.events, h1]
          obtain ⟨c2, set2, i1, i2, i3, i4, i5⟩ := ih hps hgs (k - es.length) c1 l1 set1 h2 h7 h3 h4
          refine ⟨c2, set2, i1, i2, i3, i4, fun u n => ?_⟩
          rw [i5, h5]
          simp only [hcons, Part.tx.injEq, reduceCtorEq, false_and, exists_false, false_or, Part.events]
        | some g =>
          have hgo := hg (some g) (by simp [Part.gtids]) g rfl
          obtain ⟨b, set1, a1, a2, a3, a4⟩ := addGtid_has m set g hw ho hgo
          obtain ⟨_, _, _, _, hfull⟩ := mysqlTx_split m (hp (.tx (some g) es) (by simp)) l
          obtain ⟨c1, h1, h2⟩ := hfull c set set1 b hc a1
          rw [Part.events, h1]
          obtain ⟨c2, set2, i1, i2, i3, i4, i5⟩ := ih hps hgs (k - es.length) c1 (some g) set1 h2
            (hInv g set1 hgo ((a4 _ _).2 (.inr ⟨rfl, rfl⟩))) a2 a3
          refine ⟨c2, set2, i1, i2, i3, i4, fun u n => ?_⟩
          rw [i5, a4]
          simp only [hcons, Part.tx.injEq, Option.some.injEq, Part.events]
          constructor
          · rintro ((h | h) | ⟨g', h, e⟩)
            · exact .inl h
            · exact .inr ⟨g, .inl ⟨es, rfl, rfl⟩, h⟩
            · exact .inr ⟨g', .inr h, e⟩
          · rintro (h | ⟨g', ⟨_, rfl, _⟩ | h, e⟩)
            · exact .inl (.inl h)
            · exact .inl (.inr e)
            · exact .inr ⟨g', h, e⟩
    · have ht : (p.events ++ flat ps).take k = p.events.take k := by
        rw [List.take_append_of_le_length (by omega)]
      have hno : ∀ g, ¬ FinishedPlain k (p :: ps) g := fun g h => hk ((finishedPlain_cons k p ps g).1 h).1
      simp only [hno, false_and, exists_false, or_false]
      rw [ht]
      cases p with
      | noise e =>
        simp only [Part.events, List.length_singleton] at hk
        have : k = 0 := by omega
        subst this
        exact ⟨c, set, by simp [commitAll], hc.set, hw, ho, by simp⟩
      | tx g es =>
        cases g with
        | none =>
          obtain ⟨c1, tr, l1, set1, h1, h2, h3, h4, h5, -⟩ := hS es (hp (.tx none es) (by simp)) k c l set hc hi hw ho
          exact ⟨c1, set1, h1, h2.set, h3, h4, h5⟩
        | some g =>
          obtain ⟨front, last, rfl, hfront, _⟩ := mysqlTx_split m (hp (.tx (some g) es) (by simp)) l
          simp only [Part.events, List.length_append, List.length_singleton] at hk
          obtain ⟨tr, l', hkeep⟩ := hfront k
          obtain ⟨c1, h1, h2⟩ := hkeep c set hc
          refine ⟨c1, set, ?_, h2.set, hw, ho, by simp⟩
          rw [Part.events, List.take_append_of_le_length (by omega), h1]

theorem silent_compressed (m : Mode) : Silent m (fun es => ∃ g, CompressedTx g es) fun _ _ => True := by
  rintro es ⟨g, ⟨rfl, -⟩⟩ k c l set hc - hw ho
  rename_i h0 h1 x
  obtain ⟨c1, e1, f1⟩ := hc.gtid m h0 x
  obtain ⟨c2, e2, f2⟩ := f1.neutral m h1 (e := .unknown) trivial
  match k with
  | 0 => exact ⟨c, false, l, set, by simp [commitAll], hc, hw, ho, by simp, by simp⟩
  | 1 => exact ⟨c1, false, _, set, by simp [commitAll, e1], f1, hw, ho, by simp, by simp⟩
  | k + 2 => exact ⟨c2, false, _, set, by simp [commitAll, e1, e2], f2, hw, ho, by simp, by simp⟩

/-- **C109.** Compressed transactions among others: after any number of events, exactly the ordinary transactions of which all events were committed have
been added. No compressed transaction is ever recorded, so all of them are asked for again in the next session. -/
theorem C109_compressed_partial (m : Mode) (c : Client) (set : GtidSet) (hc : FromSet c set) (hw : Wf set) (ho : AllOrdered set)
    (parts : List (Part (Option Gtid))) (hp : ∀ p ∈ parts, OkWith (fun es => ∃ g, CompressedTx g es) p)
    (hg : ∀ g ∈ parts.flatMap Part.gtids, ∀ x ∈ g, GtidOk x) (k : Nat) :
    ∃ c' set', commitAll m c ((flat parts).take k) = .ok c' ∧ c'.options.binlog.gtidSet = some set' ∧ Wf set' ∧ AllOrdered set' ∧
      ∀ u n, Has set' u n ↔ Has set u n ∨ ∃ g, FinishedPlain k parts g ∧ u = g.sourceId.data ∧ n = g.transactionId :=
  silent_prefix m (silent_compressed m) (fun _ _ _ _ => trivial) parts hp hg k c c.mysqlGtid set ⟨hc.strategy, hc.idle, rfl, hc.set⟩ trivial hw ho

/-- The pending GTID has been recorded. -/
def PendingDone (l : Option Gtid) (set : GtidSet) : Prop := ∀ g, l = some g → GtidOk g ∧ Has set g.sourceId.data g.transactionId

/-- Closing a transaction once more. -/
theorem closes_again (m : Mode) {c : Client} {tr : Bool} {l : Option Gtid} {set : GtidSet} (hc : Mv c tr l set) (hi : PendingDone l set) (hw : Wf set)
    (ho : AllOrdered set) (h : EventHeader) {e : BinlogEvent} (he : Ends e ∨ (AutoCommits e ∧ tr = false)) :
    ∃ c' set', c.commit m h e = .ok c' ∧ Mv c' false l set' ∧ Wf set' ∧ AllOrdered set' ∧ ∀ u n, Has set' u n ↔ Has set u n := by
  cases l with
  | none =>
    obtain ⟨c', h1, h2⟩ := hc.closesNone m h he
    exact ⟨c', set, h1, h2, hw, ho, fun _ _ => .rfl⟩
  | some g =>
    obtain ⟨hgo, hh⟩ := hi g rfl
    obtain ⟨b, set1, a1, a2, a3, a4⟩ := addGtid_has m set g hw ho hgo
    have hsame : ∀ u n, Has set1 u n ↔ Has set u n := fun u n => by
      rw [a4]; exact ⟨fun h => h.elim id fun h => by rw [h.1, h.2]; exact hh, .inl⟩
    rcases he with he | ⟨he, rfl⟩
    · obtain ⟨c', h1, h2⟩ := hc.ends m h he a1
      exact ⟨c', set1, h1, h2, a2, a3, hsame⟩
    · obtain ⟨c', h1, h2⟩ := hc.auto m h he a1
      exact ⟨c', set1, h1, h2, a2, a3, hsame⟩

theorem silent_tagged (m : Mode) : Silent m TaggedTx PendingDone := by
  intro es hes k c l set hc hi hw ho
  obtain ⟨front, last, rfl, tr, kk, ka, hl⟩ : ∃ front last, es = front ++ [last] ∧ ∃ tr, Keeps m false l front tr l ∧ KeepsAll m false l front ∧
      (Ends last.2 ∨ (AutoCommits last.2 ∧ tr = false)) := by
    cases hes with
    | @block h0 hb he b e mid body h hm hbegin hi' hend =>
      have k1 := keeps_neutral m false l ((h0, .unknown) :: mid) (by simp only [List.mem_cons, forall_eq_or_imp]; exact ⟨trivial, hm⟩)
      have k3 : Keeps m false l [(hb, b)] true l := Keeps.one fun c set hc => hc.begins m hb hbegin
      have k4 := keeps_inside m l body hi'
      refine ⟨(h0, .unknown) :: mid ++ [(hb, b)] ++ body, (he, e), by simp, true, (k1.append k3).append k4, ?_, .inl hend⟩
      exact ((keepsAll_neutral m false l _ (by simp only [List.mem_cons, forall_eq_or_imp]; exact ⟨trivial, hm⟩)).append k1 (KeepsAll.one k3)).append
        (k1.append k3) (keepsAll_inside m _ body hi')
    | @auto h0 he e mid h hm hauto =>
      have hn : ∀ p ∈ (h0, BinlogEvent.unknown) :: mid, Neutral p.2 := by simp only [List.mem_cons, forall_eq_or_imp]; exact ⟨trivial, hm⟩
      exact ⟨(h0, .unknown) :: mid, (he, e), rfl, false, keeps_neutral m false l _ hn, keepsAll_neutral m false l _ hn, .inr ⟨hauto, rfl⟩⟩
  by_cases hk : front.length < k
  · rw [List.take_of_length_le (by simp; omega), commitAll_append]
    obtain ⟨c1, h1, h2⟩ := kk c set hc
    obtain ⟨c2, set2, h3, h4, h5, h6, h7⟩ := closes_again m h2 hi hw ho last.1 hl
    refine ⟨c2, false, l, set2, by rw [h1]; simp [commitAll, h3], h4, h5, h6, h7, fun _ => ⟨rfl, fun g e => ⟨(hi g e).1, (h7 _ _).2 (hi g e).2⟩⟩⟩
  · rw [List.take_append_of_le_length (by omega)]
    obtain ⟨tr', l', hkeep⟩ := ka k
    obtain ⟨c1, h1, h2⟩ := hkeep c set hc
    refine ⟨c1, tr', l', set, h1, h2, hw, ho, fun _ _ => .rfl, fun h => absurd h (by simp; omega)⟩

/-- **C109.** Transactions with tagged GTIDs among others: after any number of events, exactly the ordinary transactions of which all events were committed
have been added. -/
theorem C109_tagged_partial (m : Mode) (c : Client) (set : GtidSet) (hc : FromSet c set) (hlast : c.mysqlGtid = none) (hw : Wf set) (ho : AllOrdered set)
    (parts : List (Part (Option Gtid))) (hp : ∀ p ∈ parts, OkWith TaggedTx p) (hg : ∀ g ∈ parts.flatMap Part.gtids, ∀ x ∈ g, GtidOk x) (k : Nat) :
    ∃ c' set', commitAll m c ((flat parts).take k) = .ok c' ∧ c'.options.binlog.gtidSet = some set' ∧ Wf set' ∧ AllOrdered set' ∧
      ∀ u n, Has set' u n ↔ Has set u n ∨ ∃ g, FinishedPlain k parts g ∧ u = g.sourceId.data ∧ n = g.transactionId :=
  silent_prefix m (silent_tagged m) (fun g set h1 h2 g' h => by injection h with h; subst h; exact ⟨h1, h2⟩) parts hp hg k c none set
    ⟨hc.strategy, hc.idle, hlast, hc.set⟩ (fun g h => nomatch h) hw ho

/-- The two event types are unknown to the decoder, whatever they hold. -/
theorem C109_not_decoded (m : Mode) (st : EventParser) (header : EventHeader) (payload slice : Bytes) (ht : header.eventType = 40 ∨ header.eventType = 42)
    (hs : WithChecksum st.checksumType payload slice) : parseEvent m st header slice = (.ok .unknown, st) :=
  C34_unknown_types m st header payload slice (by rcases ht with h | h <;> rw [h] <;> decide) hs

/-- C109. A compressed transaction that was not recorded before it came is not recorded after all its events were committed. -/
theorem C109_never_recorded (m : Mode) (c : Client) (set : GtidSet) (hc : FromSet c set) (hw : Wf set) (ho : AllOrdered set) (g : Gtid) (es : List Ev)
    (ht : CompressedTx g es) (hn : ¬ Has set g.sourceId.data g.transactionId) :
    ∃ c' set', commitAll m c es = .ok c' ∧ c'.options.binlog.gtidSet = some set' ∧ ¬ Has set' g.sourceId.data g.transactionId := by
  obtain ⟨c', set', h1, h2, -, -, h3⟩ := C109_compressed_partial m c set hc hw ho [.tx none es]
    (by simp only [List.mem_singleton, forall_eq]; exact ⟨g, ht⟩) (by simp [Part.gtids]) es.length
  refine ⟨c', set', by simpa [flat, Part.events] using h1, h2, fun h => ?_⟩
  rcases (h3 _ _).1 h with h | ⟨g', ⟨pre, es', post, h, -⟩, -⟩
  · exact hn h
  · cases pre with
    | nil => simp at h
    | cons q pre => simp at h

/-! ## A stream with both kinds -/

def exOfType (type next : Nat) : EventHeader := ⟨0, type, 1, 0, next, 0⟩

/-- GTID 5 compressed; a heartbeat; GTID 8, CREATE. -/
def exCompressed : List (Part (Option Gtid)) :=
  [.tx none [(exOfType 33 100, exGtid 5), (exOfType 40 200, .unknown)], .noise (exHeader 0, .heartbeat ⟨"bin.1".toList⟩),
   .tx (some ⟨exUuid, 8⟩) [(exOfType 33 500, exGtid 8), (exOfType 2 600, exQuery "CREATE")]]

/-- GTID 8, CREATE; a tagged GTID, BEGIN, INSERT, XID. -/
def exTagged : List (Part (Option Gtid)) :=
  [.tx (some ⟨exUuid, 8⟩) [(exOfType 33 500, exGtid 8), (exOfType 2 600, exQuery "CREATE")],
   .tx none [(exOfType 42 700, .unknown), (exOfType 2 800, exQuery "BEGIN"), (exOfType 2 900, exQuery "INSERT"), (exOfType 16 1000, .xid ⟨7⟩)]]

theorem exCreate_tx : MysqlTx ⟨exUuid, 8⟩ [(exOfType 33 500, exGtid 8), (exOfType 2 600, exQuery "CREATE")] :=
  MysqlTx.auto (mid := []) (x := ⟨⟨exUuid, 8⟩, 1⟩) rfl (by simp) (by simp [AutoCommits, exQuery])

theorem exCompressed_tx : CompressedTx ⟨exUuid, 5⟩ [(exOfType 33 100, exGtid 5), (exOfType 40 200, .unknown)] :=
  .mk (x := ⟨⟨exUuid, 5⟩, 1⟩) rfl rfl

theorem exCompressed_new : ¬ Has exSet exUuid.data 5 := by
  rintro ⟨e, he, h1, h2⟩
  simp only [exSet, List.mem_cons, List.not_mem_nil, or_false] at he
  rcases he with rfl | rfl
  · revert h2; simp [InIvs]
  · revert h1; decide

example : FromSet exClient exSet ∧ Wf exSet ∧ AllOrdered exSet ∧ (∀ p ∈ exCompressed, OkWith (fun es => ∃ g, CompressedTx g es) p) ∧
    (∀ g ∈ exCompressed.flatMap Part.gtids, ∀ x ∈ g, GtidOk x) ∧ FinishedPlain 5 exCompressed ⟨exUuid, 8⟩ ∧ ¬ FinishedPlain 5 exCompressed ⟨exUuid, 5⟩ := by
  refine ⟨⟨rfl, rfl, rfl⟩, exSet_wf, exSet_ordered, ?_, ?_, ⟨exCompressed.take 2, _, [], rfl, by decide⟩, ?_⟩
  · intro p hp
    simp only [exCompressed, List.mem_cons, List.not_mem_nil, or_false] at hp
    rcases hp with rfl | rfl | rfl
    · exact ⟨_, exCompressed_tx⟩
    · exact trivial
    · exact exCreate_tx
  · intro g hg x hx
    simp only [exCompressed, List.flatMap_cons, List.flatMap_nil, Part.gtids, List.append_nil, List.cons_append, List.nil_append, List.mem_cons,
      List.not_mem_nil, or_false] at hg
    rcases hg with rfl | rfl
    · cases hx
    · cases hx; exact ⟨UuidCanon_ok exUuid_canon, by decide⟩
  · simp only [exCompressed, finishedPlain_cons]
    simp [FinishedPlain]

example : exClient.mysqlGtid = none ∧ (∀ p ∈ exTagged, OkWith TaggedTx p) ∧ (∀ g ∈ exTagged.flatMap Part.gtids, ∀ x ∈ g, GtidOk x) ∧
    FinishedPlain 6 exTagged ⟨exUuid, 8⟩ := by
  refine ⟨rfl, ?_, ?_, ⟨[], _, exTagged.drop 1, rfl, by decide⟩⟩
  · intro p hp
    simp only [exTagged, List.mem_cons, List.not_mem_nil, or_false] at hp
    rcases hp with rfl | rfl
    · exact exCreate_tx
    · exact TaggedTx.block (mid := []) (body := [(exOfType 2 900, exQuery "INSERT")]) rfl (by simp) rfl (by simp [Inside, IsGtid, Ends, exQuery]) trivial
  · intro g hg x hx
    simp only [exTagged, List.flatMap_cons, List.flatMap_nil, Part.gtids, List.append_nil, List.cons_append, List.nil_append, List.mem_cons,
      List.not_mem_nil, or_false] at hg
    rcases hg with rfl | rfl
    · cases hx; exact ⟨UuidCanon_ok exUuid_canon, by decide⟩
    · cases hx

example : FromSet exClient exSet ∧ Wf exSet ∧ AllOrdered exSet ∧ CompressedTx ⟨exUuid, 5⟩ [(exOfType 33 100, exGtid 5), (exOfType 40 200, .unknown)] ∧
    ¬ Has exSet exUuid.data 5 := ⟨⟨rfl, rfl, rfl⟩, exSet_wf, exSet_ordered, exCompressed_tx, exCompressed_new⟩

example : (exOfType 40 200).eventType = 40 ∧ WithChecksum EventParser.new.checksumType [1, 2] [1, 2] := ⟨rfl, [], rfl, rfl⟩

/-- C109 as stated is false: a compressed transaction is not recorded once its events were committed. -/
theorem C109_false (m : Mode) : ¬ ∀ (c : Client) (set : GtidSet) (g : Gtid) (es : List Ev), FromSet c set → Wf set → AllOrdered set → GtidOk g →
    CompressedTx g es → ∃ c' set', commitAll m c es = .ok c' ∧ c'.options.binlog.gtidSet = some set' ∧ Has set' g.sourceId.data g.transactionId := by
  intro h
  obtain ⟨c', set', h1, h2, h3⟩ := h exClient exSet ⟨exUuid, 5⟩ _ ⟨rfl, rfl, rfl⟩ exSet_wf exSet_ordered ⟨UuidCanon_ok exUuid_canon, by decide⟩ exCompressed_tx
  obtain ⟨c2, set2, i1, i2, i3⟩ := C109_never_recorded m exClient exSet ⟨rfl, rfl, rfl⟩ exSet_wf exSet_ordered ⟨exUuid, 5⟩ _ exCompressed_tx exCompressed_new
  rw [h1] at i1
  cases i1
  rw [h2] at i2
  cases i2
  exact i3 h3

end MysqlCdc
