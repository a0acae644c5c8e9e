import Verif.Spec.CompressedMaria
import Verif.Props.Client
import Verif.Props.Decoder
/-!
# C110: compressed statements of MariaDB
-/

namespace MysqlCdc
open Spec

/-- A transaction without statements inside is a quiet front and an event that commits. -/
theorem mariaTx_quiet {g : MGtid} {es : List Ev} (h : MariaTx g es) (hns : NoStatementBefore es) : ∃ h0 x mid last,
    es = (h0, BinlogEvent.mariaDbGtid x) :: mid ++ [last] ∧ x.gtid = g ∧ (∀ p ∈ mid, Neutral p.2) ∧ (Ends last.2 ∨ AutoCommits last.2) := by
  cases h with
  | @block h0 he x e body hx hi hend =>
    refine ⟨h0, x, body, (he, e), rfl, hx, ?_, Or.inl hend⟩
    intro p hp
    have h1 := hi p hp
    have h2 := hns p (by rw [List.dropLast_concat]; simp [hp])
    obtain ⟨hd, e⟩ := p
    cases e with
    | query q =>
      simp only [Inside, Ends, not_or, AutoCommits, Begins] at h1 h2
      simp only [Neutral]
      exact Classical.byContradiction fun hq => h2.1 ⟨hq, h2.2, h1.2.1, h1.2.2⟩
    | mySqlGtid x => exact absurd trivial h1.1
    | mariaDbGtid x => exact absurd trivial h1.1
    | xid x => exact absurd trivial h1.2
    | _ => trivial
  | @auto h0 he x e mid hx hm hauto => exact ⟨h0, x, mid, (he, e), rfl, hx, hm, Or.inr hauto⟩

/-- **C110.** Compressed statements among transactions: after any number of events, the recorded list holds for each domain the last GTID of those
transactions that are not compressed statements and of which all events were committed, or what it held before. (Missing: the compressed statements
themselves, see `C110_false`; transactions with statements inside, as in C18.) -/
theorem C110_compressed_partial (m : Mode) (c : Client) (list : GtidList) (hc : FromList c list) (hl : (list.gtids.map (·.domainId)).Nodup)
    (parts : List (Part (Option MGtid))) (hp : ∀ p ∈ parts, p.Ok MariaOrCompressed) (hs : ∀ p ∈ parts, NoStatementBefore p.events) (k : Nat) :
    ∃ c' list', commitAll m c ((flat parts).take k) = .ok c' ∧ c'.options.binlog.gtidList = some list' ∧ c'.options.binlog.gtidSet = none ∧
      (list'.gtids.map (·.domainId)).Nodup ∧ ∀ g, g ∈ list'.gtids ↔ LastOf ((finished k parts).filterMap id) g ∨
        (g ∈ list.gtids ∧ ∀ y, some y ∈ finished k parts → y.domainId ≠ g.domainId) := by
  suffices H : ∀ (parts : List (Part (Option MGtid))) (k : Nat) (c : Client) (l : Option MGtid) (list : GtidList),
      (∀ p ∈ parts, p.Ok MariaOrCompressed) → (∀ p ∈ parts, NoStatementBefore p.events) → Mw c l list → c.transaction = false →
      ∃ c' l', commitAll m c ((flat parts).take k) = .ok c' ∧ Mw c' l' (addAllM list ((finished k parts).filterMap id)) by
    obtain ⟨c', l', h1, h2⟩ := H parts k c c.mariaGtid list hp hs ⟨hc.strategy, rfl, hc.list, hc.noSet⟩ hc.idle
    refine ⟨c', _, h1, h2.list, h2.set, C14_history_distinct list _ hl, fun g => ?_⟩
    rw [C13_last_of_each_domain list _ hl g]
    simp
  clear hp hs hl hc c list parts k
  intro parts
  induction parts with
  | nil => intro k c l list _ _ hc _; exact ⟨c, l, by simp [flat, commitAll], hc⟩
  | cons p ps ih =>
    intro k c l list hp hs hc ht
    have hflat : flat (p :: ps) = p.events ++ flat ps := by simp [flat]
    have hps : ∀ q ∈ ps, q.Ok MariaOrCompressed := fun q hq => hp q (by simp [hq])
    have hss : ∀ q ∈ ps, NoStatementBefore q.events := fun q hq => hs q (by simp [hq])
    rw [hflat, finished]
    by_cases hk : p.events.length ≤ k
    · rw [if_pos hk, List.take_append, List.take_of_length_le hk, commitAll_append]
      cases p with
      | noise e =>
        have hn : ∀ p ∈ [e], Neutral p.2 := by simpa using (show Neutral e.2 from hp (.noise e) (by simp))
        obtain ⟨c1, h1, h2⟩ := hc.quiets m [e] fun p hp => neutral_inside (hn p hp)
        have h3 := neutral_transaction hn h1
        rw [Part.events, h1]
        exact ih _ c1 l list hps hss h2 (by rw [h3, ht])
      | tx g es =>
        cases g with
        | none =>
          obtain ⟨g, ⟨rfl, hn, -⟩⟩ := hp (.tx none es) (by simp)
          rename_i h0 h1 x mid
          obtain ⟨c1, e1, f1, g1⟩ := hc.gtid m h0 x
          have hn' : ∀ p ∈ mid ++ [(h1, BinlogEvent.unknown)], Neutral p.2 := by
            simp only [List.mem_append, List.mem_singleton]
            rintro p (h | rfl)
            · exact hn p h
            · trivial
          obtain ⟨c2, e2, g2⟩ := g1.quiets m (mid ++ [(h1, .unknown)]) fun p hp => neutral_inside (hn' p hp)
          have f2 := neutral_transaction hn' e2
          have hall : commitAll m c (Part.tx (none : Option MGtid) ((h0, BinlogEvent.mariaDbGtid x) :: mid ++ [(h1, .unknown)])).events = .ok c2 := by
            simp only [Part.events, List.cons_append, commitAll, e1, Res.bind_ok, e2]
          rw [hall]
          exact ih _ c2 _ list hps hss g2 (by rw [f2, f1, ht])
        | some g =>
          obtain ⟨h0, x, mid, last, rfl, rfl, hn, hlast⟩ := mariaTx_quiet (hp (.tx (some g) es) (by simp)) (hs (.tx (some g) es) (by simp))
          obtain ⟨c1, h1, h1t, h2⟩ := hc.gtid m h0 x
          obtain ⟨c2, h3, h4⟩ := h2.quiets m mid fun p hp => neutral_inside (hn p hp)
          have h5 := neutral_transaction hn h3
          obtain ⟨c3, h6, h7, h8⟩ : ∃ c', c2.commit m last.1 last.2 = .ok c' ∧ c'.transaction = false ∧
              Mw c' (some x.gtid) (list.addGtid x.gtid).2 := by
            rcases hlast with hl | hl
            · exact h4.ends m last.1 hl
            · exact h4.auto (by rw [h5, h1t, ht]) m last.1 hl
          have hall : commitAll m c (Part.tx (some x.gtid) ((h0, BinlogEvent.mariaDbGtid x) :: mid ++ [last])).events = .ok c3 := by
            simp only [Part.events, List.cons_append, commitAll, h1, Res.bind_ok, commitAll_append, h3, h6]
          rw [hall]
          exact ih _ c3 (some x.gtid) _ hps hss h8 h7
    · rw [if_neg hk, List.take_append_of_le_length (by omega)]
      cases p with
      | noise e =>
        simp only [Part.events, List.length_singleton] at hk
        have : k = 0 := by omega
        subst this
        exact ⟨c, l, by simp [commitAll], hc⟩
      | tx g es =>
        obtain ⟨h0, x, mid, last, rfl, hn⟩ : ∃ h0 x mid last, es = (h0, BinlogEvent.mariaDbGtid x) :: mid ++ [last] ∧ ∀ p ∈ mid, Neutral p.2 := by
          cases g with
          | none => obtain ⟨g, ⟨rfl, hn, -⟩⟩ := hp (.tx none es) (by simp); exact ⟨_, _, _, _, rfl, hn⟩
          | some g =>
            obtain ⟨h0, x, mid, last, rfl, rfl, hn, -⟩ := mariaTx_quiet (hp (.tx (some g) es) (by simp)) (hs (.tx (some g) es) (by simp))
            exact ⟨_, _, _, _, rfl, hn⟩
        simp only [Part.events, List.length_append, List.length_cons, List.length_nil] at hk
        cases k with
        | zero => exact ⟨c, l, by simp [commitAll], hc⟩
        | succ k =>
          obtain ⟨c1, h1, _, h2⟩ := hc.gtid m h0 x
          obtain ⟨c2, h3, h4⟩ := h2.quiets m (mid.take k) fun p hp => neutral_inside (hn p (List.mem_of_mem_take hp))
          refine ⟨c2, some x.gtid, ?_, h4⟩
          rw [Part.events, List.cons_append, List.take_succ_cons, List.take_append_of_le_length (by omega)]
          simp [commitAll, h1, h3]

/-- The compressed events of MariaDB (165 for statements, 166 to 171 for rows) are unknown to the decoder, whatever they hold. -/
theorem C110_not_decoded (m : Mode) (st : EventParser) (header : EventHeader) (payload slice : Bytes) (h1 : 165 ≤ header.eventType)
    (h2 : header.eventType ≤ 171) (hs : WithChecksum st.checksumType payload slice) : parseEvent m st header slice = (.ok .unknown, st) :=
  C34_unknown_types m st header payload slice (by simp only [decodedTypes, List.mem_cons, List.not_mem_nil, or_false]; omega) hs

/-- C110. A compressed statement leaves the recorded list as it was. -/
theorem C110_never_recorded (m : Mode) (c : Client) (list : GtidList) (hc : FromList c list) (hl : (list.gtids.map (·.domainId)).Nodup) (g : MGtid)
    (es : List Ev) (ht : CompressedStatement g es) (hn : g ∉ list.gtids) :
    ∃ c' list', commitAll m c es = .ok c' ∧ c'.options.binlog.gtidList = some list' ∧ g ∉ list'.gtids ∧ ∀ x, x ∈ list'.gtids ↔ x ∈ list.gtids := by
  have hq : NoStatementBefore es := by
    obtain ⟨-, hm, -⟩ := ht
    intro p hp
    rw [List.dropLast_concat] at hp
    rcases List.mem_cons.1 hp with rfl | hp
    · simp [AutoCommits, Begins]
    · exact ⟨(neutral_inside (hm p hp)).2, by
        have := hm p hp
        obtain ⟨hd, e⟩ := p
        cases e <;> simp_all [Begins, Neutral]⟩
  obtain ⟨c', list', h1, h2, -, -, h3⟩ := C110_compressed_partial m c list hc hl [.tx none es]
    (by simp only [List.mem_singleton, forall_eq]; exact ⟨g, ht⟩) (by simpa [Part.events] using hq) es.length
  have h4 : ∀ x, x ∈ list'.gtids ↔ x ∈ list.gtids := fun x => by
    rw [h3]
    simp [finished, Part.events, Part.gtids, LastOf]
  exact ⟨c', list', by simpa [flat, Part.events] using h1, h2, by rw [h4]; exact hn, h4⟩

/-! ## A stream with a compressed statement -/

/-- GTID 0-1-5, a compressed statement; GTID 0-1-6, CREATE. -/
def exCompressedMaria : List (Part (Option MGtid)) :=
  [.tx none [(⟨0, 162, 1, 0, 500, 0⟩, exMGtid 5), (⟨0, 165, 1, 0, 600, 0⟩, .unknown)],
   .tx (some ⟨0, 1, 6⟩) [(exHeader 700, exMGtid 6), (exHeader 800, exQuery "CREATE")]]

theorem exCompressedStatement : CompressedStatement ⟨0, 1, 5⟩ [(⟨0, 162, 1, 0, 500, 0⟩, exMGtid 5), (⟨0, 165, 1, 0, 600, 0⟩, .unknown)] :=
  .mk (x := ⟨⟨0, 1, 5⟩, 0⟩) (mid := []) rfl (by simp) rfl

example : FromList exMClient ⟨[⟨0, 1, 4⟩]⟩ ∧ (∀ p ∈ exCompressedMaria, p.Ok MariaOrCompressed) ∧ (∀ p ∈ exCompressedMaria, NoStatementBefore p.events) ∧
    (finished 2 exCompressedMaria).filterMap id = [] ∧ (finished 4 exCompressedMaria).filterMap id = [⟨0, 1, 6⟩] := by
  refine ⟨⟨rfl, rfl, rfl, rfl⟩, ?_, ?_, by decide, by decide⟩
  · intro p hp
    simp only [exCompressedMaria, List.mem_cons, List.not_mem_nil, or_false] at hp
    rcases hp with rfl | rfl
    · exact ⟨_, exCompressedStatement⟩
    · exact MariaTx.auto (mid := []) (x := ⟨⟨0, 1, 6⟩, 0⟩) rfl (by simp) (by simp [AutoCommits, exQuery])
  · intro p hp
    simp only [exCompressedMaria, List.mem_cons, List.not_mem_nil, or_false] at hp
    rcases hp with rfl | rfl <;> simp [NoStatementBefore, Part.events, AutoCommits, Begins, exMGtid]

example : FromList exMClient ⟨[⟨0, 1, 4⟩]⟩ ∧ CompressedStatement ⟨0, 1, 5⟩ [(⟨0, 162, 1, 0, 500, 0⟩, exMGtid 5), (⟨0, 165, 1, 0, 600, 0⟩, .unknown)] ∧
    (⟨0, 1, 5⟩ : MGtid) ∉ (⟨[⟨0, 1, 4⟩]⟩ : GtidList).gtids := ⟨⟨rfl, rfl, rfl, rfl⟩, exCompressedStatement, by decide⟩

example : 165 ≤ (⟨0, 165, 1, 0, 600, 0⟩ : EventHeader).eventType ∧ WithChecksum EventParser.new.checksumType [1, 2] [1, 2] := ⟨by decide, [], rfl, rfl⟩

/-- C110 as stated is false: a compressed statement is not recorded once its events were committed. -/
theorem C110_false (m : Mode) : ¬ ∀ (c : Client) (list : GtidList) (g : MGtid) (es : List Ev), FromList c list → (list.gtids.map (·.domainId)).Nodup →
    CompressedStatement g es → ∃ c' list', commitAll m c es = .ok c' ∧ c'.options.binlog.gtidList = some list' ∧ g ∈ list'.gtids := by
  intro h
  obtain ⟨c', list', h1, h2, h3⟩ := h exMClient ⟨[⟨0, 1, 4⟩]⟩ ⟨0, 1, 5⟩ _ ⟨rfl, rfl, rfl, rfl⟩ (by decide) exCompressedStatement
  obtain ⟨c2, list2, i1, i2, i3, -⟩ := C110_never_recorded m exMClient ⟨[⟨0, 1, 4⟩]⟩ ⟨rfl, rfl, rfl, rfl⟩ (by decide) ⟨0, 1, 5⟩ _ exCompressedStatement (by decide)
  rw [h1] at i1
  cases i1
  rw [h2] at i2
  cases i2
  exact i3 h3

end MysqlCdc
