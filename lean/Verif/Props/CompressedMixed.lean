import Verif.Props.Compressed
/-!
# C109: compressed and tagged transactions in one stream
-/

namespace MysqlCdc
open Spec

/-- Closing a transaction records the pending GTID, if there is one. -/
theorem closes_pending (m : Mode) {c : Client} {tr : Bool} {l : Option Gtid} {set : GtidSet} (hc : Mv c tr l set) (hl : ∀ g, l = some g → GtidOk g)
    (hw : Wf set) (ho : AllOrdered set) (h : EventHeader) {e : BinlogEvent} (he : Ends e ∨ (AutoCommits e ∧ tr = false)) :
    ∃ c' set', c.commit m h e = .ok c' ∧ Mv c' false l set' ∧ Wf set' ∧ AllOrdered set' ∧
      ∀ u n, Has set' u n ↔ Has set u n ∨ ∃ g, l = some g ∧ u = g.sourceId.data ∧ n = g.transactionId := by
  cases l with
  | none =>
    obtain ⟨c', h1, h2⟩ := hc.closesNone m h he
    exact ⟨c', set, h1, h2, hw, ho, by simp⟩
  | some g =>
    obtain ⟨b, set1, a1, a2, a3, a4⟩ := addGtid_has m set g hw ho (hl g rfl)
    have hsame : ∀ u n, Has set1 u n ↔ Has set u n ∨ ∃ g', some g = some g' ∧ u = g'.sourceId.data ∧ n = g'.transactionId := fun u n => by
      rw [a4]; simp
    rcases he with he | ⟨he, rfl⟩
    · obtain ⟨c', h1, h2⟩ := hc.ends m h he a1
      exact ⟨c', set1, h1, h2, a2, a3, hsame⟩
    · obtain ⟨c', h1, h2⟩ := hc.auto m h he a1
      exact ⟨c', set1, h1, h2, a2, a3, hsame⟩

/-- A tagged transaction records the pending GTID with its last event. -/
theorem tagged_split (m : Mode) {es : List Ev} (hes : TaggedTx es) (l : Option Gtid) : ∃ front last, es = front ++ [last] ∧ ∃ tr, Keeps m false l front tr l ∧
    KeepsAll m false l front ∧ (Ends last.2 ∨ (AutoCommits last.2 ∧ tr = false)) := by
  cases hes with
  | @block h0 hb he b e mid body h hm hbegin hi' hend =>
    have hn : ∀ p ∈ (h0, BinlogEvent.unknown) :: mid, Neutral p.2 := by simp only [List.mem_cons, forall_eq_or_imp]; exact ⟨trivial, hm⟩
    have k1 := keeps_neutral m false l _ hn
    have k3 : Keeps m false l [(hb, b)] true l := Keeps.one fun c set hc => hc.begins m hb hbegin
    have k4 := keeps_inside m l body hi'
    refine ⟨(h0, .unknown) :: mid ++ [(hb, b)] ++ body, (he, e), by simp, true, (k1.append k3).append k4, ?_, .inl hend⟩
    exact ((keepsAll_neutral m false l _ hn).append k1 (KeepsAll.one k3)).append (k1.append k3) (keepsAll_inside m _ body hi')
  | @auto h0 he e mid h hm hauto =>
    have hn : ∀ p ∈ (h0, BinlogEvent.unknown) :: mid, Neutral p.2 := by simp only [List.mem_cons, forall_eq_or_imp]; exact ⟨trivial, hm⟩
    exact ⟨(h0, .unknown) :: mid, (he, e), rfl, false, keeps_neutral m false l _ hn, keepsAll_neutral m false l _ hn, .inr ⟨hauto, rfl⟩⟩

/-- What one part, entirely committed, leaves pending. -/
def nextPending (l : Option Gtid) : Part TxKind → Option Gtid
  | .tx kind _ => kind.shown.or l
  | .noise _ => l

/-- What one part, entirely committed, records. -/
def recordedBy (l : Option Gtid) : Part TxKind → Option Gtid
  | .tx (.plain g) _ => some g
  | .tx .tagged _ => l
  | _ => none

/-- `TakenForFinished`, with a GTID pending at first. -/
def TakenAfter (l : Option Gtid) (k : Nat) (parts : List (Part TxKind)) (g : Gtid) : Prop :=
  TakenForFinished k parts g ∨
  (l = some g ∧ ∃ mid es post, parts = mid ++ .tx .tagged es :: post ∧ (∀ p ∈ mid, ShowsNone p) ∧ (flat mid).length + es.length ≤ k)

theorem takenAfter_none (k : Nat) (parts : List (Part TxKind)) (g : Gtid) : TakenAfter none k parts g ↔ TakenForFinished k parts g := by
  simp [TakenAfter]

theorem takenAfter_nil (l : Option Gtid) (k : Nat) (g : Gtid) : ¬ TakenAfter l k [] g := by
  simp [TakenAfter, TakenForFinished]

theorem flat_cons_length (p : Part TxKind) (ps : List (Part TxKind)) : (flat (p :: ps)).length = p.events.length + (flat ps).length := by
  simp [flat]

theorem takenAfter_cons (l : Option Gtid) (k : Nat) (p : Part TxKind) (ps : List (Part TxKind)) (g : Gtid) : TakenAfter l k (p :: ps) g ↔
    p.events.length ≤ k ∧ (recordedBy l p = some g ∨ TakenAfter (nextPending l p) (k - p.events.length) ps g) := by
  constructor
  · rintro ((⟨pre, es, post, h, hk⟩ | ⟨pre, es, mid, es', post, h, hm, hk⟩) | ⟨rfl, mid, es, post, h, hm, hk⟩)
    · cases pre with
      | nil =>
        simp only [List.nil_append, List.cons.injEq] at h
        obtain ⟨rfl, rfl⟩ := h
        exact ⟨by simpa [flat, Part.events] using hk, .inl rfl⟩
      | cons q pre =>
        simp only [List.cons_append, List.cons.injEq] at h
        obtain ⟨rfl, rfl⟩ := h
        rw [flat_cons_length] at hk
        exact ⟨by omega, .inr (.inl (.inl ⟨pre, es, post, rfl, by omega⟩))⟩
    · cases pre with
      | nil =>
        simp only [List.nil_append, List.cons_append, List.cons.injEq] at h
        obtain ⟨rfl, rfl⟩ := h
        rw [List.nil_append, flat_cons_length] at hk
        exact ⟨by omega, .inr (.inr ⟨rfl, mid, es', post, rfl, hm, by omega⟩)⟩
      | cons q pre =>
        simp only [List.cons_append, List.cons.injEq] at h
        obtain ⟨rfl, rfl⟩ := h
        rw [List.cons_append, flat_cons_length] at hk
        exact ⟨by omega, .inr (.inl (.inr ⟨pre, es, mid, es', post, by simp, hm, by omega⟩))⟩
    · cases mid with
      | nil =>
        simp only [List.nil_append, List.cons.injEq] at h
        obtain ⟨rfl, rfl⟩ := h
        exact ⟨by simpa [flat, Part.events] using hk, .inl rfl⟩
      | cons q mid =>
        simp only [List.cons_append, List.cons.injEq] at h
        obtain ⟨rfl, rfl⟩ := h
        rw [flat_cons_length] at hk
        refine ⟨by omega, .inr (.inr ⟨?_, mid, es, post, rfl, fun x hx => hm x (by simp [hx]), by omega⟩)⟩
        have hq : ShowsNone p := hm p (by simp)
        cases p with
        | noise e => rfl
        | tx kind es => simp [nextPending, show kind.shown = none from hq kind (by simp [Part.gtids])]
  · rintro ⟨hk, h | ((⟨pre, es, post, rfl, h⟩ | ⟨pre, es, mid, es', post, rfl, hm, h⟩) | ⟨hl, mid, es, post, rfl, hm, h⟩)⟩
    · match p, h with
      | .tx (.plain _) es, rfl => exact .inl (.inl ⟨[], es, ps, rfl, by simpa [flat, Part.events] using hk⟩)
      | .tx .tagged es, h => exact .inr ⟨h, [], es, ps, rfl, by simp, by simpa [flat, Part.events] using hk⟩
    · exact .inl (.inl ⟨p :: pre, es, post, rfl, by rw [flat_cons_length]; omega⟩)
    · exact .inl (.inr ⟨p :: pre, es, mid, es', post, by simp, hm, by rw [List.cons_append, flat_cons_length]; omega⟩)
    · have hlen : (flat (p :: mid)).length + es.length ≤ k := by rw [flat_cons_length]; omega
      match p, hl, hk, hlen with
      | .tx (.plain _) es0, rfl, hk, _ => exact .inl (.inl ⟨[], es0, _, rfl, by simpa [flat, Part.events] using hk⟩)
      | .tx (.compressed _) es0, rfl, _, hlen => exact .inl (.inr ⟨[], es0, mid, es, post, rfl, hm, hlen⟩)
      | .tx .tagged es0, hl, _, hlen =>
        exact .inr ⟨hl, _, es, post, rfl, List.forall_mem_cons.2 ⟨by simp [ShowsNone, Part.gtids, TxKind.shown], hm⟩, hlen⟩
      | .tx .packed es0, hl, _, hlen =>
        exact .inr ⟨hl, _, es, post, rfl, List.forall_mem_cons.2 ⟨by simp [ShowsNone, Part.gtids, TxKind.shown], hm⟩, hlen⟩
      | .noise e, hl, _, hlen =>
        exact .inr ⟨hl, _, es, post, rfl, List.forall_mem_cons.2 ⟨by simp [ShowsNone, Part.gtids], hm⟩, hlen⟩

/-- What one part does to the client, entirely or in part. -/
theorem part_commits (m : Mode) (p : Part TxKind) (hp : p.Ok TxKind.Written) (hg : ∀ kind ∈ p.gtids, ∀ g, kind.shown = some g → GtidOk g) (c : Client)
    (l : Option Gtid) (set : GtidSet) (hc : Mv c false l set) (hl : ∀ g, l = some g → GtidOk g) (hw : Wf set) (ho : AllOrdered set) :
    (∀ k < p.events.length, ∃ c' tr l', commitAll m c (p.events.take k) = .ok c' ∧ Mv c' tr l' set) ∧
    ∃ c' set', commitAll m c p.events = .ok c' ∧ Mv c' false (nextPending l p) set' ∧ Wf set' ∧ AllOrdered set' ∧
      ∀ u n, Has set' u n ↔ Has set u n ∨ ∃ g, recordedBy l p = some g ∧ u = g.sourceId.data ∧ n = g.transactionId := by
  have hquiet : ∀ es : List Ev, (∀ e ∈ es, Neutral e.2) →
      (∀ k < es.length, ∃ c' tr l', commitAll m c (es.take k) = .ok c' ∧ Mv c' tr l' set) ∧
      ∃ c', commitAll m c es = .ok c' ∧ Mv c' false l set := fun es hes =>
    ⟨fun k _ => by
      obtain ⟨c1, h1, h2⟩ := keeps_neutral m false l (es.take k) (fun e he => hes e (List.mem_of_mem_take he)) c set hc
      exact ⟨c1, _, _, h1, h2⟩, by
      obtain ⟨c1, h1, h2⟩ := keeps_neutral m false l es hes c set hc
      exact ⟨c1, h1, h2⟩⟩
  match p, hp with
  | .noise e, hp =>
    obtain ⟨h0, c1, h1, h2⟩ := hquiet [e] (by simpa using (show Neutral e.2 from hp))
    exact ⟨h0, c1, set, h1, h2, hw, ho, by simp [recordedBy]⟩
  | .tx .packed es, ⟨a, b, _, _, hes⟩ =>
    subst hes
    obtain ⟨h0, c1, h1, h2⟩ := hquiet [(a, .unknown), (b, .unknown)] (by simp [Neutral])
    exact ⟨h0, c1, set, h1, by simpa [nextPending, TxKind.shown] using h2, hw, ho, by simp [recordedBy]⟩
  | .tx (.compressed g) es, hp =>
    obtain ⟨hx, -⟩ := (show CompressedTx g es from hp)
    rename_i h0 h1 x
    subst hx
    obtain ⟨c1, e1, f1⟩ := hc.gtid m h0 x
    obtain ⟨c2, e2, f2⟩ := f1.neutral m h1 (e := .unknown) trivial
    refine ⟨fun k hk => ?_, c2, set, by simp [Part.events, commitAll, e1, e2], by simpa [nextPending, TxKind.shown] using f2, hw, ho, by simp [recordedBy]⟩
    match k, hk with
    | 0, _ => exact ⟨c, false, l, by simp [commitAll], hc⟩
    | 1, _ => exact ⟨c1, false, _, by simp [Part.events, commitAll, e1], f1⟩
  | .tx (.plain g) es, hp =>
    obtain ⟨front, last, rfl, hfront, hfull⟩ := mysqlTx_split m (show MysqlTx g es from hp) l
    obtain ⟨b, set1, a1, a2, a3, a4⟩ := addGtid_has m set g hw ho (hg (.plain g) (by simp [Part.gtids]) g rfl)
    obtain ⟨c1, h1, h2⟩ := hfull c set set1 b hc a1
    refine ⟨fun k hk => ?_, c1, set1, h1, by simpa [nextPending, TxKind.shown] using h2, a2, a3, fun u n => by rw [a4]; simp [recordedBy]⟩
    simp only [Part.events, List.length_append, List.length_singleton] at hk
    obtain ⟨tr, l', hkeep⟩ := hfront k
    obtain ⟨c1, h1, h2⟩ := hkeep c set hc
    exact ⟨c1, tr, l', by rw [Part.events, List.take_append_of_le_length (by omega), h1], h2⟩
  | .tx .tagged es, hp =>
    obtain ⟨front, last, rfl, tr, kk, ka, hlast⟩ := tagged_split m (show TaggedTx es from hp) l
    obtain ⟨c1, h1, h2⟩ := kk c set hc
    obtain ⟨c2, set2, h3, h4, h5, h6, h7⟩ := closes_pending m h2 hl hw ho last.1 hlast
    refine ⟨fun k hk => ?_, c2, set2, by rw [Part.events, commitAll_append, h1]; simp [commitAll, h3], by simpa [nextPending, TxKind.shown] using h4, h5, h6,
      fun u n => by rw [h7]; simp [recordedBy]⟩
    simp only [Part.events, List.length_append, List.length_singleton] at hk
    obtain ⟨tr, l', hkeep⟩ := ka k
    obtain ⟨c1, h1, h2⟩ := hkeep c set hc
    exact ⟨c1, tr, l', by rw [Part.events, List.take_append_of_le_length (by omega), h1], h2⟩

theorem mixed_prefix (m : Mode) (parts : List (Part TxKind)) (hp : ∀ p ∈ parts, p.Ok TxKind.Written)
    (hg : ∀ kind ∈ parts.flatMap Part.gtids, ∀ g, kind.shown = some g → GtidOk g) (k : Nat) (c : Client) (l : Option Gtid) (set : GtidSet)
    (hc : Mv c false l set) (hl : ∀ g, l = some g → GtidOk g) (hw : Wf set) (ho : AllOrdered set) :
    ∃ c' set', commitAll m c ((flat parts).take k) = .ok c' ∧ c'.options.binlog.gtidSet = some set' ∧ Wf set' ∧ AllOrdered set' ∧
      ∀ u n, Has set' u n ↔ Has set u n ∨ ∃ g, TakenAfter l k parts g ∧ u = g.sourceId.data ∧ n = g.transactionId := by
  induction parts generalizing k c l set with
  | nil => exact ⟨c, set, by simp [flat, commitAll], hc.set, hw, ho, by simp [takenAfter_nil]⟩
  | cons p ps ih =>
    have hflat : flat (p :: ps) = p.events ++ flat ps := by simp [flat]
    have hgp : ∀ kind ∈ p.gtids, ∀ g, kind.shown = some g → GtidOk g := fun kind hk => hg kind (by simp only [List.flatMap_cons, List.mem_append]; exact .inl hk)
    obtain ⟨hpart, c1, set1, h1, h2, h3, h4, h5⟩ := part_commits m p (hp p (by simp)) hgp c l set hc hl hw ho
    rw [hflat]
    by_cases hk : p.events.length ≤ k
    · rw [List.take_append, List.take_of_length_le hk, commitAll_append, h1]
      obtain ⟨c2, set2, i1, i2, i3, i4, i5⟩ := ih (fun q hq => hp q (by simp [hq]))
        (fun kind hk => hg kind (by simp only [List.flatMap_cons, List.mem_append]; exact .inr hk)) (k - p.events.length) c1 (nextPending l p) set1 h2
        (fun g hgl => by
          cases p with
          | noise e => exact hl g hgl
          | tx kind es =>
            rcases Option.or_eq_some_iff.1 hgl with h | ⟨-, h⟩
            · exact hgp kind (by simp [Part.gtids]) g h
            · exact hl g h) h3 h4
      refine ⟨c2, set2, i1, i2, i3, i4, fun u n => ?_⟩
      rw [i5, h5]
      simp only [takenAfter_cons, hk, true_and]
      constructor
      · rintro ((h | ⟨g, h, e⟩) | ⟨g, h, e⟩)
        · exact .inl h
        · exact .inr ⟨g, .inl h, e⟩
        · exact .inr ⟨g, .inr h, e⟩
      · rintro (h | ⟨g, h | h, e⟩)
        · exact .inl (.inl h)
        · exact .inl (.inr ⟨g, h, e⟩)
        · exact .inr ⟨g, h, e⟩
    · obtain ⟨c2, tr, l2, j1, j2⟩ := hpart k (by omega)
      refine ⟨c2, set, by rw [List.take_append_of_le_length (by omega), j1], j2.set, hw, ho, ?_⟩
      simp [takenAfter_cons, hk]

/-- **C109.** Transactions of all kinds in one stream: after any number of events, exactly these have been added: the ordinary transactions of which all
events were committed, and the compressed ones behind which all events of an uncompressed tagged transaction were committed with no other GTID in
between. The end of the tagged transaction, whose own GTID is not known, is taken for the end of the compressed one. A tagged transaction is never
recorded. -/
theorem C109_mixed_partial (m : Mode) (c : Client) (set : GtidSet) (hc : FromSet c set) (hlast : c.mysqlGtid = none) (hw : Wf set) (ho : AllOrdered set)
    (parts : List (Part TxKind)) (hp : ∀ p ∈ parts, p.Ok TxKind.Written) (hg : ∀ kind ∈ parts.flatMap Part.gtids, ∀ g, kind.shown = some g → GtidOk g)
    (k : Nat) :
    ∃ c' set', commitAll m c ((flat parts).take k) = .ok c' ∧ c'.options.binlog.gtidSet = some set' ∧ Wf set' ∧ AllOrdered set' ∧
      ∀ u n, Has set' u n ↔ Has set u n ∨ ∃ g, TakenForFinished k parts g ∧ u = g.sourceId.data ∧ n = g.transactionId := by
  obtain ⟨c', set', h1, h2, h3, h4, h5⟩ := mixed_prefix m parts hp hg k c none set ⟨hc.strategy, hc.idle, hlast, hc.set⟩ (fun g h => nomatch h) hw ho
  exact ⟨c', set', h1, h2, h3, h4, by simpa only [takenAfter_none] using h5⟩

/-- GTID 5 compressed; a heartbeat; a tagged GTID, BEGIN, INSERT, XID. -/
def exMixed : List (Part TxKind) :=
  [.tx (.compressed ⟨exUuid, 5⟩) [(exOfType 33 100, exGtid 5), (exOfType 40 200, .unknown)], .noise (exHeader 0, .heartbeat ⟨"bin.1".toList⟩),
   .tx .packed [(exOfType 42 300, .unknown), (exOfType 40 400, .unknown)],
   .tx .tagged [(exOfType 42 700, .unknown), (exOfType 2 800, exQuery "BEGIN"), (exOfType 2 900, exQuery "INSERT"), (exOfType 16 1000, .xid ⟨7⟩)]]

/-- The compressed transaction is not recorded with its last event, the second, but with the last event of the tagged one. -/
example : exClient.mysqlGtid = none ∧ (∀ p ∈ exMixed, p.Ok TxKind.Written) ∧
    (∀ kind ∈ exMixed.flatMap Part.gtids, ∀ g, kind.shown = some g → GtidOk g) ∧
    TakenForFinished 9 exMixed ⟨exUuid, 5⟩ ∧ ¬ TakenForFinished 8 exMixed ⟨exUuid, 5⟩ := by
  refine ⟨rfl, ?_, ?_, .inr ⟨[], _, [exMixed[1], exMixed[2]], _, [], rfl, ?_, by decide⟩, ?_⟩
  · intro p hp
    simp only [exMixed, List.mem_cons, List.not_mem_nil, or_false] at hp
    rcases hp with rfl | rfl | rfl | rfl
    · exact exCompressed_tx
    · exact trivial
    · exact ⟨_, _, rfl, rfl, rfl⟩
    · exact TaggedTx.block (mid := []) (body := [(exOfType 2 900, exQuery "INSERT")]) rfl (by simp) rfl (by simp [Inside, IsGtid, Ends, exQuery]) trivial
  · intro kind hk g hgs
    simp only [exMixed, List.flatMap_cons, List.flatMap_nil, Part.gtids, List.append_nil, List.cons_append, List.nil_append, List.mem_cons,
      List.not_mem_nil, or_false] at hk
    rcases hk with rfl | rfl | rfl
    · cases hgs; exact ⟨UuidCanon_ok exUuid_canon, by decide⟩
    · cases hgs
    · cases hgs
  · intro p hp
    simp only [List.mem_cons, List.not_mem_nil, or_false] at hp
    rcases hp with rfl | rfl <;> simp [exMixed, ShowsNone, Part.gtids, TxKind.shown]
  · rw [← takenAfter_none, exMixed]
    simp only [takenAfter_cons, Part.events, List.length_cons, List.length_nil]
    simp [recordedBy]

end MysqlCdc
