import Verif.Lemmas.Client
import Verif.Lemmas.Decoded
import Verif.Lemmas.Session
import Verif.Props.Client
/-!
# Recording a transaction never fails: C12
-/

namespace MysqlCdc

open Spec

/-- An event that the decoder has produced, in whatever state and from whatever bytes. -/
def FromDecoder (m : Mode) (e : BinlogEvent) : Prop := ∃ st header slice, (parseEvent m st header slice).1 = .ok e

/-- `GtidSet`s a program can get from the library's functions. -/
inductive SetBuilt (m : Mode) : GtidSet → Prop
  | new : SetBuilt m GtidSet.new
  | parse {t : RStr} {g : GtidSet} : GtidSet.parse m t = .ok g → SetBuilt m g
  | previous {e : PreviousGtidsEvent} : FromDecoder m (.mySqlPrevGtids e) → SetBuilt m e.gtidSet
  | addNew {g g' : GtidSet} {d : Bytes} {n : Nat} {b : Bool} : SetBuilt m g → d.length = 16 →
      g.addGtid m ⟨Uuid.new d, n⟩ = .ok (b, g') → SetBuilt m g'
  | addParsed {g g' : GtidSet} {t : RStr} {u : Uuid} {n : Nat} {b : Bool} : SetBuilt m g → Uuid.parse t = .ok u →
      g.addGtid m ⟨u, n⟩ = .ok (b, g') → SetBuilt m g'

/-- `BinlogOptions` from one of its constructors. -/
inductive OptionsBuilt (m : Mode) : BinlogOptions → Prop
  | start : OptionsBuilt m .fromStart
  | «end» : OptionsBuilt m .fromEnd
  | position (f : RStr) (p : Nat) : OptionsBuilt m (.fromPosition f p)
  | mysql {g : GtidSet} : SetBuilt m g → OptionsBuilt m (.fromMysqlGtid g)
  | mariadb (l : GtidList) : OptionsBuilt m (.fromMariadbGtid l)

/-- In a build with overflow checks, the transaction ids are below `u64::MAX`. -/
def SmallSet (m : Mode) (g : GtidSet) : Prop := m.checks = true → ∀ e ∈ g.uuidSets, InRange e.2.intervals
def SmallEvent (m : Mode) (e : BinlogEvent) : Prop :=
  m.checks = true → ∀ x, e = .mySqlGtid x → x.gtid.transactionId < 2 ^ 64 - 1

/-- The clients a program can have: a new one, or one after `replicate` (successful or not) or `commit` of a decoded event. `small`
restricts the transaction ids, for builds with overflow checks. -/
inductive Reachable (m : Mode) (cr : Crypto) : Client → Prop
  | new {o : ReplicaOptions} {c : Client} : OptionsBuilt m o.binlog → (∀ g, o.binlog.gtidSet = some g → SmallSet m g) →
      Client.new o = .ok c → Reachable m cr c
  | replicate {c : Client} (net : Except IoKind Channel) : Reachable m cr c → Reachable m cr (c.replicate m cr net).2
  | commit {c c' : Client} {h : EventHeader} {e : BinlogEvent} : Reachable m cr c → FromDecoder m e → SmallEvent m e →
      c.commit m h e = .ok c' → Reachable m cr c'

/-! ## Where the ids of servers come from -/

theorem run_inv {α : Type} {p : P α} {bs : Bytes} {a : α} (h : p.run bs = .ok a) : ∃ n, p bs 0 = .ok (a, n) := by
  unfold P.run at h
  cases hp : p bs 0 with
  | ok x =>
    obtain ⟨x, n⟩ := x
    rw [hp] at h
    simp only [Res.ok.injEq] at h
    exact ⟨n, by rw [h]⟩
  | _ => rw [hp] at h; simp at h

theorem decoded_dispatch {m : Mode} {e : BinlogEvent} (h : FromDecoder m e) :
    ∃ tm header body n, dispatchEvent m tm header body 0 = .ok (e, n) := by
  obtain ⟨st, header, slice, h⟩ := h
  unfold parseEvent at h
  cases hb : eventBody st.checksumType slice with
  | ok body =>
    rw [hb] at h
    simp only at h
    cases hr : (dispatchEvent m st.tableMap header).run body with
    | ok e' =>
      rw [hr] at h
      simp only [Res.ok.injEq] at h
      subst h
      obtain ⟨n, hn⟩ := run_inv hr
      exact ⟨_, _, _, n, hn⟩
    | _ => rw [hr] at h; simp at h
  | _ => rw [hb] at h; simp at h

/-- A branch of the dispatch wraps what the body's decoder returns. -/
theorem wrap_inv {α : Type} {p : P α} {f : α → BinlogEvent} {body : Bytes} {e : BinlogEvent} {n : Nat}
    (h : (p >>= fun a => (pure (f a) : P BinlogEvent)) body 0 = .ok (e, n)) : ∃ a k, p body 0 = .ok (a, k) ∧ e = f a := by
  obtain ⟨x, h1, h2⟩ := bind_inv h
  rw [P.ret_apply] at h2
  simp only [Res.ok.injEq, Prod.mk.injEq] at h2
  exact ⟨x.1, x.2, h1, h2.1.symm⟩

theorem decoded_gtid {m : Mode} {x : MySqlGtidEvent} (h : FromDecoder m (.mySqlGtid x)) : UuidCanon x.gtid.sourceId := by
  obtain ⟨tm, header, body, n, h⟩ := decoded_dispatch h
  unfold dispatchEvent at h
  cases ht : EventType.fromCode header.eventType
  all_goals simp only [ht] at h
  all_goals first
    | (obtain ⟨a, k, h1, h2⟩ := wrap_inv h
       injection h2 with h2
       subst h2
       obtain ⟨y, _, h3⟩ := bind_inv h1
       obtain ⟨z, h4, h3⟩ := bind_inv h3
       obtain ⟨w, _, h3⟩ := bind_inv h3
       rw [P.ret_apply] at h3
       simp only [Res.ok.injEq, Prod.mk.injEq] at h3
       have hl : z.1.length = 16 := by
         obtain ⟨e1, e2⟩ := readExact_inv h4
         rw [e1, List.length_take]
         omega
       rw [← h3.1]
       simp only
       rw [uuid_new_eq _ hl]
       exact ⟨hl, rfl⟩)
    | (exfalso
       obtain ⟨a, k, h1, h2⟩ := wrap_inv h
       nomatch h2)
    | (rw [P.ret_apply] at h
       simp at h)

theorem times_inv {α : Type} {p : P α} {n : Nat} {buf : Bytes} {pos : Nat} {r : List α × Nat} (h : P.times n p buf pos = .ok r) :
    ∀ a ∈ r.1, ∃ i k, p buf i = .ok (a, k) := by
  induction n generalizing pos r with
  | zero =>
    simp only [P.times, P.ret, Res.ok.injEq] at h
    subst h
    simp
  | succ n ih =>
    obtain ⟨x, h1, h2⟩ := bind_inv h
    obtain ⟨y, h3, h4⟩ := bind_inv h2
    rw [P.ret_apply] at h4
    simp only [Res.ok.injEq] at h4
    subst h4
    intro a ha
    rcases List.mem_cons.1 ha with rfl | ha
    · exact ⟨_, _, h1⟩
    · exact ih h3 a ha

theorem wf_foldl (sets : List UuidSet) (r : HMap RStr UuidSet) (hr : Wf ⟨r⟩) (hs : ∀ s ∈ sets, UuidOk s.sourceId) :
    Wf ⟨sets.foldl (fun r s => r.insert s.sourceId.uuid s) r⟩ := by
  induction sets generalizing r with
  | nil => exact hr
  | cons s ss ih =>
    rw [List.foldl_cons]
    exact ih _ (wf_insert (g := ⟨r⟩) (u := s.sourceId) (ivs := s.intervals) hr (hs s (by simp))) fun s hs' => hs s (by simp [hs'])

theorem decoded_previous {m : Mode} {e : PreviousGtidsEvent} (h : FromDecoder m (.mySqlPrevGtids e)) : Wf e.gtidSet := by
  obtain ⟨tm, header, body, n, h⟩ := decoded_dispatch h
  unfold dispatchEvent at h
  cases ht : EventType.fromCode header.eventType
  all_goals simp only [ht] at h
  all_goals first
    | (exfalso
       obtain ⟨a, k, h1, h2⟩ := wrap_inv h
       revert h2
       solve | simp)
    | (exfalso
       rw [P.ret_apply] at h
       simp at h)
    | skip
  obtain ⟨a, k, h1, h2⟩ := wrap_inv h
  injection h2 with h2
  subst h2
  obtain ⟨y, _, h3⟩ := bind_inv h1
  obtain ⟨z, h4, h3⟩ := bind_inv h3
  rw [P.ret_apply] at h3
  simp only [Res.ok.injEq, Prod.mk.injEq] at h3
  rw [← h3.1]
  refine wf_foldl _ _ ⟨by simp [GtidSet.new], by simp [GtidSet.new]⟩ ?_
  intro s hs
  obtain ⟨i, k, h5⟩ := times_inv h4 s hs
  obtain ⟨d, h6, h5⟩ := bind_inv h5
  obtain ⟨u, h7, h5⟩ := bind_inv h5
  obtain ⟨_, _, h5⟩ := bind_inv h5
  obtain ⟨_, _, h5⟩ := bind_inv h5
  rw [P.ret_apply] at h5
  simp only [Res.ok.injEq, Prod.mk.injEq] at h5
  rw [← h5.1]
  obtain ⟨e1, e2⟩ := readExact_inv h6
  have hl : d.1.length = 16 := by
    rw [e1, List.length_take]
    omega
  have hu : u.1 = ⟨Uuid.new d.1, []⟩ := by
    simp only [P.lift, UuidSet.new, List.length_nil, Nat.not_lt_zero, if_false, Res.pure_eq, Res.bind_ok, gt_iff_lt,
      Res.ok.injEq] at h7
    rw [← h7]
  rw [hu]
  simp only
  rw [uuid_new_eq _ hl]
  exact UuidCanon_ok ⟨hl, rfl⟩

theorem uuidSet_new_source {m : Mode} {u : Uuid} {ivs : List Interval} {s : UuidSet} (h : UuidSet.new m u ivs = .ok s) :
    s.sourceId = u := by
  unfold UuidSet.new at h
  simp only [Res.pure_eq, Res.bind_ok] at h
  split at h
  · cases hi : collapseIntervals m ivs with
    | ok l =>
      rw [hi] at h
      simp only [Res.bind_ok, Res.ok.injEq] at h
      rw [← h]
    | _ => rw [hi] at h; simp at h
  · simp only [Res.ok.injEq] at h
    rw [← h]

theorem parseUuidSets_wf {m : Mode} {parts : List RStr} {r r' : HMap RStr UuidSet} (hr : Wf ⟨r⟩)
    (h : parseUuidSets m parts r = .ok r') : Wf ⟨r'⟩ := by
  induction parts generalizing r with
  | nil =>
    simp only [parseUuidSets, Res.pure_eq, Res.ok.injEq] at h
    subst h
    exact hr
  | cons p ps ih =>
    rw [parseUuidSets] at h
    cases h1 : Uuid.parse (p.take UUID_LENGTH) with
    | ok u =>
      rw [h1] at h
      simp only [Res.bind_ok] at h
      cases h2 : parseIntervals (splitOn ':' (p.drop (UUID_LENGTH + 1))) with
      | ok ivs =>
        rw [h2] at h
        simp only [Res.bind_ok] at h
        cases h3 : UuidSet.new m u ivs with
        | ok s =>
          rw [h3] at h
          simp only [Res.bind_ok] at h
          refine ih ?_ h
          have hs := uuidSet_new_source h3
          subst hs
          exact wf_insert (g := ⟨r⟩) (u := s.sourceId) (ivs := s.intervals) hr ((uuid_parse_ok_iff _ _).1 h1).2
        | _ => rw [h3] at h; simp at h
      | _ => rw [h2] at h; simp at h
    | _ => rw [h1] at h; simp at h

theorem addGtid_wf {m : Mode} {g g' : GtidSet} {x : Gtid} {b : Bool} (hg : Wf g) (hx : UuidOk x.sourceId)
    (h : g.addGtid m x = .ok (b, g')) : Wf g' := by
  unfold GtidSet.addGtid at h
  have hnew : UuidSet.new m x.sourceId [] = .ok ⟨x.sourceId, []⟩ := by simp [UuidSet.new]
  rw [hnew] at h
  simp only [Res.bind_ok] at h
  have hsrc : ((g.uuidSets.get? x.sourceId.uuid).getD ⟨x.sourceId, []⟩).sourceId = x.sourceId := by
    cases hk : g.uuidSets.get? x.sourceId.uuid with
    | none => rfl
    | some s =>
      obtain ⟨h1, h2⟩ := hg.uuids _ (HMap.get?_eq_some_mem hk)
      exact uuidOk_data h1 hx h2.symm
  generalize (g.uuidSets.get? x.sourceId.uuid).getD ⟨x.sourceId, []⟩ = s at h hsrc
  cases hs : s.addGtid m x with
  | ok r =>
    obtain ⟨b', s'⟩ := r
    rw [hs] at h
    simp only [Res.bind_ok, Res.pure_eq, Res.ok.injEq, Prod.mk.injEq] at h
    rw [← h.2]
    have hs' : s'.sourceId = x.sourceId := by
      rw [← hsrc]
      unfold UuidSet.addGtid at hs
      have fin : ∀ {l : List Interval}, (do
          let ivs ← if l.length > 1 then collapseIntervals m l else pure l
          return (true, ({ s with intervals := ivs } : UuidSet)) : Res (Bool × UuidSet)) = .ok (b', s') → s'.sourceId = s.sourceId := by
        intro l h
        simp only [Res.pure_eq, Res.bind_ok] at h
        split at h
        · cases hi : collapseIntervals m l with
          | ok l' =>
            rw [hi] at h
            simp only [Res.bind_ok, Res.ok.injEq, Prod.mk.injEq] at h
            rw [← h.2]
          | _ => rw [hi] at h; simp at h
        · simp only [Res.ok.injEq, Prod.mk.injEq] at h
          rw [← h.2]
      split at hs
      · simp at hs
      · cases hi : findIntervalIndex s.intervals x.transactionId with
        | ok i =>
          simp only [hi, Res.bind_ok] at hs
          split at hs
          · split at hs
            · exact fin hs
            · simp at hs
          · cases h1 : addU m 64 x.transactionId 1 with
            | ok t1 =>
              simp only [h1, Res.bind_ok] at hs
              split at hs
              · exact fin hs
              · rename_i iv _ _
                cases h2 : addU m 64 iv.end 1 with
                | ok e1 =>
                  simp only [h2, Res.bind_ok] at hs
                  split at hs
                  · exact fin hs
                  · split at hs
                    · simp only [Res.pure_eq, Res.ok.injEq, Prod.mk.injEq] at hs
                      rw [← hs.2]
                    · split at hs
                      · exact fin hs
                      · simp at hs
                | _ => simp [h2] at hs
            | _ => simp [h1] at hs
        | _ => simp [hi] at hs
    obtain ⟨u, ivs⟩ := s'
    simp only at hs'
    subst hs'
    exact wf_insert hg hx
  | _ => rw [hs] at h; simp at h

theorem SetBuilt.wf {m : Mode} {g : GtidSet} (h : SetBuilt m g) : Wf g := by
  have hnil : Wf GtidSet.new := ⟨by simp [GtidSet.new], by simp [GtidSet.new]⟩
  induction h with
  | new => exact hnil
  | @parse t g h =>
    unfold GtidSet.parse at h
    split at h
    · simp only [Res.pure_eq, Res.ok.injEq] at h
      rw [← h]
      exact hnil
    · simp only at h
      cases hp : parseUuidSets m ((splitOn ',' (removeChar '\n' t)).map trim) [] with
      | ok r =>
        rw [hp] at h
        simp only [Res.bind_ok, Res.pure_eq, Res.ok.injEq] at h
        rw [← h]
        exact parseUuidSets_wf hnil hp
      | _ => rw [hp] at h; simp at h
  | previous h => exact decoded_previous h
  | @addNew g g' d n b hg hd h ih =>
    exact addGtid_wf ih (by rw [uuid_new_eq _ hd]; exact UuidCanon_ok ⟨hd, rfl⟩) h
  | addParsed hg hu h ih => exact addGtid_wf ih ((uuid_parse_ok_iff _ _).1 hu).2 h

/-! ## The invariant -/

/-- What `commit` needs: a well-formed set, a pending GTID with an honest uuid, no id at the limit of `u64`. -/
structure Ready (m : Mode) (c : Client) : Prop where
  set : ∀ g, c.options.binlog.gtidSet = some g → Wf g ∧ ∀ e ∈ g.uuidSets, NoOverflow m e.2.intervals
  pending : ∀ x, c.mysqlGtid = some x → UuidOk x.sourceId ∧ (m.checks = false ∨ x.transactionId < 2 ^ 64 - 1)

theorem Ready.commitGtid {m : Mode} {c : Client} (hc : Ready m c) : ∃ c', c.commitGtid m = .ok c' ∧ Ready m c' := by
  obtain ⟨s, h1, h2⟩ : ∃ s, commitMysql m c.mysqlGtid c.options.binlog.gtidSet = .ok s ∧
      ∀ g, s = some g → Wf g ∧ ∀ e ∈ g.uuidSets, NoOverflow m e.2.intervals := by
    unfold commitMysql
    cases hx : c.mysqlGtid with
    | none => exact ⟨_, rfl, hc.set⟩
    | some x =>
      cases hg : c.options.binlog.gtidSet with
      | none => exact ⟨none, rfl, by simp⟩
      | some g =>
        obtain ⟨b, g', h1, h2, h3⟩ := gtidSet_addGtid_safe m g x (hc.set g hg).1 (hc.set g hg).2 (hc.pending x hx).1 (hc.pending x hx).2
        refine ⟨some g', by simp [h1], ?_⟩
        rintro g'' h
        injection h with h
        subst h
        exact ⟨h2, h3⟩
  refine ⟨{ c with
      transaction := false
      options := { c.options with binlog := { c.options.binlog with
        gtidList := commitMaria c.mariaGtid c.options.binlog.gtidList, gtidSet := s } } }, ?_, h2, hc.pending⟩
  unfold Client.commitGtid
  rw [h1]
  rfl

theorem Ready.position {m : Mode} {c : Client} (hc : Ready m c) (h : EventHeader) (e : BinlogEvent) :
    Ready m (c.updateBinlogPosition h e) := by
  obtain ⟨f1, f2, f3, f4, f5, f6⟩ := updateBinlogPosition_frame c h e
  exact ⟨by rw [f4]; exact hc.set, by rw [f1]; exact hc.pending⟩

theorem Ready.commit {m : Mode} {c : Client} (hc : Ready m c) (h : EventHeader) {e : BinlogEvent} (hd : FromDecoder m e)
    (hs : SmallEvent m e) : ∃ c', c.commit m h e = .ok c' ∧ Ready m c' := by
  obtain ⟨c1, h1, h2⟩ : ∃ c1, c.updateGtidPosition m e = .ok c1 ∧ Ready m c1 := by
    unfold Client.updateGtidPosition
    split
    · exact ⟨c, rfl, hc⟩
    · cases e with
      | mySqlGtid x =>
        refine ⟨_, rfl, hc.set, ?_⟩
        rintro y hy
        injection hy with hy
        subst hy
        refine ⟨UuidCanon_ok (decoded_gtid hd), ?_⟩
        cases hm : m.checks
        · exact Or.inl rfl
        · exact Or.inr (hs hm x rfl)
      | mariaDbGtid x => exact ⟨_, rfl, hc.set, hc.pending⟩
      | xid x => exact hc.commitGtid
      | query q =>
        simp only
        split
        · exact ⟨c, rfl, hc⟩
        · split
          · exact ⟨_, rfl, hc.set, hc.pending⟩
          · split
            · exact hc.commitGtid
            · split
              · exact hc.commitGtid
              · exact ⟨c, rfl, hc⟩
      | _ => exact ⟨c, rfl, hc⟩
  exact ⟨_, commit_eq m c h e h1, h2.position h e⟩

theorem Reachable.ready {m : Mode} {cr : Crypto} {c : Client} (h : Reachable m cr c) : Ready m c := by
  induction h with
  | @new o c ho hs hn =>
    unfold Client.new at hn
    split at hn
    · simp at hn
    · simp only [Res.ok.injEq] at hn
      subst hn
      refine ⟨?_, by simp⟩
      intro g hg
      have hg' : o.binlog.gtidSet = some g := hg
      constructor
      · generalize o.binlog = b at ho hg'
        cases ho with
        | mysql h =>
          simp only [BinlogOptions.fromMysqlGtid, Option.some.injEq] at hg'
          subst hg'
          exact h.wf
        | _ => exact absurd hg' (by simp [BinlogOptions.fromStart, BinlogOptions.fromEnd, BinlogOptions.fromPosition,
            BinlogOptions.fromMariadbGtid])
      · intro e he
        cases hm : m.checks
        · exact Or.inl hm
        · exact Or.inr (hs g hg' hm e he)
  | @replicate c net hc ih =>
    obtain ⟨⟨f, p, h1⟩, h2, _⟩ := replicate_client m cr c net
    refine ⟨by rw [h1]; exact ih.set, ?_⟩
    rcases h2 with h2 | h2
    · rw [h2]; simp
    · rw [h2]; exact ih.pending
  | commit hc hd hs hr ih =>
    obtain ⟨c'', h1, h2⟩ := ih.commit _ hd hs
    rw [h1, Res.ok.injEq] at hr
    rw [← hr]
    exact h2

/-! ## C12 -/

/-- C12, in a build without overflow checks (a release build): whatever has happened before, `commit` of whatever the decoder
produced returns. -/
theorem C12_commit_returns_unchecked (m : Mode) (hm : m.checks = false) (cr : Crypto) (c : Client) (hc : Reachable m cr c)
    (h : EventHeader) (e : BinlogEvent) (he : FromDecoder m e) : ∃ c', c.commit m h e = .ok c' := by
  obtain ⟨c', h1, _⟩ := hc.ready.commit h he (by intro h; simp [hm] at h)
  exact ⟨c', h1⟩

/-- C12, in any build, as long as no transaction id is `u64::MAX` (MySQL's are below 2^63). Missing: see `C12_max_id_false`. -/
theorem C12_commit_returns_partial (m : Mode) (cr : Crypto) (c : Client) (hc : Reachable m cr c) (h : EventHeader)
    (e : BinlogEvent) (he : FromDecoder m e) (hs : SmallEvent m e) : ∃ c', c.commit m h e = .ok c' := by
  obtain ⟨c', h1, _⟩ := hc.ready.commit h he hs
  exact ⟨c', h1⟩

/-- The text `01020304-0506-0708-090a-0b0c0d0e0f10:1-18446744073709551615`. -/
def exMaxText : RStr := "01020304-0506-0708-090a-0b0c0d0e0f10:1-18446744073709551615".toList
def exGtidBytes : Bytes := [1, 1, 2, 3, 4, 5, 6, 7, 8, 9, 10, 11, 12, 13, 14, 15, 16, 5, 0, 0, 0, 0, 0, 0, 0]
def exXidBytes : Bytes := [7, 0, 0, 0, 0, 0, 0, 0]
def exGtidEvent : BinlogEvent := .mySqlGtid ⟨⟨⟨[1, 2, 3, 4, 5, 6, 7, 8, 9, 10, 11, 12, 13, 14, 15, 16],
  "01020304-0506-0708-090a-0b0c0d0e0f10".toList⟩, 5⟩, 1⟩

theorem exDecoded (m : Mode) : FromDecoder m exGtidEvent ∧ FromDecoder m (.xid ⟨7⟩) := by
  constructor
  · refine ⟨EventParser.new, ⟨0, 33, 1, 44, 100, 0⟩, exGtidBytes, ?_⟩
    revert m
    rintro ⟨_ | _⟩ <;> decide +kernel
  · refine ⟨EventParser.new, ⟨0, 16, 1, 27, 100, 0⟩, exXidBytes, ?_⟩
    revert m
    rintro ⟨_ | _⟩ <;> decide +kernel

/-- C12 is false in a build with overflow checks: with the id `u64::MAX` in the configured set, `commit` of the end of an ordinary
transaction panics. -/
theorem C12_max_id_false : ∃ (g : GtidSet) (c c1 : Client) (h : EventHeader),
    GtidSet.parse ⟨true⟩ exMaxText = .ok g ∧
    Client.new { ReplicaOptions.default with binlog := .fromMysqlGtid g } = .ok c ∧
    FromDecoder ⟨true⟩ exGtidEvent ∧ FromDecoder ⟨true⟩ (.xid ⟨7⟩) ∧
    c.commit ⟨true⟩ h exGtidEvent = .ok c1 ∧ c1.commit ⟨true⟩ h (.xid ⟨7⟩) = .panic := by
  have h1 : ∃ g, GtidSet.parse ⟨true⟩ exMaxText = .ok g ∧
      (∃ c c1, Client.new { ReplicaOptions.default with binlog := .fromMysqlGtid g } = .ok c ∧
        c.commit ⟨true⟩ (exHeader 100) exGtidEvent = .ok c1 ∧ c1.commit ⟨true⟩ (exHeader 100) (.xid ⟨7⟩) = .panic) := by
    refine ⟨⟨[("01020304-0506-0708-090a-0b0c0d0e0f10".toList, ⟨⟨[1, 2, 3, 4, 5, 6, 7, 8, 9, 10, 11, 12, 13, 14, 15, 16],
      "01020304-0506-0708-090a-0b0c0d0e0f10".toList⟩, [⟨1, 18446744073709551615⟩]⟩)]⟩, by decide +kernel, ?_⟩
    exact ⟨_, _, rfl, rfl, by decide +kernel⟩
  obtain ⟨g, hg, c, c1, h2, h3, h4⟩ := h1
  exact ⟨g, c, c1, exHeader 100, hg, h2, (exDecoded _).1, (exDecoded _).2, h3, h4⟩

/-- A reachable client with a pending transaction, after a set-up that failed and an event. -/
example (m : Mode) (cr : Crypto) : ∃ c, Reachable m cr c ∧ c.mysqlGtid ≠ none ∧ c.options.binlog.gtidSet = some GtidSet.new ∧
    FromDecoder m (.xid ⟨7⟩) ∧ SmallEvent m (.xid ⟨7⟩) := by
  have h0 : Reachable m cr ⟨{ ReplicaOptions.default with binlog := .fromMysqlGtid GtidSet.new }, false, none, none⟩ :=
    .new (o := { ReplicaOptions.default with binlog := .fromMysqlGtid GtidSet.new }) (.mysql .new)
      (by rintro g hg _ e he; cases hg; simp [GtidSet.new] at he) rfl
  have h1 := h0.replicate (.error .unexpectedEof)
  refine ⟨_, h1.commit (h := exHeader 100) (exDecoded m).1 ?_ rfl, ?_, rfl, (exDecoded m).2, ?_⟩
  · rintro _ x hx
    cases hx
    decide
  · simp [Client.updateBinlogPosition, exGtidEvent, exHeader, Client.setPosition]
  · rintro _ x hx
    cases hx

end MysqlCdc
