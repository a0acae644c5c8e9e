import Verif.Lemmas.Exact
import Verif.Spec.Accepted
/-!
# Which bodies each event parser accepts
-/

namespace MysqlCdc

open Spec

theorem drop_sep {s t : Bytes} : (∃ sep, (sep.length = 1 ∨ sep = [] ∧ s = []) ∧ t = sep ++ s) ↔ t.drop 1 = s := by
  constructor
  · rintro ⟨sep, h | ⟨rfl, rfl⟩, rfl⟩
    · rw [List.drop_left' h]
    · rfl
  · rintro rfl
    cases t with
    | nil => exact ⟨[], .inr ⟨rfl, rfl⟩, rfl⟩
    | cons z t => exact ⟨[z], .inl rfl, rfl⟩

theorem exact_query : ExactEnd parseQuery LooseQuery := by
  unfold parseQuery
  refine ((Exact.uLE 4).bindEnd fun a => (Exact.uLE 4).bindEnd fun b => Exact.u8.bindEnd fun c => (Exact.uLE 2).bindEnd fun d =>
    (Exact.uLE 2).bindEnd fun e => (Exact.readVec e).bindEnd fun f => (Exact.readString c).bindEnd fun g =>
    (ExactEnd.toString.map fun s => QueryEvent.mk a b d f g s).seek 1).cast fun v t => ?_
  constructor
  · rintro ⟨a, _, _, ⟨h1, rfl⟩, ⟨b, _, _, ⟨h2, rfl⟩, ⟨c, _, _, ⟨h3, rfl⟩, ⟨d, _, _, ⟨h4, rfl⟩, ⟨e, _, _, ⟨h5, rfl⟩,
      ⟨_, f, _, ⟨h6, rfl, rfl⟩, ⟨g, _, t, ⟨h7, rfl, rfl⟩, ⟨s, hs, rfl⟩, rfl⟩, rfl⟩, rfl⟩, rfl⟩, rfl⟩, rfl⟩, rfl⟩
    obtain ⟨sep, h8, rfl⟩ := drop_sep.2 hs
    have h8' : sep.length = 1 ∨ sep = [] ∧ s = [] := by
      rcases h8 with h | ⟨h, h'⟩
      · exact .inl h
      · refine .inr ⟨h, ?_⟩
        cases s with
        | nil => rfl
        | cons c s =>
          have := congrArg utf8Decode h'
          rw [utf8Decode_utf8Bytes] at this
          exact absurd this (by rw [show utf8Decode [] = some [] from rfl]; simp)
    have := LooseQuery.mk (thread := a) (duration := b) (error := d) (status := f) (db := g) (sep := sep) (sql := s)
      (by simpa using h1) (by simpa using h2) h3 (by simpa using h4) (by simpa using h5) h8'
    simpa only [List.append_assoc] using this
  · rintro ⟨h1, h2, h3, h4, h5, hs⟩
    rename_i thread duration error status sep db sql
    simp only [List.append_assoc]
    refine ⟨thread, _, _, ⟨by simpa using h1, rfl⟩, ⟨duration, _, _, ⟨by simpa using h2, rfl⟩, ⟨_, _, _, ⟨h3, rfl⟩, ⟨error, _, _,
      ⟨by simpa using h4, rfl⟩, ⟨_, _, _, ⟨by simpa using h5, rfl⟩, ⟨status, _, _, ⟨by omega, rfl, rfl⟩, ⟨db, _, _,
      ⟨by omega, rfl, rfl⟩, ⟨sql, ?_, rfl⟩, rfl⟩, rfl⟩, rfl⟩, rfl⟩, rfl⟩, rfl⟩, rfl⟩
    refine drop_sep.1 ⟨sep, ?_, rfl⟩
    rcases hs with h | ⟨rfl, rfl⟩
    · exact .inl h
    · exact .inr ⟨rfl, rfl⟩

theorem exact_rotate : ExactEnd parseRotate (fun e t => PlainBody 4 (.rotate e) t) := by
  unfold parseRotate
  refine ((Exact.uLE 8).bindEnd fun a => ExactEnd.toString.map fun s => RotateEvent.mk s a).cast fun v t => ?_
  constructor
  · rintro ⟨a, _, _, ⟨h, rfl⟩, ⟨s, rfl, rfl⟩, rfl⟩; exact .rotate (by simpa using h)
  · intro h
    cases v
    cases h with
    | rotate h => exact ⟨_, _, _, ⟨by simpa using h, rfl⟩, ⟨_, rfl, rfl⟩, rfl⟩

theorem exact_intVar : ExactEnd parseIntVar (fun e t => PlainBody 5 (.intVar e) t) := by
  unfold parseIntVar
  refine (Exact.u8.bind fun a => (Exact.uLE 8).map fun b => IntVarEvent.mk a b).toEnd.cast fun v t => ?_
  constructor
  · rintro ⟨_, x, ⟨a, _, _, ⟨h1, rfl⟩, ⟨b, ⟨h2, rfl⟩, rfl⟩, rfl⟩, rfl⟩; exact .intVar h1 (by simpa using h2)
  · intro h
    cases v
    cases h with
    | intVar h1 h2 => exact ⟨_, _, ⟨_, _, _, ⟨h1, rfl⟩, ⟨_, ⟨by simpa using h2, rfl⟩, rfl⟩, rfl⟩, rfl⟩

theorem exact_xid : ExactEnd parseXid (fun e t => PlainBody 16 (.xid e) t) := by
  unfold parseXid
  refine ((Exact.uLE 8).map fun b => XidEvent.mk b).toEnd.cast fun v t => ?_
  constructor
  · rintro ⟨_, x, ⟨b, ⟨h2, rfl⟩, rfl⟩, rfl⟩; exact .xid (by simpa using h2)
  · intro h
    cases v
    cases h with
    | xid h2 => exact ⟨_, _, ⟨_, ⟨by simpa using h2, rfl⟩, rfl⟩, rfl⟩

theorem exact_userVar : ExactEnd parseUserVar (fun e t => PlainBody 14 (.userVar e) t) := by
  unfold parseUserVar
  refine ((Exact.uLE 4).bindEnd fun a => (Exact.readString a).bindEnd fun name => Exact.u8.bindEnd fun isNull =>
    ExactEnd.ite (fun _ => (Exact.ret _).toEnd) fun _ => (Exact.u8.bind fun b => (Exact.uLE 4).bind fun c =>
      (Exact.uLE 4).bind fun d => (Exact.readString d).bind fun val => Exact.u8.map fun f => UserVarEvent.mk name
        (some ⟨b, c, val, f⟩)).toEnd).cast fun v t => ?_
  constructor
  · rintro ⟨a, _, _, ⟨h1, rfl⟩, ⟨name, _, _, ⟨h2, rfl, rfl⟩, ⟨isNull, _, _, ⟨h3, rfl⟩, h, rfl⟩, rfl⟩, rfl⟩
    rcases h with ⟨h0, _, x, ⟨rfl, he⟩, rfl⟩ | ⟨h0, _, x, ⟨b, _, _, ⟨h4, rfl⟩, ⟨c, _, _, ⟨h5, rfl⟩, ⟨d, _, _, ⟨h6, rfl⟩,
      ⟨val, _, _, ⟨h7, rfl, rfl⟩, ⟨f, ⟨h8, rfl⟩, rfl⟩, rfl⟩, rfl⟩, rfl⟩, rfl⟩, rfl⟩
    · subst he
      have := PlainBody.userVarNull (name := name) (isNull := isNull) (extra := x) (by simpa using h1) ⟨by omega, h3⟩
      simpa only [List.append_assoc, List.nil_append] using this
    · obtain rfl : isNull = 0 := by omega
      have := PlainBody.userVar (name := name) (value := val) (type := b) (collation := c) (flags := f) (extra := x)
        (by simpa using h1) h4 (by simpa using h5) (by simpa using h6) h8
      have h0 : le 1 0 = [0] := rfl
      rw [h0]
      simpa only [List.append_assoc] using this
  · intro h
    obtain ⟨name, value⟩ := v
    cases h with
    | userVarNull h1 h2 =>
      simp only [List.append_assoc]
      exact ⟨_, _, _, ⟨by simpa using h1, rfl⟩, ⟨name, _, _, ⟨by omega, rfl, rfl⟩, ⟨_, _, _, ⟨h2.2, rfl⟩,
        .inl ⟨by omega, _, _, ⟨rfl, rfl⟩, rfl⟩, rfl⟩, rfl⟩, rfl⟩
    | @userVar _ _ _ _ _ extra h1 h2 h3 h4 h5 =>
      simp only [List.append_assoc]
      refine ⟨_, _, _, ⟨by simpa using h1, rfl⟩, ⟨name, _, _, ⟨by omega, rfl, rfl⟩, ⟨0, _, _, ⟨by omega, rfl⟩,
        .inr ⟨by omega, _, extra, ⟨_, _, _, ⟨h2, rfl⟩, ⟨_, _, _, ⟨by simpa using h3, rfl⟩, ⟨_, _, _, ⟨by simpa using h4, rfl⟩,
          ⟨_, _, _, ⟨by omega, rfl, rfl⟩, ⟨_, ⟨h5, rfl⟩, rfl⟩, rfl⟩, rfl⟩, rfl⟩, rfl⟩, rfl⟩, rfl⟩, rfl⟩, ?_⟩
      simp [show le 1 0 = [0] from rfl]

theorem exact_heartbeat : ExactEnd parseHeartbeat (fun e t => PlainBody 27 (.heartbeat e) t) := by
  unfold parseHeartbeat
  refine (ExactEnd.toString.map fun s => HeartbeatEvent.mk s).cast fun v t => ?_
  constructor
  · rintro ⟨s, rfl, rfl⟩; exact .heartbeat
  · intro h
    cases v
    cases h with
    | heartbeat => exact ⟨_, rfl, rfl⟩

theorem exact_annotate : ExactEnd parseRowsQueryMariadb (fun e t => PlainBody 160 (.rowsQuery e) t) := by
  unfold parseRowsQueryMariadb
  refine (ExactEnd.toString.map fun s => RowsQueryEvent.mk s).cast fun v t => ?_
  constructor
  · rintro ⟨s, rfl, rfl⟩; exact .annotateRows
  · intro h
    cases v
    cases h with
    | annotateRows => exact ⟨_, rfl, rfl⟩

theorem utf8Bytes_nil_iff {s : RStr} : utf8Bytes s = [] ↔ s = [] := by
  constructor
  · intro h
    have := congrArg utf8Decode h
    rw [utf8Decode_utf8Bytes, show utf8Decode [] = some [] from rfl] at this
    simpa using this
  · rintro rfl; rfl

theorem exact_rowsQuery : ExactEnd parseRowsQueryMysql
    (fun e t => PlainBody 29 (.rowsQuery e) t ∨ e = ⟨[]⟩ ∧ t = []) := by
  unfold parseRowsQueryMysql
  refine ((ExactEnd.toString.map fun s => RowsQueryEvent.mk s).seek 1).cast fun v t => ?_
  constructor
  · rintro ⟨s, hs, rfl⟩
    cases t with
    | nil =>
      simp only [List.drop_nil] at hs
      rw [utf8Bytes_nil_iff.1 hs.symm]
      exact .inr ⟨rfl, rfl⟩
    | cons z t =>
      simp only [List.drop_succ_cons, List.drop_zero] at hs
      rw [hs]
      exact .inl .rowsQuery
  · rintro (h | ⟨rfl, rfl⟩)
    · cases v
      cases h with
      | rowsQuery => exact ⟨_, rfl, rfl⟩
    · exact ⟨[], rfl, rfl⟩

theorem exact_mySqlGtid : ExactEnd parseMySqlGtid (fun e t => PlainBody 33 (.mySqlGtid e) t) := by
  unfold parseMySqlGtid
  refine (Exact.u8.bind fun a => (Exact.readExact 16).bind fun b => (Exact.uLE 8).map fun c =>
    MySqlGtidEvent.mk ⟨Uuid.new b, c⟩ a).toEnd.cast fun v t => ?_
  constructor
  · rintro ⟨_, x, ⟨a, _, _, ⟨h1, rfl⟩, ⟨_, b, _, ⟨h2, rfl⟩, ⟨c, ⟨h3, rfl⟩, rfl⟩, rfl⟩, rfl⟩, rfl⟩
    rw [uuid_new_eq _ h2]
    have := PlainBody.mySqlGtid (flags := a) (id := c) (sid := b) (extra := x) h1 h2 (by simpa using h3)
    simpa only [List.append_assoc] using this
  · intro h
    cases v
    cases h with
    | @mySqlGtid _ _ _ extra h1 h2 h3 =>
      refine ⟨_, extra, ⟨_, _, _, ⟨h1, rfl⟩, ⟨_, _, _, ⟨h2, rfl⟩, ⟨_, ⟨by simpa using h3, rfl⟩, ?_⟩, rfl⟩, rfl⟩, ?_⟩
      · rw [uuid_new_eq _ h2]
      · simp only [List.append_assoc]

theorem exact_mariaGtid (header : EventHeader) :
    ExactEnd (parseMariaGtid header) (fun e t => MariaBody header 162 (.mariaDbGtid e) t) := by
  unfold parseMariaGtid
  refine ((Exact.uLE 8).bind fun a => (Exact.uLE 4).bind fun b => Exact.u8.map fun c =>
    MariaGtidEvent.mk ⟨b, header.serverId, a⟩ c).toEnd.cast fun v t => ?_
  constructor
  · rintro ⟨_, x, ⟨a, _, _, ⟨h1, rfl⟩, ⟨b, _, _, ⟨h2, rfl⟩, ⟨c, ⟨h3, rfl⟩, rfl⟩, rfl⟩, rfl⟩, rfl⟩
    have := MariaBody.gtid (header := header) (sequence := a) (domain := b) (flags := c) (extra := x) (by simpa using h1)
      (by simpa using h2) h3
    simpa only [List.append_assoc] using this
  · rintro ⟨h1, h2, h3⟩
    exact ⟨_, _, ⟨_, _, _, ⟨by simpa using h1, rfl⟩, ⟨_, _, _, ⟨by simpa using h2, rfl⟩, ⟨_, ⟨h3, rfl⟩, rfl⟩, rfl⟩, rfl⟩,
      by simp only [List.append_assoc]; rfl⟩

theorem each_flatMap {α : Type} {f : α → Bytes} {Q : α → Prop} {vs : List α} {e : Bytes} :
    Each (fun v e => Q v ∧ e = f v) vs e ↔ (∀ v ∈ vs, Q v) ∧ e = vs.flatMap f := by
  constructor
  · intro h
    induction h with
    | nil => simp
    | cons h _ ih =>
      obtain ⟨h1, rfl⟩ := h
      obtain ⟨h2, rfl⟩ := ih
      exact ⟨by simpa using ⟨h1, h2⟩, by simp⟩
  · rintro ⟨h, rfl⟩
    induction vs with
    | nil => exact .nil
    | cons v vs ih => exact .cons ⟨h v (by simp), rfl⟩ (ih fun w hw => h w (by simp [hw]))

theorem each_congr {α : Type} {R S : α → Bytes → Prop} {vs : List α} {e : Bytes} (h : ∀ v e, R v e ↔ S v e) :
    Each R vs e ↔ Each S vs e :=
  ⟨fun hr => hr.imp fun v e => (h v e).1, fun hs => hs.imp fun v e => (h v e).2⟩

theorem exact_listGtid : Exact parseListGtid (fun g e => (g.domainId < 2 ^ 32 ∧ g.serverId < 2 ^ 32 ∧ g.sequence < 2 ^ 64) ∧
    e = le 4 g.domainId ++ le 4 g.serverId ++ le 8 g.sequence) := by
  unfold parseListGtid
  refine ((Exact.uLE 4).bind fun a => (Exact.uLE 4).bind fun b => (Exact.uLE 8).map fun c => MGtid.mk a b c).cast fun v t => ?_
  constructor
  · rintro ⟨a, _, _, ⟨h1, rfl⟩, ⟨b, _, _, ⟨h2, rfl⟩, ⟨c, ⟨h3, rfl⟩, rfl⟩, rfl⟩, rfl⟩
    exact ⟨⟨by simpa using h1, by simpa using h2, by simpa using h3⟩, by simp⟩
  · rintro ⟨⟨h1, h2, h3⟩, rfl⟩
    exact ⟨_, _, _, ⟨by simpa using h1, rfl⟩, ⟨_, _, _, ⟨by simpa using h2, rfl⟩, ⟨_, ⟨by simpa using h3, rfl⟩, rfl⟩, rfl⟩,
      by simp⟩

theorem exact_gtidList (header : EventHeader) :
    ExactEnd parseGtidList (fun e t => MariaBody header 163 (.mariaDbGtidList e) t) := by
  unfold parseGtidList
  refine ((Exact.uLE 4).bind fun a => (exact_listGtid.times a).map fun gs => GtidListEvent.mk ⟨gs⟩).toEnd.cast fun v t => ?_
  constructor
  · rintro ⟨_, x, ⟨a, _, _, ⟨h1, rfl⟩, ⟨gs, ⟨rfl, h2⟩, rfl⟩, rfl⟩, rfl⟩
    obtain ⟨h3, rfl⟩ := each_flatMap.1 h2
    exact .gtidList (by simpa using h1) h3
  · intro h
    cases v
    cases h with
    | gtidList h1 h2 =>
    exact ⟨_, _, ⟨_, _, _, ⟨by simpa using h1, rfl⟩, ⟨_, ⟨rfl, each_flatMap.2 ⟨h2, rfl⟩⟩, rfl⟩, rfl⟩, rfl⟩

/-! ## Previous GTIDs -/

theorem exact_prevInterval (m : Mode) : Exact (parsePrevInterval m) (PreviousInterval m) := by
  unfold parsePrevInterval
  refine ((Exact.uLE 8).bind fun a => (Exact.uLE 8).bind fun b => (Exact.lift (subU m 64 b 1)).map fun c =>
    Interval.mk a c).cast fun v t => ?_
  constructor
  · rintro ⟨a, _, _, ⟨h1, rfl⟩, ⟨b, _, _, ⟨h2, rfl⟩, ⟨c, ⟨h3, rfl⟩, rfl⟩, rfl⟩, rfl⟩
    unfold subU at h3
    by_cases hb : 1 ≤ b
    · rw [if_pos hb] at h3
      simp only [Res.ok.injEq] at h3
      subst h3
      have := PreviousInterval.plain (m := m) (start := a) (last := b - 1) (by simpa using h1) (by omega)
      rw [show b - 1 + 1 = b by omega] at this
      simpa using this
    · rw [if_neg hb] at h3
      cases hm : m.checks with
      | true => rw [hm] at h3; simp at h3
      | false =>
        rw [hm] at h3
        simp only [Bool.false_eq_true, if_false, Res.ok.injEq] at h3
        obtain rfl : b = 0 := by omega
        have hc : c = 2 ^ 64 - 1 := by rw [← h3]
        rw [hc]
        simpa using PreviousInterval.wrapped (m := m) (start := a) (by simpa using h1) hm
  · rintro (⟨h1, h2⟩ | ⟨h1, hm⟩)
    · rename_i start last
      exact ⟨_, _, _, ⟨by simpa using h1, rfl⟩, ⟨last + 1, _, _, ⟨by omega, rfl⟩, ⟨last, ⟨by simp [subU], rfl⟩, rfl⟩, rfl⟩,
        by simp⟩
    · refine ⟨_, _, _, ⟨by simpa using h1, rfl⟩, ⟨0, _, _, ⟨by omega, rfl⟩, ⟨2 ^ 64 - 1, ⟨?_, rfl⟩, rfl⟩, rfl⟩, by simp⟩
      unfold subU
      rw [hm]
      decide

def wireEntry (s : Bytes × List Interval) : UuidSet := ⟨⟨s.1, uuidText s.1⟩, s.2⟩

theorem exact_prevSet (m : Mode) :
    Exact (parsePrevUuidSet m) (fun u e => ∃ s, u = wireEntry s ∧ PreviousServer m s e) := by
  unfold parsePrevUuidSet
  refine ((Exact.readExact 16).bind fun sid => (Exact.lift (UuidSet.new m (Uuid.new sid) [])).bind fun u => (Exact.uLE 8).bind
    fun n => ((exact_prevInterval m).times n).map fun ivs => { u with intervals := u.intervals ++ ivs }).cast fun v t => ?_
  constructor
  · rintro ⟨_, sid, _, ⟨h1, rfl⟩, ⟨u, _, _, ⟨h2, rfl⟩, ⟨n, _, _, ⟨h3, rfl⟩, ⟨ivs, ⟨rfl, h4⟩, rfl⟩, rfl⟩, rfl⟩, rfl⟩
    rw [uuid_new_eq _ h1, uuidSet_new_nil] at h2
    simp only [Res.ok.injEq] at h2
    subst h2
    exact ⟨(sid, ivs), by simp [wireEntry], _, h1, by simpa using h3, h4, by simp⟩
  · rintro ⟨⟨sid, ivs⟩, rfl, data, h1, h2, h3, rfl⟩
    refine ⟨sid, _, _, ⟨h1, rfl⟩, ⟨⟨⟨sid, uuidText sid⟩, []⟩, _, _, ⟨?_, rfl⟩, ⟨_, _, _, ⟨by simpa using h2, rfl⟩,
      ⟨ivs, ⟨rfl, h3⟩, ?_⟩, rfl⟩, rfl⟩, ?_⟩
    · rw [uuid_new_eq _ h1]; exact uuidSet_new_nil m _
    · simp [wireEntry]
    · simp

theorem each_exists {α β : Type} {f : α → β} {R : α → Bytes → Prop} {vs : List β} {e : Bytes} :
    Each (fun v e => ∃ a, v = f a ∧ R a e) vs e ↔ ∃ as, vs = as.map f ∧ Each R as e := by
  constructor
  · intro h
    induction h with
    | nil => exact ⟨[], rfl, .nil⟩
    | cons h _ ih =>
      obtain ⟨a, rfl, h⟩ := h
      obtain ⟨as, rfl, hs⟩ := ih
      exact ⟨a :: as, rfl, .cons h hs⟩
  · rintro ⟨as, rfl, h⟩
    induction h with
    | nil => exact .nil
    | cons h _ ih => exact .cons ⟨_, rfl, h⟩ ih

/-- The set the entries are gathered into. -/
def gathered (sets : List (Bytes × List Interval)) : HMap RStr UuidSet :=
  (sets.map wireEntry).foldl (fun r s => r.insert s.sourceId.uuid s) []

theorem gathered_snoc (sets : List (Bytes × List Interval)) (s : Bytes × List Interval) :
    gathered (sets ++ [s]) = (gathered sets).insert (uuidText s.1) (wireEntry s) := by
  unfold gathered
  rw [List.map_append, List.foldl_append]
  rfl

theorem lastEntry_snoc {sets : List (Bytes × List Interval)} {s : Bytes × List Interval} {sid : Bytes} {ivs : List Interval} :
    LastEntry (sets ++ [s]) sid ivs ↔ s = (sid, ivs) ∨ s.1 ≠ sid ∧ LastEntry sets sid ivs := by
  constructor
  · rintro ⟨b, a, h, ha⟩
    rcases List.eq_nil_or_concat a with rfl | ⟨a', x, rfl⟩
    · obtain ⟨rfl, h⟩ := List.append_inj' h rfl
      exact .inl (by simpa using h)
    · rw [List.concat_eq_append, ← List.cons_append, ← List.append_assoc] at h
      obtain ⟨rfl, h⟩ := List.append_inj' h rfl
      have h : s = x := by simpa using h
      subst h
      exact .inr ⟨ha _ (by simp), b, a', rfl, fun t ht => ha t (by simp [ht])⟩
  · rintro (rfl | ⟨hne, b, a, rfl, ha⟩)
    · exact ⟨sets, [], rfl, by simp⟩
    · refine ⟨b, a ++ [s], by simp, fun t ht => ?_⟩
      rcases List.mem_append.1 ht with h | h
      · exact ha t h
      · rw [List.mem_singleton.1 h]; exact hne

theorem gathered_gathers (sets : List (Bytes × List Interval)) : Gathers sets ⟨gathered sets⟩ := by
  induction sets using List.reverseRecOn with
  | nil =>
    refine ⟨List.nodup_nil, fun k s => ?_⟩
    simp only [gathered, List.map_nil, List.foldl_nil, List.not_mem_nil, false_iff]
    rintro ⟨sid, ivs, ⟨b, a, h, _⟩, _⟩
    simp at h
  | append_singleton sets s ih =>
    unfold Gathers at ih ⊢
    simp only [gathered_snoc]
    refine ⟨HMap.nodup_insert ih.1 _ _, fun k u => ?_⟩
    rw [HMap.mem_insert ih.1]
    simp only [lastEntry_snoc]
    constructor
    · rintro (⟨rfl, rfl⟩ | ⟨hk, hm⟩)
      · exact ⟨s.1, s.2, .inl rfl, rfl, rfl⟩
      · obtain ⟨sid, ivs, h, rfl, rfl⟩ := (ih.2 _ _).1 hm
        exact ⟨sid, ivs, .inr ⟨fun he => hk (by rw [he]), h⟩, rfl, rfl⟩
    · rintro ⟨sid, ivs, rfl | ⟨hne, h⟩, rfl, rfl⟩
      · exact .inl ⟨rfl, rfl⟩
      · exact .inr ⟨fun he => hne (uuidText_inj he), (ih.2 _ _).2 ⟨sid, ivs, h, rfl, rfl⟩⟩

theorem exact_previous (m : Mode) : ExactEnd (parsePreviousGtids m) (fun e t => ∃ sets data extra, sets.length < 2 ^ 64 ∧
    Each (PreviousServer m) sets data ∧ e = ⟨⟨gathered sets⟩⟩ ∧ t = le 8 sets.length ++ data ++ extra) := by
  unfold parsePreviousGtids
  refine ((Exact.uLE 8).bind fun a => ((exact_prevSet m).times a).map fun us =>
    PreviousGtidsEvent.mk ⟨us.foldl (fun r s => r.insert s.sourceId.uuid s) GtidSet.new.uuidSets⟩).toEnd.cast fun v t => ?_
  constructor
  · rintro ⟨_, x, ⟨a, _, _, ⟨h1, rfl⟩, ⟨us, ⟨rfl, h2⟩, rfl⟩, rfl⟩, rfl⟩
    obtain ⟨sets, rfl, h3⟩ := each_exists.1 h2
    exact ⟨sets, _, x, by simpa using h1, h3, rfl, by simp⟩
  · rintro ⟨sets, data, extra, h1, h2, rfl, rfl⟩
    exact ⟨_, _, ⟨_, _, _, ⟨by simpa using h1, rfl⟩, ⟨_, ⟨rfl, each_exists.2 ⟨sets, rfl, h2⟩⟩, rfl⟩, rfl⟩, by simp only [List.append_assoc, List.length_map]; rfl⟩

/-! ## Format description -/

theorem subU_expected {m : Mode} {L e : Nat} :
    subU m 8 (L % 256) EVENT_HEADER_SIZE = .ok e ↔ (m.checks = true → 19 ≤ L % 256) ∧ e < 256 ∧ (e + 19) % 256 = L % 256 := by
  unfold subU EVENT_HEADER_SIZE
  have hL : L % 256 < 256 := Nat.mod_lt _ (by omega)
  by_cases h : 19 ≤ L % 256
  · rw [if_pos h]
    simp only [Res.ok.injEq]
    constructor
    · rintro rfl; exact ⟨fun _ => h, by omega, by omega⟩
    · rintro ⟨_, h1, h2⟩; omega
  · rw [if_neg h]
    cases hm : m.checks with
    | true => simp; omega
    | false =>
      simp only [Bool.false_eq_true, if_false, Res.ok.injEq, false_implies, true_and]
      constructor
      · rintro rfl; omega
      · rintro ⟨h1, h2⟩; omega

theorem takeWhile_server {raw : Bytes} {s : RStr} : raw.takeWhile (· != 0) = utf8Bytes s ↔
    ∃ pad, raw = utf8Bytes s ++ pad ∧ (0 : UInt8) ∉ utf8Bytes s ∧ (pad = [] ∨ pad.head? = some 0) := by
  constructor
  · intro h
    refine ⟨raw.dropWhile (· != 0), by rw [← h, List.takeWhile_append_dropWhile], ?_, ?_⟩
    · rw [← h]
      intro hm
      have := (List.all_takeWhile (p := (· != (0 : UInt8))) (l := raw))
      rw [List.all_eq_true] at this
      simpa using this _ hm
    · cases hd : raw.dropWhile (· != 0) with
      | nil => exact .inl rfl
      | cons b bs =>
        right
        have : (b != 0) = false := by
          have := List.head_dropWhile_not (· != (0 : UInt8)) (l := raw) (by rw [hd]; simp)
          simpa [hd] using this
        simpa using this
  · rintro ⟨pad, rfl, h2, h3⟩
    rw [List.takeWhile_append_of_pos (by
      intro b hb
      simp only [bne_iff_ne, ne_eq]
      rintro rfl
      exact h2 hb)]
    have : pad.takeWhile (· != 0) = [] := by
      rcases h3 with rfl | h
      · rfl
      · cases pad with
        | nil => rfl
        | cons b bs => simp at h; subst h; rfl
    rw [this, List.append_nil]

theorem checksum_fromCode {c : Nat} {k : ChecksumType} :
    ChecksumType.fromCode c = .ok k ↔ c = 0 ∧ k = .none ∨ c = 1 ∧ k = .crc32 := by
  unfold ChecksumType.fromCode
  split <;> simp_all [eq_comm]

theorem u8_at {buf : Bytes} {pos n q : Nat} : P.u8 buf pos = .ok (n, q) ↔ ∃ b, buf[pos]? = some b ∧ n = b.toNat ∧ q = pos + 1 := by
  rw [Exact.u8]
  constructor
  · rintro ⟨e, ⟨h1, rfl⟩, ⟨t, ht⟩, rfl⟩
    refine ⟨UInt8.ofNat n, ?_, by simp; omega, rfl⟩
    have := List.head?_drop (l := buf) (i := pos)
    rw [← this, ← ht]
    simp [le]
  · rintro ⟨b, hb, rfl, rfl⟩
    refine ⟨le 1 b.toNat, ⟨b.toNat_lt, rfl⟩, ?_, by simp⟩
    obtain ⟨hlt, rfl⟩ := List.getElem?_eq_some_iff.1 hb
    rw [show le 1 buf[pos].toNat = [buf[pos]] by simp [le], List.drop_eq_getElem_cons hlt]
    exact ⟨_, rfl⟩

theorem bind_iff {α β : Type} {p : P α} {f : α → P β} {buf : Bytes} {pos : Nat} {r : β × Nat} :
    (p >>= f) buf pos = .ok r ↔ ∃ x q, p buf pos = .ok (x, q) ∧ f x buf q = .ok r := by
  constructor
  · intro h
    obtain ⟨⟨x, q⟩, h1, h2⟩ := bind_inv h
    exact ⟨x, q, h1, h2⟩
  · rintro ⟨x, q, h1, h2⟩
    rw [P.seq_apply, h1]
    exact h2

theorem seek_iff {k : Int} {buf : Bytes} {pos q : Nat} {u : Unit} :
    P.seekCur k buf pos = .ok (u, q) ↔ (q : Int) = pos + k := by
  unfold P.seekCur
  split
  · simp only [Res.ok.injEq, Prod.mk.injEq, true_and]; omega
  · simp only [reduceCtorEq, false_iff]; omega

theorem lift_iff {α : Type} {r : Res α} {buf : Bytes} {pos q : Nat} {a : α} : P.lift r buf pos = .ok (a, q) ↔ r = .ok a ∧ q = pos := by
  cases r <;> simp [P.lift, eq_comm]

/-- What follows the server version. -/
def formatRest (m : Mode) (header : EventHeader) (binlogVersion : Nat) (serverVersion : RStr) : P FormatDescriptionEvent := do
  P.seekCur 5
  P.seekCur ((FORMAT_DESCRIPTION_CODE : Int) - 1)
  let payloadLength ← P.u8
  let expected ← P.lift (subU m 8 (header.eventLength % 256) EVENT_HEADER_SIZE)
  if payloadLength ≠ expected then
    let skip : Int := (payloadLength : Int) - EVENT_TYPES_OFFSET - FORMAT_DESCRIPTION_CODE
    P.seekCur skip
    let code ← P.u8
    let checksumType ← P.lift (ChecksumType.fromCode code)
    return { binlogVersion, serverVersion, checksumType }
  else
    return { binlogVersion, serverVersion, checksumType := .none }

theorem formatRest_iff (m : Mode) (header : EventHeader) (version : Nat) (server : RStr) (e : FormatDescriptionEvent) (body : Bytes) :
    (∃ q, formatRest m header version server body 52 = .ok (e, q)) ↔
      (m.checks = true → 19 ≤ header.eventLength % 256) ∧
        ∃ ck, AlgorithmOf header.eventLength body ck ∧ e = ⟨version, server, ck⟩ := by
  unfold formatRest
  simp only [bind_iff, seek_iff, u8_at, lift_iff, subU_expected, FORMAT_DESCRIPTION_CODE, EVENT_TYPES_OFFSET, AlgorithmOf]
  constructor
  · rintro ⟨q, _, q1, h1, _, q2, h2, own, q3, ⟨b, hb, rfl, rfl⟩, exp, q4, ⟨⟨hm, h3, h4⟩, rfl⟩, h⟩
    obtain rfl : q2 = 71 := by omega
    refine ⟨hm, ?_⟩
    have hb' := b.toNat_lt
    by_cases hne : b.toNat ≠ exp
    · rw [if_pos hne] at h
      simp only [bind_iff, seek_iff, u8_at, lift_iff, checksum_fromCode] at h
      obtain ⟨_, q5, h5, c, q6, ⟨cb, hcb, rfl, rfl⟩, ck, q7, ⟨h6, rfl⟩, h7⟩ := h
      obtain rfl : q5 = b.toNat := by omega
      simp only [P.ret_apply, Res.ok.injEq, Prod.mk.injEq] at h7
      refine ⟨ck, ⟨b, hb, .inr ⟨by omega, ?_⟩⟩, h7.1.symm⟩
      rcases h6 with ⟨h, rfl⟩ | ⟨h, rfl⟩
      · exact .inl ⟨by rw [hcb]; exact congrArg some (UInt8.toNat_inj.1 h), rfl⟩
      · exact .inr ⟨by rw [hcb]; exact congrArg some (UInt8.toNat_inj.1 h), rfl⟩
    · rw [if_neg hne] at h
      simp only [P.ret_apply, Res.ok.injEq, Prod.mk.injEq] at h
      exact ⟨.none, ⟨b, hb, .inl ⟨by omega, rfl⟩⟩, h.1.symm⟩
  · rintro ⟨hm, ck, ⟨own, hown, ha⟩, rfl⟩
    have hb' := own.toNat_lt
    rcases ha with ⟨h1, rfl⟩ | ⟨h1, h2⟩
    · refine ⟨72, (), 57, by omega, (), 71, by omega, _, 72, ⟨own, hown, rfl, rfl⟩, own.toNat, 72, ⟨⟨hm, hb', h1⟩, rfl⟩, ?_⟩
      rw [if_neg (by simp)]
      rfl
    · obtain ⟨exp, hexp, hexp'⟩ : ∃ exp, exp < 256 ∧ (exp + 19) % 256 = header.eventLength % 256 :=
        ⟨(header.eventLength + 237) % 256, by omega, by omega⟩
      obtain ⟨c, hc, hk⟩ : ∃ c : UInt8, body[own.toNat]? = some c ∧ (c.toNat = 0 ∧ ck = .none ∨ c.toNat = 1 ∧ ck = .crc32) := by
        rcases h2 with ⟨h, rfl⟩ | ⟨h, rfl⟩
        · exact ⟨0, h, .inl ⟨rfl, rfl⟩⟩
        · exact ⟨1, h, .inr ⟨rfl, rfl⟩⟩
      refine ⟨own.toNat + 1, (), 57, by omega, (), 71, by omega, _, 72, ⟨own, hown, rfl, rfl⟩, exp, 72, ⟨⟨hm, hexp, hexp'⟩, rfl⟩, ?_⟩
      rw [if_pos (by omega)]
      simp only [bind_iff, seek_iff, u8_at, lift_iff, checksum_fromCode]
      exact ⟨(), own.toNat, by omega, _, _, ⟨c, hc, rfl, rfl⟩, ck, _, ⟨hk, rfl⟩, rfl⟩

theorem parseFormat_eq (m : Mode) (header : EventHeader) : parseFormatDescription m header =
    (P.uLE 2 >>= fun version => P.readExact 50 >>= fun raw =>
      match utf8Decode (raw.takeWhile (· != 0)) with
      | some s => formatRest m header version s
      | none => P.fail .utf8) := by
  unfold parseFormatDescription
  congr 1

theorem exact_format (m : Mode) (header : EventHeader) (e : FormatDescriptionEvent) (body : Bytes) :
    (∃ q, parseFormatDescription m header body 0 = .ok (e, q)) ↔ LooseFormat m header.eventLength e body := by
  rw [parseFormat_eq]
  simp only [bind_iff]
  constructor
  · rintro ⟨q, version, q1, g1, raw, q2, g2, h⟩
    obtain ⟨e1, ⟨v1, rfl⟩, ⟨t1, p1⟩, rfl⟩ := (Exact.uLE 2 _ _ _ _).1 g1
    obtain ⟨e2, ⟨v2, rfl⟩, ⟨t2, p2⟩, rfl⟩ := (Exact.readExact 50 _ _ _ _).1 g2
    rw [le_length, v2] at h
    cases hd : utf8Decode (e2.takeWhile (· != 0)) with
    | none => rw [hd] at h; simp [P.fail] at h
    | some server =>
      rw [hd] at h
      obtain ⟨hm, ck, ha, rfl⟩ := (formatRest_iff m header version server e body).1 ⟨q, h⟩
      obtain ⟨pad, rfl, h2, h3⟩ := takeWhile_server.1 (utf8Decode_eq_some_iff.1 hd)
      have hbody : body = le 2 version ++ (utf8Bytes server ++ pad) ++ t2 := by
        rw [List.append_assoc, p2]
        simp only [Nat.zero_add, List.drop_zero] at p1 ⊢
        conv_lhs => rw [← p1]
        rw [← p1, List.drop_left]
      rw [hbody] at ha ⊢
      exact .mk (by simpa using v1) h2 h3 (by simpa using v2) hm ha
  · rintro ⟨h1, h2, h3, h4, hm, ha⟩
    rename_i version server pad rest ck
    obtain ⟨q, hq⟩ := (formatRest_iff m header version server ⟨version, server, ck⟩ _).2 ⟨hm, ck, ha, rfl⟩
    refine ⟨q, version, 2, (Exact.uLE 2 _ _ _ _).2 ⟨_, ⟨by simpa using h1, rfl⟩, ⟨(utf8Bytes server ++ pad) ++ rest, by simp⟩, by simp⟩,
      utf8Bytes server ++ pad, 52, (Exact.readExact 50 _ _ _ _).2 ⟨_, ⟨by simpa using h4, rfl⟩, ⟨rest, ?_⟩, by simp; omega⟩, ?_⟩
    · rw [List.append_assoc (le 2 version), List.drop_left' (le_length 2 version)]
    · rw [utf8Decode_eq_some_iff.2 (takeWhile_server.2 ⟨pad, rfl, h2, h3⟩)]
      exact hq

/-! ## Table maps -/

theorem exact_looseNum : Exact (do let value ← readLenEncNum; return asU32 value) LooseNum :=
  (Exact.lenEncNum.map asU32).cast fun _ _ => ⟨fun ⟨a, h, e⟩ => ⟨a, h, e⟩, fun ⟨a, h, e⟩ => ⟨a, h, e⟩⟩

theorem exact_loosePair :
    Exact (do let key ← readLenEncNum; let value ← readLenEncNum; return (asU32 key, asU32 value)) LoosePair := by
  refine (Exact.lenEncNum.bind fun a => Exact.lenEncNum.map fun b => (asU32 a, asU32 b)).cast fun v e => ?_
  constructor
  · rintro ⟨a, e1, e2, h1, ⟨b, h2, rfl⟩, rfl⟩; exact ⟨e1, e2, ⟨a, h1, rfl⟩, ⟨b, h2, rfl⟩, rfl⟩
  · rintro ⟨e1, e2, ⟨a, h1, ha⟩, ⟨b, h2, hb⟩, rfl⟩; exact ⟨a, e1, e2, h1, ⟨b, h2, Prod.ext ha hb⟩, rfl⟩

theorem exact_values : Exact (do let length ← readLenEncNum; P.times length readLenEncStr) Values := by
  refine (Exact.lenEncNum.bind fun n => Exact.lenEncStr.times n).cast fun v e => ?_
  constructor
  · rintro ⟨n, e1, e2, h1, ⟨rfl, h2⟩, rfl⟩; exact ⟨e1, e2, h1, h2, rfl⟩
  · rintro ⟨e1, e2, h1, h2, rfl⟩; exact ⟨_, e1, e2, h1, ⟨rfl, h2⟩, rfl⟩

theorem exact_intArray : ExactEnd parseIntArray (Each LooseNum) :=
  ExactEnd.whileData exact_looseNum fun _ ⟨_, h, _⟩ => LenEnc_ne_nil h rfl

theorem loosePair_ne {p : Nat × Nat} : ¬LoosePair p [] := by
  rintro ⟨a, b, ⟨_, h, _⟩, _, he⟩
  obtain ⟨rfl, _⟩ := List.append_eq_nil_iff.1 he.symm
  exact LenEnc_ne_nil h rfl

theorem exact_intMap : ExactEnd parseIntMap (Each LoosePair) := ExactEnd.whileData exact_loosePair fun _ => loosePair_ne

theorem exact_stringArray : ExactEnd parseStringArray (Each Text) :=
  ExactEnd.whileData Exact.lenEncStr fun _ h => (text_parses h).2 rfl

theorem exact_typeValues : ExactEnd parseTypeValues (Each Values) :=
  ExactEnd.whileData exact_values fun _ h => (values_parses h).2 rfl

theorem exact_charset : ExactEnd parseDefaultCharset LooseCharset := by
  unfold parseDefaultCharset
  refine (Exact.lenEncNum.bindEnd fun a => exact_intMap.map fun cs => DefaultCharset.mk (asU32 a) cs).cast fun v e => ?_
  constructor
  · rintro ⟨a, e1, e2, h1, ⟨cs, h2, rfl⟩, rfl⟩; exact ⟨e1, e2, ⟨a, h1, rfl⟩, h2, rfl⟩
  · rintro ⟨e1, e2, ⟨a, h1, ha⟩, h2, rfl⟩
    obtain ⟨d, cs⟩ := v
    simp only at ha h2
    subst ha
    exact ⟨a, e1, e2, h1, ⟨cs, h2, rfl⟩, rfl⟩

theorem bitmapMsb_run {n : Nat} (hn : n < 2 ^ 63) (bits : List Bool) (bs : Bytes) :
    (readBitmapReverted n).run bs = .ok bits ↔ LooseBitmap n bits bs := by
  rw [(Exact.bitmapMsb n).toEnd.run]
  constructor
  · rintro ⟨e, x, ⟨_, h1, h2⟩, rfl⟩; exact ⟨h1, e, x, h2, rfl⟩
  · rintro ⟨h1, e, x, h2, rfl⟩; exact ⟨e, x, ⟨hn, h1, h2⟩, rfl⟩

theorem exact_lift_map {α β : Type} (r : Res α) (f : α → β) :
    Exact (P.lift r >>= fun v => Pure.pure (f v)) (fun b e => e = [] ∧ ∃ v, r = .ok v ∧ b = f v) :=
  ((Exact.lift r).map f).cast fun v e => by
    constructor
    · rintro ⟨a, ⟨h, rfl⟩, rfl⟩; exact ⟨rfl, a, h, rfl⟩
    · rintro ⟨rfl, a, h, rfl⟩; exact ⟨a, ⟨h, rfl⟩, rfl⟩

theorem exact_field {types : Bytes} (ht : ∀ t ∈ types, ∃ l, metaLayout t = some l) (hlen : types.length < 2 ^ 63) :
    Exact (parseMetadataField types) (fun f e => ∃ field, f = assignOf field ∧ LooseField types field e) := by
  have hnum : (types.filter isNumeric).length ≤ types.length := List.length_filter_le _ _
  have key : ∀ code mt (payload : Bytes), MetadataType.fromCode code = .ok mt → Exact (match mt with
      | .signedness => (do
        let count ← P.lift (numericColumnCount types)
        let v ← P.lift ((readBitmapReverted count).run payload)
        return fun t : TableMetadata => { t with signedness := some v } : P (TableMetadata → TableMetadata))
      | .defaultCharset => do
        let v ← P.lift (parseDefaultCharset.run payload)
        return fun t => { t with defaultCharset := some v }
      | .columnCharset => do
        let v ← P.lift (parseIntArray.run payload)
        return fun t => { t with columnCharsets := some v }
      | .columnName => do
        let v ← P.lift (parseStringArray.run payload)
        return fun t => { t with columnNames := some v }
      | .setStrValue => do
        let v ← P.lift (parseTypeValues.run payload)
        return fun t => { t with setStringValues := some v }
      | .enumStrValue => do
        let v ← P.lift (parseTypeValues.run payload)
        return fun t => { t with enumStringValues := some v }
      | .geometryType => do
        let v ← P.lift (parseIntArray.run payload)
        return fun t => { t with geometryTypes := some v }
      | .simplePrimaryKey => do
        let v ← P.lift (parseIntArray.run payload)
        return fun t => { t with simplePrimaryKeys := some v }
      | .primaryKeyWithPrefix => do
        let v ← P.lift (parseIntMap.run payload)
        return fun t => { t with primaryKeysWithPrefix := some v }
      | .enumAndSetDefaultCharset => do
        let v ← P.lift (parseDefaultCharset.run payload)
        return fun t => { t with enumAndSetDefaultCharset := some v }
      | .enumAndSetColumnCharset => do
        let v ← P.lift (parseIntArray.run payload)
        return fun t => { t with enumAndSetColumnCharsets := some v }
      | .columnVisibility => do
        let v ← P.lift ((readBitmapReverted types.length).run payload)
        return fun t => { t with columnVisibility := some v })
      (fun f e => e = [] ∧ ∃ field, f = assignOf field ∧ LoosePayload types (UInt8.ofNat code) field payload) := by
    intro code mt payload hc
    have fin : ∀ {α : Type} {r : Res α} {g : α → TableMetadata → TableMetadata} {Q : MetaField → Prop} (h : ∀ v, r = .ok v →
        ∃ field, g v = assignOf field ∧ Q field) (h' : ∀ field, Q field → ∃ v, r = .ok v ∧ assignOf field = g v),
        Exact (P.lift r >>= fun v => Pure.pure (g v)) (fun f e => e = [] ∧ ∃ field, f = assignOf field ∧ Q field) := by
      intro α r g Q h h'
      refine (exact_lift_map r g).cast fun f e => ?_
      constructor
      · rintro ⟨rfl, v, hr, rfl⟩; exact ⟨rfl, h v hr⟩
      · rintro ⟨rfl, field, rfl, hq⟩; exact ⟨rfl, h' field hq⟩
    unfold MetadataType.fromCode at hc
    split at hc <;> simp only [Res.ok.injEq, reduceCtorEq] at hc <;> subst hc
    · simp only [numericColumnCount_ok ht, lift_ok_bind]
      refine fin (fun v h => ⟨.signedness v, rfl, .signedness ((bitmapMsb_run (by omega) _ _).1 h)⟩) fun field h => ?_
      cases h with | signedness h => exact ⟨_, (bitmapMsb_run (by omega) _ _).2 h, rfl⟩
    · refine fin (fun v h => ⟨.defaultCharset v, rfl, .defaultCharset ((exact_charset.run _ _).1 h)⟩) fun field h => ?_
      cases h with | defaultCharset h => exact ⟨_, (exact_charset.run _ _).2 h, rfl⟩
    · refine fin (fun v h => ⟨.columnCharset v, rfl, .columnCharset ((exact_intArray.run _ _).1 h)⟩) fun field h => ?_
      cases h with | columnCharset h => exact ⟨_, (exact_intArray.run _ _).2 h, rfl⟩
    · refine fin (fun v h => ⟨.columnName v, rfl, .columnName ((exact_stringArray.run _ _).1 h)⟩) fun field h => ?_
      cases h with | columnName h => exact ⟨_, (exact_stringArray.run _ _).2 h, rfl⟩
    · refine fin (fun v h => ⟨.setValues v, rfl, .setValues ((exact_typeValues.run _ _).1 h)⟩) fun field h => ?_
      cases h with | setValues h => exact ⟨_, (exact_typeValues.run _ _).2 h, rfl⟩
    · refine fin (fun v h => ⟨.enumValues v, rfl, .enumValues ((exact_typeValues.run _ _).1 h)⟩) fun field h => ?_
      cases h with | enumValues h => exact ⟨_, (exact_typeValues.run _ _).2 h, rfl⟩
    · refine fin (fun v h => ⟨.geometryTypes v, rfl, .geometryTypes ((exact_intArray.run _ _).1 h)⟩) fun field h => ?_
      cases h with | geometryTypes h => exact ⟨_, (exact_intArray.run _ _).2 h, rfl⟩
    · refine fin (fun v h => ⟨.primaryKey v, rfl, .primaryKey ((exact_intArray.run _ _).1 h)⟩) fun field h => ?_
      cases h with | primaryKey h => exact ⟨_, (exact_intArray.run _ _).2 h, rfl⟩
    · refine fin (fun v h => ⟨.primaryKeyPrefix v, rfl, .primaryKeyPrefix ((exact_intMap.run _ _).1 h)⟩) fun field h => ?_
      cases h with | primaryKeyPrefix h => exact ⟨_, (exact_intMap.run _ _).2 h, rfl⟩
    · refine fin (fun v h => ⟨.enumSetDefaultCharset v, rfl, .enumSetDefaultCharset ((exact_charset.run _ _).1 h)⟩) fun field h => ?_
      cases h with | enumSetDefaultCharset h => exact ⟨_, (exact_charset.run _ _).2 h, rfl⟩
    · refine fin (fun v h => ⟨.enumSetColumnCharset v, rfl, .enumSetColumnCharset ((exact_intArray.run _ _).1 h)⟩) fun field h => ?_
      cases h with | enumSetColumnCharset h => exact ⟨_, (exact_intArray.run _ _).2 h, rfl⟩
    · refine fin (fun v h => ⟨.visibility v, rfl, .visibility ((bitmapMsb_run (by omega) _ _).1 h)⟩) fun field h => ?_
      cases h with | visibility h => exact ⟨_, (bitmapMsb_run (by omega) _ _).2 h, rfl⟩
  unfold parseMetadataField
  refine (Exact.u8.bind fun code => (Exact.lift (MetadataType.fromCode code)).bindOf fun mt _ hmt => Exact.lenEncNum.bind fun n =>
    (Exact.readVec n).bind fun payload => key code mt payload hmt.1).cast fun v e => ?_
  constructor
  · rintro ⟨code, _, _, ⟨h1, rfl⟩, ⟨mt, _, _, ⟨h2, rfl⟩, ⟨n, len, _, h3, ⟨_, payload, _, ⟨h4, rfl, rfl⟩, ⟨rfl, field, rfl, h5⟩, rfl⟩, rfl⟩, rfl⟩, rfl⟩
    exact ⟨field, rfl, UInt8.ofNat code, len, payload, h5, h4, h3, by simp [le]⟩
  · rintro ⟨field, rfl, code, len, payload, h1, h2, h3, rfl⟩
    have hmt : ∃ mt, MetadataType.fromCode code.toNat = .ok mt := by cases h1 <;> exact ⟨_, rfl⟩
    obtain ⟨mt, hmt⟩ := hmt
    refine ⟨code.toNat, _, _, ⟨code.toNat_lt, rfl⟩, ⟨mt, _, _, ⟨hmt, rfl⟩, ⟨_, len, _, h3, ⟨payload, payload, [], ⟨h2, rfl, rfl⟩,
      ⟨rfl, field, rfl, by simpa using h1⟩, rfl⟩, rfl⟩, rfl⟩, by simp [le]⟩

theorem exact_columnMeta (t : UInt8) : Exact (parseColumnMetadata t) (fun n e => ColumnMeta (t, n) e) := by
  by_cases hk : ∃ l, metaLayout t = some l
  · obtain ⟨l, hl⟩ := hk
    rw [columnMeta_eq t l hl]
    cases l with
    | nothing =>
      refine (Exact.ret 0).cast fun n e => ?_
      constructor
      · rintro ⟨rfl, rfl⟩; exact .nothing hl
      · intro h; cases h with
        | nothing => exact ⟨rfl, rfl⟩
        | byte h | littleEndian h | bigEndian h => rw [hl] at h; cases h
    | byte =>
      refine Exact.u8.cast fun n e => ?_
      constructor
      · rintro ⟨h, rfl⟩; exact .byte hl h
      · intro h; cases h with
        | byte _ hn => exact ⟨hn, rfl⟩
        | nothing h | littleEndian h | bigEndian h => rw [hl] at h; cases h
    | littleEndian =>
      refine (Exact.uLE 2).cast fun n e => ?_
      constructor
      · rintro ⟨h, rfl⟩; exact .littleEndian hl h
      · intro h; cases h with
        | littleEndian _ hn => exact ⟨hn, rfl⟩
        | nothing h | byte h | bigEndian h => rw [hl] at h; cases h
    | bigEndian =>
      refine (Exact.uBE 2).cast fun n e => ?_
      constructor
      · rintro ⟨h, rfl⟩; exact .bigEndian hl h
      · intro h; cases h with
        | bigEndian _ hn => exact ⟨hn, rfl⟩
        | nothing h | byte h | littleEndian h => rw [hl] at h; cases h
  · intro buf pos n q
    constructor
    · intro h
      unfold parseColumnMetadata at h
      obtain ⟨⟨c, q'⟩, h1, _⟩ := bind_inv h
      exact absurd ((metaLayout_known t).2 ⟨c, (lift_iff.1 h1).1⟩) hk
    · rintro ⟨e, h, _⟩
      cases h with
      | nothing h | byte h | littleEndian h | bigEndian h => exact absurd ⟨_, h⟩ hk

theorem metaOf_unique {fields : List MetaField} {a b : TableMetadata} (h1 : MetaOf fields a) (h2 : MetaOf fields b) : a = b := by
  obtain ⟨⟩ := a
  obtain ⟨⟩ := b
  obtain ⟨a1, a2, a3, a4, a5, a6, a7, a8, a9, a10, a11, a12⟩ := h1
  obtain ⟨b1, b2, b3, b4, b5, b6, b7, b8, b9, b10, b11, b12⟩ := h2
  simp only at a1 a2 a3 a4 a5 a6 a7 a8 a9 a10 a11 a12 b1 b2 b3 b4 b5 b6 b7 b8 b9 b10 b11 b12
  rw [a1, a2, a3, a4, a5, a6, a7, a8, a9, a10, a11, a12, b1, b2, b3, b4, b5, b6, b7, b8, b9, b10, b11, b12]

theorem each_ofMap {α β : Type} {f : α → β} {R : α → Bytes → Prop} {vs : List β} {e : Bytes} :
    Each (fun b e => ∃ a, b = f a ∧ R a e) vs e ↔ ∃ as, vs = as.map f ∧ Each R as e := by
  constructor
  · intro h
    induction h with
    | nil => exact ⟨[], rfl, .nil⟩
    | cons h _ ih =>
      obtain ⟨a, rfl, ha⟩ := h
      obtain ⟨as, rfl, has⟩ := ih
      exact ⟨a :: as, rfl, .cons ha has⟩
  · rintro ⟨as, rfl, h⟩
    induction h with
    | nil => exact .nil
    | cons h _ ih => exact .cons ⟨_, rfl, h⟩ ih

theorem exact_tableMetadata {types : Bytes} (ht : ∀ t ∈ types, ∃ l, metaLayout t = some l) (hlen : types.length < 2 ^ 63) :
    ExactEnd (parseTableMetadata types) (fun md e => ∃ fields, Each (LooseField types) fields e ∧ MetaOf fields md) := by
  unfold parseTableMetadata
  refine ((ExactEnd.whileData (exact_field ht hlen) ?_).map _).cast fun md e => ?_
  · rintro f ⟨field, _, code, len, payload, _, _, _, h⟩
    cases h
  · simp only [each_ofMap]
    constructor
    · rintro ⟨_, ⟨fields, rfl, h⟩, rfl⟩; exact ⟨fields, h, metaOf_fold fields⟩
    · rintro ⟨fields, h, hmd⟩; exact ⟨_, ⟨fields, rfl, h⟩, metaOf_unique hmd (metaOf_fold fields)⟩

/-- Skipped bytes must be there when something is read after them. -/
theorem ExactEnd.skip {α : Type} {p : P α} {R : α → Bytes → Prop} (h : ExactEnd p R) (hne : ∀ v, ¬R v []) (k : Nat) :
    ExactEnd (P.seekCur k >>= fun _ => p) (fun v t => ∃ s t1, s.length = k ∧ R v t1 ∧ t = s ++ t1) :=
  (h.seek k).cast fun v t => by
    constructor
    · intro hr
      refine ⟨t.take k, t.drop k, ?_, hr, (List.take_append_drop k t).symm⟩
      have : t.drop k ≠ [] := fun h => hne v (h ▸ hr)
      have := mt List.drop_eq_nil_iff.2 this
      simp only [List.length_take]; omega
    · rintro ⟨s, t1, rfl, hr, rfl⟩
      rwa [List.drop_left]

theorem exact_tableMap : ExactEnd parseTableMap LooseTableMap := by
  unfold parseTableMap parseMetadata
  have h6 : ∀ (tableId : Nat) (db table : RStr) (types : Bytes) (ms : List Nat) (nulls : List Bool)
      (_ : ∀ t ∈ types, ∃ l, metaLayout t = some l) (_ : types.length < 2 ^ 63), ExactEnd (do
        let more ← P.hasData
        if more then
          let tableMetadata ← parseTableMetadata types
          return { tableId, databaseName := db, tableName := table, columnTypes := types, columnMetadata := ms, nullBitmap := nulls,
                   tableMetadata := some tableMetadata }
        else
          return ({ tableId, databaseName := db, tableName := table, columnTypes := types, columnMetadata := ms, nullBitmap := nulls,
                    tableMetadata := none } : TableMapEvent))
        (fun t opt => ∃ md, LooseMetadata types md opt ∧ t = ⟨tableId, db, table, types, ms, nulls, md⟩) := by
    intro tableId db table types ms nulls ht hlen
    refine (ExactEnd.hasData fun b => ExactEnd.ite (fun _ => (exact_tableMetadata ht hlen).map _)
      fun _ => (Exact.ret _).toEnd).cast fun t opt => ?_
    unfold LooseMetadata
    cases opt with
    | nil =>
      simp only [List.isEmpty_nil, Bool.not_true, Bool.false_eq_true, false_and, not_false_eq_true, true_and, false_or, ne_eq,
        not_true_eq_false, or_false]
      constructor
      · rintro ⟨_, _, ⟨rfl, _⟩, _⟩; exact ⟨none, rfl, rfl⟩
      · rintro ⟨_, rfl, rfl⟩; exact ⟨[], [], ⟨rfl, rfl⟩, rfl⟩
    | cons o os =>
      simp only [List.isEmpty_cons, Bool.not_false, true_and, not_true_eq_false, false_and, or_false, reduceCtorEq, false_or, ne_eq,
        not_false_eq_true]
      constructor
      · rintro ⟨md, ⟨fields, h1, h2⟩, rfl⟩; exact ⟨some md, ⟨fields, md, h1, h2, rfl⟩, rfl⟩
      · rintro ⟨_, ⟨fields, md, h1, h2, rfl⟩, rfl⟩; exact ⟨md, ⟨fields, h1, h2⟩, rfl⟩
  have h5 := fun (tableId : Nat) (db table : RStr) => Exact.lenEncNum.bindEnd fun n => (Exact.readVec n).bindEndOf fun types e2 (hR : _ ∧ _ ∧ _) =>
    Exact.lenEncNum.bindEnd fun _ => (Exact.forEach exact_columnMeta types).bindEndOf fun ms e3 hm =>
    (Exact.bitmapLE n).bindEnd fun nulls => h6 tableId db table types ms nulls
      (by obtain ⟨ps, rfl, _, h⟩ := hm; exact columnMeta_known h) (by rw [hR.2.1]; exact hR.1)
  have h4 := fun (tableId : Nat) (db : RStr) => Exact.u8.bindEnd fun n => (Exact.readString n).bindEnd fun table =>
    (h5 tableId db table).skip (by
      rintro v ⟨n, e1, e2, h, _, he⟩
      obtain ⟨rfl, _⟩ := List.append_eq_nil_iff.1 he.symm
      exact LenEnc_ne_nil h rfl) 1
  have h3 := fun (tableId : Nat) => Exact.u8.bindEnd fun n => (Exact.readString n).bindEnd fun db =>
    (h4 tableId db).skip (by rintro v ⟨n, e1, e2, ⟨_, rfl⟩, _, he⟩; simp [le] at he) 1
  have h2 := (Exact.uLE 6).bindEnd fun tableId =>
    (h3 tableId).skip (by rintro v ⟨n, e1, e2, ⟨_, rfl⟩, _, he⟩; simp [le] at he) 2
  refine ExactEnd.cast h2 fun t body => ?_
  constructor
  · rintro ⟨tableId, _, _, ⟨g1, rfl⟩, ⟨flags, _, g2, ⟨dbn, _, _, ⟨g3, rfl⟩, ⟨db, _, _, ⟨_, rfl, rfl⟩, ⟨z1, _, gz1, ⟨tn, _, _, ⟨g4, rfl⟩,
      ⟨table, _, _, ⟨_, rfl, rfl⟩, ⟨z2, _, gz2, ⟨n, count, _, g5, ⟨types, _, _, ⟨g5', g5'', rfl⟩, ⟨ms, ml, _, g6, ⟨_, cm, _, ⟨ps, rfl, rfl, g7⟩,
      ⟨nulls, bm, opt, ⟨_, g8, g9⟩, ⟨md, g10, rfl⟩, rfl⟩, rfl⟩, rfl⟩, rfl⟩, rfl⟩, rfl⟩, rfl⟩, rfl⟩, rfl⟩, rfl⟩, rfl⟩, rfl⟩, rfl⟩
    obtain ⟨z1, rfl⟩ := List.length_eq_one_iff.1 gz1
    obtain ⟨z2, rfl⟩ := List.length_eq_one_iff.1 gz2
    rw [List.length_map] at g5''
    subst g5''
    have := LooseTableMap.mk (z1 := z1) (z2 := z2) g1 g2 g3 g4 g5 g5' g7 g6 g8 g9 g10
    simpa only [List.append_assoc] using this
  · rintro ⟨g1, g2, g3, g4, g5, g5', g6, g8, g9, g10, g11⟩
    rename_i tableId metaSize flags db table columns nulls z1 z2 count ml cm bm opt md
    refine ⟨tableId, _, _, ⟨g1, rfl⟩, ⟨flags, _, g2, ⟨_, _, _, ⟨g3, rfl⟩, ⟨db, _, _, ⟨by omega, rfl, rfl⟩, ⟨[z1], _, rfl, ⟨_, _, _, ⟨g4, rfl⟩,
      ⟨table, _, _, ⟨by omega, rfl, rfl⟩, ⟨[z2], _, rfl, ⟨_, count, _, g5, ⟨_, _, _, ⟨g5', by simp, rfl⟩, ⟨_, ml, _, g8, ⟨_, cm, _, ⟨columns, rfl, rfl, g6⟩,
      ⟨nulls, bm, opt, ⟨g5', g9, g10⟩, ⟨md, g11, rfl⟩, rfl⟩, rfl⟩, rfl⟩, rfl⟩, rfl⟩, rfl⟩, rfl⟩, rfl⟩, rfl⟩, rfl⟩, rfl⟩, rfl⟩, ?_⟩
    simp only [List.append_assoc]

end MysqlCdc
