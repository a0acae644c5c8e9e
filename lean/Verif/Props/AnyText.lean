import Verif.Spec.AnyText
import Verif.Props.Compressed
import Verif.Props.AnyValues
/-!
# C113: statements and user variables in any character set
-/

namespace MysqlCdc

open Spec

theorem notText_decode {bs : Bytes} (h : ¬ IsText bs) : utf8Decode bs = none := by
  cases hd : utf8Decode bs with
  | none => rfl
  | some s => exact absurd ⟨s, utf8Decode_eq_some_iff.1 hd⟩ h

/-- `p`, at the end of the bytes, fails. -/
def StopsEnd {α : Type} (p : P α) (enc : Bytes) (e : Err) : Prop := ∀ pre : Bytes, p (pre ++ enc) pre.length = .err e

theorem StopsEnd.bind {α β : Type} {p : P α} {f : α → P β} {e1 e2 : Bytes} {a : α} {e : Err} (h1 : Parses p e1 a)
    (h2 : StopsEnd (f a) e2 e) : StopsEnd (p >>= f) (e1 ++ e2) e := by
  intro pre
  have h1' := h1 pre e2
  have h2' := h2 (pre ++ e1)
  simp only [List.append_assoc, List.length_append] at h1' h2' ⊢
  simp [h1', h2', Res.bind]

theorem StopsEnd.map {α β : Type} {p : P α} {enc : Bytes} {e : Err} (f : α → β) (h : StopsEnd p enc e) :
    StopsEnd (p >>= fun x => pure (f x)) enc e := by
  intro pre
  simp [h pre, Res.bind]

theorem StopsEnd.run {α : Type} {p : P α} {enc : Bytes} {e : Err} (h : StopsEnd p enc e) : p.run enc = .err e := by
  have := h []
  simp only [List.nil_append, List.length_nil] at this
  simp [P.run, this]

theorem readToString_stops {bs : Bytes} (h : ¬ IsText bs) : StopsEnd readToString bs (.io .invalidData) := by
  intro pre
  unfold readToString
  simp [P.rest, notText_decode h, Res.bind, P.fail]

theorem readString_stops {bs : Bytes} (h : ¬ IsText bs) (hl : bs.length < 2 ^ 63) : Runs (readString bs.length) bs (.error .fromUtf8) := by
  unfold readString
  have hv : Parses (P.readVec bs.length) bs bs := readVec_parses rfl hl
  rw [← List.append_nil bs]
  refine Runs.bind (e1 := bs) (by simpa using hv) (e2 := []) ?_
  intro pre rest
  simp [P.lift, fromUtf8, notText_decode h]

theorem Runs.run_err {α : Type} {p : P α} {enc : Bytes} {e : Err} (h : Runs p enc (.error e)) : p.run enc = .err e := by
  have := h [] []
  simp only [List.nil_append, List.append_nil, List.length_nil] at this
  simp [P.run, this]

theorem textBody_stops {m : Mode} {tm : TableMapCache} {header : EventHeader} {code : Nat} {text body : Bytes} {shown : RStr → BinlogEvent} {err : Err}
    (h : TextBody code text shown err body) (hc : header.eventType = code) (hn : ¬ IsText text) : (dispatchEvent m tm header).run body = .err err := by
  unfold dispatchEvent
  rw [hc]
  cases h with
  | query h1 h2 h3 h4 h5 =>
    refine (StopsEnd.map BinlogEvent.query ?_).run
    unfold parseQuery
    simp only [List.append_assoc]
    refine StopsEnd.bind (uLE_parses (k := 4) (by simpa using h1)) ?_
    refine StopsEnd.bind (uLE_parses (k := 4) (by simpa using h2)) ?_
    refine StopsEnd.bind (u8_parses h3) ?_
    refine StopsEnd.bind (uLE_parses (k := 2) (by simpa using h4)) ?_
    refine StopsEnd.bind (uLE_parses (k := 2) (by simpa using h5)) ?_
    refine StopsEnd.bind (readVec_parses rfl (by omega)) ?_
    refine StopsEnd.bind (readString_parses rfl (by omega)) ?_
    refine StopsEnd.bind (seek_parses (n := 1) rfl) ?_
    exact (readToString_stops hn).map _
  | @rowsQuery _ length =>
    refine (StopsEnd.map BinlogEvent.rowsQuery ?_).run
    unfold parseRowsQueryMysql
    exact StopsEnd.bind (e1 := [length]) (seek_parses (n := 1) rfl) ((readToString_stops hn).map _)
  | annotateRows =>
    refine (StopsEnd.map BinlogEvent.rowsQuery ?_).run
    exact (readToString_stops hn).map _
  | @userVar name _ type collation flags extra h1 h2 h3 h4 h5 =>
    have key : Runs parseUserVar (le 4 (utf8Bytes name).length ++ utf8Bytes name ++ [0] ++ le 1 type ++ le 4 collation ++ le 4 text.length ++ text ++
        le 1 flags ++ extra) (.error .fromUtf8) := by
      unfold parseUserVar
      simp only [List.append_assoc]
      refine Runs.bind (uLE_parses (k := 4) (by simpa using h1)) ?_
      refine Runs.bind (readString_parses rfl (by omega)) ?_
      refine Runs.bind (u8_byte 0) ?_
      rw [if_neg (by simp)]
      refine Runs.bind (u8_parses h2) ?_
      refine Runs.bind (uLE_parses (k := 4) (by simpa using h3)) ?_
      refine Runs.bind (uLE_parses (k := 4) (by simpa using h4)) ?_
      exact (readString_stops hn (by omega)).stop
    exact (key.map BinlogEvent.userVar).run_err

theorem textBody_plain {code : Nat} {body : Bytes} {s : RStr} {shown : RStr → BinlogEvent} {err : Err} (h : TextBody code (utf8Bytes s) shown err body) :
    PlainBody code (shown s) body := by
  generalize ht : utf8Bytes s = t at h
  cases h with
  | query h1 h2 h3 h4 h5 => subst ht; exact .query h1 h2 h3 h4 h5
  | rowsQuery => subst ht; exact .rowsQuery
  | annotateRows => subst ht; exact .annotateRows
  | userVar h1 h2 h3 h4 h5 => subst ht; exact .userVar h1 h2 h3 h4 h5

/-- C113, what holds of one event: statements and user variables are decoded if their bytes are text in UTF-8, and refused otherwise; the decoder is then as
before. Missing: all other character sets, and values of variables that are no text, see `C113_false`. -/
theorem C113_text_partial (m : Mode) (st : EventParser) (header : EventHeader) {text body slice : Bytes} {shown : RStr → BinlogEvent} {err : Err}
    (hb : TextBody header.eventType text shown err body) (hs : WithChecksum st.checksumType body slice) :
    (∀ s, text = utf8Bytes s → parseEvent m st header slice = (.ok (shown s), st)) ∧
    (¬ IsText text → parseEvent m st header slice = (.err err, st)) := by
  refine ⟨fun s hs' => ?_, fun hn => ?_⟩
  · subst hs'
    rw [parseEvent_of_body hs (dispatch_plain (textBody_plain hb))]
    generalize header.eventType = code at hb
    cases hb <;> rfl
  · exact parseEvent_runs (r := .error err) hs (textBody_stops hb rfl hn)

/-! ## Streams -/

theorem Spec.HandedOut.append {m : Mode} {st st1 st2 : EventParser} {xs ys : List (EventHeader × Bytes)} {es fs : List Ev} (h1 : HandedOut m st xs es st1)
    (h2 : HandedOut m st1 ys fs st2) : HandedOut m st (xs ++ ys) (es ++ fs) st2 := by
  induction h1 with
  | nil => exact h2
  | event h _ ih => exact .event h (ih h2)
  | refused h _ ih => exact .refused h (ih h2)

theorem plain_handedOut (m : Mode) {st : EventParser} {code : Nat} {e : BinlogEvent} {x : EventHeader × Bytes}
    (h : OnWire st.checksumType code (PlainBody code e) x) (he : st.record e = st) : HandedOut m st [x] [(x.1, e)] st := by
  obtain ⟨rfl, body, hb, hs⟩ := h
  refine .event ?_ .nil
  rw [parseEvent_of_body hs (dispatch_plain hb), he]

/-- A statement is handed out if it is text. -/
theorem statement_handedOut (m : Mode) {st : EventParser} {sql : Bytes} {x : EventHeader × Bytes} (h : StatementOnWire st.checksumType sql x) :
    (∀ s, sql = utf8Bytes s → ∃ q : QueryEvent, q.sqlStatement = s ∧ HandedOut m st [x] [(x.1, .query q)] st) ∧
    (¬ IsText sql → HandedOut m st [x] [] st) := by
  obtain ⟨hc, body, ⟨shown, err, hb⟩, hs⟩ := h
  obtain ⟨h1, h2⟩ := C113_text_partial m st x.1 (hc ▸ hb) hs
  refine ⟨fun s hs' => ?_, fun hn => .refused (h2 hn) .nil⟩
  have h3 := h1 s hs'
  cases hb
  exact ⟨_, rfl, .event h3 .nil⟩

theorem statements_handedOut (m : Mode) {st : EventParser} {sqls : List Bytes} {ys : List (EventHeader × Bytes)} (hp : ∀ sql ∈ sqls, PlainSql sql)
    (h : List.Forall₂ (StatementOnWire st.checksumType) sqls ys) : ∃ es, HandedOut m st ys es st ∧ ∀ e ∈ es, Inside e.2 := by
  induction h with
  | nil => exact ⟨[], .nil, by simp⟩
  | @cons sql y sqls ys h _ ih =>
    obtain ⟨es, h1, h2⟩ := ih fun sql hs => hp sql (by simp [hs])
    obtain ⟨h3, h4⟩ := statement_handedOut m h
    by_cases ht : IsText sql
    · obtain ⟨s, hs⟩ := ht
      obtain ⟨q, hq, h5⟩ := h3 s hs
      refine ⟨_, h5.append h1, ?_⟩
      simp only [List.singleton_append, List.mem_cons, forall_eq_or_imp]
      have hno := (hp sql (by simp)).2
      simp only [List.mem_cons, List.not_mem_nil, or_false, forall_eq_or_imp, forall_eq] at hno
      refine ⟨⟨id, ?_⟩, h2⟩
      rintro (h | h) <;> rw [hq] at h <;> subst h
      · exact hno.2.1 hs
      · exact hno.2.2 hs
    · exact ⟨es, by simpa using (h4 ht).append h1, h2⟩

theorem sentTx_handedOut (m : Mode) {st : EventParser} {tx : LoggedTx} {xs : List (EventHeader × Bytes)} (h : SentTx st.checksumType tx xs) :
    ∃ es, HandedOut m st xs es st ∧ (tx.Told → MysqlTx tx.gtid es) ∧
      (¬ tx.Told → ∃ (h : EventHeader) (x : MySqlGtidEvent), x.gtid = tx.gtid ∧ es = [(h, .mySqlGtid x)]) := by
  cases h with
  | @single g sql x y hg hp hs =>
    obtain ⟨flags, hg⟩ := hg
    have h1 := plain_handedOut m hg rfl
    obtain ⟨h3, h4⟩ := statement_handedOut m hs
    by_cases ht : IsText sql
    · obtain ⟨s, hs⟩ := ht
      obtain ⟨q, hq, h5⟩ := h3 s hs
      refine ⟨_, h1.append h5, fun _ => .auto (mid := []) rfl (by simp) ?_, fun hn => absurd ⟨s, hs⟩ hn⟩
      obtain ⟨hne, hno⟩ := hp
      simp only [List.mem_cons, List.not_mem_nil, or_false, forall_eq_or_imp, forall_eq] at hno
      subst hq hs
      refine ⟨fun h => hne ?_, fun h => hno.1 ?_, fun h => hno.2.1 ?_, fun h => hno.2.2 ?_⟩ <;> rw [h]
      rfl
    · exact ⟨_, h1.append (h4 ht), fun h => absurd h ht, fun _ => ⟨_, _, rfl, rfl⟩⟩
  | @block g sqls x b e ys xid hg hb hp hs he =>
    obtain ⟨flags, hg⟩ := hg
    have h1 := plain_handedOut m hg rfl
    obtain ⟨q, hq, h2⟩ := (statement_handedOut m hb).1 _ rfl
    obtain ⟨es, h3, h4⟩ := statements_handedOut m hp hs
    have h5 := plain_handedOut m he rfl
    refine ⟨_, ((h1.append h2).append h3).append h5, fun _ => ?_, fun hn => absurd trivial hn⟩
    simpa [LoggedTx.gtid] using MysqlTx.block (h0 := x.1) (hb := b.1) (he := e.1) (x := ⟨g, flags⟩) (b := .query q) (e := .xid ⟨xid⟩) (mid := []) (body := es) rfl (by simp) hq h4 trivial

theorem silent_lost (m : Mode) : Silent m (fun es => ∃ (h : EventHeader) (x : MySqlGtidEvent), es = [(h, .mySqlGtid x)]) fun _ _ => True := by
  rintro es ⟨h, x, rfl⟩ k c l set hc - hw ho
  obtain ⟨c1, e1, f1⟩ := hc.gtid m h x
  match k with
  | 0 => exact ⟨c, false, l, set, by simp [commitAll], hc, hw, ho, by simp, by simp⟩
  | k + 1 => exact ⟨c1, false, _, set, by simp [commitAll, e1], f1, hw, ho, by simp, by simp⟩

open Classical in
theorem sentLog_parts (m : Mode) {st : EventParser} {txs : List LoggedTx} {xs : List (EventHeader × Bytes)} (h : SentLog st.checksumType txs xs) :
    ∃ parts : List (Part (Option Gtid)), HandedOut m st xs (flat parts) st ∧
      (∀ p ∈ parts, OkWith (fun es => ∃ (h : EventHeader) (x : MySqlGtidEvent), es = [(h, .mySqlGtid x)]) p) ∧
      parts.flatMap Part.gtids = txs.map (fun tx => if tx.Told then some tx.gtid else none) := by
  induction h with
  | nil => exact ⟨[], .nil, by simp, rfl⟩
  | @cons tx txs a b h _ ih =>
    obtain ⟨parts, h1, h2, h3⟩ := ih
    obtain ⟨es, h4, h5, h6⟩ := sentTx_handedOut m h
    refine ⟨.tx (if tx.Told then some tx.gtid else none) es :: parts, by simpa [flat, Part.events] using h4.append h1, ?_,
      by simp [Part.gtids, h3]⟩
    simp only [List.mem_cons, forall_eq_or_imp]
    refine ⟨?_, h2⟩
    by_cases ht : tx.Told
    · rw [if_pos ht]; exact h5 ht
    · rw [if_neg ht]
      obtain ⟨h, x, -, rfl⟩ := h6 ht
      exact ⟨h, x, rfl⟩

/-- **C113.** A client by MySQL GTIDs whose application commits all events it is handed, and goes on after errors: of the transactions sent, exactly those are
recorded that have an end of their own, and single statements in UTF-8. Missing: single statements in other character sets. -/
theorem C113_recorded_partial (m : Mode) (c : Client) (set : GtidSet) (hc : FromSet c set) (hw : Wf set) (ho : AllOrdered set) (st : EventParser)
    (txs : List LoggedTx) (hg : ∀ tx ∈ txs, GtidOk tx.gtid) (xs : List (EventHeader × Bytes)) (hx : SentLog st.checksumType txs xs) :
    ∃ es, HandedOut m st xs es st ∧ ∃ c' set', commitAll m c es = .ok c' ∧ c'.options.binlog.gtidSet = some set' ∧ Wf set' ∧ AllOrdered set' ∧
      ∀ u n, Has set' u n ↔ Has set u n ∨ ∃ tx ∈ txs, tx.Told ∧ u = tx.gtid.sourceId.data ∧ n = tx.gtid.transactionId := by
  obtain ⟨parts, h1, h2, h3⟩ := sentLog_parts m hx
  obtain ⟨c', set', i1, i2, i3, i4, i5⟩ := silent_prefix m (silent_lost m) (fun _ _ _ _ => trivial) parts h2 (fun g hgm x hgx => by
      rw [h3] at hgm
      obtain ⟨tx, ht, rfl⟩ := List.mem_map.1 hgm
      split at hgx
      · cases hgx; exact hg tx ht
      · cases hgx) (flat parts).length c c.mysqlGtid set ⟨hc.strategy, hc.idle, rfl, hc.set⟩ trivial hw ho
  rw [List.take_length] at i1
  refine ⟨flat parts, h1, c', set', i1, i2, i3, i4, fun u n => ?_⟩
  rw [i5]
  refine or_congr Iff.rfl ⟨?_, ?_⟩
  · rintro ⟨g, ⟨pre, es, post, rfl, -⟩, hu, hn⟩
    have : some g ∈ (pre ++ .tx (some g) es :: post).flatMap Part.gtids := by simp [Part.gtids]
    rw [h3] at this
    obtain ⟨tx, ht, hgt⟩ := List.mem_map.1 this
    split at hgt
    · cases hgt; exact ⟨tx, ht, ‹_›, hu, hn⟩
    · cases hgt
  · rintro ⟨tx, ht, htold, hu, hn⟩
    have : some tx.gtid ∈ parts.flatMap Part.gtids := by
      rw [h3]; exact List.mem_map.2 ⟨tx, ht, if_pos htold⟩
    obtain ⟨p, hp, hpg⟩ := List.mem_flatMap.1 this
    cases p with
    | noise e => simp [Part.gtids] at hpg
    | tx g es =>
      simp only [Part.gtids, List.mem_singleton] at hpg
      subst hpg
      obtain ⟨pre, post, rfl⟩ := List.append_of_mem hp
      exact ⟨tx.gtid, ⟨pre, es, post, rfl, by simp [flat, Part.events]⟩, hu, hn⟩

/-! ## Examples -/

/-- The bytes of `CREATE é` in Latin-1. -/
def exLatinSql : Bytes := utf8Bytes "CREATE ".toList ++ [0xE9]

theorem exLatin_noText : ¬ IsText exLatinSql := by
  rintro ⟨s, hs⟩
  have h := utf8Decode_eq_some_iff.2 hs
  have : utf8Decode exLatinSql = none := by decide +kernel
  rw [this] at h
  cases h

theorem exLatin_plain : PlainSql exLatinSql := by
  refine ⟨by decide, ?_⟩
  decide +kernel

/-- GTID event of transaction `n`. -/
def exGtidWire (n : Nat) : EventHeader × Bytes := (⟨0, 33, 1, 0, 100, 0⟩, le 1 0 ++ exUuid.data ++ le 8 n ++ [])

/-- A statement without database. -/
def exSqlWire (sql : Bytes) : EventHeader × Bytes := (⟨0, 2, 1, 0, 200, 0⟩, le 4 0 ++ le 4 0 ++ le 1 0 ++ le 2 0 ++ le 2 0 ++ [] ++ [] ++ [0] ++ sql)

def exXidWire : EventHeader × Bytes := (⟨0, 16, 1, 0, 300, 0⟩, le 8 7 ++ [])

theorem exGtidWire_on (n : Nat) (hn : n < 2 ^ 64) : GtidOnWire .none ⟨exUuid, n⟩ (exGtidWire n) :=
  ⟨0, rfl, _, PlainBody.mySqlGtid (flags := 0) (sid := exUuid.data) (extra := []) (by decide) (by decide) hn, [], rfl, by simp [exGtidWire]⟩

theorem exSqlWire_on (sql : Bytes) : StatementOnWire .none sql (exSqlWire sql) :=
  ⟨rfl, _, ⟨_, _, TextBody.query (thread := 0) (duration := 0) (error := 0) (status := []) (db := []) (by decide) (by decide) (by decide) (by decide)
    (by decide)⟩, [], rfl, by simp [exSqlWire, utf8Bytes]⟩

/-- Statements of the Latin-1 client: one of its own, one between BEGIN and XID. -/
def exLatinLog : List LoggedTx := [.single ⟨exUuid, 5⟩ exLatinSql, .block ⟨exUuid, 20⟩ [exLatinSql]]

def exLatinSent : List (EventHeader × Bytes) :=
  [exGtidWire 5, exSqlWire exLatinSql] ++ ((exGtidWire 20 :: exSqlWire (utf8Bytes "BEGIN".toList) :: [exSqlWire exLatinSql] ++ [exXidWire]) ++ [])

theorem exLatin_sent : SentLog .none exLatinLog exLatinSent :=
  .cons (.single (exGtidWire_on 5 (by decide)) exLatin_plain (exSqlWire_on _))
    (.cons (.block (xid := 7) (exGtidWire_on 20 (by decide)) (exSqlWire_on _) (by simpa using exLatin_plain) (.cons (exSqlWire_on _) .nil)
      ⟨rfl, _, .xid (extra := []) (by decide), [], rfl, by simp [exXidWire]⟩) .nil)

theorem exLatin_ok : ∀ tx ∈ exLatinLog, GtidOk tx.gtid := by
  simp only [exLatinLog, List.mem_cons, List.not_mem_nil, or_false, forall_eq_or_imp, forall_eq]
  exact ⟨⟨UuidCanon_ok exUuid_canon, by decide⟩, ⟨UuidCanon_ok exUuid_canon, by decide⟩⟩

/-- What is handed out is determined. -/
theorem Spec.HandedOut.unique {m : Mode} {st st1 st2 : EventParser} {xs : List (EventHeader × Bytes)} {es fs : List Ev} (h1 : HandedOut m st xs es st1)
    (h2 : HandedOut m st xs fs st2) : es = fs := by
  induction h1 generalizing fs with
  | nil => cases h2; rfl
  | event h _ ih =>
    cases h2 with
    | event h' hr => rw [h] at h'; cases h'; rw [ih hr]
    | refused h' hr => rw [h] at h'; cases h'
  | refused h _ ih =>
    cases h2 with
    | event h' hr => rw [h] at h'; cases h'
    | refused h' hr => rw [h] at h'; cases h'; rw [ih hr]

/-- Recorded after the example: transaction 20, but not transaction 5. -/
example (m : Mode) : ∃ es, HandedOut m EventParser.new exLatinSent es EventParser.new ∧ ∃ c' set', commitAll m exClient es = .ok c' ∧
    c'.options.binlog.gtidSet = some set' ∧ Has set' exUuid.data 20 ∧ ¬ Has set' exUuid.data 5 := by
  obtain ⟨es, h1, c', set', h2, h3, -, -, h4⟩ := C113_recorded_partial m exClient exSet ⟨rfl, rfl, rfl⟩ exSet_wf exSet_ordered EventParser.new exLatinLog
    exLatin_ok exLatinSent exLatin_sent
  refine ⟨es, h1, c', set', h2, h3, (h4 _ _).2 (.inr ⟨.block ⟨exUuid, 20⟩ [exLatinSql], by simp [exLatinLog], trivial, rfl, rfl⟩), fun h => ?_⟩
  rcases (h4 _ _).1 h with h | ⟨tx, ht, htold, -, hn⟩
  · exact exCompressed_new h
  · simp only [exLatinLog, List.mem_cons, List.not_mem_nil, or_false] at ht
    rcases ht with rfl | rfl
    · exact exLatin_noText htold
    · exact absurd hn (by decide)

/-- C113 as stated is false: a statement in Latin-1 is refused, its transaction not recorded once all events were handled; and a user variable with the
value 200 is refused. -/
theorem C113_false (m : Mode) :
    (¬ ∀ (c : Client) (set : GtidSet) (st : EventParser) (txs : List LoggedTx) (xs : List (EventHeader × Bytes)), FromSet c set → Wf set → AllOrdered set →
      (∀ tx ∈ txs, GtidOk tx.gtid) → SentLog st.checksumType txs xs → ∃ es st' c' set', HandedOut m st xs es st' ∧ commitAll m c es = .ok c' ∧
        c'.options.binlog.gtidSet = some set' ∧ ∀ tx ∈ txs, Has set' tx.gtid.sourceId.data tx.gtid.transactionId) ∧
    (∃ body, (∃ shown err, TextBody 14 (le 8 200) shown err body) ∧ parseEvent m EventParser.new ⟨0, 14, 1, 0, 0, 0⟩ body = (.err .fromUtf8, EventParser.new)) := by
  constructor
  · intro h
    obtain ⟨es, st', c', set', h1, h2, h3, h4⟩ := h exClient exSet EventParser.new exLatinLog exLatinSent ⟨rfl, rfl, rfl⟩ exSet_wf exSet_ordered exLatin_ok
      exLatin_sent
    obtain ⟨es1, i1, c1, set1, i2, i3, -, -, i4⟩ := C113_recorded_partial m exClient exSet ⟨rfl, rfl, rfl⟩ exSet_wf exSet_ordered EventParser.new exLatinLog
      exLatin_ok exLatinSent exLatin_sent
    obtain rfl := h1.unique i1
    rw [h2] at i2; cases i2
    rw [h3] at i3; cases i3
    rcases (i4 _ _).1 (h4 (.single ⟨exUuid, 5⟩ exLatinSql) (by simp [exLatinLog])) with h | ⟨tx, ht, htold, -, hn⟩
    · exact exCompressed_new h
    · simp only [exLatinLog, List.mem_cons, List.not_mem_nil, or_false] at ht
      rcases ht with rfl | rfl
      · exact exLatin_noText htold
      · exact absurd hn (by decide)
  · refine ⟨_, ⟨_, _, TextBody.userVar (name := "n".toList) (type := 2) (collation := 63) (flags := 0) (extra := []) (by decide) (by decide) (by decide)
      (by decide) (by decide)⟩, ?_⟩
    rcases m with ⟨_ | _⟩ <;> decide +kernel

/-- The same variable with the value 100 is decoded, to a text of eight characters. -/
example : ∀ m, parseEvent m EventParser.new ⟨0, 14, 1, 0, 0, 0⟩ (le 4 1 ++ utf8Bytes "n".toList ++ [0] ++ le 1 2 ++ le 4 63 ++ le 4 8 ++ le 8 100 ++ le 1 0) =
    (.ok (.userVar ⟨"n".toList, some ⟨2, 63, 'd' :: List.replicate 7 '\x00', 0⟩⟩), EventParser.new) := by
  rintro ⟨_ | _⟩ <;> decide +kernel

end MysqlCdc
