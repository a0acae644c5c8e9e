import Verif.Spec.Refused
import Verif.Props.AnyText
import Verif.Props.Copy
/-!
# C127, C128: applications that meet records the library refuses
-/

namespace MysqlCdc

open Spec

/-- The decoder refuses such a record, and is as before. -/
theorem Knows.refuse {st : LogState} {p : EventParser} (k : Knows st p) {h : EventHeader} {slice : Bytes} {err : Err} (m : Mode)
    (hr : Refused st h slice err) : parseEvent m p h slice = (.err err, p) := by
  cases hr with
  | text hb hs hn => exact (C113_text_partial m p h hb (k.checksum ▸ hs)).2 hn
  | @rows version tableId flags columns present rows body slice err ht hc hp hb hs hr =>
    obtain ⟨h1, t, h2, h3⟩ := k.tables _ _ hc
    have hrun := serverRows_runs m h2 h3 h1 (.inl hp) hb hr
    rcases ht with ⟨rfl, ht | ht⟩ | ⟨rfl, ht | ht⟩
    · exact parseEvent_runs (r := .error err) (k.checksum ▸ hs) (by unfold dispatchEvent; rw [ht]; exact (hrun.map BinlogEvent.writeRows).run)
    · exact parseEvent_runs (r := .error err) (k.checksum ▸ hs) (by unfold dispatchEvent; rw [ht]; exact (hrun.map BinlogEvent.deleteRows).run)
    · exact parseEvent_runs (r := .error err) (k.checksum ▸ hs) (by unfold dispatchEvent; rw [ht]; exact (hrun.map BinlogEvent.writeRows).run)
    · exact parseEvent_runs (r := .error err) (k.checksum ▸ hs) (by unfold dispatchEvent; rw [ht]; exact (hrun.map BinlogEvent.deleteRows).run)
  | @updates version tableId flags columns before after rows body slice err ht hc hp hb hs hr =>
    obtain ⟨h1, t, h2, h3⟩ := k.tables _ _ hc
    have hrun := serverUpdates_runs m h2 h3 h1 (hp.elim .inl fun h => .inr (.inl h)) hb hr
    rcases ht with ⟨rfl, ht⟩ | ⟨rfl, ht⟩
    · exact parseEvent_runs (r := .error err) (k.checksum ▸ hs) (by unfold dispatchEvent; rw [ht]; exact (hrun.map BinlogEvent.updateRows).run)
    · exact parseEvent_runs (r := .error err) (k.checksum ▸ hs) (by unfold dispatchEvent; rw [ht]; exact (hrun.map BinlogEvent.updateRows).run)

/-- Iterating over the packets of records gives an event or an error for each. -/
theorem Knows.records {st st' : LogState} {rs : List Rec} {slices : List Bytes} (hlog : RecordsOf st rs slices st') (m : Mode)
    (s : BinlogEvents) (k : Knows st s.parser) (n : Nat) (rest : Bytes) (hsize : ∀ x ∈ slices, x.length < 2 ^ 24 - 20)
    (hi : s.channel.input = frames (recPackets n rs slices) ++ rest) :
    ∃ s', s.Yields m (rs.map Rec.item) s' ∧ Knows st' s'.parser ∧ s'.channel.input = rest := by
  induction hlog generalizing s n with
  | nil => exact ⟨s, .nil, k, hi⟩
  | @event st st1 st2 e slice rs slices hf h ht ih =>
    obtain ⟨p, h1, h2⟩ := k.decode m h
    simp only [recPackets, frames, List.append_assoc] at hi
    have hx : slice.length < 2 ^ 24 - 20 := hsize slice (by simp)
    obtain ⟨ch, h3, h4⟩ := next_event m s e.1 slice _ (n % 256) hf (by omega) (by omega) hi
    rw [h1] at h4
    obtain ⟨s', g1, g2, g3⟩ := ih ⟨ch, p⟩ h2 (n + 1) (fun x hx => hsize x (by simp [hx])) h3
    exact ⟨s', .item h4 g1, g2, g3⟩
  | @refused st st2 h err slice rs slices hf hr ht ih =>
    have h1 := k.refuse m hr
    simp only [recPackets, frames, List.append_assoc] at hi
    have hx : slice.length < 2 ^ 24 - 20 := hsize slice (by simp)
    obtain ⟨ch, h3, h4⟩ := next_event m s h slice _ (n % 256) hf (by omega) (by omega) hi
    rw [h1] at h4
    obtain ⟨s', g1, g2, g3⟩ := ih ⟨ch, s.parser⟩ k (n + 1) (fun x hx => hsize x (by simp [hx])) h3
    exact ⟨s', .item h4 g1, g2, g3⟩

/-! ## Sessions -/

open Classical in
/-- What a session brings, as `CopySession`, when the log of the server may have records the library refuses: the iterator gives `items`. -/
inductive RecSession (m : Mode) (T : Gtid → List Rec → Prop) (log : List (Gtid × List Rec)) (stream : BinlogEvents) (items : List Item) : Prop where
  | mk {front : List Packet} {request : Bytes} {id position : Nat} {file : RStr} {sets : List (Bytes × List Interval)}
      (htrace : stream.channel.trace = front ++ [.sent 0 request]) (hrequest : DumpGtidPacket 0 id file position sets request)
      {parts : List (RecPart Gtid)} (hp : ∀ p ∈ parts, p.Ok T) (hlog : parts.flatMap RecPart.txs = log.filter fun t => ¬Listed sets t.1)
      {sent : List Rec} (hsent : sent <+: parts.flatMap RecPart.records) {slices : List Bytes} {st : LogState}
      (hbytes : RecordsOf (.start stream.parser.checksumType) sent slices st) (hsize : ∀ x ∈ slices, x.length < 2 ^ 24 - 20)
      {n : Nat} {rest : Bytes} (hin : stream.channel.input = frames (recPackets n sent slices) ++ rest)
      {stream' : BinlogEvents} (hy : stream.Yields m items stream') (hl : items.length ≤ sent.length) : RecSession m T log stream items

/-- Any number of sessions and of attempts that fail, while the log grows. Of the items of a session the application makes the events `use items`, which it
commits, and with which it brings its copy up to date. -/
inductive RecSessions {σ : Type} (m : Mode) (T : Gtid → List Rec → Prop) (use : List Item → List Ev) (apply : σ → List Ev → σ) :
    Client → σ → (log : List (Gtid × List Rec)) → Client → σ → (log' : List (Gtid × List Rec)) → Prop where
  | stop {c : Client} {data : σ} {log : List (Gtid × List Rec)} : RecSessions m T use apply c data log c data log
  | grow {c c' : Client} {data data' : σ} {log log' : List (Gtid × List Rec)} (more : List (Gtid × List Rec))
      (h : RecSessions m T use apply c data (log ++ more) c' data' log') : RecSessions m T use apply c data log c' data' log'
  | failed {c c' : Client} {data data' : σ} {log log' : List (Gtid × List Rec)} {crypto : Crypto} {net : Except IoKind Channel}
      (h : RecSessions m T use apply (c.replicate m crypto net).2 data log c' data' log') : RecSessions m T use apply c data log c' data' log'
  | session {c c1 c2 c' : Client} {data data' : σ} {log log' : List (Gtid × List Rec)} {crypto : Crypto} {chan : Channel} {stream : BinlogEvents}
      {items : List Item} (hf : FitsRequests c.options) (hr : c.replicate m crypto (.ok chan) = (.ok stream, c1)) (hs : RecSession m T log stream items)
      (hc : commitAll m c1 (use items) = .ok c2) (h : RecSessions m T use apply c2 ((whole (use items)).foldl apply data) log c' data' log') :
      RecSessions m T use apply c data log c' data' log'

theorem rec_taken {m : Mode} {c c1 : Client} {crypto : Crypto} {chan : Channel} {stream stream' : BinlogEvents} {items : List Item} {sent all : List Rec}
    {slices : List Bytes} {st : LogState} {n : Nat} {rest : Bytes} (hr : c.replicate m crypto (.ok chan) = (.ok stream, c1)) (hsent : sent <+: all)
    (hbytes : RecordsOf (.start stream.parser.checksumType) sent slices st) (hsize : ∀ x ∈ slices, x.length < 2 ^ 24 - 20)
    (hin : stream.channel.input = frames (recPackets n sent slices) ++ rest) (hy : stream.Yields m items stream')
    (hl : items.length ≤ sent.length) : items = (all.take items.length).map Rec.item := by
  have hparser : stream.parser = ⟨stream.parser.checksumType, []⟩ := by
    obtain ⟨_, _, _, -, -, h'⟩ := replicate_ok (m := m) (cr := crypto) (c := c) (net := .ok chan) (events := stream) (by rw [hr])
    rw [h']
    rfl
  obtain ⟨s', g6, -, -⟩ := Knows.records hbytes m stream (by rw [hparser]; exact Knows.start _) n rest hsize hin
  have := hy.prefix g6 (by simpa using hl)
  rw [← List.map_take] at this
  obtain ⟨more, hmore⟩ := hsent
  rw [← hmore, List.take_append_of_le_length hl]
  exact this

/-- What the application makes of a beginning of the records of `parts` is a beginning of the events of transactions, if the records are read as these. -/
def ReadsAs {γ : Type} (use : List Item → List Ev) (read : RecPart γ → Part γ) (good : γ × List Rec → Prop) (parts : List (RecPart γ)) : Prop :=
  ∀ k, ∃ j, use (((parts.flatMap RecPart.records).take k).map Rec.item) = (flat (parts.map read)).take j ∧ j ≤ (flat (parts.map read)).length ∧
    ∃ done, done <+: parts.flatMap RecPart.txs ∧ (∀ t ∈ done, good t) ∧ finishedTxs j (parts.map read) = done.map fun t => (t.1, shownEvents t.2)

theorem recSessions_taken {σ : Type} {m : Mode} {T : Gtid → List Rec → Prop} {use : List Item → List Ev} {apply : σ → List Ev → σ}
    (read : RecPart Gtid → Part Gtid) (good : Gtid × List Rec → Prop) (hread : ∀ parts, (∀ p ∈ parts, p.Ok T) → ReadsAs use read good parts)
    (hok : ∀ p, p.Ok T → (read p).Ok MysqlTx) (hfst : ∀ p, (read p).gtids = p.txs.map (·.1))
    {c c' : Client} {data data' : σ} {log log' : List (Gtid × List Rec)} (h : RecSessions m T use apply c data log c' data' log') :
    ∃ dones : List (List (Gtid × List Rec)), TakenSessions m c (log.map (·.1)) (dones.map fun d => d.map (·.1)) c' (log'.map (·.1)) ∧
      data' = dataAfter apply data (dones.flatten.map fun t => (t.1, shownEvents t.2)) ∧ (∀ t ∈ dones.flatten, t ∈ log' ∧ good t) ∧ log <+: log' := by
  classical
  induction h with
  | stop => exact ⟨[], .stop, rfl, by simp, List.prefix_rfl⟩
  | grow more _ ih =>
    obtain ⟨dones, h1, h2, h3, h4⟩ := ih
    exact ⟨dones, .grow (more.map (·.1)) (by rw [← List.map_append]; exact h1), h2, h3, (List.prefix_append _ _).trans h4⟩
  | failed _ ih =>
    obtain ⟨dones, h1, h2, h3, h4⟩ := ih
    exact ⟨dones, .failed h1, h2, h3, h4⟩
  | @session c c1 c2 c' data data' log log' crypto chan stream items hf hr hs hc _ ih =>
    obtain ⟨dones, h1, h2, h3, h4⟩ := ih
    obtain ⟨htrace, hrequest, hp, hlog, hsent, hbytes, hsize, hin, hy, hl⟩ := hs
    rename_i front request id position file sets parts sent slices st n rest stream'
    obtain ⟨j, k1, k2, done, k3, k4, k5⟩ := hread parts hp items.length
    rw [← rec_taken hr hsent hbytes hsize hin hy hl] at k1
    have hj : (use items).length = j := by rw [k1, List.length_take, Nat.min_eq_left k2]
    have hparts : ∀ p ∈ parts.map read, p.Ok MysqlTx := by
      intro p hp'
      obtain ⟨q, hq, rfl⟩ := List.mem_map.1 hp'
      exact hok q (hp q hq)
    have hgt : (parts.map read).flatMap Part.gtids = (parts.flatMap RecPart.txs).map (·.1) := by
      rw [List.flatMap_map, List.map_flatMap]
      exact List.flatMap_congr fun p _ => hfst p
    refine ⟨done :: dones, ?_, ?_, ?_, h4⟩
    · rw [List.map_cons]
      refine .session hf hr (.mk (parts := parts.map read) htrace hrequest hparts ?_ (by rw [hj]; exact k1) ?_) hc h1
      · rw [hgt, hlog]
        exact filter_fst (p := fun g => decide ¬Listed sets g) log
      · rw [hj, ← finishedTxs_fst, k5, List.map_map]
        rfl
    · rw [h2, List.flatten_cons, dataAfter, dataAfter, List.map_append, List.foldl_append]
      have : whole (use items) = (done.map fun t => (t.1, shownEvents t.2)).map (·.2) := by
        rw [k1, whole_finished _ hparts, k5]
      rw [this]
      simp only [List.foldl_map]
    · rw [List.flatten_cons]
      intro t ht
      rcases List.mem_append.1 ht with ht | ht
      · have := k3.subset ht
        rw [hlog] at this
        exact ⟨h4.subset (List.mem_filter.1 this).1, k4 t ht⟩
      · exact h3 t ht

/-! ## Applications that stop at an error -/

theorem upToError_shown {rs : List Rec} {es : List Ev} (h : List.Forall₂ (fun (r : Rec) (e : Ev) => r = (e.1, .ok e.2) ∨ ∃ err, r = (e.1, .error err)) rs es)
    (ha : AllShown rs) : es = shownEvents rs ∧ ∀ items, upToError (rs.map Rec.item ++ items) = es ++ upToError items := by
  induction h with
  | nil => exact ⟨rfl, fun _ => rfl⟩
  | @cons r e rs es h hs ih =>
    obtain ⟨h1, h2⟩ := ih fun r hr => ha r (by simp [hr])
    obtain ⟨x, hx⟩ := ha r (by simp)
    rcases h with rfl | ⟨err, rfl⟩
    · refine ⟨by rw [shownEvents, ← h1], fun items => ?_⟩
      rw [List.map_cons, List.cons_append]
      show upToError (.ok e :: _) = _
      rw [upToError, h2, List.cons_append]
    · cases hx

theorem upToError_cut {rs : List Rec} {es : List Ev} (h : List.Forall₂ (fun (r : Rec) (e : Ev) => r = (e.1, .ok e.2) ∨ ∃ err, r = (e.1, .error err)) rs es)
    (more : List Rec) (k : Nat) (hn : ¬(AllShown rs ∧ rs.length ≤ k)) :
    ∃ j, j < es.length ∧ upToError (((rs ++ more).take k).map Rec.item) = es.take j := by
  induction h generalizing k with
  | nil => exact absurd ⟨fun _ h => (nomatch h), Nat.zero_le _⟩ hn
  | @cons r e rs es h hs ih =>
    cases k with
    | zero => exact ⟨0, by simp, rfl⟩
    | succ k =>
      rcases h with rfl | ⟨err, rfl⟩
      · obtain ⟨j, h1, h2⟩ := ih k fun hc => hn ⟨fun r hr => by
          rcases List.mem_cons.1 hr with rfl | hr
          · exact ⟨_, rfl⟩
          · exact hc.1 r hr, by simpa using hc.2⟩
        refine ⟨j + 1, by simpa using h1, ?_⟩
        rw [List.cons_append, List.take_succ_cons, List.map_cons, List.take_succ_cons, ← h2]
        rfl
      · exact ⟨0, by simp, rfl⟩

open Classical in
/-- A part with the events its records would show. -/
noncomputable def Spec.RecPart.ideal {γ : Type} (T : γ → List Ev → Prop) : RecPart γ → Part γ
  | .tx g rs => .tx g (if h : Spoilt T g rs then h.choose else [])
  | .noise e => .noise e

theorem ideal_spec {γ : Type} {T : γ → List Ev → Prop} {p : RecPart γ} (h : p.Ok (Spoilt T)) :
    List.Forall₂ (fun (r : Rec) (e : Ev) => r = (e.1, .ok e.2) ∨ ∃ err, r = (e.1, .error err)) p.records (p.ideal T).events ∧ (p.ideal T).Ok T := by
  cases p with
  | noise e => exact ⟨.cons (.inl rfl) .nil, h⟩
  | tx g rs =>
    have h : Spoilt T g rs := h
    simp only [RecPart.ideal, dif_pos h, RecPart.records, Part.events, Part.Ok]
    exact ⟨h.choose_spec.2, h.choose_spec.1⟩

theorem reads_upToError {γ : Type} {T : γ → List Ev → Prop} (parts : List (RecPart γ)) (hp : ∀ p ∈ parts, p.Ok (Spoilt T)) :
    ReadsAs upToError (RecPart.ideal T) (fun t => AllShown t.2) parts := by
  induction parts with
  | nil => exact fun k => ⟨0, by simp [flat, upToError], by simp, [], by simp, by simp, rfl⟩
  | cons p ps ih =>
    intro k
    obtain ⟨h1, h2⟩ := ideal_spec (hp p (by simp))
    by_cases hk : AllShown p.records ∧ p.records.length ≤ k
    · obtain ⟨j, g1, g2, done, g3, g4, g5⟩ := ih (fun q hq => hp q (by simp [hq])) (k - p.records.length)
      obtain ⟨h3, h4⟩ := upToError_shown h1 hk.1
      have hlen := h1.length_eq
      refine ⟨(p.ideal T).events.length + j, ?_, ?_, p.txs ++ done, ?_, ?_, ?_⟩
      · rw [List.flatMap_cons, List.take_append, List.take_of_length_le hk.2, List.map_append, h4, g1, List.map_cons]
        simp only [flat, List.flatMap_cons]
        rw [List.take_length_add_append]
      · rw [List.map_cons, flat, List.flatMap_cons, List.length_append]
        unfold flat at g2
        omega
      · rw [List.flatMap_cons]
        exact (List.prefix_append_right_inj _).2 g3
      · intro t ht
        rcases List.mem_append.1 ht with ht | ht
        · cases p with
          | noise e => cases ht
          | tx g rs =>
            obtain rfl := List.mem_singleton.1 ht
            exact hk.1
        · exact g4 t ht
      · rw [List.map_cons, finishedTxs, if_pos (Nat.le_add_right _ _), Nat.add_sub_cancel_left, g5, List.map_append]
        congr 1
        cases p with
        | noise e => rfl
        | tx g rs =>
          simp only [RecPart.txs, List.map_cons, List.map_nil]
          rw [← show (RecPart.tx g rs).records = rs from rfl, ← h3]
          rfl
    · obtain ⟨j, g1, g2⟩ := upToError_cut h1 (ps.flatMap RecPart.records) k hk
      refine ⟨j, ?_, ?_, [], List.nil_prefix, by simp, ?_⟩
      · rw [List.flatMap_cons, g2, List.map_cons, flat, List.flatMap_cons, List.take_append_of_le_length (by omega)]
      · rw [List.map_cons, flat, List.flatMap_cons, List.length_append]
        omega
      · rw [List.map_cons, finishedTxs, if_neg (by omega)]
        rfl

/-- **C127.** The log of a MySQL server has transactions with values that the library has no form for; an application stops at every error and connects again,
over any number of sessions and failed attempts. Then only transactions are applied and recorded that have no such value and have none before them in the log
that has one and was not recorded at the start: the application never gets past the first one. -/
theorem C127_never_past {σ : Type} {m : Mode} {apply : σ → List Ev → σ} {c c' : Client} {data data' : σ} {log log' : List (Gtid × List Rec)}
    (h : RecSessions m SpoiltTx upToError apply c data log c' data' log') (set : GtidSet) (hs : c.options.binlog.startingStrategy = .fromGtid)
    (hset : c.options.binlog.gtidSet = some set) (hw : Wf set) (ho : AllOrdered set) (hg : ∀ t ∈ log', GtidOk t.1)
    (hd : (log'.map fun t => gtidKey t.1).Nodup) (old new : List (Gtid × List Rec)) (hold : old <+: log) (hnew : log' = old ++ new)
    (hhas : ∀ t ∈ log', Has set t.1.sourceId.data t.1.transactionId ↔ t ∈ old) :
    ∃ done set', done <+: new ∧ (∀ t ∈ done, AllShown t.2) ∧ data' = dataAfter apply data (done.map fun t => (t.1, shownEvents t.2)) ∧
      c'.options.binlog.gtidSet = some set' ∧ ∀ t ∈ log', Has set' t.1.sourceId.data t.1.transactionId ↔ t ∈ old ++ done := by
  obtain ⟨dones, h1, h2, h3, h4⟩ := recSessions_taken (RecPart.ideal MysqlTx) (fun t => AllShown t.2) reads_upToError (fun p hp => (ideal_spec hp).2)
    (fun p => by cases p <;> rfl) h
  obtain ⟨later, set', k1, k2, k3, -⟩ := taken_seen h1 (fun t ht => (h3 t ht).1) h4 set hs hset hw ho hg hd old hold hhas
  refine ⟨dones.flatten, set', ⟨later, ?_⟩, fun t ht => (h3 t ht).2, h2, k2, k3⟩
  exact (List.append_cancel_left (hnew.symm.trans k1)).symm

/-! ## Applications that pass over errors -/

theorem passOver_shown (rs : List Rec) : passOver (rs.map Rec.item) = shownEvents rs := by
  induction rs with
  | nil => rfl
  | cons r rs ih =>
    obtain ⟨h, x⟩ := r
    cases x with
    | ok e => rw [shownEvents, ← ih]; rfl
    | error err => rw [shownEvents, ← ih]; rfl

theorem shownEvents_append (rs rs' : List Rec) : shownEvents (rs ++ rs') = shownEvents rs ++ shownEvents rs' := by
  induction rs with
  | nil => rfl
  | cons r rs ih =>
    obtain ⟨h, x⟩ := r
    cases x with
    | ok e => rw [List.cons_append, shownEvents, shownEvents, ih, List.cons_append]
    | error err => rw [List.cons_append, shownEvents, shownEvents, ih]

/-- A part with the events its records show. -/
def Spec.RecPart.holed {γ : Type} : RecPart γ → Part γ
  | .tx g rs => .tx g (shownEvents rs)
  | .noise e => .noise e

theorem finishedTxs_prefix {γ : Type} (k : Nat) (parts : List (Part γ)) : finishedTxs k parts <+: parts.flatMap Part.txs := by
  induction parts generalizing k with
  | nil => exact List.prefix_rfl
  | cons p ps ih =>
    rw [finishedTxs, List.flatMap_cons]
    split
    · exact (List.prefix_append_right_inj _).2 (ih _)
    · exact List.nil_prefix

theorem flat_holed {γ : Type} (parts : List (RecPart γ)) : flat (parts.map RecPart.holed) = shownEvents (parts.flatMap RecPart.records) := by
  induction parts with
  | nil => rfl
  | cons p ps ih =>
    rw [List.map_cons, flat, List.flatMap_cons, List.flatMap_cons, shownEvents_append, ← ih, flat]
    congr 1
    cases p <;> rfl

theorem txs_holed {γ : Type} (parts : List (RecPart γ)) :
    (parts.map RecPart.holed).flatMap Part.txs = (parts.flatMap RecPart.txs).map fun t => (t.1, shownEvents t.2) := by
  rw [List.flatMap_map, List.map_flatMap]
  exact List.flatMap_congr fun p _ => by cases p <;> rfl

theorem reads_passOver {γ : Type} (parts : List (RecPart γ)) : ReadsAs passOver RecPart.holed (fun _ => True) parts := by
  intro k
  have hsplit := shownEvents_append ((parts.flatMap RecPart.records).take k) ((parts.flatMap RecPart.records).drop k)
  rw [List.take_append_drop, ← flat_holed] at hsplit
  refine ⟨(shownEvents ((parts.flatMap RecPart.records).take k)).length, ?_, ?_, ?_⟩
  · rw [passOver_shown, hsplit, List.take_left']
    rfl
  · rw [hsplit, List.length_append]
    omega
  · have h := finishedTxs_prefix (shownEvents ((parts.flatMap RecPart.records).take k)).length (parts.map RecPart.holed)
    rw [txs_holed, List.prefix_iff_eq_take, ← List.map_take] at h
    exact ⟨_, List.take_prefix _ _, fun _ _ => trivial, h⟩

/-- **C128.** The log of a MySQL server has transactions with values that the library has no form for; an application passes over all errors, applies what it is
given, and connects again after whatever broke a session. Then every transaction is applied once and in order, but without the records with such values
(`shownEvents`); and it is recorded all the same, so that these records never come again. -/
theorem C128_lost_for_good {σ : Type} {m : Mode} {apply : σ → List Ev → σ} {c c' : Client} {data data' : σ} {log log' : List (Gtid × List Rec)}
    (h : RecSessions m HoledTx passOver apply c data log c' data' log') (set : GtidSet) (hs : c.options.binlog.startingStrategy = .fromGtid)
    (hset : c.options.binlog.gtidSet = some set) (hw : Wf set) (ho : AllOrdered set) (hg : ∀ t ∈ log', GtidOk t.1)
    (hd : (log'.map fun t => gtidKey t.1).Nodup) (old new : List (Gtid × List Rec)) (hold : old <+: log) (hnew : log' = old ++ new)
    (hhas : ∀ t ∈ log', Has set t.1.sourceId.data t.1.transactionId ↔ t ∈ old) :
    ∃ done set', done <+: new ∧ data' = dataAfter apply data (done.map fun t => (t.1, shownEvents t.2)) ∧ c'.options.binlog.gtidSet = some set' ∧
      (∀ t ∈ log', Has set' t.1.sourceId.data t.1.transactionId ↔ t ∈ old ++ done) ∧
      ((∀ t ∈ log', Has set' t.1.sourceId.data t.1.transactionId) → done = new) := by
  obtain ⟨dones, h1, h2, h3, h4⟩ := recSessions_taken RecPart.holed (fun _ => True) (fun parts _ => reads_passOver parts)
    (fun p hp => by cases p <;> exact hp) (fun p => by cases p <;> rfl) h
  obtain ⟨later, set', k1, k2, k3, k4⟩ := taken_seen h1 (fun t ht => (h3 t ht).1) h4 set hs hset hw ho hg hd old hold hhas
  have hl := List.append_cancel_left (hnew.symm.trans k1)
  exact ⟨dones.flatten, set', ⟨later, hl.symm⟩, h2, k2, k3, fun hall => by rw [hl, k4 hall, List.append_nil]⟩

/-! ## Sessions with such a server -/

open Classical in
theorem rec_session (m : Mode) (c : Crypto) (client : Client) (chan : Channel) (hu : Usable c client.options)
    (hw : chan.writes = []) (checksum : ChecksumType) (bytes : Bytes) (hin : LetsIn c client.options False none checksum bytes)
    (set : GtidSet) (hs : client.options.binlog.startingStrategy = .fromGtid) (hset : client.options.binlog.gtidSet = some set)
    {T : Gtid → List Rec → Prop} (log : List (Gtid × List Rec)) (parts : List (RecPart Gtid)) (hp : ∀ p ∈ parts, p.Ok T)
    (hlog : parts.flatMap RecPart.txs = log.filter fun t => ¬Has set t.1.sourceId.data t.1.transactionId)
    (slices : List Bytes) (st : LogState) (hbytes : RecordsOf (.start checksum) (parts.flatMap RecPart.records) slices st)
    (hsize : ∀ x ∈ slices, x.length < 2 ^ 24 - 20) (n : Nat) (rest : Bytes)
    (hi : chan.input = bytes ++ frames (recPackets n (parts.flatMap RecPart.records) slices) ++ rest) :
    ∃ stream, client.replicate m c (.ok chan) = (.ok stream, client.afresh) ∧
      (∃ stream', stream.Yields m ((parts.flatMap RecPart.records).map Rec.item) stream') ∧
      ∀ k, RecSession m T log stream (((parts.flatMap RecPart.records).take k).map Rec.item) := by
  obtain ⟨stream, front, cmd, h1, h2, h3, h4, h5⟩ := mysql_asks m c client chan hu hw checksum bytes _ hin set hs hset
    (by rw [hi, List.append_assoc])
  have hb : RecordsOf (.start stream.parser.checksumType) (parts.flatMap RecPart.records) slices st := by rw [h5]; exact hbytes
  obtain ⟨stream', h6, -, -⟩ := Knows.records hbytes m stream (by rw [h5]; exact Knows.start checksum) n rest hsize h4
  refine ⟨stream, h1, ⟨stream', h6⟩, fun k => ?_⟩
  obtain ⟨stream1, h7⟩ := h6.take k
  rw [← List.map_take] at h7
  refine .mk h2 h3 hp ?_ List.prefix_rfl hb hsize h4 h7 (by simp)
  rw [hlog]
  refine List.filter_congr fun g _ => ?_
  simp only [listed_setsOf]

open Classical in
/-- Taking all there is up to the first error, the application gets the transactions before the first one with an error. -/
theorem finished_upToError {γ : Type} {T : γ → List Ev → Prop} (parts : List (RecPart γ)) (hp : ∀ p ∈ parts, p.Ok (Spoilt T)) :
    finishedTxs (upToError ((parts.flatMap RecPart.records).map Rec.item)).length (parts.map (RecPart.ideal T)) =
      ((parts.flatMap RecPart.txs).takeWhile fun t => AllShown t.2).map fun t => (t.1, shownEvents t.2) := by
  induction parts with
  | nil => rfl
  | cons p ps ih =>
    obtain ⟨h1, h2⟩ := ideal_spec (hp p (by simp))
    by_cases hk : AllShown p.records
    · obtain ⟨h3, h4⟩ := upToError_shown h1 hk
      rw [List.flatMap_cons, List.map_append, h4, List.length_append, List.map_cons, finishedTxs, if_pos (Nat.le_add_right _ _), Nat.add_sub_cancel_left,
        ih fun q hq => hp q (by simp [hq])]
      cases p with
      | noise e => rfl
      | tx g rs =>
        rw [List.flatMap_cons, RecPart.txs, List.singleton_append, List.takeWhile_cons_of_pos (by simpa [RecPart.records] using hk), List.map_cons]
        simp only [RecPart.records] at h3
        rw [← h3]
        rfl
    · obtain ⟨j, g1, g2⟩ := upToError_cut h1 (ps.flatMap RecPart.records) (p.records ++ ps.flatMap RecPart.records).length fun h => hk h.1
      rw [List.take_of_length_le (Nat.le_refl _)] at g2
      rw [List.flatMap_cons, g2, List.length_take, Nat.min_eq_left (by omega), List.map_cons, finishedTxs, if_neg (by omega)]
      cases p with
      | noise e => exact absurd (fun r hr => ⟨e.2, by obtain rfl := List.mem_singleton.1 hr; rfl⟩) hk
      | tx g rs =>
        rw [List.flatMap_cons, RecPart.txs, List.singleton_append, List.takeWhile_cons_of_neg (by simpa [RecPart.records] using hk)]
        rfl

open Classical in
/-- **C127**, what holds: when a conforming server lets the client in and sends all that is not recorded, and the application takes and commits all up to the
first error, all the transactions before the first one with an error are recorded. Missing: this one and all behind it, see `C127_never_past`. -/
theorem C127_reaches_partial {σ : Type} (m : Mode) (c : Crypto) (client : Client) (chan : Channel) (hu : Usable c client.options)
    (hw : chan.writes = []) (checksum : ChecksumType) (bytes : Bytes) (hin : LetsIn c client.options False none checksum bytes)
    (set : GtidSet) (hs : client.options.binlog.startingStrategy = .fromGtid) (hset : client.options.binlog.gtidSet = some set)
    (hwf : Wf set) (ho : AllOrdered set) (log : List (Gtid × List Rec)) (parts : List (RecPart Gtid)) (hp : ∀ p ∈ parts, p.Ok SpoiltTx)
    (hlog : parts.flatMap RecPart.txs = log.filter fun t => ¬Has set t.1.sourceId.data t.1.transactionId) (hg : ∀ t ∈ log, GtidOk t.1)
    (slices : List Bytes) (st : LogState) (hbytes : RecordsOf (.start checksum) (parts.flatMap RecPart.records) slices st)
    (hsize : ∀ x ∈ slices, x.length < 2 ^ 24 - 20) (n : Nat) (rest : Bytes)
    (hi : chan.input = bytes ++ frames (recPackets n (parts.flatMap RecPart.records) slices) ++ rest) (apply : σ → List Ev → σ) (data : σ) :
    ∃ stream client' set', client.replicate m c (.ok chan) = (.ok stream, client.afresh) ∧
      (∃ stream', stream.Yields m ((parts.flatMap RecPart.records).map Rec.item) stream') ∧
      commitAll m client.afresh (upToError ((parts.flatMap RecPart.records).map Rec.item)) = .ok client' ∧
      RecSessions m SpoiltTx upToError apply client data log client' (dataAfter apply data
        (((parts.flatMap RecPart.txs).takeWhile fun t => AllShown t.2).map fun t => (t.1, shownEvents t.2))) log ∧
      client'.options.binlog.gtidSet = some set' ∧ ∀ u n, Has set' u n ↔ Has set u n ∨
        ∃ t ∈ (parts.flatMap RecPart.txs).takeWhile fun t => AllShown t.2, u = t.1.sourceId.data ∧ n = t.1.transactionId := by
  obtain ⟨stream, h1, h2, h3⟩ := rec_session m c client chan hu hw checksum bytes hin set hs hset log parts hp hlog slices st hbytes hsize n rest hi
  have hall := h3 (parts.flatMap RecPart.records).length
  rw [List.take_of_length_le (Nat.le_refl _)] at hall
  obtain ⟨j, k1, k2, -⟩ := reads_upToError parts hp (parts.flatMap RecPart.records).length
  rw [List.take_of_length_le (Nat.le_refl _)] at k1
  have hj : (upToError ((parts.flatMap RecPart.records).map Rec.item)).length = j := by rw [k1, List.length_take, Nat.min_eq_left k2]
  have hparts : ∀ p ∈ parts.map (RecPart.ideal MysqlTx), p.Ok MysqlTx := by
    intro p hp'
    obtain ⟨q, hq, rfl⟩ := List.mem_map.1 hp'
    exact (ideal_spec (hp q hq)).2
  have hgt : (parts.map (RecPart.ideal MysqlTx)).flatMap Part.gtids = (parts.flatMap RecPart.txs).map (·.1) := by
    rw [List.flatMap_map, List.map_flatMap]
    exact List.flatMap_congr fun p _ => by cases p <;> rfl
  obtain ⟨client', set', g1, g2, -, -, g3⟩ := C17_exactly_finished m client.afresh set ⟨hs, rfl, hset⟩ hwf ho (parts.map (RecPart.ideal MysqlTx)) hparts
    (fun g hg' => by
      rw [hgt, hlog] at hg'
      obtain ⟨t, ht, rfl⟩ := List.mem_map.1 hg'
      exact hg t (List.mem_filter.1 ht).1) j
  rw [← k1] at g1
  have hfin := finished_upToError parts hp
  rw [hj] at hfin
  refine ⟨stream, client', set', h1, h2, g1, ?_, g2, fun u n => ?_⟩
  · have := RecSessions.session (apply := apply) (data := data) (small_fits hu.requests) h1 hall g1 .stop
    rwa [k1, whole_finished _ hparts, hfin, List.foldl_map] at this
  · rw [g3, ← finishedTxs_fst, hfin, List.map_map]
    simp only [List.mem_map, Function.comp_apply, exists_exists_and_eq_and]

open Classical in
/-- **C128**, what holds: such sessions come about. When a conforming server lets the client in and sends all that is not recorded, and the application takes
and commits all the events it is given, all is recorded, and its copy has all the transactions without the records that show errors. Missing: these
records, which then never come again (`C128_lost_for_good`). -/
theorem C128_session_partial {σ : Type} (m : Mode) (c : Crypto) (client : Client) (chan : Channel) (hu : Usable c client.options)
    (hw : chan.writes = []) (checksum : ChecksumType) (bytes : Bytes) (hin : LetsIn c client.options False none checksum bytes)
    (set : GtidSet) (hs : client.options.binlog.startingStrategy = .fromGtid) (hset : client.options.binlog.gtidSet = some set)
    (hwf : Wf set) (ho : AllOrdered set) (log : List (Gtid × List Rec)) (parts : List (RecPart Gtid)) (hp : ∀ p ∈ parts, p.Ok HoledTx)
    (hlog : parts.flatMap RecPart.txs = log.filter fun t => ¬Has set t.1.sourceId.data t.1.transactionId) (hg : ∀ t ∈ log, GtidOk t.1)
    (slices : List Bytes) (st : LogState) (hbytes : RecordsOf (.start checksum) (parts.flatMap RecPart.records) slices st)
    (hsize : ∀ x ∈ slices, x.length < 2 ^ 24 - 20) (n : Nat) (rest : Bytes)
    (hi : chan.input = bytes ++ frames (recPackets n (parts.flatMap RecPart.records) slices) ++ rest) (apply : σ → List Ev → σ) (data : σ) :
    ∃ stream client' set', client.replicate m c (.ok chan) = (.ok stream, client.afresh) ∧
      (∃ stream', stream.Yields m ((parts.flatMap RecPart.records).map Rec.item) stream') ∧
      commitAll m client.afresh (passOver ((parts.flatMap RecPart.records).map Rec.item)) = .ok client' ∧
      RecSessions m HoledTx passOver apply client data log client' (dataAfter apply data
        ((parts.flatMap RecPart.txs).map fun t => (t.1, shownEvents t.2))) log ∧
      client'.options.binlog.gtidSet = some set' ∧ ∀ u n, Has set' u n ↔ Has set u n ∨
        ∃ t ∈ parts.flatMap RecPart.txs, u = t.1.sourceId.data ∧ n = t.1.transactionId := by
  obtain ⟨stream, h1, h2, h3⟩ := rec_session m c client chan hu hw checksum bytes hin set hs hset log parts hp hlog slices st hbytes hsize n rest hi
  have hall := h3 (parts.flatMap RecPart.records).length
  rw [List.take_of_length_le (Nat.le_refl _)] at hall
  have hparts : ∀ p ∈ parts.map RecPart.holed, p.Ok MysqlTx := by
    intro p hp'
    obtain ⟨q, hq, rfl⟩ := List.mem_map.1 hp'
    have := hp q hq
    cases q <;> exact this
  have hgt : (parts.map RecPart.holed).flatMap Part.gtids = (parts.flatMap RecPart.txs).map (·.1) := by
    rw [List.flatMap_map, List.map_flatMap]
    exact List.flatMap_congr fun p _ => by cases p <;> rfl
  obtain ⟨client', set', g1, g2, -, -, g3⟩ := C17_exactly_finished m client.afresh set ⟨hs, rfl, hset⟩ hwf ho (parts.map RecPart.holed) hparts
    (fun g hg' => by
      rw [hgt, hlog] at hg'
      obtain ⟨t, ht, rfl⟩ := List.mem_map.1 hg'
      exact hg t (List.mem_filter.1 ht).1) (flat (parts.map RecPart.holed)).length
  have hfin := finishedTxs_all (parts.map RecPart.holed) _ (Nat.le_refl _)
  rw [txs_holed] at hfin
  have huse : passOver ((parts.flatMap RecPart.records).map Rec.item) = (flat (parts.map RecPart.holed)).take (flat (parts.map RecPart.holed)).length := by
    rw [List.take_of_length_le (Nat.le_refl _), passOver_shown, flat_holed]
  rw [← huse] at g1
  refine ⟨stream, client', set', h1, h2, g1, ?_, g2, fun u n => ?_⟩
  · have := RecSessions.session (apply := apply) (data := data) (small_fits hu.requests) h1 hall g1 .stop
    rwa [huse, whole_finished _ hparts, hfin, List.foldl_map] at this
  · rw [g3, ← finishedTxs_fst, hfin, List.map_map]
    simp only [List.mem_map, Function.comp_apply, exists_exists_and_eq_and]

/-! ## A log with text in Latin-1

GTID 5, BEGIN, a table map, a row with Latin-1 text and one without inserted, XID; a rotation; GTID 8, CREATE. Transaction 7 is recorded. -/

def exSpoiltTx : List Rec :=
  [(exTyped 33, .ok (exGtid 5)), (exTyped 2, .ok (exQuery "BEGIN")), (exTyped 19, .ok (.tableMap exTextTable)), (exTyped 30, .error .fromUtf8),
    (exTyped 16, .ok (.xid ⟨7⟩))]

def exCreateTx : List Rec := [(exTyped 33, .ok (exGtid 8)), (exTyped 2, .ok (exQuery "CREATE"))]

def exSpoiltParts : List (RecPart Gtid) := [.tx ⟨exUuid, 5⟩ exSpoiltTx, .noise (exTyped 4, .rotate ⟨"bin.2".toList, 4⟩), .tx ⟨exUuid, 8⟩ exCreateTx]

def exSpoiltLog : List (Gtid × List Rec) := [(⟨exUuid, 7⟩, []), (⟨exUuid, 5⟩, exSpoiltTx), (⟨exUuid, 8⟩, exCreateTx)]

theorem exLatin_no : ¬IsText [0xE9] := by
  rintro ⟨s, hs⟩
  have : utf8Decode [0xE9] = some s := utf8Decode_eq_some_iff.2 hs
  revert this
  rw [show utf8Decode [0xE9] = none by decide +kernel]
  simp

theorem exTextMap_body : TableMapBody 7 "db".toList "t".toList [(15, 20), (19, 0)] [true, true] []
    ([7, 0, 0, 0, 0, 0, 1, 0] ++ [2, 100, 98, 0] ++ [1, 116, 0] ++ [2, 15, 19] ++ [3, 20, 0, 0] ++ [3]) := by
  have h4 : Each ColumnMeta [(15, 20), (19, 0)] (le 2 20 ++ (le 1 0 ++ [])) := .cons (.littleEndian rfl (by decide)) (.cons (.byte rfl (by decide)) .nil)
  exact TableMapBody.mk (tableId := 7) (db := "db".toList) (table := "t".toList) (flags := [1, 0]) (count := [2])
    (metaLength := [3]) (bitmap := [3]) (by decide) rfl (by decide +kernel) (by decide +kernel)
    (lenEnc_one (by decide) rfl) (by decide) h4 (lenEnc_one (by decide) rfl) rfl
    (bitmapLE_of_check rfl (by decide +kernel)) .nil

theorem exSpoilt_written (checksum : ChecksumType) : ∃ slices st, RecordsOf (.start checksum) (exSpoiltParts.flatMap RecPart.records) slices st ∧
    ∀ x ∈ slices, x.length < 2 ^ 24 - 20 := by
  have sum : ∀ body, WithChecksum checksum body (body ++ match checksum with | .none => [] | .crc32 => exSum) :=
    fun body => ⟨_, by cases checksum <;> rfl, rfl⟩
  have hrow : InTurn ShownRow [[.value (.text [0xE9]), .null], [.value (.text [111, 107]), .value (.value (.time ⟨1, 2, 3, 0⟩))]] (.error .fromUtf8) :=
    .here (.refused (.here (.refused (.noText fun s hs => exLatin_no ⟨s, hs⟩))))
  refine ⟨_, _, .event (e := (exTyped 33, exGtid 5)) (by unfold HeaderFits; decide) (exGtid_written _ 5 (by decide))
    (.event (e := (exTyped 2, exQuery "BEGIN")) (by unfold HeaderFits; decide) (exQuery_written _ _)
    (.event (e := (exTyped 19, .tableMap exTextTable)) (by unfold HeaderFits; decide)
      (.tableMap (columns := [(15, 20), (19, 0)]) rfl exTextMap_body (sum _) (.inl ⟨rfl, rfl⟩))
    (.refused (h := exTyped 30) (by unfold HeaderFits; decide)
      (.rows (version := 2) (columns := [(15, 20), (19, 0)]) (.inr ⟨rfl, .inl rfl⟩) rfl (by decide) (exText_rows (.cons exText_latin (.cons exText_fine .nil))) (sum _) hrow)
    (.event (e := (exTyped 16, .xid ⟨7⟩)) (by unfold HeaderFits; decide) (.plain (.xid (xid := 7) (extra := []) (by decide)) (sum _))
    (.event (e := (exTyped 4, .rotate ⟨"bin.2".toList, 4⟩)) (by unfold HeaderFits; decide)
      (.plain (.rotate (name := "bin.2".toList) (position := 4) (by decide)) (sum _))
    (.event (e := (exTyped 33, exGtid 8)) (by unfold HeaderFits; decide) (exGtid_written _ 8 (by decide))
    (.event (e := (exTyped 2, exQuery "CREATE")) (by unfold HeaderFits; decide) (exQuery_written _ _) .nil))))))), ?_⟩
  cases checksum <;> decide +kernel

theorem exCreateShown_tx : MysqlTx ⟨exUuid, 8⟩ [(exTyped 33, exGtid 8), (exTyped 2, exQuery "CREATE")] :=
  .auto (mid := []) rfl (by simp) (by simp [AutoCommits, exQuery])

theorem exSpoilt_ok : (∀ p ∈ exSpoiltParts, p.Ok SpoiltTx) ∧ (∀ p ∈ exSpoiltParts, p.Ok HoledTx) := by
  constructor <;> intro p hp <;> simp only [exSpoiltParts, List.mem_cons, List.not_mem_nil, or_false] at hp <;> rcases hp with rfl | rfl | rfl
  · refine ⟨[(exTyped 33, exGtid 5), (exTyped 2, exQuery "BEGIN"), (exTyped 19, .tableMap exTextTable), (exTyped 30, .unknown), (exTyped 16, .xid ⟨7⟩)],
      .block (mid := []) (body := [(exTyped 19, .tableMap exTextTable), (exTyped 30, .unknown)]) rfl (by simp) rfl (by simp [Inside, IsGtid, Spec.Ends]) trivial, ?_⟩
    exact .cons (.inl rfl) (.cons (.inl rfl) (.cons (.inl rfl) (.cons (.inr ⟨_, rfl⟩) (.cons (.inl rfl) .nil))))
  · trivial
  · exact ⟨_, exCreateShown_tx, .cons (.inl rfl) (.cons (.inl rfl) .nil)⟩
  · exact .block (mid := []) (body := [(exTyped 19, .tableMap exTextTable)]) rfl (by simp) rfl (by simp [Inside, IsGtid, Spec.Ends]) trivial
  · trivial
  · exact exCreateShown_tx

theorem exSpoilt_missing : (exSpoiltParts.flatMap RecPart.txs = open Classical in exSpoiltLog.filter fun t => ¬Has exSet t.1.sourceId.data t.1.transactionId) := by
  have h : exSpoiltParts.flatMap RecPart.txs = [(⟨exUuid, 5⟩, exSpoiltTx), (⟨exUuid, 8⟩, exCreateTx)] := rfl
  rw [h, exSpoiltLog]
  simp [Has, exSet, InIvs, exUuid, exUuid2]

theorem exSpoilt_has : ∀ t ∈ exSpoiltLog, Has exSet t.1.sourceId.data t.1.transactionId ↔ t ∈ exSpoiltLog.take 1 := by
  simp [exSpoiltLog, Has, exSet, InIvs, exUuid, exUuid2]

theorem exSpoilt_gtids : ∀ t ∈ exSpoiltLog, GtidOk t.1 := fun t ht => exLogged_ok t.1 (by
  have : exSpoiltLog.map (·.1) = exLogged := by decide +kernel
  rw [← this]
  exact List.mem_map.2 ⟨t, ht, rfl⟩)

theorem exSpoilt_not : ¬AllShown exSpoiltTx := fun h => by
  obtain ⟨e, he⟩ := h (exTyped 30, .error .fromUtf8) (by simp [exSpoiltTx])
  cases he

open Classical in
/-- **C127** is false of the code: a server sends its whole log, the application stops at the error, and the transaction and those behind it are not recorded, after
however many sessions. -/
theorem C127_false (m : Mode) :
    (∃ c', RecSessions m SpoiltTx upToError (fun _ _ => ()) exGtidUser () exSpoiltLog c' () exSpoiltLog ∧ c'.mysqlGtid = some ⟨exUuid, 5⟩) ∧
    ∀ c', RecSessions m SpoiltTx upToError (fun _ _ => ()) exGtidUser () exSpoiltLog c' () exSpoiltLog →
      ∃ set', c'.options.binlog.gtidSet = some set' ∧ ¬Has set' exUuid.data 5 ∧ ¬Has set' exUuid.data 8 := by
  constructor
  · obtain ⟨slices, st, h1, h2⟩ := exSpoilt_written .crc32
    obtain ⟨stream, c', set', -, -, g1, g2, -, -⟩ := C127_reaches_partial m exCrypto exGtidUser { exChannel [] with input := _ } exGtidUser_usable rfl .crc32 _
      (exGtidUser_in _) exSet rfl rfl exSet_wf exSet_ordered exSpoiltLog exSpoiltParts exSpoilt_ok.1 exSpoilt_missing exSpoilt_gtids slices st h1 h2 1 [] rfl
      (fun (_ : Unit) _ => ()) ()
    refine ⟨c', g2, ?_⟩
    have h : ∀ m, (match commitAll m exGtidUser.afresh (upToError ((exSpoiltParts.flatMap RecPart.records).map Rec.item)) with
        | .ok c => c.mysqlGtid
        | _ => none) = some ⟨exUuid, 5⟩ := by
      rintro ⟨_ | _⟩ <;> decide +kernel
    have h' := h m
    rw [g1] at h'
    exact h'
  · intro c' h
    obtain ⟨done, set', h1, h2, -, h3, h4⟩ := C127_never_past h exSet rfl rfl exSet_wf exSet_ordered exSpoilt_gtids (by decide +kernel)
      (exSpoiltLog.take 1) (exSpoiltLog.drop 1) ⟨exSpoiltLog.drop 1, rfl⟩ rfl exSpoilt_has
    have hdone : done = [] := by
      cases done with
      | nil => rfl
      | cons t ts =>
        obtain ⟨rest, hrest⟩ := h1
        have ht : t = (⟨exUuid, 5⟩, exSpoiltTx) := (List.cons.inj hrest).1
        exact absurd (h2 t (by simp)) (by rw [ht]; exact exSpoilt_not)
    subst hdone
    refine ⟨set', h3, fun hh => ?_, fun hh => ?_⟩
    · have := (h4 (⟨exUuid, 5⟩, exSpoiltTx) (by simp [exSpoiltLog])).1 hh
      simp [exSpoiltLog] at this
    · have := (h4 (⟨exUuid, 8⟩, exCreateTx) (by simp [exSpoiltLog])).1 hh
      simp [exSpoiltLog] at this

/-- The inserts in some events. -/
def insertsIn (es : List Ev) : Nat := (es.filter fun e => match e.2 with | .writeRows _ => true | _ => false).length

/-- **C128** is false of the code: after a whole session all is recorded, and the copy, which is the number of inserts, is 0. -/
theorem C128_false (m : Mode) : ∃ c' set', RecSessions m HoledTx passOver (fun n es => n + insertsIn es) exGtidUser 0 exSpoiltLog c' 0 exSpoiltLog ∧
    c'.options.binlog.gtidSet = some set' ∧ ∀ t ∈ exSpoiltLog, Has set' t.1.sourceId.data t.1.transactionId := by
  obtain ⟨slices, st, h1, h2⟩ := exSpoilt_written .crc32
  obtain ⟨stream, c', set', -, -, g1, g2, g3, g4⟩ := C128_session_partial m exCrypto exGtidUser { exChannel [] with input := _ } exGtidUser_usable rfl .crc32 _
    (exGtidUser_in _) exSet rfl rfl exSet_wf exSet_ordered exSpoiltLog exSpoiltParts exSpoilt_ok.2 exSpoilt_missing exSpoilt_gtids slices st h1 h2 1 [] rfl
    (fun n es => n + insertsIn es) 0
  refine ⟨c', set', g2, g3, fun t ht => ?_⟩
  rw [g4, exSpoilt_missing]
  by_cases hh : Has exSet t.1.sourceId.data t.1.transactionId
  · exact .inl hh
  · exact .inr ⟨t, List.mem_filter.2 ⟨ht, by simpa using hh⟩, rfl, rfl⟩

/-- The hypotheses of `C127_never_past` and `C128_lost_for_good` are met by these sessions. -/
example (m : Mode) : (∃ c', RecSessions m SpoiltTx upToError (fun _ _ => ()) exGtidUser () exSpoiltLog c' () exSpoiltLog) ∧
    (∃ c', RecSessions m HoledTx passOver (fun n es => n + insertsIn es) exGtidUser 0 exSpoiltLog c' 0 exSpoiltLog) ∧
    exGtidUser.options.binlog.startingStrategy = .fromGtid ∧ exGtidUser.options.binlog.gtidSet = some exSet ∧ Wf exSet ∧ AllOrdered exSet ∧
    (∀ t ∈ exSpoiltLog, GtidOk t.1) ∧ (exSpoiltLog.map fun t => gtidKey t.1).Nodup ∧ exSpoiltLog.take 1 <+: exSpoiltLog ∧
    exSpoiltLog = exSpoiltLog.take 1 ++ exSpoiltLog.drop 1 ∧
    (∀ t ∈ exSpoiltLog, Has exSet t.1.sourceId.data t.1.transactionId ↔ t ∈ exSpoiltLog.take 1) :=
  ⟨(C127_false m).1.imp fun _ h => h.1, (C128_false m).imp fun _ ⟨_, h, _⟩ => h, rfl, rfl, exSet_wf, exSet_ordered, exSpoilt_gtids, by decide +kernel,
    ⟨exSpoiltLog.drop 1, rfl⟩, rfl, exSpoilt_has⟩

end MysqlCdc
