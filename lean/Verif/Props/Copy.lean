import Verif.Spec.Copy
import Verif.Props.Deliveries
/-!
# C117: a copy of the server's data
-/

namespace MysqlCdc

open Spec

/-! ## What the application gathers -/

/-- The transactions that lie entirely within the first `k` events. -/
def finishedTxs {γ : Type} : Nat → List (Part γ) → List (Tx γ)
  | _, [] => []
  | k, p :: ps => if p.events.length ≤ k then p.txs ++ finishedTxs (k - p.events.length) ps else []

theorem txs_fst {γ : Type} (p : Part γ) : p.txs.map (·.1) = p.gtids := by cases p <;> rfl

theorem finishedTxs_fst {γ : Type} (k : Nat) (parts : List (Part γ)) : (finishedTxs k parts).map (·.1) = finished k parts := by
  induction parts generalizing k with
  | nil => rfl
  | cons p ps ih =>
    rw [finishedTxs, finished]
    split
    · rw [List.map_append, txs_fst, ih]
    · rfl

theorem finishedTxs_mem {γ : Type} {k : Nat} {parts : List (Part γ)} {t : Tx γ} (h : t ∈ finishedTxs k parts) : t ∈ parts.flatMap Part.txs := by
  induction parts generalizing k with
  | nil => simp [finishedTxs] at h
  | cons p ps ih =>
    rw [finishedTxs] at h
    split at h
    · rw [List.flatMap_cons]
      rcases List.mem_append.1 h with h | h
      · exact List.mem_append_left _ h
      · exact List.mem_append_right _ (ih h)
    · simp at h

theorem finishedTxs_all {γ : Type} (parts : List (Part γ)) (k : Nat) (hk : (flat parts).length ≤ k) : finishedTxs k parts = parts.flatMap Part.txs := by
  induction parts generalizing k with
  | nil => rfl
  | cons p ps ih =>
    rw [flat, List.flatMap_cons, List.length_append] at hk
    rw [finishedTxs, if_pos (by omega), List.flatMap_cons, ih _ (by unfold flat; omega)]

theorem wholeFrom_append (p : Pending) (es fs : List Ev) :
    ∃ p', wholeFrom p (es ++ fs) = wholeFrom p es ++ wholeFrom p' fs ∧ ∀ gs, wholeFrom p (es ++ gs) = wholeFrom p es ++ wholeFrom p' gs := by
  induction es generalizing p with
  | nil => exact ⟨p, rfl, fun _ => rfl⟩
  | cons e es ih =>
    obtain ⟨p', h1, h2⟩ := ih (p.next e).2
    exact ⟨p', by simp [wholeFrom, h1], fun gs => by simp [wholeFrom, h2]⟩

/-- Neutral events behind the GTID. -/
theorem wholeFrom_mid (es mid rest : List Ev) (h : ∀ p ∈ mid, Neutral p.2) :
    wholeFrom (.opened es) (mid ++ rest) = wholeFrom (.opened (es ++ mid)) rest := by
  induction mid generalizing es with
  | nil => simp
  | cons e mid ih =>
    have he := h e (by simp)
    have : (Pending.opened es).next e = (none, .opened (es ++ [e])) := by
      obtain ⟨hd, ev⟩ := e
      cases ev <;> simp_all [Pending.next, Neutral]
    rw [List.cons_append, wholeFrom, this, Option.toList, List.nil_append, ih _ fun p hp => h p (by simp [hp])]
    simp

/-- Events behind BEGIN. -/
theorem wholeFrom_body (es body rest : List Ev) (h : ∀ p ∈ body, Inside p.2) :
    wholeFrom (.begun es) (body ++ rest) = wholeFrom (.begun (es ++ body)) rest := by
  induction body generalizing es with
  | nil => simp
  | cons e body ih =>
    have he := h e (by simp)
    have : (Pending.begun es).next e = (none, .begun (es ++ [e])) := by
      obtain ⟨hd, ev⟩ := e
      cases ev with
      | query q => exact if_neg he.2
      | mySqlGtid x => exact absurd trivial he.1
      | mariaDbGtid x => exact absurd trivial he.1
      | xid x => exact absurd trivial he.2
      | _ => rfl
    rw [List.cons_append, wholeFrom, this, Option.toList, List.nil_append, ih _ fun p hp => h p (by simp [hp])]
    simp

/-- A complete transaction is gathered. -/
theorem wholeFrom_tx {g : Gtid} {es : List Ev} (h : MysqlTx g es) (rest : List Ev) : wholeFrom .idle (es ++ rest) = es :: wholeFrom .idle rest := by
  cases h with
  | @block h0 hb he x b e mid body hx hm hbegin hi hend =>
    simp only [List.cons_append, List.append_assoc, wholeFrom, Pending.next, Option.toList, List.nil_append]
    rw [wholeFrom_mid _ _ _ hm]
    have h1 : ∀ es, (Pending.opened es).next (hb, b) = (none, .begun (es ++ [(hb, b)])) := by
      intro es
      cases b with
      | query q =>
        have hq : q.sqlStatement = "BEGIN".toList := hbegin
        exact (if_neg (by rw [hq]; decide)).trans (if_pos hq)
      | _ => exact hbegin.elim
    have h2 : ∀ es, (Pending.begun es).next (he, e) = (some (es ++ [(he, e)]), .idle) := by
      intro es
      cases e with
      | query q => exact if_pos hend
      | xid x => rfl
      | _ => exact hend.elim
    rw [wholeFrom, h1, Option.toList, List.nil_append, wholeFrom_body _ _ _ hi, wholeFrom, h2]
    simp
  | @auto h0 he x e mid hx hm hauto =>
    simp only [List.cons_append, List.append_assoc, wholeFrom, Pending.next, Option.toList, List.nil_append]
    rw [wholeFrom_mid _ _ _ hm]
    have h2 : ∀ es, (Pending.opened es).next (he, e) = (some (es ++ [(he, e)]), .idle) := by
      intro es
      cases e with
      | query q => exact (if_neg hauto.1).trans (if_neg hauto.2.1)
      | _ => exact hauto.elim
    rw [wholeFrom, h2]
    simp

def Spec.Pending.size : Pending → Nat
  | .idle => 0
  | .opened es | .begun es => es.length

theorem next_size (p : Pending) (e : Ev) : (∀ x, (p.next e).1 = some x → x.length ≤ p.size + 1) ∧ (p.next e).2.size ≤ p.size + 1 := by
  obtain ⟨hd, ev⟩ := e
  have grow : ∀ (es : List Ev) (e : Ev), (∀ x, some (es ++ [e]) = some x → x.length ≤ es.length + 1) := by
    intro es e x h
    rw [← Option.some.inj h]
    simp
  have key : ∀ q : QueryEvent, (∀ es, (∀ x, ((Pending.opened es).next (hd, .query q)).1 = some x → x.length ≤ es.length + 1) ∧
      ((Pending.opened es).next (hd, .query q)).2.size ≤ es.length + 1) ∧
      ∀ es, (∀ x, ((Pending.begun es).next (hd, .query q)).1 = some x → x.length ≤ es.length + 1) ∧
      ((Pending.begun es).next (hd, .query q)).2.size ≤ es.length + 1 := by
    intro q
    constructor
    · intro es
      unfold Pending.next
      simp only
      split
      · exact ⟨fun _ h => (nomatch h), by simp [Pending.size]⟩
      · split
        · exact ⟨fun _ h => (nomatch h), by simp [Pending.size]⟩
        · exact ⟨grow _ _, by simp [Pending.size]⟩
    · intro es
      unfold Pending.next
      simp only
      split
      · exact ⟨grow _ _, by simp [Pending.size]⟩
      · exact ⟨fun _ h => (nomatch h), by simp [Pending.size]⟩
  have maria : ∀ (p : Pending) (x : MariaGtidEvent), (∀ y, (p.next (hd, .mariaDbGtid x)).1 = some y → y.length ≤ p.size + 1) ∧
      (p.next (hd, .mariaDbGtid x)).2.size ≤ p.size + 1 := by
    intro p x
    have : p.next (hd, .mariaDbGtid x) = if x.flags % 2 = 1 then (none, .opened [(hd, .mariaDbGtid x)]) else (none, .begun [(hd, .mariaDbGtid x)]) := by
      cases p <;> rfl
    rw [this]
    split <;> exact ⟨fun _ h => (nomatch h), by simp [Pending.size]⟩
  cases p with
  | idle =>
    cases ev with
    | mariaDbGtid x => exact maria _ x
    | _ => exact ⟨fun _ h => (nomatch h), by simp [Pending.next, Pending.size]⟩
  | opened es =>
    cases ev with
    | query q => exact (key q).1 es
    | mariaDbGtid x => exact maria _ x
    | xid x => exact ⟨grow _ _, by simp [Pending.next, Pending.size]⟩
    | _ => exact ⟨fun _ h => (nomatch h), by simp [Pending.next, Pending.size]⟩
  | begun es =>
    cases ev with
    | query q => exact (key q).2 es
    | mariaDbGtid x => exact maria _ x
    | xid x => exact ⟨grow _ _, by simp [Pending.next, Pending.size]⟩
    | _ => exact ⟨fun _ h => (nomatch h), by simp [Pending.next, Pending.size]⟩

theorem wholeFrom_size (p : Pending) (es : List Ev) : ∀ x ∈ wholeFrom p es, x.length ≤ p.size + es.length := by
  induction es generalizing p with
  | nil => simp [wholeFrom]
  | cons e es ih =>
    intro x hx
    have h := next_size p e
    rw [wholeFrom] at hx
    rw [List.length_cons]
    rcases List.mem_append.1 hx with hx | hx
    · have := h.1 x (by simpa using hx)
      omega
    · have := ih _ x hx
      omega

/-- A transaction cut short is not gathered. -/
theorem wholeFrom_cut {es : List Ev} (h : ∀ rest, wholeFrom .idle (es ++ rest) = es :: wholeFrom .idle rest) {k : Nat} (hk : k < es.length) :
    wholeFrom .idle (es.take k) = [] := by
  have h1 := h []
  rw [List.append_nil, wholeFrom] at h1
  obtain ⟨p', -, h2⟩ := wholeFrom_append .idle (es.take k) []
  have h3 := h2 (es.drop k)
  rw [List.take_append_drop, h1] at h3
  cases hw : wholeFrom .idle (es.take k) with
  | nil => rfl
  | cons x xs =>
    rw [hw, List.cons_append, List.cons.injEq] at h3
    have := wholeFrom_size .idle (es.take k) x (by rw [hw]; simp)
    rw [← h3.1, List.length_take] at this
    simp only [Pending.size] at this
    omega

theorem gathered_finished {γ : Type} {T : γ → List Ev → Prop} (ht : ∀ g es, T g es → ∀ rest, wholeFrom .idle (es ++ rest) = es :: wholeFrom .idle rest)
    (parts : List (Part γ)) (hp : ∀ p ∈ parts, p.Ok T) (k : Nat) : whole ((flat parts).take k) = (finishedTxs k parts).map (·.2) := by
  unfold whole
  induction parts generalizing k with
  | nil => simp [flat, wholeFrom, finishedTxs]
  | cons p ps ih =>
    have ih := fun k => ih (fun q hq => hp q (by simp [hq])) k
    have hp := hp p (by simp)
    rw [finishedTxs, flat, List.flatMap_cons]
    split
    · rename_i hk
      rw [List.take_append, List.take_of_length_le hk, List.map_append, ← ih (k - p.events.length)]
      cases p with
      | tx g es => exact ht g es hp _
      | noise e =>
        have : Pending.idle.next e = (none, .idle) := by
          obtain ⟨hd, ev⟩ := e
          cases ev <;> simp_all [Pending.next, Part.Ok, Neutral]
        simp only [Part.events, Part.txs, List.map_nil, List.cons_append, List.nil_append, wholeFrom, this]
        rfl
    · rename_i hk
      rw [List.take_append_of_le_length (by omega)]
      cases p with
      | tx g es => exact wholeFrom_cut (ht g es hp) (by simpa [Part.events] using hk)
      | noise e =>
        simp only [Part.events, List.length_singleton, Nat.not_le, Nat.lt_one_iff] at hk
        simp [hk, wholeFrom]

theorem whole_finished (parts : List (Part Gtid)) (hp : ∀ p ∈ parts, p.Ok MysqlTx) (k : Nat) :
    whole ((flat parts).take k) = (finishedTxs k parts).map (·.2) :=
  gathered_finished (fun _ _ h rest => wholeFrom_tx h rest) parts hp k

/-! ## Sessions -/

open Classical in
/-- What a session brings, as `MysqlSession`, with the events of the transactions: the server sends the transactions the request does not list, as they
are in its log. -/
inductive CopySession (m : Mode) (log : List (Tx Gtid)) (stream : BinlogEvents) (taken : List Ev) : Prop where
  | mk {front : List Packet} {request : Bytes} {id position : Nat} {file : RStr} {sets : List (Bytes × List Interval)}
      (htrace : stream.channel.trace = front ++ [.sent 0 request]) (hrequest : DumpGtidPacket 0 id file position sets request)
      {parts : List (Part Gtid)} (hp : ∀ p ∈ parts, p.Ok MysqlTx)
      (hlog : parts.flatMap Part.txs = log.filter fun t => ¬Listed sets t.1)
      {sent : List Ev} (hsent : sent <+: flat parts) {slices : List Bytes} {st : LogState}
      (hbytes : LogOf (.start stream.parser.checksumType) sent slices st) (hsize : ∀ x ∈ slices, x.length < 2 ^ 24 - 20)
      {n : Nat} {rest : Bytes} (hin : stream.channel.input = frames (eventPackets n sent slices) ++ rest)
      {stream' : BinlogEvents} (hy : stream.Yields m (taken.map .ok) stream') (hl : taken.length ≤ sent.length) : CopySession m log stream taken

/-- Any number of sessions with a MySQL server and attempts that fail, while its log grows. With what it takes and commits in a session, the application
brings its copy `data` up to date. -/
inductive CopySessions {σ : Type} (m : Mode) (apply : σ → List Ev → σ) : Client → σ → (log : List (Tx Gtid)) → Client → σ → (log' : List (Tx Gtid)) → Prop where
  | stop {c : Client} {data : σ} {log : List (Tx Gtid)} : CopySessions m apply c data log c data log
  | grow {c c' : Client} {data data' : σ} {log log' : List (Tx Gtid)} (more : List (Tx Gtid)) (h : CopySessions m apply c data (log ++ more) c' data' log') :
      CopySessions m apply c data log c' data' log'
  | failed {c c' : Client} {data data' : σ} {log log' : List (Tx Gtid)} {crypto : Crypto} {net : Except IoKind Channel}
      (h : CopySessions m apply (c.replicate m crypto net).2 data log c' data' log') : CopySessions m apply c data log c' data' log'
  | session {c c1 c2 c' : Client} {data data' : σ} {log log' : List (Tx Gtid)} {crypto : Crypto} {chan : Channel} {stream : BinlogEvents} {taken : List Ev}
      (hf : FitsRequests c.options) (hr : c.replicate m crypto (.ok chan) = (.ok stream, c1)) (hs : CopySession m log stream taken)
      (hc : commitAll m c1 taken = .ok c2) (h : CopySessions m apply c2 ((whole taken).foldl apply data) log c' data' log') :
      CopySessions m apply c data log c' data' log'

theorem filter_fst {γ α : Type} {p : γ → Bool} (log : List (γ × α)) : (log.filter fun t => p t.1).map (·.1) = (log.map (·.1)).filter p := by
  induction log with
  | nil => rfl
  | cons t log ih => by_cases h : p t.1 <;> simp [h, ih]

theorem parts_fst {γ : Type} (parts : List (Part γ)) : (parts.flatMap Part.txs).map (·.1) = parts.flatMap Part.gtids := by
  induction parts with
  | nil => rfl
  | cons p ps ih => rw [List.flatMap_cons, List.flatMap_cons, List.map_append, txs_fst, ih]

theorem copy_taken {m : Mode} {c c1 : Client} {crypto : Crypto} {chan : Channel} {stream stream' : BinlogEvents} {taken sent : List Ev}
    {γ : Type} {parts : List (Part γ)} {slices : List Bytes} {st : LogState} {n : Nat} {rest : Bytes}
    (hr : c.replicate m crypto (.ok chan) = (.ok stream, c1)) (hsent : sent <+: flat parts)
    (hbytes : LogOf (.start stream.parser.checksumType) sent slices st) (hsize : ∀ x ∈ slices, x.length < 2 ^ 24 - 20)
    (hin : stream.channel.input = frames (eventPackets n sent slices) ++ rest) (hy : stream.Yields m (taken.map .ok) stream')
    (hl : taken.length ≤ sent.length) : taken = (flat parts).take taken.length := by
  have hparser : stream.parser = ⟨stream.parser.checksumType, []⟩ := by
    obtain ⟨_, _, _, -, -, h'⟩ := replicate_ok (m := m) (cr := crypto) (c := c) (net := .ok chan) (events := stream) (by rw [hr])
    rw [h']
    rfl
  obtain ⟨s', g6, -, -⟩ := Knows.stream hbytes m stream (by rw [hparser]; exact Knows.start _) n rest hsize hin
  have := hy.prefix g6 (by simpa using hl)
  rw [List.length_map, ← List.map_take] at this
  have := List.map_injective_iff.2 (fun a b h => Except.ok.inj h) this
  obtain ⟨more, hmore⟩ := hsent
  rw [← hmore, List.take_append_of_le_length hl]
  exact this

open Classical in
/-- The sessions as C103 sees them, and what they do to the copy. -/
theorem copySessions_mysql {σ : Type} {m : Mode} {apply : σ → List Ev → σ} {c c' : Client} {data data' : σ} {log log' : List (Tx Gtid)}
    (h : CopySessions m apply c data log c' data' log') :
    ∃ dones : List (List (Tx Gtid)), MysqlSessions m c (log.map (·.1)) (dones.map fun d => d.map (·.1)) c' (log'.map (·.1)) ∧
      data' = dataAfter apply data dones.flatten ∧ (∀ t ∈ dones.flatten, t ∈ log') ∧ log <+: log' := by
  induction h with
  | stop => exact ⟨[], .stop, rfl, by simp, List.prefix_rfl⟩
  | grow more _ ih =>
    obtain ⟨dones, h1, h2, h3, h4⟩ := ih
    exact ⟨dones, .grow (more.map (·.1)) (by rw [← List.map_append]; exact h1), h2, h3, (List.prefix_append _ _).trans h4⟩
  | failed _ ih =>
    obtain ⟨dones, h1, h2, h3, h4⟩ := ih
    exact ⟨dones, .failed h1, h2, h3, h4⟩
  | @session c c1 c2 c' data data' log log' crypto chan stream taken hf hr hs hc _ ih =>
    obtain ⟨dones, h1, h2, h3, h4⟩ := ih
    obtain ⟨htrace, hrequest, hp, hlog, hsent, hbytes, hsize, hin, hy, hl⟩ := hs
    rename_i front request id position file sets parts sent slices st n rest stream'
    have htaken := copy_taken hr hsent hbytes hsize hin hy hl
    refine ⟨finishedTxs taken.length parts :: dones, ?_, ?_, ?_, h4⟩
    · rw [List.map_cons, finishedTxs_fst]
      refine .session hf hr (.mk htrace hrequest hp ?_ hsent hbytes hsize hin hy hl rfl) hc h1
      rw [← parts_fst, hlog, filter_fst (p := fun g => decide ¬Listed sets g)]
    · rw [h2, List.flatten_cons, dataAfter, dataAfter, List.foldl_append]
      have : whole taken = (finishedTxs taken.length parts).map (·.2) := by
        rw [← whole_finished parts hp, ← htaken]
      rw [this, List.foldl_map]
    · rw [List.flatten_cons]
      intro t ht
      rcases List.mem_append.1 ht with ht | ht
      · have := finishedTxs_mem ht
        rw [hlog] at this
        exact h4.subset (List.mem_filter.1 this).1
      · exact h3 t ht

/-! ## The property -/

theorem prefix_of_fst {γ α : Type} {xs ys all : List (γ × α)} (hd : (all.map fun t => t.1).Nodup) (hx : ∀ t ∈ xs, t ∈ all) (hy : ∀ t ∈ ys, t ∈ all)
    (h : xs.map (·.1) <+: ys.map (·.1)) : xs <+: ys := by
  have inj : ∀ a ∈ all, ∀ b ∈ all, a.1 = b.1 → a = b := by
    intro a ha b hb hab
    exact List.inj_on_of_nodup_map hd ha hb hab
  induction xs generalizing ys with
  | nil => exact List.nil_prefix
  | cons x xs ih =>
    cases ys with
    | nil => simp at h
    | cons y ys =>
      rw [List.map_cons, List.map_cons, List.cons_prefix_cons] at h
      rw [List.cons_prefix_cons]
      exact ⟨inj x (hx x (by simp)) y (hy y (by simp)) h.1, ih (fun t ht => hx t (by simp [ht])) (fun t ht => hy t (by simp [ht])) h.2⟩

/-- What sessions have done: the transactions they brought are the next ones of the log behind the ones that were recorded. -/
theorem taken_seen {α : Type} {m : Mode} {c c' : Client} {log log' : List (Gtid × α)} {dones : List (List (Gtid × α))}
    (h1 : TakenSessions m c (log.map (·.1)) (dones.map fun d => d.map (·.1)) c' (log'.map (·.1))) (h3 : ∀ t ∈ dones.flatten, t ∈ log')
    (h4 : log <+: log') (set : GtidSet) (hs : c.options.binlog.startingStrategy = .fromGtid)
    (hset : c.options.binlog.gtidSet = some set) (hw : Wf set) (ho : AllOrdered set) (hg : ∀ t ∈ log', GtidOk t.1)
    (hd : (log'.map fun t => gtidKey t.1).Nodup) (old : List (Gtid × α)) (hold : old <+: log)
    (hhas : ∀ t ∈ log', Has set t.1.sourceId.data t.1.transactionId ↔ t ∈ old) :
    ∃ later set', log' = old ++ (dones.flatten ++ later) ∧ c'.options.binlog.gtidSet = some set' ∧
      (∀ t ∈ log', Has set' t.1.sourceId.data t.1.transactionId ↔ t ∈ old ++ dones.flatten) ∧
      ((∀ t ∈ log', Has set' t.1.sourceId.data t.1.transactionId) → later = []) := by
  classical
  obtain ⟨new, rfl⟩ := hold.trans h4
  obtain ⟨set', k1, -, -, k4, k5⟩ := taken_each_once h1 set hs hset hw ho (by
    intro g hg'
    obtain ⟨t, ht, rfl⟩ := List.mem_map.1 hg'
    exact hg t ht) (by rw [List.map_map]; exact hd)
  -- what was missing at the beginning
  have hnew : ((old ++ new).map (·.1)).filter (fun g => ¬Has set g.sourceId.data g.transactionId) = new.map (·.1) := by
    rw [List.map_append, List.filter_append, List.filter_eq_nil_iff.2, List.filter_eq_self.2, List.nil_append]
    · intro g hg'
      obtain ⟨t, ht, rfl⟩ := List.mem_map.1 hg'
      simp only [decide_eq_true_eq]
      rw [hhas t (by simp [ht])]
      intro hto
      rw [List.map_append, List.nodup_append] at hd
      exact hd.2.2 _ (List.mem_map.2 ⟨t, hto, rfl⟩) _ (List.mem_map.2 ⟨t, ht, rfl⟩) rfl
    · intro g hg'
      obtain ⟨t, ht, rfl⟩ := List.mem_map.1 hg'
      simp only [decide_eq_true_eq, not_not]
      exact (hhas t (by simp [ht])).2 ht
  rw [hnew] at k5
  have hpre : dones.flatten <+: new := by
    have hd' : ((old ++ new).map (·.1)).Nodup := .of_map gtidKey (by rw [List.map_map]; exact hd)
    refine prefix_of_fst hd' h3 (fun t ht => by simp [ht]) ?_
    rw [← k5, List.map_flatten]
    exact List.prefix_append _ _
  obtain ⟨later, rfl⟩ := hpre
  have hkey : ∀ t ∈ old ++ (dones.flatten ++ later), Has set' t.1.sourceId.data t.1.transactionId ↔ t ∈ old ++ dones.flatten := by
    intro t ht
    rw [k4, hhas t ht, List.mem_append]
    refine or_congr Iff.rfl ⟨?_, fun h => ⟨t.1, ?_, rfl, rfl⟩⟩
    · rintro ⟨g, hg', e1, e2⟩
      rw [← List.map_flatten] at hg'
      obtain ⟨t', ht', rfl⟩ := List.mem_map.1 hg'
      have : t = t' := List.inj_on_of_nodup_map hd ht (h3 t' ht') (by unfold gtidKey; rw [e1, e2])
      rw [this]
      exact ht'
    · rw [← List.map_flatten]
      exact List.mem_map.2 ⟨t, h, rfl⟩
  refine ⟨later, set', rfl, k1, hkey, fun hall => ?_⟩
  rw [List.eq_nil_iff_forall_not_mem]
  intro t ht
  have hmem := (hkey t (by simp [ht])).1 (hall t (by simp [ht]))
  rw [← List.append_assoc, List.map_append, List.nodup_append] at hd
  exact hd.2.2 _ (List.mem_map.2 ⟨t, hmem, rfl⟩) _ (List.mem_map.2 ⟨t, ht, rfl⟩) rfl

/-- What the sessions have done to the copy: the next transactions of the log behind the ones that were recorded. -/
theorem copySessions_seen {σ : Type} {m : Mode} {apply : σ → List Ev → σ} {c c' : Client} {data data' : σ} {log log' : List (Tx Gtid)}
    (h : CopySessions m apply c data log c' data' log') (set : GtidSet) (hs : c.options.binlog.startingStrategy = .fromGtid)
    (hset : c.options.binlog.gtidSet = some set) (hw : Wf set) (ho : AllOrdered set) (hg : ∀ t ∈ log', GtidOk t.1)
    (hd : (log'.map fun t => gtidKey t.1).Nodup) (old : List (Tx Gtid)) (hold : old <+: log)
    (hhas : ∀ t ∈ log', Has set t.1.sourceId.data t.1.transactionId ↔ t ∈ old) :
    ∃ done later set', log' = old ++ (done ++ later) ∧ data' = dataAfter apply data done ∧ c'.options.binlog.gtidSet = some set' ∧
      (∀ t ∈ log', Has set' t.1.sourceId.data t.1.transactionId ↔ t ∈ old ++ done) ∧
      ((∀ t ∈ log', Has set' t.1.sourceId.data t.1.transactionId) → later = []) := by
  obtain ⟨dones, h1, h2, h3, h4⟩ := copySessions_mysql h
  obtain ⟨later, set', k1, k2, k3, k4⟩ := taken_seen h1.takes h3 h4 set hs hset hw ho hg hd old hold hhas
  exact ⟨dones.flatten, later, set', k1, h2, k2, k3, k4⟩

/-- **C117.** An application keeps a copy of the server's data by applying each transaction when its last event has come, and commits every event. It begins
with the data after some first transactions of the log (`old`), which are the ones recorded. Then, after any number of sessions, broken anywhere, and of
failed attempts, while the log grows, the copy is what the server's data was after some first transactions (`seen`) of the log, and these are
exactly the ones recorded; if all transactions of the log are recorded, the copy is the server's data. -/
theorem C117_copy {σ : Type} {m : Mode} {apply : σ → List Ev → σ} {c c' : Client} {data data' : σ} {log log' : List (Tx Gtid)}
    (h : CopySessions m apply c data log c' data' log') (set : GtidSet) (hs : c.options.binlog.startingStrategy = .fromGtid)
    (hset : c.options.binlog.gtidSet = some set) (hw : Wf set) (ho : AllOrdered set) (hg : ∀ t ∈ log', GtidOk t.1)
    (hd : (log'.map fun t => gtidKey t.1).Nodup) (init : σ) (old : List (Tx Gtid)) (hold : old <+: log)
    (hhas : ∀ t ∈ log', Has set t.1.sourceId.data t.1.transactionId ↔ t ∈ old) (hdata : data = dataAfter apply init old) :
    ∃ seen set', old <+: seen ∧ seen <+: log' ∧ data' = dataAfter apply init seen ∧ c'.options.binlog.gtidSet = some set' ∧
      (∀ t ∈ log', Has set' t.1.sourceId.data t.1.transactionId ↔ t ∈ seen) ∧
      ((∀ t ∈ log', Has set' t.1.sourceId.data t.1.transactionId) → data' = dataAfter apply init log') := by
  obtain ⟨done, later, set', rfl, h1, h2, h3, h4⟩ := copySessions_seen h set hs hset hw ho hg hd old hold hhas
  have hseen : data' = dataAfter apply init (old ++ done) := by
    rw [h1, hdata, dataAfter, dataAfter, dataAfter, List.foldl_append]
  refine ⟨old ++ done, set', List.prefix_append _ _, ⟨later, by simp⟩, hseen, h2, h3, fun hall => ?_⟩
  rw [hseen, h4 hall, List.append_nil]

open Classical in
/-- **C117.** Such sessions come about: with a conforming server that lets the client in and sends the transactions the recorded set does not have, the
application can take and commit any number of the events. When it takes all, its copy has all those transactions. -/
theorem C117_session {σ : Type} (m : Mode) (c : Crypto) (client : Client) (chan : Channel) (hu : Usable c client.options)
    (hw : chan.writes = []) (checksum : ChecksumType) (bytes : Bytes) (hin : LetsIn c client.options False none checksum bytes)
    (set : GtidSet) (hs : client.options.binlog.startingStrategy = .fromGtid) (hset : client.options.binlog.gtidSet = some set)
    (hwf : Wf set) (ho : AllOrdered set) (log : List (Tx Gtid)) (parts : List (Part Gtid)) (hp : ∀ p ∈ parts, p.Ok MysqlTx)
    (hlog : parts.flatMap Part.txs = log.filter fun t => ¬Has set t.1.sourceId.data t.1.transactionId) (hg : ∀ t ∈ log, GtidOk t.1)
    (slices : List Bytes) (st : LogState) (hbytes : LogOf (.start checksum) (flat parts) slices st)
    (hsize : ∀ x ∈ slices, x.length < 2 ^ 24 - 20) (n : Nat) (rest : Bytes)
    (hi : chan.input = bytes ++ frames (eventPackets n (flat parts) slices) ++ rest) :
    ∃ stream, client.replicate m c (.ok chan) = (.ok stream, client.afresh) ∧
      (∀ k, CopySession m log stream ((flat parts).take k) ∧ ∃ client', commitAll m client.afresh ((flat parts).take k) = .ok client') ∧
      ∀ (apply : σ → List Ev → σ) (data : σ), (whole (flat parts)).foldl apply data =
        dataAfter apply data (log.filter fun t => ¬Has set t.1.sourceId.data t.1.transactionId) := by
  obtain ⟨stream, front, cmd, h1, h2, h3, h4, h5⟩ := mysql_asks m c client chan hu hw checksum bytes _ hin set hs hset
    (by rw [hi, List.append_assoc])
  refine ⟨stream, h1, fun k => ?_, fun apply data => ?_⟩
  · have hb : LogOf (.start stream.parser.checksumType) (flat parts) slices st := by rw [h5]; exact hbytes
    obtain ⟨stream', h6, -, -⟩ := Knows.stream hbytes m stream (by rw [h5]; exact Knows.start checksum) n rest hsize h4
    obtain ⟨stream1, h7⟩ := h6.take k
    rw [← List.map_take] at h7
    obtain ⟨c', _, h8, -⟩ := C17_exactly_finished m client.afresh set ⟨hs, rfl, hset⟩ hwf ho parts hp
      (fun g hg' => by
        rw [← parts_fst, hlog] at hg'
        obtain ⟨t, ht, rfl⟩ := List.mem_map.1 hg'
        exact hg t (List.mem_filter.1 ht).1) k
    refine ⟨.mk h2 h3 hp ?_ List.prefix_rfl hb hsize h4 h7 (by simp), c', h8⟩
    rw [hlog]
    refine List.filter_congr fun g _ => ?_
    simp only [listed_setsOf]
  · have h6 := whole_finished parts hp (flat parts).length
    rw [List.take_of_length_le (Nat.le_refl _), finishedTxs_all _ _ (Nat.le_refl _), hlog] at h6
    rw [h6, List.foldl_map, dataAfter]

/-! The sessions of the example of C103, with a copy of the server's data that is a count of the events of each transaction. The first
session ends behind the GTID of the second transaction, which comes again in the second session. -/

def exTxs : List (Tx Gtid) := (⟨exUuid, 7⟩, []) :: exLogParts.flatMap Part.txs

theorem exTxs_are : ∃ a b : List Ev, exTxs = [(⟨exUuid, 7⟩, []), (⟨exUuid, 5⟩, a), (⟨exUuid, 8⟩, b)] ∧
    exLogParts.flatMap Part.txs = [(⟨exUuid, 5⟩, a), (⟨exUuid, 8⟩, b)] ∧ (exLogParts.drop 2).flatMap Part.txs = [(⟨exUuid, 8⟩, b)] :=
  ⟨_, _, rfl, rfl, rfl⟩

theorem exTxs_fst : exTxs.map (·.1) = exLogged := by decide +kernel

def exCount (data : List Nat) (es : List Ev) : List Nat := data ++ [es.length]

theorem exTxs_ok : ∀ t ∈ exTxs, GtidOk t.1 := fun t ht => exLogged_ok t.1 (by rw [← exTxs_fst]; exact List.mem_map.2 ⟨t, ht, rfl⟩)

theorem exTxs_missing : (exLogParts.flatMap Part.txs = open Classical in exTxs.filter fun t => ¬Has exSet t.1.sourceId.data t.1.transactionId) := by
  obtain ⟨a, b, h, h', -⟩ := exTxs_are
  rw [h', h]
  simp [Has, exSet, InIvs, exUuid, exUuid2]

theorem exTxs_halfway : ((exLogParts.drop 2).flatMap Part.txs =
    open Classical in exTxs.filter fun t => ¬Has exHalfway t.1.sourceId.data t.1.transactionId) := by
  obtain ⟨a, b, h, -, h'⟩ := exTxs_are
  rw [h', h]
  simp [Has, exHalfway, InIvs, exUuid, exUuid2]

theorem exTxs_has : ∀ t ∈ exTxs, Has exSet t.1.sourceId.data t.1.transactionId ↔ t ∈ exTxs.take 1 := by
  obtain ⟨a, b, h, -, -⟩ := exTxs_are
  rw [h]
  simp [Has, exSet, InIvs, exUuid, exUuid2]

theorem exTxs_sessions {σ : Type} (m : Mode) (apply : σ → List Ev → σ) (data : σ) :
    ∃ c', CopySessions m apply exGtidUser data (exTxs.take 2) c' (dataAfter apply data (exTxs.drop 1)) exTxs := by
  obtain ⟨slices, st, h1, h2⟩ := exLogParts_written .crc32
  obtain ⟨stream, h3, h4, -⟩ := C117_session (σ := Unit) m exCrypto exGtidUser { exChannel [] with input := _ } exGtidUser_usable rfl .crc32 _
    (exGtidUser_in _) exSet rfl rfl exSet_wf exSet_ordered exTxs exLogParts exLogParts_ok.1 exTxs_missing exTxs_ok slices st h1 h2 1 [] rfl
  obtain ⟨h4, c2, h5⟩ := h4 7
  obtain ⟨_, set2, h6, h7, h8, h9, -⟩ := C17_exactly_finished m exGtidUser.afresh exSet ⟨rfl, rfl, rfl⟩ exSet_wf exSet_ordered exLogParts exLogParts_ok.1
    (by rw [exLogParts_ok.2]; exact fun g hg => exLogged_ok g (List.mem_cons_of_mem _ hg)) 7
  have hc2 : c2 = { exGtidUser with
      mysqlGtid := some ⟨exUuid, 8⟩,
      options := { exGtidUser.options with binlog := { exGtidUser.options.binlog with
        filename := "bin.2".toList, position := (exTyped 33).nextEventPosition, gtidSet := some exHalfway } } } := by
    have h : ∀ m, commitAll m exGtidUser.afresh ((flat exLogParts).take 7) = .ok { exGtidUser with
        mysqlGtid := some ⟨exUuid, 8⟩,
        options := { exGtidUser.options with binlog := { exGtidUser.options.binlog with
          filename := "bin.2".toList, position := (exTyped 33).nextEventPosition, gtidSet := some exHalfway } } } := by
      rintro ⟨_ | _⟩ <;> decide +kernel
    exact Res.ok.inj (h5.symm.trans (h m))
  obtain rfl : set2 = exHalfway := by
    obtain rfl := Res.ok.inj (h5.symm.trans h6)
    rw [hc2] at h7
    exact (Option.some.inj h7).symm
  obtain ⟨slices', st', h10, h11⟩ : ∃ slices st, LogOf (.start .crc32) (flat (exLogParts.drop 2)) slices st ∧
      ∀ x ∈ slices, x.length < 2 ^ 24 - 20 :=
    ⟨_, _, .cons (by unfold HeaderFits; decide) (exGtid_written _ 8 (by decide)) (.cons (by unfold HeaderFits; decide) (exQuery_written _ _) .nil),
      by decide +kernel⟩
  have hu : Usable exCrypto c2.options := by
    rw [hc2]
    exact ⟨exSmall _, ⟨by decide, by decide, by decide +kernel, (fun g h => by cases h; unfold GtidSetFits; decide +kernel),
      (fun g h => by cases h), by decide⟩, rfl⟩
  obtain ⟨stream2, g3, g4, -⟩ := C117_session (σ := Unit) m exCrypto c2 { exChannel [] with input := _ } hu rfl .crc32 _
    (exGtidUser_in _) exHalfway (by rw [hc2]; rfl) (by rw [hc2]) h8 h9 exTxs (exLogParts.drop 2)
    (fun p hp => exLogParts_ok.1 p (List.mem_of_mem_drop hp)) exTxs_halfway exTxs_ok slices' st' h10 h11 1 [] rfl
  obtain ⟨g4, c3, g5⟩ := g4 2
  obtain ⟨a, b, e0, e0', e0''⟩ := exTxs_are
  have e1 : whole ((flat exLogParts).take 7) = [a] := by
    have h := whole_finished exLogParts exLogParts_ok.1 7
    have h' : finishedTxs 7 exLogParts = (exLogParts.flatMap Part.txs).take 1 := rfl
    rw [h, h', e0']
    rfl
  have e2 : whole ((flat (exLogParts.drop 2)).take 2) = [b] := by
    have h := whole_finished (exLogParts.drop 2) (fun p hp => exLogParts_ok.1 p (List.mem_of_mem_drop hp)) 2
    have h' : finishedTxs 2 (exLogParts.drop 2) = (exLogParts.drop 2).flatMap Part.txs := rfl
    rw [h, h', e0'']
    rfl
  refine ⟨c3, .grow (exTxs.drop 2) (.session (small_fits exGtidUser_usable.requests) h3 h4 h5
    (.failed (crypto := exCrypto) (net := .error .unexpectedEof) (.session (small_fits hu.requests) g3 g4 g5 ?_)))⟩
  rw [e1, e2, e0]
  exact .stop

example (m : Mode) : (∃ c', CopySessions m exCount exGtidUser [0] (exTxs.take 2) c' [0, 5, 2] exTxs) ∧
    exGtidUser.options.binlog.startingStrategy = .fromGtid ∧ exGtidUser.options.binlog.gtidSet = some exSet ∧ Wf exSet ∧ AllOrdered exSet ∧
    (∀ t ∈ exTxs, GtidOk t.1) ∧ (exTxs.map fun t => gtidKey t.1).Nodup ∧ exTxs.take 1 <+: exTxs.take 2 ∧
    (∀ t ∈ exTxs, Has exSet t.1.sourceId.data t.1.transactionId ↔ t ∈ exTxs.take 1) ∧ [0] = dataAfter exCount [] (exTxs.take 1) :=
  ⟨exTxs_sessions m exCount [0], rfl, rfl, exSet_wf, exSet_ordered, exTxs_ok, by decide +kernel, ⟨(exTxs.drop 1).take 1, rfl⟩, exTxs_has, rfl⟩

end MysqlCdc
