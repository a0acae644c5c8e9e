import Verif.Spec.RefusedFile
import Verif.Props.Refused
import Verif.Props.DeliveriesFile
import Verif.Props.TablesSessions
/-!
# C127, C128 by file and position
-/

namespace MysqlCdc

open Spec

/-! ## Places in such a log -/

theorem recEnd_append (pos : Nat) (a b : List Rec) : recEnd pos (a ++ b) = recEnd (recEnd pos a) b := by
  induction a generalizing pos with
  | nil => rfl
  | cons r rs ih => exact ih _

theorem Spec.RecChain.le {pos : Nat} {a b : List Rec} (h : RecChain pos (a ++ b)) : pos ≤ recEnd pos a := by
  induction a generalizing pos with
  | nil => exact Nat.le_refl _
  | cons r rs ih =>
    have h1 := h.1
    have h2 := ih h.2.2
    simp only [recEnd]
    omega

theorem recFrom_split {start : Nat} {done todo : List Rec} (h : RecChain start (done ++ todo)) :
    recFrom (recEnd start done) start (done ++ todo) = todo := by
  induction done generalizing start with
  | nil =>
    cases todo with
    | nil => rfl
    | cons r rs => simp [recFrom, recEnd]
  | cons r rs ih =>
    have h1 : start < r.1.nextEventPosition := h.1
    have h2 := RecChain.le h.2.2
    simp only [List.cons_append, recFrom, recEnd]
    rw [if_neg (by omega)]
    exact ih h.2.2

theorem recRemaining_at {log : RecLog} (hl : RecLogOk log) {p : Place} {pre post : RecLog} {f : RecFile} {done todo : List Rec}
    (h1 : log = pre ++ f :: post) (h2 : f.records = done ++ todo) (h3 : f.name = p.name) (h4 : p.pos = recEnd 4 done) :
    recRemaining log p = todo ++ post.flatMap (·.records) := by
  have hc : RecChain 4 (done ++ todo) := h2 ▸ hl.chain f (by simp [h1])
  have hn := hl.names
  rw [h1] at hn ⊢
  clear hl h1
  induction pre with
  | nil => rw [List.nil_append, recRemaining, if_pos h3, h4, h2, recFrom_split hc]
  | cons g pre ih =>
    rw [List.cons_append, recRemaining, if_neg, ih]
    · simp only [List.cons_append, List.map_cons, List.nodup_cons] at hn
      exact hn.2
    · rw [← h3]
      intro hg
      simp only [List.cons_append, List.map_cons, List.map_append, List.nodup_cons, List.mem_append, List.mem_cons, not_or] at hn
      exact hn.1.2.1 hg

theorem recFrom_suffix (pos start : Nat) (rs : List Rec) : recFrom pos start rs <:+ rs := by
  induction rs generalizing start with
  | nil => exact List.suffix_rfl
  | cons r rs ih =>
    rw [recFrom]
    split
    · exact List.suffix_rfl
    · exact (ih _).trans (List.suffix_cons _ _)

theorem recRemaining_suffix (log : RecLog) (p : Place) : recRemaining log p <:+ log.flatMap (·.records) := by
  induction log with
  | nil => exact List.suffix_rfl
  | cons f fs ih =>
    rw [recRemaining, List.flatMap_cons]
    split
    · obtain ⟨a, ha⟩ := recFrom_suffix p.pos 4 f.records
      exact ⟨a, by rw [← List.append_assoc, ha]⟩
    · exact ih.trans (List.suffix_append _ _)

theorem recRemaining_moved {log : RecLog} (hl : RecLogOk log) {q : Place} {r : Rec} (h : RecStarts log q r) :
    recRemaining log q = r :: recRemaining log (recMoved q r) := by
  obtain ⟨f, hf, hn, done, todo, he, hp⟩ := h
  obtain ⟨pre, post, hlog⟩ := List.append_of_mem hf
  rw [recRemaining_at hl hlog he hn hp, List.cons_append]
  congr 1
  by_cases hr : ∃ x, r.2 = .ok (.rotate x)
  · obtain ⟨x, hx⟩ := hr
    obtain ⟨rfl, g, post', rfl, h1, h2⟩ := hl.rotate pre f post done r todo x hlog he hx
    have : recMoved q r = ⟨g.name, 4⟩ := by simp [recMoved, hx, h1, h2]
    rw [this, recRemaining_at hl (pre := pre ++ [f]) (f := g) (post := post') (done := []) (todo := g.records) (by rw [hlog]; simp) rfl rfl rfl]
    rfl
  · have : recMoved q r = ⟨q.name, r.1.nextEventPosition⟩ := by
      unfold recMoved
      split
      · rename_i x hx
        exact absurd ⟨x, hx⟩ hr
      · rfl
    rw [this, recRemaining_at hl (p := ⟨q.name, r.1.nextEventPosition⟩) hlog (done := done ++ [r]) (todo := todo) (by rw [he]; simp) hn
      (by rw [recEnd_append]; rfl)]

/-- What has been sent and what is left is what there was. -/
theorem recServe_remaining {log : RecLog} (hl : RecLogOk log) {p q : Place} {sent real : List Rec} (h : RecServe log p q sent real) :
    recRemaining log p = real ++ recRemaining log q := by
  induction h with
  | start => rfl
  | record _ hst ih => rw [ih, recRemaining_moved hl hst, List.append_assoc, List.singleton_append]
  | artificial _ _ _ ih => exact ih
  | heartbeat _ _ ih => exact ih
  | announce _ _ ih => exact ih
  | @nextFile sent real h pre post f g hlog _ ih =>
    rw [ih, recRemaining_at hl hlog (done := f.records) (todo := []) (by simp) rfl rfl,
      recRemaining_at hl (pre := pre ++ [f]) (f := g) (post := post) (done := []) (todo := g.records) (by rw [hlog]; simp) rfl rfl rfl]
    rfl

/-! ## The log with table maps in the place of refused records

Committing a table map does nothing, just as passing over a refused record. -/

def mark (r : Rec) : Ev := (r.1, match r.2 with | .ok e => e | .error _ => .tableMap ⟨0, [], [], [], [], [], none⟩)

def markLog (log : RecLog) : Log := log.map fun f => ⟨f.name, f.records.map mark⟩

theorem endOf_mark (pos : Nat) (rs : List Rec) : endOf pos (rs.map mark) = recEnd pos rs := by
  induction rs generalizing pos with
  | nil => rfl
  | cons r rs ih => exact ih _

theorem chain_mark {pos : Nat} {rs : List Rec} (h : RecChain pos rs) : Chain pos (rs.map mark) := by
  induction rs generalizing pos with
  | nil => trivial
  | cons r rs ih => exact ⟨h.1, h.2.1, ih h.2.2⟩

theorem mark_rotate {r : Rec} {x : RotateEvent} (h : (mark r).2 = .rotate x) : r.2 = .ok (.rotate x) := by
  obtain ⟨hd, y⟩ := r
  cases y with
  | ok e => exact congrArg Except.ok h
  | error err => exact absurd h (by simp [mark])

theorem markLog_ok {log : RecLog} (hl : RecLogOk log) : LogOk (markLog log) where
  names := by
    have := hl.names
    unfold markLog
    rw [List.map_map]
    exact this
  named := by
    intro f hf
    obtain ⟨g, hg, rfl⟩ := List.mem_map.1 hf
    exact hl.named g hg
  chain := by
    intro f hf
    obtain ⟨g, hg, rfl⟩ := List.mem_map.1 hf
    exact chain_mark (hl.chain g hg)
  rotate := by
    intro pre f post a e b r h1 h2 h3
    obtain ⟨pre', rest, rfl, rfl, h4⟩ := List.map_eq_append_iff.1 h1
    obtain ⟨f', post', rfl, rfl, rfl⟩ := List.map_eq_cons_iff.1 h4
    obtain ⟨a', rest, h5, rfl, h6⟩ := List.map_eq_append_iff.1 h2
    obtain ⟨e', b', rfl, rfl, rfl⟩ := List.map_eq_cons_iff.1 h6
    obtain ⟨rfl, g, post'', rfl, h7, h8⟩ := hl.rotate pre' f' post' a' e' b' r rfl h5 (mark_rotate h3)
    exact ⟨rfl, _, _, rfl, h7, h8⟩

theorem fromPos_mark (pos start : Nat) (rs : List Rec) : fromPos pos start (rs.map mark) = (recFrom pos start rs).map mark := by
  induction rs generalizing start with
  | nil => rfl
  | cons r rs ih =>
    rw [List.map_cons, fromPos, recFrom]
    split
    · rfl
    · exact ih _

theorem remaining_mark (log : RecLog) (p : Place) : remaining (markLog log) p = (recRemaining log p).map mark := by
  induction log with
  | nil => rfl
  | cons f fs ih =>
    rw [markLog, List.map_cons, remaining, recRemaining]
    split
    · rw [List.map_append, fromPos_mark, List.flatMap_map, List.map_flatMap]
    · exact ih

theorem valid_mark {log : RecLog} {p : Place} : Valid (markLog log) p ↔ RecValid log p := by
  constructor
  · rintro ⟨f, hf, h1, done, todo, h2, h3⟩
    obtain ⟨g, hg, rfl⟩ := List.mem_map.1 hf
    obtain ⟨done', todo', h4, rfl, rfl⟩ := List.map_eq_append_iff.1 h2
    exact ⟨g, hg, h1, done', todo', h4, by rw [h3, endOf_mark]⟩
  · rintro ⟨f, hf, h1, done, todo, h2, h3⟩
    exact ⟨_, List.mem_map_of_mem hf, h1, done.map mark, todo.map mark, by rw [h2, List.map_append], by rw [h3, endOf_mark]⟩

theorem resolve_mark (log : RecLog) (name : RStr) (pos : Nat) : resolve (markLog log) name pos = recResolve log name pos := by
  cases log <;> rfl

theorem serve_mark {log : RecLog} {p q : Place} {sent real : List Rec} (h : RecServe log p q sent real) :
    Serve (markLog log) False p q (sent.map mark) (real.map mark) := by
  induction h with
  | start => exact .start
  | @record q sent real r _ hst ih =>
    obtain ⟨f, hf, h1, done, todo, h2, h3⟩ := hst
    have := ih.event (e := mark r) ⟨_, List.mem_map_of_mem hf, h1, done.map mark, todo.map mark, by rw [h2, List.map_append]; rfl, by rw [h3, endOf_mark]⟩
    have hm : moved q (mark r) = recMoved q r := by
      unfold recMoved
      split
      · rename_i x hx
        simp [moved, mark, hx]
      · rename_i hx
        unfold moved
        split
        · rename_i x h'
          exact absurd (mark_rotate h') (hx x)
        · rfl
    rw [hm] at this
    rwa [List.map_append, List.map_append]
  | artificial _ h1 h2 ih =>
    rw [List.map_append]
    exact ih.artificial h1 h2
  | heartbeat _ h1 ih =>
    rw [List.map_append]
    exact ih.heartbeat h1 False.elim
  | announce _ h1 ih =>
    rw [List.map_append]
    exact ih.announce (h1.imp_left fun h => by rw [h]; rfl)
  | @nextFile sent real h pre post f g hlog _ ih =>
    rw [List.map_append]
    rw [← endOf_mark] at ih
    exact Serve.nextFile (pre := markLog pre) (post := markLog post) (f := ⟨f.name, f.records.map mark⟩) (g := ⟨g.name, g.records.map mark⟩)
      (by rw [hlog]; simp [markLog]) ih

theorem commitAll_mark (m : Mode) (c : Client) (rs : List Rec) : commitAll m c (rs.map mark) = commitAll m c (shownEvents rs) := by
  induction rs generalizing c with
  | nil => rfl
  | cons r rs ih =>
    obtain ⟨h, x⟩ := r
    cases x with
    | ok e =>
      rw [List.map_cons, shownEvents]
      simp only [commitAll, mark, ih]
    | error err =>
      rw [List.map_cons, shownEvents, ← ih]
      have : c.commit m h (.tableMap ⟨0, [], [], [], [], [], none⟩) = .ok c := by
        unfold Client.commit Client.updateGtidPosition
        split <;> rfl
      show (c.commit m h (.tableMap ⟨0, [], [], [], [], [], none⟩) >>= _) = _
      rw [this]
      rfl

/-- The place the client will ask for. -/
def Client.recPlace (log : RecLog) (c : Client) : Place := recResolve log c.options.binlog.filename c.options.binlog.position

/-- A record that does not move the recorded place: a table map, or one that shows an error. -/
def Skipped (r : Rec) : Prop := ∀ e, r.2 = .ok e → IsTableMap e

theorem place_mark (log : RecLog) (c : Client) : c.place (markLog log) = c.recPlace log := resolve_mark _ _ _

/-- A session in which the application commits what the records show. -/
theorem recServed_step {m : Mode} {crypto : Crypto} {log : RecLog} (hl : RecLogOk log) {c c1 c2 : Client} {taken real : List Rec}
    {net : Except IoKind Channel} {stream : BinlogEvents} (hs : c.options.binlog.startingStrategy ≠ .fromGtid) (hk : ¬wantsEnd c.options)
    (hv : RecValid log (c.recPlace log)) (hr : c.replicate m crypto net = (.ok stream, c1)) {q : Place}
    (hserve : RecServe log (c.recPlace log) q taken real) (hc : commitAll m c1 (shownEvents taken) = .ok c2) :
    c2.options.binlog.startingStrategy ≠ .fromGtid ∧ ¬wantsEnd c2.options ∧ RecValid log (c2.recPlace log) ∧
      ∃ front tms, real = front ++ tms ∧ (∀ r ∈ tms, Skipped r) ∧ recRemaining log (c.recPlace log) = real ++ recRemaining log q ∧
        recRemaining log (c2.recPlace log) = tms ++ recRemaining log q := by
  obtain ⟨h1, h2, h3, -, tms, front, h4, h5, h6, h7⟩ := served_step (markLog_ok hl) hs hk (by rw [place_mark, valid_mark]; exact hv) hr
    (by rw [place_mark]; exact serve_mark hserve) (by rw [commitAll_mark]; exact hc)
  rw [place_mark, valid_mark] at h3
  obtain ⟨front', tms', rfl, rfl, rfl⟩ := List.map_eq_append_iff.1 h7
  have hrem := recServe_remaining hl hserve
  refine ⟨h1, h2, h3, front', tms', rfl, fun r hr e he => ?_, hrem, ?_⟩
  · have := h6 (mark r) (List.mem_map_of_mem hr)
    rwa [mark, he] at this
  · rw [place_mark, remaining_mark, remaining_mark, ← List.map_append] at h5
    have hlen : (recRemaining log (c2.recPlace log)).length = (tms' ++ recRemaining log q).length := by simpa using congrArg List.length h5
    have hsuf : tms' ++ recRemaining log q <:+ log.flatMap (·.records) := by
      refine List.IsSuffix.trans ?_ (recRemaining_suffix log (c.recPlace log))
      rw [hrem, List.append_assoc]
      exact List.suffix_append _ _
    exact ((List.suffix_of_suffix_length_le (recRemaining_suffix log _) hsuf hlen.le).eq_of_length hlen)

/-! ## Sessions -/

/-- What a session brings, as `FileSession`: the server serves its log from the place the request names; of what it has sent, the iterator gives `items` to
the application. `real` are the records of the log among these. -/
inductive RecFileSession (m : Mode) (log : RecLog) (stream : BinlogEvents) (items : List Item) (real : List Rec) : Prop where
  | mk {front : List Packet} {request : Bytes} {id position : Nat} {file : RStr}
      (htrace : stream.channel.trace = front ++ [.sent 0 request]) (hrequest : DumpPacket 0 id file position request)
      {sent : List Rec} {q : Place} (hserve : RecServe log (recResolve log file position) q (sent.take items.length) real)
      {slices : List Bytes} {st : LogState} (hbytes : RecordsOf (.start stream.parser.checksumType) sent slices st)
      (hsize : ∀ x ∈ slices, x.length < 2 ^ 24 - 20) {n : Nat} {rest : Bytes}
      (hin : stream.channel.input = frames (recPackets n sent slices) ++ rest)
      {stream' : BinlogEvents} (hy : stream.Yields m items stream') (hl : items.length ≤ sent.length) : RecFileSession m log stream items real

/-- Any number of sessions by file and position, and attempts that fail. Of the items of a session the application makes the events `use items`, which it
commits; `got` are, session by session, the records of the log that it has made use of (`keep`). -/
inductive RecFileSessions (m : Mode) (crypto : Crypto) (log : RecLog) (use : List Item → List Ev) (keep : List Rec → List Rec) :
    Client → (got : List (List Rec)) → Client → Prop where
  | stop {c : Client} : RecFileSessions m crypto log use keep c [] c
  | failed {c c' : Client} {got : List (List Rec)} {net : Except IoKind Channel}
      (h : RecFileSessions m crypto log use keep (c.replicate m crypto net).2 got c') : RecFileSessions m crypto log use keep c got c'
  | session {c c1 c2 c' : Client} {real : List Rec} {got : List (List Rec)} {chan : Channel} {stream : BinlogEvents} {items : List Item}
      (hf : FitsRequests c.options) (hr : c.replicate m crypto (.ok chan) = (.ok stream, c1)) (hs : RecFileSession m log stream items real)
      (hc : commitAll m c1 (use items) = .ok c2) (h : RecFileSessions m crypto log use keep c2 got c') :
      RecFileSessions m crypto log use keep c (keep real :: got) c'

/-- The records behind the items of a session, served from where the client is. -/
theorem RecFileSession.served {m : Mode} {crypto : Crypto} {log : RecLog} {c c1 : Client} {real : List Rec} {chan : Channel}
    {stream : BinlogEvents} {items : List Item} (hs : c.options.binlog.startingStrategy ≠ .fromGtid) (hk : ¬wantsEnd c.options)
    (hf : FitsRequests c.options) (hr : c.replicate m crypto (.ok chan) = (.ok stream, c1)) (hsess : RecFileSession m log stream items real) :
    ∃ taken q, items = taken.map Rec.item ∧ RecServe log (c.recPlace log) q taken real := by
  obtain ⟨htrace, hrequest, hserve, hbytes, hsize, hin, hy, hl⟩ := hsess
  obtain ⟨rfl, rfl⟩ := request_read hs hk hf hr htrace hrequest
  exact ⟨_, _, rec_taken hr List.prefix_rfl hbytes hsize hin hy hl, hserve⟩

/-! ## Applications that stop at an error -/

theorem upToError_items (rs : List Rec) : upToError (rs.map Rec.item) = shownEvents (beforeError rs) := by
  induction rs with
  | nil => rfl
  | cons r rs ih =>
    obtain ⟨h, x⟩ := r
    cases x with
    | ok e => rw [beforeError, shownEvents, ← ih]; rfl
    | error err => rfl

theorem beforeError_shown (rs : List Rec) : AllShown (beforeError rs) := by
  induction rs with
  | nil => exact fun _ h => (nomatch h)
  | cons r rs ih =>
    obtain ⟨h, x⟩ := r
    cases x with
    | ok e =>
      rw [beforeError]
      intro r hr
      rcases List.mem_cons.1 hr with rfl | hr
      · exact ⟨e, rfl⟩
      · exact ih r hr
    | error err => exact fun _ h => (nomatch h)

theorem beforeError_append (a b : List Rec) : (AllShown a → beforeError (a ++ b) = a ++ beforeError b) ∧
    (¬AllShown a → beforeError (a ++ b) = beforeError a) := by
  induction a with
  | nil => exact ⟨fun _ => rfl, fun h => absurd (fun _ h => (nomatch h)) h⟩
  | cons r rs ih =>
    obtain ⟨h, x⟩ := r
    cases x with
    | ok e =>
      refine ⟨fun ha => ?_, fun ha => ?_⟩
      · rw [List.cons_append, beforeError, ih.1 fun r hr => ha r (by simp [hr]), List.cons_append]
      · rw [List.cons_append, beforeError, beforeError, ih.2 fun h' => ha fun r hr => ?_]
        rcases List.mem_cons.1 hr with rfl | hr
        · exact ⟨e, rfl⟩
        · exact h' r hr
    | error err =>
      refine ⟨fun ha => ?_, fun _ => rfl⟩
      obtain ⟨e, he⟩ := ha _ List.mem_cons_self
      cases he

/-- The server has sent the records before the first error, too. -/
theorem recServe_beforeError {log : RecLog} {p q : Place} {sent real : List Rec} (h : RecServe log p q sent real) :
    (AllShown sent ↔ AllShown real) ∧ ∃ q', RecServe log p q' (beforeError sent) (beforeError real) := by
  have all : ∀ {rs : List Rec} {r : Rec}, AllShown (rs ++ [r]) ↔ AllShown rs ∧ ∃ e, r.2 = .ok e := by
    intro rs r
    unfold AllShown
    simp only [List.mem_append, List.mem_singleton]
    exact ⟨fun h => ⟨fun x hx => h x (.inl hx), h r (.inr rfl)⟩, fun h x hx => hx.elim (h.1 x) fun hx => hx ▸ h.2⟩
  have nothing : ∀ {rs : List Rec}, AllShown rs → beforeError rs = rs := fun {rs} ha => by
    have := (beforeError_append rs []).1 ha
    simpa [beforeError] using this
  -- a record that is not one of the log
  have other : ∀ {q q2 : Place} {sent real : List Rec} {h : EventHeader} {e : BinlogEvent}, RecServe log p q2 (sent ++ [(h, .ok e)]) real →
      ((AllShown sent ↔ AllShown real) ∧ ∃ q', RecServe log p q' (beforeError sent) (beforeError real)) →
      (AllShown (sent ++ [(h, .ok e)]) ↔ AllShown real) ∧ ∃ q', RecServe log p q' (beforeError (sent ++ [(h, .ok e)])) (beforeError real) := by
    intro q q2 sent real h e hserve ih
    refine ⟨by rw [all, ← ih.1]; exact ⟨fun h => h.1, fun h => ⟨h, e, rfl⟩⟩, ?_⟩
    by_cases ha : AllShown sent
    · rw [(beforeError_append _ _).1 ha, nothing (ih.1.1 ha)]
      exact ⟨q2, hserve⟩
    · rw [(beforeError_append _ _).2 ha]
      exact ih.2
  induction h with
  | start => exact ⟨Iff.rfl, p, .start⟩
  | @record q sent real r hs hst ih =>
    refine ⟨by rw [all, all, ih.1], ?_⟩
    by_cases ha : AllShown sent
    · rw [(beforeError_append _ _).1 ha, (beforeError_append _ _).1 (ih.1.1 ha)]
      obtain ⟨h, x⟩ := r
      cases x with
      | ok e => exact ⟨_, hs.record hst⟩
      | error err => exact ⟨q, by simpa [beforeError] using hs⟩
    · rw [(beforeError_append _ _).2 ha, (beforeError_append _ _).2 fun h => ha (ih.1.2 h)]
      exact ih.2
  | @artificial q sent real e hs h1 h2 ih => exact other (q := q) (hs.artificial h1 h2) ih
  | @heartbeat q sent real h x hs h1 ih => exact other (q := q) (hs.heartbeat h1) ih
  | @announce q sent real h hs h1 ih => exact other (q := q) (hs.announce h1) ih
  | @nextFile sent real h pre post f g hl hs ih => exact other (q := q) (hs.nextFile hl) ih

theorem notMaps_append (a b : List Rec) : notMaps (a ++ b) = notMaps a ++ notMaps b := List.filter_append ..

theorem notMaps_skipped {rs : List Rec} (h : ∀ r ∈ rs, Skipped r) (ha : AllShown rs) : notMaps rs = [] := by
  rw [notMaps, List.filter_eq_nil_iff]
  intro r hr
  obtain ⟨e, he⟩ := ha r hr
  have := h r hr e he
  rw [he]
  cases e <;> first | (exact this.elim) | simp

theorem shown_skipped {rs : List Rec} (h : ∀ r ∈ rs, Skipped r) : shownEvents (notMaps rs) = [] := by
  induction rs with
  | nil => rfl
  | cons r rs ih =>
    have hr := h r (by simp)
    have ih := ih fun x hx => h x (by simp [hx])
    obtain ⟨hd, x⟩ := r
    cases x with
    | ok e =>
      have := hr e rfl
      cases e <;> first | (exact this.elim) | exact ih
    | error err => exact ih

/-- **C127** by file and position. An application that stops at every error and connects again has made use, over any number of sessions and failed attempts,
of records that show events only; and these (table maps left out) and what the log has from the recorded place on are what the log has from the first
place on. So it never gets past the first record that shows an error. -/
theorem C127_file_never_past {m : Mode} {crypto : Crypto} {log : RecLog} (hl : RecLogOk log) {c c' : Client} {got : List (List Rec)}
    (hs : c.options.binlog.startingStrategy ≠ .fromGtid) (hk : ¬wantsEnd c.options) (hv : RecValid log (c.recPlace log))
    (h : RecFileSessions m crypto log upToError beforeError c got c') :
    AllShown got.flatten ∧ notMaps got.flatten ++ notMaps (recRemaining log (c'.recPlace log)) = notMaps (recRemaining log (c.recPlace log)) := by
  induction h with
  | stop => exact ⟨fun _ h => (nomatch h), rfl⟩
  | @failed c c' got net h ih =>
    have hopt := replicate_keeps_options m crypto c net (not_and_or.1 hk)
    have hpl : (c.replicate m crypto net).2.recPlace log = c.recPlace log := by unfold Client.recPlace; rw [hopt]
    have := ih (by rw [hopt]; exact hs) (by rw [hopt]; exact hk) (by rw [hpl]; exact hv)
    rwa [hpl] at this
  | @session c c1 c2 c' real got chan stream items hf hr hsess hc h ih =>
    obtain ⟨taken, q, rfl, hserve⟩ := hsess.served hs hk hf hr
    obtain ⟨-, q', hserve'⟩ := recServe_beforeError hserve
    rw [upToError_items] at hc
    obtain ⟨h1, h2, h3, front, tms, h4, h5, h6, h7⟩ := recServed_step hl hs hk hv hr hserve' hc
    obtain ⟨ih1, ih2⟩ := ih h1 h2 h3
    refine ⟨?_, ?_⟩
    · rw [List.flatten_cons]
      intro r hr'
      exact (List.mem_append.1 hr').elim (beforeError_shown real r) (ih1 r)
    · rw [List.flatten_cons, notMaps_append, List.append_assoc, ih2, h7, h6, notMaps_append, notMaps_append,
        notMaps_skipped h5 fun r hr' => beforeError_shown real r (by rw [h4]; exact List.mem_append_right _ hr'), List.nil_append]

/-! ## Applications that pass over errors -/

/-- **C128** by file and position. An application that passes over all errors gets, over any number of sessions and failed attempts, every event that a record
of the log shows once and in order (table maps left out). -/
theorem C128_file_shown_once {m : Mode} {crypto : Crypto} {log : RecLog} (hl : RecLogOk log) {c c' : Client} {got : List (List Rec)}
    (hs : c.options.binlog.startingStrategy ≠ .fromGtid) (hk : ¬wantsEnd c.options) (hv : RecValid log (c.recPlace log))
    (h : RecFileSessions m crypto log passOver id c got c') :
    shownEvents (notMaps got.flatten) ++ shownEvents (notMaps (recRemaining log (c'.recPlace log))) =
      shownEvents (notMaps (recRemaining log (c.recPlace log))) := by
  induction h with
  | stop => rfl
  | @failed c c' got net h ih =>
    have hopt := replicate_keeps_options m crypto c net (not_and_or.1 hk)
    have hpl : (c.replicate m crypto net).2.recPlace log = c.recPlace log := by unfold Client.recPlace; rw [hopt]
    have := ih (by rw [hopt]; exact hs) (by rw [hopt]; exact hk) (by rw [hpl]; exact hv)
    rwa [hpl] at this
  | @session c c1 c2 c' real got chan stream items hf hr hsess hc h ih =>
    obtain ⟨taken, q, rfl, hserve⟩ := hsess.served hs hk hf hr
    rw [passOver_shown] at hc
    obtain ⟨h1, h2, h3, front, tms, h4, h5, h6, h7⟩ := recServed_step hl hs hk hv hr hserve hc
    have ih := ih h1 h2 h3
    rw [List.flatten_cons, notMaps_append, shownEvents_append, List.append_assoc, ih, h7, h6, notMaps_append, shownEvents_append, notMaps_append,
      shownEvents_append, shown_skipped h5, List.nil_append]
    rfl

/-- **C128** by file and position: the records passed over are lost for good. After a session in which the records `real` of the log came, the log from the
recorded place on is what had not been sent, and before it, of the last records of `real`, at most table maps and records that show errors. -/
theorem C128_file_lost_for_good {m : Mode} {crypto : Crypto} {log : RecLog} (hl : RecLogOk log) {c c1 c2 : Client} {real : List Rec} {chan : Channel}
    {stream : BinlogEvents} {items : List Item} (hs : c.options.binlog.startingStrategy ≠ .fromGtid) (hk : ¬wantsEnd c.options)
    (hv : RecValid log (c.recPlace log)) (hf : FitsRequests c.options) (hr : c.replicate m crypto (.ok chan) = (.ok stream, c1))
    (hsess : RecFileSession m log stream items real) (hc : commitAll m c1 (passOver items) = .ok c2) :
    ∃ front again later, real = front ++ again ∧ (∀ r ∈ again, Skipped r) ∧ recRemaining log (c.recPlace log) = real ++ later ∧
      recRemaining log (c2.recPlace log) = again ++ later := by
  obtain ⟨taken, q, rfl, hserve⟩ := hsess.served hs hk hf hr
  rw [passOver_shown] at hc
  obtain ⟨-, -, -, front, tms, h4, h5, h6, h7⟩ := recServed_step hl hs hk hv hr hserve hc
  exact ⟨front, tms, _, h4, h5, h6, h7⟩

/-! ## Sessions with such a server -/

theorem recServe_take {log : RecLog} {p q : Place} {sent real : List Rec} (h : RecServe log p q sent real) (k : Nat) :
    ∃ q' real', RecServe log p q' (sent.take k) real' ∧ (sent.length ≤ k → real' = real) := by
  have step : ∀ {q q2 : Place} {sent real real2 : List Rec} {r : Rec}, RecServe log p q2 (sent ++ [r]) real2 →
      (∃ q' real', RecServe log p q' (sent.take k) real' ∧ (sent.length ≤ k → real' = real)) →
      ∃ q' real', RecServe log p q' ((sent ++ [r]).take k) real' ∧ ((sent ++ [r]).length ≤ k → real' = real2) := by
    intro q q2 sent real real2 r h ih
    rcases Nat.lt_or_ge k (sent ++ [r]).length with hk | hk
    · obtain ⟨q', real', h1, -⟩ := ih
      refine ⟨q', real', ?_, fun h => absurd h (by omega)⟩
      rw [List.length_append, List.length_singleton] at hk
      rw [List.take_append_of_le_length (by omega)]
      exact h1
    · exact ⟨q2, real2, by rw [List.take_of_length_le hk]; exact h, fun _ => rfl⟩
  induction h with
  | start => exact ⟨p, [], by rw [List.take_nil]; exact .start, fun _ => rfl⟩
  | @record q sent real r hs hst ih => exact step (q := q) (hs.record hst) ih
  | @artificial q sent real e hs h1 h2 ih => exact step (q := q) (hs.artificial h1 h2) ih
  | @heartbeat q sent real h x hs h1 ih => exact step (q := q) (hs.heartbeat h1) ih
  | @announce q sent real h hs h1 ih => exact step (q := q) (hs.announce h1) ih
  | @nextFile sent real h pre post f g hl hs ih => exact step (q := q) (hs.nextFile hl) ih

/-- With a conforming server that lets the client in and serves its log from the place it is asked for, the application can take any number of items. -/
theorem recFile_session (m : Mode) (c : Crypto) (client : Client) (chan : Channel) (hu : Usable c client.options)
    (hw : chan.writes = []) (mariaDb : Prop) (checksum : ChecksumType) (bytes : Bytes)
    (hin : LetsIn c client.options mariaDb none checksum bytes) (hs : client.options.binlog.startingStrategy ≠ .fromGtid)
    (hk : ¬wantsEnd client.options) (log : RecLog) (q : Place) (sent real : List Rec)
    (hserve : RecServe log (client.recPlace log) q sent real)
    (slices : List Bytes) (st : LogState) (hbytes : RecordsOf (.start checksum) sent slices st)
    (hsize : ∀ x ∈ slices, x.length < 2 ^ 24 - 20) (n : Nat) (rest : Bytes)
    (hi : chan.input = bytes ++ frames (recPackets n sent slices) ++ rest) :
    ∃ stream, client.replicate m c (.ok chan) = (.ok stream, client.afresh) ∧ (∃ stream', stream.Yields m (sent.map Rec.item) stream') ∧
      ∀ k, ∃ real', RecFileSession m log stream ((sent.take k).map Rec.item) real' ∧ (sent.length ≤ k → real' = real) := by
  cases hin with
  | @mk g greeting way key packets replies oks hg hversion hlen hknown hway haccepts hkey hmaria hanswers hoks =>
    obtain ⟨stream, client', h1, h2, -, h3, rfl⟩ := C73_replicate_partial m c client chan hu.login hu.requests g (.inl hu.plain) hw greeting hg
      hversion hlen hknown way hway key packets haccepts hkey none (by simpa using fun h => (not_and.1 hk) h) checksum oks replies hanswers
      (by rw [← hmaria]; exact hoks) (fun h => absurd h hs) (frames (recPackets n sent slices) ++ rest) (by rw [hi, List.append_assoc])
    obtain ⟨stream', h7, -, -⟩ := Knows.records hbytes m stream (by rw [h3]; exact Knows.start checksum) n rest hsize h2
    refine ⟨stream, h1, ⟨stream', h7⟩, fun k => ?_⟩
    obtain ⟨t, p, maria, g1, -, g2, -, -⟩ := asks_recorded (small_fits hu.requests) h1 hk
    obtain ⟨q', real', h4, h5⟩ := recServe_take hserve k
    have hb : RecordsOf (.start stream.parser.checksumType) sent slices st := by rw [h3]; exact hbytes
    obtain ⟨stream1, h8⟩ := h7.take k
    rw [← List.map_take] at h8
    refine ⟨real', .mk g1 (g2 (.inl hs)) (q := q') ?_ hb hsize h2 h8 (by simp), h5⟩
    rw [List.length_map, List.length_take, Nat.min_comm, ← List.take_take, List.take_of_length_le (by rw [List.length_take]; exact Nat.min_le_right _ _)]
    exact h4

/-- **C127** by file and position, what holds: when a conforming server lets the client in and sends records, and the application takes and commits all up to
the first error, the recorded place is where the first record stands that shows an error (or what has not been sent, if none does), or before it by table
maps. Missing: this record and all behind it, see `C127_file_never_past`. -/
theorem C127_file_reaches_partial (m : Mode) (c : Crypto) (client : Client) (chan : Channel) (hu : Usable c client.options)
    (hw : chan.writes = []) (mariaDb : Prop) (checksum : ChecksumType) (bytes : Bytes)
    (hin : LetsIn c client.options mariaDb none checksum bytes) (hs : client.options.binlog.startingStrategy ≠ .fromGtid)
    (hk : ¬wantsEnd client.options) {log : RecLog} (hl : RecLogOk log) (hv : RecValid log (client.recPlace log)) (q : Place) (sent real : List Rec)
    (hserve : RecServe log (client.recPlace log) q sent real)
    (slices : List Bytes) (st : LogState) (hbytes : RecordsOf (.start checksum) sent slices st)
    (hsize : ∀ x ∈ slices, x.length < 2 ^ 24 - 20) (n : Nat) (rest : Bytes)
    (hi : chan.input = bytes ++ frames (recPackets n sent slices) ++ rest) :
    ∃ stream client' tms later, client.replicate m c (.ok chan) = (.ok stream, client.afresh) ∧
      (∃ stream', stream.Yields m (sent.map Rec.item) stream') ∧ commitAll m client.afresh (upToError (sent.map Rec.item)) = .ok client' ∧
      RecFileSessions m c log upToError beforeError client [beforeError real] client' ∧
      recRemaining log (client.recPlace log) = beforeError real ++ later ∧ recRemaining log (client'.recPlace log) = tms ++ later ∧
      ∀ r ∈ tms, ∃ e, r.2 = .ok e ∧ IsTableMap e := by
  obtain ⟨stream, h1, h2, h3⟩ := recFile_session m c client chan hu hw mariaDb checksum bytes hin hs hk log q sent real hserve slices st hbytes hsize n rest hi
  obtain ⟨real', h4, h5⟩ := h3 sent.length
  obtain rfl := h5 (Nat.le_refl _)
  rw [List.take_of_length_le (Nat.le_refl _)] at h4
  obtain ⟨client', h6, -⟩ := commitAll_ok m client.afresh hs (upToError (sent.map Rec.item))
  obtain ⟨-, q', hserve'⟩ := recServe_beforeError hserve
  obtain ⟨-, -, -, front, tms, g1, g2, g3, g4⟩ := recServed_step hl hs hk hv h1 hserve' (by rw [← upToError_items]; exact h6)
  refine ⟨stream, client', tms, _, h1, h2, h6, .session (small_fits hu.requests) h1 h4 h6 .stop, g3, g4, fun r hr => ?_⟩
  obtain ⟨e, he⟩ := beforeError_shown real' r (by rw [g1]; exact List.mem_append_right _ hr)
  exact ⟨e, he, g2 r hr e he⟩

/-- **C128** by file and position, what holds: such sessions come about. When a conforming server lets the client in and sends records, and the application takes
and commits all the events it is given, nothing that was sent will come again but table maps and records that show errors, at the end. Missing: the
records that show errors and do not stand at the end, see `C128_file_lost_for_good`. -/
theorem C128_file_session_partial (m : Mode) (c : Crypto) (client : Client) (chan : Channel) (hu : Usable c client.options)
    (hw : chan.writes = []) (mariaDb : Prop) (checksum : ChecksumType) (bytes : Bytes)
    (hin : LetsIn c client.options mariaDb none checksum bytes) (hs : client.options.binlog.startingStrategy ≠ .fromGtid)
    (hk : ¬wantsEnd client.options) {log : RecLog} (hl : RecLogOk log) (hv : RecValid log (client.recPlace log)) (q : Place) (sent real : List Rec)
    (hserve : RecServe log (client.recPlace log) q sent real)
    (slices : List Bytes) (st : LogState) (hbytes : RecordsOf (.start checksum) sent slices st)
    (hsize : ∀ x ∈ slices, x.length < 2 ^ 24 - 20) (n : Nat) (rest : Bytes)
    (hi : chan.input = bytes ++ frames (recPackets n sent slices) ++ rest) :
    ∃ stream client' front again later, client.replicate m c (.ok chan) = (.ok stream, client.afresh) ∧
      (∃ stream', stream.Yields m (sent.map Rec.item) stream') ∧ commitAll m client.afresh (passOver (sent.map Rec.item)) = .ok client' ∧
      RecFileSessions m c log passOver id client [real] client' ∧ real = front ++ again ∧ (∀ r ∈ again, Skipped r) ∧
      recRemaining log (client.recPlace log) = real ++ later ∧ recRemaining log (client'.recPlace log) = again ++ later := by
  obtain ⟨stream, h1, h2, h3⟩ := recFile_session m c client chan hu hw mariaDb checksum bytes hin hs hk log q sent real hserve slices st hbytes hsize n rest hi
  obtain ⟨real', h4, h5⟩ := h3 sent.length
  obtain rfl := h5 (Nat.le_refl _)
  rw [List.take_of_length_le (Nat.le_refl _)] at h4
  obtain ⟨client', h6, -⟩ := commitAll_ok m client.afresh hs (passOver (sent.map Rec.item))
  obtain ⟨-, -, -, front, tms, g1, g2, g3, g4⟩ := recServed_step hl hs hk hv h1 hserve (by rw [← passOver_shown]; exact h6)
  exact ⟨stream, client', front, tms, _, h1, h2, h6, .session (keep := id) (small_fits hu.requests) h1 h4 h6 .stop, g1, g2, g3, g4⟩

/-! ## A log with text in Latin-1

A table map, a row with Latin-1 text and one without inserted, XID; then XID of another transaction. -/

def exAt (type next : Nat) : EventHeader := ⟨0, type, 1, 0, next, 0⟩

def exSpoiltFile : RecLog :=
  [⟨"bin.1".toList, [(exAt 19 150, .ok (.tableMap exTextTable)), (exAt 30 200, .error .fromUtf8), (exAt 16 250, .ok (.xid ⟨7⟩)),
    (exAt 16 300, .ok (.xid ⟨8⟩))]⟩]

theorem exSpoiltFile_ok : RecLogOk exSpoiltFile where
  names := by decide
  named := by simp [exSpoiltFile]
  chain := by
    intro f hf
    obtain rfl := List.mem_singleton.1 hf
    simp [RecChain, exAt]
  rotate := by
    intro pre f post a r b x h1 h2 h3
    rcases pre with _ | ⟨_, pre⟩
    · simp only [exSpoiltFile, List.nil_append, List.cons.injEq] at h1
      obtain ⟨rfl, rfl⟩ := h1
      rcases a with _ | ⟨_, _ | ⟨_, _ | ⟨_, _ | ⟨_, a⟩⟩⟩⟩ <;> simp only [List.nil_append, List.cons_append, List.cons.injEq] at h2
      · obtain ⟨rfl, _⟩ := h2; simp at h3
      · obtain ⟨_, rfl, _⟩ := h2; simp at h3
      · obtain ⟨_, _, rfl, _⟩ := h2; simp at h3
      · obtain ⟨_, _, _, rfl, _⟩ := h2; simp at h3
      · simp at h2
    · simp [exSpoiltFile] at h1

def exSpoiltSent : List Rec :=
  [(exAt 4 0, .ok (.rotate ⟨"bin.1".toList, 4⟩)), (exAt 19 150, .ok (.tableMap exTextTable)), (exAt 30 200, .error .fromUtf8),
    (exAt 16 250, .ok (.xid ⟨7⟩)), (exAt 16 300, .ok (.xid ⟨8⟩))]

theorem exSpoiltFile_served : ∃ q, RecServe exSpoiltFile ⟨"bin.1".toList, 4⟩ q exSpoiltSent (exSpoiltSent.drop 1) :=
  ⟨_, (((((RecServe.start (log := exSpoiltFile) (p := ⟨"bin.1".toList, 4⟩)).announce (h := exAt 4 0) (.inl rfl)).record
    (r := (exAt 19 150, .ok (.tableMap exTextTable))) ⟨_, List.mem_cons_self, rfl, [], _, rfl, rfl⟩).record
    (r := (exAt 30 200, .error .fromUtf8)) ⟨_, List.mem_cons_self, rfl, [_], _, rfl, rfl⟩).record
    (r := (exAt 16 250, .ok (.xid ⟨7⟩))) ⟨_, List.mem_cons_self, rfl, [_, _], _, rfl, rfl⟩).record
    (r := (exAt 16 300, .ok (.xid ⟨8⟩))) ⟨_, List.mem_cons_self, rfl, [_, _, _], _, rfl, rfl⟩⟩

theorem exSpoiltFile_written : ∃ slices st, RecordsOf (.start .crc32) exSpoiltSent slices st ∧ ∀ x ∈ slices, x.length < 2 ^ 24 - 20 := by
  have hrow : InTurn ShownRow [[.value (.text [0xE9]), .null], [.value (.text [111, 107]), .value (.value (.time ⟨1, 2, 3, 0⟩))]] (.error .fromUtf8) :=
    .here (.refused (.here (.refused (.noText fun s hs => exLatin_no ⟨s, hs⟩))))
  exact ⟨_, _, .event (e := (exAt 4 0, .rotate ⟨"bin.1".toList, 4⟩)) (by unfold HeaderFits; decide)
      (.plain (.rotate (name := "bin.1".toList) (position := 4) (by decide)) (exSums _))
    (.event (e := (exAt 19 150, .tableMap exTextTable)) (by unfold HeaderFits; decide)
      (.tableMap (columns := [(15, 20), (19, 0)]) rfl exTextMap_body (exSums _) (.inl ⟨rfl, rfl⟩))
    (.refused (h := exAt 30 200) (by unfold HeaderFits; decide)
      (.rows (version := 2) (columns := [(15, 20), (19, 0)]) (.inr ⟨rfl, .inl rfl⟩) rfl (by decide) (exText_rows (.cons exText_latin (.cons exText_fine .nil)))
        (exSums _) hrow)
    (.event (e := (exAt 16 250, .xid ⟨7⟩)) (by unfold HeaderFits; decide) (.plain (.xid (xid := 7) (extra := []) (by decide)) (exSums _))
    (.event (e := (exAt 16 300, .xid ⟨8⟩)) (by unfold HeaderFits; decide) (.plain (.xid (xid := 8) (extra := []) (by decide)) (exSums _)) .nil)))),
    by decide +kernel⟩

/-- **C127** is false by file and position, too: after a whole session, and after any sessions whatever, all of the log is still to come. -/
theorem C127_file_false (m : Mode) :
    (∃ c', RecFileSessions m exCrypto exSpoiltFile upToError beforeError exStartUser [[(exAt 19 150, .ok (.tableMap exTextTable))]] c') ∧
    ∀ got c', RecFileSessions m exCrypto exSpoiltFile upToError beforeError exStartUser got c' →
      notMaps got.flatten = [] ∧ notMaps (recRemaining exSpoiltFile (c'.recPlace exSpoiltFile)) = exSpoiltSent.drop 2 := by
  obtain ⟨q, s1⟩ := exSpoiltFile_served
  obtain ⟨slices, st, w1, w2⟩ := exSpoiltFile_written
  have hv : RecValid exSpoiltFile (exStartUser.recPlace exSpoiltFile) := ⟨_, List.mem_cons_self, rfl, [], _, rfl, rfl⟩
  constructor
  · obtain ⟨stream, c', tms, later, -, -, -, h, -⟩ := C127_file_reaches_partial m exCrypto exStartUser { exChannel [] with input := _ }
      (exPlaceUser_usable 4 (by decide) [] (by decide)) rfl False .crc32 _ (exGtidUser_in _) (by decide) (by unfold wantsEnd; decide) exSpoiltFile_ok hv q
      exSpoiltSent (exSpoiltSent.drop 1) s1 slices st w1 w2 1 [] rfl
    exact ⟨c', h⟩
  · intro got c' h
    obtain ⟨h1, h2⟩ := C127_file_never_past exSpoiltFile_ok (by decide) (by unfold wantsEnd; decide) hv h
    have e : notMaps (recRemaining exSpoiltFile (exStartUser.recPlace exSpoiltFile)) = exSpoiltSent.drop 2 := by with_unfolding_all rfl
    rw [e] at h2
    have hnil : notMaps got.flatten = [] := by
      cases hg : notMaps got.flatten with
      | nil => rfl
      | cons r rs =>
        rw [hg] at h2
        have hr : r = (exAt 30 200, .error .fromUtf8) := (List.cons.inj h2).1
        have hmem : r ∈ got.flatten := (List.mem_filter.1 (by rw [← notMaps, hg]; exact List.mem_cons_self)).1
        obtain ⟨x, hx⟩ := h1 r hmem
        rw [hr] at hx
        cases hx
    rw [hnil] at h2
    exact ⟨hnil, h2⟩

/-- **C128** is false by file and position, too: after a whole session nothing of the log is to come any more, and the record of the rows has not been shown. -/
theorem C128_file_false (m : Mode) : ∃ c', RecFileSessions m exCrypto exSpoiltFile passOver id exStartUser [exSpoiltSent.drop 1] c' ∧
    recRemaining exSpoiltFile (c'.recPlace exSpoiltFile) = [] ∧ (exAt 30 200, Except.error Err.fromUtf8) ∈ exSpoiltSent.drop 1 := by
  obtain ⟨q, s1⟩ := exSpoiltFile_served
  obtain ⟨slices, st, w1, w2⟩ := exSpoiltFile_written
  have hv : RecValid exSpoiltFile (exStartUser.recPlace exSpoiltFile) := ⟨_, List.mem_cons_self, rfl, [], _, rfl, rfl⟩
  obtain ⟨stream, c', front, again, later, -, -, -, h, h1, h2, h3, h4⟩ := C128_file_session_partial m exCrypto exStartUser { exChannel [] with input := _ }
    (exPlaceUser_usable 4 (by decide) [] (by decide)) rfl False .crc32 _ (exGtidUser_in _) (by decide) (by unfold wantsEnd; decide) exSpoiltFile_ok hv q
    exSpoiltSent (exSpoiltSent.drop 1) s1 slices st w1 w2 1 [] rfl
  refine ⟨c', h, ?_, by simp [exSpoiltSent]⟩
  have e : recRemaining exSpoiltFile (exStartUser.recPlace exSpoiltFile) = exSpoiltSent.drop 1 := by with_unfolding_all rfl
  have hlater : later = [] := by
    rw [e] at h3
    have := congrArg List.length h3
    rw [List.length_append] at this
    exact List.length_eq_zero_iff.1 (by omega)
  rw [h4, hlater, List.append_nil]
  rcases List.eq_nil_or_concat again with rfl | ⟨again', r, rfl⟩
  · rfl
  · have hr : r = (exAt 16 300, .ok (.xid ⟨8⟩)) := by
      have := congrArg List.getLast? h1
      rw [List.concat_eq_append, ← List.append_assoc, List.getLast?_concat] at this
      exact (Option.some.inj this).symm
    exact (h2 r (by simp) (.xid ⟨8⟩) (by rw [hr])).elim

/-- The hypotheses of the theorems above are met by this log and these sessions. -/
example (m : Mode) : RecLogOk exSpoiltFile ∧ exStartUser.options.binlog.startingStrategy ≠ .fromGtid ∧ ¬wantsEnd exStartUser.options ∧
    RecValid exSpoiltFile (exStartUser.recPlace exSpoiltFile) ∧ (∃ q, RecServe exSpoiltFile (exStartUser.recPlace exSpoiltFile) q exSpoiltSent (exSpoiltSent.drop 1)) ∧
    (∃ got c', RecFileSessions m exCrypto exSpoiltFile upToError beforeError exStartUser got c') ∧
    (∃ got c', RecFileSessions m exCrypto exSpoiltFile passOver id exStartUser got c') :=
  ⟨exSpoiltFile_ok, by decide, by unfold wantsEnd; decide, ⟨_, List.mem_cons_self, rfl, [], _, rfl, rfl⟩, exSpoiltFile_served,
    ⟨_, (C127_file_false m).1⟩, ⟨_, (C128_file_false m).imp fun _ h => h.1⟩⟩

end MysqlCdc
