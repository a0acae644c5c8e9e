import Verif.Lemmas.DialogueRuns
import Verif.Lemmas.ExampleServer
/-!
C84: everything the client sends while it sets up replication, and when it succeeds.
-/

namespace MysqlCdc

open Spec

/-- At the stage, having come from the client `c0`, the trace `base` and the input `input0`. -/
def Told (m : Mode) (c : Crypto) (c0 : Client) (base : List Packet) (input0 : Bytes) (st : Stage) (s : Sess) : Prop :=
  s.client = st.client c0 ∧ ∃ t, s.chan.trace = base ++ t ∧ At m c c0.options st t ∧ input0 = frames (receivedOf t) ++ s.chan.input

/-- At the stage one more packet has been received. -/
def Heard (m : Mode) (c : Crypto) (c0 : Client) (base : List Packet) (input0 : Bytes) (st : Stage) (x : Bytes × Nat) (s : Sess) : Prop :=
  x.2 < 2 ^ 8 ∧ s.client = st.client c0 ∧ ∃ t, s.chan.trace = base ++ (t ++ [.received x.2 x.1]) ∧ At m c c0.options st t ∧
    input0 = frames (receivedOf (t ++ [.received x.2 x.1])) ++ s.chan.input

def TalkBegan (m : Mode) (c : Crypto) (c0 : Client) (base : List Packet) (s : Sess) : Prop :=
  ∃ t, s.chan.trace = base ++ t ∧ Began m c c0.options t

section
variable {m : Mode} {c : Crypto} {c0 : Client} {base : List Packet} {input0 : Bytes}

theorem Told.stopped {st : Stage} {s : Sess} (h : Told m c c0 base input0 st s) : TalkBegan m c c0 base s := by
  obtain ⟨-, t, h1, h2, -⟩ := h
  exact ⟨t, h1, st, .inl h2⟩

theorem Heard.stopped {st : Stage} {x : Bytes × Nat} {s : Sess} (h : Heard m c c0 base input0 st x s) : TalkBegan m c c0 base s := by
  obtain ⟨-, -, t, h1, h2, -⟩ := h
  exact ⟨_, h1, st, .inr ⟨t, _, _, rfl, h2⟩⟩

theorem told_read {st : Stage} : Holds (Told m c c0 base input0 st) S.readPacket (fun x => Heard m c c0 base input0 st x)
    (fun _ => TalkBegan m c c0 base) := by
  intro s hs
  have hst := hs.stopped
  obtain ⟨h0, t, h1, h2, h3⟩ := hs
  unfold S.readPacket
  rcases hr : s.chan.readPacket with ⟨r, ch⟩
  cases r with
  | ok x =>
    obtain ⟨p, n⟩ := x
    obtain ⟨-, hn, rest, hi, rfl⟩ := readPacket_inv hr
    refine ⟨hn, h0, t, by simp [h1], h2, ?_⟩
    rw [h3, hi, receivedOf_append, frames_append]
    simp [receivedOf, frames]
  | err e => obtain ⟨-, rfl⟩ := readPacket_fail hr (by simp); exact hst
  | panic => obtain ⟨-, rfl⟩ := readPacket_fail hr (by simp); exact hst
  | hang => obtain ⟨-, rfl⟩ := readPacket_fail hr (by simp); exact hst

theorem told_write {st st' : Stage} {p : Bytes} {k : Nat} (hc : st'.client c0 = st.client c0)
    (h : ∀ t, At m c c0.options st t → At m c c0.options st' (t ++ [.sent k p])) :
    Holds (Told m c c0 base input0 st) (S.writePacket p k) (fun _ => Told m c c0 base input0 st') (fun _ => TalkBegan m c c0 base) := by
  rintro s ⟨h0, t, h1, h2, h3⟩
  unfold S.writePacket
  obtain ⟨out, ws, hw⟩ := writePacket_frame s.chan p k
  rcases hr : s.chan.writePacket p k with ⟨r, ch⟩
  rw [hr] at hw
  simp only at hw
  subst hw
  have hst : Told m c c0 base input0 st'
      ⟨s.client, { s.chan with output := out, writes := ws, trace := s.chan.trace ++ [.sent k p] }⟩ := by
    refine ⟨by rw [hc]; exact h0, _, by simp [h1], h t h2, ?_⟩
    rw [receivedOf_append]
    simpa [receivedOf] using h3
  cases r with
  | ok u => exact hst
  | err e => exact hst.stopped
  | panic => exact hst.stopped
  | hang => exact hst.stopped

theorem told_lift {α : Type} {st : Stage} (r : Res α) : Holds (Told m c c0 base input0 st) (S.lift r)
    (fun a s => r = .ok a ∧ Told m c c0 base input0 st s) (fun _ => TalkBegan m c c0 base) :=
  Holds.lift r fun _ _ h => h.stopped

theorem heard_lift {α : Type} {st : Stage} {x : Bytes × Nat} (r : Res α) : Holds (Heard m c c0 base input0 st x) (S.lift r)
    (fun a s => r = .ok a ∧ Heard m c c0 base input0 st x s) (fun _ => TalkBegan m c c0 base) :=
  Holds.lift r fun _ _ h => h.stopped

theorem told_client {β : Type} {st : Stage} {f : Client → S β} {R : β → Sess → Prop}
    (h : Holds (Told m c c0 base input0 st) (f (st.client c0)) R (fun _ => TalkBegan m c c0 base)) :
    Holds (Told m c c0 base input0 st) (S.client >>= f) R (fun _ => TalkBegan m c c0 base) := by
  intro s hs
  rw [S.bind_eq]
  simp only [S.client]
  rw [hs.1]
  exact h s hs

/-- A received packet that leads to a new stage. -/
theorem Heard.told {st st' : Stage} {x : Bytes × Nat} {s : Sess} (h : Heard m c c0 base input0 st x s)
    (hc : st'.client c0 = st.client c0)
    (ha : ∀ t, x.2 < 2 ^ 8 → At m c c0.options st t → At m c c0.options st' (t ++ [.received x.2 x.1])) :
    Told m c c0 base input0 st' s := by
  obtain ⟨hn, h0, t, h1, h2, h3⟩ := h
  exact ⟨by rw [hc]; exact h0, _, h1, ha t hn h2, h3⟩

/-- A stage that is reached without a packet. -/
theorem Told.step {st st' : Stage} {s : Sess} (h : Told m c c0 base input0 st s) (hc : st'.client c0 = st.client c0)
    (ha : ∀ t, At m c c0.options st t → At m c c0.options st' t) : Told m c c0 base input0 st' s := by
  obtain ⟨h0, t, h1, h2, h3⟩ := h
  exact ⟨by rw [hc]; exact h0, t, h1, ha t h2, h3⟩

theorem told_holds {α : Type} {st st' : Stage} {p : S α} {R : α → Sess → Prop}
    (h : Holds (Told m c c0 base input0 st') p R (fun _ => TalkBegan m c c0 base)) (hc : st'.client c0 = st.client c0)
    (ha : ∀ t, At m c c0.options st t → At m c c0.options st' t) :
    Holds (Told m c c0 base input0 st) p R (fun _ => TalkBegan m c c0 base) := h.pre fun _ hs => hs.step hc ha

theorem heard_holds {α : Type} {st st' : Stage} {x : Bytes × Nat} {p : S α} {R : α → Sess → Prop}
    (h : Holds (Told m c c0 base input0 st') p R (fun _ => TalkBegan m c c0 base)) (hc : st'.client c0 = st.client c0)
    (ha : ∀ t, x.2 < 2 ^ 8 → At m c c0.options st t → At m c c0.options st' (t ++ [.received x.2 x.1])) :
    Holds (Heard m c c0 base input0 st x) p R (fun _ => TalkBegan m c c0 base) := h.pre fun _ hs => hs.told hc ha

/-- The number to answer with. -/
theorem heard_next {β : Type} {st : Stage} {x : Bytes × Nat} {f : Nat → S β} {R : β → Sess → Prop}
    (h : ∀ k, NextNumber m x.2 k → Holds (Heard m c c0 base input0 st x) (f k) R (fun _ => TalkBegan m c c0 base)) :
    Holds (Heard m c c0 base input0 st x) (S.lift (addU m 8 x.2 1) >>= f) R (fun _ => TalkBegan m c c0 base) :=
  .bind (heard_lift _) fun k s hs => h k ((next_iff hs.2.1).1 hs.1) s hs.2

/-! ## Logging in -/

theorem told_sha2 {g : HandshakePacket} {q : Bytes} {scramble : RStr} {k : Nat} :
    Holds (Told m c c0 base input0 (.sha2 g scramble q k)) (authenticateSha256 m c q scramble k false)
      (fun _ => Told m c c0 base input0 (.loggedIn g)) (fun _ => TalkBegan m c c0 base) := by
  refine .bind (told_lift _) fun done => .assume fun hd => ?_
  obtain ⟨h1, h2, h3⟩ := fast_iff.1 hd
  cases done with
  | true =>
    obtain ⟨rest, rfl⟩ := h3.1 rfl
    exact .ret fun s hs => hs.step rfl fun t ht => .fast ht
  | false =>
    have h4 : ∀ rest, q ≠ 1 :: 3 :: rest := fun rest hr => by simpa using h3.2 ⟨rest, hr⟩
    refine told_client ?_
    refine .bind (told_write (st' := .keyAsked g scramble) rfl fun t ht => .askKey ht ⟨h2, h4⟩) fun _ => ?_
    refine .bind told_read fun x => .bind (heard_lift _) fun _ => .assume fun he => .bind (heard_lift _) fun body => .assume fun hb => ?_
    refine heard_next fun k' hk => ?_
    obtain ⟨b, key, hq, hne⟩ := check_iff.1 he
    obtain ⟨y, hm, hs, hr⟩ := rsa_iff.1 hb
    refine heard_holds (st' := .keyed g body k') ?_ rfl fun t _ ht => ?_
    · refine .bind (told_write (st' := .proved g) rfl fun t ht => .password ht) fun _ => .bind told_read fun x => ?_
      exact (heard_lift _).post fun _ s hs => hs.2.told rfl fun t _ ht => .proof ht (check_iff.1 hs.1)
    · rw [hq] at hr ⊢
      exact .key ht hne hm hs hr hk

theorem told_switch {g : HandshakePacket} {sw : AuthPluginSwitchPacket} {k : Nat} :
    Holds (Told m c c0 base input0 (.switching g sw k)) (handleAuthPluginSwitch m c sw k false)
      (fun _ => Told m c c0 base input0 (.loggedIn g)) (fun _ => TalkBegan m c c0 base) := by
  refine .bind (told_lift _) fun plugin => .assume fun hp => told_client <| .bind (told_lift _) fun command => .assume fun hc => ?_
  refine .bind (told_write (st' := .switched g sw) rfl fun t ht => .answer ht (auth_iff.2 ⟨plugin, hp, hc⟩)) fun _ => ?_
  refine .bind told_read fun x => .bind (heard_lift _) fun _ => .assume fun he => .ite (fun hm => ?_) fun hm => ?_
  · refine heard_next fun k' hk => heard_holds told_sha2 rfl fun t _ ht => .switchedSha2 ht hm (check_iff.1 he) hk
  · exact .ret fun s hs => hs.told rfl fun t _ ht => .native ht hm (check_iff.1 he)

theorem told_ssl {g : HandshakePacket} {k : Nat} :
    Holds (Told m c c0 base input0 (.greeted g k)) (negotiateSsl m g k)
      (fun r s => (r = (false, k) ∧ Plain c0.options g) ∧ Told m c c0 base input0 (.greeted g k) s) (fun _ => TalkBegan m c c0 base) := by
  unfold negotiateSsl
  refine told_client ?_
  simp only [ssl_offered]
  refine .ite (fun hd => ?_) fun hd => .ret fun s hs => ⟨⟨rfl, .inl (not_not.1 hd)⟩, hs⟩
  refine .ite (fun _ => .fail _ fun s hs => hs.stopped) fun hnr => .ite (fun ho => ?_) fun ho => .ret fun s hs => ⟨⟨rfl, .inr ?_⟩, hs⟩
  · rw [ssl_bytes]
    refine .bind (told_write (st' := .encrypting) rfl fun t ht => .encrypt ht hd ho) fun _ =>
      .bind (told_lift _) fun _ => .assume fun _ => fun s hs => hs.stopped
  · have ho' : hasBit g.serverCapabilities 11 = false := by simpa using ho
    refine ⟨?_, ho'⟩
    rw [ho'] at hnr
    change c0.options.sslMode ≠ _ at hd
    change ¬(!false && decide (c0.options.sslMode.code ≥ SslMode.require.code)) = true at hnr
    cases hs : c0.options.sslMode <;> simp [hs, SslMode.code] at hnr hd ⊢

theorem told_authenticate {g : HandshakePacket} {plugin : AuthPlugin} {k : Nat} (hp : getAuthPlugin g.authPluginName = .ok plugin) :
    Holds (Told m c c0 base input0 (.greeted g k)) (authenticate m c g plugin k)
      (fun _ => Told m c c0 base input0 (.loggedIn g)) (fun _ => TalkBegan m c c0 base) := by
  refine .bind told_ssl fun r => .assume fun hr => ?_
  obtain ⟨rfl, hplain⟩ := hr
  refine told_client <| .bind (told_lift _) fun command => .assume fun hc => ?_
  obtain ⟨auth, h1, h2⟩ := response_iff.1 hc
  refine .bind (told_write (st' := .responded g) rfl fun t ht => .respond ht hplain (auth_iff.2 ⟨plugin, hp, h1⟩) h2) fun _ => ?_
  refine .bind told_read fun x => .bind (heard_lift _) fun _ => .assume fun he => .bind (heard_lift _) fun b => .assume fun hb => ?_
  obtain ⟨b', rest, hq, hne⟩ := check_iff.1 he
  obtain rfl : b' = b := by
    rw [hq] at hb
    simpa [byteAt] using hb
  refine .ite (fun h0 => ?_) fun h0 => .ite (fun hf => ?_) fun hf => ?_
  · refine .ret fun s hs => hs.told rfl fun t _ ht => ?_
    rw [hq, h0]
    exact .ok ht
  · refine .bind (heard_lift _) fun sw => .assume fun hsw => heard_next fun k' hk => heard_holds told_switch rfl fun t _ ht => ?_
    rw [hq] at hsw ⊢
    rw [hf]
    exact .switch ht (C83_switch_iff.1 hsw) hk
  · refine heard_next fun k' hk => heard_holds told_sha2 rfl fun t _ ht => ?_
    rw [hq]
    exact .more ht ⟨h0, hf, hne⟩ hk

theorem told_connect : Holds (Told m c c0 base input0 .start) (connect m c)
    (fun provider s => ∃ g, (provider = .mariaDB ↔ IsMariaDb g.serverVersion) ∧ Told m c c0 base input0 (.loggedIn g) s)
    (fun _ => TalkBegan m c c0 base) := by
  refine .bind told_read fun x => .bind (heard_lift _) fun _ => .assume fun he => .bind (heard_lift _) fun g => .assume fun hg =>
    .bind (heard_lift _) fun plugin => .assume fun hp => heard_next fun k hk => ?_
  refine heard_holds (st' := .greeted g k) ?_ rfl fun t _ ht => ?_
  · exact .bind (told_authenticate hp) fun _ => .ret fun s hs => ⟨g, fromServer_maria _, hs⟩
  · cases ht
    exact .greeting (check_iff.1 he) (C83_greeting_iff.1 hg) (known_iff.2 ⟨plugin, hp⟩) hk

/-! ## Requests -/

theorem told_columns {i : Known'} {r : Request} : Holds (Told m c c0 base input0 (.columns i r)) skipMetadata
    (fun _ => Told m c c0 base input0 (.rows i r [])) (fun _ => TalkBegan m c c0 base) := by
  intro s
  induction hk : s.chan.input.length using Nat.strongRecOn generalizing s with
  | _ n ih =>
    intro hs
    rw [skipMetadata]
    have hr := told_read s hs
    revert hr
    rcases S.readPacket s with ⟨res, s'⟩
    cases res with
    | ok x =>
      intro hx
      obtain ⟨packet, num⟩ := x
      cases packet with
      | nil => exact Heard.stopped hx
      | cons b rest =>
        simp only
        split
        · next hb =>
          refine Heard.told hx rfl fun t _ ht => .columnsEnd ht ?_
          rw [hb]
          exact ⟨rest, rfl⟩
        · next hb =>
          have ht : Told m c c0 base input0 (.columns i r) s' := Heard.told hx rfl fun t _ ht => .column ht (by simp) (by
            rintro ⟨r', h⟩
            simp only [List.cons.injEq] at h
            exact hb h.1)
          split
          · next hl => exact ih _ (hk ▸ hl) s' rfl ht
          · exact ht.stopped
    | err e => exact fun h => h
    | panic => exact fun h => h
    | hang => exact fun h => h

theorem told_rows {i : Known'} {r : Request} {rs : List (List RStr)} : Holds (Told m c c0 base input0 (.rows i r rs)) readRows
    (fun rows => Told m c c0 base input0 (.result i r (rs ++ rows))) (fun _ => TalkBegan m c c0 base) := by
  intro s
  induction hk : s.chan.input.length using Nat.strongRecOn generalizing s rs with
  | _ n ih =>
    intro hs
    rw [readRows]
    have hr := told_read s hs
    revert hr
    rcases S.readPacket s with ⟨res, s'⟩
    cases res with
    | ok x =>
      intro hx
      obtain ⟨packet, num⟩ := x
      simp only
      cases hc : checkErrorPacket packet "Query result set error." with
      | ok u =>
        cases packet with
        | nil => exact Heard.stopped hx
        | cons b rest =>
          simp only
          split
          · next hb =>
            rw [hb] at hx
            refine Heard.told (st' := .result i r (rs ++ [])) hx rfl fun t _ ht => ?_
            rw [List.append_nil]
            exact .rowsEnd ht ⟨rest, rfl⟩
          · next hb =>
            cases hp : parseResultSetRow.run (b :: rest) with
            | ok row =>
              have ht : Told m c c0 base input0 (.rows i r (rs ++ [row])) s' := Heard.told hx rfl fun t _ ht =>
                .row ht (check_iff.1 hc) (by
                  rintro ⟨r', h⟩
                  simp only [List.cons.injEq] at h
                  exact hb h.1) (C83_row_iff.1 hp)
              simp only
              split
              · next hl =>
                have h2 := ih _ (hk ▸ hl) (rs := rs ++ [row]) s' rfl ht
                revert h2
                rcases readRows s' with ⟨res2, s''⟩
                cases res2 with
                | ok rows => intro h2; simpa [Outcome, List.append_assoc] using h2
                | err e => exact fun h => h
                | panic => exact fun h => h
                | hang => exact fun h => h
              · exact ht.stopped
            | err e => exact Heard.stopped hx
            | panic => exact Heard.stopped hx
            | hang => exact Heard.stopped hx
      | err e => exact Heard.stopped hx
      | panic => exact Heard.stopped hx
      | hang => exact Heard.stopped hx
    | err e => exact fun h => h
    | panic => exact fun h => h
    | hang => exact fun h => h

theorem told_result {i : Known'} {r : Request} (hr : r.hasResult) : Holds (Told m c c0 base input0 (.asked i r)) readResultSet
    (fun rows => Told m c c0 base input0 (.result i r rows)) (fun _ => TalkBegan m c c0 base) := by
  refine .bind told_read fun x => .bind (heard_lift _) fun _ => .assume fun he => ?_
  refine heard_holds (st' := .columns i r) ?_ rfl fun t _ ht => .count ht hr (check_iff.1 he)
  exact .bind told_columns fun _ => told_rows

/-- Sending a request. -/
theorem told_ask {i : Known'} {last : Option Request} {r : Request} {p : Bytes} (ho : Order c0.options i.maria last r)
    (hp : Asks c0.options i r p) : Holds (Told m c c0 base input0 (.ready i last)) (S.writePacket p 0)
      (fun _ => Told m c c0 base input0 (.asked i r)) (fun _ => TalkBegan m c c0 base) :=
  told_write rfl fun _ ht => .ask ht ho hp

/-- Reading an answer that is no result set. -/
theorem told_answer {i : Known'} {r : Request} (hr : ¬r.hasResult) (hd : r ≠ .dump) (message : String) :
    Holds (Told m c c0 base input0 (.asked i r)) (do
      let (packet, _) ← S.readPacket
      S.lift (checkErrorPacket packet message)) (fun _ => Told m c c0 base input0 (.ready i (some r))) (fun _ => TalkBegan m c c0 base) :=
  .bind told_read fun _ => (heard_lift _).post fun _ _ hs => hs.2.told rfl fun _ _ ht => .answered ht hr hd (check_iff.1 hs.1)

theorem told_simple {i : Known'} {last : Option Request} {r : Request} {sql : RStr} {message : String}
    (ho : Order c0.options i.maria last r) (hp : Asks c0.options i r (queryCommand sql)) (hr : ¬r.hasResult) (hd : r ≠ .dump) :
    Holds (Told m c c0 base input0 (.ready i last)) (simpleQuery sql message) (fun _ => Told m c c0 base input0 (.ready i (some r)))
      (fun _ => TalkBegan m c c0 base) := .bind (told_ask ho hp) fun _ => told_answer hr hd message

/-- Finding the place to start from. -/
theorem told_adjust {i : Known'} (hi : i.place = (c0.options.binlog.filename, c0.options.binlog.position)) :
    Holds (Told m c c0 base input0 (.ready i none)) adjustStartingPosition
      (fun _ s => ∃ place last, Order c0.options i.maria last .heartbeat ∧
        (c0.options.binlog.startingStrategy = .fromGtid → place = i.place) ∧ (place = i.place ∨ place.2 < 2 ^ 32) ∧
        Told m c c0 base input0 (.ready { i with place } last) s)
      (fun _ => TalkBegan m c c0 base) := by
  have hb : (restarted c0 i.place).options = c0.options := by
    rw [hi]; rfl
  unfold adjustStartingPosition
  refine told_client ?_
  simp only [Stage.client, hb]
  refine .ite (fun hs => ?_) fun hs => .ite (fun hf => ?_) fun hf => ?_
  · exact .ret fun s h => ⟨i.place, none, .heartbeat fun hw => hs hw.1, fun _ => rfl, .inl rfl, h⟩
  · exact .ret fun s h => ⟨i.place, none, .heartbeat fun hw => hf hw.2, fun _ => rfl, .inl rfl, h⟩
  · have hs' := not_not.1 hs
    refine .bind (told_ask (r := .status) (.status ⟨hs', not_not.1 hf⟩) (.status (C55_query _))) fun _ => ?_
    refine .bind (told_result trivial) fun rows => .ite (fun _ => .fail _ fun _ h => h.stopped) fun hl => ?_
    refine .bind (told_lift _) fun file => .assume fun hfile => ?_
    obtain ⟨row, hrow, hfile⟩ := cellAt_iff.1 hfile
    have hrows : rows = [row] := by
      have hl1 : rows.length = 1 := not_not.1 hl
      obtain ⟨a, rfl⟩ := List.length_eq_one_iff.1 hl1
      simpa using hrow
    subst hrows
    -- the file name is set first
    refine .bind (Q := fun _ s => TalkBegan m c c0 base s ∧ ∀ position text more, row = file :: text :: more → Number 32 position text →
        Told m c c0 base input0 (.ready { i with place := (file, position) } (some .status))
          { s with client := restarted c0 (file, position) }) ?_ fun _ => ?_
    · intro s h
      refine ⟨h.stopped, fun position text more hr hn => ?_⟩
      subst hr
      obtain ⟨h0, t, h1, h2, h3⟩ := h
      exact ⟨rfl, t, h1, .end h2 hn, h3⟩
    · refine .bind (Holds.lift _ fun _ _ h => h.1) fun text => .assume fun htext => .bind (Holds.lift _ fun _ _ h => h.1) fun position =>
        .assume fun hp => ?_
      obtain ⟨row', hrow', htext⟩ := cellAt_iff.1 htext
      obtain rfl : row' = row := by simpa using hrow'.symm
      have hn := (number_iff 32 position text).1 hp
      obtain ⟨more, rfl⟩ : ∃ more, row' = file :: text :: more := by
        rcases row' with _ | ⟨a, _ | ⟨b, more⟩⟩
        · cases hfile
        · cases htext
        · cases hfile
          cases htext
          exact ⟨more, rfl⟩
      intro s h
      refine ⟨(file, position), some .status, .heartbeat', fun hg => ?_, .inr hn.1, ?_⟩
      · rw [hs'] at hg; cases hg
      · exact h.2 position text more rfl hn

theorem told_heartbeat {i : Known'} {last : Option Request} (ho : Order c0.options i.maria last .heartbeat) :
    Holds (Told m c c0 base input0 (.ready i last)) setMasterHeartbeat
      (fun _ => Told m c c0 base input0 (.ready i (some .heartbeat))) (fun _ => TalkBegan m c c0 base) := by
  refine told_client ?_
  refine .bind (told_ask (r := .heartbeat) ho (.heartbeat ?_)) fun _ => told_answer (r := .heartbeat) (fun h => h) (by decide) _
  have : (Stage.client c0 (.ready i last)).options.heartbeatInterval / 10 ^ 6 * 1000 * 1000 =
      c0.options.heartbeatInterval / 10 ^ 6 * 10 ^ 6 := by
    show c0.options.heartbeatInterval / 10 ^ 6 * 1000 * 1000 = _
    omega
  simp only [this]
  exact C55_query _

theorem told_checksum {i : Known'} : Holds (Told m c c0 base input0 (.ready i (some .heartbeat))) setMasterBinlogChecksum
    (fun cs => Told m c c0 base input0 (.ready { i with checksum := some cs } (some .getChecksum))) (fun _ => TalkBegan m c c0 base) := by
  refine .bind (told_ask .setChecksum (.setChecksum (C55_query _))) fun _ => .bind told_read fun x => .bind (heard_lift _) fun _ =>
    .assume fun he => heard_holds (st' := .ready i (some .setChecksum)) ?_ rfl fun t _ ht => .answered ht (fun h => h) (by decide)
      (check_iff.1 he)
  refine .bind (told_ask .getChecksum (.getChecksum (C55_query _))) fun _ => .bind (told_result trivial) fun rows =>
    .bind (told_lift _) fun name => .assume fun hn => (told_lift _).post fun cs s hs => hs.2.step rfl fun t ht => ?_
  obtain ⟨row, h1, h2⟩ := cellAt_iff.1 hn
  match rows, row, h1, h2 with
  | r0 :: rest, _, h1, h2 =>
    simp only [List.getElem?_cons_zero, Option.some.injEq] at h1
    subst h1
    match r0, h2 with
    | n0 :: more, h2 =>
      simp only [List.getElem?_cons_zero, Option.some.injEq] at h2
      subst h2
      exact .checksum ht (checksum_iff.1 hs.1)

theorem told_mysql {i : Known'} (hm : i.maria = false) (hf : FitsRequests c0.options) (hp : i.place.2 < 2 ^ 32)
    (hg : c0.options.binlog.startingStrategy = .fromGtid → i.place = (c0.options.binlog.filename, c0.options.binlog.position)) :
    Holds (Told m c c0 base input0 (.ready i (some .getChecksum))) (replicateMysql m (dumpId c0.options))
      (fun _ => Told m c c0 base input0 (.asked i .dump)) (fun _ => TalkBegan m c c0 base) := by
  have hid : dumpId c0.options < 2 ^ 32 := by
    unfold dumpId
    split
    · exact hf.serverId
    · decide
  refine told_client ?_
  refine .ite (fun hs => ?_) fun hs => ?_
  · change c0.options.binlog.startingStrategy = .fromGtid at hs
    cases hset : c0.options.binlog.gtidSet with
    | some set =>
      have hset' : (Stage.client c0 (.ready i (some .getChecksum))).options.binlog.gtidSet = some set := hset
      simp only [hset']
      refine .bind (told_lift _) fun command => .assume fun hc => told_ask (.mysql hm) (.dumpGtid hs hm hset ?_)
      change dumpBinlogGtidCommand m (dumpId c0.options) i.place.1 i.place.2 set = .ok command at hc
      have hfit := hf.gtidSet set hset
      obtain ⟨packet, sets, h6, h7, rfl, -⟩ := C10_dump_request m (dumpId c0.options) i.place.1 i.place.2 set set.uuidSets
        (List.Perm.refl _) hid (by rw [hg hs]; exact hf.filename)
        (Nat.lt_of_lt_of_le hp (Nat.pow_le_pow_right (by decide) (by decide))) hfit.1 hfit.2
      rw [hc, Res.ok.injEq] at h6
      exact h6 ▸ h7
    | none =>
      have hset' : (Stage.client c0 (.ready i (some .getChecksum))).options.binlog.gtidSet = none := hset
      simp only [hset']
      exact .fail _ fun s h => h.stopped
  · exact told_ask (.mysql hm) (.dump (.inl hs) (C55_dump _ _ _ hid hp))

theorem told_mariadb {i : Known'} (hm : i.maria = true) (hf : FitsRequests c0.options) (hp : i.place.2 < 2 ^ 32) :
    Holds (Told m c c0 base input0 (.ready i (some .getChecksum))) (replicateMariadb (dumpId c0.options))
      (fun _ => Told m c c0 base input0 (.asked i .dump)) (fun _ => TalkBegan m c c0 base) := by
  have hid : dumpId c0.options < 2 ^ 32 := by
    unfold dumpId
    split
    · exact hf.serverId
    · decide
  refine .bind (told_simple (.capability hm) (.capability (C55_query _)) (fun h => h) (by decide)) fun _ => told_client ?_
  refine .ite (fun hs => ?_) fun hs => ?_
  · change c0.options.binlog.startingStrategy = .fromGtid at hs
    cases hl : c0.options.binlog.gtidList with
    | some l =>
      have hl' : (Stage.client c0 (.ready i (some .capability))).options.binlog.gtidList = some l := hl
      simp only [hl']
      refine .bind ?_ fun _ => told_ask .dump (.dump (.inr hm) (C55_dump _ _ _ hid hp))
      refine .bind (told_simple (.connectState hs) (.connectState hl ?_) (fun h => h) (by decide)) fun _ =>
        .bind (told_simple .strict (.strict (C55_query _)) (fun h => h) (by decide)) fun _ =>
        .bind (told_simple .duplicates (.duplicates (C55_query _)) (fun h => h) (by decide)) fun _ =>
        .bind (told_ask .register (.register (C55_register _ hf.serverId))) fun _ => told_answer (r := .register) (fun h => h) (by decide) _
      rw [display_iff]
      exact C55_query _
    | none =>
      have hl' : (Stage.client c0 (.ready i (some .capability))).options.binlog.gtidList = none := hl
      simp only [hl']
      exact .fail _ fun s h => h.stopped
  · exact told_ask (.position hs) (.dump (.inl hs) (C55_dump _ _ _ hid hp))

theorem told_setUp (hf : FitsRequests c0.options) : Holds (Told m c c0 base input0 .start) (setUp m c)
    (fun cs s => ∃ maria place, Told m c c0 base input0 (.asked ⟨maria, place, some cs⟩ .dump) s) (fun _ => TalkBegan m c c0 base) := by
  refine .bind told_connect fun provider => ?_
  intro s0 h0
  obtain ⟨g, hprov, hs0⟩ := h0
  revert s0
  suffices H : Holds (Told m c c0 base input0 (.loggedIn g)) _ _ _ from fun s0 hs0 => H s0 hs0
  refine .bind (Q := fun _ s => Told m c c0 base input0 (.ready ⟨decide (provider = .mariaDB),
    (c0.options.binlog.filename, c0.options.binlog.position), none⟩ none) s) ?_ fun _ => ?_
  · rintro s ⟨h0, t, h1, h2, h3⟩
    refine ⟨?_, t, h1, .login h2 (by simpa using hprov), h3⟩
    show { s.client with transaction := false, mariaGtid := none, mysqlGtid := none } = restarted c0 _
    rw [h0]
    rfl
  refine .bind (told_adjust rfl) fun _ => ?_
  intro s1 h1
  obtain ⟨place, last, ho, hg, hp, hs1⟩ := h1
  revert s1
  suffices H : Holds (Told m c c0 base input0 (.ready { (⟨decide (provider = .mariaDB),
    (c0.options.binlog.filename, c0.options.binlog.position), none⟩ : Known') with place } last)) _ _ _ from fun s1 hs1 => H s1 hs1
  have hp' : place.2 < 2 ^ 32 := by
    rcases hp with rfl | hp
    · exact hf.position
    · exact hp
  refine .bind (told_heartbeat ho) fun _ => .bind told_checksum fun cs => told_client ?_
  show Holds _ (do
    match provider with
    | .mariaDB => replicateMariadb (dumpId c0.options)
    | .mySQL => replicateMysql m (dumpId c0.options)
    return cs) _ _
  cases provider with
  | mariaDB =>
    exact .bind (told_mariadb rfl hf hp') fun _ => .ret fun s hs => ⟨_, _, hs⟩
  | mySQL =>
    exact .bind (told_mysql rfl hf hp' hg) fun _ => .ret fun s hs => ⟨_, _, hs⟩

end

theorem sendable_of_lt {p : Bytes} (h : p.length < 2 ^ 24) : Sendable p := by
  unfold Sendable
  omega

/-- **C84.** Whatever the server sends: what has been exchanged is the beginning of a conversation as described, perhaps with one more
packet from the server that no conversation goes on from. So nothing but the packets of such a conversation is ever sent. -/
theorem C84_always (m : Mode) (c : Crypto) (s : Sess) (hf : FitsRequests s.client.options) :
    ∃ t, (setUp m c s).2.chan.trace = s.chan.trace ++ t ∧ Began m c s.client.options t := by
  have h := told_setUp (m := m) (c := c) (base := s.chan.trace) (input0 := s.chan.input) hf s
    ⟨rfl, [], by simp, .start, by simp [receivedOf, frames]⟩
  revert h
  rcases setUp m c s with ⟨r, s'⟩
  cases r with
  | ok cs =>
    rintro ⟨_, _, h⟩
    exact h.stopped
  | err e => exact fun h => h
  | panic => exact fun h => h
  | hang => exact fun h => h

/-- **C84.** When the set-up succeeds, the conversation was a complete one, ending with the request for the stream; the input is
used up to its end; the result is the checksum algorithm that the server named; the client starts where it asked the server to. -/
theorem C84_sound (m : Mode) (c : Crypto) (s s' : Sess) (checksum : ChecksumType) (hf : FitsRequests s.client.options)
    (h : setUp m c s = (.ok checksum, s')) :
    ∃ t maria place, At m c s.client.options (.asked ⟨maria, place, some checksum⟩ .dump) t ∧ s'.chan.trace = s.chan.trace ++ t ∧
      s.chan.input = frames (receivedOf t) ++ s'.chan.input ∧ s'.client = restarted s.client place := by
  have h0 := told_setUp (m := m) (c := c) (base := s.chan.trace) (input0 := s.chan.input) hf s
    ⟨rfl, [], by simp, .start, by simp [receivedOf, frames]⟩
  rw [h] at h0
  obtain ⟨maria, place, h1, t, h2, h3, h4⟩ := h0
  exact ⟨t, maria, place, h3, h2, h4, h1⟩

/-- **C84.** With a server that holds such a conversation, and a connection that takes what is written, the set-up succeeds, and this is
the conversation. -/
theorem C84_complete (m : Mode) (c : Crypto) (s : Sess) (t : List Packet) (rest : Bytes) (maria : Bool) (place : RStr × Nat)
    (checksum : ChecksumType) (ht : At m c s.client.options (.asked ⟨maria, place, some checksum⟩ .dump) t)
    (hi : s.chan.input = frames (receivedOf t) ++ rest) (hw : s.chan.writes = []) (hr : ∀ x ∈ receivedOf t, Framable x)
    (hs : ∀ x ∈ sentOf t, x.1.length < 2 ^ 24) :
    setUp m c s = (.ok checksum, ⟨restarted s.client place,
      { s.chan with input := rest, output := s.chan.output ++ frames (sentOf t), trace := s.chan.trace ++ t }⟩) := by
  have hs' : ∀ x ∈ sentOf t, Sendable x.1 := fun x hx => sendable_of_lt (hs x hx)
  have h := reached (c0 := s.client) (ch := s.chan) rfl ht hr (sends_free _ _ hw hs').1 rest
  have h0 : after s.client s.chan (frames (receivedOf t) ++ rest) .start [] = s := by
    unfold after
    rw [← hi]
    simp [sentOf, Stage.client, Channel.sends]
  rw [h0] at h
  rw [h]
  rw [after_free _ _ _ _ _ hw hs']
  rfl

/-- **C84.** Encryption is never set up: once it has been requested, the client panics. -/
theorem C84_encryption_panics (m : Mode) (c : Crypto) (s : Sess) (t : List Packet) (rest : Bytes)
    (ht : At m c s.client.options .encrypting t) (hi : s.chan.input = frames (receivedOf t) ++ rest) (hw : s.chan.writes = [])
    (hr : ∀ x ∈ receivedOf t, Framable x) (hs : ∀ x ∈ sentOf t, x.1.length < 2 ^ 24) :
    (setUp m c s).1 = .panic := by
  have hs' : ∀ x ∈ sentOf t, Sendable x.1 := fun x hx => sendable_of_lt (hs x hx)
  have h := reached (c0 := s.client) (ch := s.chan) rfl ht hr (sends_free _ _ hw hs').1 rest
  have h0 : after s.client s.chan (frames (receivedOf t) ++ rest) .start [] = s := by
    unfold after
    rw [← hi]
    simp [sentOf, Stage.client, Channel.sends]
  rw [h0] at h
  rw [h]
  rfl

/-! ## Examples -/

/-- A MySQL server, and a client that wants to start at the end of the log. -/
def exTalk : Sess := ⟨exUser .fromEnd, exChannel (exLogin "8.0.30" ++ exResult ["bin.000003", "157"] ++ exConfigured)⟩

theorem exTalk_runs (m : Mode) : (setUp m exCrypto exTalk).1 = .ok .crc32 := by
  revert m
  rintro ⟨_ | _⟩ <;> decide +kernel

/-- The conversation is one of those described. -/
theorem exTalk_at (m : Mode) : ∃ maria place, At m exCrypto exTalk.client.options (.asked ⟨maria, place, some .crc32⟩ .dump)
    (setUp m exCrypto exTalk).2.chan.trace := by
  have h := exTalk_runs m
  rcases hx : setUp m exCrypto exTalk with ⟨r, s'⟩
  rw [hx] at h
  obtain rfl : r = .ok .crc32 := h
  obtain ⟨t, maria, place, h1, h2, -, -⟩ := C84_sound m exCrypto exTalk s' .crc32
    ⟨by decide, by decide, by decide, fun g h => by cases h⟩ hx
  show ∃ maria place, At m exCrypto exTalk.client.options _ s'.chan.trace
  rw [h2]
  exact ⟨maria, place, h1⟩

/-- What the client sends in it after the log-in. -/
example (m : Mode) : (sentOf (setUp m exCrypto exTalk).2.chan.trace).tail = [
    (3 :: utf8Bytes "show master status".toList, 0),
    (3 :: utf8Bytes "set @master_heartbeat_period=30000000000".toList, 0),
    (3 :: utf8Bytes "SET @master_binlog_checksum= @@global.binlog_checksum".toList, 0),
    (3 :: utf8Bytes "SELECT @master_binlog_checksum".toList, 0),
    ([18, 157, 0, 0, 0, 0, 0, 255, 255, 0, 0] ++ utf8Bytes "bin.000003".toList, 0)] := by
  revert m
  rintro ⟨_ | _⟩ <;> decide +kernel

theorem exTalk_received (m : Mode) : receivedOf (setUp m exCrypto exTalk).2.chan.trace =
    exLogin "8.0.30" ++ exResult ["bin.000003", "157"] ++ exConfigured := by
  revert m
  rintro ⟨_ | _⟩ <;> decide +kernel

theorem exTalk_sent (m : Mode) : ∀ x ∈ sentOf (setUp m exCrypto exTalk).2.chan.trace, x.1.length < 2 ^ 24 := by
  revert m
  rintro ⟨_ | _⟩ <;> decide +kernel

/-- The hypotheses of `C84_complete` are met by it, whatever follows. -/
example (m : Mode) (rest : Bytes) : ∃ place chan,
    setUp m exCrypto { exTalk with chan := { exTalk.chan with input := exTalk.chan.input ++ rest } } =
      (.ok .crc32, ⟨restarted exTalk.client place, chan⟩) ∧ chan.input = rest := by
  obtain ⟨maria, place, h⟩ := exTalk_at m
  have hr := exTalk_received m
  have hs := exTalk_sent m
  generalize (setUp m exCrypto exTalk).2.chan.trace = t at h hr hs
  refine ⟨place, _, C84_complete m exCrypto _ t rest maria place .crc32 h ?_ rfl ?_ hs, rfl⟩
  · rw [hr]; rfl
  · rw [hr]
    unfold Framable
    decide +kernel

/-- A server that offers encryption, and a client that wants it if offered. -/
example (m : Mode) : (setUp m exCrypto ⟨{ exUser .fromStart with options := { (exUser .fromStart).options with sslMode := .ifAvailable } },
    exChannel [(exHello "8.0.30" "mysql_native_password" 0xffff, 0)]⟩).1 = .panic := by
  have hg : LooseGreeting ⟨10, "8.0.30".toList, 77, "abcdefghijklmnopqrst".toList, 0xc00fffff, 255, 2, List.replicate 6 '\x00', 21,
      "mysql_native_password".toList⟩ (exHello "8.0.30" "mysql_native_password" 0xffff) := C83_greeting_iff.1 (by decide +kernel)
  refine C84_encryption_panics m exCrypto _ _ [] (.encrypt (.greeting (n := 0) (k := 1) ⟨10, _, rfl, by decide⟩ hg (.inl rfl)
    (.inl ⟨by decide, rfl⟩)) (by decide) (by decide)) ?_ rfl ?_ ?_
  · rfl
  · rintro x hx
    obtain rfl : x = (exHello "8.0.30" "mysql_native_password" 0xffff, 0) := List.mem_singleton.1 hx
    exact ⟨by decide +kernel, by decide⟩
  · rintro x hx
    obtain rfl : x = (clientHead (clientCaps + 2 ^ 11), 1) := List.mem_singleton.1 hx
    decide +kernel

end MysqlCdc
