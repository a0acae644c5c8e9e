import Verif.Spec.Outcomes
import Verif.Lemmas.Continues
import Verif.Lemmas.ExampleServer
/-!
C95: the set-up of replication over a connection that takes what is written piecemeal, or breaks.
-/

namespace MysqlCdc

open Spec

theorem fails_waits {m : Mode} {c : Crypto} {o : ReplicaOptions} {st : Stage} {x : Nat × Bytes} {e : Ending}
    (h : Fails m c o st (some x) e) : Waits st := by
  cases h with
  | refused hh => exact .inl ⟨_, hh⟩
  | garbled hh => exact .inl ⟨_, hh⟩
  | empty hw => exact hw
  | _ => exact .inl ⟨_, rfl⟩

theorem left_waits {st : Stage} (h : Waits st) (c0 : Client) : st.clientLeft c0 = st.client c0 := by
  rcases h with ⟨head, hh⟩ | ⟨i, r, rfl⟩
  · cases st <;> first | rfl | cases hh
  · rfl

theorem after_start {s : Sess} {input : Bytes} (h : s.chan.input = input) : after s.client s.chan input .start [] = s := by
  unfold after
  rw [← h]
  simp [sentOf, Stage.client, Channel.sends]

theorem after_carries {c0 : Client} {ch : Channel} {rest wire : Bytes} {st : Stage} {t : List Packet} {ws' : List WriteStep}
    (h : Carries ch.writes (sentOf t) wire ws') (hs : ∀ x ∈ sentOf t, Sendable x.1) : after c0 ch rest st t =
      ⟨st.client c0, { ch with input := rest, output := ch.output ++ wire, writes := ws', trace := ch.trace ++ t }⟩ := by
  obtain ⟨-, h1, h2⟩ := sends_carries h ch rfl hs
  unfold after
  rw [h1, h2]

/-- At a stage that was reached, the rest of the program determines what happens. -/
theorem ends_at {m : Mode} {c : Crypto} {s s' : Sess} {e : Ending} {st0 : Stage} {t0 : List Packet} {input0 wire : Bytes}
    {ws' : List WriteStep} (hat : Spec.At m c s.client.options st0 t0) (hi : s.chan.input = frames (receivedOf t0) ++ input0)
    (hr : ∀ x ∈ receivedOf t0, Framable x) (hs : ∀ x ∈ sentOf t0, Sendable x.1) (hc : Carries s.chan.writes (sentOf t0) wire ws')
    (hf : FailsAs (left m c s.client st0) (after s.client s.chan input0 st0 t0) s' e) : ∃ r, e.Is r ∧ setUp m c s = (r, s') := by
  have h := reached (c0 := s.client) (ch := s.chan) rfl hat hr (sends_carries hc _ rfl hs).1 input0
  rw [after_start hi] at h
  rw [h]
  exact hf

/-- **C95.** When the conversation comes to a point from which it does not go on (C85), the set-up ends as described there, whatever the
connection takes of each packet; on the wire is what it has taken. -/
theorem C95_ends (m : Mode) (c : Crypto) (s : Sess) (t written : List Packet) (input rest : Bytes) (st : Stage) (e : Ending)
    (h : Stops m c s.client.options s.chan.ending t input written rest st e) (hi : s.chan.input = frames (receivedOf t) ++ input)
    (hr : ∀ x ∈ receivedOf t, Framable x) (hs : ∀ x ∈ sentOf written, Sendable x.1) {wire : Bytes} {ws' : List WriteStep}
    (hc : Carries s.chan.writes (sentOf written) wire ws') :
    ∃ r, e.Is r ∧ setUp m c s = (r, ⟨st.clientLeft s.client,
      { s.chan with input := rest, output := s.chan.output ++ wire, writes := ws', trace := s.chan.trace ++ t }⟩) := by
  cases h with
  | @packet t rest st n q e ht hf =>
    rw [receivedOf_append] at hr
    have hq : Framable (q, n) := hr _ (by simp [receivedOf])
    have := ends_at (input0 := frame q n ++ input) ht (by rw [hi, receivedOf_append, frames_append]; simp [receivedOf, frames])
      (fun x hx => hr x (by simp [hx])) hs hc (fails_packet hf hq)
    have hsent : sentOf (written ++ [.received n q]) = sentOf written := by rw [sentOf_append]; simp [sentOf]
    rw [left_waits (fails_waits hf)]
    rwa [after_carries (by rw [hsent]; exact hc) (by rw [hsent]; exact hs)] at this
  | stage ht hf =>
    have := ends_at ht hi hr hs hc (fails_stage hf (at_greeted ht))
    unfold leftOver at this
    rwa [after_carries hc hs] at this
  | @tooLong t rest st k p ht hp =>
    obtain ⟨-, h1, h2⟩ := sends_carries hc s.chan rfl hs
    have hw := writePacket_refused (s.chan.sends (sentOf written)) k hp
    obtain ⟨st0, hat, hf⟩ := fails_send (rest := input) (ch := s.chan) (e := .crash) ht (congrArg Prod.fst hw) (.inl ⟨rfl, rfl⟩)
    rw [receivedOf_append] at hr hi
    have := ends_at hat (by simpa [receivedOf] using hi) (fun x hx => hr x (by simp [hx])) hs hc hf
    have hsent : sentOf (written ++ [.sent k p]) = sentOf written ++ [(p, k)] := by rw [sentOf_append]; rfl
    unfold after at this
    rw [hsent, sends_snoc, hw] at this
    simpa only [h1, h2] using this
  | lost ht hwt hn =>
    have := ends_at ht hi hr hs hc (fails_lost hwt hn)
    rw [left_waits hwt]
    rwa [after_carries hc hs] at this

/-- **C95.** When the connection breaks within a packet, the set-up ends with that error; the packet counts as sent, the client is as it
was when it sent it, and what the server had sent after the packets read so far has not been read. -/
theorem C95_breaks (m : Mode) (c : Crypto) (s : Sess) (t : List Packet) (rest p : Bytes) (n : Nat) (st : Stage)
    (h : Spec.At m c s.client.options st (t ++ [.sent n p])) (hi : s.chan.input = frames (receivedOf t) ++ rest)
    (hr : ∀ x ∈ receivedOf t, Framable x) (hs : ∀ x ∈ sentOf t, Sendable x.1) (hp : Sendable p) {wire wire' : Bytes}
    {ws ws' : List WriteStep} {k : IoKind} (hc : Carries s.chan.writes (sentOf t) wire ws) (hb : Breaks ws p n wire' k ws') :
    setUp m c s = (.err (.io k), ⟨st.client s.client,
      { s.chan with input := rest, output := s.chan.output ++ wire ++ wire', writes := ws', trace := s.chan.trace ++ (t ++ [.sent n p]) }⟩) := by
  obtain ⟨-, h1, h2⟩ := sends_carries hc s.chan rfl hs
  have hw := writePacket_breaks (s.chan.sends (sentOf t)) hp (by rw [h2]; exact hb)
  obtain ⟨st0, hat, hf⟩ := fails_send (rest := rest) (ch := s.chan) (e := .error (.io k)) h (congrArg Prod.fst hw) (.inr ⟨_, rfl, rfl⟩)
  obtain ⟨r, rfl, h3⟩ := ends_at hat hi hr hs hc hf
  have hsent : sentOf (t ++ [.sent n p]) = sentOf t ++ [(p, n)] := by rw [sentOf_append]; rfl
  have hcl : st.clientLeft s.client = st.client s.client := by
    have := at_last h
    cases st with
    | result => obtain ⟨_, _, _, h⟩ := this; exact (not_last h).elim
    | _ => rfl
  unfold after at h3
  rw [hsent, sends_snoc, hw, hcl] at h3
  simpa only [h1] using h3

/-! ## Nothing else happens -/

/-- A conversation up to some point is a conversation. -/
theorem at_prefix {m : Mode} {c : Crypto} {o : ReplicaOptions} {st : Stage} {t : List Packet} (h : Spec.At m c o st t) :
    ∀ t1 t2, t = t1 ++ t2 → ∃ st', Spec.At m c o st' t1 := by
  have key : ∀ {st : Stage} {t t1 t2 : List Packet} {x : Packet}, Spec.At m c o st (t ++ [x]) →
      (∀ t1 t2, t = t1 ++ t2 → ∃ st', Spec.At m c o st' t1) → t ++ [x] = t1 ++ t2 → ∃ st', Spec.At m c o st' t1 := by
    intro st t t1 t2 x h ih he
    rcases List.eq_nil_or_concat t2 with rfl | ⟨t2, y, rfl⟩
    · rw [List.append_nil] at he
      exact ⟨st, he ▸ h⟩
    · obtain ⟨h1, -⟩ := List.append_inj' (he.trans (by simp : t1 ++ t2.concat y = (t1 ++ t2) ++ [y])) rfl
      exact ih _ _ h1
  induction h with
  | start => rintro t1 t2 h; rw [List.nil_eq, List.append_eq_nil_iff] at h; obtain ⟨rfl, rfl⟩ := h; exact ⟨_, .start⟩
  | greeting he hg hm hk =>
    exact fun t1 t2 => key (t := []) (.greeting he hg hm hk) fun t1 t2 h => by
      rw [List.nil_eq, List.append_eq_nil_iff] at h; obtain ⟨rfl, rfl⟩ := h; exact ⟨_, .start⟩
  | encrypt ht hw ho ih => exact fun _ _ => key (.encrypt ht hw ho) ih
  | respond ht hp ha hr ih => exact fun _ _ => key (.respond ht hp ha hr) ih
  | ok ht ih => exact fun _ _ => key (.ok ht) ih
  | switch ht hs hk ih => exact fun _ _ => key (.switch ht hs hk) ih
  | more ht hb hk ih => exact fun _ _ => key (.more ht hb hk) ih
  | answer ht ha ih => exact fun _ _ => key (.answer ht ha) ih
  | native ht hm he ih => exact fun _ _ => key (.native ht hm he) ih
  | switchedSha2 ht hm he hk ih => exact fun _ _ => key (.switchedSha2 ht hm he hk) ih
  | fast ht ih => exact ih
  | askKey ht hq ih => exact fun _ _ => key (.askKey ht hq) ih
  | key ht he hx hs hr hk ih => exact fun _ _ => key (.key ht he hx hs hr hk) ih
  | password ht ih => exact fun _ _ => key (.password ht) ih
  | proof ht he ih => exact fun _ _ => key (.proof ht he) ih
  | login ht hm ih => exact ih
  | ask ht ho hp ih => exact fun _ _ => key (.ask ht ho hp) ih
  | answered ht hr hd he ih => exact fun _ _ => key (.answered ht hr hd he) ih
  | count ht hr he ih => exact fun _ _ => key (.count ht hr he) ih
  | column ht hn he ih => exact fun _ _ => key (.column ht hn he) ih
  | columnsEnd ht he ih => exact fun _ _ => key (.columnsEnd ht he) ih
  | row ht he hn hc ih => exact fun _ _ => key (.row ht he hn hc) ih
  | rowsEnd ht he ih => exact fun _ _ => key (.rowsEnd ht he) ih
  | «end» ht hp ih => exact ih
  | checksum ht hc ih => exact ih

/-- All packets are carried, or there is a first one within which the connection breaks. -/
theorem carried_or_broken (ws : List WriteStep) (t : List Packet) : (∃ wire ws', Carries ws (sentOf t) wire ws') ∨
    ∃ t1 n p t2 wire ws1 wire' k ws2, t = t1 ++ [.sent n p] ++ t2 ∧ Carries ws (sentOf t1) wire ws1 ∧ Breaks ws1 p n wire' k ws2 := by
  induction t using List.reverseRecOn with
  | nil => exact .inl ⟨_, _, .nil⟩
  | append_singleton t x ih =>
    rcases ih with ⟨wire, ws', h⟩ | ⟨t1, n, p, t2, wire, ws1, wire', k, ws2, rfl, h1, h2⟩
    · rw [sentOf_append]
      cases x with
      | received n q => exact .inl ⟨wire, ws', by simpa [sentOf] using h⟩
      | sent n p =>
        rcases carries_or_breaks ws' p n with ⟨wire', ws2, h1⟩ | ⟨wire', k, ws2, h1⟩
        · exact .inl ⟨_, _, .snoc h h1⟩
        · exact .inr ⟨t, n, p, [], wire, ws', wire', k, ws2, by simp, h, h1⟩
    · exact .inr ⟨t1, n, p, t2 ++ [x], wire, ws1, wire', k, ws2, by simp, h1, h2⟩

theorem sent_prefix {t1 t2 : List Packet} {n : Nat} {p : Bytes} {P : Bytes × Nat → Prop}
    (h : ∀ x ∈ sentOf (t1 ++ [.sent n p] ++ t2), P x) : (∀ x ∈ sentOf t1, P x) ∧ P (p, n) := by
  rw [sentOf_append, sentOf_append] at h
  exact ⟨fun x hx => h x (by simp [hx]), h (p, n) (by simp [sentOf])⟩

theorem breaks_within {m : Mode} {c : Crypto} {s : Sess} {t1 t2 t : List Packet} {n : Nat} {p wire wire' input : Bytes} {st : Stage}
    {ws1 ws2 : List WriteStep} {k : IoKind} (h : Spec.At m c s.client.options st (t1 ++ [.sent n p] ++ t2))
    (hi : s.chan.input = frames (receivedOf (t1 ++ [.sent n p] ++ t2 ++ t)) ++ input)
    (hr : ∀ x ∈ receivedOf (t1 ++ [.sent n p] ++ t2 ++ t), Framable x)
    (hs : ∀ x ∈ sentOf (t1 ++ [.sent n p] ++ t2), Sendable x.1) (hc : Carries s.chan.writes (sentOf t1) wire ws1)
    (hb : Breaks ws1 p n wire' k ws2) : SetUpEnds m c s (setUp m c s) := by
  obtain ⟨st', h'⟩ := at_prefix h (t1 ++ [.sent n p]) t2 rfl
  obtain ⟨hs1, hs2⟩ := sent_prefix (P := fun x => Sendable x.1) hs
  have hi' : s.chan.input = frames (receivedOf t1) ++ (frames (receivedOf (t2 ++ t)) ++ input) := by
    rw [hi]
    simp [receivedOf_append, receivedOf, frames_append]
  have hr' : ∀ x ∈ receivedOf t1, Framable x := fun x hx => hr x (by simp [receivedOf_append, hx])
  rw [C95_breaks m c s t1 _ p n st' h' hi' hr' hs1 hs2 hc hb]
  exact .breaks h' hi' hr' hs1 hs2 hc hb

/-- **C95.** Whatever the server sends and whatever the connection does with what is written, the set-up ends in one of the three ways. -/
theorem C95_total (m : Mode) (c : Crypto) (s : Sess) (hf : FitsRequests s.client.options) : SetUpEnds m c s (setUp m c s) := by
  rcases leads (m := m) (c := c) hf s.chan.ending (input := s.chan.input) (input' := s.chan.input) .start (by simp [receivedOf, frames])
    (by simp [receivedOf]) (by simp [sentOf]) with
    ⟨t, maria, place, checksum, rest, h1, h2, h3, h4⟩ | ⟨t, input, written, rest, st, e, h1, h2, h3, h4⟩
  · rcases carried_or_broken s.chan.writes t with ⟨wire, ws', hc⟩ | ⟨t1, n, p, t2, wire, ws1, wire', k, ws2, rfl, hc, hb⟩
    · have h := reached (c0 := s.client) (ch := s.chan) rfl h1 h3 (sends_carries hc _ rfl h4).1 rest
      rw [after_start h2, after_carries hc h4] at h
      rw [h]
      exact .done h1 h2 h3 h4 hc
    · exact breaks_within (t := []) h1 (by simpa using h2) (by simpa using h3) h4 hc hb
  · rcases carried_or_broken s.chan.writes written with ⟨wire, ws', hc⟩ | ⟨t1, n, p, t2, wire, ws1, wire', k, ws2, rfl, hc, hb⟩
    · obtain ⟨r, h5, h6⟩ := C95_ends m c s t written input rest st e h1 h2 h3 h4 hc
      rw [h6]
      exact .stops h1 h2 h3 h4 hc h5
    · cases h1 with
      | packet ht hf => exact breaks_within ht h2 h3 h4 hc hb
      | stage ht hf => exact breaks_within (t := []) ht (by simpa using h2) (by simpa using h3) h4 hc hb
      | @tooLong _ _ st k' p' ht hp =>
        obtain ⟨st', ht'⟩ := at_prefix ht (t1 ++ [.sent n p] ++ t2) _ rfl
        exact breaks_within ht' h2 h3 h4 hc hb
      | lost ht hw hn => exact breaks_within (t := []) ht (by simpa using h2) (by simpa using h3) h4 hc hb

/-- **C95.** The set-up always ends. -/
theorem C95_returns (m : Mode) (c : Crypto) (s : Sess) (hf : FitsRequests s.client.options) : (setUp m c s).1 ≠ .hang := by
  have h := C95_total m c s hf
  generalize setUp m c s = x at h
  cases h with
  | done => simp
  | breaks => simp
  | @stops _ _ _ _ _ _ e _ r _ _ _ _ _ he =>
    rintro rfl
    cases e with
    | malformed => obtain ⟨_, h, _⟩ := he; cases h
    | _ => cases he

/-- **C95.** When the set-up succeeds: the server holds a complete conversation, and the connection takes something of every packet. -/
theorem C95_succeeds_iff (m : Mode) (c : Crypto) (s : Sess) (hf : FitsRequests s.client.options) (checksum : ChecksumType) :
    (setUp m c s).1 = .ok checksum ↔ ∃ t maria place rest wire ws',
      Spec.At m c s.client.options (.asked ⟨maria, place, some checksum⟩ .dump) t ∧ s.chan.input = frames (receivedOf t) ++ rest ∧
      (∀ x ∈ receivedOf t, Framable x) ∧ (∀ x ∈ sentOf t, Sendable x.1) ∧ Carries s.chan.writes (sentOf t) wire ws' := by
  constructor
  · intro hh
    have h := C95_total m c s hf
    generalize setUp m c s = x at h hh
    cases h with
    | @done t maria place ck rest wire ws' g1 g2 g3 g4 g5 =>
      obtain rfl := Res.ok.inj hh
      exact ⟨t, maria, place, rest, wire, ws', g1, g2, g3, g4, g5⟩
    | @stops _ _ _ _ _ _ e _ _ _ _ _ _ _ he =>
      simp only at hh
      subst hh
      cases e with
      | malformed => obtain ⟨_, g5, _⟩ := he; cases g5
      | _ => cases he
    | breaks => cases hh
  · rintro ⟨t, maria, place, rest, wire, ws', h1, h2, h3, h4, hc⟩
    have h := reached (c0 := s.client) (ch := s.chan) rfl h1 h3 (sends_carries hc _ rfl h4).1 rest
    rw [after_start h2] at h
    rw [h]
    rfl

/-- **C95.** When it panics: the conversation comes to a point where the client panics (C85), and the connection has taken something of
every packet. -/
theorem C95_panics_iff (m : Mode) (c : Crypto) (s : Sess) (hf : FitsRequests s.client.options) :
    (setUp m c s).1 = .panic ↔ ∃ t written input rest st wire ws', Stops m c s.client.options s.chan.ending t input written rest st .crash ∧
      s.chan.input = frames (receivedOf t) ++ input ∧ (∀ x ∈ receivedOf t, Framable x) ∧ (∀ x ∈ sentOf written, Sendable x.1) ∧
      Carries s.chan.writes (sentOf written) wire ws' := by
  constructor
  · intro hh
    have h := C95_total m c s hf
    generalize setUp m c s = x at h hh
    cases h with
    | done => cases hh
    | @stops t written input rest wire st e ws' _ g1 g2 g3 g4 g5 he =>
      simp only at hh
      subst hh
      cases e with
      | crash => exact ⟨t, written, input, rest, st, wire, ws', g1, g2, g3, g4, g5⟩
      | malformed => obtain ⟨_, g5, _⟩ := he; cases g5
      | error e => cases he
    | breaks => cases hh
  · rintro ⟨t, written, input, rest, st, wire, ws', h1, h2, h3, h4, hc⟩
    obtain ⟨r, h5, h6⟩ := C95_ends m c s t written input rest st .crash h1 h2 h3 h4 hc
    rw [h6]
    exact h5

/-! ## When packets are carried -/

/-- The steps that are left were there before. -/
theorem takesAll_left {ws ws' : List WriteStep} {bs : Bytes} (h : TakesAll ws bs ws') : ws' <:+ ws := by
  induction h with
  | nothing => exact List.suffix_refl _
  | whole => exact List.suffix_refl _
  | part _ _ _ ih => exact ih.trans (List.suffix_cons _ _)

theorem carriesOne_left {ws ws' : List WriteStep} {p wire : Bytes} {n : Nat} (h : CarriesOne ws p n wire ws') : ws' <:+ ws := by
  obtain ⟨h1, h2, h3⟩ := h
  refine List.IsSuffix.trans ?_ ((takesAll_left h2).trans (takesAll_left h1))
  cases h3
  · exact List.suffix_refl _
  · exact List.suffix_cons _ _

theorem carries_left {ws ws' : List WriteStep} {sent : List (Bytes × Nat)} {wire : Bytes} (h : Carries ws sent wire ws') : ws' <:+ ws := by
  induction h with
  | nil => exact List.suffix_refl _
  | snoc _ h1 ih => exact (carriesOne_left h1).trans ih

theorem refuses_step {ws ws' : List WriteStep} {bs taken : Bytes} {k : IoKind} (h : Refuses ws bs taken k ws') :
    .fail k ∈ ws ∨ k = .other 0 ∧ .accept 0 ∈ ws := by
  induction h with
  | fail => simp
  | zero => simp
  | part _ _ _ ih =>
    rcases ih with h | ⟨h1, h2⟩
    · exact .inl (by simp [h])
    · exact .inr ⟨h1, by simp [h2]⟩

theorem breaks_step {ws ws' : List WriteStep} {p wire : Bytes} {n : Nat} {k : IoKind} (h : Breaks ws p n wire k ws') :
    .fail k ∈ ws ∨ k = .other 0 ∧ .accept 0 ∈ ws := by
  cases h with
  | length h => exact refuses_step h
  | number h1 h =>
    have := takesAll_left h1
    rcases refuses_step h with h | ⟨h, h'⟩
    · exact .inl (this.subset h)
    · exact .inr ⟨h, this.subset h'⟩
  | payload h1 h2 => exact .inl ((takesAll_left h1).subset ((takesAll_left h2).subset (by simp)))

/-- **C95.** An error of a write comes from a call that failed, or from one that took nothing. -/
theorem C95_error_source (m : Mode) (c : Crypto) (s : Sess) (hf : FitsRequests s.client.options) (k : IoKind)
    (h : (setUp m c s).1 = .err (.io k)) : .fail k ∈ s.chan.writes ∨ k = .other 0 ∧ .accept 0 ∈ s.chan.writes ∨
      k = s.chan.ending ∨ k = .unexpectedEof ∨ k = .invalidData := by
  have hx := C95_total m c s hf
  generalize setUp m c s = x at h hx
  cases hx with
  | done => cases h
  | @stops t written input rest wire st e ws' r g1 g2 g3 g4 g5 he =>
    simp only at h
    subst h
    cases e with
    | crash => cases he
    | malformed =>
      obtain ⟨e, he, hu⟩ := he
      cases he
      unfold Unreadable at hu
      simp at hu
      exact .inr (.inr (.inr hu))
    | error e =>
      cases he
      cases g1 with
      | packet ht hf => cases hf
      | stage ht hf => cases hf
      | lost => exact .inr (.inr (.inl rfl))
  | @breaks t p rest wire wire' n st k' ws ws' g1 g2 g3 g4 g5 hc hb =>
    obtain rfl : k' = k := by simpa using h
    rcases breaks_step hb with h | ⟨h, h'⟩
    · exact .inl ((carries_left hc).subset h)
    · exact .inr (.inl ⟨h, (carries_left hc).subset h'⟩)

/-- **C95.** If no call fails and every call takes something, packets are carried; so the set-up succeeds with every server that holds a
complete conversation, although the payloads on the wire may be cut off. -/
theorem C95_unnoticed (m : Mode) (c : Crypto) (s : Sess) (t : List Packet) (rest : Bytes) (maria : Bool) (place : RStr × Nat)
    (checksum : ChecksumType) (ht : Spec.At m c s.client.options (.asked ⟨maria, place, some checksum⟩ .dump) t)
    (hi : s.chan.input = frames (receivedOf t) ++ rest) (hr : ∀ x ∈ receivedOf t, Framable x) (hs : ∀ x ∈ sentOf t, Sendable x.1)
    (hw : ∀ w ∈ s.chan.writes, ∃ n, 0 < n ∧ w = .accept n) : (setUp m c s).1 = .ok checksum := by
  rcases carried_or_broken s.chan.writes t with ⟨wire, ws', hc⟩ | ⟨t1, n, p, t2, wire, ws1, wire', k, ws2, -, hc, hb⟩
  · have h := reached (c0 := s.client) (ch := s.chan) rfl ht hr (sends_carries hc _ rfl hs).1 rest
    rw [after_start hi] at h
    rw [h]
    rfl
  · exfalso
    rcases breaks_step hb with h | ⟨-, h⟩
    · obtain ⟨n, hn, h⟩ := hw _ ((carries_left hc).subset h)
      cases h
    · obtain ⟨n, hn, h⟩ := hw _ ((carries_left hc).subset h)
      cases h
      omega

/-! ## Examples -/

/-- A connection that takes the header of the log-in in two pieces and only ten bytes of its payload; the set-up succeeds all the same. -/
def exShort : Channel := { exChannel (exLogin "8.0.30" ++ exConfigured) with writes := [.accept 2, .accept 1, .accept 1, .accept 10] }

theorem exShort_runs (m : Mode) : (setUp m exCrypto ⟨exUser .fromStart, exShort⟩).1 = .ok .crc32 := by
  revert m
  rintro ⟨_ | _⟩ <;> decide +kernel

theorem exFitsStart : FitsRequests (exUser .fromStart).options := ⟨by decide, by decide, by decide, fun g h => by cases h⟩

example (m : Mode) : ∃ t maria place rest wire ws', Spec.At m exCrypto (exUser .fromStart).options (.asked ⟨maria, place, some .crc32⟩ .dump) t ∧
    exShort.input = frames (receivedOf t) ++ rest ∧ Carries exShort.writes (sentOf t) wire ws' := by
  obtain ⟨t, maria, place, rest, wire, ws', h1, h2, -, -, h3⟩ :=
    (C95_succeeds_iff m exCrypto ⟨exUser .fromStart, exShort⟩ exFitsStart .crc32).1 (exShort_runs m)
  exact ⟨t, maria, place, rest, wire, ws', h1, h2, h3⟩

/-- The steps meet the hypothesis of `C95_unnoticed`. -/
example : ∀ w ∈ exShort.writes, ∃ n, 0 < n ∧ w = .accept n := by
  intro w hw
  simp only [exShort, List.mem_cons, List.not_mem_nil, or_false] at hw
  rcases hw with rfl | rfl | rfl | rfl <;> exact ⟨_, by decide, rfl⟩

/-- A connection that breaks within the payload of the log-in. -/
def exBroken : Channel := { exChannel (exLogin "8.0.30" ++ exConfigured) with writes := [.accept 3, .accept 1, .fail (.other 104)] }

example (m : Mode) : (setUp m exCrypto ⟨exUser .fromStart, exBroken⟩).1 = .err (.io (.other 104)) ∧
    (setUp m exCrypto ⟨exUser .fromStart, exBroken⟩).2.chan.output.length = 4 := by
  revert m
  rintro ⟨_ | _⟩ <;> decide +kernel

/-- A packet of three bytes: two calls for the length, one for the number, and one that takes a byte. -/
example : Carries [.accept 2, .accept 5, .accept 1, .accept 1, .fail (.other 104)] [([7, 8, 9], 4)] [3, 0, 0, 4, 7] [.fail (.other 104)] :=
  .snoc (sent := []) (wire := []) (wire' := [3, 0, 0, 4, 7]) .nil (.mk (taken := [7]) (.part (by decide) (by decide) (.part (by decide) (by decide) .nothing))
    (.part (by decide) (by decide) .nothing) .part)

/-- And the next one breaks within the length. -/
example : Breaks [.accept 1, .fail (.other 104)] [7, 8, 9] 5 [3] (.other 104) [] :=
  .length (.part (taken := []) (by decide) (by decide) (.fail (by decide)))

end MysqlCdc
