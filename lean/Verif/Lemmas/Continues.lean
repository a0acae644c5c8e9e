import Verif.Lemmas.Endings
/-!
# A conversation goes on, is complete, or fails, for C85
-/

namespace MysqlCdc

open Spec

section
variable {m : Mode} {c : Crypto} {o : ReplicaOptions} {st : Stage} {t : List Packet}

/-- The place is one that fits, and the original one if a GTID is to be started from. -/
def GoodPlace (o : ReplicaOptions) (i : Known') : Prop :=
  i.place.2 < 2 ^ 32 ∧ (o.binlog.startingStrategy = .fromGtid → i.place = (o.binlog.filename, o.binlog.position))

/-- The requests after the one for the checksum. -/
def Late (r : Request) : Prop :=
  r = .capability ∨ r = .connectState ∨ r = .strict ∨ r = .duplicates ∨ r = .register ∨ r = .dump

theorem at_known (hf : FitsRequests o) (h : Spec.At m c o st t) : match st with
    | .ready i last => GoodPlace o i ∧ last ≠ some .dump ∧ ∀ r, last = some r → r = .getChecksum ∨ Late r → i.checksum ≠ none
    | .asked i r => GoodPlace o i ∧ (r = .status → wantsEnd o) ∧ (Late r → i.checksum ≠ none)
    | .columns i r | .rows i r _ | .result i r _ => GoodPlace o i ∧ (r = .status → wantsEnd o) ∧ r.hasResult
    | _ => True := by
  induction h with
  | login => exact ⟨⟨hf.position, fun _ => rfl⟩, by simp, by simp⟩
  | @ask t i last r p ht ho hp ih =>
    obtain ⟨h1, h2, h3⟩ := ih
    refine ⟨h1, fun hr => ?_, fun hr => ?_⟩
    · subst hr; cases ho; assumption
    · cases ho with
      | mysql => exact h3 _ rfl (.inl rfl)
      | capability => exact h3 _ rfl (.inl rfl)
      | position => exact h3 _ rfl (.inr (by simp [Late]))
      | connectState => exact h3 _ rfl (.inr (by simp [Late]))
      | strict => exact h3 _ rfl (.inr (by simp [Late]))
      | duplicates => exact h3 _ rfl (.inr (by simp [Late]))
      | register => exact h3 _ rfl (.inr (by simp [Late]))
      | dump => exact h3 _ rfl (.inr (by simp [Late]))
      | _ => simp [Late] at hr
  | answered ht hr hd he ih =>
    refine ⟨ih.1, by simpa using hd, fun r h hl => ?_⟩
    cases h
    rcases hl with rfl | hl
    · exact absurd trivial hr
    · exact ih.2.2 hl
  | count ht hr he ih => exact ⟨ih.1, ih.2.1, hr⟩
  | column ht hn he ih => exact ih
  | columnsEnd ht he ih => exact ih
  | row ht he hn hc ih => exact ih
  | rowsEnd ht he ih => exact ih
  | «end» ht hp ih =>
    obtain ⟨-, h2, -⟩ := ih
    refine ⟨⟨hp.1, fun hg => ?_⟩, by simp, fun r h hl => ?_⟩
    · have := (h2 rfl).1
      rw [hg] at this
      cases this
    · cases h
      simp [Late] at hl
  | checksum ht hc ih => exact ⟨ih.1, by simp, by simp⟩
  | _ => trivial

theorem at_start (h : Spec.At m c o .start t) : t = [] := by
  cases h
  rfl

/-- The steps that need no packet from the server are few. -/
def silence : Stage → Nat
  | .greeted _ _ | .switching _ _ _ | .sha2 _ _ _ _ | .keyed _ _ _ => 3
  | .loggedIn _ | .result _ _ _ => 2
  | .ready _ _ => 1
  | _ => 0

/-- How a conversation goes on. -/
inductive GoesOn (m : Mode) (c : Crypto) (o : ReplicaOptions) (st : Stage) (t : List Packet) : Prop where
  | silent {st' : Stage} (h : Spec.At m c o st' t) (hs : silence st' < silence st)
  | send {st' : Stage} {k : Nat} {p : Bytes} (h : Spec.At m c o st' (t ++ [.sent k p])) (hs : silence st' < silence st)
  | fails {e : Ending} (h : Fails m c o st none e)
  | waits (hw : Waits st) (h : ∀ n q, n < 2 ^ 8 → (∃ st', Spec.At m c o st' (t ++ [.received n q])) ∨ ∃ e, Fails m c o st (some (n, q)) e)
  | complete {maria : Bool} {place : RStr × Nat} {checksum : ChecksumType} (h : st = .asked ⟨maria, place, some checksum⟩ .dump)

theorem packet_cases (q : Bytes) : q = [] ∨ (∃ body, q = 0xFF :: body) ∨ NoError q := by
  cases q with
  | nil => exact .inl rfl
  | cons b body =>
    by_cases hb : b = 0xFF
    · exact .inr (.inl ⟨body, by rw [hb]⟩)
    · exact .inr (.inr ⟨b, body, rfl, hb⟩)

theorem number_cases (m : Mode) {n : Nat} (h : n < 2 ^ 8) : (∃ k, NextNumber m n k) ∨ LastNumber m n := by
  by_cases hn : n < 255
  · exact .inl ⟨n + 1, .inl ⟨hn, rfl⟩⟩
  · obtain rfl : n = 255 := by omega
    cases hm : m.checks with
    | true => exact .inr ⟨rfl, hm⟩
    | false => exact .inl ⟨0, .inr ⟨rfl, hm, rfl⟩⟩

/-- Waiting for a packet that is looked at for an error. -/
theorem waits_check {head : String} (hh : heading st = some head)
    (h : ∀ n q, n < 2 ^ 8 → NoError q → (∃ st', Spec.At m c o st' (t ++ [.received n q])) ∨ ∃ e, Fails m c o st (some (n, q)) e) :
    GoesOn m c o st t := by
  refine .waits (.inl ⟨head, hh⟩) fun n q hn => ?_
  rcases packet_cases q with rfl | ⟨body, rfl⟩ | he
  · exact .inr ⟨_, .empty (.inl ⟨head, hh⟩)⟩
  · by_cases hb : ∃ e, LooseError e body
    · obtain ⟨e, hb⟩ := hb
      exact .inr ⟨_, .refused hh hb⟩
    · exact .inr ⟨_, .garbled hh fun e he => hb ⟨e, he⟩⟩
  · exact h n q hn he

theorem dumpId_lt (hf : FitsRequests o) : dumpId o < 2 ^ 32 := by
  unfold dumpId
  split
  · exact hf.serverId
  · decide

theorem goes_ready (hf : FitsRequests o) {i : Known'} {last : Option Request} (h : Spec.At m c o (.ready i last) t) :
    GoesOn m c o (.ready i last) t := by
  obtain ⟨⟨hp, hg⟩, hd, -⟩ := at_known hf h
  have hs : ∀ r, silence (.asked i r) < silence (.ready i last) := fun _ => by simp [silence]
  have ask : ∀ {r : Request} {p : Bytes}, Order o i.maria last r → Asks o i r p → GoesOn m c o (.ready i last) t := fun ho hp =>
    .send (.ask h ho hp) (hs _)
  have hdump : DumpPacket 0 (dumpId o) i.place.1 i.place.2 _ := C55_dump _ _ _ (dumpId_lt hf) hp
  have hm := at_maria h
  match last with
  | none =>
    by_cases hw : wantsEnd o
    · exact ask (.status hw) (.status (C55_query _))
    · exact ask (.heartbeat hw) (.heartbeat (C55_query _))
  | some .status => exact ask .heartbeat' (.heartbeat (C55_query _))
  | some .heartbeat => exact ask .setChecksum (.setChecksum (C55_query _))
  | some .setChecksum => exact ask .getChecksum (.getChecksum (C55_query _))
  | some .getChecksum =>
    cases hmaria : i.maria with
    | true => exact ask (.capability hmaria) (.capability (C55_query _))
    | false =>
      by_cases hst : o.binlog.startingStrategy = .fromGtid
      · cases hset : o.binlog.gtidSet with
        | none => exact .fails (.gtidSet hmaria hst hset)
        | some set =>
          have hfit := hf.gtidSet set hset
          obtain ⟨packet, sets, h6, h7, rfl, -⟩ := C10_dump_request m (dumpId o) i.place.1 i.place.2 set set.uuidSets
            (List.Perm.refl _) (dumpId_lt hf) (by rw [hg hst]; exact hf.filename)
            (Nat.lt_of_lt_of_le hp (Nat.pow_le_pow_right (by decide) (by decide))) hfit.1 hfit.2
          exact ask (.mysql hmaria) (.dumpGtid hst hmaria hset h7)
      · exact ask (.mysql hmaria) (.dump (.inl hst) hdump)
  | some .capability =>
    by_cases hst : o.binlog.startingStrategy = .fromGtid
    · cases hl : o.binlog.gtidList with
      | none => exact .fails (.gtidList hst hl)
      | some l => exact ask (.connectState hst) (.connectState hl (C55_query _))
    · exact ask (.position hst) (.dump (.inl hst) hdump)
  | some .connectState => exact ask .strict (.strict (C55_query _))
  | some .strict => exact ask .duplicates (.duplicates (C55_query _))
  | some .duplicates => exact ask .register (.register (C55_register _ hf.serverId))
  | some .register => exact ask .dump (.dump (.inr (hm (by simp [mariaOnly]))) hdump)
  | some .dump => exact absurd rfl hd

theorem goes_on (hf : FitsRequests o) (h : Spec.At m c o st t) : GoesOn m c o st t := by
  cases st with
  | start =>
    obtain rfl := at_start h
    refine waits_check rfl fun n q hn he => ?_
    by_cases hg : ∃ g, LooseGreeting g q
    · obtain ⟨g, hg⟩ := hg
      by_cases hm : Known g.authPluginName
      · rcases number_cases m hn with ⟨k, hk⟩ | hk
        · exact .inl ⟨_, .greeting he hg hm hk⟩
        · exact .inr ⟨_, .greetingNumber he hg hm hk⟩
      · exact .inr ⟨_, .method he hg hm⟩
    · exact .inr ⟨_, .greeting he fun g h => hg ⟨g, h⟩⟩
  | greeted g k =>
    by_cases hp : Plain o g
    · by_cases ha : ∃ auth, AuthAnswer c o.password g.scramble g.authPluginName auth
      · obtain ⟨auth, ha⟩ := ha
        exact .send (.respond h hp ha rfl) (by simp [silence])
      · exact .fails (.noAnswer hp fun auth h => ha ⟨auth, h⟩)
    · cases hb : hasBit g.serverCapabilities 11 with
      | true => exact .send (.encrypt h (fun hd => hp (.inl hd)) hb) (by simp [silence])
      | false =>
        refine .fails (.insists ?_ hb)
        unfold Plain at hp
        unfold Insists
        cases hs : o.sslMode <;> simp_all
  | encrypting => exact .fails .encrypting
  | responded g =>
    refine waits_check rfl fun n q hn he => ?_
    obtain ⟨b, body, rfl, hb⟩ := he
    by_cases h0 : b = 0
    · subst h0; exact .inl ⟨_, .ok h⟩
    · by_cases h1 : b = 0xFE
      · subst h1
        by_cases hs : ∃ s, LooseSwitch s body
        · obtain ⟨s, hs⟩ := hs
          rcases number_cases m hn with ⟨k, hk⟩ | hk
          · exact .inl ⟨_, .switch h hs hk⟩
          · exact .inr ⟨_, .switchNumber hs hk⟩
        · exact .inr ⟨_, .switch fun s h => hs ⟨s, h⟩⟩
      · rcases number_cases m hn with ⟨k, hk⟩ | hk
        · exact .inl ⟨_, .more h ⟨h0, h1, hb⟩ hk⟩
        · exact .inr ⟨_, .moreNumber ⟨h0, h1, hb⟩ hk⟩
  | switching g s k =>
    by_cases hm : Known s.authPluginName
    · by_cases ha : ∃ auth, AuthAnswer c o.password s.authPluginData s.authPluginName auth
      · obtain ⟨auth, ha⟩ := ha
        exact .send (.answer h ha) (by simp [silence])
      · exact .fails (.switchNoAnswer hm fun auth h => ha ⟨auth, h⟩)
    · exact .fails (.switchMethod hm)
  | switched g s =>
    refine waits_check rfl fun n q hn he => ?_
    by_cases hm : s.authPluginName = "caching_sha2_password".toList
    · rcases number_cases m hn with ⟨k, hk⟩ | hk
      · exact .inl ⟨_, .switchedSha2 h hm he hk⟩
      · exact .inr ⟨_, .switchedNumber hm he hk⟩
    · exact .inl ⟨_, .native h hm he⟩
  | sha2 g scramble q k =>
    by_cases h1 : q = [1]
    · subst h1; exact .fails .cut
    · by_cases h2 : ∃ rest, q = 1 :: 3 :: rest
      · obtain ⟨rest, rfl⟩ := h2
        exact .silent (.fast h) (by simp [silence])
      · exact .send (.askKey h ⟨h1, fun rest h => h2 ⟨rest, h⟩⟩) (by simp [silence])
  | keyAsked g scramble =>
    refine waits_check rfl fun n q hn he => ?_
    by_cases hs : scramble = []
    · subst hs; exact .inr ⟨_, .noScramble he⟩
    · obtain ⟨b, key, rfl, hb⟩ := he
      obtain ⟨x, hx⟩ : ∃ x, Masked (utf8Bytes scramble) (utf8Bytes o.password ++ [0]) x := by
        cases hx : xorBytes (utf8Bytes o.password ++ [0]) (utf8Bytes scramble) with
        | ok x => exact ⟨x, xorBytes_masked hx⟩
        | err e => unfold xorBytes at hx; split at hx <;> simp at hx
        | panic => exact absurd (utf8Bytes_inj (b := []) ((xorBytes_nil (by simp)).1 hx)) hs
        | hang => exact absurd hx (xor_ends _ _)
      cases hr : c.rsa key x with
      | none => exact .inr ⟨_, .key hb hs hx hr⟩
      | some body =>
        rcases number_cases m hn with ⟨k, hk⟩ | hk
        · exact .inl ⟨_, .key h hb hx hs hr hk⟩
        · exact .inr ⟨_, .keyNumber hb hs hx hr hk⟩
  | keyed g body k => exact .send (.password h) (by simp [silence])
  | proved g => exact waits_check rfl fun n q hn he => .inl ⟨_, .proof h he⟩
  | loggedIn g =>
    classical
    exact .silent (.login (maria := decide (IsMariaDb g.serverVersion)) h (by simp)) (by simp [silence])
  | ready i last => exact goes_ready hf h
  | asked i r =>
    have hk := (at_known hf h).2.2
    cases r with
    | status => exact waits_check rfl fun n q hn he => .inl ⟨_, .count h trivial he⟩
    | getChecksum => exact waits_check rfl fun n q hn he => .inl ⟨_, .count h trivial he⟩
    | dump =>
      obtain ⟨maria, place, checksum⟩ := i
      cases checksum with
      | none => exact absurd rfl (hk (by simp [Late]))
      | some checksum => exact .complete rfl
    | heartbeat => exact waits_check rfl fun n q hn he => .inl ⟨_, .answered h (fun h => h) (by decide) he⟩
    | setChecksum => exact waits_check rfl fun n q hn he => .inl ⟨_, .answered h (fun h => h) (by decide) he⟩
    | capability => exact waits_check rfl fun n q hn he => .inl ⟨_, .answered h (fun h => h) (by decide) he⟩
    | connectState => exact waits_check rfl fun n q hn he => .inl ⟨_, .answered h (fun h => h) (by decide) he⟩
    | strict => exact waits_check rfl fun n q hn he => .inl ⟨_, .answered h (fun h => h) (by decide) he⟩
    | duplicates => exact waits_check rfl fun n q hn he => .inl ⟨_, .answered h (fun h => h) (by decide) he⟩
    | register => exact waits_check rfl fun n q hn he => .inl ⟨_, .answered h (fun h => h) (by decide) he⟩
  | columns i r =>
    refine .waits (.inr ⟨i, r, rfl⟩) fun n q hn => ?_
    by_cases h0 : q = []
    · subst h0; exact .inr ⟨_, .empty (.inr ⟨i, r, rfl⟩)⟩
    · by_cases h1 : IsEof q
      · exact .inl ⟨_, .columnsEnd h h1⟩
      · exact .inl ⟨_, .column h h0 h1⟩
  | rows i r rs =>
    refine waits_check rfl fun n q hn he => ?_
    by_cases h1 : IsEof q
    · exact .inl ⟨_, .rowsEnd h h1⟩
    · by_cases h2 : ∃ cells, LooseRow cells q
      · obtain ⟨cells, h2⟩ := h2
        exact .inl ⟨_, .row h he h1 h2⟩
      · by_cases h3 : HugeCell q
        · exact .inr ⟨_, .hugeCell he h1 h3⟩
        · exact .inr ⟨_, .row he h1 (fun cells h => h2 ⟨cells, h⟩) h3⟩
  | result i r rs =>
    obtain ⟨-, -, hr⟩ := at_known hf h
    cases r with
    | status =>
      match rs, h with
      | [], _ => exact .fails (.rowCount (by simp))
      | [[]], _ => exact .fails .noFile
      | [[file]], _ => exact .fails .noPosition
      | [file :: text :: more], h =>
        by_cases hp : ∃ position, Number 32 position text
        · obtain ⟨position, hp⟩ := hp
          exact .silent (.end h hp) (by simp [silence])
        · exact .fails (.position fun position h => hp ⟨position, h⟩)
      | _ :: _ :: _, _ => exact .fails (.rowCount (by simp))
    | getChecksum =>
      match rs, h with
      | [], _ => exact .fails (.noChecksum (.inl rfl))
      | [] :: _, _ => exact .fails (.noChecksum (.inr rfl))
      | (name :: more) :: rs, h =>
        by_cases hc : ∃ checksum, ChecksumName checksum name
        · obtain ⟨checksum, hc⟩ := hc
          exact .silent (.checksum h hc) (by simp [silence])
        · exact .fails (.checksum fun checksum h => hc ⟨checksum, h⟩)
    | _ => exact absurd hr (fun h => h)

/-- What a server that has `input` to send leads to. -/
def Leads (m : Mode) (c : Crypto) (o : ReplicaOptions) (lost : IoKind) (input : Bytes) : Prop :=
  (∃ t maria place checksum rest, Spec.At m c o (.asked ⟨maria, place, some checksum⟩ .dump) t ∧ input = frames (receivedOf t) ++ rest ∧
    (∀ x ∈ receivedOf t, Framable x) ∧ ∀ x ∈ sentOf t, Sendable x.1) ∨
  ∃ t input' written rest st e, Stops m c o lost t input' written rest st e ∧ input = frames (receivedOf t) ++ input' ∧
    (∀ x ∈ receivedOf t, Framable x) ∧ ∀ x ∈ sentOf written, Sendable x.1

theorem leads (hf : FitsRequests o) (lost : IoKind) {input input' : Bytes} (h : Spec.At m c o st t)
    (hi : input = frames (receivedOf t) ++ input') (hr : ∀ x ∈ receivedOf t, Framable x) (hs : ∀ x ∈ sentOf t, Sendable x.1) :
    Leads m c o lost input := by
  induction hn : input'.length * 4 + silence st using Nat.strongRecOn generalizing st t input' with
  | _ N ih =>
    subst hn
    have hrec : ∀ {n : Nat} {q rest : Bytes}, input' = frame q n ++ rest →
        input = frames (receivedOf (t ++ [.received n q])) ++ rest := by
      intro n q rest h
      rw [hi, h, receivedOf_append, frames_append]
      simp [receivedOf, frames]
    have hframe : ∀ {n : Nat} {q : Bytes}, Framable (q, n) → ∀ x ∈ receivedOf (t ++ [.received n q]), Framable x := by
      intro n q hq x hx
      rw [receivedOf_append] at hx
      rcases List.mem_append.1 hx with hx | hx
      · exact hr x hx
      · obtain rfl : x = (q, n) := List.mem_singleton.1 hx
        exact hq
    cases goes_on hf h with
    | silent h' hlt => exact ih _ (by omega) h' hi hr hs rfl
    | @send st' k p h' hlt =>
      have hi' : input = frames (receivedOf (t ++ [.sent k p])) ++ input' := by
        rw [hi, receivedOf_append]
        simp [receivedOf]
      have hr' : ∀ x ∈ receivedOf (t ++ [.sent k p]), Framable x := by
        rw [receivedOf_append]
        simpa [receivedOf] using hr
      by_cases hp : Sendable p
      · refine ih _ (by omega) h' hi' hr' ?_ rfl
        intro x hx
        rw [sentOf_append] at hx
        rcases List.mem_append.1 hx with hx | hx
        · exact hs x hx
        · obtain rfl : x = (p, k) := List.mem_singleton.1 hx
          exact hp
      · exact .inr ⟨_, _, _, _, _, _, .tooLong h' hp, hi', hr', hs⟩
    | fails hf => exact .inr ⟨_, _, _, _, _, _, .stage h hf, hi, hr, hs⟩
    | waits hw hgo =>
      by_cases hp : NoPacket input'
      · exact .inr ⟨_, _, _, _, _, _, .lost h hw hp, hi, hr, hs⟩
      · unfold NoPacket at hp
        push Not at hp
        obtain ⟨q, n, rest, hq, rfl⟩ := hp
        rcases hgo n q hq.2 with ⟨st', h'⟩ | ⟨e, hf⟩
        · refine ih _ ?_ h' (hrec rfl) (hframe hq) ?_ rfl
          · have h4 : silence st' ≤ 3 := by cases st' <;> simp [silence]
            simp [frame]
            omega
          · rw [sentOf_append]
            simpa [sentOf] using hs
        · exact .inr ⟨_, _, _, _, _, _, .packet h hf, hrec rfl, hframe hq, hs⟩
    | complete hst =>
      subst hst
      exact .inl ⟨_, _, _, _, _, h, hi, hr, hs⟩

end

end MysqlCdc
