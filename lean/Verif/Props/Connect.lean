import Verif.Spec.SetUp
import Verif.Lemmas.Hoare
import Verif.Lemmas.Channel
import Verif.Props.Packets
import Verif.Lemmas.ExampleServer
/-!
# C63, C64: the connection phase
-/

namespace MysqlCdc

open Spec

/-! ## C63 -/

/-- The trace since `base` consists of replies. -/
def Inv63 (base : List Packet) (s : Sess) : Prop := ∃ t, s.chan.trace = base ++ t ∧ Replies t

/-- And the last packet was received, with the number `n`. -/
def Last63 (base : List Packet) (n : Nat) (s : Sess) : Prop :=
  ∃ t q, s.chan.trace = base ++ (t ++ [Packet.received n q]) ∧ Replies t

/-- `k` is the number to reply with. -/
def Ready63 (base : List Packet) (k : Nat) (s : Sess) : Prop := ∃ n, k = (n + 1) % 256 ∧ Last63 base n s

theorem Spec.Replies.snoc_received {t : List Packet} (h : Replies t) (n : Nat) (q : Bytes) : Replies (t ++ [.received n q]) := by
  intro pre k p post he
  rcases List.eq_nil_or_concat post with rfl | ⟨post', x, rfl⟩
  · have := congrArg List.getLast? he
    simp at this
  · rw [List.concat_eq_append] at he
    have : t = pre ++ .sent k p :: post' := by
      have := congrArg List.dropLast he
      rwa [List.dropLast_concat, ← List.cons_append, ← List.append_assoc, List.dropLast_concat] at this
    exact h pre k p post' this

theorem Spec.Replies.snoc_sent {t : List Packet} (h : Replies t) (n : Nat) (q p : Bytes) :
    Replies (t ++ [.received n q] ++ [.sent ((n + 1) % 256) p]) := by
  intro pre k p' post he
  rcases List.eq_nil_or_concat post with rfl | ⟨post', x, rfl⟩
  · have h1 := congrArg List.getLast? he
    simp only [List.getLast?_append, List.getLast?_singleton, Option.some_or, Option.some.injEq, Packet.sent.injEq] at h1
    have h2 := congrArg List.dropLast he
    rw [List.dropLast_concat, List.dropLast_concat] at h2
    exact ⟨t, n, q, h2.symm, h1.1.symm⟩
  · rw [List.concat_eq_append] at he
    have : t ++ [.received n q] = pre ++ .sent k p' :: post' := by
      have := congrArg List.dropLast he
      rwa [List.dropLast_concat, ← List.cons_append, ← List.append_assoc, List.dropLast_concat] at this
    exact (h.snoc_received n q) pre k p' post' this

theorem Last63.inv {base : List Packet} {n : Nat} {s : Sess} (h : Last63 base n s) : Inv63 base s := by
  obtain ⟨t, q, h1, h2⟩ := h
  exact ⟨_, h1, h2.snoc_received n q⟩

theorem Ready63.inv {base : List Packet} {k : Nat} {s : Sess} (h : Ready63 base k s) : Inv63 base s := h.elim fun _ h => h.2.inv

theorem read63 (base : List Packet) : Holds (Inv63 base) S.readPacket (fun r => Last63 base r.2) (fun _ => Inv63 base) := by
  rintro s ⟨t, h1, h2⟩
  unfold S.readPacket
  rcases hr : s.chan.readPacket with ⟨r, ch⟩
  cases r with
  | ok x =>
    obtain ⟨p, n⟩ := x
    obtain ⟨-, -, rest, -, rfl⟩ := readPacket_inv hr
    exact ⟨t, p, by simp [h1], h2⟩
  | err e => obtain ⟨-, rfl⟩ := readPacket_fail hr (by simp); exact ⟨t, h1, h2⟩
  | panic => obtain ⟨-, rfl⟩ := readPacket_fail hr (by simp); exact ⟨t, h1, h2⟩
  | hang => obtain ⟨-, rfl⟩ := readPacket_fail hr (by simp); exact ⟨t, h1, h2⟩

theorem write63 (base : List Packet) (p : Bytes) (k : Nat) :
    Holds (Ready63 base k) (S.writePacket p k) (fun _ => Inv63 base) (fun _ => Inv63 base) := by
  rintro s ⟨n, rfl, t, q, h1, h2⟩
  unfold S.writePacket
  obtain ⟨out, ws, hw⟩ := writePacket_frame s.chan p ((n + 1) % 256)
  rcases hr : s.chan.writePacket p ((n + 1) % 256) with ⟨r, ch⟩
  rw [hr] at hw
  simp only at hw
  subst hw
  have : ∃ t', (s.chan.trace ++ [Packet.sent ((n + 1) % 256) p]) = base ++ t' ∧ Replies t' :=
    ⟨_, by rw [h1, List.append_assoc], h2.snoc_sent n q p⟩
  cases r <;> exact this

theorem addU_next {m : Mode} {n k : Nat} (h : addU m 8 n 1 = .ok k) : k = (n + 1) % 256 := by
  unfold addU at h
  split at h
  · simp only [Res.ok.injEq] at h; omega
  · split at h
    · simp at h
    · simp only [Res.ok.injEq] at h; omega

section
variable {base : List Packet}

/-- An outcome that does not touch the session, after a read. -/
theorem lift63 {α : Type} {n : Nat} (r : Res α) :
    Holds (Last63 base n) (S.lift r) (fun a s => r = .ok a ∧ Last63 base n s) (fun _ => Inv63 base) :=
  Holds.lift r fun _ _ h => h.inv

theorem next63 {m : Mode} {n : Nat} :
    Holds (Last63 base n) (S.lift (addU m 8 n 1)) (fun k => Ready63 base k) (fun _ => Inv63 base) :=
  (lift63 _).post fun _ _ h => ⟨n, addU_next h.1, h.2⟩

/-- `(read; check)` -/
theorem readCheck63 (message : String) : Holds (Inv63 base)
    (do let (packet, _) ← S.readPacket
        S.lift (checkErrorPacket packet message)) (fun _ => Inv63 base) (fun _ => Inv63 base) :=
  (read63 base).bind fun _ => (lift63 _).post fun _ _ h => h.2.inv

theorem sha63 (m : Mode) (c : Crypto) (packet : Bytes) (scramble : RStr) (k : Nat) (ssl : Bool) :
    Holds (Ready63 base k) (authenticateSha256 m c packet scramble k ssl) (fun _ => Inv63 base) (fun _ => Inv63 base) := by
  refine .bind (Holds.lift _ fun _ _ h => h.inv) fun done => .assume fun _ => ?_
  cases done
  · refine .clientBind fun self => ?_
    cases ssl
    · refine .bind (write63 base _ _) fun _ => .bind (read63 base) fun r => .bind (lift63 _) fun _ => .assume fun _ =>
        .bind (lift63 _) fun body => .assume fun _ => .bind next63 fun next => .bind (write63 base _ _) fun _ => readCheck63 _
    · exact .bind (write63 base _ _) fun _ => readCheck63 _
  · exact .ret fun _ h => h.inv

theorem switch63 (m : Mode) (c : Crypto) (switch : AuthPluginSwitchPacket) (k : Nat) (ssl : Bool) :
    Holds (Ready63 base k) (handleAuthPluginSwitch m c switch k ssl) (fun _ => Inv63 base) (fun _ => Inv63 base) := by
  refine .bind (Holds.lift _ fun _ _ h => h.inv) fun plugin => .assume fun _ => .clientBind fun self =>
    .bind (Holds.lift _ fun _ _ h => h.inv) fun command => .assume fun _ => .bind (write63 base _ _) fun _ =>
    .bind (read63 base) fun r => .bind (lift63 _) fun _ => .assume fun _ => .ite (fun _ => ?_) fun _ => ?_
  · exact .bind next63 fun next => sha63 _ _ _ _ _ _
  · exact .ret fun _ h => h.inv

theorem ssl63 (m : Mode) (handshake : HandshakePacket) (k : Nat) :
    Holds (Ready63 base k) (negotiateSsl m handshake k) (fun r => Ready63 base r.2) (fun _ => Inv63 base) := by
  refine .clientBind fun self => .ite (fun _ => ?_) fun _ => .ret fun _ h => h
  refine .ite (fun _ => .fail _ fun _ h => h.inv) fun _ => .ite (fun _ => ?_) fun _ => .ret fun _ h => h
  exact .bind (write63 base _ _) fun _ => .bind (Holds.lift _ fun _ _ h => h) fun _ => .assume fun _ => fun s hs => hs

theorem authenticate63 (m : Mode) (c : Crypto) (handshake : HandshakePacket) (plugin : AuthPlugin) (k : Nat) :
    Holds (Ready63 base k) (authenticate m c handshake plugin k) (fun _ => Inv63 base) (fun _ => Inv63 base) := by
  refine .bind (ssl63 _ _ _) fun r => .clientBind fun self => .bind (Holds.lift _ fun _ _ h => h.inv) fun command =>
    .assume fun _ => .bind (write63 base _ _) fun _ => .bind (read63 base) fun r => .bind (lift63 _) fun _ => .assume fun _ =>
    .bind (lift63 _) fun b => .assume fun _ => .ite (fun _ => .ret fun _ h => h.inv) fun _ => .ite (fun _ => ?_) fun _ => ?_
  · exact .bind (lift63 _) fun switch => .assume fun _ => .bind next63 fun next => switch63 _ _ _ _ _
  · exact .bind next63 fun next => sha63 _ _ _ _ _ _

theorem connect63 (m : Mode) (c : Crypto) : Holds (Inv63 base) (connect m c) (fun _ => Inv63 base) (fun _ => Inv63 base) := by
  refine .bind (read63 base) fun r => .bind (lift63 _) fun _ => .assume fun _ => .bind (lift63 _) fun handshake => .assume fun _ =>
    .bind (lift63 _) fun plugin => .assume fun _ => .bind next63 fun next => .bind (authenticate63 _ _ _ _ _) fun _ => .ret fun _ h => h

end

/-- C63. Whatever the server sends, every packet of the connection phase is sent right after a packet was received, as its
answer, and carries its sequence number plus one (in one byte). -/
theorem C63_handshake_sequence_numbers (m : Mode) (c : Crypto) (s : Sess) :
    ∃ t, (connect m c s).2.chan.trace = s.chan.trace ++ t ∧ Replies t := by
  have h := connect63 (base := s.chan.trace) m c s ⟨[], by simp, fun pre k p post h => by simp at h⟩
  revert h
  rcases connect m c s with ⟨r, s'⟩
  cases r <;> exact fun h => h

/-- A login with a switch of the authentication method and a key exchange: four packets are sent, with the numbers 1, 3, 5, 7. -/
def exSwitch : List (Bytes × Nat) :=
  [(exHello "8.0.30" "mysql_native_password" 0xf7ff, 0), ([0xFE] ++ utf8Bytes "caching_sha2_password\x00abcd\x00".toList, 2),
    ([1, 4], 4), (1 :: [45, 45], 6), (exOk, 8)]

example (m : Mode) : (connect m exCrypto ⟨exUser BinlogOptions.fromStart, exChannel exSwitch⟩).1 = .ok .mySQL ∧
    (sentOf (connect m exCrypto ⟨exUser BinlogOptions.fromStart, exChannel exSwitch⟩).2.chan.trace).map (·.2) = [1, 3, 5, 7] := by
  revert m
  rintro ⟨_ | _⟩ <;> decide +kernel

/-! ## C64 -/

/-- C64. With any `ssl_mode` but `Disabled` no client is built. -/
theorem C64_no_client (o : ReplicaOptions) (h : o.sslMode ≠ .disabled) (client : Client) : Client.new o ≠ .ok client := by
  unfold Client.new
  rw [if_pos h]
  simp

/-- Nothing but requests for encryption was sent since `base`. -/
def OnlySsl (base : List Packet) (s : Sess) : Prop :=
  ∃ t, s.chan.trace = base ++ t ∧ ∀ k p, Packet.sent k p ∈ t → ∃ caps max collation, SslPacket caps max collation p

/-- Encryption was only asked for if available, and the server's greeting does not offer it. -/
def NotOffered (base : List Packet) (mode : SslMode) (s : Sess) : Prop :=
  mode = .ifAvailable ∧ ∃ n q t, s.chan.trace = base ++ .received n q :: t ∧ ∀ h, Greeting h q → ¬ hasBit h.serverCapabilities 11

/-- Only the greeting `q` has been received. -/
def Greeted (base : List Packet) (mode : SslMode) (n : Nat) (q : Bytes) (s : Sess) : Prop :=
  s.client.options.sslMode = mode ∧ s.chan.trace = base ++ [.received n q]

section
variable {base : List Packet} {mode : SslMode}

theorem Greeted.onlySsl {n : Nat} {q : Bytes} {s : Sess} (h : Greeted base mode n q s) : OnlySsl base s :=
  ⟨_, h.2, fun k p hk => by simp at hk⟩

theorem NotOffered.grows {s s' : Sess} (h : NotOffered base mode s) (hg : Grows s s') : NotOffered base mode s' := by
  obtain ⟨h0, n, q, t, h1, h2⟩ := h
  obtain ⟨t', ht⟩ := hg
  exact ⟨h0, n, q, t ++ t', by rw [← ht, h1]; simp, h2⟩

theorem ssl64 (m : Mode) (handshake : HandshakePacket) (k n : Nat) (q : Bytes) (hm : mode ≠ .disabled)
    (hq : parseHandshake.run q = .ok handshake) :
    Holds (Greeted base mode n q) (negotiateSsl m handshake k) (fun _ => NotOffered base mode)
      (fun _ s => OnlySsl base s ∨ NotOffered base mode s) := by
  refine .bind .client fun self => ?_
  have hpos : ∀ s, (self = s.client ∧ Greeted base mode n q s) → self.options.sslMode = mode := fun s h => h.1 ▸ h.2.1
  refine .ite (fun _ => ?_) fun hne s hs => absurd (hpos s hs) (fun h => hne (by rw [h]; exact hm))
  have hcap : (handshake.serverCapabilities &&& CAP_SSL != 0) = hasBit handshake.serverCapabilities 11 := by
    have := and_pow_pos handshake.serverCapabilities 11
    rw [show (1 <<< 11 : Nat) = CAP_SSL from rfl] at this
    cases hb : hasBit handshake.serverCapabilities 11 with
    | true =>
      have := this.2 hb
      simp only [bne_iff_ne, ne_eq]
      omega
    | false =>
      have h0 : ¬ (handshake.serverCapabilities &&& CAP_SSL > 0) := fun h => by simp [this.1 h] at hb
      simp only [bne_eq_false_iff_eq]
      omega
  simp only [hcap]
  refine .ite (fun _ => .fail _ fun s h => .inl h.2.onlySsl) fun hnr => .ite (fun hb => ?_) fun hb => .ret fun s h => ?_
  · refine .bind (Q := fun _ => OnlySsl base) (E := _) ?_ fun _ =>
      .bind (Holds.lift _ fun _ _ h => .inl h) fun _ => .assume fun _ => fun s hs => .inl hs
    intro s hs
    unfold S.writePacket
    obtain ⟨out, ws, hw⟩ := writePacket_frame s.chan (sslRequestCommand UTF8_MB4_GENERAL_CI) k
    rcases hr : s.chan.writePacket (sslRequestCommand UTF8_MB4_GENERAL_CI) k with ⟨r, ch⟩
    rw [hr] at hw
    simp only at hw
    subst hw
    have : ∃ t, s.chan.trace ++ [Packet.sent k (sslRequestCommand UTF8_MB4_GENERAL_CI)] = base ++ t ∧
        ∀ k p, Packet.sent k p ∈ t → ∃ caps max collation, SslPacket caps max collation p := by
      refine ⟨_, by rw [hs.2.2, List.append_assoc], fun k' p hk => ?_⟩
      simp only [List.singleton_append, List.mem_cons, reduceCtorEq, Packet.sent.injEq, List.not_mem_nil, or_false, false_or] at hk
      obtain ⟨caps, hc, -⟩ := C55_ssl_request UTF8_MB4_GENERAL_CI (by decide)
      exact ⟨caps, 0, _, hk.2 ▸ hc⟩
    cases r
    · exact this
    · exact .inl this
    · exact .inl this
    · exact .inl this
  · have hmode := hpos s h
    refine ⟨?_, n, q, [], by simpa using h.2.2, fun h' hg => ?_⟩
    · rw [hmode] at hnr
      simp only [Bool.not_eq_true] at hb
      rw [hb] at hnr
      cases mode <;> simp [SslMode.code] at hnr hm ⊢
    · have := C53_greeting_decoded h' q hg
      rw [hq] at this
      simp only [Res.ok.injEq] at this
      subst this
      exact hb

theorem connect64 (m : Mode) (c : Crypto) (hm : mode ≠ .disabled) :
    Holds (fun s => s.client.options.sslMode = mode ∧ s.chan.trace = base) (connect m c) (fun _ => NotOffered base mode)
      (fun _ s => OnlySsl base s ∨ NotOffered base mode s) := by
  refine .bind (Q := fun r => Greeted base mode r.2 r.1) ?_ fun r => ?_
  · intro s hs
    have h1 : OnlySsl base s := ⟨[], by simpa using hs.2, fun k p hk => by simp at hk⟩
    unfold S.readPacket
    rcases hr : s.chan.readPacket with ⟨r, ch⟩
    cases r with
    | ok x =>
      obtain ⟨-, -, rest, -, rfl⟩ := readPacket_inv hr
      exact ⟨hs.1, by simp [hs.2]⟩
    | err e => obtain ⟨-, rfl⟩ := readPacket_fail hr (by simp); exact .inl h1
    | panic => obtain ⟨-, rfl⟩ := readPacket_fail hr (by simp); exact .inl h1
    | hang => obtain ⟨-, rfl⟩ := readPacket_fail hr (by simp); exact .inl h1
  have hl : ∀ {α : Type} (x : Res α), Holds (Greeted base mode r.2 r.1) (S.lift x) (fun a s => x = .ok a ∧ Greeted base mode r.2 r.1 s)
      (fun _ s => OnlySsl base s ∨ NotOffered base mode s) := fun x => Holds.lift x fun _ _ h => .inl h.onlySsl
  refine .bind (hl _) fun _ => .assume fun _ => .bind (hl _) fun handshake => .assume fun hq => .bind (hl _) fun plugin =>
    .assume fun _ => .bind (hl _) fun k => .assume fun _ => .bind (Q := fun _ => NotOffered base mode) ?_ fun _ => .ret fun _ h => h
  refine .bind (ssl64 m handshake k _ _ hm hq) fun x => ?_
  refine (SRel.holds (R := Grows) ?_ fun s s' h hg => NotOffered.grows h hg).weaken fun _ _ h => .inr h
  have hR := frame_grows
  have hP := hR.toPreorder'
  refine .bind hP (.client hP) fun _ => .bind hP (.lift hP _) fun _ => .bind hP (hR.write _ _) fun _ => .bind hP hR.read fun _ =>
    .bind hP (.lift hP _) fun _ => .bind hP (.lift hP _) fun _ => ?_
  split
  · exact .pure hP _
  · split
    · exact .bind hP (.lift hP _) fun _ => .bind hP (.lift hP _) fun _ => hR.handleAuthPluginSwitch m c _ _ _
    · exact .bind hP (.lift hP _) fun _ => hR.authenticateSha256 m c _ _ _ _

end

/-- C64, for the case that `options.ssl_mode` (a public field) is changed after the client was built. Either set-up does not
succeed and nothing but requests for encryption (which hold no user data) is sent; or encryption was asked for only if
available, and the server's greeting does not offer it. -/
theorem C64_no_silent_fallback (m : Mode) (c : Crypto) (s : Sess) (h : s.client.options.sslMode ≠ .disabled) :
    ((∀ v, (setUp m c s).1 ≠ .ok v) ∧ OnlySsl s.chan.trace (setUp m c s).2) ∨
      NotOffered s.chan.trace s.client.options.sslMode (setUp m c s).2 := by
  have h1 := connect64 (base := s.chan.trace) m c h s ⟨rfl, rfl⟩
  have key : ∀ {p : S ChecksumType} {s'}, SRel Grows p → NotOffered s.chan.trace s.client.options.sslMode s' →
      NotOffered s.chan.trace s.client.options.sslMode (p s').2 := fun hp hn => hn.grows (hp _)
  unfold setUp
  rw [S.bind_eq]
  revert h1
  rcases connect m c s with ⟨r, s'⟩
  cases r with
  | ok provider =>
    intro h1
    refine .inr (key ?_ h1)
    have hR := fullFrame_grows
    have hF := hR.toFrame
    have hP := hF.toPreorder'
    refine .bind hP hR.reset fun _ => .bind hP hR.adjust fun _ =>
      .bind hP hF.setMasterHeartbeat fun _ => .bind hP hF.setMasterBinlogChecksum fun _ => .bind hP (.client hP) fun self => ?_
    cases provider
    · exact .bind hP (hF.replicateMariadb _) fun _ => .pure hP _
    · exact .bind hP (hF.replicateMysql m _) fun _ => .pure hP _
  | err e => exact fun h1 => h1.imp (fun h => ⟨by simp, h⟩) id
  | panic => exact fun h1 => h1.imp (fun h => ⟨by simp, h⟩) id
  | hang => exact fun h1 => h1.imp (fun h => ⟨by simp, h⟩) id

/-- C64. In particular, when encryption is required. -/
theorem C64_required (m : Mode) (c : Crypto) (s : Sess) (h : s.client.options.sslMode ≠ .disabled)
    (h' : s.client.options.sslMode ≠ .ifAvailable) :
    (∀ v, (setUp m c s).1 ≠ .ok v) ∧ OnlySsl s.chan.trace (setUp m c s).2 :=
  (C64_no_silent_fallback m c s h).resolve_right fun hn => h' hn.1

/-- With encryption required and offered, the request for it is the one packet sent. -/
def exSecret : Client := let u := exUser BinlogOptions.fromStart; { u with options := { u.options with sslMode := .require } }

example (m : Mode) : exSecret.options.sslMode ≠ .disabled ∧ exSecret.options.sslMode ≠ .ifAvailable ∧
    (setUp m exCrypto ⟨exSecret, exChannel [(exGreeting, 0)]⟩).1 = .panic ∧
    (sentOf (setUp m exCrypto ⟨exSecret, exChannel [(exGreeting, 0)]⟩).2.chan.trace).length = 1 := by
  revert m
  rintro ⟨_ | _⟩ <;> decide +kernel

/-- With encryption asked for if available and not offered, set-up goes on. -/
def exHopeful : Client := let u := exUser BinlogOptions.fromStart; { u with options := { u.options with sslMode := .ifAvailable } }

example (m : Mode) : exHopeful.options.sslMode ≠ .disabled ∧
    (setUp m exCrypto ⟨exHopeful, exChannel (exLogin "8.0.30" ++ exConfigured)⟩).1 = .ok .crc32 := by
  revert m
  rintro ⟨_ | _⟩ <;> decide +kernel

end MysqlCdc
