import Verif.Props.Plans
/-!
C96: how `replicate` ends, in every network.
-/

namespace MysqlCdc

open Spec

theorem address_eq (o : ReplicaOptions) : o.address = o.hostname ++ [':'] ++ Nat.toDigits 10 o.port := by
  simp [ReplicaOptions.address, showNat]

/-- What `replicate` does when there is a connection. -/
theorem replicateVia_ok {m : Mode} {c : Crypto} {client : Client} {net : RStr → Except IoKind Channel} {chan : Channel}
    (h : net (client.options.hostname ++ [':'] ++ Nat.toDigits 10 client.options.port) = .ok chan)
    (hh : client.options.heartbeatInterval + 10 * 10 ^ 9 < 2 ^ 64 * 10 ^ 9) :
    client.replicateVia m c net =
      match setUp m c ⟨client, { chan with readTimeout := client.options.heartbeatInterval + 10 * 10 ^ 9 }⟩ with
      | (.ok checksum, s) => (.ok ⟨s.chan, ⟨checksum, []⟩⟩, s.client)
      | (.err e, s) => (.err e, s.client)
      | (.panic, s) => (.panic, s.client)
      | (.hang, s) => (.hang, s.client) := by
  have ha : net client.options.address = .ok chan := by rw [← h, address_eq]
  unfold Client.replicateVia Client.replicate
  rw [ha, open_eq, readTimeoutOf_succeeds (by rw [delta_eq]; exact hh), delta_eq]
  rfl

theorem replicateVia_long {m : Mode} {c : Crypto} {client : Client} {net : RStr → Except IoKind Channel} {chan : Channel}
    (h : net (client.options.hostname ++ [':'] ++ Nat.toDigits 10 client.options.port) = .ok chan)
    (hh : 2 ^ 64 * 10 ^ 9 ≤ client.options.heartbeatInterval + 10 * 10 ^ 9) : client.replicateVia m c net = (.panic, client) := by
  have ha : net client.options.address = .ok chan := by rw [← h, address_eq]
  have hr : readTimeoutOf client.options = .panic := by
    unfold readTimeoutOf
    rw [if_neg (by rw [delta_eq]; omega)]
  unfold Client.replicateVia Client.replicate
  rw [ha, open_eq, hr]
  rfl

theorem replicateVia_unreachable {m : Mode} {c : Crypto} {client : Client} {net : RStr → Except IoKind Channel} {k : IoKind}
    (h : net (client.options.hostname ++ [':'] ++ Nat.toDigits 10 client.options.port) = .error k) :
    client.replicateVia m c net = (.err (.io k), client) := by
  have ha : net client.options.address = .error k := by rw [← h, address_eq]
  unfold Client.replicateVia Client.replicate
  rw [ha]
  rfl

/-- **C96.** In every network, with every server, and whatever connections do with what is written, `replicate` ends in one of the
ways described, and leaves the client described. -/
theorem C96_total (m : Mode) (c : Crypto) (client : Client) (net : RStr → Except IoKind Channel) (hf : FitsRequests client.options) :
    Opening m c client net (client.replicateVia m c net).1 (client.replicateVia m c net).2 := by
  cases h : net (client.options.hostname ++ [':'] ++ Nat.toDigits 10 client.options.port) with
  | error k =>
    rw [replicateVia_unreachable h]
    exact .unreachable h
  | ok chan =>
    by_cases hh : client.options.heartbeatInterval + 10 * 10 ^ 9 < 2 ^ 64 * 10 ^ 9
    · rw [replicateVia_ok h hh]
      have ht := C95_total m c ⟨client, { chan with readTimeout := client.options.heartbeatInterval + 10 * 10 ^ 9 }⟩ hf
      have hn := C95_returns m c ⟨client, { chan with readTimeout := client.options.heartbeatInterval + 10 * 10 ^ 9 }⟩ hf
      generalize setUp m c ⟨client, { chan with readTimeout := client.options.heartbeatInterval + 10 * 10 ^ 9 }⟩ = x at ht hn
      obtain ⟨r, s⟩ := x
      cases r with
      | ok checksum => exact .opened h hh ht
      | err e => exact .failed h hh ht
      | panic => exact .crashed h hh ht
      | hang => exact absurd rfl hn
    · rw [replicateVia_long h (by omega)]
      exact .waitTooLong h (by omega)

/-- **C96.** It always ends. -/
theorem C96_returns (m : Mode) (c : Crypto) (client : Client) (net : RStr → Except IoKind Channel) (hf : FitsRequests client.options) :
    (client.replicateVia m c net).1 ≠ .hang := by
  have h := C96_total m c client net hf
  intro hh
  rw [hh] at h
  cases h

/-- **C96.** When there is a stream. -/
theorem C96_opens_iff (m : Mode) (c : Crypto) (client : Client) (net : RStr → Except IoKind Channel) (hf : FitsRequests client.options)
    (checksum : ChecksumType) :
    (∃ channel client', client.replicateVia m c net = (.ok ⟨channel, ⟨checksum, []⟩⟩, client')) ↔ ∃ chan t maria place rest wire ws',
      net (client.options.hostname ++ [':'] ++ Nat.toDigits 10 client.options.port) = .ok chan ∧
      client.options.heartbeatInterval + 10 * 10 ^ 9 < 2 ^ 64 * 10 ^ 9 ∧
      Spec.At m c client.options (.asked ⟨maria, place, some checksum⟩ .dump) t ∧ chan.input = frames (receivedOf t) ++ rest ∧
      (∀ x ∈ receivedOf t, Framable x) ∧ (∀ x ∈ sentOf t, Sendable x.1) ∧ Carries chan.writes (sentOf t) wire ws' := by
  constructor
  · rintro ⟨channel, client', hx⟩
    have h := C96_total m c client net hf
    rw [hx] at h
    generalize hy : Res.ok (BinlogEvents.mk channel ⟨checksum, []⟩) = y at h
    cases h with
    | unreachable => cases hy
    | waitTooLong => cases hy
    | failed => cases hy
    | crashed => cases hy
    | @opened chan ck s h hh ho =>
      obtain rfl : checksum = ck := congrArg (fun b => b.parser.checksumType) (Res.ok.inj hy)
      obtain ⟨t, maria, place, rest, wire, ws', g⟩ := (C95_succeeds_iff m c
        ⟨client, { chan with readTimeout := client.options.heartbeatInterval + 10 * 10 ^ 9 }⟩ hf checksum).1 (by
          have := replicateVia_ok (m := m) (c := c) h hh
          rw [hx] at this
          revert this
          rcases setUp m c ⟨client, { chan with readTimeout := client.options.heartbeatInterval + 10 * 10 ^ 9 }⟩ with ⟨r, s⟩
          cases r with
          | ok ck =>
            intro this
            have := congrArg (fun b => b.parser.checksumType) (Res.ok.inj (Prod.mk.inj this).1)
            exact congrArg Res.ok this.symm
          | _ => intro this; cases (Prod.mk.inj this).1)
      exact ⟨chan, t, maria, place, rest, wire, ws', h, hh, g⟩
  · rintro ⟨chan, t, maria, place, rest, wire, ws', h, hh, g⟩
    have := (C95_succeeds_iff m c ⟨client, { chan with readTimeout := client.options.heartbeatInterval + 10 * 10 ^ 9 }⟩ hf checksum).2
      ⟨t, maria, place, rest, wire, ws', g⟩
    rw [replicateVia_ok h hh]
    revert this
    rcases setUp m c ⟨client, { chan with readTimeout := client.options.heartbeatInterval + 10 * 10 ^ 9 }⟩ with ⟨r, s⟩
    rintro rfl
    exact ⟨_, _, rfl⟩

/-- **C96.** When it panics: the time to wait is too long, or the set-up panics (C85, C95). -/
theorem C96_panics_iff (m : Mode) (c : Crypto) (client : Client) (net : RStr → Except IoKind Channel) (hf : FitsRequests client.options) :
    (client.replicateVia m c net).1 = .panic ↔ ∃ chan,
      net (client.options.hostname ++ [':'] ++ Nat.toDigits 10 client.options.port) = .ok chan ∧
      (2 ^ 64 * 10 ^ 9 ≤ client.options.heartbeatInterval + 10 * 10 ^ 9 ∨ ∃ t written input rest st wire ws',
        Stops m c client.options chan.ending t input written rest st .crash ∧ chan.input = frames (receivedOf t) ++ input ∧
        (∀ x ∈ receivedOf t, Framable x) ∧ (∀ x ∈ sentOf written, Sendable x.1) ∧ Carries chan.writes (sentOf written) wire ws') := by
  constructor
  · intro hx
    have h := C96_total m c client net hf
    rw [hx] at h
    generalize (client.replicateVia m c net).2 = client' at h
    cases h with
    | waitTooLong h hh => exact ⟨_, h, .inl hh⟩
    | @crashed chan s h hh ho =>
      refine ⟨chan, h, .inr ?_⟩
      have := (C95_panics_iff m c ⟨client, { chan with readTimeout := client.options.heartbeatInterval + 10 * 10 ^ 9 }⟩ hf).1 (by
          have := congrArg Prod.fst (replicateVia_ok (m := m) (c := c) h hh)
          rw [hx] at this
          revert this
          rcases setUp m c ⟨client, { chan with readTimeout := client.options.heartbeatInterval + 10 * 10 ^ 9 }⟩ with ⟨r, s⟩
          cases r with
          | panic => exact fun _ => rfl
          | _ => intro this; cases this)
      exact this
  · rintro ⟨chan, h, hc⟩
    by_cases hh : client.options.heartbeatInterval + 10 * 10 ^ 9 < 2 ^ 64 * 10 ^ 9
    · have := (C95_panics_iff m c ⟨client, { chan with readTimeout := client.options.heartbeatInterval + 10 * 10 ^ 9 }⟩ hf).2
        (hc.resolve_left (by omega))
      rw [replicateVia_ok h hh]
      revert this
      rcases setUp m c ⟨client, { chan with readTimeout := client.options.heartbeatInterval + 10 * 10 ^ 9 }⟩ with ⟨r, s⟩
      rintro rfl
      rfl
    · rw [replicateVia_long h (by omega)]

/-! ## Examples -/

/-- A host that cannot be reached. -/
example (m : Mode) (c : Crypto) : (exUser .fromEnd).replicateVia m c (fun _ => .error (.other 111)) = (.err (.io (.other 111)), exUser .fromEnd) :=
  replicateVia_unreachable rfl

/-- A connection over which the log-in is cut off; there is a stream all the same. -/
example (m : Mode) : ∃ channel client', (exUser .fromStart).replicateVia m exCrypto (fun _ => .ok exShort) =
    (.ok ⟨channel, ⟨.crc32, []⟩⟩, client') := by
  obtain ⟨t, maria, place, rest, wire, ws', g⟩ :=
    (C95_succeeds_iff m exCrypto ⟨exUser .fromStart, exShort⟩ exFitsStart .crc32).1 (exShort_runs m)
  exact (C96_opens_iff m exCrypto (exUser .fromStart) (fun _ => .ok exShort) exFitsStart .crc32).2
    ⟨exShort, t, maria, place, rest, wire, ws', rfl, by decide, g⟩

/-- A client whose heartbeat interval is the longest possible. -/
example (m : Mode) (c : Crypto) (ch : Channel) : ({ exUser .fromEnd with options :=
    { (exUser .fromEnd).options with heartbeatInterval := 2 ^ 64 * 10 ^ 9 - 1 } } : Client).replicateVia m c (fun _ => .ok ch) =
      (.panic, { exUser .fromEnd with options := { (exUser .fromEnd).options with heartbeatInterval := 2 ^ 64 * 10 ^ 9 - 1 } }) :=
  replicateVia_long rfl (by show 2 ^ 64 * 10 ^ 9 ≤ 2 ^ 64 * 10 ^ 9 - 1 + 10 * 10 ^ 9; omega)

end MysqlCdc
