import Verif.Props.Password
import Verif.Props.Auth
import Verif.Spec.Login
import Verif.Lemmas.ExampleServer
/-!
# C72, C73: working with a server that follows the protocol
-/

namespace MysqlCdc

open Spec

/-- The client is `c`, the server's next bytes are `input`, and every write succeeds. -/
def Waiting (c : Client) (input : Bytes) (s : Sess) : Prop := s.client = c ∧ s.chan.input = input ∧ s.chan.writes = []

/-- No failure. -/
abbrev Never : Option Err → Sess → Prop := fun _ _ => False

/-- The code ends with the value `a`. -/
def Does {α : Type} (P : Sess → Prop) (p : S α) (a : α) (Q : Sess → Prop) : Prop := Holds P p (fun x s => x = a ∧ Q s) Never

section
variable {α β : Type} {P Q : Sess → Prop}

theorem Does.bind {p : S α} {f : α → S β} {a : α} {R : β → Sess → Prop} (hp : Does P p a Q) (hf : Holds Q (f a) R Never) :
    Holds P (p >>= f) R Never :=
  Holds.bind hp fun _ => .assume fun h => h ▸ hf

theorem Does.lift {r : Res α} {a : α} (h : r = .ok a) : Does P (S.lift r) a P := by
  intro s hs
  subst h
  exact ⟨rfl, hs⟩

theorem Does.holds {p : S α} {a : α} (h : Does P p a Q) : Holds P p (fun _ => Q) Never := Holds.post h fun _ _ h => h.2

theorem Holds.run {p : S α} {R : α → Sess → Prop} (h : Holds P p R Never) {s : Sess} (hs : P s) :
    ∃ a s', p s = (.ok a, s') ∧ R a s' := by
  have := h s hs
  revert this
  rcases p s with ⟨r, s'⟩
  cases r with
  | ok x => exact fun h' => ⟨x, s', rfl, h'⟩
  | err e => exact fun h => h.elim
  | panic => exact fun h => h.elim
  | hang => exact fun h => h.elim

theorem Does.run {p : S α} {a : α} (h : Does P p a Q) {s : Sess} (hs : P s) : ∃ s', p s = (.ok a, s') ∧ Q s' := by
  have := h s hs
  revert this
  rcases p s with ⟨r, s'⟩
  cases r with
  | ok x => rintro ⟨rfl, h'⟩; exact ⟨s', rfl, h'⟩
  | err e => exact fun h => h.elim
  | panic => exact fun h => h.elim
  | hang => exact fun h => h.elim

variable {c : Client} {input : Bytes}

theorem does_read {p rest : Bytes} {n : Nat} (hp : p.length < 2 ^ 24) (hn : n < 2 ^ 8) :
    Does (Waiting c (frame p n ++ rest)) S.readPacket (p, n) (Waiting c rest) := by
  rintro s ⟨h1, h2, h3⟩
  unfold S.readPacket
  rw [readPacket_frame s.chan p rest n hp hn h2]
  exact ⟨rfl, h1, rfl, h3⟩

theorem does_write {p : Bytes} {n : Nat} (hp : p.length < 2 ^ 24) : Does (Waiting c input) (S.writePacket p n) () (Waiting c input) := by
  rintro s ⟨h1, h2, h3⟩
  unfold S.writePacket
  rw [writePacket_empty_script s.chan p n h3 hp]
  exact ⟨rfl, h1, h2, h3⟩

theorem does_client : Does (Waiting c input) S.client c (Waiting c input) := fun _ h => ⟨h.1, h⟩

end

theorem check_ok {p : Bytes} {b : UInt8} (h : p.head? = some b) (hb : b ≠ 0xFF) (message : String) : checkErrorPacket p message = .ok () := by
  cases p with
  | nil => simp at h
  | cons x xs =>
    simp only [List.head?_cons, Option.some.injEq] at h
    subst h
    simp [checkErrorPacket, RESP_ERROR, hb]

theorem byteAt_head {p : Bytes} {b : UInt8} (h : p.head? = some b) : byteAt p 0 = .ok b := by
  cases p with
  | nil => simp at h
  | cons x xs =>
    simp only [List.head?_cons, Option.some.injEq] at h
    subst h
    rfl

/-- Sizes of what the client sends while logging in: far below the limit of a packet. -/
structure SmallLogin (c : Crypto) (o : ReplicaOptions) : Prop where
  sha1 : ∀ x, (c.sha1 x).length = 20
  sha256 : ∀ x, (c.sha256 x).length = 32
  username : (utf8Bytes o.username).length < 2 ^ 20
  database : ∀ d, o.database = some d → (utf8Bytes d).length < 2 ^ 20

theorem encrypt_ok {c : Crypto} {o : ReplicaOptions} (h : SmallLogin c o) (password scramble : RStr) (plugin : AuthPlugin) :
    ∃ r, encryptPassword c password scramble plugin = .ok r ∧ r.length ≤ 32 := by
  have key : ∀ a b : Bytes, a.length ≤ 32 → b ≠ [] → ∃ r, xorBytes a b = .ok r ∧ r.length ≤ 32 := by
    intro a b ha hb
    unfold xorBytes
    rw [if_neg (by simp [hb])]
    exact ⟨_, rfl, by simpa using ha⟩
  cases plugin with
  | mySqlNativePassword =>
    refine key _ _ (by rw [h.sha1]; omega) fun he => ?_
    have := congrArg List.length he
    rw [h.sha1] at this
    simp at this
  | cachingSha2Password =>
    refine key _ _ (by rw [h.sha256]) fun he => ?_
    have := congrArg List.length he
    rw [h.sha256] at this
    simp at this

theorem authenticate_ok {c : Crypto} {o : ReplicaOptions} (h : SmallLogin c o) (g : HandshakePacket) (plugin : AuthPlugin)
    (hp : Known g.authPluginName) :
    ∃ cmd, authenticateCommand c o g plugin UTF8_MB4_GENERAL_CI = .ok cmd ∧ cmd.length < 2 ^ 24 := by
  obtain ⟨r, h1, h2⟩ := encrypt_ok h o.password g.scramble plugin
  unfold authenticateCommand
  rw [h1]
  refine ⟨_, rfl, ?_⟩
  have h3 := h.username
  have h4 : (nullTermString g.authPluginName).length ≤ 22 := by
    rcases hp with hp | hp <;> rw [hp] <;> decide +kernel
  cases hd : o.database with
  | none =>
    simp only [List.length_append, leBytes_eq, le_length, List.length_replicate, nullTermString, List.length_singleton,
      List.length_nil] at h4 ⊢
    omega
  | some d =>
    have := h.database d hd
    simp only [List.length_append, leBytes_eq, le_length, List.length_replicate, nullTermString, List.length_singleton] at h4 ⊢
    omega

theorem getAuthPlugin_known {name : RStr} (h : Known name) : ∃ plugin, getAuthPlugin name = .ok plugin := by
  rcases h with rfl | rfl
  · exact ⟨.mySqlNativePassword, by decide +kernel⟩
  · exact ⟨.cachingSha2Password, by decide +kernel⟩

theorem does_next {P : Sess → Prop} (m : Mode) {n : Nat} (h : n < 255) : Does P (S.lift (addU m 8 n 1)) (n + 1) P := by
  refine .lift ?_
  unfold addU
  rw [if_pos (by omega)]

/-- Public-key encryption with the server's key works and gives less than a packet. -/
def Encrypts (c : Crypto) (scramble : RStr) (key : Bytes) : Prop :=
  scramble ≠ [] ∧ ∀ x, ∃ body, c.rsa key x = some body ∧ body.length < 2 ^ 24

theorem xor_ok {a b : Bytes} (h : b ≠ []) : ∃ r, xorBytes a b = .ok r := by
  unfold xorBytes
  rw [if_neg (by simp [h])]
  exact ⟨_, rfl⟩

theorem rsaPassword_ok {c : Crypto} {scramble : RStr} {key : Bytes} (h : Encrypts c scramble key) (password : RStr) :
    ∃ body, rsaPassword c key password scramble = .ok body ∧ body.length < 2 ^ 24 := by
  obtain ⟨h1, h2⟩ := h
  obtain ⟨x, hx⟩ := xor_ok (a := utf8Bytes password ++ [0]) (b := utf8Bytes scramble) fun he => h1 (utf8Bytes_inj (b := []) he)
  obtain ⟨body, hb, hl⟩ := h2 x
  refine ⟨body, ?_, hl⟩
  unfold rsaPassword
  rw [hx]
  show (match c.rsa key x with | some body => Res.ok body | none => .err .openssl) = _
  rw [hb]

/-- Full authentication: key and OK packet of the server are taken. -/
theorem full_ok (m : Mode) (c : Crypto) (client : Client) {scramble : RStr} {key ok rest : Bytes} {k n : Nat} (h : Encrypts c scramble key)
    (hkey : key.length < 2 ^ 20) (hok : IsOk ok) (hn : n < 250) :
    Holds (Waiting client (frame (1 :: key) n ++ (frame ok (n + 2) ++ rest))) (authenticateSha256 m c [1, 4] scramble k false)
      (fun _ => Waiting client rest) Never := by
  obtain ⟨body, h1, h2⟩ := rsaPassword_ok h client.options.password
  unfold authenticateSha256
  refine Does.bind (a := false) (.lift (by decide +kernel)) ?_
  simp only [Bool.false_eq_true, if_false]
  refine Does.bind does_client ?_
  refine Does.bind (does_write (by decide)) ?_
  refine Does.bind (does_read (by simp; omega) (by omega)) ?_
  refine Does.bind (.lift (check_ok (b := 1) rfl (by decide) _)) ?_
  refine Does.bind (.lift h1) ?_
  refine Does.bind (does_next m (by omega)) ?_
  refine Does.bind (does_write h2) ?_
  refine Does.bind (does_read hok.2 (by omega)) ?_
  exact (Does.lift (check_ok hok.1 (by decide) _)).holds

theorem switch_ok (m : Mode) (c : Crypto) (client : Client) (small : SmallLogin c client.options) {name data : RStr} {k n : Nat}
    {p rest final : Bytes} {b : UInt8} (hname : Known name) (hp : p.length < 2 ^ 24) (hn : n < 250) (hb : p.head? = some b) (hne : b ≠ 0xFF)
    (hrest : name = CACHING_SHA2_PASSWORD → Holds (Waiting client rest) (authenticateSha256 m c p data (n + 1) false)
      (fun _ => Waiting client final) Never) (hfinal : name ≠ CACHING_SHA2_PASSWORD → rest = final) :
    Holds (Waiting client (frame p n ++ rest)) (handleAuthPluginSwitch m c ⟨name, data⟩ k false) (fun _ => Waiting client final) Never := by
  obtain ⟨plugin, hplugin⟩ := getAuthPlugin_known hname
  obtain ⟨r, h1, h2⟩ := encrypt_ok small client.options.password data plugin
  unfold handleAuthPluginSwitch
  refine Does.bind (.lift hplugin) ?_
  refine Does.bind does_client ?_
  refine Does.bind (a := r) (.lift h1) ?_
  refine Does.bind (does_write (by omega)) ?_
  refine Does.bind (does_read hp (by omega)) ?_
  refine Does.bind (.lift (check_ok hb hne _)) ?_
  by_cases hc : name = CACHING_SHA2_PASSWORD
  · simp only [hc, if_true]
    exact Does.bind (does_next m (by omega)) (hrest hc)
  · simp only [hc, if_false]
    rw [hfinal hc]
    exact fun s h => h

/-- The packet 01 03: the client returns at once. -/
theorem hash_ok (m : Mode) (c : Crypto) (client : Client) (scramble : RStr) (k : Nat) (rest : Bytes) :
    Holds (Waiting client rest) (authenticateSha256 m c [1, 3] scramble k false) (fun _ => Waiting client rest) Never := by
  unfold authenticateSha256
  refine Does.bind (a := true) (.lift (by decide +kernel)) ?_
  exact fun s h => h

/-- What the client leaves unread of the packets of the log-in. -/
inductive Leaves (packets : List (Bytes × Nat)) : Way → List (Bytes × Nat) → Prop
  | none : Leaves packets .answered []
  | ok {p : Bytes} {n : Nat} : packets.getLast? = some (p, n) → IsOk p → n < 2 ^ 8 → Leaves packets .hash [(p, n)]

/-- No encryption is wanted, or it is wanted only if the server offers it (capability 11) and the server does not. -/
def Unencrypted (mode : SslMode) (g : HandshakePacket) : Prop :=
  mode = .disabled ∨ mode = .ifAvailable ∧ ¬hasBit g.serverCapabilities 11

/-- The server accepts the hashed response or asks for the password. -/
theorem authenticate_accepts (m : Mode) (c : Crypto) (client : Client) (small : SmallLogin c client.options)
    (g : HandshakePacket) (hssl : Unencrypted client.options.sslMode g) (hg : Known g.authPluginName) (plugin : AuthPlugin) (k : Nat)
    {way : Way} {key : Option (RStr × Bytes)} {packets : List (Bytes × Nat)} {rest : Bytes}
    (h : Accepts g.authPluginName g.scramble way key packets) (hway : way ≠ .switched) (hkey : ∀ e, key = some e → Encrypts c e.1 e.2) :
    ∃ left, Leaves packets way left ∧
      Holds (Waiting client (frames packets ++ rest)) (authenticate m c g plugin k) (fun _ => Waiting client (frames left ++ rest)) Never := by
  obtain ⟨cmd, h1, h2⟩ := authenticate_ok small g plugin hg
  unfold authenticate
  have hneg : ∀ input, Does (Waiting client input) (negotiateSsl m g k) (false, k) (Waiting client input) := by
    intro input
    unfold negotiateSsl
    refine Does.bind does_client ?_
    rcases hssl with hssl | ⟨hssl, hcap⟩
    · simp only [hssl, ne_eq, not_true_eq_false, if_false]
      exact fun s h => ⟨rfl, h⟩
    · have h0 : (g.serverCapabilities &&& CAP_SSL != 0) = false := by
        have := mt (and_pow_pos g.serverCapabilities 11).1 hcap
        rw [show (1 <<< 11 : Nat) = CAP_SSL from rfl] at this
        simp only [bne_eq_false_iff_eq]
        omega
      simp only [hssl, h0]
      exact fun s h => ⟨rfl, h⟩
  cases h with
  | @ok p hp =>
    refine ⟨[], .none, Does.bind (hneg _) (Does.bind does_client (Does.bind (.lift h1) (Does.bind (does_write h2) ?_)))⟩
    simp only [frames, List.append_nil, List.nil_append]
    refine Does.bind (does_read hp.2 (by decide)) ?_
    refine Does.bind (.lift (check_ok hp.1 (by decide) _)) ?_
    refine Does.bind (a := 0) (.lift (byteAt_head hp.1)) ?_
    simp only [RESP_OK, if_true]
    exact fun s h => h
  | @fast p hp hc =>
    refine ⟨[(p, 3)], .ok rfl hp (by decide),
      Does.bind (hneg _) (Does.bind does_client (Does.bind (.lift h1) (Does.bind (does_write h2) ?_)))⟩
    simp only [frames, List.append_nil, List.append_assoc]
    refine Does.bind (does_read (by decide) (by decide)) ?_
    refine Does.bind (.lift (check_ok (b := 1) rfl (by decide) _)) ?_
    refine Does.bind (a := 1) (.lift rfl) ?_
    rw [if_neg (show ¬ (1 : UInt8) = RESP_OK by decide), if_neg (show ¬ (1 : UInt8) = RESP_EOF by decide)]
    refine Does.bind (does_next m (n := 2) (by decide)) ?_
    exact hash_ok m c client _ _ _
  | @full key p hp hc hl =>
    refine ⟨[], .none, Does.bind (hneg _) (Does.bind does_client (Does.bind (.lift h1) (Does.bind (does_write h2) ?_)))⟩
    simp only [frames, List.append_nil, List.append_assoc, List.nil_append]
    refine Does.bind (does_read (by decide) (by decide)) ?_
    refine Does.bind (.lift (check_ok (b := 1) rfl (by decide) _)) ?_
    refine Does.bind (a := 1) (.lift rfl) ?_
    rw [if_neg (show ¬ (1 : UInt8) = RESP_OK by decide), if_neg (show ¬ (1 : UInt8) = RESP_EOF by decide)]
    refine Does.bind (does_next m (by decide)) ?_
    exact full_ok m c client (hkey _ rfl) hl hp (by decide)
  | @switchNative p body data hp hb hl =>
    refine ⟨[], .none, Does.bind (hneg _) (Does.bind does_client (Does.bind (.lift h1) (Does.bind (does_write h2) ?_)))⟩
    simp only [frames, List.append_nil, List.append_assoc, List.nil_append]
    refine Does.bind (does_read (by simp; omega) (by decide)) ?_
    refine Does.bind (.lift (check_ok (b := 0xFE) rfl (by decide) _)) ?_
    refine Does.bind (a := 0xFE) (.lift rfl) ?_
    rw [if_neg (show ¬ (0xFE : UInt8) = RESP_OK by decide), if_pos (show (0xFE : UInt8) = RESP_EOF from rfl)]
    refine Does.bind (a := ⟨_, _⟩) (.lift (C54_switch_decoded _ _ hb)) ?_
    refine Does.bind (does_next m (n := 2) (by decide)) ?_
    exact switch_ok m c client small (.inl rfl) hp.2 (by decide) hp.1 (by decide) (fun h => absurd h (by decide +kernel)) fun _ => rfl
  | @switchFast p body data hp hb hl =>
    refine ⟨[(p, 5)], .ok rfl hp (by decide),
      Does.bind (hneg _) (Does.bind does_client (Does.bind (.lift h1) (Does.bind (does_write h2) ?_)))⟩
    simp only [frames, List.append_nil, List.append_assoc]
    refine Does.bind (does_read (by simp; omega) (by decide)) ?_
    refine Does.bind (.lift (check_ok (b := 0xFE) rfl (by decide) _)) ?_
    refine Does.bind (a := 0xFE) (.lift rfl) ?_
    rw [if_neg (show ¬ (0xFE : UInt8) = RESP_OK by decide), if_pos (show (0xFE : UInt8) = RESP_EOF from rfl)]
    refine Does.bind (a := ⟨_, _⟩) (.lift (C54_switch_decoded _ _ hb)) ?_
    refine Does.bind (does_next m (n := 2) (by decide)) ?_
    exact switch_ok m c client small (.inr rfl) (by decide) (by decide) rfl (by decide)
      (fun _ => hash_ok m c client _ _ _) fun h => absurd h (by decide +kernel)
  | @switchOk p body data hp hb hl => exact absurd rfl hway
  | @switchFull key p body data hp hb hl1 hl2 =>
    refine ⟨[], .none, Does.bind (hneg _) (Does.bind does_client (Does.bind (.lift h1) (Does.bind (does_write h2) ?_)))⟩
    simp only [frames, List.append_nil, List.append_assoc, List.nil_append]
    refine Does.bind (does_read (by simp; omega) (by decide)) ?_
    refine Does.bind (.lift (check_ok (b := 0xFE) rfl (by decide) _)) ?_
    refine Does.bind (a := 0xFE) (.lift rfl) ?_
    rw [if_neg (show ¬ (0xFE : UInt8) = RESP_OK by decide), if_pos (show (0xFE : UInt8) = RESP_EOF from rfl)]
    refine Does.bind (a := ⟨_, _⟩) (.lift (C54_switch_decoded _ _ hb)) ?_
    refine Does.bind (does_next m (n := 2) (by decide)) ?_
    exact switch_ok m c client small (.inr rfl) (by decide) (by decide) rfl (by decide)
      (fun _ => full_ok m c client (hkey _ rfl) hl2 hp (by decide)) fun h => absurd h (by decide +kernel)

theorem greeting_head {g : HandshakePacket} {greeting : Bytes} (hg : Greeting g greeting) (hversion : g.protocolVersion ≠ 255) :
    ∃ b, greeting.head? = some b ∧ b ≠ 0xFF := by
  cases hg with
  | @mk protocol _ _ _ _ _ _ _ _ _ versionBytes scrambleBytes extra h1 =>
    refine ⟨UInt8.ofNat protocol, by simp [le], fun he => hversion ?_⟩
    have := congrArg UInt8.toNat he
    simpa [Nat.mod_eq_of_lt h1] using this

theorem connect_accepts (m : Mode) (c : Crypto) (client : Client) (small : SmallLogin c client.options)
    (g : HandshakePacket) (hssl : Unencrypted client.options.sslMode g) (greeting : Bytes)
    (hg : Greeting g greeting) (hversion : g.protocolVersion ≠ 255) (hlen : greeting.length < 2 ^ 24) (hknown : Known g.authPluginName)
    (way : Way) (key : Option (RStr × Bytes)) (packets : List (Bytes × Nat)) (rest : Bytes)
    (h : Accepts g.authPluginName g.scramble way key packets) (hway : way ≠ .switched) (hkey : ∀ e, key = some e → Encrypts c e.1 e.2) :
    ∃ left, Leaves packets way left ∧ Holds (Waiting client (frames ((greeting, 0) :: packets) ++ rest)) (connect m c)
      (fun provider s' => (provider = .mariaDB ↔ IsMariaDb g.serverVersion) ∧ Waiting client (frames left ++ rest) s') Never := by
  obtain ⟨b, hb, hne⟩ := greeting_head hg hversion
  obtain ⟨plugin, hplugin⟩ := getAuthPlugin_known hknown
  obtain ⟨left, h1, h2⟩ := authenticate_accepts m c client small g hssl hknown plugin 1 (rest := rest) h hway hkey
  refine ⟨left, h1, ?_⟩
  simp only [frames, List.append_assoc]
  unfold connect
  refine Does.bind (does_read hlen (by decide)) ?_
  refine Does.bind (.lift (check_ok hb hne _)) ?_
  refine Does.bind (.lift (C53_greeting_decoded g greeting hg)) ?_
  refine Does.bind (.lift hplugin) ?_
  refine Does.bind (does_next m (by decide)) ?_
  refine Holds.bind h2 fun _ => ?_
  exact fun s' hs' => ⟨fromServer_maria _, hs'⟩

/-- C72. A client without TLS (or one that would use it only if offered, when it is not) logs in to every server that ends the log-in by answering the client's last packet: `connect` succeeds,
tells the kind of server from the greeting, and has taken exactly the packets of the log-in, so that what follows them answers the
client's next command. Missing: a server that accepts the hash of `caching_sha2_password`, see `C72_hash_leaves_ok` and `C72_false`. -/
theorem C72_login_partial (m : Mode) (c : Crypto) (s : Sess) (small : SmallLogin c s.client.options)
    (g : HandshakePacket) (hssl : Unencrypted s.client.options.sslMode g) (hw : s.chan.writes = []) (greeting : Bytes)
    (hg : Greeting g greeting) (hversion : g.protocolVersion ≠ 255) (hlen : greeting.length < 2 ^ 24) (hknown : Known g.authPluginName)
    (key : Option (RStr × Bytes)) (packets : List (Bytes × Nat)) (rest : Bytes)
    (h : Accepts g.authPluginName g.scramble .answered key packets) (hkey : ∀ e, key = some e → Encrypts c e.1 e.2)
    (hin : s.chan.input = frames ((greeting, 0) :: packets) ++ rest) :
    ∃ provider s', connect m c s = (.ok provider, s') ∧ (provider = .mariaDB ↔ IsMariaDb g.serverVersion) ∧
      s'.client = s.client ∧ s'.chan.input = rest ∧ s'.chan.writes = [] := by
  obtain ⟨left, h1, h2⟩ := connect_accepts m c s.client small g hssl greeting hg hversion hlen hknown _ key packets rest h (by decide) hkey
  obtain ⟨provider, s', h3, h4, h5⟩ := h2.run ⟨rfl, hin, hw⟩
  cases h1
  exact ⟨provider, s', h3, h4, h5⟩

/-- The client of the examples keeps to the sizes. -/
theorem exSmall (binlog : BinlogOptions) : SmallLogin exCrypto (exUser binlog).options :=
  ⟨fun _ => rfl, fun _ => rfl, by show (utf8Bytes "repl".toList).length < _; decide +kernel, fun d h => by cases h⟩

theorem exHello_greeting (version plugin : String) (h1 : (0 : UInt8) ∉ utf8Bytes version.toList)
    (h2 : (0 : UInt8) ∉ utf8Bytes plugin.toList) :
    Greeting ⟨10, version.toList, 77, "abcdefgh".toList ++ "ijklmnopqrst".toList, 0xc00ff7ff, 255, 2, List.replicate 6 '\x00', 21,
      plugin.toList⟩ (exHello version plugin 0xf7ff) := by
  have := Greeting.mk (protocol := 10) (id := 77) (caps := 0xc00ff7ff) (collation := 255) (status := 2) (length := 21)
    (scramble1 := "abcdefgh".toList) (scramble2 := "ijklmnopqrst".toList) (extra := [])
    (by decide) (nullTerm_of h1) (by decide) (nullTerm_of (by decide +kernel)) (by decide +kernel) (by decide) (by decide) (by decide)
    (by decide) (part2 := utf8Bytes "ijklmnopqrst".toList ++ [0]) (pluginBytes := utf8Bytes plugin.toList ++ [0])
    (by rw [if_pos (by decide)]; exact ⟨nullTerm_of (by decide +kernel), by decide +kernel⟩)
    (by rw [if_pos (by decide)]; exact nullTerm_of h2)
  simpa [exHello] using this

/-- A switch to `caching_sha2_password` and full authentication. -/
example : Accepts "mysql_native_password".toList "abcdefghijklmnopqrst".toList .answered (some ("xyz".toList, [5, 6]))
    [(0xFE :: ((utf8Bytes "caching_sha2_password".toList ++ [0]) ++ (utf8Bytes "xyz".toList ++ [0]) ++ []), 2), ([1, 4], 4),
      ([1, 5, 6], 6), (exOk, 8)] :=
  .switchFull ⟨rfl, by decide⟩ (.mk (nullTerm_of (by decide +kernel)) (nullTerm_of (by decide))) (by decide +kernel) (by decide)

example : Encrypts exCrypto "xyz".toList [5, 6] := ⟨by decide, fun _ => ⟨[1, 2, 3], rfl, by decide⟩⟩

example : Known "mysql_native_password".toList ∧ (exHello "8.0.30" "mysql_native_password" 0xf7ff).length < 2 ^ 24 ∧
    ∃ g, Greeting g (exHello "8.0.30" "mysql_native_password" 0xf7ff) ∧ g.protocolVersion ≠ 255 :=
  ⟨.inl rfl, by decide +kernel, _, exHello_greeting _ _ (by decide +kernel) (by decide +kernel), by decide⟩

/-- C72. When the server accepts the hash of `caching_sha2_password` with the packet 01 03, the client returns without waiting for the
OK packet: that packet is still to be read, and will be taken for the answer to the client's next command. -/
theorem C72_hash_leaves_ok (m : Mode) (c : Crypto) (s : Sess) (small : SmallLogin c s.client.options)
    (g : HandshakePacket) (hssl : Unencrypted s.client.options.sslMode g) (hw : s.chan.writes = []) (greeting : Bytes)
    (hg : Greeting g greeting) (hversion : g.protocolVersion ≠ 255) (hlen : greeting.length < 2 ^ 24) (hknown : Known g.authPluginName)
    (key : Option (RStr × Bytes)) (packets : List (Bytes × Nat)) (rest : Bytes)
    (h : Accepts g.authPluginName g.scramble .hash key packets)
    (hin : s.chan.input = frames ((greeting, 0) :: packets) ++ rest) :
    ∃ ok n provider s', packets.getLast? = some (ok, n) ∧ IsOk ok ∧
      connect m c s = (.ok provider, s') ∧ s'.chan.input = frame ok n ++ rest := by
  have hkey : ∀ e, key = some e → Encrypts c e.1 e.2 := by
    intro e he
    subst he
    cases h
  obtain ⟨left, h1, h2⟩ := connect_accepts m c s.client small g hssl greeting hg hversion hlen hknown _ key packets rest h (by decide) hkey
  obtain ⟨provider, s', h3, h4, h5⟩ := h2.run ⟨rfl, hin, hw⟩
  cases h1 with
  | @ok p n g1 g2 g3 => exact ⟨p, n, provider, s', g1, g2, h3, by simpa [frames] using h5.2.1⟩

/-- C72 as stated, with every way of accepting the client, is false of the code. -/
theorem C72_false (m : Mode) : ¬ ∀ (c : Crypto) (s : Sess), SmallLogin c s.client.options → s.client.options.sslMode = .disabled →
    s.chan.writes = [] → ∀ (g : HandshakePacket) (greeting : Bytes), Greeting g greeting → g.protocolVersion ≠ 255 →
    greeting.length < 2 ^ 24 → Known g.authPluginName → ∀ (way : Way) (key : Option (RStr × Bytes)) (packets : List (Bytes × Nat))
      (rest : Bytes), Accepts g.authPluginName g.scramble way key packets → (∀ e, key = some e → Encrypts c e.1 e.2) →
      s.chan.input = frames ((greeting, 0) :: packets) ++ rest →
      ∃ provider s', connect m c s = (.ok provider, s') ∧ s'.chan.input = rest := by
  intro h
  have hg := exHello_greeting "8.0.30" "caching_sha2_password" (by decide +kernel) (by decide +kernel)
  have hlen : (exHello "8.0.30" "caching_sha2_password" 0xf7ff).length < 2 ^ 24 := by decide +kernel
  let s : Sess := ⟨exUser BinlogOptions.fromStart,
    exChannel ((exHello "8.0.30" "caching_sha2_password" 0xf7ff, 0) :: [([1, 3], 2), (exOk, 3)])⟩
  have hin : s.chan.input = frames ((exHello "8.0.30" "caching_sha2_password" 0xf7ff, 0) :: [([1, 3], 2), (exOk, 3)]) ++ [] :=
    (List.append_nil _).symm
  have hacc : Accepts "caching_sha2_password".toList ("abcdefgh".toList ++ "ijklmnopqrst".toList) .hash none [([1, 3], 2), (exOk, 3)] :=
    .fast ⟨rfl, by decide⟩ rfl
  obtain ⟨p1, s1, h1, h2⟩ := h exCrypto s (exSmall _) rfl rfl _ _ hg (by decide) hlen (.inr rfl) .hash none
    [([1, 3], 2), (exOk, 3)] [] hacc (fun e he => by cases he) hin
  obtain ⟨ok, n, p2, s2, -, -, h3, h4⟩ := C72_hash_leaves_ok m exCrypto s (exSmall _) _ (.inl rfl) rfl _ hg (by decide) hlen (.inr rfl) none _ []
    hacc hin
  rw [h1] at h3
  cases h3
  rw [h2] at h4
  exact absurd (congrArg List.length h4.symm) (by simp [frame, le_length])

end MysqlCdc
