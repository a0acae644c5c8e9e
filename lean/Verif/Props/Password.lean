import Verif.Props.DumpRequest
import Verif.Spec.Auth
/-!
# C58, C71: what is sent depends on the password only through its hashes and its encryption; full authentication
-/

namespace MysqlCdc

open Spec

/-- The client with another password. -/
def Client.withPassword (c : Client) (password : RStr) : Client := { c with options := { c.options with password } }

/-- Two sessions that differ in the password only. -/
def Alike (pw1 pw2 : RStr) (s1 s2 : Sess) : Prop :=
  s1.client.options.password = pw1 ∧ s2 = { client := s1.client.withPassword pw2, chan := s1.chan }

/-- From alike sessions, equal outcomes and alike sessions. -/
def Twin {α : Type} (pw1 pw2 : RStr) (p1 p2 : S α) : Prop :=
  ∀ s1 s2, Alike pw1 pw2 s1 s2 → (p1 s1).1 = (p2 s2).1 ∧ Alike pw1 pw2 (p1 s1).2 (p2 s2).2

section
variable {pw1 pw2 : RStr} {α β : Type}

theorem Twin.bind {p1 p2 : S α} {f1 f2 : α → S β} (hp : Twin pw1 pw2 p1 p2) (hf : ∀ a, Twin pw1 pw2 (f1 a) (f2 a)) :
    Twin pw1 pw2 (p1 >>= f1) (p2 >>= f2) := by
  intro s1 s2 h
  obtain ⟨h1, h2⟩ := hp s1 s2 h
  rw [S.bind_eq, S.bind_eq]
  revert h1 h2
  rcases p1 s1 with ⟨r1, s1'⟩
  rcases p2 s2 with ⟨r2, s2'⟩
  intro h1 h2
  simp only at h1
  subst h1
  cases r1 with
  | ok a => exact hf a _ _ h2
  | err e => exact ⟨rfl, h2⟩
  | panic => exact ⟨rfl, h2⟩
  | hang => exact ⟨rfl, h2⟩

theorem Twin.bindOk {p : S α} {f1 f2 : α → S β} (hp : Twin pw1 pw2 p p) {Q : α → Prop}
    (hQ : ∀ s s' a, p s = (.ok a, s') → Q a) (hf : ∀ a, Q a → Twin pw1 pw2 (f1 a) (f2 a)) :
    Twin pw1 pw2 (p >>= f1) (p >>= f2) := by
  intro s1 s2 h
  obtain ⟨h1, h2⟩ := hp s1 s2 h
  have h3 := hQ s1
  rw [S.bind_eq, S.bind_eq]
  revert h1 h2 h3
  rcases p s1 with ⟨r1, s1'⟩
  rcases p s2 with ⟨r2, s2'⟩
  intro h1 h2 h3
  simp only at h1
  subst h1
  cases r1 with
  | ok a => exact hf a (h3 s1' a rfl) _ _ h2
  | err e => exact ⟨rfl, h2⟩
  | panic => exact ⟨rfl, h2⟩
  | hang => exact ⟨rfl, h2⟩

theorem Twin.pure (a : α) : Twin pw1 pw2 (pure a : S α) (pure a) := fun _ _ h => ⟨rfl, h⟩
theorem Twin.lift (r : Res α) : Twin pw1 pw2 (S.lift r) (S.lift r) := fun _ _ h => ⟨rfl, h⟩
theorem Twin.liftEq {r1 r2 : Res α} (h : r1 = r2) : Twin pw1 pw2 (S.lift r1) (S.lift r2) := h ▸ Twin.lift r1
theorem Twin.fail (e : Err) : Twin pw1 pw2 (S.fail e : S α) (S.fail e) := fun _ _ h => ⟨rfl, h⟩

theorem Twin.client {f1 f2 : Client → S α}
    (hf : ∀ c : Client, c.options.password = pw1 → Twin pw1 pw2 (f1 c) (f2 (c.withPassword pw2))) :
    Twin pw1 pw2 (S.client >>= f1) (S.client >>= f2) := by
  rintro s1 s2 ⟨h1, rfl⟩
  exact hf s1.client h1 s1 _ ⟨h1, rfl⟩

theorem Twin.read : Twin pw1 pw2 S.readPacket S.readPacket := by
  rintro s1 s2 ⟨h1, rfl⟩
  exact ⟨rfl, h1, rfl⟩

theorem Twin.write (p : Bytes) (n : Nat) : Twin pw1 pw2 (S.writePacket p n) (S.writePacket p n) := by
  rintro s1 s2 ⟨h1, rfl⟩
  exact ⟨rfl, h1, rfl⟩

theorem Twin.ite {c : Prop} [Decidable c] {p1 p2 q1 q2 : S α} (hp : Twin pw1 pw2 p1 p2) (hq : Twin pw1 pw2 q1 q2) :
    Twin pw1 pw2 (if c then p1 else q1) (if c then p2 else q2) := by
  split
  · exact hp
  · exact hq

theorem Twin.skipMetadata : Twin pw1 pw2 (skipMetadata : S Unit) skipMetadata := by
  intro s1
  induction hk : s1.chan.input.length using Nat.strongRecOn generalizing s1 with
  | _ k ih =>
    intro s2 h
    have hchan : s2.chan = s1.chan := by rw [h.2]
    rw [MysqlCdc.skipMetadata, MysqlCdc.skipMetadata, hchan]
    obtain ⟨h1, h2⟩ := Twin.read s1 s2 h
    revert h1 h2
    rcases S.readPacket s1 with ⟨r1, s1'⟩
    rcases S.readPacket s2 with ⟨r2, s2'⟩
    intro h1 h2
    simp only at h1
    subst h1
    have hchan' : s2'.chan = s1'.chan := by
      have := h2.2
      simp only at this
      rw [this]
    cases r1 with
    | ok a =>
      obtain ⟨packet, n⟩ := a
      cases packet with
      | nil => exact ⟨rfl, h2⟩
      | cons b bs =>
        simp only [hchan']
        split
        · exact ⟨rfl, h2⟩
        · split
          · rename_i hlt
            exact ih _ (hk ▸ hlt) s1' rfl s2' h2
          · exact ⟨rfl, h2⟩
    | err e => exact ⟨rfl, h2⟩
    | panic => exact ⟨rfl, h2⟩
    | hang => exact ⟨rfl, h2⟩

theorem Twin.readRows : Twin pw1 pw2 readRows readRows := by
  intro s1
  induction hk : s1.chan.input.length using Nat.strongRecOn generalizing s1 with
  | _ k ih =>
    intro s2 h
    have hchan : s2.chan = s1.chan := by rw [h.2]
    rw [MysqlCdc.readRows, MysqlCdc.readRows, hchan]
    obtain ⟨h1, h2⟩ := Twin.read s1 s2 h
    revert h1 h2
    rcases S.readPacket s1 with ⟨r1, s1'⟩
    rcases S.readPacket s2 with ⟨r2, s2'⟩
    intro h1 h2
    simp only at h1
    subst h1
    have hchan' : s2'.chan = s1'.chan := by
      have := h2.2
      simp only at this
      rw [this]
    cases r1 with
    | ok a =>
      obtain ⟨packet, n⟩ := a
      simp only
      cases checkErrorPacket packet "Query result set error." with
      | ok u =>
        cases packet with
        | nil => exact ⟨rfl, h2⟩
        | cons b bs =>
          simp only [hchan']
          split
          · exact ⟨rfl, h2⟩
          · cases parseResultSetRow.run (b :: bs) with
            | ok row =>
              simp only
              split
              · rename_i hlt
                obtain ⟨h3, h4⟩ := ih _ (hk ▸ hlt) s1' rfl s2' h2
                revert h3 h4
                rcases MysqlCdc.readRows s1' with ⟨r1, s1''⟩
                rcases MysqlCdc.readRows s2' with ⟨r2, s2''⟩
                intro h3 h4
                simp only at h3
                subst h3
                cases r1 <;> exact ⟨rfl, h4⟩
              · exact ⟨rfl, h2⟩
            | err e => exact ⟨rfl, h2⟩
            | panic => exact ⟨rfl, h2⟩
            | hang => exact ⟨rfl, h2⟩
      | err e => exact ⟨rfl, h2⟩
      | panic => exact ⟨rfl, h2⟩
      | hang => exact ⟨rfl, h2⟩
    | err e => exact ⟨rfl, h2⟩
    | panic => exact ⟨rfl, h2⟩
    | hang => exact ⟨rfl, h2⟩

theorem Twin.readResultSet : Twin pw1 pw2 readResultSet readResultSet :=
  .bind .read fun _ => .bind (.lift _) fun _ => .bind .skipMetadata fun _ => .readRows

end

/-- The hashed and the encrypted responses are the same for the two passwords (with possibly different ways of encrypting). -/
structure SameResponses (c1 c2 : Crypto) (pw1 pw2 : RStr) : Prop where
  hashed : ∀ scramble plugin, encryptPassword c1 pw1 scramble plugin = encryptPassword c2 pw2 scramble plugin
  encrypted : ∀ key scramble, rsaPassword c1 key pw1 scramble = rsaPassword c2 key pw2 scramble

section
variable {pw1 pw2 : RStr} {c1 c2 : Crypto} (hr : SameResponses c1 c2 pw1 pw2)
include hr

theorem twin_sha256 (m : Mode) (packet : Bytes) (scramble : RStr) (n : Nat) :
    Twin pw1 pw2 (authenticateSha256 m c1 packet scramble n false) (authenticateSha256 m c2 packet scramble n false) := by
  refine .bind (.lift _) fun done => ?_
  cases done
  · refine .client fun self hpw => ?_
    exact .bind (.write _ _) fun _ => .bind .read fun _ => .bind (.lift _) fun _ =>
      .bind (.liftEq (by rw [hpw]; exact hr.encrypted _ _)) fun _ => .bind (.lift _) fun _ => .bind (.write _ _) fun _ =>
      .bind .read fun _ => .lift _
  · exact .pure _

theorem twin_switch (m : Mode) (switch : AuthPluginSwitchPacket) (n : Nat) :
    Twin pw1 pw2 (handleAuthPluginSwitch m c1 switch n false) (handleAuthPluginSwitch m c2 switch n false) := by
  refine .bind (.lift _) fun _ => .client fun self hpw => .bind (.liftEq ?_) fun _ => .bind (.write _ _) fun _ =>
    .bind .read fun _ => .bind (.lift _) fun _ => ?_
  · rw [hpw]
    exact hr.hashed _ _
  · split
    · exact .bind (.lift _) fun _ => twin_sha256 hr m _ _ _
    · exact .pure _

omit hr in
theorem twin_negotiate (m : Mode) (h : HandshakePacket) (n : Nat) : Twin pw1 pw2 (negotiateSsl m h n) (negotiateSsl m h n) := by
  refine .client fun self _ => .ite ?_ (.pure _)
  refine .ite (.fail _) (.ite ?_ (.pure _))
  exact .bind (.write _ _) fun _ => .bind (.lift _) fun _ => .lift _

omit hr in
/-- Encryption never gets negotiated. -/
theorem negotiate_false {m : Mode} {h : HandshakePacket} {n : Nat} {s s' : Sess} {x : Bool × Nat}
    (hx : negotiateSsl m h n s = (.ok x, s')) : x.1 = false := by
  unfold negotiateSsl at hx
  obtain ⟨self, s0, h1, h2⟩ := S.bind_ok hx
  dsimp only at h2
  split at h2
  · split at h2
    · simp [S.fail, S.lift] at h2
    · split at h2
      · obtain ⟨_, s1, h3, h4⟩ := S.bind_ok h2
        obtain ⟨_, s1, h5, h6⟩ := S.bind_ok h4
        simp [S.lift] at h6
      · simp only [S.pure_eq, Prod.mk.injEq, Res.ok.injEq] at h2
        rw [← h2.1]
  · simp only [S.pure_eq, Prod.mk.injEq, Res.ok.injEq] at h2
    rw [← h2.1]

theorem twin_authenticate (m : Mode) (h : HandshakePacket) (p : AuthPlugin) (n : Nat) :
    Twin pw1 pw2 (authenticate m c1 h p n) (authenticate m c2 h p n) := by
  refine .bindOk (twin_negotiate m h n) (Q := fun x => x.1 = false) (fun s s' x hx => negotiate_false hx) ?_
  rintro ⟨ssl, n⟩ rfl
  refine .client fun self hpw => .bind (.liftEq ?_) fun _ => .bind (.write _ _) fun _ =>
    .bind .read fun _ => .bind (.lift _) fun _ => .bind (.lift _) fun _ => ?_
  · unfold authenticateCommand
    rw [hpw, hr.hashed]
    rfl
  · refine .ite (.pure _) (.ite ?_ ?_)
    · exact .bind (.lift _) fun _ => .bind (.lift _) fun _ => twin_switch hr m _ _
    · exact .bind (.lift _) fun _ => twin_sha256 hr m _ _ _

theorem twin_connect (m : Mode) : Twin pw1 pw2 (connect m c1) (connect m c2) :=
  .bind .read fun _ => .bind (.lift _) fun _ => .bind (.lift _) fun _ => .bind (.lift _) fun _ =>
    .bind (.lift _) fun _ => .bind (twin_authenticate hr m _ _ _) fun _ => .pure _

end

section
variable {pw1 pw2 : RStr}

theorem twin_adjust : Twin pw1 pw2 adjustStartingPosition adjustStartingPosition := by
  refine .client fun self hpw => .ite (.pure _) (.ite (.pure _) ?_)
  refine .bind (.write _ _) fun _ => .bind .readResultSet fun rows => .ite (.fail _) ?_
  have hset : ∀ f p, Twin pw1 pw2 (S.setClient (self.setPosition f p)) (S.setClient ((self.withPassword pw2).setPosition f p)) := by
    rintro f p s1 s2 ⟨h1, rfl⟩
    exact ⟨rfl, hpw, rfl⟩
  exact .bind (.lift _) fun f => .bind (hset f _) fun _ => .bind (.lift _) fun _ => .bind (.lift _) fun p => hset f p

theorem twin_simpleQuery (sql : RStr) (message : String) : Twin pw1 pw2 (simpleQuery sql message) (simpleQuery sql message) :=
  .bind (.write _ _) fun _ => .bind .read fun _ => .lift _

theorem twin_mariadb (id : Nat) : Twin pw1 pw2 (replicateMariadb id) (replicateMariadb id) := by
  refine .bind (twin_simpleQuery _ _) fun _ => .client fun self _ => .ite ?_ (.write _ _)
  show Twin pw1 pw2 (match self.options.binlog.gtidList with | some _ => _ | none => _)
    (match self.options.binlog.gtidList with | some _ => _ | none => _)
  cases self.options.binlog.gtidList with
  | some list =>
    refine .bind ?_ fun _ => .write _ _
    exact .bind (twin_simpleQuery _ _) fun _ => .bind (twin_simpleQuery _ _) fun _ => .bind (twin_simpleQuery _ _) fun _ =>
      .bind (.write _ _) fun _ => .bind .read fun _ => .lift _
  | none => exact .fail _

theorem twin_mysql (m : Mode) (id : Nat) : Twin pw1 pw2 (replicateMysql m id) (replicateMysql m id) := by
  refine .client fun self _ => .ite ?_ (.write _ _)
  show Twin pw1 pw2 (match self.options.binlog.gtidSet with | some _ => _ | none => _)
    (match self.options.binlog.gtidSet with | some _ => _ | none => _)
  cases self.options.binlog.gtidSet with
  | some list => exact .bind (.lift _) fun _ => .write _ _
  | none => exact .fail _

end

theorem twin_setUp {pw1 pw2 : RStr} {c1 c2 : Crypto} (hr : SameResponses c1 c2 pw1 pw2) (m : Mode) :
    Twin pw1 pw2 (setUp m c1) (setUp m c2) := by
  refine .bind (twin_connect hr m) fun provider => .bind ?_ fun _ => .bind twin_adjust fun _ => .bind ?_ fun _ => .bind ?_ fun _ =>
    .client fun self _ => ?_
  · rintro s1 s2 ⟨h1, rfl⟩
    exact ⟨rfl, h1, rfl⟩
  · exact .client fun self _ => .bind (.write _ _) fun _ => .bind .read fun _ => .lift _
  · exact .bind (.write _ _) fun _ => .bind .read fun _ => .bind (.lift _) fun _ => .bind (.write _ _) fun _ =>
      .bind .readResultSet fun _ => .bind (.lift _) fun _ => .lift _
  · cases provider with
    | mariaDB => exact .bind (twin_mariadb _) fun _ => .pure _
    | mySQL => exact .bind (twin_mysql m _) fun _ => .pure _

/-- C58. Whatever the server does, two clients that differ only in the password, and whose passwords have the same hashed and the same
encrypted responses, behave the same: set-up has the same outcome, the same bytes and packets are written and read, and the clients
afterwards again differ only in the password. -/
theorem C58_responses_only (m : Mode) (c1 c2 : Crypto) (s : Sess) (password : RStr)
    (h : SameResponses c1 c2 s.client.options.password password) :
    let s' : Sess := ⟨s.client.withPassword password, s.chan⟩
    (setUp m c2 s').1 = (setUp m c1 s).1 ∧ (setUp m c2 s').2.chan = (setUp m c1 s).2.chan ∧
      (setUp m c2 s').2.client = (setUp m c1 s).2.client.withPassword password := by
  obtain ⟨h1, h2, h3⟩ := twin_setUp h m s ⟨s.client.withPassword password, s.chan⟩ ⟨rfl, rfl⟩
  exact ⟨h1.symm, by rw [h3], by rw [h3]⟩

/-- The password is only looked at by the hash functions and, xored with the repeated scramble, by the public-key encryption. -/
structure SameView (c1 c2 : Crypto) (pw1 pw2 : RStr) : Prop where
  sha1 : c1.sha1 = c2.sha1 ∧ c1.sha1 (utf8Bytes pw1) = c1.sha1 (utf8Bytes pw2)
  sha256 : c1.sha256 = c2.sha256 ∧ c1.sha256 (utf8Bytes pw1) = c1.sha256 (utf8Bytes pw2)
  rsa : ∀ key scramble x1 x2, scramble ≠ [] → Masked scramble (utf8Bytes pw1 ++ [0]) x1 → Masked scramble (utf8Bytes pw2 ++ [0]) x2 →
    c1.rsa key x1 = c2.rsa key x2

theorem xorBytes_masked {a scramble x : Bytes} (h : xorBytes a scramble = .ok x) : Masked scramble a x := by
  unfold xorBytes at h
  split at h
  · simp at h
  · rename_i hne
    simp only [Res.ok.injEq] at h
    subst h
    refine ⟨by simp, fun i b k hb hk => ?_⟩
    rw [List.getElem?_mapIdx, hb]
    simp [List.getD, hk]

theorem xorBytes_nil {a scramble : Bytes} (ha : a ≠ []) : xorBytes a scramble = .panic ↔ scramble = [] := by
  unfold xorBytes
  constructor
  · intro h
    split at h
    · rename_i h'
      exact List.isEmpty_iff.1 h'.1
    · simp at h
  · rintro rfl
    simp [ha]

theorem SameView.responses {c1 c2 : Crypto} {pw1 pw2 : RStr} (h : SameView c1 c2 pw1 pw2) : SameResponses c1 c2 pw1 pw2 where
  hashed scramble plugin := by
    cases plugin
    · simp only [encryptPassword, ← h.sha1.1, ← h.sha1.2]
    · simp only [encryptPassword, ← h.sha256.1, ← h.sha256.2]
  encrypted key scramble := by
    unfold rsaPassword
    by_cases hs : utf8Bytes scramble = []
    · rw [(xorBytes_nil (by simp)).2 hs, (xorBytes_nil (by simp)).2 hs]
      rfl
    · have h1 : ∃ x, xorBytes (utf8Bytes pw1 ++ [0]) (utf8Bytes scramble) = .ok x := by
        unfold xorBytes; rw [if_neg (by simp [hs])]; exact ⟨_, rfl⟩
      have h2 : ∃ x, xorBytes (utf8Bytes pw2 ++ [0]) (utf8Bytes scramble) = .ok x := by
        unfold xorBytes; rw [if_neg (by simp [hs])]; exact ⟨_, rfl⟩
      obtain ⟨x1, h1⟩ := h1
      obtain ⟨x2, h2⟩ := h2
      rw [h1, h2]
      show (match c1.rsa key x1 with | some body => Res.ok body | none => .err .openssl) =
        (match c2.rsa key x2 with | some body => Res.ok body | none => .err .openssl)
      rw [h.rsa key _ x1 x2 hs (xorBytes_masked h1) (xorBytes_masked h2)]

/-- C58. For arbitrary hash functions and public-key encryption: if they do not tell two passwords apart (the encryption: the two
zero-terminated passwords masked with the scramble), then the two clients write the same bytes, whatever the server does. So nothing
else that depends on the password is ever written. -/
theorem C58_password_only_hashed_or_encrypted (m : Mode) (c1 c2 : Crypto) (s : Sess) (password : RStr)
    (h : SameView c1 c2 s.client.options.password password) :
    let s' : Sess := ⟨s.client.withPassword password, s.chan⟩
    (setUp m c2 s').2.chan.output = (setUp m c1 s).2.chan.output ∧ (setUp m c2 s').2.chan.trace = (setUp m c1 s).2.chan.trace := by
  obtain ⟨-, h2, -⟩ := C58_responses_only m c1 c2 s password h.responses
  simp only
  rw [h2]
  exact ⟨rfl, rfl⟩

/-- Two passwords, and functions that do not tell them apart. -/
example : SameView exCrypto exCrypto (exUser BinlogOptions.fromStart).options.password "another".toList :=
  ⟨⟨rfl, rfl⟩, ⟨rfl, rfl⟩, fun _ _ _ _ _ _ _ => rfl⟩

/-- The log-in with a switch of the method and encryption of the password, for both. -/
example (m : Mode) : (connect m exCrypto ⟨exUser BinlogOptions.fromStart, exChannel exSwitch⟩).1 = .ok .mySQL ∧
    (connect m exCrypto ⟨(exUser BinlogOptions.fromStart).withPassword "another".toList, exChannel exSwitch⟩).1 = .ok .mySQL := by
  revert m
  rintro ⟨_ | _⟩ <;> decide +kernel

/-! ## C71 -/

/-- Masking twice gives back the original. -/
theorem Spec.Masked.twice {scramble a x y : Bytes} (hs : scramble ≠ []) (h1 : Masked scramble a x) (h2 : Masked scramble x y) : y = a := by
  refine List.ext_getElem? fun i => ?_
  by_cases hi : i < a.length
  · have hk : i % scramble.length < scramble.length := Nat.mod_lt _ (List.length_pos_iff.2 hs)
    have := h1.2 i a[i] scramble[i % scramble.length] (List.getElem?_eq_getElem hi) (List.getElem?_eq_getElem hk)
    rw [h2.2 i _ scramble[i % scramble.length] this (List.getElem?_eq_getElem hk), List.getElem?_eq_getElem hi, UInt8.xor_assoc,
      UInt8.xor_self, UInt8.xor_zero]
  · rw [List.getElem?_eq_none (by rw [h2.1, h1.1]; omega), List.getElem?_eq_none (by omega)]

/-- C71. When the server does not accept the hashed response (its packet is not 01 03) and the log-in succeeds, the client has asked
for the server's key with the packet 02, and has then sent the zero-terminated password, masked with the scramble and encrypted with
that key. -/
theorem C71_full_authentication (m : Mode) (c : Crypto) (packet : Bytes) (scramble : RStr) (k : Nat) (s s' : Sess) (u : Unit)
    (h : authenticateSha256 m c packet scramble k false s = (.ok u, s')) (hslow : ¬ [0x01, 0x03] <+: packet) :
    ∃ n b key body n' reply x, s'.chan.trace = s.chan.trace ++
        [.sent k [0x02], .received n (b :: key), .sent ((n + 1) % 256) body, .received n' reply] ∧
      scramble ≠ [] ∧ Masked (utf8Bytes scramble) (utf8Bytes s.client.options.password ++ [0]) x ∧ c.rsa key x = some body := by
  unfold authenticateSha256 at h
  obtain ⟨done, s0, h1, h2⟩ := S.bind_ok h
  obtain ⟨hd, rfl⟩ := lift_ok h1
  cases done with
  | true =>
    refine absurd ?_ hslow
    unfold isFastAuthSuccess byteAt at hd
    match packet, hd with
    | [], hd => cases hd
    | [b], hd =>
      by_cases hb : b = 0x01
      · subst hb; cases hd
      · simp [hb, bind, Res.bind, pure] at hd
    | b :: b' :: rest, hd =>
      by_cases hb : b = 0x01
      · subst hb
        simp [bind, Res.bind, pure] at hd
        exact ⟨rest, by simp [hd]⟩
      · simp [hb, bind, Res.bind, pure] at hd
  | false =>
    simp only [Bool.false_eq_true, if_false] at h2
    obtain ⟨self, s1, h3, h4⟩ := S.bind_ok h2
    simp only [S.client, Prod.mk.injEq, Res.ok.injEq] at h3
    obtain ⟨rfl, rfl⟩ := h3
    obtain ⟨_, s2, h5, h6⟩ := S.bind_ok h4
    obtain ⟨-, t1⟩ := write_ok h5
    obtain ⟨⟨q, n⟩, s3, h7, h8⟩ := S.bind_ok h6
    obtain ⟨-, t2⟩ := read_ok h7
    obtain ⟨_, s4, h9, h10⟩ := S.bind_ok h8
    obtain ⟨hq, rfl⟩ := lift_ok h9
    obtain ⟨body, s5, h11, h12⟩ := S.bind_ok h10
    obtain ⟨hbody, rfl⟩ := lift_ok h11
    obtain ⟨next, s6, h13, h14⟩ := S.bind_ok h12
    obtain ⟨hnext, rfl⟩ := lift_ok h13
    obtain ⟨_, s7, h15, h16⟩ := S.bind_ok h14
    obtain ⟨-, t3⟩ := write_ok h15
    obtain ⟨⟨r, n'⟩, s8, h17, h18⟩ := S.bind_ok h16
    obtain ⟨-, t4⟩ := read_ok h17
    obtain ⟨-, rfl⟩ := lift_ok h18
    cases q with
    | nil => simp [checkErrorPacket] at hq
    | cons b key =>
      unfold rsaPassword at hbody
      cases hx : xorBytes (utf8Bytes s0.client.options.password ++ [0]) (utf8Bytes scramble) with
      | ok x =>
        rw [hx] at hbody
        simp only [List.drop_succ_cons, List.drop_zero] at hbody
        have hne : scramble ≠ [] := by
          rintro rfl
          have := (xorBytes_nil (a := utf8Bytes s0.client.options.password ++ [0]) (scramble := utf8Bytes []) (by simp)).2 rfl
          rw [hx] at this
          cases this
        refine ⟨n, b, key, body, n', r, x, ?_, hne, xorBytes_masked hx, ?_⟩
        · rw [t4, t3, t2, t1, addU_next hnext]
          simp
        · change (match c.rsa key x with | some body => Res.ok body | none => .err .openssl) = .ok body at hbody
          cases hr : c.rsa key x with
          | some y => rw [hr] at hbody; exact congrArg some (Res.ok.inj hbody)
          | none => rw [hr] at hbody; cases hbody
      | err e => rw [hx] at hbody; cases hbody
      | panic => rw [hx] at hbody; cases hbody
      | hang => rw [hx] at hbody; cases hbody

/-- C71. A server that can undo the encryption (`decrypt`) and unmasks with the scramble gets the zero-terminated password. -/
theorem C71_password_recovered (scramble password : RStr) (encrypt : Bytes → Option Bytes) (decrypt : Bytes → Bytes)
    (hdec : ∀ x enc, encrypt x = some enc → decrypt enc = x) (x body y : Bytes) (hs : scramble ≠ [])
    (h1 : Masked (utf8Bytes scramble) (utf8Bytes password ++ [0]) x) (h2 : encrypt x = some body)
    (h3 : Masked (utf8Bytes scramble) (decrypt body) y) : y = utf8Bytes password ++ [0] := by
  rw [hdec x body h2] at h3
  refine h1.twice ?_ h3
  intro h
  exact hs (utf8Bytes_inj (b := []) h)

/-- The log-in of `exSwitch` uses full authentication. -/
example (m : Mode) : ((connect m exCrypto ⟨exUser BinlogOptions.fromStart, exChannel exSwitch⟩).2.chan.trace.contains (.sent 5 [0x02])) = true ∧
    (connect m exCrypto ⟨exUser BinlogOptions.fromStart, exChannel exSwitch⟩).2.chan.trace.contains (.sent 7 [1, 2, 3]) = true := by
  revert m
  rintro ⟨_ | _⟩ <;> decide +kernel

end MysqlCdc
