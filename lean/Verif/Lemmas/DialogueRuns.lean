import Verif.Lemmas.Dialogue
import Verif.Lemmas.Writes
/-!
# What is left to do at each stage of the conversation, for C84
-/

namespace MysqlCdc

open Spec

theorem S.bind_assoc {α β γ : Type} (p : S α) (f : α → S β) (g : β → S γ) : (p >>= f) >>= g = p >>= fun a => f a >>= g := by
  funext s
  simp only [S.bind_eq]
  rcases p s with ⟨r, s'⟩
  cases r <;> rfl

theorem S.bind_ext {α β : Type} {p : S α} {f g : α → S β} (h : ∀ a, f a = g a) : p >>= f = p >>= g := by rw [funext h]

theorem S.bind_at {α β : Type} {p : S α} {f : α → S β} {s s' : Sess} (h : p s = p s') : (p >>= f) s = (p >>= f) s' := by
  rw [S.bind_eq, S.bind_eq, h]

theorem S.bind_done {α β : Type} {p : S α} {f : α → S β} {s s' : Sess} {a : α} (h : p s = (.ok a, s')) : (p >>= f) s = f a s' := by
  rw [S.bind_eq, h]

theorem S.pure_bind {α β : Type} (a : α) (f : α → S β) : (pure a : S α) >>= f = f a := rfl

/-- The session after the conversation `t` that led to the stage. -/
def after (c0 : Client) (ch : Channel) (rest : Bytes) (st : Stage) (t : List Packet) : Sess :=
  ⟨st.client c0, { ch with
    input := rest, output := (ch.sends (sentOf t)).output, writes := (ch.sends (sentOf t)).writes, trace := ch.trace ++ t }⟩

theorem after_free (c0 : Client) (ch : Channel) (rest : Bytes) (st : Stage) (t : List Packet) (hw : ch.writes = [])
    (hs : ∀ x ∈ sentOf t, Sendable x.1) : after c0 ch rest st t =
      ⟨st.client c0, { ch with input := rest, output := ch.output ++ frames (sentOf t), trace := ch.trace ++ t }⟩ := by
  obtain ⟨-, h1, h2⟩ := sends_free ch (sentOf t) hw hs
  unfold after
  rw [h1, h2, ← hw]

section
variable {α β : Type} {c0 : Client} {ch : Channel} {rest : Bytes} {st : Stage} {t : List Packet}

theorem run_lift {r : Res α} {a : α} {f : α → S β} {s : Sess} (h : r = .ok a) : (S.lift r >>= f) s = f a s := by
  subst h; rfl

theorem run_check {q : Bytes} {message : String} {f : Unit → S β} {s : Sess} (h : NoError q) :
    (S.lift (checkErrorPacket q message) >>= f) s = f () s := run_lift (check_iff.2 h)

theorem run_byte {b : UInt8} {q : Bytes} {f : UInt8 → S β} {s : Sess} : (S.lift (byteAt (b :: q) 0) >>= f) s = f b s := rfl

theorem run_client {f : Client → S β} : (S.client >>= f) (after c0 ch rest st t) = f (st.client c0) (after c0 ch rest st t) := rfl

theorem run_read {n : Nat} {q : Bytes} {f : Bytes × Nat → S β} (st' : Stage) (hc : st'.client c0 = st.client c0) (hq : Framable (q, n)) :
    (S.readPacket >>= f) (after c0 ch (frame q n ++ rest) st t) = f (q, n) (after c0 ch rest st' (t ++ [.received n q])) := by
  have := readPacket_frame (after c0 ch (frame q n ++ rest) st t).chan q rest n hq.1 hq.2 rfl
  rw [S.bind_eq]
  unfold S.readPacket
  rw [this]
  unfold after
  simp [hc, sentOf_append, sentOf]

theorem sends_keeps (ch : Channel) (sent : List (Bytes × Nat)) : ∃ trace, ch.sends sent =
    { ch with output := (ch.sends sent).output, writes := (ch.sends sent).writes, trace := trace } := by
  induction sent using List.reverseRecOn with
  | nil => exact ⟨_, rfl⟩
  | append_singleton sent x ih =>
    obtain ⟨trace, h⟩ := ih
    refine ⟨(ch.sends sent).trace ++ [.sent x.2 x.1], ?_⟩
    rw [sends_snoc, writePacket_keeps]
    generalize ((ch.sends sent).writePacket x.1 x.2).2 = y at *
    rw [h]

theorem write_here (p : Bytes) (n : Nat) : (after c0 ch rest st t).chan.writePacket p n = (((ch.sends (sentOf t)).writePacket p n).1,
    (after c0 ch rest st (t ++ [.sent n p])).chan) := by
  obtain ⟨trace, h⟩ := sends_keeps ch (sentOf t)
  have h1 : (after c0 ch rest st t).chan = { ch.sends (sentOf t) with input := rest, trace := ch.trace ++ t } := by
    unfold after
    generalize ch.sends (sentOf t) = y at *
    rw [h]
  have h2 : (after c0 ch rest st (t ++ [.sent n p])).chan = { ch.sends (sentOf t) with
      input := rest, output := ((ch.sends (sentOf t)).writePacket p n).2.output,
      writes := ((ch.sends (sentOf t)).writePacket p n).2.writes, trace := ch.trace ++ t ++ [.sent n p] } := by
    unfold after
    have : sentOf (t ++ [.sent n p]) = sentOf t ++ [(p, n)] := by rw [sentOf_append]; rfl
    rw [this, sends_snoc]
    generalize ((ch.sends (sentOf t)).writePacket p n).2 = z at *
    generalize ch.sends (sentOf t) = y at *
    rw [h]
    simp
  rw [h1, h2, writePacket_local]

theorem run_write {n : Nat} {p : Bytes} {f : Unit → S β} (st' : Stage) (hc : st'.client c0 = st.client c0)
    (hw : ((ch.sends (sentOf t)).writePacket p n).1 = .ok ()) :
    (S.writePacket p n >>= f) (after c0 ch rest st t) = f () (after c0 ch rest st' (t ++ [.sent n p])) := by
  rw [S.bind_eq]
  unfold S.writePacket
  rw [write_here, hw]
  unfold after
  rw [hc]

end

/-! ## What is left to do -/

/-- The dump request, then the result. -/
def fromChecksum (m : Mode) (i : Known') : S ChecksumType := do
  let self ← S.client
  let serverId := if self.options.blocking then self.options.serverId else 0
  if i.maria then replicateMariadb serverId else replicateMysql m serverId
  match i.checksum with
  | some checksum => return checksum
  | none => S.lift .panic

/-- The same, once the checksum is known. -/
def withChecksum (m : Mode) (i : Known') (checksum : ChecksumType) : S ChecksumType := fromChecksum m { i with checksum := some checksum }

def fromHeartbeat (m : Mode) (i : Known') : S ChecksumType := setMasterBinlogChecksum >>= withChecksum m i

def fromAdjusted (m : Mode) (i : Known') : S ChecksumType := setMasterHeartbeat >>= fun _ => fromHeartbeat m i

def afterDump (i : Known') : S ChecksumType :=
  match i.checksum with
  | some checksum => pure checksum
  | none => S.lift .panic

/-- The stages within `replicate_mariadb`. -/
def finish (id : Nat) (self : Client) (i : Known') : S ChecksumType := do
  S.writePacket (dumpBinlogCommand id self.options.binlog.filename self.options.binlog.position) 0
  afterDump i

def fromDuplicates (id : Nat) (self : Client) (i : Known') : S ChecksumType := do
  S.writePacket (registerSlaveCommand self.options.serverId) 0
  let (packet, _) ← S.readPacket
  S.lift (checkErrorPacket packet "Registering slave error.")
  finish id self i

def fromStrict (id : Nat) (self : Client) (i : Known') : S ChecksumType := do
  simpleQuery "SET @slave_gtid_ignore_duplicates=0".toList "Setting @slave_gtid_ignore_duplicates error."
  fromDuplicates id self i

def fromConnectState (id : Nat) (self : Client) (i : Known') : S ChecksumType := do
  simpleQuery "SET @slave_gtid_strict_mode=0".toList "Setting @slave_gtid_strict_mode error."
  fromStrict id self i

def fromCapability (id : Nat) (i : Known') : S ChecksumType := do
  let self ← S.client
  if self.options.binlog.startingStrategy = .fromGtid then
    match self.options.binlog.gtidList with
    | some gtidList =>
      simpleQuery ("SET @slave_connect_state='".toList ++ gtidList.display ++ "'".toList) "Setting @slave_connect_state error."
      fromConnectState id self i
    | none => S.fail (.str "GtidList was not specified")
  else finish id self i

def useResult (m : Mode) (self : Client) (i : Known') (r : Request) (rows : List (List RStr)) : S ChecksumType :=
  if r = .status then
    if rows.length ≠ 1 then S.fail (.str "Could not read master binlog position.")
    else do
      let filename ← S.lift (cellAt rows 0 0)
      S.setClient (self.setPosition filename self.options.binlog.position)
      let text ← S.lift (cellAt rows 0 1)
      let position ← S.lift (parseUnsigned 32 text)
      S.setClient (self.setPosition filename position)
      fromAdjusted m i
  else do
    let cell ← S.lift (cellAt rows 0 0)
    let checksum ← S.lift (ChecksumType.fromName cell)
    withChecksum m i checksum

def fromLogin (m : Mode) (g : HandshakePacket) : S ChecksumType := do
  resetOnReconnect
  adjustStartingPosition
  fromAdjusted m ⟨decide (DatabaseProvider.fromServer g.serverVersion = .mariaDB), ([], 0), none⟩

/-- What is left to do after a request has been answered. -/
def fromAnswer (m : Mode) (self : Client) (i : Known') : Option Request → S ChecksumType
  | none => adjustStartingPosition >>= fun _ => fromAdjusted m i
  | some .status => fromAdjusted m i
  | some .heartbeat => fromHeartbeat m i
  | some .setChecksum => do
    S.writePacket (queryCommand "SELECT @master_binlog_checksum".toList) 0
    let rows ← readResultSet
    useResult m self i .getChecksum rows
  | some .getChecksum => fromChecksum m i
  | some .capability => fromCapability (dumpId self.options) i
  | some .connectState => fromConnectState (dumpId self.options) self i
  | some .strict => fromStrict (dumpId self.options) self i
  | some .duplicates => fromDuplicates (dumpId self.options) self i
  | some .register => finish (dumpId self.options) self i
  | some .dump => afterDump i

/-- The message of the error when a request is refused. -/
def refusal : Request → String
  | .heartbeat => "Setting master heartbeat error."
  | .setChecksum => "Setting master_binlog_checksum error."
  | .capability => "Setting @mariadb_slave_capability error."
  | .connectState => "Setting @slave_connect_state error."
  | .strict => "Setting @slave_gtid_strict_mode error."
  | .duplicates => "Setting @slave_gtid_ignore_duplicates error."
  | .register => "Registering slave error."
  | .status | .getChecksum | .dump => ""

/-- What is left to do after a request has been sent. -/
def fromAsked (m : Mode) (self : Client) (i : Known') (r : Request) : S ChecksumType :=
  if r = .status ∨ r = .getChecksum then readResultSet >>= useResult m self i r
  else if r = .dump then afterDump i
  else do
    let (packet, _) ← S.readPacket
    S.lift (checkErrorPacket packet (refusal r))
    fromAnswer m self i (some r)

/-- What is left to do at each stage. -/
def left (m : Mode) (c : Crypto) (c0 : Client) : Stage → S ChecksumType
  | .start => setUp m c
  | .greeted g k => do
    let plugin ← S.lift (getAuthPlugin g.authPluginName)
    authenticate m c g plugin k
    fromLogin m g
  | .encrypting => S.lift .panic
  | .responded g => do
    let (packet, seqNum) ← S.readPacket
    S.lift (checkErrorPacket packet "Authentication error.")
    let b ← S.lift (byteAt packet 0)
    if b = RESP_OK then fromLogin m g
    else if b = RESP_EOF then
      let switch ← S.lift (parseAuthSwitch.run (packet.drop 1))
      let next ← S.lift (addU m 8 seqNum 1)
      handleAuthPluginSwitch m c switch next false
      fromLogin m g
    else
      let next ← S.lift (addU m 8 seqNum 1)
      authenticateSha256 m c packet g.scramble next false
      fromLogin m g
  | .switching g s k => do
    handleAuthPluginSwitch m c s k false
    fromLogin m g
  | .switched g s => do
    let (packet, seqNum) ← S.readPacket
    S.lift (checkErrorPacket packet "Authentication switch error.")
    if s.authPluginName = CACHING_SHA2_PASSWORD then
      let next ← S.lift (addU m 8 seqNum 1)
      authenticateSha256 m c packet s.authPluginData next false
      fromLogin m g
    else fromLogin m g
  | .sha2 g scramble q k => do
    authenticateSha256 m c q scramble k false
    fromLogin m g
  | .keyAsked g scramble => do
    let self ← S.client
    let (packet, seqNum) ← S.readPacket
    S.lift (checkErrorPacket packet "Requesting caching_sha2_password public key.")
    let body ← S.lift (rsaPassword c (packet.drop 1) self.options.password scramble)
    let next ← S.lift (addU m 8 seqNum 1)
    S.writePacket body next
    let (packet, _) ← S.readPacket
    S.lift (checkErrorPacket packet "Authentication error.")
    fromLogin m g
  | .keyed g body k => do
    S.writePacket body k
    let (packet, _) ← S.readPacket
    S.lift (checkErrorPacket packet "Authentication error.")
    fromLogin m g
  | .proved g => do
    let (packet, _) ← S.readPacket
    S.lift (checkErrorPacket packet "Authentication error.")
    fromLogin m g
  | .loggedIn g => fromLogin m g
  | .ready i last => fromAnswer m (restarted c0 i.place) i last
  | .asked i r => fromAsked m (restarted c0 i.place) i r
  | .columns i r => do
    (skipMetadata : S Unit)
    let rows ← readRows
    useResult m (restarted c0 i.place) i r rows
  | .rows i r rs => do
    let rows ← readRows
    useResult m (restarted c0 i.place) i r (rs ++ rows)
  | .result i r rs => useResult m (restarted c0 i.place) i r rs

/-! ## Each step of the conversation is a step of the program -/

section
variable {m : Mode} {c : Crypto} {c0 : Client} {ch : Channel}

/-- After a prefix of the conversation the stage is reached. -/
def Reached (m : Mode) (c : Crypto) (c0 : Client) (ch : Channel) (st : Stage) (t : List Packet) : Prop :=
  ∀ rest, setUp m c (after c0 ch (frames (receivedOf t) ++ rest) .start []) = left m c c0 st (after c0 ch rest st t)

theorem Reached.read {st st' : Stage} {t : List Packet} {n : Nat} {q : Bytes} (h : Reached m c c0 ch st t)
    (hs : ∀ rest, left m c c0 st (after c0 ch (frame q n ++ rest) st t) = left m c c0 st' (after c0 ch rest st' (t ++ [.received n q]))) :
    Reached m c c0 ch st' (t ++ [.received n q]) := by
  intro rest
  rw [← hs, ← h, receivedOf_append, frames_append]
  simp [receivedOf, frames]

theorem Reached.write {st st' : Stage} {t : List Packet} {n : Nat} {p : Bytes} (h : Reached m c c0 ch st t)
    (hs : ∀ rest, left m c c0 st (after c0 ch rest st t) = left m c c0 st' (after c0 ch rest st' (t ++ [.sent n p]))) :
    Reached m c c0 ch st' (t ++ [.sent n p]) := by
  intro rest
  rw [← hs, ← h, receivedOf_append, frames_append]
  simp [receivedOf, frames]

theorem Reached.send {st st' : Stage} {t : List Packet} {n : Nat} {p : Bytes} (h : Reached m c c0 ch st t)
    (hw : ((ch.sends (sentOf t)).writePacket p n).1 = .ok ()) (hc : st'.client c0 = st.client c0)
    (hs : ∀ rest, left m c c0 st (after c0 ch rest st t) = (S.writePacket p n >>= fun _ => left m c c0 st') (after c0 ch rest st t)) :
    Reached m c c0 ch st' (t ++ [.sent n p]) :=
  h.write fun rest => (hs rest).trans (run_write (st := st) st' hc hw)

theorem Reached.step {st st' : Stage} {t : List Packet} (h : Reached m c c0 ch st t)
    (hs : ∀ rest, left m c c0 st (after c0 ch rest st t) = left m c c0 st' (after c0 ch rest st' t)) : Reached m c c0 ch st' t := by
  intro rest
  rw [← hs, ← h]

theorem reached_start : Reached m c c0 ch .start [] := fun _ => rfl

theorem reached_greeting {n k : Nat} {q : Bytes} {g : HandshakePacket} (hq : Framable (q, n)) (he : NoError q) (hg : LooseGreeting g q)
    (hk : NextNumber m n k) (hm : Known g.authPluginName) : Reached m c c0 ch (.greeted g k) [.received n q] := by
  refine Reached.read (t := []) reached_start fun rest => ?_
  obtain ⟨plugin, hp⟩ := known_iff.1 hm
  simp only [left, setUp, connect, S.bind_assoc]
  rw [run_read (st := .start) (.greeted g k) rfl hq]
  simp only
  rw [run_check he, run_lift (C83_greeting_iff.2 hg), run_lift hp, run_lift ((next_iff hq.2).2 hk), run_lift hp]
  simp only [S.pure_bind, fromLogin, fromAdjusted, fromHeartbeat]
  cases DatabaseProvider.fromServer g.serverVersion <;> rfl

theorem sends_encrypt {t : List Packet} {g : HandshakePacket} {k : Nat} {rest : Bytes}
    (hm : Known g.authPluginName) (hd : c0.options.sslMode ≠ .disabled) (ho : hasBit g.serverCapabilities 11 = true) :
    left m c c0 (.greeted g k) (after c0 ch rest (.greeted g k) t) =
      (S.writePacket (clientHead (clientCaps + 2 ^ 11)) k >>= fun _ => left m c c0 .encrypting) (after c0 ch rest (.greeted g k) t) := by
  obtain ⟨plugin, hp⟩ := known_iff.1 hm
  simp only [left, authenticate, negotiateSsl, S.bind_assoc]
  rw [run_lift hp, run_client]
  simp only [ssl_offered, ho]
  rw [if_pos (by exact hd), if_neg (by simp), if_pos trivial, ssl_bytes, S.bind_assoc]
  refine congrFun (S.bind_ext fun _ => ?_) _
  funext s
  rw [S.bind_assoc, S.bind_eq]
  cases hk : addU m 8 k 1 with
  | ok a => simp [S.lift, S.bind_eq]
  | err e => exact absurd hk (by unfold addU; split <;> simp; split <;> simp)
  | panic => simp [S.lift]
  | hang => exact absurd hk (by unfold addU; split <;> simp; split <;> simp)

theorem plain_ssl {g : HandshakePacket} {o : ReplicaOptions} (hp : Plain o g) : o.sslMode = .disabled ∨ (hasBit g.serverCapabilities 11 = false ∧
    ¬ o.sslMode.code ≥ SslMode.require.code) := by
  rcases hp with h | ⟨h1, h2⟩
  · exact .inl h
  · rw [h1]; exact .inr ⟨h2, by decide⟩

theorem run_plain {t : List Packet} {g : HandshakePacket} {k : Nat} {rest : Bytes} {β : Type} {f : Bool × Nat → S β}
    (hp : Plain c0.options g) :
    (negotiateSsl m g k >>= f) (after c0 ch rest (.greeted g k) t) = f (false, k) (after c0 ch rest (.greeted g k) t) := by
  unfold negotiateSsl
  rw [S.bind_assoc, run_client]
  simp only [ssl_offered, Stage.client]
  rcases plain_ssl hp with hs | ⟨h1, h2⟩
  · rw [if_neg (by exact fun hn => hn hs)]; rfl
  · split
    · rw [if_neg (by rw [h1]; simpa using h2), if_neg (by rw [h1]; simp)]; rfl
    · rfl

theorem sends_respond {t : List Packet} {g : HandshakePacket} {k : Nat} {auth p : Bytes} {rest : Bytes} (hp : Plain c0.options g)
    (ha : AuthAnswer c c0.options.password g.scramble g.authPluginName auth) (hr : Response c0.options g.authPluginName auth p) :
    left m c c0 (.greeted g k) (after c0 ch rest (.greeted g k) t) =
      (S.writePacket p k >>= fun _ => left m c c0 (.responded g)) (after c0 ch rest (.greeted g k) t) := by
  obtain ⟨plugin, hp1, hp2⟩ := auth_iff.1 ha
  simp only [left, authenticate, S.bind_assoc]
  rw [run_lift hp1, run_plain hp]
  simp only
  rw [run_client]
  simp only [Stage.client]
  rw [run_lift (response_iff.2 ⟨auth, hp2, hr⟩)]
  refine congrFun (S.bind_ext fun _ => S.bind_ext fun x => S.bind_ext fun u => S.bind_ext fun b => ?_) _
  split
  · exact S.pure_bind _ _
  · split
    · simp only [S.bind_assoc]
    · simp only [S.bind_assoc]

theorem reached_ok {t : List Packet} {g : HandshakePacket} {n : Nat} {body : Bytes} (h : Reached m c c0 ch (.responded g) t)
    (hq : Framable (0 :: body, n)) : Reached m c c0 ch (.loggedIn g) (t ++ [.received n (0 :: body)]) := by
  refine h.read fun rest => ?_
  simp only [left]
  rw [run_read (st := .responded g) (.loggedIn g) rfl hq]
  simp only
  rw [run_check ⟨0, body, rfl, by decide⟩, run_byte, if_pos (show (0 : UInt8) = RESP_OK from rfl)]

theorem reached_switch {t : List Packet} {g : HandshakePacket} {sw : AuthPluginSwitchPacket} {n k : Nat} {body : Bytes}
    (h : Reached m c c0 ch (.responded g) t) (hq : Framable (0xFE :: body, n)) (hs : LooseSwitch sw body) (hk : NextNumber m n k) :
    Reached m c c0 ch (.switching g sw k) (t ++ [.received n (0xFE :: body)]) := by
  refine h.read fun rest => ?_
  simp only [left]
  rw [run_read (st := .responded g) (.switching g sw k) rfl hq]
  simp only
  rw [run_check ⟨0xFE, body, rfl, by decide⟩, run_byte, if_neg (by decide), if_pos (show (0xFE : UInt8) = RESP_EOF from rfl),
    run_lift (C83_switch_iff.2 (by simpa using hs)), run_lift ((next_iff hq.2).2 hk)]

theorem reached_more {t : List Packet} {g : HandshakePacket} {n k : Nat} {b : UInt8} {body : Bytes} (h : Reached m c c0 ch (.responded g) t)
    (hq : Framable (b :: body, n)) (hb : b ≠ 0 ∧ b ≠ 0xFE ∧ b ≠ 0xFF) (hk : NextNumber m n k) :
    Reached m c c0 ch (.sha2 g g.scramble (b :: body) k) (t ++ [.received n (b :: body)]) := by
  refine h.read fun rest => ?_
  simp only [left]
  rw [run_read (st := .responded g) (.sha2 g g.scramble (b :: body) k) rfl hq]
  simp only
  rw [run_check ⟨b, body, rfl, hb.2.2⟩, run_byte, if_neg (show b ≠ RESP_OK from hb.1), if_neg (show b ≠ RESP_EOF from hb.2.1), run_lift ((next_iff hq.2).2 hk)]

theorem sends_answer {t : List Packet} {g : HandshakePacket} {sw : AuthPluginSwitchPacket} {k : Nat} {auth rest : Bytes}
    (ha : AuthAnswer c c0.options.password sw.authPluginData sw.authPluginName auth) :
    left m c c0 (.switching g sw k) (after c0 ch rest (.switching g sw k) t) =
      (S.writePacket auth k >>= fun _ => left m c c0 (.switched g sw)) (after c0 ch rest (.switching g sw k) t) := by
  obtain ⟨plugin, hp1, hp2⟩ := auth_iff.1 ha
  simp only [left, handleAuthPluginSwitch, S.bind_assoc]
  rw [run_lift hp1, run_client, run_lift (a := auth) (by exact hp2)]
  refine congrFun (S.bind_ext fun _ => S.bind_ext fun x => S.bind_ext fun u => ?_) _
  split
  · simp only [S.bind_assoc]
  · exact S.pure_bind _ _

theorem reached_native {t : List Packet} {g : HandshakePacket} {sw : AuthPluginSwitchPacket} {n : Nat} {q : Bytes}
    (h : Reached m c c0 ch (.switched g sw) t) (hq : Framable (q, n)) (hm : sw.authPluginName ≠ "caching_sha2_password".toList)
    (he : NoError q) : Reached m c c0 ch (.loggedIn g) (t ++ [.received n q]) := by
  refine h.read fun rest => ?_
  simp only [left]
  rw [run_read (st := .switched g sw) (.loggedIn g) rfl hq]
  simp only
  rw [run_check he, if_neg (by exact hm)]

theorem reached_switchedSha2 {t : List Packet} {g : HandshakePacket} {sw : AuthPluginSwitchPacket} {n k : Nat} {q : Bytes}
    (h : Reached m c c0 ch (.switched g sw) t) (hq : Framable (q, n)) (hm : sw.authPluginName = "caching_sha2_password".toList)
    (he : NoError q) (hk : NextNumber m n k) : Reached m c c0 ch (.sha2 g sw.authPluginData q k) (t ++ [.received n q]) := by
  refine h.read fun rest => ?_
  simp only [left]
  rw [run_read (st := .switched g sw) (.sha2 g sw.authPluginData q k) rfl hq]
  simp only
  rw [run_check he, if_pos (by exact hm), run_lift ((next_iff hq.2).2 hk)]

theorem reached_fast {t : List Packet} {g : HandshakePacket} {scramble : RStr} {body : Bytes} {k : Nat}
    (h : Reached m c c0 ch (.sha2 g scramble (1 :: 3 :: body) k) t) : Reached m c c0 ch (.loggedIn g) t := by
  refine h.step fun rest => ?_
  simp only [left, authenticateSha256, S.bind_assoc]
  rw [run_lift (fast_iff.2 ⟨by simp, by simp, by simp⟩ : isFastAuthSuccess (1 :: 3 :: body) = .ok true), if_pos rfl, S.pure_bind]
  exact congrArg _ rfl

theorem sends_askKey {t : List Packet} {g : HandshakePacket} {scramble : RStr} {q : Bytes} {k : Nat} {rest : Bytes} (hn : q ≠ [])
    (hq : q ≠ [1] ∧ ∀ rest, q ≠ 1 :: 3 :: rest) :
    left m c c0 (.sha2 g scramble q k) (after c0 ch rest (.sha2 g scramble q k) t) =
      (S.writePacket [2] k >>= fun _ => left m c c0 (.keyAsked g scramble)) (after c0 ch rest (.sha2 g scramble q k) t) := by
  simp only [left, authenticateSha256, S.bind_assoc]
  rw [run_lift (fast_iff.2 ⟨hn, hq.1, by simpa using hq.2⟩ : isFastAuthSuccess q = .ok false), if_neg (by simp)]
  simp only [S.bind_assoc]
  rw [run_client, if_neg (by simp)]
  simp only [S.bind_assoc]
  rw [S.bind_eq, S.bind_eq]
  unfold S.writePacket
  rw [write_here]
  cases ((ch.sends (sentOf t)).writePacket [2] k).1 with
  | ok u => rfl
  | _ => rfl

theorem reached_askKey {t : List Packet} {g : HandshakePacket} {scramble : RStr} {q : Bytes} {k : Nat}
    (hw : ((ch.sends (sentOf t)).writePacket [2] k).1 = .ok ()) (h : Reached m c c0 ch (.sha2 g scramble q k) t) (hn : q ≠ [])
    (hq : q ≠ [1] ∧ ∀ rest, q ≠ 1 :: 3 :: rest) : Reached m c c0 ch (.keyAsked g scramble) (t ++ [.sent k [2]]) :=
  h.send hw rfl fun _ => sends_askKey hn hq

theorem reached_key {t : List Packet} {g : HandshakePacket} {scramble : RStr} {b : UInt8} {key x body : Bytes} {n k : Nat}
    (h : Reached m c c0 ch (.keyAsked g scramble) t) (hq : Framable (b :: key, n)) (he : b ≠ 0xFF)
    (hx : Masked (utf8Bytes scramble) (utf8Bytes c0.options.password ++ [0]) x) (hs : scramble ≠ []) (hr : c.rsa key x = some body)
    (hk : NextNumber m n k) : Reached m c c0 ch (.keyed g body k) (t ++ [.received n (b :: key)]) := by
  refine h.read fun rest => ?_
  simp only [left]
  rw [run_client, run_read (st := .keyAsked g scramble) (.keyed g body k) rfl hq]
  simp only [Stage.client]
  rw [run_check ⟨b, key, rfl, he⟩, run_lift (rsa_iff.2 ⟨x, hx, hs, by simpa using hr⟩), run_lift ((next_iff hq.2).2 hk)]

theorem reached_proof {t : List Packet} {g : HandshakePacket} {n : Nat} {q : Bytes} (h : Reached m c c0 ch (.proved g) t)
    (hq : Framable (q, n)) (he : NoError q) : Reached m c c0 ch (.loggedIn g) (t ++ [.received n q]) := by
  refine h.read fun rest => ?_
  simp only [left]
  rw [run_read (st := .proved g) (.loggedIn g) rfl hq]
  simp only
  rw [run_check he]

theorem reached_login {t : List Packet} {g : HandshakePacket} {maria : Bool} (h : Reached m c c0 ch (.loggedIn g) t)
    (hm : maria = true ↔ IsMariaDb g.serverVersion) :
    Reached m c c0 ch (.ready ⟨maria, (c0.options.binlog.filename, c0.options.binlog.position), none⟩ none) t := by
  refine h.step fun rest => ?_
  obtain rfl : maria = decide (DatabaseProvider.fromServer g.serverVersion = .mariaDB) := by
    rw [Bool.eq_iff_iff, hm, decide_eq_true_iff, fromServer_maria]
  rfl

/-! ### Requests -/

/-- A request whose answer is only checked. -/
theorem run_simple {i : Known'} {r : Request} {p : Bytes} {f : Unit → S ChecksumType} {self : Client}
    (hr : ¬r.hasResult) (hd : r ≠ .dump) (hf : f () = fromAnswer m self i (some r)) :
    ((do
      S.writePacket p 0
      let (packet, _) ← S.readPacket
      S.lift (checkErrorPacket packet (refusal r)) : S Unit) >>= f) = S.writePacket p 0 >>= fun _ => fromAsked m self i r := by
  simp only [S.bind_assoc]
  unfold fromAsked
  rw [if_neg (by rintro (rfl | rfl) <;> exact hr trivial), if_neg hd]
  exact S.bind_ext fun _ => S.bind_ext fun x => S.bind_ext fun u => hf

theorem query_eq {sql : RStr} {p : Bytes} (h : QueryPacket sql p) : p = queryCommand sql := h.trans (C55_query sql).symm

theorem register_eq {id : Nat} {p : Bytes} (h : RegisterPacket id [] [] [] 0 0 0 p) : p = registerSlaveCommand id := by
  cases h with
  | mk h1 =>
    have := C55_register id h1
    generalize registerSlaveCommand id = x at this
    cases this
    rfl

theorem dump_eq {id position : Nat} {file : RStr} {p : Bytes} (h : DumpPacket 0 id file position p) :
    p = dumpBinlogCommand id file position := by
  cases h with
  | mk h1 h2 h3 =>
    have := C55_dump id file position h3 h1
    generalize dumpBinlogCommand id file position = x at this
    cases this
    rfl

theorem dumpGtid_eq {id position : Nat} {file : RStr} {g : GtidSet} {p : Bytes} (h : DumpGtidPacket 0 id file position (setsOf g) p) :
    dumpBinlogGtidCommand m id file position g = .ok p := by
  cases h with
  | mk h1 h2 h3 h4 h5 h6 =>
    obtain ⟨packet, sets, e1, e2, rfl, -⟩ := C10_dump_request m id file position g g.uuidSets (List.Perm.refl _) h2 h3 h4 h5 h6
    rw [e1]
    cases e2
    rfl

theorem run_noEnd {t : List Packet} {i : Known'} {rest : Bytes} {f : Unit → S ChecksumType}
    (hb : (restarted c0 i.place).options = c0.options) (hs : ¬wantsEnd c0.options) :
    (adjustStartingPosition >>= f) (after c0 ch rest (.ready i none) t) = f () (after c0 ch rest (.ready i none) t) := by
  unfold adjustStartingPosition
  rw [S.bind_assoc, run_client]
  simp only [Stage.client, hb]
  split
  · rfl
  · next h1 =>
    rw [if_pos fun h2 => hs ⟨not_not.1 h1, h2⟩]
    rfl

theorem run_heartbeat {t : List Packet} {i : Known'} {last : Option Request} {p : Bytes} {rest : Bytes}
    (hp : Asks c0.options i .heartbeat p) :
    fromAdjusted m i (after c0 ch rest (.ready i last) t) =
      (S.writePacket p 0 >>= fun _ => fromAsked m (restarted c0 i.place) i .heartbeat) (after c0 ch rest (.ready i last) t) := by
  cases hp with
  | heartbeat hq =>
    obtain rfl := query_eq hq
    unfold fromAdjusted setMasterHeartbeat
    rw [S.bind_assoc, run_client]
    have : (Stage.client c0 (.ready i last)).options.heartbeatInterval / 10 ^ 6 * 1000 * 1000 =
        c0.options.heartbeatInterval / 10 ^ 6 * 10 ^ 6 := by
      show c0.options.heartbeatInterval / 10 ^ 6 * 1000 * 1000 = _
      omega
    simp only [this]
    exact congrFun (run_simple (r := .heartbeat) (fun h => h) (by decide) rfl) _

theorem run_finish {i : Known'} {p : Bytes} (hp : DumpPacket 0 (dumpId c0.options) i.place.1 i.place.2 p) :
    finish (dumpId c0.options) (restarted c0 i.place) i = S.writePacket p 0 >>= fun _ => fromAsked m (restarted c0 i.place) i .dump := by
  obtain rfl := dump_eq hp
  rfl

theorem sends_ask {t : List Packet} {i : Known'} {last : Option Request} {r : Request} {p rest : Bytes}
    (hi : last = none → i.place = (c0.options.binlog.filename, c0.options.binlog.position))
    (hm : last = some .capability ∨ last = some .register → i.maria = true)
    (ho : Order c0.options i.maria last r) (hp : Asks c0.options i r p) :
    left m c c0 (.ready i last) (after c0 ch rest (.ready i last) t) =
      (S.writePacket p 0 >>= fun _ => left m c c0 (.asked i r)) (after c0 ch rest (.ready i last) t) := by
  have hb : last = none → (restarted c0 i.place).options = c0.options := fun hn => by
    rw [hi hn]; rfl
  simp only [left]
  cases ho with
  | status hs =>
    cases hp with
    | status hq =>
      obtain rfl := query_eq hq
      simp only [fromAnswer]
      unfold adjustStartingPosition
      rw [S.bind_assoc, run_client]
      simp only [Stage.client, hb rfl]
      rw [if_neg (not_not.2 hs.1), if_neg (not_not.2 hs.2), S.bind_assoc]
      unfold fromAsked
      rw [if_pos (.inl rfl)]
      refine congrFun (S.bind_ext fun _ => (S.bind_assoc _ _ _).trans (S.bind_ext fun rows => ?_)) _
      unfold useResult
      rw [if_pos rfl]
      split
      · rfl
      · simp only [S.bind_assoc, hb rfl]
  | heartbeat hs =>
    simp only [fromAnswer]
    rw [run_noEnd (hb rfl) hs]
    exact run_heartbeat hp
  | heartbeat' => exact run_heartbeat hp
  | setChecksum =>
    cases hp with
    | setChecksum hq =>
      obtain rfl := query_eq hq
      simp only [fromAnswer]
      unfold fromHeartbeat setMasterBinlogChecksum
      simp only [S.bind_assoc]
      refine congrFun (Eq.trans ?_ (run_simple (m := m) (r := .setChecksum)
        (f := fun _ => fromAnswer m (restarted c0 i.place) i (some .setChecksum)) (fun h => h) (by decide) rfl)) _
      simp only [S.bind_assoc, fromAnswer]
      refine (S.bind_ext fun _ => S.bind_ext fun _ => S.bind_ext fun _ => S.bind_ext fun _ => S.bind_ext fun rows => ?_)
      unfold useResult
      rw [if_neg (by decide)]
  | getChecksum =>
    cases hp with
    | getChecksum hq =>
      obtain rfl := query_eq hq
      simp only [fromAnswer]
      unfold fromAsked
      rw [if_pos (.inr rfl)]
  | mysql hm' =>
    simp only [fromAnswer]
    unfold fromChecksum
    rw [run_client]
    simp only [hm']
    rw [if_neg (by decide)]
    change (replicateMysql m (dumpId c0.options) >>= fun _ => afterDump i) _ = (S.writePacket p 0 >>= fun _ => afterDump i) _
    unfold replicateMysql
    rw [S.bind_assoc, run_client]
    cases hp with
    | dump hs hq =>
      obtain rfl := dump_eq hq
      have hs : c0.options.binlog.startingStrategy ≠ .fromGtid := hs.resolve_right (by simp [hm'])
      simp only
      rw [if_neg (by exact hs)]
      rfl
    | dumpGtid hs _ hg hq =>
      simp only
      rw [if_pos (by exact hs)]
      have hg' : (Stage.client c0 (.ready i (some .getChecksum))).options.binlog.gtidSet = some _ := hg
      simp only [hg']
      rw [S.bind_assoc, run_lift (a := p) (by exact dumpGtid_eq hq)]
  | capability hm' =>
    cases hp with
    | capability hq =>
      obtain rfl := query_eq hq
      simp only [fromAnswer]
      unfold fromChecksum
      rw [run_client]
      simp only [hm']
      rw [if_pos trivial]
      change (replicateMariadb (dumpId c0.options) >>= fun _ => afterDump i) _ = _
      refine congrFun (Eq.trans ?_ (run_simple (m := m) (r := .capability) (self := restarted c0 i.place)
        (f := fun _ => fromCapability (dumpId c0.options) i) (fun h => h)
        (by decide) rfl)) _
      unfold replicateMariadb simpleQuery
      simp only [S.bind_assoc]
      refine (S.bind_ext fun _ => S.bind_ext fun _ => S.bind_ext fun _ => S.bind_ext fun self => ?_)
      split
      · cases hg : self.options.binlog.gtidList with
        | some l =>
          simp only [S.bind_assoc, registerGtidSlave]
          rfl
        | none => rfl
      · rfl
  | position hs =>
    have hp := (show DumpPacket _ _ _ _ _ by
      cases hp with
      | dump _ hq => exact hq
      | dumpGtid hs' => exact absurd hs' hs)
    simp only [fromAnswer]
    unfold fromCapability
    rw [run_client, if_neg (by exact hs)]
    exact congrFun (run_finish hp) _
  | connectState hs =>
    cases hp with
    | connectState hg hq =>
      obtain rfl := query_eq hq
      simp only [fromAnswer]
      unfold fromCapability
      rw [run_client, if_pos (by exact hs)]
      have hg' : (Stage.client c0 (.ready i (some .capability))).options.binlog.gtidList = some _ := hg
      simp only [hg', display_iff]
      exact congrFun (run_simple (r := .connectState) (fun h => h) (by decide) rfl) _
  | strict =>
    cases hp with
    | strict hq =>
      obtain rfl := query_eq hq
      exact congrFun (run_simple (r := .strict) (fun h => h) (by decide) rfl) _
  | duplicates =>
    cases hp with
    | duplicates hq =>
      obtain rfl := query_eq hq
      exact congrFun (run_simple (r := .duplicates) (fun h => h) (by decide) rfl) _
  | register =>
    cases hp with
    | register hq =>
      obtain rfl := register_eq hq
      refine congrFun (Eq.trans ?_ (run_simple (r := .register) (f := fun _ => finish (dumpId c0.options) (restarted c0 i.place) i)
        (fun h => h) (by decide) rfl)) _
      simp only [fromAnswer]
      unfold fromDuplicates
      simp only [S.bind_assoc]
      rfl
  | dump =>
    have hp := (show DumpPacket _ _ _ _ _ by
      cases hp with
      | dump _ hq => exact hq
      | dumpGtid _ hm' => rw [hm (.inr rfl)] at hm'; cases hm')
    exact congrFun (run_finish hp) _

theorem reached_answered {t : List Packet} {i : Known'} {r : Request} {n : Nat} {q : Bytes} (h : Reached m c c0 ch (.asked i r) t)
    (hq : Framable (q, n)) (hr : ¬r.hasResult) (hd : r ≠ .dump) (he : NoError q) :
    Reached m c c0 ch (.ready i (some r)) (t ++ [.received n q]) := by
  refine h.read fun rest => ?_
  simp only [left, fromAsked]
  rw [if_neg (by rintro (rfl | rfl) <;> exact hr trivial), if_neg hd, run_read (st := .asked i r) (.ready i (some r)) rfl hq]
  simp only
  rw [run_check he]

theorem hasResult_iff {r : Request} : r.hasResult ↔ r = .status ∨ r = .getChecksum := by
  cases r <;> simp [Request.hasResult]

theorem reached_count {t : List Packet} {i : Known'} {r : Request} {n : Nat} {q : Bytes} (h : Reached m c c0 ch (.asked i r) t)
    (hq : Framable (q, n)) (hr : r.hasResult) (he : NoError q) : Reached m c c0 ch (.columns i r) (t ++ [.received n q]) := by
  refine h.read fun rest => ?_
  simp only [left, fromAsked]
  rw [if_pos (hasResult_iff.1 hr)]
  unfold readResultSet
  simp only [S.bind_assoc]
  rw [run_read (st := .asked i r) (.columns i r) rfl hq]
  simp only
  rw [run_check he]
  exact congrFun (S.bind_assoc (skipMetadata : S Unit) (fun _ => readRows) (useResult m (restarted c0 i.place) i r)) _

theorem read_here {rest : Bytes} {st : Stage} {t : List Packet} {n : Nat} {q : Bytes} (st' : Stage) (hc : st'.client c0 = st.client c0)
    (hq : Framable (q, n)) :
    S.readPacket (after c0 ch (frame q n ++ rest) st t) = (.ok (q, n), after c0 ch rest st' (t ++ [.received n q])) := by
  have := run_read (rest := rest) (ch := ch) (t := t) (f := (pure : _ → S (Bytes × Nat))) st' hc hq
  rw [S.pure_eq, S.bind_eq] at this
  revert this
  rcases S.readPacket (after c0 ch (frame q n ++ rest) st t) with ⟨r, s⟩
  cases r <;> simp [S.pure_eq]

theorem input_shrinks {rest : Bytes} {st st' : Stage} {t t' : List Packet} {n : Nat} {q : Bytes} :
    (after c0 ch rest st' t').chan.input.length < (after c0 ch (frame q n ++ rest) st t).chan.input.length := by
  show rest.length < (frame q n ++ rest).length
  simp [frame]
  omega

theorem not_eof {b : UInt8} {q : Bytes} (h : ¬IsEof (b :: q)) : b ≠ RESP_EOF := fun hb => h ⟨q, by rw [hb]; rfl⟩

theorem reached_column {t : List Packet} {i : Known'} {r : Request} {n : Nat} {q : Bytes} (h : Reached m c c0 ch (.columns i r) t)
    (hq : Framable (q, n)) (hn : q ≠ []) (he : ¬IsEof q) : Reached m c c0 ch (.columns i r) (t ++ [.received n q]) := by
  refine h.read fun rest => ?_
  simp only [left]
  refine S.bind_at (p := skipMetadata) ?_
  rw [skipMetadata, read_here (.columns i r) rfl hq]
  cases q with
  | nil => exact absurd rfl hn
  | cons b body =>
    simp only
    rw [if_neg (not_eof he), if_pos input_shrinks]

theorem reached_columnsEnd {t : List Packet} {i : Known'} {r : Request} {n : Nat} {q : Bytes} (h : Reached m c c0 ch (.columns i r) t)
    (hq : Framable (q, n)) (he : IsEof q) : Reached m c c0 ch (.rows i r []) (t ++ [.received n q]) := by
  refine h.read fun rest => ?_
  obtain ⟨body, rfl⟩ := he
  simp only [left]
  refine S.bind_done (p := skipMetadata) (a := ()) ?_
  rw [skipMetadata, read_here (st := .columns i r) (.rows i r []) rfl hq]
  simp only
  rw [if_pos (show (0xFE : UInt8) = RESP_EOF from rfl)]

theorem cons_rows (cells : List RStr) (s : Sess) : (match readRows s with
    | (.ok rows, s'') => (.ok (cells :: rows), s'')
    | (.err e, s'') => (.err e, s'')
    | (.panic, s'') => (.panic, s'')
    | (.hang, s'') => (.hang, s'')) = (do
      let rows ← readRows
      return cells :: rows : S (List (List RStr))) s := by
  refine Eq.trans ?_ (S.bind_eq (readRows : S _) _ _).symm
  generalize readRows s = x
  obtain ⟨res, s'⟩ := x
  cases res <;> rfl

theorem reached_row {t : List Packet} {i : Known'} {r : Request} {rs : List (List RStr)} {n : Nat} {q : Bytes} {cells : List RStr}
    (h : Reached m c c0 ch (.rows i r rs) t) (hq : Framable (q, n)) (he : NoError q) (hn : ¬IsEof q) (hc : LooseRow cells q) :
    Reached m c c0 ch (.rows i r (rs ++ [cells])) (t ++ [.received n q]) := by
  refine h.read fun rest => ?_
  simp only [left]
  have key : readRows (after c0 ch (frame q n ++ rest) (.rows i r rs) t) = ((do
      let rows ← readRows
      return cells :: rows : S (List (List RStr))) (after c0 ch rest (.rows i r (rs ++ [cells])) (t ++ [.received n q]))) := by
    rw [readRows, read_here (st := .rows i r rs) (.rows i r (rs ++ [cells])) rfl hq]
    simp only
    rw [(check_iff (u := ())).2 he]
    obtain ⟨b, body, rfl, hb⟩ := he
    simp only
    rw [if_neg (not_eof hn), C83_row_iff.2 hc]
    simp only
    rw [if_pos input_shrinks]
    exact cons_rows _ _
  refine Eq.trans (b := ((do
      let rows ← readRows
      return cells :: rows : S (List (List RStr))) >>= fun rows => useResult m (restarted c0 i.place) i r (rs ++ rows))
        (after c0 ch rest (.rows i r (rs ++ [cells])) (t ++ [.received n q]))) ?_ ?_
  · exact (S.bind_eq _ _ _).trans (by rw [key]; rfl)
  · refine congrFun ((S.bind_assoc (readRows : S _) _ _).trans (S.bind_ext fun rows => ?_)) _
    rw [S.pure_bind, List.append_assoc]
    rfl

theorem reached_rowsEnd {t : List Packet} {i : Known'} {r : Request} {rs : List (List RStr)} {n : Nat} {q : Bytes}
    (h : Reached m c c0 ch (.rows i r rs) t) (hq : Framable (q, n)) (he : IsEof q) :
    Reached m c c0 ch (.result i r rs) (t ++ [.received n q]) := by
  refine h.read fun rest => ?_
  obtain ⟨body, rfl⟩ := he
  simp only [left]
  refine (S.bind_done (p := readRows) (a := []) (s' := after c0 ch rest (.result i r rs) (t ++ [.received n (0xFE :: body)])) ?_).trans
    (by rw [List.append_nil])
  rw [readRows, read_here (st := .rows i r rs) (.result i r rs) rfl hq]
  simp only
  rw [(check_iff (u := ())).2 ⟨0xFE, body, rfl, by decide⟩]
  simp only
  rw [if_pos (show (0xFE : UInt8) = RESP_EOF from rfl)]

theorem reached_end {t : List Packet} {i : Known'} {file text : RStr} {more : List RStr} {position : Nat}
    (h : Reached m c c0 ch (.result i .status [file :: text :: more]) t) (hp : Number 32 position text) :
    Reached m c c0 ch (.ready { i with place := (file, position) } (some .status)) t := by
  refine h.step fun rest => ?_
  simp only [left, useResult, fromAnswer]
  rw [if_pos trivial, if_neg (by simp), run_lift (cellAt_iff.2 ⟨_, rfl, rfl⟩)]
  rw [S.bind_eq]
  simp only [S.setClient]
  rw [run_lift (cellAt_iff.2 ⟨_, rfl, rfl⟩), run_lift ((number_iff _ _ _).2 hp), S.bind_eq]
  rfl

theorem reached_checksum {t : List Packet} {i : Known'} {name : RStr} {more : List RStr} {rs : List (List RStr)} {checksum : ChecksumType}
    (h : Reached m c c0 ch (.result i .getChecksum ((name :: more) :: rs)) t) (hc : ChecksumName checksum name) :
    Reached m c c0 ch (.ready { i with checksum := some checksum } (some .getChecksum)) t := by
  refine h.step fun rest => ?_
  simp only [left, useResult, fromAnswer]
  rw [if_neg (by decide), run_lift (cellAt_iff.2 ⟨_, rfl, rfl⟩), run_lift (checksum_iff.2 hc)]
  rfl

/-! ## All of it -/

/-- What is known where. -/
theorem at_place {o : ReplicaOptions} {st : Stage} {t : List Packet} (h : At m c o st t) : ∀ i last, st = .ready i last → last = none →
    i.place = (o.binlog.filename, o.binlog.position) := by
  cases h <;> simp

/-- The requests that only a MariaDB is sent. -/
def mariaOnly (r : Request) : Prop := r = .capability ∨ r = .connectState ∨ r = .strict ∨ r = .duplicates ∨ r = .register

theorem at_maria {o : ReplicaOptions} {st : Stage} {t : List Packet} (h : At m c o st t) : match st with
    | .ready i (some r) | .asked i r => mariaOnly r → i.maria = true
    | _ => True := by
  induction h with
  | ask ht ho hp ih =>
    cases ho <;> first | (simp [mariaOnly]; done) | exact fun _ => ‹_› | exact fun _ => ih (by simp [mariaOnly])
  | answered ht hr hd he ih => exact ih
  | «end» => simp [mariaOnly]
  | checksum => simp [mariaOnly]
  | _ => trivial

theorem at_greeted {o : ReplicaOptions} {st : Stage} {t : List Packet} (h : At m c o st t) : ∀ g k, st = .greeted g k → Known g.authPluginName := by
  cases h <;> simp
  assumption

theorem at_sha2 {o : ReplicaOptions} {st : Stage} {t : List Packet} (h : At m c o st t) : ∀ g scramble q k, st = .sha2 g scramble q k → q ≠ [] := by
  cases h with
  | switchedSha2 ht hm he hk =>
    obtain ⟨b, body, rfl, -⟩ := he
    intro g scramble q k h
    cases h
    simp
  | more =>
    intro g scramble q k h
    cases h
    simp
  | _ => simp

theorem reached {o : ReplicaOptions} (ho : o = c0.options) {st : Stage} {t : List Packet} (h : At m c o st t)
    (hf : ∀ x ∈ receivedOf t, Framable x) (hl : Going ch (sentOf t)) : Reached m c c0 ch st t := by
  subst ho
  have hr : ∀ {t : List Packet} {n : Nat} {q : Bytes}, (∀ x ∈ receivedOf (t ++ [.received n q]), Framable x) →
      (∀ x ∈ receivedOf t, Framable x) ∧ Framable (q, n) := by
    intro t n q h
    rw [receivedOf_append] at h
    exact ⟨fun x hx => h x (by simp [hx]), h _ (by simp [receivedOf])⟩
  have hr' : ∀ {t : List Packet} {n : Nat} {q : Bytes}, (∀ x ∈ receivedOf (t ++ [.sent n q]), Framable x) →
      (∀ x ∈ receivedOf t, Framable x) := by
    intro t n q h x hx
    rw [receivedOf_append] at h
    exact h x (by simp [hx])
  have hs : ∀ {t : List Packet} {n : Nat} {q : Bytes}, Going ch (sentOf (t ++ [.sent n q])) →
      Going ch (sentOf t) ∧ ((ch.sends (sentOf t)).writePacket q n).1 = .ok () := by
    intro t n q h
    rw [sentOf_append] at h
    exact ⟨going_init h, going_last h⟩
  have hs' : ∀ {t : List Packet} {n : Nat} {q : Bytes}, Going ch (sentOf (t ++ [.received n q])) → Going ch (sentOf t) := by
    intro t n q h
    rw [sentOf_append] at h
    exact going_init h
  induction h with
  | start => exact reached_start
  | greeting he hg hm hk => exact reached_greeting (hf _ (by simp [receivedOf])) he hg hk hm
  | encrypt ht hd ho ih => exact (ih (hr' hf) (hs hl).1).send (hs hl).2 rfl fun _ => sends_encrypt (at_greeted ht _ _ rfl) hd ho
  | respond ht hp ha hR ih => exact (ih (hr' hf) (hs hl).1).send (hs hl).2 rfl fun _ => sends_respond hp ha hR
  | ok ht ih => exact reached_ok (ih (hr hf).1 (hs' hl)) (hr hf).2
  | switch ht hS hk ih => exact reached_switch (ih (hr hf).1 (hs' hl)) (hr hf).2 hS hk
  | more ht hb hk ih => exact reached_more (ih (hr hf).1 (hs' hl)) (hr hf).2 hb hk
  | answer ht ha ih => exact (ih (hr' hf) (hs hl).1).send (hs hl).2 rfl fun _ => sends_answer ha
  | native ht hm he ih => exact reached_native (ih (hr hf).1 (hs' hl)) (hr hf).2 hm he
  | switchedSha2 ht hm he hk ih => exact reached_switchedSha2 (ih (hr hf).1 (hs' hl)) (hr hf).2 hm he hk
  | fast ht ih => exact reached_fast (ih hf hl)
  | askKey ht hq ih => exact reached_askKey (hs hl).2 (ih (hr' hf) (hs hl).1) (at_sha2 ht _ _ _ _ rfl) hq
  | key ht he hx hS hR hk ih => exact reached_key (ih (hr hf).1 (hs' hl)) (hr hf).2 he hx hS hR hk
  | password ht ih => exact (ih (hr' hf) (hs hl).1).send (hs hl).2 rfl fun _ => rfl
  | proof ht he ih => exact reached_proof (ih (hr hf).1 (hs' hl)) (hr hf).2 he
  | login ht hm ih => exact reached_login (ih hf hl) hm
  | ask ht ho hp ih =>
    exact (ih (hr' hf) (hs hl).1).send (hs hl).2 rfl fun _ => sends_ask (at_place ht _ _ rfl)
      (by rintro (rfl | rfl) <;> exact at_maria ht (by simp [mariaOnly])) ho hp
  | answered ht hR hd he ih => exact reached_answered (ih (hr hf).1 (hs' hl)) (hr hf).2 hR hd he
  | count ht hR he ih => exact reached_count (ih (hr hf).1 (hs' hl)) (hr hf).2 hR he
  | column ht hn he ih => exact reached_column (ih (hr hf).1 (hs' hl)) (hr hf).2 hn he
  | columnsEnd ht he ih => exact reached_columnsEnd (ih (hr hf).1 (hs' hl)) (hr hf).2 he
  | row ht he hn hc ih => exact reached_row (ih (hr hf).1 (hs' hl)) (hr hf).2 he hn hc
  | rowsEnd ht he ih => exact reached_rowsEnd (ih (hr hf).1 (hs' hl)) (hr hf).2 he
  | «end» ht hp ih => exact reached_end (ih hf hl) hp
  | checksum ht hc ih => exact reached_checksum (ih hf hl) hc

end

end MysqlCdc
