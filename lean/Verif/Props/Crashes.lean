import Verif.Spec.Crash
import Verif.Props.ServerErrors
import Verif.Lemmas.Decoded
/-!
# C54, C70: exactly which rows are read; what can crash the set-up
-/

namespace MysqlCdc

open Spec

/-! ## C54: exactly the rows without NULL are read -/

theorem readVec_inv {n : Nat} {buf : Bytes} {pos : Nat} {r : Bytes × Nat} (h : P.readVec n buf pos = .ok r) :
    n < 2 ^ 63 ∧ r = ((buf.drop pos).take n, pos + n) ∧ n ≤ (buf.drop pos).length := by
  unfold P.readVec at h
  obtain ⟨x, h1, h2⟩ := bind_inv h
  unfold allocZeroed at h1
  by_cases hn : n < 2 ^ 63
  · rw [if_pos hn] at h1
    simp only [P.lift, Res.ok.injEq] at h1
    subst h1
    exact ⟨hn, readExact_inv h2⟩
  · rw [if_neg hn] at h1
    simp [P.lift] at h1

theorem liftFromUtf8_inv {bs buf : Bytes} {pos : Nat} {r : RStr × Nat} (h : P.lift (fromUtf8 bs) buf pos = .ok r) :
    bs = utf8Bytes r.1 ∧ r.2 = pos := by
  unfold P.lift fromUtf8 at h
  cases hd : utf8Decode bs with
  | none => rw [hd] at h; simp at h
  | some s =>
    rw [hd] at h
    simp only [Res.ok.injEq] at h
    subst h
    exact ⟨utf8Decode_eq_some_iff.1 hd, rfl⟩

theorem readLenEncStr_inv {buf : Bytes} {pos : Nat} {r : RStr × Nat} (h : readLenEncStr buf pos = .ok r) :
    ∃ enc, TextCell (some r.1) enc ∧ enc <+: buf.drop pos ∧ r.2 = pos + enc.length := by
  unfold readLenEncStr readString at h
  obtain ⟨x, h1, h⟩ := bind_inv h
  obtain ⟨y, h2, h⟩ := bind_inv h
  obtain ⟨l, hl, ⟨tail, hp⟩, he⟩ := readLenEncNum_inv h1
  obtain ⟨hn, rfl, hlen⟩ := readVec_inv h2
  obtain ⟨hu, hpos⟩ := liftFromUtf8_inv h
  have hd : buf.drop x.2 = tail := by
    rw [he, ← List.drop_drop, ← hp, List.drop_left]
  rw [hd] at hu hlen
  have hlength : (utf8Bytes r.1).length = x.1 := by rw [← hu, List.length_take]; omega
  refine ⟨l ++ utf8Bytes r.1, .value (by omega) ⟨l, hlength ▸ hl, rfl⟩, ?_, ?_⟩
  · rw [← hp, ← hu]
    exact (List.prefix_append_right_inj l).2 (List.take_prefix _ _)
  · rw [hpos]; simp only [List.length_append, hlength]; omega

theorem textRows_inv {buf : Bytes} {pos : Nat} {r : List RStr × Nat} (h : P.whileData readLenEncStr buf pos = .ok r) :
    TextRow (r.1.map some) (buf.drop pos) := by
  induction hn : buf.length - pos using Nat.strongRecOn generalizing pos r with
  | _ n ih =>
    subst hn
    rw [P.whileData] at h
    split at h
    · rename_i hlt
      cases hr : readLenEncStr buf pos with
      | ok x =>
        rw [hr] at h
        simp only at h
        split at h
        · rename_i hpos
          cases hw : P.whileData readLenEncStr buf x.2 with
          | ok y =>
            rw [hw] at h
            simp only [Res.ok.injEq] at h
            subst h
            obtain ⟨enc, hc, ⟨tail, hp⟩, he⟩ := readLenEncStr_inv hr
            have ht := ih (buf.length - x.2) (by omega) hw rfl
            rw [he, ← List.drop_drop, ← hp, List.drop_left] at ht
            rw [← hp]
            exact .cons hc ht
          | err e => rw [hw] at h; simp at h
          | panic => rw [hw] at h; simp at h
          | hang => rw [hw] at h; simp at h
        · simp at h
      | err e => rw [hr] at h; simp at h
      | panic => rw [hr] at h; simp at h
      | hang => rw [hr] at h; simp at h
    · rename_i hge
      simp only [Res.ok.injEq] at h
      subst h
      rw [List.drop_of_length_le (by omega)]
      exact .nil

/-- C54: a row is read exactly when it is a row without NULL, and what is read is its cells. -/
theorem C54_row_iff_partial (cells : List RStr) (packet : Bytes) :
    parseResultSetRow.run packet = .ok cells ↔ TextRow (cells.map some) packet := by
  refine ⟨fun h => ?_, C54_row_decoded_partial cells packet⟩
  unfold P.run parseResultSetRow at h
  cases hw : P.whileData readLenEncStr packet 0 with
  | ok r =>
    rw [hw] at h
    simp only [Res.ok.injEq] at h
    subst h
    simpa using textRows_inv hw
  | err e => rw [hw] at h; simp at h
  | panic => rw [hw] at h; simp at h
  | hang => rw [hw] at h; simp at h

/-! ## C70: what can crash the set-up -/

theorem readNullTermString_inv {buf : Bytes} {pos : Nat} {r : RStr × Nat} (h : readNullTermString buf pos = .ok r) :
    (∃ after, buf.drop pos = utf8Bytes r.1 ++ 0 :: after ∧ buf.drop r.2 = after ∧ 0 ∉ utf8Bytes r.1) ∨
    (0 ∉ buf.drop pos ∧ utf8Bytes r.1 = (buf.drop pos).dropLast ∧ buf.drop r.2 = []) := by
  unfold readNullTermString at h
  obtain ⟨x, h1, h⟩ := bind_inv h
  obtain ⟨hu, hpos⟩ := liftFromUtf8_inv h
  unfold P.readUntil at h1
  simp only [Res.ok.injEq] at h1
  subst h1
  simp only at hu hpos
  rw [hpos, ← hu, ← List.drop_drop]
  generalize buf.drop pos = t at *
  by_cases h0 : (0 : UInt8) ∈ t
  · left
    obtain ⟨a, b, rfl, ha⟩ := List.eq_append_cons_of_mem h0
    rw [takeWhile_until ha]
    have h1 : (a ++ 0 :: b).take (a.length + 1) = a ++ [0] := by
      rw [List.take_append, List.take_of_length_le (by omega)]; simp
    refine ⟨b, ?_, ?_, ?_⟩
    · rw [h1, List.dropLast_concat]
    · rw [h1, show a ++ 0 :: b = (a ++ [0]) ++ b by simp, List.drop_left]
    · rwa [h1, List.dropLast_concat]
  · right
    have h1 : t.takeWhile (· != 0) = t := by
      rw [← List.append_nil t, List.takeWhile_append_of_pos fun x hx => by simpa using fun h : x = 0 => h0 (h ▸ hx)]
      simp
    rw [h1, List.take_of_length_le (by omega)]
    exact ⟨h0, rfl, List.drop_length⟩

theorem utf8Bytes_nil : utf8Bytes [] = [] := by decide

theorem utf8Bytes_eq_nil {s : RStr} (h : utf8Bytes s = []) : s = [] := by
  have := utf8Decode_eq_some_iff.2 h.symm
  rw [show utf8Decode [] = some [] by decide +kernel] at this
  exact (Option.some.inj this).symm

theorem handshake_scramble {packet : Bytes} {h : HandshakePacket} (hp : parseHandshake.run packet = .ok h)
    (hs : h.scramble = []) : BareGreeting packet := by
  unfold P.run at hp
  cases hw : parseHandshake packet 0 with
  | ok r =>
    rw [hw] at hp
    simp only [Res.ok.injEq] at hp
    subst hp
    unfold parseHandshake at hw
    obtain ⟨x1, h1, hw⟩ := bind_inv hw
    obtain ⟨x2, h2, hw⟩ := bind_inv hw
    obtain ⟨x3, h3, hw⟩ := bind_inv hw
    obtain ⟨x4, h4, hw⟩ := bind_inv hw
    obtain ⟨x5, h5, hw⟩ := bind_inv hw
    obtain ⟨x6, h6, hw⟩ := bind_inv hw
    obtain ⟨x7, h7, hw⟩ := bind_inv hw
    obtain ⟨x8, h8, hw⟩ := bind_inv hw
    obtain ⟨x9, h9, hw⟩ := bind_inv hw
    obtain ⟨x10, h10, hw⟩ := bind_inv hw
    obtain ⟨x11, h11, hw⟩ := bind_inv hw
    -- the first part of the scramble is empty too
    have hempty : x4.1 = [] := by
      have hend : ∀ (k : RStr → HandshakePacket) (b : Prop) [Decidable b] (pos : Nat),
          (if b then readNullTermString >>= fun x => pure (k x) else pure [] >>= fun x => pure (k x) : P HandshakePacket) packet pos
            = .ok r → ∃ name, r.1 = k name := by
        intro k b _ pos h
        split at h
        · obtain ⟨y, -, h⟩ := bind_inv h
          simp only [P.ret_apply, Res.ok.injEq] at h
          exact ⟨y.1, by rw [← h]⟩
        · obtain ⟨y, -, h⟩ := bind_inv h
          simp only [P.ret_apply, Res.ok.injEq] at h
          exact ⟨y.1, by rw [← h]⟩
      dsimp only at hw
      split at hw
      · obtain ⟨x12, -, hw⟩ := bind_inv hw
        obtain ⟨x13, h13, hw⟩ := bind_inv hw
        obtain ⟨name, hn⟩ := hend _ _ _ hw
        simp only [P.ret_apply, Res.ok.injEq] at h13
        rw [hn, ← h13] at hs
        exact (List.append_eq_nil_iff.1 hs).1
      · obtain ⟨x13, h13, hw⟩ := bind_inv hw
        obtain ⟨name, hn⟩ := hend _ _ _ hw
        simp only [P.ret_apply, Res.ok.injEq] at h13
        rw [hn, ← h13] at hs
        exact hs
    obtain ⟨b, hb, rfl⟩ := u8_inv h1
    obtain ⟨e3, -, l3, -⟩ := uLE_inv h3
    obtain ⟨-, e5, l5⟩ := readVec_inv h5
    rcases readNullTermString_inv h2 with ⟨after, a1, a2, a3⟩ | ⟨-, -, a2⟩
    · rcases readNullTermString_inv h4 with ⟨after', b1, b2, b3⟩ | ⟨-, -, b2⟩
      · rw [hempty, utf8Bytes_nil, List.nil_append, e3, ← List.drop_drop, a2] at b1
        refine ⟨b, utf8Bytes x2.1, after.take 4, after', ?_, a3, ?_⟩
        · rw [← b1, List.take_append_drop, ← a1]
          simpa using hb
        · rw [a2] at l3
          simp; omega
      · rw [b2] at l5; simp at l5
    · rw [a2] at l3; simp at l3
  | err e => rw [hw] at hp; simp at hp
  | panic => rw [hw] at hp; simp at hp
  | hang => rw [hw] at hp; simp at hp

theorem switch_scramble {body : Bytes} {switch : AuthPluginSwitchPacket} (hp : parseAuthSwitch.run body = .ok switch)
    (hs : switch.authPluginData = []) : BareSwitch (0xFE :: body) := by
  unfold P.run at hp
  cases hw : parseAuthSwitch body 0 with
  | ok r =>
    rw [hw] at hp
    simp only [Res.ok.injEq] at hp
    subst hp
    unfold parseAuthSwitch at hw
    obtain ⟨x1, h1, hw⟩ := bind_inv hw
    obtain ⟨x2, h2, hw⟩ := bind_inv hw
    simp only [P.ret_apply, Res.ok.injEq] at hw
    rw [← hw] at hs
    simp only at hs
    rcases readNullTermString_inv h1 with ⟨after, a1, a2, a3⟩ | ⟨a1, -, -⟩
    · refine ⟨utf8Bytes x1.1, after, a3, .inr ⟨by rw [← a1]; simp, ?_⟩⟩
      rcases readNullTermString_inv h2 with ⟨after', b1, b2, b3⟩ | ⟨-, b2, -⟩
      · rw [a2, hs, utf8Bytes_nil] at b1
        exact .inr (by rw [b1]; rfl)
      · rw [a2, hs, utf8Bytes_nil] at b2
        left
        have := congrArg List.length b2
        simp at this
        omega
    · exact ⟨body, [], by simpa using a1, .inl rfl⟩
  | err e => rw [hw] at hp; simp at hp
  | panic => rw [hw] at hp; simp at hp
  | hang => rw [hw] at hp; simp at hp

section
variable {m : Mode} {base : List Packet} {o : ReplicaOptions}

/-- The options that decide about crashes are still the user's. -/
def Same (o : ReplicaOptions) (self : Client) : Prop :=
  self.options.sslMode = o.sslMode ∧ self.options.binlog.startingStrategy = o.binlog.startingStrategy ∧
    self.options.binlog.gtidSet = o.binlog.gtidSet

/-- The packets since the start have `Q`. -/
def At (base : List Packet) (o : ReplicaOptions) (Q : List Packet → Prop) (s : Sess) : Prop :=
  Same o s.client ∧ Since base Q s

/-- After a failure: if it is a crash, then the packets explain it. -/
def Explained (m : Mode) (o : ReplicaOptions) (base : List Packet) (b : Option Err) (s : Sess) : Prop :=
  b = none → Since base (Crash m o) s

theorem At.mono {Q Q' : List Packet → Prop} {s : Sess} (h : At base o Q s) (hQ : ∀ t, Q t → Q' t) : At base o Q' s :=
  ⟨h.1, h.2.mono hQ⟩

theorem client70 {Q : List Packet → Prop} {α : Type} {f : Client → S α} {R : α → Sess → Prop}
    (hf : ∀ self, Same o self → Holds (At base o Q) (f self) R (Explained m o base)) :
    Holds (At base o Q) (S.client >>= f) R (Explained m o base) :=
  .bind .client fun self => fun s hs => hf self (hs.1 ▸ hs.2.1) s hs.2

theorem read70 {Q : List Packet → Prop} : Holds (At base o Q) S.readPacket
    (fun r s => r.2 < 2 ^ 8 ∧ At base o (fun t => ∃ t', t = t' ++ [.received r.2 r.1] ∧ Q t') s) (Explained m o base) := by
  rintro s ⟨hs, t, h1, h2⟩
  unfold S.readPacket
  rcases hr : s.chan.readPacket with ⟨r, ch⟩
  cases r with
  | ok x => obtain ⟨-, hn, rest, -, rfl⟩ := readPacket_inv hr; exact ⟨hn, hs, t ++ [.received _ _], by simp [h1], t, rfl, h2⟩
  | err e => exact fun h => nomatch h
  | panic => simpa using (readPacket_fail hr (by simp)).1
  | hang => simpa using (readPacket_fail hr (by simp)).1

theorem writePacket_panic {ch : Channel} {p : Bytes} {k : Nat} (h : (ch.writePacket p k).1 = .panic) :
    2 ^ 24 ≤ p.length % 2 ^ 32 := by
  have hall : ∀ (ch : Channel) (bs : Bytes), (ch.writeAll bs).1 ≠ .panic := by
    intro ch bs
    obtain ⟨_, _, -, -, h | ⟨e, h⟩⟩ := writeAll_cases ch bs
    · simp [h.1]
    · simp [h]
  have hone : ∀ (ch : Channel) (bs : Bytes), (ch.write bs).1 ≠ .panic := by
    intro ch bs
    rcases write_cases ch bs with ⟨n, h, -⟩ | ⟨n, h, -⟩ <;> simp [h]
  unfold Channel.writePacket at h
  simp only at h
  split at h
  · assumption
  · exfalso
    have h1 := hall { ch with trace := ch.trace ++ [.sent k p] } (leBytes 3 (p.length % 2 ^ 32))
    revert h h1
    rcases Channel.writeAll { ch with trace := ch.trace ++ [.sent k p] } (leBytes 3 (p.length % 2 ^ 32)) with ⟨r, ch⟩
    cases r with
    | ok u =>
      simp only
      have h2 := hall ch (leBytes 1 k)
      revert h2
      rcases ch.writeAll (leBytes 1 k) with ⟨r, ch⟩
      cases r with
      | ok u =>
        simp only
        have h3 := hone ch p
        revert h3
        rcases ch.write p with ⟨r, ch⟩
        cases r <;> simp
      | err e => simp
      | panic => simp
      | hang => simp
    | err e => simp
    | panic => simp
    | hang => simp

theorem write70 {Q : List Packet → Prop} (p : Bytes) (k : Nat) : Holds (At base o Q) (S.writePacket p k)
    (fun _ => At base o fun t => ∃ t', t = t' ++ [.sent k p] ∧ Q t') (Explained m o base) := by
  rintro s ⟨hs, t, h1, h2⟩
  have hend := Ends.write p k s
  have hpanic := writePacket_panic (ch := s.chan) (p := p) (k := k)
  unfold S.writePacket at hend ⊢
  obtain ⟨out, ws, hw⟩ := writePacket_frame s.chan p k
  rcases hr : s.chan.writePacket p k with ⟨r, ch⟩
  rw [hr] at hw hend hpanic
  simp only at hw hend
  subst hw
  have ht : s.chan.trace ++ [Packet.sent k p] = base ++ (t ++ [Packet.sent k p]) := by rw [h1, List.append_assoc]
  cases r with
  | ok u => exact ⟨hs, _, ht, t, rfl, h2⟩
  | err e => exact fun h => nomatch h
  | panic => exact fun _ => ⟨_, ht, .tooLong t k p (hpanic rfl)⟩
  | hang => exact absurd rfl hend

theorem lift70 {Q : List Packet → Prop} {α : Type} (r : Res α) (h : r ≠ .hang) (hp : r = .panic → ∀ t, Q t → Crash m o t) :
    Holds (At base o Q) (S.lift r) (fun a s => r = .ok a ∧ At base o Q s) (Explained m o base) := by
  intro s hs
  unfold S.lift
  cases r with
  | ok a => exact ⟨rfl, hs⟩
  | err e => exact fun h => nomatch h
  | panic => exact fun _ => hs.2.mono (hp rfl)
  | hang => exact absurd rfl h

/-- The last packet is `r`. -/
def Last (r : Bytes × Nat) (t : List Packet) : Prop := ∃ t', t = t' ++ [.received r.2 r.1]

theorem check_panic {packet : Bytes} {message : String} (h : checkErrorPacket packet message = .panic) : packet = [] := by
  by_cases hq : ∃ q, packet = 0xFF :: q
  · obtain ⟨q, rfl⟩ := hq
    obtain ⟨e, he, -⟩ := checkErrorPacket_error q message
    rw [he] at h; simp at h
  · rcases checkErrorPacket_other (fun q h => hq ⟨q, h⟩) message with ⟨h1, -⟩ | ⟨-, he⟩
    · exact h1
    · rw [he] at h; simp at h

theorem check70 {Q : List Packet → Prop} (r : Bytes × Nat) (message : String) (hQ : ∀ t, Q t → Last r t) :
    Holds (At base o Q) (S.lift (checkErrorPacket r.1 message)) (fun _ => At base o Q) (Explained m o base) := by
  refine (lift70 _ (check_ends _ _) fun h t ht => ?_).post fun _ _ h => h.2
  obtain ⟨t', rfl⟩ := hQ t ht
  rw [check_panic h]
  exact .empty t' r.2

/-- Any packets. -/
def Any (_ : List Packet) : Prop := True

theorem readCheck70 {Q : List Packet → Prop} (message : String) : Holds (At base o Q)
    (do let (packet, _) ← S.readPacket
        S.lift (checkErrorPacket packet message)) (fun _ => At base o Any) (Explained m o base) :=
  .bind read70 fun r => .assume fun _ =>
    (check70 r message fun _ ⟨t', h, _⟩ => ⟨t', h⟩).post fun _ _ h => h.mono fun _ _ => trivial

theorem addU_panic {bits a b : Nat} (h : addU m bits a b = .panic) : m.checks ∧ 2 ^ bits ≤ a + b := by
  unfold addU at h
  split at h
  · simp at h
  · split at h
    · exact ⟨‹_›, by omega⟩
    · simp at h

theorem next70 {Q : List Packet → Prop} (r : Bytes × Nat) (hn : r.2 < 2 ^ 8) (hQ : ∀ t, Q t → Last r t) :
    Holds (At base o Q) (S.lift (addU m 8 r.2 1)) (fun _ => At base o Q) (Explained m o base) := by
  refine (lift70 _ (addU_ends _ _ _ _) fun h t ht => ?_).post fun _ _ h => h.2
  obtain ⟨h1, h2⟩ := addU_panic h
  obtain ⟨t', rfl⟩ := hQ t ht
  rw [show r.2 = 255 by omega]
  exact .sequence t' r.1 h1

theorem xor_panic {a b : Bytes} (h : xorBytes a b = .panic) : b = [] := by
  unfold xorBytes at h
  split at h
  · rename_i hc; simpa using hc.1
  · simp at h

theorem rsa_panic {c : Crypto} {key : Bytes} {password scramble : RStr} (h : rsaPassword c key password scramble = .panic) :
    scramble = [] := by
  unfold rsaPassword at h
  cases hx : xorBytes (utf8Bytes password ++ [0]) (utf8Bytes scramble) with
  | panic => exact utf8Bytes_eq_nil (xor_panic hx)
  | ok e =>
    rw [hx] at h
    simp only [Res.bind_ok] at h
    split at h <;> simp at h
  | err e => rw [hx] at h; simp at h
  | hang => rw [hx] at h; simp at h

/-- There was no scramble. -/
def NoScramble (t : List Packet) : Prop :=
  ∃ a greeting, Packet.received a greeting ∈ t ∧ (BareGreeting greeting ∨ BareSwitch greeting)

theorem NoScramble.more {t u : List Packet} (h : NoScramble t) : NoScramble (t ++ u) := by
  obtain ⟨a, g, h1, h2⟩ := h
  exact ⟨a, g, List.mem_append_left _ h1, h2⟩

theorem byteAt_ends (packet : Bytes) (i : Nat) : byteAt packet i ≠ .hang := by
  unfold byteAt
  split <;> simp

theorem fastAuth_ends (packet : Bytes) : isFastAuthSuccess packet ≠ .hang := by
  refine Res.bind_ends (byteAt_ends _ 0) fun b => ?_
  split
  · exact Res.bind_ends (byteAt_ends _ 1) fun b => by simp
  · simp

theorem fastAuth_panic {packet : Bytes} (h : isFastAuthSuccess packet = .panic) : packet = [] ∨ packet = [1] := by
  match packet with
  | [] => exact .inl rfl
  | [b] =>
    right
    by_cases hb : b = 1
    · rw [hb]
    · simp [isFastAuthSuccess, byteAt, hb] at h
  | b :: b' :: rest =>
    exfalso
    revert h
    simp only [isFastAuthSuccess, byteAt, List.getElem?_cons_zero, List.getElem?_cons_succ, Res.bind_ok]
    split <;> simp

theorem sha70 (c : Crypto) (r : Bytes × Nat) (scramble : RStr) (k : Nat) (ssl : Bool) :
    Holds (At base o fun t => Last r t ∧ (scramble = [] → NoScramble t)) (authenticateSha256 m c r.1 scramble k ssl)
      (fun _ => At base o Any) (Explained m o base) := by
  refine .bind (lift70 _ (fastAuth_ends _) fun h t ht => ?_) fun done => .assume fun _ => ?_
  · obtain ⟨⟨t', rfl⟩, -⟩ := ht
    rcases fastAuth_panic h with h | h <;> rw [h]
    · exact .empty t' _
    · exact .cut t' _
  · cases done
    · refine client70 fun self _ => ?_
      cases ssl
      · refine .bind (write70 _ _) fun _ => .bind read70 fun r2 => .assume fun hn =>
          .bind (check70 r2 _ fun _ ⟨t', h, _⟩ => ⟨t', h⟩) fun _ => .bind (lift70 _ ?_ ?_) fun _ => .assume fun _ =>
          .bind (next70 r2 hn fun _ ⟨t', h, _⟩ => ⟨t', h⟩) fun _ => .bind (write70 _ _) fun _ => readCheck70 _
        · exact Res.bind_ends (xor_ends _ _) fun a => by split <;> simp
        · rintro h t ⟨t1, rfl, t2, rfl, -, hs⟩
          obtain ⟨a, g, h1, h2⟩ := hs (rsa_panic h)
          rw [List.append_assoc]
          exact .noScramble t2 k a r2.2 g r2.1 h1 h2
      · exact .bind (write70 _ _) fun _ => readCheck70 _
    · exact .ret fun _ h => h.mono fun _ _ => trivial

/-- Hashes are not empty. -/
def Hashes (c : Crypto) : Prop := ∀ x, c.sha1 x ≠ [] ∧ c.sha256 x ≠ []

theorem encrypt_panic {c : Crypto} (hc : Hashes c) (password scramble : RStr) (plugin : AuthPlugin) :
    encryptPassword c password scramble plugin ≠ .panic := by
  cases plugin
  · exact fun h => (hc _).1 (xor_panic h)
  · exact fun h => (hc _).2 (xor_panic h)

theorem plugin_panic (name : RStr) : getAuthPlugin name ≠ .panic := by
  unfold getAuthPlugin
  split
  · simp
  · split <;> simp

theorem switch70 {c : Crypto} (hc : Hashes c) (switch : AuthPluginSwitchPacket) (k : Nat) (ssl : Bool) :
    Holds (At base o fun t => switch.authPluginData = [] → NoScramble t) (handleAuthPluginSwitch m c switch k ssl)
      (fun _ => At base o Any) (Explained m o base) := by
  refine .bind (lift70 _ (plugin_ends _) fun h => absurd h (plugin_panic _)) fun _ => .assume fun _ => client70 fun self _ =>
    .bind (lift70 _ (encrypt_ends _ _ _ _) fun h => absurd h (encrypt_panic hc _ _ _)) fun _ => .assume fun _ =>
    .bind (write70 _ _) fun _ => .bind read70 fun r => .assume fun hn => .bind (check70 r _ fun _ ⟨t', h, _⟩ => ⟨t', h⟩) fun _ =>
    .ite (fun _ => ?_) fun _ => .ret fun _ h => h.mono fun _ _ => trivial
  refine .bind (next70 r hn fun _ ⟨t', h, _⟩ => ⟨t', h⟩) fun _ => (sha70 c r _ _ _).pre fun s h => h.mono ?_
  rintro t ⟨t1, rfl, t2, rfl, hs⟩
  exact ⟨⟨_, rfl⟩, fun h => (hs h).more.more⟩

theorem Safe.nullTerm (buf : Bytes) : Safe buf readNullTermString fun _ => True := by
  have h : Safe buf (P.readUntil 0) fun _ => True := fun pos => by unfold P.readUntil; simp
  exact h.bind fun _ _ => .lift (fromUtf8_ne_panic _) fun _ _ => trivial

theorem switch_panic (body : Bytes) : parseAuthSwitch.run body ≠ .panic :=
  P.run_ne_panic (Q := fun _ => True) ((Safe.nullTerm _).bind fun _ _ => (Safe.nullTerm _).bind fun _ _ => .pure trivial)

theorem handshake_panic (packet : Bytes) : parseHandshake.run packet ≠ .panic := by
  refine P.run_ne_panic (Q := fun _ => True) ?_
  refine (Safe.u8 _).bind fun _ _ => (Safe.nullTerm _).bind fun _ _ => (Safe.uLE _ 4).bind fun _ _ => (Safe.nullTerm _).bind fun _ _ =>
    (Safe.readVec (by decide)).bind fun _ _ => (Safe.u8 _).bind fun _ _ => (Safe.uLE _ 2).bind fun _ _ =>
    (Safe.readVec (by decide)).bind fun _ _ => (Safe.u8 _).bind fun _ _ => (Safe.readString (by decide)).bind fun _ _ =>
    (Safe.readVec (by decide)).bind fun _ _ => ?_
  have hend : ∀ (k : RStr → HandshakePacket) (b : Prop) [Decidable b], Safe packet
      (if b then readNullTermString >>= fun x => pure (k x) else pure [] >>= fun x => pure (k x) : P HandshakePacket)
      fun _ => True := by
    intro k b _
    split
    · exact (Safe.nullTerm _).bind fun _ _ => .pure trivial
    · exact (Safe.pure (Q := fun _ => True) trivial).bind fun _ _ => .pure trivial
  dsimp only
  split
  · exact (Safe.nullTerm _).bind fun _ _ => (Safe.pure (Q := fun _ => True) trivial).bind fun _ _ => hend _ _
  · exact (Safe.pure (Q := fun _ => True) trivial).bind fun _ _ => hend _ _

theorem ssl70 {Q : List Packet → Prop} (handshake : HandshakePacket) (n : Nat) (p : Bytes) (k : Nat) (hQ : ∀ t, Q t → t = [.received n p]) :
    Holds (At base o Q) (negotiateSsl m handshake k) (fun _ => At base o Q) (Explained m o base) := by
  refine client70 fun self hself => .ite (fun hm => ?_) fun _ => .ret fun _ h => h
  refine .ite (fun _ => .fail _ fun _ _ h => nomatch h) fun _ => .ite (fun _ => ?_) fun _ => .ret fun _ h => h
  have key : ∀ t, (∃ t', t = t' ++ [Packet.sent k (sslRequestCommand UTF8_MB4_GENERAL_CI)] ∧ Q t') → Crash m o t := by
    rintro t ⟨t', rfl, ht⟩
    rw [hQ t' ht]
    exact .encryption n k p (hself.1 ▸ hm)
  exact .bind (write70 _ _) fun _ => .bind (lift70 _ (addU_ends _ _ _ _) fun _ => key) fun _ => .assume fun _ =>
    fun s hs => fun _ => hs.2.mono key

theorem authenticateCommand_panic {c : Crypto} (hc : Hashes c) (options : ReplicaOptions) (handshake : HandshakePacket)
    (plugin : AuthPlugin) (collation : Nat) : authenticateCommand c options handshake plugin collation ≠ .panic := by
  unfold authenticateCommand
  cases he : encryptPassword c options.password handshake.scramble plugin with
  | panic => exact absurd he (encrypt_panic hc _ _ _)
  | ok e => simp
  | err e => simp
  | hang => simp

theorem byteAt_panic {packet : Bytes} (h : byteAt packet 0 = .panic) : packet = [] := by
  cases packet with
  | nil => rfl
  | cons b bs => simp [byteAt] at h

theorem byteAt_ok {packet : Bytes} {b : UInt8} (h : byteAt packet 0 = .ok b) : ∃ rest, packet = b :: rest := by
  cases packet with
  | nil => simp [byteAt] at h
  | cons b' bs => simp [byteAt] at h; exact ⟨bs, by rw [h]⟩

theorem connect70 {c : Crypto} (hc : Hashes c) :
    Holds (At base o (· = [])) (connect m c) (fun _ => At base o Any) (Explained m o base) := by
  refine .bind read70 fun r => .assume fun hn => .bind (check70 r _ fun _ ⟨t', h, _⟩ => ⟨t', h⟩) fun _ =>
    .bind (lift70 _ (handshake_ends _) fun h => absurd h (handshake_panic _)) fun handshake => .assume fun hh =>
    .bind (lift70 _ (plugin_ends _) fun h => absurd h (plugin_panic _)) fun plugin => .assume fun _ =>
    .bind (next70 r hn fun _ ⟨t', h, _⟩ => ⟨t', h⟩) fun k => .bind (Q := fun _ => At base o Any) ?_ fun _ => .ret fun _ h => h
  refine .bind (ssl70 _ r.2 r.1 _ ?_) fun x => client70 fun self _ => .bind (lift70 _ ?_ ?_) fun _ => .assume fun _ =>
    .bind (write70 _ _) fun _ => .bind read70 fun r2 => .assume fun hn2 => .bind (check70 r2 _ fun _ ⟨t', h, _⟩ => ⟨t', h⟩) fun _ =>
    .bind (lift70 _ (byteAt_ends _ _) ?_) fun b => .assume fun hb => .ite (fun _ => ?_) fun _ => .ite (fun heof => ?_) fun _ => ?_
  · rintro t ⟨t', rfl, rfl⟩
    rfl
  · exact Res.bind_ends (encrypt_ends _ _ _ _) fun _ => by simp
  · exact fun h => absurd h (authenticateCommand_panic hc _ _ _ _)
  · rintro h t ⟨t', rfl, -⟩
    rw [byteAt_panic h]
    exact .empty t' _
  · exact .ret fun _ h => h.mono fun _ _ => trivial
  · refine .bind (lift70 _ (P.run_ne_hang (noHang_nullTerm.bind fun _ => noHang_nullTerm.bind fun _ => (Step.pure _).noHang) _)
      fun h => absurd h (switch_panic _)) fun switch => .assume fun hsw => .bind (next70 r2 hn2 fun _ ⟨t', h, _⟩ => ⟨t', h⟩) fun _ =>
      (switch70 hc switch _ _).pre fun s h => h.mono ?_
    rintro t ⟨t', rfl, -⟩ he
    obtain ⟨rest, hrest⟩ := byteAt_ok hb
    rw [hrest] at hsw
    refine ⟨r2.2, r2.1, by simp, .inr ?_⟩
    rw [hrest, heof]
    exact switch_scramble hsw he
  · refine .bind (next70 r2 hn2 fun _ ⟨t', h, _⟩ => ⟨t', h⟩) fun _ => (sha70 c r2 _ _ _).pre fun s h => h.mono ?_
    rintro t ⟨t', rfl, t2, rfl, t3, rfl, -⟩
    exact ⟨⟨_, rfl⟩, fun he => ⟨r.2, r.1, by simp, .inl (handshake_scramble hh he)⟩⟩

/-- The last packet is an EOF. -/
def LastEof (t : List Packet) : Prop := ∃ t' n q, t = t' ++ [.received n (0xFE :: q)]

theorem skip70 {Q : List Packet → Prop} :
    Holds (At base o Q) (skipMetadata : S Unit) (fun _ => At base o LastEof) (Explained m o base) := by
  intro s
  induction hk : s.chan.input.length using Nat.strongRecOn generalizing s Q with
  | _ k ih =>
    intro hs
    rw [skipMetadata]
    have h := read70 (m := m) s hs
    revert h
    rcases hr : S.readPacket s with ⟨r, s'⟩
    cases r with
    | ok a =>
      have hlt := readPacket_shorter hr
      obtain ⟨packet, n⟩ := a
      rintro ⟨-, hat⟩
      cases packet with
      | nil => exact fun _ => hat.2.mono fun t ⟨t', h, _⟩ => h ▸ .empty t' n
      | cons b bs =>
        simp only
        split
        · rename_i hb
          exact hat.mono fun t ⟨t', h, _⟩ => ⟨t', n, bs, by rw [h, hb]; rfl⟩
        · exact ih _ (hk ▸ hlt) s' rfl hat
    | err e => exact fun h => h
    | panic => exact fun h => h
    | hang => exact fun h => h

/-- Rows were read, each from a packet, and then an EOF; before that, the packets had `Q`. -/
def RowsRead (Q : List Packet → Prop) (rows : List (List RStr)) (t : List Packet) : Prop :=
  ∃ (t0 : List Packet) (ps : List (List RStr × Nat × Bytes)) (n : Nat) (q : Bytes), Q t0 ∧ rows = ps.map (·.1) ∧
    t = t0 ++ ps.map (fun x => .received x.2.1 x.2.2) ++ [.received n (0xFE :: q)] ∧
    ∀ x ∈ ps, x.2.2 ≠ [] ∧ TextRow (x.1.map some) x.2.2

theorem row_panic {packet : Bytes} (h : parseResultSetRow.run packet = .panic) : AbsurdLength packet :=
  Classical.byContradiction fun hb => P.run_ne_panic (Safe.whileData (Safe.readLenEncStr hb)) h

theorem rows70 {Q : List Packet → Prop} :
    Holds (At base o Q) readRows (fun rows => At base o (RowsRead Q rows)) (Explained m o base) := by
  intro s
  induction hk : s.chan.input.length using Nat.strongRecOn generalizing s Q with
  | _ k ih =>
    intro hs
    rw [readRows]
    have h := read70 (m := m) s hs
    revert h
    rcases hr : S.readPacket s with ⟨r, s'⟩
    cases r with
    | ok a =>
      have hlt := readPacket_shorter hr
      obtain ⟨packet, n⟩ := a
      rintro ⟨-, hat⟩
      simp only
      cases he : checkErrorPacket packet "Query result set error." with
      | ok u =>
        cases packet with
        | nil => exact fun _ => hat.2.mono fun t ⟨t', h, _⟩ => h ▸ .empty t' n
        | cons b bs =>
          simp only
          split
          · rename_i hb
            refine hat.mono fun t ⟨t', h, hq⟩ => ⟨t', [], n, bs, hq, rfl, ?_, by simp⟩
            rw [h, hb]; simp [RESP_EOF]
          · have hrow : parseResultSetRow.run (b :: bs) ≠ .hang := P.run_ne_hang (Step.whileData Step.readLenEncStr).noHang _
            cases hp : parseResultSetRow.run (b :: bs) with
            | ok row =>
              simp only
              have h2 := ih _ (hk ▸ hlt) s' rfl hat
              revert h2
              rcases readRows s' with ⟨r, s''⟩
              cases r with
              | ok rows =>
                refine fun h => h.mono ?_
                rintro t ⟨t0, ps, n', q, ⟨t1, rfl, hq⟩, rfl, rfl, hps⟩
                refine ⟨t1, (row, n, b :: bs) :: ps, n', q, hq, rfl, by simp, ?_⟩
                rintro x (_ | ⟨_, hx⟩)
                · exact ⟨by simp, (C54_row_iff_partial _ _).1 hp⟩
                · exact hps x hx
              | err e => exact fun h => h
              | panic => exact fun h => h
              | hang => exact fun h => h
            | err e => exact fun h => nomatch h
            | panic => exact fun _ => hat.2.mono fun t ⟨t', h, _⟩ => h ▸ .length t' n _ (row_panic hp)
            | hang => exact absurd hp hrow
      | err e => exact fun h => nomatch h
      | panic =>
        have := check_panic he
        subst this
        exact fun _ => hat.2.mono fun t ⟨t', h, _⟩ => h ▸ .empty t' n
      | hang => exact absurd he (check_ends _ _)
    | err e => exact fun h => h
    | panic => exact fun h => h
    | hang => exact fun h => h

theorem result70 {Q : List Packet → Prop} : Holds (At base o Q) readResultSet (fun rows => At base o (RowsRead LastEof rows))
    (Explained m o base) :=
  .bind read70 fun r => .assume fun _ => .bind (check70 r _ fun _ ⟨t', h, _⟩ => ⟨t', h⟩) fun _ => .bind skip70 fun _ => rows70

theorem TextRow.ne_nil {p : Bytes} (h : TextRow [] p) : p = [] := by
  cases h; rfl

theorem cell0_panic {rows : List (List RStr)} (h : cellAt rows 0 0 = .panic) (t : List Packet) (ht : RowsRead LastEof rows t) :
    Crash m o t := by
  obtain ⟨t0, ps, n, q, ⟨t1, n1, q1, rfl⟩, rfl, rfl, hps⟩ := ht
  cases ps with
  | nil => simpa using Crash.noRow t1 n1 n q1 q
  | cons x ps =>
    obtain ⟨row, k, p⟩ := x
    cases row with
    | nil => exact absurd (TextRow.ne_nil (hps ([], k, p) (by simp)).2) (hps ([], k, p) (by simp)).1
    | cons c cs => simp [cellAt] at h

theorem cell1_panic {rows : List (List RStr)} (h1 : rows.length = 1) (h : cellAt rows 0 1 = .panic) (t : List Packet)
    (ht : RowsRead LastEof rows t) : Crash m o t := by
  obtain ⟨t0, ps, n, q, -, rfl, rfl, hps⟩ := ht
  match ps with
  | [] => simp at h1
  | _ :: _ :: _ => simp at h1
  | [(row, k, p)] =>
    match row with
    | [] => exact absurd (TextRow.ne_nil (hps ([], k, p) (by simp)).2) (hps ([], k, p) (by simp)).1
    | [c] =>
      have := Crash.oneCell (m := m) (options := o) t0 k n c p q (hps ([c], k, p) (by simp)).2
      simpa using this
    | _ :: _ :: _ => simp [cellAt] at h

theorem parseUnsigned_panic (bits : Nat) (s : RStr) : parseUnsigned bits s ≠ .panic := by
  unfold parseUnsigned
  split
  · simp
  · simp
  · split <;> simp
  · split <;> simp

theorem setClient70 {Q : List Packet → Prop} {self : Client} (h : Same o self) :
    Holds (At base o Q) (S.setClient self) (fun _ => At base o Q) (Explained m o base) := fun _ hs => ⟨h, hs.2⟩

theorem adjust70 : Holds (At base o Any) adjustStartingPosition (fun _ => At base o Any) (Explained m o base) := by
  refine client70 fun self hself => .ite (fun _ => .ret fun _ h => h) fun _ => .ite (fun _ => .ret fun _ h => h) fun _ =>
    .bind (write70 _ _) fun _ => .bind result70 fun rows => .ite (fun _ => .fail _ fun _ _ h => nomatch h) fun hl => ?_
  refine .bind (lift70 _ (cellAt_ends _ _ _) cell0_panic) fun _ => .assume fun _ => .bind (setClient70 ?_) fun _ =>
    .bind (lift70 _ (cellAt_ends _ _ _) (cell1_panic (by omega))) fun _ => .assume fun _ =>
    .bind (lift70 _ (parseUnsigned_ends _ _) fun h => absurd h (parseUnsigned_panic _ _)) fun _ => .assume fun _ =>
    (setClient70 ?_).post fun _ _ h => h.mono fun _ _ => trivial
  · exact hself
  · exact hself

theorem query70 {Q : List Packet → Prop} (sql : RStr) (message : String) : Holds (At base o Q) (simpleQuery sql message)
    (fun _ => At base o Any) (Explained m o base) := .bind (write70 _ _) fun _ => readCheck70 _

theorem write70' {Q : List Packet → Prop} (p : Bytes) (k : Nat) : Holds (At base o Q) (S.writePacket p k)
    (fun _ => At base o Any) (Explained m o base) := (write70 p k).post fun _ _ h => h.mono fun _ _ => trivial

theorem mariadb70 (id : Nat) : Holds (At base o Any) (replicateMariadb id) (fun _ => At base o Any) (Explained m o base) := by
  refine .bind (query70 _ _) fun _ => client70 fun self _ => .ite (fun _ => ?_) fun _ => write70' _ _
  cases self.options.binlog.gtidList with
  | some list =>
    refine .bind (Q := fun _ => At base o Any) ?_ fun _ => write70' _ _
    exact .bind (query70 _ _) fun _ => .bind (query70 _ _) fun _ => .bind (query70 _ _) fun _ => .bind (write70' _ _) fun _ =>
      readCheck70 _
  | none => exact .fail _ fun _ _ h => nomatch h

theorem dumpIntervals_panic {ivs : List Interval} (h : dumpIntervals m ivs = .panic) :
    m.checks ∧ ∃ iv ∈ ivs, 2 ^ 64 ≤ iv.end + 1 := by
  induction ivs with
  | nil => simp [dumpIntervals] at h
  | cons iv ivs ih =>
    unfold dumpIntervals at h
    cases ha : addU m 64 iv.end 1 with
    | panic => obtain ⟨h1, h2⟩ := addU_panic ha; exact ⟨h1, iv, by simp, h2⟩
    | ok e =>
      rw [ha] at h
      cases hr : dumpIntervals m ivs with
      | panic => obtain ⟨h1, iv', h2, h3⟩ := ih hr; exact ⟨h1, iv', by simp [h2], h3⟩
      | ok rest => rw [hr] at h; simp at h
      | err e => rw [hr] at h; simp at h
      | hang => rw [hr] at h; simp at h
    | err e => rw [ha] at h; simp at h
    | hang => rw [ha] at h; simp at h

theorem dumpUuidSets_panic {sets : List UuidSet} (h : dumpUuidSets m sets = .panic) :
    m.checks ∧ ∃ u ∈ sets, ∃ iv ∈ u.intervals, 2 ^ 64 ≤ iv.end + 1 := by
  induction sets with
  | nil => simp [dumpUuidSets] at h
  | cons u sets ih =>
    unfold dumpUuidSets at h
    cases ha : dumpIntervals m u.intervals with
    | panic => obtain ⟨h1, h2⟩ := dumpIntervals_panic ha; exact ⟨h1, u, by simp, h2⟩
    | ok e =>
      rw [ha] at h
      cases hr : dumpUuidSets m sets with
      | panic => obtain ⟨h1, u', h2, h3⟩ := ih hr; exact ⟨h1, u', by simp [h2], h3⟩
      | ok rest => rw [hr] at h; simp at h
      | err e => rw [hr] at h; simp at h
      | hang => rw [hr] at h; simp at h
    | err e => rw [ha] at h; simp at h
    | hang => rw [ha] at h; simp at h

theorem mysql70 (id : Nat) : Holds (At base o Any) (replicateMysql m id) (fun _ => At base o Any) (Explained m o base) := by
  refine client70 fun self hself => .ite (fun hs => ?_) fun _ => write70' _ _
  cases hg : self.options.binlog.gtidSet with
  | some set =>
    refine .bind (lift70 _ (Res.bind_ends (dumpUuidSets_ends _ _) fun _ => by simp) fun h t _ => ?_) fun _ => .assume fun _ =>
      write70' _ _
    have hp : dumpUuidSets m set.uuidSets.values = .panic := by
      unfold dumpBinlogGtidCommand at h
      cases hd : dumpUuidSets m set.uuidSets.values with
      | panic => rfl
      | ok b => simp [hd] at h
      | err e => simp [hd] at h
      | hang => simp [hd] at h
    obtain ⟨h1, u, hu, iv, h2, h3⟩ := dumpUuidSets_panic hp
    obtain ⟨e, he, rfl⟩ := List.mem_map.1 hu
    exact .lastNumber t set e.2.sourceId.data e.2.intervals iv h1 (hself.2.1 ▸ hs) (hself.2.2 ▸ hg)
      (List.mem_map.2 ⟨e, he, rfl⟩) h2 h3
  | none => exact .fail _ fun _ _ h => nomatch h

theorem fromName_ends (cell : RStr) : ChecksumType.fromName cell ≠ .hang ∧ ChecksumType.fromName cell ≠ .panic := by
  unfold ChecksumType.fromName
  split
  · simp
  · split <;> simp

theorem setUp70 {c : Crypto} (hc : Hashes c) :
    Holds (At base o (· = [])) (setUp m c) (fun _ => At base o Any) (Explained m o base) := by
  refine .bind (connect70 hc) fun provider => .bind (Q := fun _ => At base o Any) (fun s h => h) fun _ => .bind adjust70 fun _ =>
    .bind (client70 fun self _ => .bind (write70' _ _) fun _ => readCheck70 _) fun _ => ?_
  refine .bind (Q := fun _ => At base o Any) ?_ fun checksum => client70 fun self _ => ?_
  · refine .bind (write70' _ _) fun _ => .bind read70 fun r => .assume fun _ => .bind (check70 r _ fun _ ⟨t', h, _⟩ => ⟨t', h⟩) fun _ =>
      .bind (write70 _ _) fun _ => .bind result70 fun rows => .bind (lift70 _ (cellAt_ends _ _ _) cell0_panic) fun cell =>
      .assume fun _ => ?_
    exact (lift70 _ (fromName_ends cell).1 fun h => absurd h (fromName_ends cell).2).post fun _ _ h => h.2.mono fun _ _ => trivial
  · cases provider
    · exact .bind (mariadb70 _) fun _ => .ret fun _ h => h
    · exact .bind (mysql70 _) fun _ => .ret fun _ h => h

end

/-- C70: whatever the server sends, set-up crashes only for one of the reasons in `Crash`, which the packets of this connection
show. -/
theorem C70_crash_reasons (m : Mode) (c : Crypto) (s : Sess) (hc : ∀ x, c.sha1 x ≠ [] ∧ c.sha256 x ≠ [])
    (h : (setUp m c s).1 = .panic) :
    ∃ t, (setUp m c s).2.chan.trace = s.chan.trace ++ t ∧ Crash m s.client.options t := by
  have := setUp70 (m := m) (base := s.chan.trace) (o := s.client.options) hc s ⟨⟨rfl, rfl, rfl⟩, [], by simp, rfl⟩
  revert this h
  rcases setUp m c s with ⟨r, s'⟩
  rintro rfl h
  exact h rfl

example : ∀ x, exCrypto.sha1 x ≠ [] ∧ exCrypto.sha256 x ≠ [] := fun x => by simp [exCrypto]

/-- A greeting whose scramble is empty. -/
def exBareHello : Bytes :=
  le 1 10 ++ (utf8Bytes "8.0.30".toList ++ [0]) ++ le 4 77 ++ [0] ++ le 2 0xf7ff ++ le 1 255
    ++ le 2 2 ++ le 2 0xc00f ++ le 1 21 ++ List.replicate 6 0 ++ le 4 0 ++ [0] ++ (utf8Bytes "caching_sha2_password".toList ++ [0])

example : BareGreeting exBareHello :=
  ⟨10, utf8Bytes "8.0.30".toList, le 4 77, exBareHello.drop 13, by decide +kernel, by decide +kernel, by decide⟩

/-- The set with the last number of a server. -/
def exLastNumber : GtidSet := { uuidSets := [("u".toList, ⟨⟨List.replicate 16 7, "u".toList⟩, [⟨1, 2 ^ 64 - 1⟩]⟩)] }

/-- C70 does not hold: each of the other reasons does crash set-up. An empty answer to the password; a length of 2^64 - 1 in a
row; a master status of one cell; a public key after an empty scramble; and a server that offers encryption to a user who wants
it. -/
theorem C70_other_reasons_false (m : Mode) :
    (setUp m exCrypto ⟨exUser .fromStart, exChannel [(exHello "8.0.30" "mysql_native_password" 0xf7ff, 0), ([], 2)]⟩).1 = .panic ∧
    (setUp m exCrypto ⟨exUser .fromStart, exChannel (exLogin "8.0.30" ++ [(exOk, 1), (exOk, 1), ([1], 1), ([3, 100, 101, 102], 2),
      (exEof, 3), ([1, 65, 0xFE, 255, 255, 255, 255, 255, 255, 255, 255], 4)])⟩).1 = .panic ∧
    (setUp m exCrypto ⟨exUser .fromEnd, exChannel (exLogin "8.0.30" ++ exResult ["bin.000003"])⟩).1 = .panic ∧
    (setUp m exCrypto ⟨exUser .fromStart, exChannel [(exBareHello, 0), ([1, 4], 2), ([1, 45, 45], 4)]⟩).1 = .panic ∧
    (setUp m exCrypto ⟨{ exUser .fromStart with options := { (exUser .fromStart).options with sslMode := .require } },
      exChannel [(exHello "8.0.30" "mysql_native_password" 0xffff, 0)]⟩).1 = .panic := by
  revert m
  rintro ⟨_ | _⟩ <;> decide +kernel

/-- C70 does not hold in a build with overflow checks: a greeting numbered 255, and a set with the last number. -/
theorem C70_checked_reasons_false :
    (setUp ⟨true⟩ exCrypto ⟨exUser .fromStart, exChannel [(exHello "8.0.30" "mysql_native_password" 0xf7ff, 255)]⟩).1 = .panic ∧
    (setUp ⟨true⟩ exCrypto ⟨exUser (.fromMysqlGtid exLastNumber), exChannel (exLogin "8.0.30" ++ exConfigured)⟩).1 = .panic := by
  decide +kernel

end MysqlCdc
