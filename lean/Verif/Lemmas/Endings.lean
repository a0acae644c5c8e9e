import Verif.Spec.Endings
import Verif.Lemmas.DialogueRuns
import Verif.Props.Crashes
import Verif.Props.LiveStream
/-!
# What the program does where a conversation cannot go on, for C85
-/

namespace MysqlCdc

open Spec

/-! ## Rows with a cell that is too long -/

theorem readLenEncNum_ne_panic (buf : Bytes) (pos : Nat) : readLenEncNum buf pos ≠ .panic := by
  have h : Safe buf readLenEncNum fun _ => True := by
    refine (Safe.u8 buf).bind fun _ _ => ?_
    split
    · exact .pure trivial
    split
    · exact .fail _ _
    split
    · exact (Safe.uLE buf 2).any
    split
    · exact (Safe.uLE buf 3).any
    split
    · exact (Safe.uLE buf 8).any
    · exact .fail _ _
  exact (h pos).1

theorem readString_panic_iff (n : Nat) (buf : Bytes) (pos : Nat) : readString n buf pos = .panic ↔ 2 ^ 63 ≤ n := by
  unfold readString P.readVec
  by_cases hn : n < 2 ^ 63
  · have h : Safe buf (readString n) fun _ => True := Safe.readString hn
    have := (h pos).1
    unfold readString P.readVec at this
    constructor
    · exact fun hp => absurd hp this
    · omega
  · constructor
    · omega
    · intro _
      rw [show allocZeroed n = .panic from if_neg hn]
      rfl

theorem readLenEncStr_panic_iff {buf : Bytes} {pos : Nat} :
    readLenEncStr buf pos = .panic ↔ ∃ n l, LenEnc n l ∧ 2 ^ 63 ≤ n ∧ l <+: buf.drop pos := by
  unfold readLenEncStr
  rw [P.seq_apply]
  constructor
  · intro h
    cases hn : readLenEncNum buf pos with
    | ok x =>
      rw [hn] at h
      obtain ⟨l, h1, h2, h3⟩ := readLenEncNum_inv hn
      exact ⟨x.1, l, h1, (readString_panic_iff _ _ _).1 h, h2⟩
    | panic => exact absurd hn (readLenEncNum_ne_panic _ _)
    | err e => rw [hn] at h; cases h
    | hang => rw [hn] at h; cases h
  · rintro ⟨n, l, h1, h2, h3⟩
    rw [(Exact.lenEncNum buf pos n (pos + l.length)).2 ⟨l, h1, h3, rfl⟩]
    exact (readString_panic_iff _ _ _).2 h2

theorem rows_panic_iff {buf : Bytes} {pos : Nat} : P.whileData readLenEncStr buf pos = .panic ↔ HugeCell (buf.drop pos) := by
  constructor
  · intro h
    induction hn : buf.length - pos using Nat.strongRecOn generalizing pos with
    | _ k ih =>
      subst hn
      rw [P.whileData] at h
      split at h
      · next hlt =>
        cases hp : readLenEncStr buf pos with
        | ok x =>
          obtain ⟨a, q1⟩ := x
          rw [hp] at h
          obtain ⟨e, r, ⟨t, ht⟩, rfl⟩ := (Exact.lenEncStr _ _ _ _).1 hp
          simp only at h
          split at h
          · cases hw : P.whileData readLenEncStr buf (pos + e.length) with
            | panic =>
              obtain ⟨cells, pre, n, l, rest, h1, h2, h3, h4⟩ := ih _ (by omega) hw rfl
              rw [← List.drop_drop, ← ht, List.drop_left] at h4
              rw [← ht, h4]
              exact ⟨a :: cells, e ++ pre, n, l, rest, .cons r h1, h2, h3, by simp⟩
            | ok y => rw [hw] at h; cases h
            | err e => rw [hw] at h; cases h
            | hang => rw [hw] at h; cases h
          · cases h
        | panic =>
          obtain ⟨n, l, h1, h2, t, ht⟩ := readLenEncStr_panic_iff.1 hp
          exact ⟨[], [], n, l, t, .nil, h1, h2, by simp [ht]⟩
        | err e => rw [hp] at h; cases h
        | hang => rw [hp] at h; cases h
      · cases h
  · rintro ⟨cells, pre, n, l, rest, h1, h2, h3, h4⟩
    unfold LooseRow at h1
    induction h1 generalizing pos with
    | nil =>
      rw [List.nil_append] at h4
      have hlt : pos < buf.length := by
        have := congrArg List.length h4
        have := List.length_pos_iff.2 (LenEnc_ne_nil h2)
        simp only [List.length_drop, List.length_append] at *
        omega
      rw [P.whileData, if_pos hlt, readLenEncStr_panic_iff.2 ⟨n, l, h2, h3, rest, h4.symm⟩]
    | @cons a as e es r hs ih =>
      have hne : e ≠ [] := (text_parses r).2
      have hpos := List.length_pos_iff.2 hne
      have hlt : pos < buf.length := by
        have := congrArg List.length h4
        simp only [List.length_drop, List.length_append] at this
        omega
      have hp := (Exact.lenEncStr buf pos a (pos + e.length)).2 ⟨e, r, ⟨es ++ l ++ rest, by rw [h4]; simp⟩, rfl⟩
      have := ih (pos := pos + e.length) (by rw [← List.drop_drop, h4]; simp)
      rw [P.whileData, if_pos hlt, hp]
      simp only
      rw [if_pos (by omega), this]

theorem row_panic_iff {q : Bytes} : parseResultSetRow.run q = .panic ↔ HugeCell q := by
  have := rows_panic_iff (buf := q) (pos := 0)
  rw [List.drop_zero] at this
  rw [← this]
  unfold P.run parseResultSetRow
  cases P.whileData readLenEncStr q 0 <;> simp

/-! ## The errors of the decoders -/

/-- Every error of the decoder says that the packet cannot be read. -/
def Blames {α : Type} (p : P α) : Prop := ∀ buf pos e, p buf pos = .err e → Unreadable e

section
variable {α β : Type}

theorem Blames.run {p : P α} (h : Blames p) {q : Bytes} {e : Err} (hr : p.run q = .err e) : Unreadable e := by
  unfold P.run at hr
  cases hp : p q 0 <;> rw [hp] at hr <;> simp at hr
  exact hr ▸ h _ _ _ hp

theorem Blames.bind {p : P α} {f : α → P β} (hp : Blames p) (hf : ∀ a, Blames (f a)) : Blames (p >>= f) := by
  intro buf pos e h
  change (P.seq p f) buf pos = _ at h
  unfold P.seq at h
  cases h1 : p buf pos <;> rw [h1] at h <;> simp at h
  · exact hf _ _ _ _ h
  · exact h ▸ hp _ _ _ h1

theorem Blames.pure (a : α) : Blames (Pure.pure a : P α) := fun _ _ _ h => by cases h

theorem Blames.readExact (n : Nat) : Blames (P.readExact n) := by
  intro buf pos e h
  unfold P.readExact at h
  split at h <;> cases h
  exact .inl rfl

theorem Blames.readVec (n : Nat) : Blames (P.readVec n) := by
  refine Blames.bind ?_ fun _ => .readExact n
  intro buf pos e h
  unfold P.lift allocZeroed at h
  split at h <;> split at * <;> simp_all

theorem Blames.uLE (k : Nat) : Blames (P.uLE k) := (Blames.readExact k).bind fun _ => .pure _

theorem Blames.u8 : Blames P.u8 := (Blames.readExact 1).bind fun _ => .pure _

theorem Blames.fromUtf8 (bs : Bytes) : Blames (P.lift (fromUtf8 bs)) := by
  intro buf pos e h
  unfold P.lift MysqlCdc.fromUtf8 at h
  cases hd : utf8Decode bs <;> rw [hd] at h <;> simp at h
  exact .inr (.inr (.inl h.symm))

theorem Blames.nullTerm : Blames readNullTermString := by
  refine Blames.bind (fun buf pos e h => ?_) fun _ => .fromUtf8 _
  cases h

theorem Blames.readString (n : Nat) : Blames (readString n) := (Blames.readVec n).bind fun _ => .fromUtf8 _

theorem Blames.lenEncNum : Blames readLenEncNum := by
  refine Blames.u8.bind fun first => ?_
  split
  · exact .pure _
  split
  · intro _ _ e h; cases h; exact .inr (.inr (.inr (.inl rfl)))
  split
  · exact .uLE 2
  split
  · exact .uLE 3
  split
  · exact .uLE 8
  · intro _ _ e h; cases h; exact .inr (.inr (.inr (.inr rfl)))

theorem Blames.lenEncStr : Blames readLenEncStr := Blames.lenEncNum.bind fun n => .readString n

theorem Blames.whileData {p : P α} (h : Blames p) : Blames (P.whileData p) := by
  intro buf pos
  induction hn : buf.length - pos using Nat.strongRecOn generalizing pos with
  | _ n ih =>
    subst hn
    intro e he
    unfold P.whileData at he
    split at he
    · split at he
      · split at he
        · split at he <;> cases he
          rename_i h3 _ _ h4
          exact ih _ (by omega) _ rfl _ h4
        · cases he
      · rename_i h3
        cases he
        exact h _ _ _ h3
      · cases he
      · cases he
    · cases he

theorem row_blames : Blames parseResultSetRow := Blames.lenEncStr.whileData

theorem error_blames : Blames parseErrorPacket := by
  refine (Blames.uLE 2).bind fun _ => Blames.bind ?_ fun msg => ?_
  · unfold readToString
    refine Blames.bind (fun buf pos e h => by cases h) fun bs => ?_
    split
    · exact .pure _
    · intro _ _ e h; cases h; exact .inr (.inl rfl)
  · split <;> exact .pure _

theorem switch_blames : Blames parseAuthSwitch := Blames.nullTerm.bind fun _ => Blames.nullTerm.bind fun _ => .pure _

theorem greeting_blames : Blames parseHandshake := by
  refine Blames.u8.bind fun _ => Blames.nullTerm.bind fun _ => (Blames.uLE 4).bind fun _ => Blames.nullTerm.bind fun _ =>
    (Blames.readVec 2).bind fun _ => Blames.u8.bind fun _ => (Blames.uLE 2).bind fun _ => (Blames.readVec 2).bind fun _ =>
    Blames.u8.bind fun _ => (Blames.readString 6).bind fun _ => (Blames.readVec 4).bind fun _ => ?_
  have tail : ∀ {x y : Nat} (f : RStr → HandshakePacket), Blames (if x &&& y > 0 then do
      let name ← readNullTermString
      pure (f name)
    else do
      let name ← pure []
      pure (f name)) := by
    intro x y f
    split
    · exact Blames.nullTerm.bind fun _ => .pure _
    · exact (Blames.pure _).bind fun _ => .pure _
  dsimp only
  split
  · exact Blames.nullTerm.bind fun _ => (Blames.pure _).bind fun _ => tail _
  · exact (Blames.pure _).bind fun _ => tail _

end

/-! ## Failing -/

/-- From the session `s` the program fails with the ending, in the session `s'`. -/
def FailsAs {α : Type} (p : S α) (s s' : Sess) (e : Ending) : Prop := ∃ r, e.Is r ∧ p s = (r, s')

section
variable {α β : Type} {s s' : Sess} {e : Ending}

theorem FailsAs.here {r : Res α} (h : e.Is r) : FailsAs (S.lift r) s s e := ⟨r, h, rfl⟩

theorem FailsAs.bind {p : S α} {f : α → S β} (h : FailsAs p s s' e) : FailsAs (p >>= f) s s' e := by
  obtain ⟨r, h1, h2⟩ := h
  unfold FailsAs
  rw [S.bind_eq, h2]
  cases e with
  | error e => cases h1; exact ⟨_, rfl, rfl⟩
  | malformed => obtain ⟨e, rfl, he⟩ := h1; exact ⟨_, ⟨e, rfl, he⟩, rfl⟩
  | crash => cases h1; exact ⟨_, rfl, rfl⟩

theorem FailsAs.lift {r : Res α} {f : α → S β} (h : e.Is r) : FailsAs (S.lift r >>= f) s s e := (FailsAs.here h).bind

theorem FailsAs.of_eq {p p' : S α} {s0 : Sess} (h : p s = p' s0) (hf : FailsAs p' s0 s' e) : FailsAs p s s' e := by
  unfold FailsAs at *
  rwa [h]

end

theorem check_refused {head : String} {body : Bytes} {e : ErrorPacket} (he : LooseError e body) :
    checkErrorPacket (0xFF :: body) head = .err (.server head e.errorCode e.errorMessage e.sqlState) := by
  unfold checkErrorPacket
  simp only
  rw [if_pos (show (0xFF : UInt8) = RESP_ERROR from rfl), C83_error_iff.2 he]

theorem check_garbled {head : String} {body : Bytes} (he : ∀ e, ¬LooseError e body) :
    ∃ e, checkErrorPacket (0xFF :: body) head = .err e ∧ Unreadable e := by
  unfold checkErrorPacket
  simp only
  rw [if_pos (show (0xFF : UInt8) = RESP_ERROR from rfl)]
  rcases parseErrorPacket_returns body with ⟨e, h⟩ | ⟨e, h⟩
  · exact absurd (C83_error_iff.1 h) (he e)
  · rw [h]; exact ⟨e, rfl, error_blames.run h⟩

/-- A decoder that neither panics nor hangs refuses what it does not accept. -/
theorem refuses {α : Type} {r : Res α} (h1 : r ≠ .panic) (h2 : r ≠ .hang) (h3 : ∀ a, r ≠ .ok a)
    (h4 : ∀ {e}, r = .err e → Unreadable e) : ∃ e, r = .err e ∧ Unreadable e := by
  cases r with
  | ok a => exact absurd rfl (h3 a)
  | err e => exact ⟨e, rfl, h4 rfl⟩
  | panic => exact absurd rfl h1
  | hang => exact absurd rfl h2

theorem switch_ends (body : Bytes) : parseAuthSwitch.run body ≠ .hang :=
  P.run_ne_hang (noHang_nullTerm.bind fun _ => noHang_nullTerm.bind fun _ => (Step.pure _).noHang) _

theorem row_ends (body : Bytes) : parseResultSetRow.run body ≠ .hang := P.run_ne_hang (Step.whileData Step.readLenEncStr).noHang _

theorem last_panic {m : Mode} {n : Nat} (h : LastNumber m n) : addU m 8 n 1 = .panic := by
  unfold addU
  rw [if_neg (by have := h.1; omega), if_pos h.2]

theorem encrypt_fails {c : Crypto} {password scramble name : RStr} {plugin : AuthPlugin} (hp : getAuthPlugin name = .ok plugin)
    (ha : ∀ auth, ¬AuthAnswer c password scramble name auth) : encryptPassword c password scramble plugin = .panic := by
  have h1 : ∀ auth, encryptPassword c password scramble plugin ≠ .ok auth := fun auth h => ha auth (auth_iff.2 ⟨plugin, hp, h⟩)
  have h2 : ∀ a b e, xorBytes a b ≠ .err e := fun a b e => by unfold xorBytes; split <;> simp
  have h3 := encrypt_ends c password scramble plugin
  have h4 : ∀ e, encryptPassword c password scramble plugin ≠ .err e := by cases plugin <;> exact fun e => h2 _ _ e
  cases h : encryptPassword c password scramble plugin with
  | ok a => exact absurd h (h1 a)
  | err e => exact absurd h (h4 e)
  | panic => rfl
  | hang => exact absurd h h3

theorem unknown_method {name : RStr} (h : ¬Known name) : getAuthPlugin name = .err (.str "auth plugin is not supported.") := by
  unfold getAuthPlugin
  rw [if_neg (by exact fun h1 => h (.inl h1)), if_neg (by exact fun h1 => h (.inr h1))]

section
variable {m : Mode} {c : Crypto} {c0 : Client} {ch : Channel} {rest : Bytes} {t : List Packet}

/-- The failure of a check of the packet that the client has waited for. -/
theorem fails_check {st : Stage} {head : String} {n : Nat} {q : Bytes} {e : Ending} (hh : heading st = some head) (hq : Framable (q, n))
    (he : e.Is (checkErrorPacket q head)) :
    FailsAs (left m c c0 st) (after c0 ch (frame q n ++ rest) st t) (after c0 ch rest st (t ++ [.received n q])) e := by
  have key : ∀ {β : Type} {f : Bytes × Nat → Unit → S β} {p : Bytes × Nat → Res Unit}, p (q, n) = checkErrorPacket q head →
      FailsAs (S.readPacket >>= fun x => S.lift (p x) >>= f x) (after c0 ch (frame q n ++ rest) st t)
      (after c0 ch rest st (t ++ [.received n q])) e := by
    intro β f p hp
    unfold FailsAs
    rw [run_read (st := st) st rfl hq, hp]
    exact FailsAs.lift he
  cases st with
  | start =>
    cases hh
    simp only [left, setUp, connect, S.bind_assoc]
    exact key rfl
  | responded g => cases hh; exact key rfl
  | switched g s => cases hh; exact key rfl
  | keyAsked g scramble =>
    cases hh
    unfold FailsAs
    simp only [left]
    rw [run_client]
    exact key rfl
  | proved g => cases hh; exact key rfl
  | asked i r =>
    simp only [left, fromAsked]
    cases r with
    | status =>
      cases hh
      rw [if_pos (.inl rfl)]
      unfold readResultSet
      simp only [S.bind_assoc]
      exact key rfl
    | getChecksum =>
      cases hh
      rw [if_pos (.inr rfl)]
      unfold readResultSet
      simp only [S.bind_assoc]
      exact key rfl
    | dump => cases hh
    | heartbeat => cases hh; rw [if_neg (by decide), if_neg (by decide)]; exact key rfl
    | setChecksum => cases hh; rw [if_neg (by decide), if_neg (by decide)]; exact key rfl
    | capability => cases hh; rw [if_neg (by decide), if_neg (by decide)]; exact key rfl
    | connectState => cases hh; rw [if_neg (by decide), if_neg (by decide)]; exact key rfl
    | strict => cases hh; rw [if_neg (by decide), if_neg (by decide)]; exact key rfl
    | duplicates => cases hh; rw [if_neg (by decide), if_neg (by decide)]; exact key rfl
    | register => cases hh; rw [if_neg (by decide), if_neg (by decide)]; exact key rfl
  | rows i r rs =>
    cases hh
    simp only [left]
    refine FailsAs.bind (p := readRows) ?_
    unfold FailsAs
    rw [readRows, read_here (st := .rows i r rs) (.rows i r rs) rfl hq]
    simp only
    cases e with
    | error e => rw [show checkErrorPacket q _ = _ from he]; exact ⟨_, rfl, rfl⟩
    | malformed => obtain ⟨e, he, hu⟩ := he; rw [he]; exact ⟨_, ⟨e, rfl, hu⟩, rfl⟩
    | crash => rw [show checkErrorPacket q _ = _ from he]; exact ⟨_, rfl, rfl⟩
  | _ => cases hh

theorem rsa_fails {key x : Bytes} {password scramble : RStr} (hx : Masked (utf8Bytes scramble) (utf8Bytes password ++ [0]) x)
    (hs : scramble ≠ []) (hr : c.rsa key x = none) : rsaPassword c key password scramble = .err .openssl := by
  unfold rsaPassword
  rw [xor_iff.2 ⟨hx, fun h => absurd (utf8Bytes_inj (b := []) h) hs⟩]
  simp only [bind, Res.bind, hr]

theorem rsa_empty {key : Bytes} {password : RStr} : rsaPassword c key password [] = .panic := by
  unfold rsaPassword
  rw [show utf8Bytes [] = [] from rfl, (xorBytes_nil (by simp)).2 rfl]
  rfl

/-- Where the packet that the client has waited for makes it impossible to go on. -/
theorem fails_packet {st : Stage} {n : Nat} {q : Bytes} {e : Ending} (hf : Fails m c c0.options st (some (n, q)) e) (hq : Framable (q, n)) :
    FailsAs (left m c c0 st) (after c0 ch (frame q n ++ rest) st t) (after c0 ch rest st (t ++ [.received n q])) e := by
  cases hf with
  | refused hh he => exact fails_check hh hq (check_refused he)
  | garbled hh he => exact fails_check hh hq (check_garbled he)
  | empty hw =>
    rcases hw with ⟨head, hh⟩ | ⟨i, r, rfl⟩
    · exact fails_check hh hq rfl
    · simp only [left]
      refine FailsAs.bind (p := skipMetadata) ?_
      unfold FailsAs
      rw [skipMetadata, read_here (st := .columns i r) (.columns i r) rfl hq]
      exact ⟨_, rfl, rfl⟩
  | greeting he hg =>
    simp only [left, setUp, connect, S.bind_assoc]
    refine FailsAs.of_eq (run_read (st := .start) .start rfl hq) ?_
    refine FailsAs.of_eq (run_check he) ?_
    exact .lift (refuses (handshake_panic q) (handshake_ends q) (fun g h => hg g (C83_greeting_iff.1 h))
      greeting_blames.run)
  | method he hg hm =>
    simp only [left, setUp, connect, S.bind_assoc]
    refine FailsAs.of_eq (run_read (st := .start) .start rfl hq) ?_
    refine FailsAs.of_eq (run_check he) ?_
    refine FailsAs.of_eq (run_lift (C83_greeting_iff.2 hg)) ?_
    exact .lift (unknown_method hm)
  | greetingNumber he hg hm hn =>
    obtain ⟨plugin, hp⟩ := known_iff.1 hm
    simp only [left, setUp, connect, S.bind_assoc]
    refine FailsAs.of_eq (run_read (st := .start) .start rfl hq) ?_
    refine FailsAs.of_eq (run_check he) ?_
    refine FailsAs.of_eq (run_lift (C83_greeting_iff.2 hg)) ?_
    refine FailsAs.of_eq (run_lift hp) ?_
    exact .lift (last_panic hn)
  | @switch g n body hs =>
    simp only [left]
    refine FailsAs.of_eq (run_read (st := .responded g) (.responded g) rfl hq) ?_
    refine FailsAs.of_eq (run_check ⟨0xFE, body, rfl, by decide⟩) ?_
    refine FailsAs.of_eq run_byte ?_
    rw [if_neg (by decide), if_pos (show (0xFE : UInt8) = RESP_EOF from rfl)]
    exact .lift (refuses (switch_panic _) (switch_ends _) (fun s h => hs s (by simpa using C83_switch_iff.1 h))
      switch_blames.run)
  | @switchNumber g n body s hs hn =>
    simp only [left]
    refine FailsAs.of_eq (run_read (st := .responded g) (.responded g) rfl hq) ?_
    refine FailsAs.of_eq (run_check ⟨0xFE, body, rfl, by decide⟩) ?_
    refine FailsAs.of_eq run_byte ?_
    rw [if_neg (by decide), if_pos (show (0xFE : UInt8) = RESP_EOF from rfl)]
    refine FailsAs.of_eq (run_lift (C83_switch_iff.2 (by simpa using hs))) ?_
    exact .lift (last_panic hn)
  | @moreNumber g n b body hb hn =>
    simp only [left]
    refine FailsAs.of_eq (run_read (st := .responded g) (.responded g) rfl hq) ?_
    refine FailsAs.of_eq (run_check ⟨b, body, rfl, hb.2.2⟩) ?_
    refine FailsAs.of_eq run_byte ?_
    rw [if_neg (show b ≠ RESP_OK from hb.1), if_neg (show b ≠ RESP_EOF from hb.2.1)]
    exact .lift (last_panic hn)
  | @switchedNumber g s n q hm he hn =>
    simp only [left]
    refine FailsAs.of_eq (run_read (st := .switched g s) (.switched g s) rfl hq) ?_
    refine FailsAs.of_eq (run_check he) ?_
    rw [if_pos (by exact hm)]
    exact .lift (last_panic hn)
  | @noScramble g n q he =>
    simp only [left]
    refine FailsAs.of_eq run_client ?_
    refine FailsAs.of_eq (run_read (st := .keyAsked g []) (.keyAsked g []) rfl hq) ?_
    refine FailsAs.of_eq (run_check he) ?_
    exact .lift rsa_empty
  | @key g scramble n b key x he hs hx hr =>
    simp only [left]
    refine FailsAs.of_eq run_client ?_
    refine FailsAs.of_eq (run_read (st := .keyAsked g scramble) (.keyAsked g scramble) rfl hq) ?_
    refine FailsAs.of_eq (run_check ⟨b, key, rfl, he⟩) ?_
    exact .lift (rsa_fails hx hs hr)
  | @keyNumber g scramble n b key x body he hs hx hr hn =>
    simp only [left]
    refine FailsAs.of_eq run_client ?_
    refine FailsAs.of_eq (run_read (st := .keyAsked g scramble) (.keyAsked g scramble) rfl hq) ?_
    refine FailsAs.of_eq (run_check ⟨b, key, rfl, he⟩) ?_
    refine FailsAs.of_eq (run_lift (rsa_iff.2 ⟨x, hx, hs, by simpa using hr⟩)) ?_
    exact .lift (last_panic hn)
  | @row i r rs n q he hn hc hh =>
    obtain ⟨e, hr, hu⟩ := refuses (fun h => hh (row_panic_iff.1 h)) (row_ends q) (fun cells h => hc cells (C83_row_iff.1 h))
      row_blames.run
    simp only [left]
    refine FailsAs.bind (p := readRows) ?_
    unfold FailsAs
    rw [readRows, read_here (st := .rows i r rs) (.rows i r rs) rfl hq]
    simp only
    rw [(check_iff (u := ())).2 he]
    obtain ⟨b, body, rfl, hb⟩ := he
    simp only
    rw [if_neg (not_eof hn), hr]
    exact ⟨_, ⟨e, rfl, hu⟩, rfl⟩
  | @hugeCell i r rs n q he hn hh =>
    simp only [left]
    refine FailsAs.bind (p := readRows) ?_
    unfold FailsAs
    rw [readRows, read_here (st := .rows i r rs) (.rows i r rs) rfl hq]
    simp only
    rw [(check_iff (u := ())).2 he]
    obtain ⟨b, body, rfl, hb⟩ := he
    simp only
    rw [if_neg (not_eof hn), row_panic_iff.2 hh]
    exact ⟨_, rfl, rfl⟩

/-- No packet where one was waited for. -/
theorem fails_lost {st : Stage} {input : Bytes} (hw : Waits st) (hn : NoPacket input) :
    FailsAs (left m c c0 st) (after c0 ch input st t) (after c0 ch [] st t) (.error (.io ch.ending)) := by
  have hr : S.readPacket (after c0 ch input st t) = (.err (.io ch.ending), after c0 ch [] st t) := by
    unfold S.readPacket
    rcases hr : (after c0 ch input st t).chan.readPacket with ⟨r, ch'⟩
    cases r with
    | ok x =>
      obtain ⟨p, n⟩ := x
      obtain ⟨h1, h2, rest, h3, -⟩ := readPacket_inv hr
      exact absurd h3 (hn p n rest ⟨h1, h2⟩)
    | err e => obtain ⟨h1, rfl⟩ := readPacket_fail hr (by simp); rw [h1]; rfl
    | panic => obtain ⟨h1, rfl⟩ := readPacket_fail hr (by simp); cases h1
    | hang => obtain ⟨h1, rfl⟩ := readPacket_fail hr (by simp); cases h1
  have key : ∀ {β : Type} {f : Bytes × Nat → S β},
      FailsAs (S.readPacket >>= f) (after c0 ch input st t) (after c0 ch [] st t) (.error (.io ch.ending)) :=
    FailsAs.bind ⟨_, rfl, hr⟩
  rcases hw with ⟨head, hh⟩ | ⟨i, r, rfl⟩
  · cases st with
    | start =>
      simp only [left, setUp, connect, S.bind_assoc]
      exact key
    | responded g => exact key
    | switched g s => exact key
    | keyAsked g scramble =>
      unfold FailsAs
      simp only [left]
      rw [run_client]
      exact key
    | proved g => exact key
    | asked i r =>
      simp only [left, fromAsked]
      split
      · unfold readResultSet
        simp only [S.bind_assoc]
        exact key
      · rw [if_neg (by rintro rfl; cases hh)]
        exact key
    | rows i r rs =>
      simp only [left]
      refine FailsAs.bind (p := readRows) ?_
      unfold FailsAs
      rw [readRows, hr]
      exact ⟨_, rfl, rfl⟩
    | _ => cases hh
  · simp only [left]
    refine FailsAs.bind (p := skipMetadata) ?_
    unfold FailsAs
    rw [skipMetadata, hr]
    exact ⟨_, rfl, rfl⟩

/-- The channel is not concerned. -/
def leftOver (c0 : Client) (ch : Channel) (rest : Bytes) (st : Stage) (t : List Packet) : Sess :=
  ⟨st.clientLeft c0, (after c0 ch rest st t).chan⟩

theorem leftOver_eq {st : Stage} (h : st.clientLeft c0 = st.client c0) : leftOver c0 ch rest st t = after c0 ch rest st t := by
  unfold leftOver
  rw [h]
  rfl

/-- Where something else makes it impossible to go on. -/
theorem fails_stage {st : Stage} {e : Ending} (hf : Fails m c c0.options st none e) (hk : ∀ g k, st = .greeted g k → Known g.authPluginName) :
    FailsAs (left m c c0 st) (after c0 ch rest st t) (leftOver c0 ch rest st t) e := by
  cases hf with
  | @insists g k hi ho =>
    rw [leftOver_eq rfl]
    obtain ⟨plugin, hp⟩ := known_iff.1 (hk g k rfl)
    simp only [left, authenticate, negotiateSsl, S.bind_assoc]
    refine FailsAs.of_eq (run_lift hp) ?_
    refine FailsAs.of_eq run_client ?_
    simp only [ssl_offered, ho]
    rw [if_pos, if_pos]
    · exact .lift rfl
    · show (!false && decide (c0.options.sslMode.code ≥ SslMode.require.code)) = true
      rcases hi with h | h | h <;> rw [h] <;> decide
    · show c0.options.sslMode ≠ .disabled
      rcases hi with h | h | h <;> rw [h] <;> decide
  | @noAnswer g k hp ha =>
    rw [leftOver_eq rfl]
    obtain ⟨plugin, hpl⟩ := known_iff.1 (hk g k rfl)
    simp only [left, authenticate, S.bind_assoc]
    refine FailsAs.of_eq (run_lift hpl) ?_
    refine FailsAs.of_eq (run_plain hp) ?_
    refine FailsAs.of_eq run_client ?_
    refine .lift ?_
    show authenticateCommand c c0.options g plugin UTF8_MB4_GENERAL_CI = .panic
    unfold authenticateCommand
    rw [encrypt_fails hpl ha]
    rfl
  | encrypting => exact ⟨_, rfl, rfl⟩
  | @switchMethod g s k hm =>
    rw [leftOver_eq rfl]
    simp only [left, handleAuthPluginSwitch, S.bind_assoc]
    exact .lift (unknown_method hm)
  | @switchNoAnswer g s k hm ha =>
    rw [leftOver_eq rfl]
    obtain ⟨plugin, hpl⟩ := known_iff.1 hm
    simp only [left, handleAuthPluginSwitch, S.bind_assoc]
    refine FailsAs.of_eq (run_lift hpl) ?_
    refine FailsAs.of_eq run_client ?_
    exact .lift (encrypt_fails hpl ha)
  | cut =>
    rw [leftOver_eq rfl]
    simp only [left, authenticateSha256, S.bind_assoc]
    exact .lift rfl
  | @gtidSet i hm hs hg =>
    rw [leftOver_eq rfl]
    simp only [left, fromAnswer, fromChecksum, hm]
    refine FailsAs.of_eq run_client ?_
    rw [if_neg (by decide)]
    refine FailsAs.bind ?_
    unfold replicateMysql
    refine FailsAs.of_eq run_client ?_
    rw [if_pos (by exact hs)]
    have hg' : (Stage.client c0 (.ready i (some .getChecksum))).options.binlog.gtidSet = none := hg
    simp only [hg']
    exact ⟨_, rfl, rfl⟩
  | @gtidList i hs hg =>
    rw [leftOver_eq rfl]
    simp only [left, fromAnswer, fromCapability]
    refine FailsAs.of_eq run_client ?_
    rw [if_pos (by exact hs)]
    have hg' : (Stage.client c0 (.ready i (some .capability))).options.binlog.gtidList = none := hg
    simp only [hg']
    exact ⟨_, rfl, rfl⟩
  | @rowCount i rs hl =>
    have hc : Stage.clientLeft c0 (.result i .status rs) = Stage.client c0 (.result i .status rs) := by
      match rs, hl with
      | [], _ => rfl
      | [] :: _, _ => rfl
      | (_ :: _) :: [], h => exact absurd rfl h
      | (_ :: _) :: _ :: _, _ => rfl
    rw [leftOver_eq hc]
    simp only [left, useResult]
    rw [if_pos trivial, if_pos hl]
    exact ⟨_, rfl, rfl⟩
  | noFile =>
    rw [leftOver_eq rfl]
    simp only [left, useResult]
    rw [if_pos trivial, if_neg (by simp)]
    exact .lift rfl
  | @noPosition i file =>
    simp only [left, useResult]
    rw [if_pos trivial, if_neg (by simp)]
    refine FailsAs.of_eq (run_lift (cellAt_iff.2 ⟨_, rfl, rfl⟩)) ?_
    exact ⟨_, rfl, rfl⟩
  | @position i file text more hp =>
    simp only [left, useResult]
    rw [if_pos trivial, if_neg (by simp)]
    refine FailsAs.of_eq (run_lift (cellAt_iff.2 ⟨_, rfl, rfl⟩)) ?_
    have : parseUnsigned 32 text = .err .parseInt := by
      have h1 := fun n h => hp n ((number_iff 32 n text).1 h)
      revert h1
      unfold parseUnsigned
      split
      · simp
      · simp
      · split <;> simp
      · split <;> simp
    unfold FailsAs
    rw [S.bind_eq]
    simp only [S.setClient]
    rw [run_lift (cellAt_iff.2 ⟨_, rfl, rfl⟩), this]
    exact ⟨_, rfl, rfl⟩
  | @noChecksum i rs hr =>
    rw [leftOver_eq (by cases rs <;> rfl)]
    simp only [left, useResult]
    rw [if_neg (by decide)]
    refine .lift ?_
    match rs, hr with
    | [], _ => rfl
    | [] :: _, _ => rfl
    | (a :: b) :: _, h => simp at h
  | checksum hc =>
    rw [leftOver_eq rfl]
    simp only [left, useResult]
    rw [if_neg (by decide)]
    refine FailsAs.of_eq (run_lift (cellAt_iff.2 ⟨_, rfl, rfl⟩)) ?_
    refine .lift ?_
    show ChecksumType.fromName _ = _
    have h1 := fun x h => hc x (checksum_iff.1 h)
    revert h1
    unfold ChecksumType.fromName
    split
    · simp
    · split <;> simp

/-- A packet that cannot be sent: it is too long, or the connection breaks. -/
theorem fails_write {st st' : Stage} {p : Bytes} {k : Nat} {f : Unit → S ChecksumType} {e : Ending} {r : Res Unit}
    (hr : ((ch.sends (sentOf t)).writePacket p k).1 = r) (he : r = .panic ∧ e = .crash ∨ ∃ x, r = .err x ∧ e = .error x)
    (hc : st'.clientLeft c0 = st.client c0) :
    FailsAs (S.writePacket p k >>= f) (after c0 ch rest st t) ⟨st'.clientLeft c0, (after c0 ch rest st (t ++ [.sent k p])).chan⟩ e := by
  rw [hc]
  rcases he with ⟨rfl, rfl⟩ | ⟨x, rfl, rfl⟩
  · refine FailsAs.bind ⟨.panic, rfl, ?_⟩
    unfold S.writePacket
    rw [write_here, hr]
    rfl
  · refine FailsAs.bind ⟨.err x, rfl, ?_⟩
    unfold S.writePacket
    rw [write_here, hr]
    rfl

/-- Some stages follow a packet that was received. -/
theorem at_last {o : ReplicaOptions} {st : Stage} {t : List Packet} (h : Spec.At m c o st t) : match st with
    | .sha2 _ _ _ _ | .loggedIn _ | .ready _ _ | .result _ _ _ => ∃ t0 n q, t = t0 ++ [.received n q]
    | _ => True := by
  induction h with
  | fast _ ih => exact ih
  | login _ _ ih => exact ih
  | «end» _ _ ih => exact ih
  | checksum _ _ ih => exact ih
  | ok => exact ⟨_, _, _, rfl⟩
  | more => exact ⟨_, _, _, rfl⟩
  | native => exact ⟨_, _, _, rfl⟩
  | switchedSha2 => exact ⟨_, _, _, rfl⟩
  | proof => exact ⟨_, _, _, rfl⟩
  | answered => exact ⟨_, _, _, rfl⟩
  | rowsEnd => exact ⟨_, _, _, rfl⟩
  | _ => trivial

theorem not_last {t t0 : List Packet} {k n : Nat} {p q : Bytes} (h : t ++ [.sent k p] = t0 ++ [.received n q]) : False := by
  have := List.append_inj' h rfl
  simp at this

/-- Where a packet cannot be sent. -/
theorem fails_send {st : Stage} {k : Nat} {p : Bytes} {e : Ending} {r : Res Unit}
    (h : Spec.At m c c0.options st (t ++ [.sent k p])) (hr : ((ch.sends (sentOf t)).writePacket p k).1 = r)
    (he : r = .panic ∧ e = .crash ∨ ∃ x, r = .err x ∧ e = .error x) :
    ∃ st0, Spec.At m c c0.options st0 t ∧ FailsAs (left m c c0 st0) (after c0 ch rest st0 t)
      ⟨st.clientLeft c0, (after c0 ch rest st (t ++ [.sent k p])).chan⟩ e := by
  have hlast := at_last h
  generalize hu : t ++ [Packet.sent k p] = u at h
  have key : ∀ {t' : List Packet} {k' : Nat} {p' : Bytes}, t ++ [Packet.sent k p] = t' ++ [.sent k' p'] → t = t' ∧ k = k' ∧ p = p' := by
    intro t' k' p' h
    have := List.append_inj' h rfl
    simpa using this
  cases h with
  | start => simp at hu
  | greeting => exact (not_last (t0 := []) hu).elim
  | encrypt ht hw ho =>
    obtain ⟨rfl, rfl, rfl⟩ := key hu
    exact ⟨_, ht, .of_eq (sends_encrypt (at_greeted ht _ _ rfl) hw ho) (fails_write hr he rfl)⟩
  | respond ht hpl ha hR =>
    obtain ⟨rfl, rfl, rfl⟩ := key hu
    exact ⟨_, ht, .of_eq (sends_respond hpl ha hR) (fails_write hr he rfl)⟩
  | answer ht ha =>
    obtain ⟨rfl, rfl, rfl⟩ := key hu
    exact ⟨_, ht, .of_eq (sends_answer ha) (fails_write hr he rfl)⟩
  | askKey ht hq =>
    obtain ⟨rfl, rfl, rfl⟩ := key hu
    exact ⟨_, ht, .of_eq (sends_askKey (at_sha2 ht _ _ _ _ rfl) hq) (fails_write hr he rfl)⟩
  | password ht =>
    obtain ⟨rfl, rfl, rfl⟩ := key hu
    exact ⟨_, ht, fails_write hr he rfl⟩
  | ask ht ho hq =>
    obtain ⟨rfl, rfl, rfl⟩ := key hu
    exact ⟨_, ht, .of_eq (sends_ask (at_place ht _ _ rfl) (by rintro (rfl | rfl) <;> exact at_maria ht (by simp [mariaOnly])) ho hq)
      (fails_write hr he rfl)⟩
  | fast ht => obtain ⟨_, _, _, rfl⟩ := at_last ht; exact (not_last hu).elim
  | login ht => obtain ⟨_, _, _, rfl⟩ := at_last ht; exact (not_last hu).elim
  | «end» ht => obtain ⟨_, _, _, rfl⟩ := at_last ht; exact (not_last hu).elim
  | checksum ht => obtain ⟨_, _, _, rfl⟩ := at_last ht; exact (not_last hu).elim
  | _ => exact (not_last hu).elim

end

end MysqlCdc
