import Verif.Spec.MariaLists
import Verif.Props.Events
import Verif.Props.Faults
import Verif.Lemmas.DumpRead
import Verif.Props.Iteration
/-!
# C107: GTID lists of MariaDB with flags
-/

namespace MysqlCdc

open Spec

theorem entries_length (gtids : List MGtid) :
    (gtids.flatMap fun g => le 4 g.domainId ++ le 4 g.serverId ++ le 8 g.sequence).length = 16 * gtids.length := by
  induction gtids with
  | nil => rfl
  | cons g gtids ih => rw [List.flatMap_cons, List.length_append, ih]; simp; omega

/-- **C107.** Without flags the list is decoded. -/
theorem C107_without_flags_partial (m : Mode) (st : EventParser) (header : EventHeader) (hc : header.eventType = 163) {gtids : List MGtid}
    {body slice : Bytes} (hb : FlaggedList 0 gtids body) (hs : WithChecksum st.checksumType body slice) :
    parseEvent m st header slice = (.ok (.mariaDbGtidList ⟨⟨gtids⟩⟩), st) := by
  obtain ⟨h1, h2, h3⟩ := hb
  refine C16_mariadb_gtid_events m st header _ _ slice ?_ hs
  rw [hc]
  have := MariaBody.gtidList (header := header) (gtids := gtids) (extra := []) (by omega) h3
  simpa using this

/-- **C107.** With any flag the list is refused, as if its bytes had ended early: the flags are taken for a part of the number. -/
theorem C107_flags_refused (m : Mode) (st : EventParser) (header : EventHeader) (hc : header.eventType = 163) {flags : Nat} (hf : flags ≠ 0)
    {gtids : List MGtid} {body slice : Bytes} (hb : FlaggedList flags gtids body) (hs : WithChecksum st.checksumType body slice) :
    parseEvent m st header slice = (.err (.io .unexpectedEof), st) := by
  obtain ⟨h1, h2, h3⟩ := hb
  obtain ⟨n, hn⟩ : ∃ n, n = gtids.length + flags * 2 ^ 28 := ⟨_, rfl⟩
  rw [← hn] at hs
  have hn1 : n < 2 ^ 32 := by omega
  have hn2 : gtids.length < n := by omega
  clear hn hf h1 h2
  generalize hbody : le 4 n ++
    gtids.flatMap (fun g => le 4 g.domainId ++ le 4 g.serverId ++ le 8 g.sequence) = body at hs
  have hrun : (parseGtidList >>= fun e => (pure (.mariaDbGtidList e) : P BinlogEvent)).run body = .err (.io .unexpectedEof) := by
    cases h : (parseGtidList >>= fun e => (pure (.mariaDbGtidList e) : P BinlogEvent)).run body with
    | ok v =>
      exfalso
      obtain ⟨a, ha, -⟩ := (((exact_gtidList header).map BinlogEvent.mariaDbGtidList).run _ _).1 h
      generalize hb' : body = body' at ha
      cases ha with
      | @gtidList gtids' extra g1 g2 =>
        rw [← hbody, List.append_assoc] at hb'
        obtain ⟨e1, e2⟩ := le_append_inj (k := 4) hn1 g1 hb'
        have e3 := congrArg List.length e2
        rw [List.length_append, entries_length, entries_length] at e3
        omega
    | err e => rw [(ends_gtidList.map BinlogEvent.mariaDbGtidList).run h]
    | panic => exact absurd h (safe_map_run (.gtidList body))
    | hang =>
      unfold P.run at h
      rw [P.seq_apply] at h
      cases hp : parseGtidList body 0 with
      | hang => exact absurd hp (noHang_gtidList _ _)
      | _ => rw [hp] at h; simp [Res.bind, pure, P.ret] at h
  unfold parseEvent
  rw [eventBody_of_checksum hs]
  simp only [dispatchEvent, hc, EventType.fromCode, hrun]

/-- **C107** is false: a list of one GTID with the flag `FLAG_IGN_GTIDS` (MariaDB replicas write such lists to their relay logs); the file reader takes
it for the end of the file, although a decodable event follows. -/
theorem C107_false : ∃ (header : EventHeader) (body : Bytes) (r r1 r2 : BinlogReader) (h : EventHeader) (e : BinlogEvent), header.eventType = 163 ∧
    FlaggedList 2 [⟨0, 1, 5⟩] body ∧ ∀ m, BinlogReader.new (fileBytes [(header, body), (⟨0, 16, 1, 27, 0, 0⟩, [9, 0, 0, 0, 0, 0, 0, 0])]) = .ok r ∧
      r.next m = (.ok none, r1) ∧ r1.next m = (.ok (some (.ok (h, e))), r2) := by
  have hx : ∀ m, BinlogReader.next m ⟨recordBytes (⟨0, 16, 1, 27, 0, 0⟩, [9, 0, 0, 0, 0, 0, 0, 0]), EventParser.new, .unexpectedEof⟩ =
      (.ok (some (.ok (⟨0, 16, 1, 27, 0, 0⟩, .xid ⟨9⟩))), ⟨[], EventParser.new, .unexpectedEof⟩) := by
    rintro ⟨_ | _⟩ <;> decide +kernel
  have hb : FlaggedList 2 [⟨0, 1, 5⟩] _ := .mk (by decide) (by decide) (by decide)
  generalize hbody : (le 4 (([⟨0, 1, 5⟩] : List MGtid).length + 2 * 2 ^ 28) ++
    ([⟨0, 1, 5⟩] : List MGtid).flatMap fun g => le 4 g.domainId ++ le 4 g.serverId ++ le 8 g.sequence) = body at hb
  have hlen : body.length = 20 := by rw [← hbody, List.length_append, entries_length, le_length]; rfl
  have hfit : HeaderFits ⟨0, 163, 1, 39, 0, 0⟩ := by unfold HeaderFits; decide
  refine ⟨⟨0, 163, 1, 39, 0, 0⟩, body, ⟨recordsBytes [(⟨0, 163, 1, 39, 0, 0⟩, body), (⟨0, 16, 1, 27, 0, 0⟩, [9, 0, 0, 0, 0, 0, 0, 0])], EventParser.new,
    .unexpectedEof⟩, ⟨recordBytes (⟨0, 16, 1, 27, 0, 0⟩, [9, 0, 0, 0, 0, 0, 0, 0]), EventParser.new, .unexpectedEof⟩,
    ⟨[], EventParser.new, .unexpectedEof⟩, ⟨0, 16, 1, 27, 0, 0⟩, .xid ⟨9⟩, rfl, hb, fun m => ⟨(C31_magic _ _).1 _ rfl, ?_, hx m⟩⟩
  rw [next_record m _ ⟨0, 163, 1, 39, 0, 0⟩ body (recordBytes (⟨0, 16, 1, 27, 0, 0⟩, [9, 0, 0, 0, 0, 0, 0, 0]))
    ⟨hfit, by simp only [hlen]⟩ (by simp [recordsBytes])]
  rw [C107_flags_refused m _ ⟨0, 163, 1, 39, 0, 0⟩ rfl (flags := 2) (by decide) hb ⟨[], rfl, (List.append_nil _).symm⟩]

example : FlaggedList 0 [⟨0, 1, 5⟩, ⟨2, 1, 7⟩] (le 4 2 ++ ((le 4 0 ++ le 4 1 ++ le 8 5) ++ (le 4 2 ++ le 4 1 ++ le 8 7))) :=
  .mk (flags := 0) (gtids := [⟨0, 1, 5⟩, ⟨2, 1, 7⟩]) (by decide) (by decide) (by decide)

example : FlaggedList 3 [⟨0, 1, 5⟩, ⟨2, 1, 7⟩] (le 4 (2 + 3 * 2 ^ 28) ++ ((le 4 0 ++ le 4 1 ++ le 8 5) ++ (le 4 2 ++ le 4 1 ++ le 8 7))) :=
  .mk (flags := 3) (gtids := [⟨0, 1, 5⟩, ⟨2, 1, 7⟩]) (by decide) (by decide) (by decide)

end MysqlCdc
