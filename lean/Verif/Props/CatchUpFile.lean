import Verif.Props.CatchUp
import Verif.Props.TablesFile
/-!
# C125 by file and position
-/

namespace MysqlCdc

open Spec

theorem TableSessions.stays {m : Mode} {crypto : Crypto} {log : Log} (hl : LogOk log) {c c' : Client} {copy copy' : Kept}
    (h : TableSessions m crypto log c copy c' copy') (hs : c.options.binlog.startingStrategy ≠ .fromGtid) (hk : ¬wantsEnd c.options)
    (hv : Valid log (c.place log)) : c'.options.binlog.startingStrategy ≠ .fromGtid ∧ ¬wantsEnd c'.options ∧ Valid log (c'.place log) := by
  induction h with
  | stop => exact ⟨hs, hk, hv⟩
  | @failed c c' copy copy' net h ih =>
    have hopt := replicate_keeps_options m crypto c net (not_and_or.1 hk)
    exact ih (by rw [hopt]; exact hs) (by rw [hopt]; exact hk) (by unfold Client.place; rw [hopt]; exact hv)
  | @session c c1 c2 c' copy copy' chan stream taken real hf hr hsess hq hc h ih =>
    obtain ⟨h1, h2, h3, -⟩ := hsess.step hl hs hk hv hf hr hc
    exact ih h1 h2 h3

theorem TableSessions.trans {m : Mode} {crypto : Crypto} {log : Log} {c c1 c' : Client} {copy copy1 copy' : Kept}
    (h : TableSessions m crypto log c copy c1 copy1) (h' : TableSessions m crypto log c1 copy1 c' copy') : TableSessions m crypto log c copy c' copy' := by
  induction h with
  | stop => exact h'
  | failed _ ih => exact .failed (ih h')
  | session hf hr hs hq hc _ ih => exact .session hf hr hs hq hc (ih h')

/-- **C125.** As in C123, replication is by file and position: whatever sessions and failed attempts there were, when a conforming server lets the client in
and sends the log from the recorded place on to its end, and the application takes and commits all of it, the copy shows the tables as they are. Nothing
is left to send then but table maps, which a client asks for again. -/
theorem C125_file {m : Mode} {crypto : Crypto} {log : Log} (hl : LogOk log) {c c' : Client} {copy copy' : Kept}
    (hs : c.options.binlog.startingStrategy ≠ .fromGtid) (hk : ¬wantsEnd c.options) (hv : Valid log (c.place log))
    (h : TableSessions m crypto log c copy c' copy') {columns : TableName → List (UInt8 × Nat)} (hcol : ∀ t, columns t ≠ [])
    {checksum : ChecksumType} {slices : List Bytes} {st : LogState} (hw : LogOf (.start checksum) (remaining log (c.place log)) slices st)
    {rows : TableName → List (List Stored)} {images : List (TableName × List Stored)} {server' : Server}
    (hc : Changes columns ⟨.start checksum, fun _ => none, rows⟩ (((remaining log (c.place log)).map (·.1)).zip slices) images server')
    (hn : copy.names = fun _ => none) (hcopy : RowsShown columns rows copy.rows)
    (chan : Channel) (hu : Usable crypto c'.options) (hwr : chan.writes = []) (mariaDb : Prop) (checksum' : ChecksumType) (bytes : Bytes)
    (hin : LetsIn crypto c'.options mariaDb none checksum' bytes) (q : Place) (sent : List Ev)
    (hserve : Serve log False (c'.place log) q sent (remaining log (c'.place log)))
    (hq : ∀ e ∈ sent, e.1.nextEventPosition = 0 → NoRows e.2)
    (slices' : List Bytes) (st' : LogState) (hbytes : LogOf (.start checksum') sent slices' st') (hsize : ∀ x ∈ slices', x.length < 2 ^ 24 - 20)
    (n : Nat) (rest : Bytes) (hi : chan.input = bytes ++ frames (eventPackets n sent slices') ++ rest) :
    ∃ stream c'', c'.replicate m crypto (.ok chan) = (.ok stream, c'.afresh) ∧ (∃ stream', stream.Yields m (sent.map .ok) stream') ∧
      commitAll m c'.afresh sent = .ok c'' ∧ RowsShown columns server'.rows (copy'.takeAll sent).rows ∧
      ∀ e ∈ remaining log (c''.place log), IsTableMap e.2 := by
  obtain ⟨hs', hk', hv'⟩ := h.stays hl hs hk hv
  obtain ⟨stream, g1, g2⟩ := C105_session m crypto c' chan hu hwr mariaDb checksum' bytes hin hs' hk' log q sent _ hserve slices' st' hbytes hsize n rest hi
  obtain ⟨real, c'', g3, -, g4, g5⟩ := g2 sent.length
  obtain rfl := g4 (Nat.le_refl _)
  rw [List.take_of_length_le (Nat.le_refl _)] at g3 g5
  obtain ⟨-, -, -, -, q', tms, front, -, h6, h7, h8, -⟩ := g3.step hl hs' hk' hv' (small_fits hu.requests) g1 g5
  have hnil : remaining log q' = [] := by
    have := congrArg List.length h6
    rw [List.length_append] at this
    exact List.length_eq_zero_iff.1 (by omega)
  rw [hnil, List.append_nil] at h7
  have hlast : ∀ e ∈ remaining log (c''.place log), IsTableMap e.2 := by rw [h7]; exact h8
  have hwhole := h.trans (.session (small_fits hu.requests) g1 g3 hq g5 .stop)
  obtain ⟨done, later, e1, rfl, e3⟩ := hwhole.took hl hs hk hv (first := copy) (done := []) (maps := []) (later := remaining log (c.place log)) rfl (by simp) rfl
    rfl rfl
  rw [List.nil_append, List.nil_append] at e1
  have hall : (copy'.takeAll sent).rows = (copy.takeAll (remaining log (c.place log))).rows := by
    rw [e1, Kept.takeAll_append, maps_rows hlast, e3]
  refine ⟨stream, c'', g1, ?_, g5, ?_, hlast⟩
  · obtain ⟨_, _, _, _, _, _, hy, _⟩ := g3
    exact ⟨_, hy⟩
  · rw [hall]
    exact (changes_taken hcol hw hc (Knows.start _) (Knows.start _) (fun _ _ h => by cases h) ⟨hn, hcopy⟩).rows

/-- The hypotheses of C125 are met: an attempt has failed, and the server has a table map and two inserted rows to send. -/
example (m : Mode) : ∃ c' q sent slices' st', TableSessions m exCrypto exRowLog exStartUser ⟨fun _ => none, fun _ => []⟩ c' ⟨fun _ => none, fun _ => []⟩ ∧
    LogOk exRowLog ∧ exStartUser.options.binlog.startingStrategy ≠ .fromGtid ∧ ¬wantsEnd exStartUser.options ∧
    Valid exRowLog (exStartUser.place exRowLog) ∧ remaining exRowLog (exStartUser.place exRowLog) = [exMapAt 150, exRowsAt 200, exXidAt 250] ∧
    Usable exCrypto c'.options ∧ (∃ bytes, LetsIn exCrypto c'.options False none .crc32 bytes) ∧
    Serve exRowLog False (c'.place exRowLog) q sent (remaining exRowLog (c'.place exRowLog)) ∧
    (∀ e ∈ sent, e.1.nextEventPosition = 0 → NoRows e.2) ∧ LogOf (.start .crc32) sent slices' st' ∧ (∀ x ∈ slices', x.length < 2 ^ 24 - 20) ∧
    ((Kept.mk (fun _ => none) (fun _ => [])).takeAll sent).rows exTableName = [exCellsA, exCellsB] := by
  have hopt := replicate_keeps_options m exCrypto exStartUser (.error .unexpectedEof) (.inl (by decide))
  obtain ⟨q, s2⟩ : ∃ q, Serve exRowLog False ⟨"bin.1".toList, 4⟩ q [exRotateAt 0 "bin.1" 4, exMapAt 150, exRowsAt 200, exXidAt 250]
      [exMapAt 150, exRowsAt 200, exXidAt 250] := ⟨_, ((((Serve.start (log := exRowLog) (calm := False) (p := ⟨"bin.1".toList, 4⟩)).announce (h := ⟨0, 4, 1, 0, 0, 0⟩) (Or.inl rfl)).event
    (e := exMapAt 150) ⟨_, List.mem_cons_self, rfl, [], _, rfl, rfl⟩).event
    (e := exRowsAt 200) ⟨_, List.mem_cons_self, rfl, [exMapAt 150], _, rfl, rfl⟩).event
    (e := exXidAt 250) ⟨_, List.mem_cons_self, rfl, [exMapAt 150, exRowsAt 200], _, rfl, rfl⟩⟩
  have hrem : remaining exRowLog (exStartUser.place exRowLog) = [exMapAt 150, exRowsAt 200, exXidAt 250] := by decide +kernel
  refine ⟨_, q, [exRotateAt 0 "bin.1" 4, exMapAt 150, exRowsAt 200, exXidAt 250], _, _, .failed (net := .error .unexpectedEof) .stop, exRowLog_ok, by decide,
    by unfold wantsEnd; decide, ⟨_, List.mem_cons_self, rfl, [], _, rfl, rfl⟩, hrem, by rw [hopt]; exact exPlaceUser_usable 4 (by decide) [] (by decide),
    by rw [hopt]; exact ⟨_, exGtidUser_in _⟩, ?_, by simp [exRotateAt, exMapAt, exRowsAt, exXidAt, NoRows],
    .cons (by unfold HeaderFits; decide) (exRotateAt_written _ _ _ (by decide)) exRowLog_written, by decide +kernel, by decide +kernel⟩
  unfold Client.place at hrem ⊢
  rw [hopt, hrem]
  exact s2

end MysqlCdc
