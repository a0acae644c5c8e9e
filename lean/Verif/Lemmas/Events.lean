import Verif.Spec.Events
import Verif.Lemmas.Bitmaps
import Verif.Lemmas.Uuid
/-!
# Round-trips of the events without table map
-/

namespace MysqlCdc

open Spec

theorem Parses.run_append {α : Type} {p : P α} {enc : Bytes} {v : α} (h : Parses p enc v) (rest : Bytes) :
    p.run (enc ++ rest) = .ok v := by
  have := h [] rest
  simp only [List.nil_append, List.length_nil] at this
  simp [P.run, this]

theorem Parses.cast {α : Type} {p : P α} {enc enc' : Bytes} {v v' : α} (h : Parses p enc v) (he : enc' = enc) (hv : v' = v) :
    Parses p enc' v' := by subst he hv; exact h

theorem ParsesEnd.cast {α : Type} {p : P α} {enc enc' : Bytes} {v v' : α} (h : ParsesEnd p enc v) (he : enc' = enc)
    (hv : v' = v) : ParsesEnd p enc' v' := by subst he hv; exact h

/-- A trailer nobody reads. -/
theorem run_of_parses_prefix {α : Type} {p : P α} {enc rest : Bytes} {v : α} (h : Parses p enc v) :
    p.run (enc ++ rest) = .ok v := h.run_append rest

theorem parseHeader_parses {h : EventHeader} (hf : HeaderFits h) : Parses parseHeader (headerBytes h) h := by
  obtain ⟨h1, h2, h3, h4, h5, h6⟩ := hf
  unfold parseHeader headerBytes
  simp only [List.append_assoc]
  refine (uLE_parses (k := 4) (by simpa using h1)).bind ?_
  refine (u8_parses h2).bind ?_
  refine (uLE_parses (k := 4) (by simpa using h3)).bind ?_
  refine (uLE_parses (k := 4) (by simpa using h4)).bind ?_
  refine (uLE_parses (k := 4) (by simpa using h5)).bind ?_
  exact (uLE_parses (k := 2) (by simpa using h6)).map (fun x => EventHeader.mk _ _ _ _ _ x)

theorem parseQuery_parses {thread duration error : Nat} {status : Bytes} {db sql : RStr}
    (h1 : thread < 2 ^ 32) (h2 : duration < 2 ^ 32) (h3 : (utf8Bytes db).length < 2 ^ 8) (h4 : error < 2 ^ 16)
    (h5 : status.length < 2 ^ 16) :
    ParsesEnd parseQuery (le 4 thread ++ le 4 duration ++ le 1 (utf8Bytes db).length ++ le 2 error ++ le 2 status.length
          ++ status ++ utf8Bytes db ++ [0] ++ utf8Bytes sql) ⟨thread, duration, error, status, db, sql⟩ := by
  unfold parseQuery
  simp only [List.append_assoc]
  refine (uLE_parses (k := 4) (by simpa using h1)).bindEnd ?_
  refine (uLE_parses (k := 4) (by simpa using h2)).bindEnd ?_
  refine (u8_parses h3).bindEnd ?_
  refine (uLE_parses (k := 2) (by simpa using h4)).bindEnd ?_
  refine (uLE_parses (k := 2) (by simpa using h5)).bindEnd ?_
  refine (readVec_parses rfl (by omega)).bindEnd ?_
  refine (readString_parses rfl (by omega)).bindEnd ?_
  refine (seek_parses (n := 1) rfl).bindEnd ?_
  exact (readToString_parses sql).map _

theorem parseRotate_parses {name : RStr} {position : Nat} (h : position < 2 ^ 64) :
    ParsesEnd parseRotate (le 8 position ++ utf8Bytes name) ⟨name, position⟩ := by
  unfold parseRotate
  refine (uLE_parses (k := 8) (by simpa using h)).bindEnd ?_
  exact (readToString_parses name).map (fun x => RotateEvent.mk x _)

theorem parseIntVar_parses {type value : Nat} (h1 : type < 2 ^ 8) (h2 : value < 2 ^ 64) :
    Parses parseIntVar (le 1 type ++ le 8 value) ⟨type, value⟩ := by
  unfold parseIntVar
  refine (u8_parses h1).bind ?_
  exact (uLE_parses (k := 8) (by simpa using h2)).map _

theorem parseUserVar_null_parses {name : RStr} {isNull : Nat} (h1 : (utf8Bytes name).length < 2 ^ 32)
    (h2 : 0 < isNull ∧ isNull < 2 ^ 8) :
    Parses parseUserVar (le 4 (utf8Bytes name).length ++ utf8Bytes name ++ le 1 isNull) ⟨name, none⟩ := by
  unfold parseUserVar
  simp only [List.append_assoc]
  refine (uLE_parses (k := 4) (by simpa using h1)).bind ?_
  refine (readString_parses rfl (by omega)).bind ?_
  refine ((u8_parses h2.2).bind (e2 := []) (b := ⟨name, none⟩) ?_).cast (by simp) rfl
  rw [if_pos (by omega)]
  exact Parses.pure _

theorem parseUserVar_parses {name value : RStr} {type collation flags : Nat} (h1 : (utf8Bytes name).length < 2 ^ 32)
      (h2 : type < 2 ^ 8) (h3 : collation < 2 ^ 32) (h4 : (utf8Bytes value).length < 2 ^ 32) (h5 : flags < 2 ^ 8) :
    Parses parseUserVar (le 4 (utf8Bytes name).length ++ utf8Bytes name ++ [0] ++ le 1 type ++ le 4 collation
          ++ le 4 (utf8Bytes value).length ++ utf8Bytes value ++ le 1 flags)
        ⟨name, some ⟨type, collation, value, flags⟩⟩ := by
  unfold parseUserVar
  simp only [List.append_assoc]
  refine (uLE_parses (k := 4) (by simpa using h1)).bind ?_
  refine (readString_parses rfl (by omega)).bind ?_
  refine (u8_byte 0).bind ?_
  rw [if_neg (by simp)]
  refine (u8_parses h2).bind ?_
  refine (uLE_parses (k := 4) (by simpa using h3)).bind ?_
  refine (uLE_parses (k := 4) (by simpa using h4)).bind ?_
  refine (readString_parses rfl (by omega)).bind ?_
  exact (u8_parses h5).map (fun x => UserVarEvent.mk _ (some (VariableValue.mk _ _ _ x)))

theorem parseXid_parses {xid : Nat} (h : xid < 2 ^ 64) : Parses parseXid (le 8 xid) ⟨xid⟩ := by
  unfold parseXid
  exact (uLE_parses (k := 8) (by simpa using h)).map _

theorem parseHeartbeat_parses (name : RStr) : ParsesEnd parseHeartbeat (utf8Bytes name) ⟨name⟩ := by
  unfold parseHeartbeat
  exact (readToString_parses name).map _

theorem parseRowsQueryMysql_parses (query : RStr) (length : UInt8) :
    ParsesEnd parseRowsQueryMysql (length :: utf8Bytes query) ⟨query⟩ := by
  unfold parseRowsQueryMysql
  exact (seek_parses (n := 1) (bs := [length]) rfl).bindEnd ((readToString_parses query).map _)

theorem parseRowsQueryMariadb_parses (query : RStr) : ParsesEnd parseRowsQueryMariadb (utf8Bytes query) ⟨query⟩ := by
  unfold parseRowsQueryMariadb
  exact (readToString_parses query).map _

theorem parseMySqlGtid_parses {flags id : Nat} {sid : Bytes} (h1 : flags < 2 ^ 8) (h2 : sid.length = 16) (h3 : id < 2 ^ 64) :
    Parses parseMySqlGtid (le 1 flags ++ sid ++ le 8 id) ⟨⟨⟨sid, uuidText sid⟩, id⟩, flags⟩ := by
  unfold parseMySqlGtid
  simp only [List.append_assoc]
  refine (u8_parses h1).bind ?_
  refine (readExact_parses' h2).bind ?_
  rw [uuid_new_eq sid h2]
  exact (uLE_parses (k := 8) (by simpa using h3)).map (fun x => MySqlGtidEvent.mk ⟨_, x⟩ _)

theorem parseMariaGtid_parses (header : EventHeader) {sequence domain flags : Nat} (h1 : sequence < 2 ^ 64)
    (h2 : domain < 2 ^ 32) (h3 : flags < 2 ^ 8) :
    Parses (parseMariaGtid header) (le 8 sequence ++ le 4 domain ++ le 1 flags)
      ⟨⟨domain, header.serverId, sequence⟩, flags⟩ := by
  unfold parseMariaGtid
  simp only [List.append_assoc]
  refine (uLE_parses (k := 8) (by simpa using h1)).bind ?_
  refine (uLE_parses (k := 4) (by simpa using h2)).bind ?_
  exact (u8_parses h3).map _

theorem parseListGtid_parses {g : MGtid} (h : g.domainId < 2 ^ 32 ∧ g.serverId < 2 ^ 32 ∧ g.sequence < 2 ^ 64) :
    Parses parseListGtid (le 4 g.domainId ++ le 4 g.serverId ++ le 8 g.sequence) g := by
  unfold parseListGtid
  simp only [List.append_assoc]
  refine (uLE_parses (k := 4) (by simpa using h.1)).bind ?_
  refine (uLE_parses (k := 4) (by simpa using h.2.1)).bind ?_
  exact (uLE_parses (k := 8) (by simpa using h.2.2)).map (fun x => MGtid.mk _ _ x)

theorem parseGtidList_parses {gtids : List MGtid} (h1 : gtids.length < 2 ^ 32)
    (h2 : ∀ g ∈ gtids, g.domainId < 2 ^ 32 ∧ g.serverId < 2 ^ 32 ∧ g.sequence < 2 ^ 64) :
    Parses parseGtidList
      (le 4 gtids.length ++ gtids.flatMap fun g => le 4 g.domainId ++ le 4 g.serverId ++ le 8 g.sequence) ⟨⟨gtids⟩⟩ := by
  unfold parseGtidList
  refine (uLE_parses (k := 4) (by simpa using h1)).bind ?_
  have := times_parses (p := parseListGtid) (xs := gtids) (v := id) (fun g hg => parseListGtid_parses (h2 g hg))
  simp only [List.map_id] at this
  exact this.map _

theorem parsePrevInterval_parses (m : Mode) {iv : Interval} (h : iv.start < 2 ^ 64 ∧ iv.end < 2 ^ 64 - 1) :
    Parses (parsePrevInterval m) (le 8 iv.start ++ le 8 (iv.end + 1)) iv := by
  unfold parsePrevInterval
  refine (uLE_parses (k := 8) (by simpa using h.1)).bind ?_
  refine ((uLE_parses (k := 8) (n := iv.end + 1) (by omega)).bind (e2 := []) (b := iv) ?_).cast (by simp) rfl
  rw [show subU m 64 (iv.end + 1) 1 = .ok iv.end by simp [subU]]
  exact Parses.pure _

theorem uuidSet_new_nil (m : Mode) (u : Uuid) : UuidSet.new m u [] = .ok ⟨u, []⟩ := by
  simp only [UuidSet.new]
  rfl

theorem parsePrevUuidSet_parses (m : Mode) {s : Bytes × List Interval} (h1 : s.1.length = 16) (h2 : s.2.length < 2 ^ 64)
    (h3 : ∀ iv ∈ s.2, iv.start < 2 ^ 64 ∧ iv.end < 2 ^ 64 - 1) :
    Parses (parsePrevUuidSet m) (s.1 ++ le 8 s.2.length ++ intervalsBytes s.2) ⟨⟨s.1, uuidText s.1⟩, s.2⟩ := by
  unfold parsePrevUuidSet intervalsBytes
  simp only [List.append_assoc]
  refine (readExact_parses' h1).bind ?_
  rw [uuid_new_eq _ h1]
  rw [uuidSet_new_nil, lift_ok_bind]
  refine (uLE_parses (k := 8) (by simpa using h2)).bind ?_
  have := times_parses (p := parsePrevInterval m) (xs := s.2) (v := id) (fun iv hiv => parsePrevInterval_parses m (h3 iv hiv))
  simp only [List.map_id] at this
  exact this.map (fun ivs => UuidSet.mk _ ivs)

theorem parsePreviousGtids_parses (m : Mode) {sets : List (Bytes × List Interval)} (h : GtidSetFits sets) :
    Parses (parsePreviousGtids m) (gtidSetBytes sets)
      ⟨⟨(sets.map fun s => (⟨⟨s.1, uuidText s.1⟩, s.2⟩ : UuidSet)).foldl (fun r s => r.insert s.sourceId.uuid s) []⟩⟩ := by
  unfold parsePreviousGtids gtidSetBytes
  refine (uLE_parses (k := 8) (by simpa using h.1)).bind ?_
  have := times_parses (p := parsePrevUuidSet m) (xs := sets) (v := fun s => (⟨⟨s.1, uuidText s.1⟩, s.2⟩ : UuidSet))
    (fun s hs => parsePrevUuidSet_parses m (h.2 s hs).1 (h.2 s hs).2.1 (h.2 s hs).2.2)
  exact this.map _

/-! ## From event bodies to `parse_event` -/

theorem eventBody_of_checksum {ck : ChecksumType} {body slice : Bytes} (h : WithChecksum ck body slice) :
    eventBody ck slice = .ok body := by
  obtain ⟨sum, h1, rfl⟩ := h
  cases ck with
  | none => simp at h1; simp [eventBody, h1]
  | crc32 => simp only at h1; simp [eventBody, h1]

theorem parseEvent_of_body {m : Mode} {st : EventParser} {header : EventHeader} {body slice : Bytes} {event : BinlogEvent}
    (hs : WithChecksum st.checksumType body slice) (h : (dispatchEvent m st.tableMap header).run body = .ok event) :
    parseEvent m st header slice = (.ok event, st.record event) := by
  simp [parseEvent, eventBody_of_checksum hs, h]

theorem run_bind_ret {α β : Type} {p : P α} {bs : Bytes} {v : α} (f : α → β) (h : p.run bs = .ok v) :
    (p >>= fun x => pure (f x)).run bs = .ok (f v) := by
  unfold P.run at *
  rw [P.seq_apply]
  rcases hp : p bs 0 with ⟨a, pos⟩ | e | _ | _ <;> simp_all

/-- Every plain event body decodes to its event. -/
theorem dispatch_plain {m : Mode} {tm : TableMapCache} {header : EventHeader} {event : BinlogEvent} {body : Bytes}
    (h : PlainBody header.eventType event body) : (dispatchEvent m tm header).run body = .ok event := by
  generalize hc : header.eventType = code at h
  unfold dispatchEvent
  rw [hc]
  cases h with
  | query h1 h2 h3 h4 h5 => exact run_bind_ret BinlogEvent.query (parseQuery_parses h1 h2 h3 h4 h5).run
  | rotate h => exact run_bind_ret BinlogEvent.rotate (parseRotate_parses h).run
  | intVar h1 h2 => exact run_bind_ret BinlogEvent.intVar ((parseIntVar_parses h1 h2).run_append _)
  | userVarNull h1 h2 => exact run_bind_ret BinlogEvent.userVar ((parseUserVar_null_parses h1 h2).run_append _)
  | userVar h1 h2 h3 h4 h5 => exact run_bind_ret BinlogEvent.userVar ((parseUserVar_parses h1 h2 h3 h4 h5).run_append _)
  | xid h => exact run_bind_ret BinlogEvent.xid ((parseXid_parses h).run_append _)
  | heartbeat => exact run_bind_ret BinlogEvent.heartbeat (parseHeartbeat_parses _).run
  | rowsQuery => exact run_bind_ret BinlogEvent.rowsQuery (parseRowsQueryMysql_parses _ _).run
  | mySqlGtid h1 h2 h3 => exact run_bind_ret BinlogEvent.mySqlGtid ((parseMySqlGtid_parses h1 h2 h3).run_append _)
  | annotateRows => exact run_bind_ret BinlogEvent.rowsQuery (parseRowsQueryMariadb_parses _).run

theorem dispatch_maria {m : Mode} {tm : TableMapCache} {header : EventHeader} {event : BinlogEvent} {body : Bytes}
    (h : MariaBody header header.eventType event body) : (dispatchEvent m tm header).run body = .ok event := by
  generalize hc : header.eventType = code at h
  unfold dispatchEvent
  rw [hc]
  cases h with
  | gtid h1 h2 h3 => exact run_bind_ret BinlogEvent.mariaDbGtid ((parseMariaGtid_parses header h1 h2 h3).run_append _)
  | gtidList h1 h2 => exact run_bind_ret BinlogEvent.mariaDbGtidList ((parseGtidList_parses h1 h2).run_append _)

end MysqlCdc
