import Verif.Spec.Events
import Verif.Spec.TableMap
/-!
# Everything the decoder accepts (all events except rows)

The bodies servers write (`PlainBody`, `MariaBody`, `TableMapBody`, ..) and every deviation from them that is let through: bytes
that are skipped without a look, numbers that are cut, repeated or missing parts.
-/

namespace MysqlCdc.Spec

/-- QUERY_EVENT: the byte between database and statement has any value; it may be missing when the statement is empty. -/
inductive LooseQuery : QueryEvent → Bytes → Prop where
  | mk {thread duration error : Nat} {status sep : Bytes} {db sql : RStr}
      (h1 : thread < 2 ^ 32) (h2 : duration < 2 ^ 32) (h3 : (utf8Bytes db).length < 2 ^ 8) (h4 : error < 2 ^ 16)
      (h5 : status.length < 2 ^ 16) (hs : sep.length = 1 ∨ sep = [] ∧ sql = []) :
      LooseQuery ⟨thread, duration, error, status, db, sql⟩
        (le 4 thread ++ le 4 duration ++ le 1 (utf8Bytes db).length ++ le 2 error ++ le 2 status.length
          ++ status ++ utf8Bytes db ++ sep ++ utf8Bytes sql)

/-! ## PREVIOUS_GTIDS_LOG_EVENT -/

/-- An interval of previous GTIDs: the end stored is one more than the last number. A stored end of 0 is taken for the last
64-bit number, unless the build checks for overflow. Nothing else is asked of the two numbers. -/
inductive PreviousInterval (m : Mode) : Interval → Bytes → Prop where
  | plain {start last : Nat} (h1 : start < 2 ^ 64) (h2 : last + 1 < 2 ^ 64) :
      PreviousInterval m ⟨start, last⟩ (le 8 start ++ le 8 (last + 1))
  | wrapped {start : Nat} (h1 : start < 2 ^ 64) (hm : m.checks = false) :
      PreviousInterval m ⟨start, 2 ^ 64 - 1⟩ (le 8 start ++ le 8 0)

/-- The intervals of one server. -/
def PreviousServer (m : Mode) (s : Bytes × List Interval) (e : Bytes) : Prop :=
  ∃ data, s.1.length = 16 ∧ s.2.length < 2 ^ 64 ∧ Each (PreviousInterval m) s.2 data ∧ e = s.1 ++ le 8 s.2.length ++ data

/-- Of a server that is repeated only the last entry counts. -/
def LastEntry (sets : List (Bytes × List Interval)) (sid : Bytes) (ivs : List Interval) : Prop :=
  ∃ before after, sets = before ++ (sid, ivs) :: after ∧ ∀ s ∈ after, s.1 ≠ sid

/-- The set these entries stand for: each server once, with its last entry. -/
def Gathers (sets : List (Bytes × List Interval)) (g : GtidSet) : Prop :=
  (g.uuidSets.map (·.1)).Nodup ∧
  ∀ k s, (k, s) ∈ g.uuidSets ↔ ∃ sid ivs, LastEntry sets sid ivs ∧ k = uuidText sid ∧ s = ⟨⟨sid, uuidText sid⟩, ivs⟩

inductive LoosePrevious (m : Mode) : GtidSet → Bytes → Prop where
  | mk {sets : List (Bytes × List Interval)} {g : GtidSet} {data extra : Bytes} (h1 : sets.length < 2 ^ 64)
      (h2 : Each (PreviousServer m) sets data) (hg : Gathers sets g) : LoosePrevious m g (le 8 sets.length ++ data ++ extra)

/-! ## FORMAT_DESCRIPTION_EVENT -/

/-- The checksum algorithm. The post-header length of this very event is at offset 71. If it equals the number of bytes behind the
event header (modulo 256: only the low byte of the event length counts) there is no algorithm; else the algorithm is the byte at
that offset. -/
def AlgorithmOf (eventLength : Nat) (body : Bytes) (checksum : ChecksumType) : Prop :=
  ∃ own, body[71]? = some own ∧
    ((own.toNat + 19) % 256 = eventLength % 256 ∧ checksum = .none ∨
     (own.toNat + 19) % 256 ≠ eventLength % 256 ∧
       (body[own.toNat]? = some 0 ∧ checksum = .none ∨ body[own.toNat]? = some 1 ∧ checksum = .crc32))

/-- Binlog version, 50 bytes of which those before the first zero are the server version, and the algorithm. With overflow checks
the low byte of the event length must be at least 19. -/
inductive LooseFormat (m : Mode) (eventLength : Nat) : FormatDescriptionEvent → Bytes → Prop where
  | mk {version : Nat} {server : RStr} {pad rest : Bytes} {checksum : ChecksumType} (h1 : version < 2 ^ 16)
      (h2 : (0 : UInt8) ∉ utf8Bytes server) (h3 : pad = [] ∨ pad.head? = some 0)
      (h4 : (utf8Bytes server).length + pad.length = 50) (hm : m.checks = true → 19 ≤ eventLength % 256)
      (ha : AlgorithmOf eventLength (le 2 version ++ (utf8Bytes server ++ pad) ++ rest) checksum) :
      LooseFormat m eventLength ⟨version, server, checksum⟩ (le 2 version ++ (utf8Bytes server ++ pad) ++ rest)

/-! ## TABLE_MAP_EVENT -/

/-- A length-encoded number of which 32 bits are kept. -/
def LooseNum (n : Nat) (e : Bytes) : Prop := ∃ v, LenEnc v e ∧ n = v % 2 ^ 32
def LoosePair (p : Nat × Nat) (e : Bytes) : Prop := ∃ a b, LooseNum p.1 a ∧ LooseNum p.2 b ∧ e = a ++ b
def LooseCharset (c : DefaultCharset) (e : Bytes) : Prop :=
  ∃ a b, LooseNum c.defaultCharsetCollation a ∧ Each LoosePair c.charsetCollations b ∧ e = a ++ b
/-- A bitmap and whatever follows it. -/
def LooseBitmap (n : Nat) (bits : List Bool) (e : Bytes) : Prop :=
  bits.length = n ∧ ∃ a b, BitmapMsb bits a ∧ e = a ++ b

inductive LoosePayload (types : Bytes) : UInt8 → MetaField → Bytes → Prop where
  | signedness {bits : List Bool} {e : Bytes} (h : LooseBitmap (types.filter isNumeric).length bits e) :
      LoosePayload types 1 (.signedness bits) e
  | defaultCharset {c : DefaultCharset} {e : Bytes} (h : LooseCharset c e) : LoosePayload types 2 (.defaultCharset c) e
  | columnCharset {ns : List Nat} {e : Bytes} (h : Each LooseNum ns e) : LoosePayload types 3 (.columnCharset ns) e
  | columnName {names : List RStr} {e : Bytes} (h : Each Text names e) : LoosePayload types 4 (.columnName names) e
  | setValues {vs : List (List RStr)} {e : Bytes} (h : Each Values vs e) : LoosePayload types 5 (.setValues vs) e
  | enumValues {vs : List (List RStr)} {e : Bytes} (h : Each Values vs e) : LoosePayload types 6 (.enumValues vs) e
  | geometryTypes {ns : List Nat} {e : Bytes} (h : Each LooseNum ns e) : LoosePayload types 7 (.geometryTypes ns) e
  | primaryKey {ns : List Nat} {e : Bytes} (h : Each LooseNum ns e) : LoosePayload types 8 (.primaryKey ns) e
  | primaryKeyPrefix {ns : List (Nat × Nat)} {e : Bytes} (h : Each LoosePair ns e) :
      LoosePayload types 9 (.primaryKeyPrefix ns) e
  | enumSetDefaultCharset {c : DefaultCharset} {e : Bytes} (h : LooseCharset c e) :
      LoosePayload types 10 (.enumSetDefaultCharset c) e
  | enumSetColumnCharset {ns : List Nat} {e : Bytes} (h : Each LooseNum ns e) :
      LoosePayload types 11 (.enumSetColumnCharset ns) e
  | visibility {bits : List Bool} {e : Bytes} (h : LooseBitmap types.length bits e) :
      LoosePayload types 12 (.visibility bits) e

def LooseField (types : Bytes) (f : MetaField) (e : Bytes) : Prop :=
  ∃ code len payload, LoosePayload types code f payload ∧ payload.length < 2 ^ 63 ∧ LenEnc payload.length len ∧
    e = [code] ++ len ++ payload

/-- The optional metadata: there is some exactly if bytes are left for it. -/
def LooseMetadata (types : Bytes) (t : Option TableMetadata) (e : Bytes) : Prop :=
  e = [] ∧ t = none ∨ e ≠ [] ∧ ∃ fields md, Each (LooseField types) fields e ∧ MetaOf fields md ∧ t = some md

/-- As `TableMapBody`, but the terminators of the two names and the size of the column metadata are not looked at. -/
inductive LooseTableMap : TableMapEvent → Bytes → Prop where
  | mk {tableId metaSize : Nat} {flags : Bytes} {db table : RStr} {columns : List (UInt8 × Nat)} {nulls : List Bool}
      {z1 z2 : UInt8} {count metaLength colMeta bitmap opt : Bytes} {md : Option TableMetadata}
      (h1 : tableId < 2 ^ 48) (h2 : flags.length = 2) (h3 : (utf8Bytes db).length < 2 ^ 8)
      (h4 : (utf8Bytes table).length < 2 ^ 8) (h5 : LenEnc columns.length count) (h5' : columns.length < 2 ^ 63)
      (h6 : Each ColumnMeta columns colMeta) (h8 : LenEnc metaSize metaLength)
      (h9 : nulls.length = columns.length) (h10 : BitmapLE nulls bitmap)
      (h11 : LooseMetadata (columns.map (·.1)) md opt) :
      LooseTableMap ⟨tableId, db, table, columns.map (·.1), columns.map (·.2), nulls, md⟩
        (le 6 tableId ++ flags ++ (le 1 (utf8Bytes db).length ++ utf8Bytes db ++ [z1])
          ++ (le 1 (utf8Bytes table).length ++ utf8Bytes table ++ [z2]) ++ count ++ columns.map (·.1)
          ++ metaLength ++ colMeta ++ bitmap ++ opt)

/-! ## Events -/

/-- WRITE, UPDATE and DELETE of versions 1 and 2. -/
def rowCodes : List Nat := [23, 24, 25, 30, 31, 32]

/-- The other events that are decoded. -/
def decodedCodes : List Nat := [2, 4, 5, 14, 15, 16, 19, 27, 29, 33, 35, 160, 162, 163]

/-- `Accepted m header event body`: an event with this header and body, not a row event, is decoded as `event`. -/
inductive Accepted (m : Mode) (header : EventHeader) : BinlogEvent → Bytes → Prop where
  | plain {event : BinlogEvent} {body : Bytes} (h : PlainBody header.eventType event body) : Accepted m header event body
  | maria {event : BinlogEvent} {body : Bytes} (h : MariaBody header header.eventType event body) : Accepted m header event body
  | query {e : QueryEvent} {body : Bytes} (hc : header.eventType = 2) (h : LooseQuery e body) : Accepted m header (.query e) body
  /-- Even the length byte may be missing. -/
  | noRowsQuery (hc : header.eventType = 29) : Accepted m header (.rowsQuery ⟨[]⟩) []
  | previous {g : GtidSet} {body : Bytes} (hc : header.eventType = 35) (h : LoosePrevious m g body) :
      Accepted m header (.mySqlPrevGtids ⟨g⟩) body
  | format {e : FormatDescriptionEvent} {body : Bytes} (hc : header.eventType = 15)
      (h : LooseFormat m header.eventLength e body) : Accepted m header (.formatDescription e) body
  | tableMap {t : TableMapEvent} {body : Bytes} (hc : header.eventType = 19) (h : LooseTableMap t body) :
      Accepted m header (.tableMap t) body
  | unknown {body : Bytes} (hc : header.eventType ∉ decodedCodes) (hr : header.eventType ∉ rowCodes) :
      Accepted m header .unknown body

/-- The same event; the order of the servers in a set of previous GTIDs is unspecified. -/
inductive SameEvent : BinlogEvent → BinlogEvent → Prop where
  | refl (e : BinlogEvent) : SameEvent e e
  | previous {g g' : GtidSet} (h : g.uuidSets.Perm g'.uuidSets) : SameEvent (.mySqlPrevGtids ⟨g⟩) (.mySqlPrevGtids ⟨g'⟩)

end MysqlCdc.Spec
