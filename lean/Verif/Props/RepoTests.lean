import Verif.Model.Cells
import Verif.Model.Events
import Verif.Model.MariaGtid
import Verif.Model.MysqlGtid
/-!
# The unit tests of the code, run on the model

Each example is a test of /repo, transcribed. They prove nothing in general; they check that the model computes what the code is known to
compute. As the code is not run here, they are the only such check.
-/

namespace MysqlCdc.RepoTests

/-! src/events/row_events/actual_string_type.rs:28-65 -/

/-- `get_actual_string_type_char` -/
example : getActualStringType 254 52768 = (254, 800) := by decide +kernel
/-- `get_actual_string_type_enum` -/
example : getActualStringType 254 63233 = (247, 1) := by decide +kernel
/-- `get_actual_string_type_set` -/
example : getActualStringType 254 63489 = (248, 1) := by decide +kernel

/-! src/events/row_events/decimal.rs:85-177 -/

/-- `parse_decimal(&mut cursor, metadata)` after `cursor.read_u16::<LittleEndian>()` -/
def decimalTest (m : Mode) (payload : Bytes) : Res RStr :=
  (do let metadata ← P.uLE 2; parseDecimal m metadata : P RStr).run payload

/-- `parse_positive_number` -/
example : ∀ m, decimalTest m [65, 10, 129, 13, 251, 56, 210, 6, 176, 139, 229, 33, 200, 92, 19, 0, 16, 248, 159, 19,
    239, 59, 244, 39, 205, 127, 73, 59, 2, 55, 215, 2] =
      .ok "1234567890112233445566778899001112223334445556667778889.9900011112".toList := by
  rintro ⟨_ | _⟩ <;> decide +kernel
/-- `parse_negative_number` -/
example : ∀ m, decimalTest m [65, 10, 126, 242, 4, 199, 45, 249, 79, 116, 26, 222, 55, 163, 236, 255, 239, 7, 96,
    236, 16, 196, 11, 216, 50, 128, 182, 196, 253, 200, 40, 253] =
      .ok "-1234567890112233445566778899001112223334445556667778889.9900011112".toList := by
  rintro ⟨_ | _⟩ <;> decide +kernel
/-- `parse_with_starting_zeros_ignored` -/
example : ∀ m, decimalTest m [65, 10, 128, 0, 0, 0, 0, 0, 0, 0, 0, 0, 0, 0, 0, 0, 0, 0, 0, 0, 0, 0, 0, 0, 118, 178,
    73, 59, 2, 55, 215, 2] = .ok "7778889.9900011112".toList := by
  rintro ⟨_ | _⟩ <;> decide +kernel
/-- `parse_with_integral_zero` -/
example : ∀ m, decimalTest m [65, 10, 128, 0, 0, 0, 0, 0, 0, 0, 0, 0, 0, 0, 0, 0, 0, 0, 0, 0, 0, 0, 0, 0, 0, 0, 0,
    59, 2, 55, 215, 2] = .ok "0.9900011112".toList := by
  rintro ⟨_ | _⟩ <;> decide +kernel
/-- `compressed_fractional_starting_zeros_preserved` -/
example : ∀ m, decimalTest m [60, 15, 128, 0, 0, 0, 0, 0, 0, 0, 0, 0, 0, 0, 2, 13, 152, 244, 39, 205, 127, 73, 7, 91,
    205, 21, 0, 26, 44] = .ok "34445556667778889.123456789006700".toList := by
  rintro ⟨_ | _⟩ <;> decide +kernel
/-- `parse_integer` -/
example : ∀ m, decimalTest m [60, 0, 128, 0, 0, 0, 0, 0, 0, 0, 0, 0, 0, 0, 0, 0, 0, 0, 0, 0, 0, 2, 13, 152, 244, 39,
    205, 127, 73] = .ok "34445556667778889".toList := by
  rintro ⟨_ | _⟩ <;> decide +kernel

/-! src/events/uservar_event.rs:64-87 -/

/-- `parse_user_var_event` -/
example : parseUserVar.run [0x03, 0x00, 0x00, 0x00, 0x66, 0x6f, 0x6f, 0x00, 0x00, 0x21, 0x00, 0x00, 0x00, 0x03,
    0x00, 0x00, 0x00, 0x62, 0x61, 0x72, 0x6b, 0x3d, 0xd9, 0x7d] =
      .ok ⟨"foo".toList, some ⟨0, 33, "bar".toList, 107⟩⟩ := by decide +kernel

/-! src/providers/mariadb/gtid/gtid_list.rs:77-144 -/

/-- `GtidList::parse(value).unwrap().to_string()`, and how many GTIDs there are -/
def listTest (value : String) (add : List MGtid := []) : Res (Nat × RStr) :=
  match GtidList.parse value.toList with
  | .ok l => let l := add.foldl (fun l g => (l.addGtid g).2) l; .ok (l.gtids.length, l.display)
  | _ => .panic

/-- `parse_not_unique_domains` -/
example : GtidList.parse "1-1-270, 1-1-271".toList = .err (.str "GtidList must consist of unique domain ids") := by decide +kernel
/-- `parse_empty_string_returns_empty_gtid_list` -/
example : listTest "" = .ok (0, []) := by decide +kernel
/-- `parse_gtid_lists_returns_multiple_results` -/
example : listTest "0-1-270" = .ok (1, "0-1-270".toList) ∧ listTest "1-2-120,2-3-130" = .ok (2, "1-2-120,2-3-130".toList) ∧
    listTest "1-2-120, 2-3-130, 3-4-50" = .ok (3, "1-2-120,2-3-130,3-4-50".toList) := by decide +kernel
/-- `add_existing_domain_gtid_updated` -/
example : listTest "0-1-270" [⟨0, 1, 271⟩] = .ok (1, "0-1-271".toList) := by decide +kernel
/-- `add_new_domain_gtid_added` -/
example : listTest "0-1-270" [⟨1, 1, 271⟩] = .ok (2, "0-1-270,1-1-271".toList) := by decide +kernel
/-- `add_multi_domain_gtid_list_merged` -/
example : listTest "1-2-120,2-3-130,3-4-50" [⟨2, 4, 250⟩] = .ok (3, "1-2-120,2-4-250,3-4-50".toList) := by decide +kernel

/-! src/providers/mysql/events/prev_gtids_event.rs:42-61 -/

/-- `PreviousGtidsEvent::parse(&mut cursor).unwrap().gtid_set`, the text of each server (`to_string` sorts and joins them) -/
def prevTest (m : Mode) (payload : Bytes) : Res (List RStr) := do
  let event ← (parsePreviousGtids m).run payload
  return event.gtidSet.uuidSets.values.map UuidSet.display

/-- `parse_event_returns_gtid_set` -/
example : ∀ m, prevTest m [
    2, 0, 0, 0, 0, 0, 0, 0, 181, 205, 22, 36, 95, 48, 17, 228, 180, 233, 16, 81, 114, 27,
    210, 65, 1, 0, 0, 0, 0, 0, 0, 0, 1, 0, 0, 0, 0, 0, 0, 0, 241, 15, 108, 0, 0, 0, 0, 0,
    187, 66, 29, 38, 95, 48, 17, 228, 180, 233, 216, 157, 103, 43, 46, 248, 1, 0, 0, 0, 0,
    0, 0, 0, 1, 0, 0, 0, 0, 0, 0, 0, 209, 97, 119, 0, 0, 0, 0, 0] =
      .ok ["b5cd1624-5f30-11e4-b4e9-1051721bd241:1-7081968".toList, "bb421d26-5f30-11e4-b4e9-d89d672b2ef8:1-7823824".toList] := by
  rintro ⟨_ | _⟩ <;> decide +kernel

/-! src/providers/mysql/gtid/gtid_set.rs:84-292 -/

def uuid1 : String := "24bc7850-2c16-11e6-a073-0242ac110001"
def uuid2 : String := "24bc7850-2c16-11e6-a073-0242ac110002"

/-- `gtid_set.add_gtid(Gtid::new(Uuid::parse(uuid).unwrap(), id)).unwrap()` for each -/
def addAll (m : Mode) : List (String × Nat) → GtidSet → Res GtidSet
  | [], set => .ok set
  | (uuid, id) :: rest, set => do
    let sourceId ← Uuid.parse uuid.toList
    let (_, set) ← set.addGtid m ⟨sourceId, id⟩
    addAll m rest set

/-- `GtidSet::parse(text).unwrap()`, then GTIDs added: the text of each server (`to_string` sorts and joins them), and that of each interval
of the two servers -/
def setTest (m : Mode) (text : String) (add : List (String × Nat) := []) : Res (List RStr × List (Option (List RStr))) := do
  let set ← GtidSet.parse m text.toList
  let set ← addAll m add set
  return (set.uuidSets.values.map UuidSet.display,
    [uuid1, uuid2].map fun uuid => (set.uuidSets.get? uuid.toList).map fun s => s.intervals.map Interval.display)

/-- `parse_empty_string_returns_empty_gtid_set` -/
example : ∀ m, setTest m "" = .ok ([], [none, none]) := by rintro ⟨_ | _⟩ <;> decide +kernel
/-- `add_gtids_lists_merged` -/
example : ∀ m, setTest m (uuid1 ++ ":3-5") [(uuid1, 2), (uuid1, 4), (uuid1, 5), (uuid1, 7), (uuid2, 9), (uuid1, 0)] =
    .ok ([(uuid1 ++ ":0:2-5:7").toList, (uuid2 ++ ":9").toList], [some ["0".toList, "2-5".toList, "7".toList], some ["9".toList]]) := by
  rintro ⟨_ | _⟩ <;> decide +kernel
/-- `add_gtid_in_gap_intervals_joined` -/
example : ∀ m, setTest m (uuid1 ++ ":3-4:6-7") [(uuid1, 5)] = .ok ([(uuid1 ++ ":3-7").toList], [some ["3-7".toList], none]) := by
  rintro ⟨_ | _⟩ <;> decide +kernel
/-- `raw_gtid_sets_equals_correctly`, `continuous_intervals_collapsed` -/
example : ∀ m, setTest m (uuid1 ++ ":1-199") = .ok ([(uuid1 ++ ":1-199").toList], [some ["1-199".toList], none]) ∧
    setTest m (uuid1 ++ ":1-191:192-199") = setTest m (uuid1 ++ ":1-199") := by
  rintro ⟨_ | _⟩ <;> decide +kernel
/-- `simple_gtid_set_has_single_interval` -/
example : ∀ m, setTest m (uuid1 ++ ":1-191") = .ok ([(uuid1 ++ ":1-191").toList], [some ["1-191".toList], none]) := by
  rintro ⟨_ | _⟩ <;> decide +kernel
/-- `non_continuous_intervals_not_collapsed` -/
example : ∀ m, setTest m (uuid1 ++ ":1-191:193-199") =
    .ok ([(uuid1 ++ ":1-191:193-199").toList], [some ["1-191".toList, "193-199".toList], none]) := by
  rintro ⟨_ | _⟩ <;> decide +kernel
/-- `multiple_intervals_not_collapsed` -/
example : ∀ m, setTest m (uuid1 ++ ":1-191:193-199:1000-1033") =
    .ok ([(uuid1 ++ ":1-191:193-199:1000-1033").toList], [some ["1-191".toList, "193-199".toList, "1000-1033".toList], none]) := by
  rintro ⟨_ | _⟩ <;> decide +kernel
/-- `multiple_intervals_some_collapsed` -/
example : ∀ m, setTest m (uuid1 ++ ":1-191:192-199:1000-1033:1035-1036:1038-1039") =
    .ok ([(uuid1 ++ ":1-199:1000-1033:1035-1036:1038-1039").toList],
      [some ["1-199".toList, "1000-1033".toList, "1035-1036".toList, "1038-1039".toList], none]) := by
  rintro ⟨_ | _⟩ <;> decide +kernel
/-- `multi_server_setup_has_single_intervals_trims_spaces` -/
example : ∀ m, setTest m (uuid1 ++ ":1-3:11:47-49, " ++ uuid2 ++ ":1-19:55:56-100") =
    .ok ([(uuid1 ++ ":1-3:11:47-49").toList, (uuid2 ++ ":1-19:55-100").toList],
      [some ["1-3".toList, "11".toList, "47-49".toList], some ["1-19".toList, "55-100".toList]]) := by
  rintro ⟨_ | _⟩ <;> decide +kernel

end MysqlCdc.RepoTests
