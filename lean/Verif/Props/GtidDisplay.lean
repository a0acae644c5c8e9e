import Verif.Model.GtidDisplay
import Verif.Props.GtidText
/-!
# C108: the text of one GTID
-/

namespace MysqlCdc
open Spec

/-- **C108.** The printed GTID of an event, read as a GTID set, stands for exactly that transaction, and the set prints as the GTID did. -/
theorem C108_mysql (m : Mode) (data : Bytes) (hd : data.length = 16) (id : Nat) (hid : id < 2 ^ 64) :
    ∃ g, GtidSet.parse m (Gtid.display ⟨Uuid.new data, id⟩) = .ok g ∧ (∀ u n, Has g u n ↔ u = data ∧ n = id) ∧
      g.display = Gtid.display ⟨Uuid.new data, id⟩ := by
  have hu : UuidCanon (Uuid.new data) := by rw [uuid_new_eq data hd]; exact ⟨hd, rfl⟩
  have hdata : (Uuid.new data).data = data := by rw [uuid_new_eq data hd]
  have hdisp : GtidSet.display ⟨[((Uuid.new data).uuid, ⟨Uuid.new data, [⟨id, id⟩]⟩)]⟩ = Gtid.display ⟨Uuid.new data, id⟩ := by
    simp [GtidSet.display, HMap.values, sortStrings, joinWith, UuidSet.display, Interval.display, Gtid.display, Uuid.display]
  obtain ⟨g, h1, -, h3, h4⟩ := C05_print_parse m ⟨[((Uuid.new data).uuid, ⟨Uuid.new data, [⟨id, id⟩]⟩)]⟩
    ⟨by simp [Canonical], by simp [hu], by simp⟩ (by simp) (by simpa using hid)
  rw [hdisp] at h1 h4
  refine ⟨g, h1, fun u n => ?_, h4⟩
  rw [h3]
  simp only [Has, List.mem_singleton, exists_eq_left, hdata, InIvs]
  constructor
  · rintro ⟨rfl, h⟩; exact ⟨rfl, by omega⟩
  · rintro ⟨rfl, rfl⟩; exact ⟨rfl, by omega⟩

example : Gtid.display ⟨Uuid.new (List.replicate 15 0 ++ [0xab]), 23⟩ = "00000000-0000-0000-0000-0000000000ab:23".toList := by decide +kernel

/-- **C108.** Two GTIDs of events print the same only if they are the same. -/
theorem C108_mysql_injective {d1 d2 : Bytes} (h1 : d1.length = 16) (h2 : d2.length = 16) {i1 i2 : Nat} (l1 : i1 < 2 ^ 64) (l2 : i2 < 2 ^ 64)
    (h : Gtid.display ⟨Uuid.new d1, i1⟩ = Gtid.display ⟨Uuid.new d2, i2⟩) : d1 = d2 ∧ i1 = i2 := by
  obtain ⟨g1, e1, f1, -⟩ := C108_mysql ⟨true⟩ d1 h1 i1 l1
  obtain ⟨g2, e2, f2, -⟩ := C108_mysql ⟨true⟩ d2 h2 i2 l2
  rw [h, e2] at e1
  injection e1 with e1
  subst e1
  exact (f2 _ _).1 ((f1 _ _).2 ⟨rfl, rfl⟩)

/-- **C108.** The printed MariaDB GTID, read as a list, is the list of that GTID. -/
theorem C108_mariadb (g : MGtid) (hr : MGtidRange g) : GtidList.parse g.display = .ok ⟨[g]⟩ := by
  have := C15_print_parse ⟨[g]⟩ (by simpa using hr) (by simp)
  simpa [GtidList.display, joinWith] using this

/-- **C108.** Two MariaDB GTIDs print the same only if they are the same. -/
theorem C108_mariadb_injective {g1 g2 : MGtid} (h1 : MGtidRange g1) (h2 : MGtidRange g2) (h : g1.display = g2.display) : g1 = g2 := by
  have e1 := C108_mariadb g1 h1
  rw [h, C108_mariadb g2 h2] at e1
  simpa using e1.symm

example : MGtidRange ⟨0, 1, 270⟩ ∧ MGtid.display ⟨0, 1, 270⟩ = "0-1-270".toList := ⟨by simp [MGtidRange], by decide +kernel⟩

end MysqlCdc
