import Verif.Props.MysqlGtid
import Mathlib.Data.List.Perm.Basic
/-!
# How many entries a server has in a GTID set: C98
-/

namespace MysqlCdc

open Spec

/-- The entries of a set for one server. -/
def entriesOf (g : GtidSet) (server : Bytes) : List (RStr × UuidSet) := g.uuidSets.filter fun e => decide (e.2.sourceId.data = server)

theorem mem_entriesOf {g : GtidSet} {server : Bytes} {e : RStr × UuidSet} :
    e ∈ entriesOf g server ↔ e ∈ g.uuidSets ∧ e.2.sourceId.data = server := by
  simp [entriesOf, List.mem_filter]

theorem keys_after (m : Mode) (g : GtidSet) (xs : List Gtid) (hw : Wf g) (ho : AllOrdered g)
    (hx : ∀ x ∈ xs, UuidCanon x.sourceId ∧ x.transactionId < 2 ^ 64 - 1) : ∃ g', addAll m g xs = .ok g' ∧ Wf g' ∧
      ∀ u k, k ∈ (entriesOf g' u).map (·.1) ↔ k ∈ (entriesOf g u).map (·.1) ∨ (k = uuidText u ∧ ∃ x ∈ xs, x.sourceId.data = u) := by
  obtain ⟨g', h1, h2, _, _, _, h6, h7⟩ := addAll_full m xs g hw ho (fun x h => ⟨UuidCanon_ok (hx x h).1, (hx x h).2⟩)
  refine ⟨g', h1, h2, fun u k => ?_⟩
  simp only [List.mem_map, mem_entriesOf] at h6 ⊢
  constructor
  · rintro ⟨e, ⟨he, hu⟩, rfl⟩
    rcases h7 e he with ⟨e', he', h⟩ | ⟨x, hx', h⟩
    · exact .inl ⟨e', ⟨he', by rw [← h, hu]⟩, by rw [(hw.uuids e' he').2, ← h, (h2.uuids e he).2]⟩
    · refine .inr ⟨?_, x, hx', by rw [← h, hu]⟩
      rw [(h2.uuids e he).2, h, (hx x hx').1.2, ← h, hu]
  · rintro (⟨e, ⟨he, hu⟩, rfl⟩ | ⟨rfl, x, hx', rfl⟩)
    · obtain ⟨e', he', hk⟩ := (h6 e.1).2 (.inl ⟨e, he, rfl⟩)
      refine ⟨e', ⟨he', ?_⟩, hk⟩
      have := uuidOk_data (h2.uuids e' he').1 (hw.uuids e he).1 (by rw [← (h2.uuids e' he').2, hk, (hw.uuids e he).2])
      rw [this, hu]
    · obtain ⟨e', he', hk⟩ := (h6 x.sourceId.uuid).2 (.inr ⟨x, hx', rfl⟩)
      refine ⟨e', ⟨he', ?_⟩, by rw [hk, (hx x hx').1.2]⟩
      rw [uuidOk_data (h2.uuids e' he').1 (UuidCanon_ok (hx x hx').1) (by rw [← (h2.uuids e' he').2, hk])]

theorem nodup_entries {g : GtidSet} (hw : Wf g) (u : Bytes) : ((entriesOf g u).map (·.1)).Nodup :=
  hw.keys.sublist (List.filter_sublist.map _)

open Classical in
/-- C98: after any list of GTIDs from events the entries of a server are those it had, and one more exactly if it got a GTID and had
no entry under the usual writing of its uuid. This holds for any set, however its uuids are written. -/
theorem C98_entries_count (m : Mode) (g : GtidSet) (xs : List Gtid) (hw : Wf g) (ho : AllOrdered g)
    (hx : ∀ x ∈ xs, UuidCanon x.sourceId ∧ x.transactionId < 2 ^ 64 - 1) : ∃ g', addAll m g xs = .ok g' ∧
      ∀ u, (entriesOf g' u).length = (entriesOf g u).length +
        if (∃ x ∈ xs, x.sourceId.data = u) ∧ ∀ e ∈ g.uuidSets, e.1 ≠ uuidText u ∨ e.2.sourceId.data ≠ u then 1 else 0 := by
  obtain ⟨g', h1, h2, h3⟩ := keys_after m g xs hw ho hx
  refine ⟨g', h1, fun u => ?_⟩
  have hn := nodup_entries hw u
  have hn' := nodup_entries h2 u
  have hl : ∀ g : GtidSet, (entriesOf g u).length = ((entriesOf g u).map (·.1)).length := fun g => (List.length_map _).symm
  have hno : (∀ e ∈ g.uuidSets, e.1 ≠ uuidText u ∨ e.2.sourceId.data ≠ u) ↔ uuidText u ∉ (entriesOf g u).map (·.1) := by
    simp only [List.mem_map, mem_entriesOf]
    constructor
    · rintro h ⟨e, ⟨he, hu⟩, hk⟩
      exact (h e he).elim (· hk) (· hu)
    · intro h e he
      by_cases hk : e.1 = uuidText u
      · exact .inr fun hu => h ⟨e, ⟨he, hu⟩, hk⟩
      · exact .inl hk
  rw [hl g', hl g]
  split
  · rename_i hc
    have hp : ((entriesOf g' u).map (·.1)).Perm (uuidText u :: (entriesOf g u).map (·.1)) := by
      rw [List.perm_ext_iff_of_nodup hn' (List.nodup_cons.2 ⟨hno.1 hc.2, hn⟩)]
      intro k
      rw [h3, List.mem_cons]
      exact ⟨fun h => h.elim .inr fun h => .inl h.1, fun h => h.elim (fun h => .inr ⟨h, hc.1⟩) .inl⟩
    rw [hp.length_eq, List.length_cons]
  · rename_i hc
    have hp : ((entriesOf g' u).map (·.1)).Perm ((entriesOf g u).map (·.1)) := by
      rw [List.perm_ext_iff_of_nodup hn' hn]
      intro k
      rw [h3]
      refine ⟨fun h => h.elim id ?_, .inl⟩
      rintro ⟨rfl, hx'⟩
      by_contra h
      exact hc ⟨hx', hno.2 h⟩
    rw [hp.length_eq, Nat.add_zero]

/-- C98: a set with at most one entry per server keeps that form exactly if no GTID comes from a server whose entry is under another
writing of its uuid than the usual one. -/
theorem C98_one_entry_iff (m : Mode) (g : GtidSet) (xs : List Gtid) (hw : Wf g) (ho : AllOrdered g)
    (hx : ∀ x ∈ xs, UuidCanon x.sourceId ∧ x.transactionId < 2 ^ 64 - 1) (h1 : ∀ u, (entriesOf g u).length ≤ 1) :
    ∃ g', addAll m g xs = .ok g' ∧ ((∀ u, (entriesOf g' u).length ≤ 1) ↔
      ∀ x ∈ xs, ∀ e ∈ g.uuidSets, e.2.sourceId.data = x.sourceId.data → e.1 = uuidText x.sourceId.data) := by
  obtain ⟨g', h2, h3⟩ := C98_entries_count m g xs hw ho hx
  refine ⟨g', h2, ?_⟩
  constructor
  · intro h x hx' e he hd
    by_contra hk
    have h4 := h3 x.sourceId.data
    have hmem : e ∈ entriesOf g x.sourceId.data := mem_entriesOf.2 ⟨he, hd⟩
    have hpos : 0 < (entriesOf g x.sourceId.data).length := List.length_pos_of_mem hmem
    have hle := h1 x.sourceId.data
    have hc : ∀ e' ∈ g.uuidSets, e'.1 ≠ uuidText x.sourceId.data ∨ e'.2.sourceId.data ≠ x.sourceId.data := by
      intro e' he'
      by_cases hd' : e'.2.sourceId.data = x.sourceId.data
      · left
        have : e' ∈ entriesOf g x.sourceId.data := mem_entriesOf.2 ⟨he', hd'⟩
        obtain ⟨y, hy⟩ := List.length_eq_one_iff.1 (by omega : (entriesOf g x.sourceId.data).length = 1)
        rw [hy, List.mem_singleton] at this hmem
        rw [this, ← hmem]
        exact hk
      · exact .inr hd'
    rw [if_pos ⟨⟨x, hx', rfl⟩, hc⟩] at h4
    have := h x.sourceId.data
    omega
  · intro h u
    rw [h3]
    have := h1 u
    split
    · rename_i hc
      obtain ⟨⟨x, hx', rfl⟩, hno⟩ := hc
      have : entriesOf g x.sourceId.data = [] := by
        rw [List.eq_nil_iff_forall_not_mem]
        intro e he
        obtain ⟨he, hd⟩ := mem_entriesOf.1 he
        exact (hno e he).elim (fun hk => hk (h x hx' e he hd)) (fun hk => hk hd)
      simp [this]
    · omega

/-- A set written with upper-case digits: one entry for the server; a GTID of that server makes it two. -/
def exUpperSet : GtidSet := ⟨[("24BC7850-2C16-11E6-A073-0242AC110001".toList,
  ⟨⟨exBytes, "24BC7850-2C16-11E6-A073-0242AC110001".toList⟩, [⟨1, 5⟩]⟩)]⟩

example : GtidSet.parse ⟨true⟩ exUpper = .ok exUpperSet ∧ (entriesOf exUpperSet exBytes).length = 1 ∧ UuidCanon exUuid ∧
    Wf exUpperSet ∧ AllOrdered exUpperSet ∧
    addAll ⟨true⟩ exUpperSet [⟨exUuid, 6⟩] = .ok ⟨exUpperSet.uuidSets ++ [(exUuid.uuid, ⟨exUuid, [⟨6, 6⟩]⟩)]⟩ := by
  refine ⟨by decide +kernel, by decide +kernel, exUuid_canon, ?_, ?_, by decide +kernel⟩
  · constructor
    · intro e he
      rw [exUpperSet, List.mem_singleton] at he
      subst he
      exact ⟨((uuid_parse_ok_iff "24BC7850-2C16-11E6-A073-0242AC110001".toList _).1 (by decide +kernel)).2, rfl⟩
    · simp [exUpperSet]
  · intro e he
    rw [exUpperSet, List.mem_singleton] at he
    subst he
    exact ⟨⟨by decide, by simp⟩, by intro iv hiv; simp only [List.mem_singleton] at hiv; subst hiv; decide⟩

end MysqlCdc
