import Verif.Spec.GtidSet
/-!
# Programs that keep their place as text between runs
-/

namespace MysqlCdc.Spec

/-- Each entry of the set has a uuid text of 36 characters and at least one interval, as the text of a set has. -/
def Printable (set : GtidSet) : Prop := ∀ e ∈ set.uuidSets, e.2.sourceId.uuid.length = 36 ∧ e.2.intervals ≠ []

end MysqlCdc.Spec
