import Verif.Model.Basic
/-!
# The two build profiles
-/

namespace MysqlCdc.Spec

/-- The build with overflow checks (the debug profile). -/
def checked : Mode := ⟨true⟩

/-- The build without (the release profile). -/
def unchecked : Mode := ⟨false⟩

/-- The second outcome is the first one, unless the first is a crash. -/
def SameOrCrash {α : Type} (x y : Res α) : Prop := x ≠ .panic → y = x

/-- As `SameOrCrash`, with what is left behind. -/
def SameOrCrashWith {α σ : Type} (x y : Res α × σ) : Prop := x.1 ≠ .panic → y = x

end MysqlCdc.Spec
