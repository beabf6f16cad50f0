import Verif.FlFast
import Verif.Spec.FlScreen

/-!
# Errors of fast screening values on doubles
-/

set_option autoImplicit false

namespace Simint.FlFast

/-- Bound of a quartet of s primitives that is left out with tolerance `t`, when the values are at most `V`. -/
noncomputable def dropMax (t V : ℝ) : ℝ := (1 + 1 / 2 ^ 32) * t + (1 + V) / 2 ^ 197

/-- The function with s components only. -/
def s0 : Exp := ⟨0, 0, 0⟩

/-- The class of four s shells. -/
def ssss : QAM := ⟨0, 0, 0, 0, ""⟩

end Simint.FlFast
