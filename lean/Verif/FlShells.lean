import Verif.FlFunction
import Verif.Spec.Sort

/-!
# Filling lists of shell pairs on doubles

The fill routine of `Verif/Shell.lean` with the rounded values of `Verif/FlPrim.lean`.
-/

set_option autoImplicit false

namespace Simint.FlPrim

open FlBoys (Arith)

/-- Arithmetic of the fill routine on doubles: shell.c:466-526 for pairs of primitives, shell.c:534-536 for
the differences of centers. -/
noncomputable def shOps (F : Arith) : ShOps ℝ := ⟨value F, fun x y => F.fl (x - y)⟩

end Simint.FlPrim
