import Verif.Spec.FlShells
import Verif.Spec.FlDeriv

/-!
# From shells to derivatives on doubles

What errors of derivatives of integrals over shells are measured with.
-/

set_option autoImplicit false

namespace Simint

/-- What errors of derivatives of integrals over four shells are measured with: the bounds of the primitive
integrals of total angular momentum `n`, each times one plus twice its exponents. -/
noncomputable def shellGradSize (A B C D : Shell ℝ) (R : ℝ) (n : ℕ) : ℝ :=
  overStored A B C D (fun i j k l => (1 + 2 * (A.alpha i + B.alpha j + C.alpha k + D.alpha l)) *
    VRRRound.growth (FlPrim.startMax A B C D i j k l R) (FlPrim.stepMax R)
      (FlPrim.lowMax (A.alpha i + B.alpha j) (C.alpha k + D.alpha l)) n) + 1 / 2 ^ 1000

end Simint
