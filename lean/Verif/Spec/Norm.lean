import Verif.Spec.OneEl
import Mathlib.Analysis.SpecialFunctions.Pow.Real
import Mathlib.Data.Nat.Factorial.DoubleFactorial

/-!
# Specification: normalised contracted functions
-/

set_option autoImplicit false

namespace Simint

/-- `(2n - 1)!!`. -/
def oddFac (n : ℕ) : ℕ := (2 * n - 1).doubleFactorial

/-- The contracted function that basis set tables mean: the coefficients refer to normalised
primitives.  A primitive with exponent `a` and powers of sum `l` has norm `a^(-(l+3/2)/2)` times a
factor that does not depend on `a`. -/
noncomputable def primNorm (sh : Shell ℝ) : Shell ℝ :=
  { sh with coef := fun j => sh.coef j * sh.alpha j ^ (1 / 2 * ((sh.am : ℝ) + 3 / 2)) }

/-- Square of the norm of component `e` when the component `(l, 0, 0)` has norm 1. -/
noncomputable def compRatio (l : ℕ) (e : Exp) : ℝ :=
  ((oddFac e.x.toNat * oddFac e.y.toNat * oddFac e.z.toNat : ℕ) : ℝ) / (oddFac l : ℝ)

/-- Exponents of the primitives are distinct and one coefficient is not zero. -/
def Shell.Indep (sh : Shell ℝ) : Prop :=
  (∀ i < sh.nprim, ∀ j < sh.nprim, sh.alpha i = sh.alpha j → i = j) ∧ ∃ i < sh.nprim, sh.coef i ≠ 0

end Simint
