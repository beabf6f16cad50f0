import Verif.FlScreen
import Verif.Spec.FlShells
import Verif.Spec.Function

/-!
# Errors of screening on doubles

What the values of pairs of primitives are compared with, and a bound for a quartet of primitives that is left
out.
-/

set_option autoImplicit false

namespace Simint

/-- The integral `(xy|xy)` of a pair of primitives, with the coefficients. -/
noncomputable def primSelf (A B : Shell ℝ) (i j : ℕ) (x y : Exp) : ℝ :=
  (A.coef i * B.coef j) ^ 2 *
    coulomb (A.alpha i) (B.alpha j) (A.alpha i) (B.alpha j) A.pos B.pos A.pos B.pos x y x y

/-- The values of the pairs of primitives are between 0 and `V`; `m` times the value, plus `e`, bounds their
integrals `(xy|xy)`. -/
def NearBounding (val : Shell ℝ → Shell ℝ → ℕ → ℕ → ℝ) (A B : Shell ℝ) (m e V : ℝ) : Prop :=
  ∀ i < A.nprim, ∀ j < B.nprim, 0 ≤ val A B i j ∧ val A B i j ≤ V ∧
    ∀ x y, IsComp A.am x → IsComp B.am y → primSelf A B i j x y ≤ m * val A B i j + e

/-- Bound of a product of two values that is found, with rounding, to be below the square of the tolerance. -/
noncomputable def tolSq (t : ℝ) : ℝ := (1 + 1 / 2 ^ 51) * t ^ 2 + 1 / 2 ^ 1000

/-- Bound of a quartet of primitives that is left out. -/
noncomputable def dropMax (m t e V : ℝ) : ℝ := √(m ^ 2 * tolSq t + 2 * m * e * V + e ^ 2)

/-- Error of the computed integrals `(ab|ab)` of a pair of primitives (C89 for shells with one primitive). -/
noncomputable def selfErr (A B : Shell ℝ) (R : ℝ) (i j : ℕ) : ℝ :=
  (672 + 92 * (2 * (A.am + B.am)) + 6 * min A.am B.am : ℕ) * (1 / 2 ^ 52) *
    (shellSize (oneShell 0 A i) (oneShell 1 B j) (oneShell 0 A i) (oneShell 1 B j) R (2 * (A.am + B.am)) *
      (2 + 2 * R) ^ (2 * min A.am B.am))

/-- Quartets of primitives of four shells. -/
def quartets (A B C D : Shell ℝ) : ℝ := (A.nprim * B.nprim) * (C.nprim * D.nprim)

/-- What is asked of the pairs of shells of a list for its Schwarz values: the arguments of the Boys function in
`(ab|ab)`, the errors of the computed values and the integrals `(xy|xy)` of the primitives. -/
def SelfBelow (ps : List (Shell ℝ × Shell ℝ)) (R e V : ℝ) : Prop :=
  ∀ p ∈ ps, ∀ i < p.1.nprim, ∀ j < p.2.nprim,
    ArgsBelow (oneShell 0 p.1 i) (oneShell 1 p.2 j) (oneShell 0 p.1 i) (oneShell 1 p.2 j) R 36.5 ∧
    selfErr p.1 p.2 R i j ≤ e ∧ ∀ x y, IsComp p.1.am x → IsComp p.2.am y → primSelf p.1 p.2 i j x y ≤ V

end Simint
