import Verif.Spec.FlBasisOne
import Verif.Spec.FlGrad

/-!
# From basis sets to derivatives on doubles

What the errors of the coefficients are measured with, and the errors together.
-/

set_option autoImplicit false

namespace Simint

/-- Sum of the absolute values of the derivatives of the integrals over the terms of four shells, with
respect to coordinate `i` of center `t`. -/
noncomputable def shellGradAbs (A B C D : Shell ℝ) (x y z w : Exp) (t : RRType) (i : Dir) : ℝ :=
  ∑ j ∈ Finset.range A.nprim, ∑ k ∈ Finset.range B.nprim, ∑ l ∈ Finset.range C.nprim,
    ∑ m ∈ Finset.range D.nprim,
      |deriv (movedERI (onePrim A j) (onePrim B k) (onePrim C l) (onePrim D m) x y z w t i) (shellCenter A B C D t i)|

/-- Errors of a number `v` that stands for the derivative of the integral of normalised shells that belong to
pairs `p` and `q` of shells of the array. -/
def BasisGradError (G : List (Shell ℝ)) (K : ℕ) (R : ℝ) (final : QAM) (kb : ℕ) (p q : ℕ × ℕ) (x y z w : Exp)
    (t : RRType) (i : Dir) (v : ℝ) : Prop :=
  let A := shellAt G p.1
  let B := shellAt G p.2
  let C := shellAt G q.1
  let D := shellAt G q.2
  ∃ v', HasDerivAt (movedERI (normedShell A) (normedShell B) (normedShell C) (normedShell D) x y z w t i) v'
      (shellCenter A B C D t i) ∧
    |v - v'| ≤
      gradCount kb final (pairPrims A B * pairPrims C D) * (1 / 2 ^ 52) *
        (gradTerms final t *
          (2 * shellGradSize (normedShell A) (normedShell B) (normedShell C) (normedShell D) R (totalL final + 1) *
            (2 + 2 * R) ^ gradStepped final)) +
      (normRound A K + normRound B K + (normRound C K + normRound D K) : ℕ) * (1 / 2 ^ 52) *
        shellGradAbs (normedShell A) (normedShell B) (normedShell C) (normedShell D) x y z w t i

end Simint
