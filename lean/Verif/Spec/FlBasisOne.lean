import Verif.Spec.FlBasis
import Verif.Spec.FlPot

/-!
# One-electron integrals of normalised shells

What the errors of the coefficients are measured with.
-/

set_option autoImplicit false

namespace Simint

/-- One term of a contracted shell. -/
def onePrim (A : Shell ℝ) (i : ℕ) : Shell ℝ :=
  { A with nprim := 1, alpha := fun _ => A.alpha i, coef := fun _ => A.coef i }

/-- Sum of the absolute values of the integrals over the terms of two shells. -/
noncomputable def termsAbs (J : Shell ℝ → Shell ℝ → ℝ) (A B : Shell ℝ) : ℝ :=
  ∑ i ∈ Finset.range A.nprim, ∑ j ∈ Finset.range B.nprim, |J (onePrim A i) (onePrim B j)|

/-- Errors of a number `v` that stands for the integral `J` of the normalised shells: `k` roundings of the
integral, measured with `M`, and the roundings of the coefficients. -/
def OneError (J : Shell ℝ → Shell ℝ → ℝ) (A B : Shell ℝ) (K k : ℕ) (M v : ℝ) : Prop :=
  |v - J (normedShell A) (normedShell B)| ≤ k * (1 / 2 ^ 52) * (2 * M) +
    (normRound A K + normRound B K : ℕ) * (1 / 2 ^ 52) * termsAbs J (normedShell A) (normedShell B)

end Simint
