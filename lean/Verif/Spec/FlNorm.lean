import Verif.Spec.Norm
import Verif.FlRel

/-!
# What the errors of normalised shells are measured with
-/

set_option autoImplicit false

namespace Simint.FlNorm

open FlBoys (Arith)

/-- Square of the norm of a contracted function, up to a factor that depends on the component only, if
its normalised primitives have coefficients `c`. -/
noncomputable def normSq (sh : Shell ℝ) (c : ℕ → ℝ) : ℝ :=
  ∑ j ∈ Finset.range sh.nprim, ∑ k ∈ Finset.range sh.nprim,
    c j * c k * ((sh.alpha j * sh.alpha k) ^ (1 / 2 * ((sh.am : ℝ) + 3 / 2)) /
      (sh.alpha j + sh.alpha k) ^ ((sh.am : ℝ) + 3 / 2))

/-- A shell is of moderate size: angular momentum at most 20, exponents between `2^-20` and `2^40`,
coefficients zero or between `2^-50` and `2^50`, and the norm of the function is not small because its
primitives cancel: the norm with the absolute values of the coefficients is at most `√K` times as large. -/
structure NormIn (sh : Shell ℝ) (K : ℕ) : Prop where
  am : sh.am ≤ 20
  lo : ∀ j < sh.nprim, 1 / 2 ^ 20 ≤ sh.alpha j
  hi : ∀ j < sh.nprim, sh.alpha j ≤ 2 ^ 40
  clo : ∀ j < sh.nprim, sh.coef j = 0 ∨ 1 / 2 ^ 50 ≤ |sh.coef j|
  chi : ∀ j < sh.nprim, |sh.coef j| ≤ 2 ^ 50
  cond : normSq sh (fun j => |sh.coef j|) + 1 / 2 ^ 200 ≤ K * normSq sh sh.coef
  count : K * (3 * sh.am + 40 + sh.nprim * sh.nprim) ≤ 2 ^ 18

/-- `pow` of the C library: at most 4 units in the last place off if the power is neither too small
nor too large for a double. -/
def PowOK (F : Arith) : Prop :=
  ∀ x p : ℝ, 0 < x → κ ≤ x ^ p → x ^ p ≤ 2 ^ 1000 → |F.pow x p - x ^ p| ≤ 1 / 2 ^ 50 * x ^ p

end Simint.FlNorm
