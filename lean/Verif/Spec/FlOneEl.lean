import Verif.Spec.OneEl

/-!
# What the errors of overlap and kinetic energy integrals are measured with
-/

set_option autoImplicit false

open Real

namespace Simint.FlOneEl

/-- Two shells are of moderate size: at most 2^19 pairs of primitives, exponents between `2^-20` and
`2^40`, coordinates at most `R ≤ 2^15`, products of coefficients at most `2^100`. -/
structure ShellsIn (A B : Shell ℝ) (R : ℝ) : Prop where
  prims : A.nprim * B.nprim ≤ 2 ^ 19
  alo : ∀ i < A.nprim, 1 / 2 ^ 20 ≤ A.alpha i
  ahi : ∀ i < A.nprim, A.alpha i ≤ 2 ^ 40
  blo : ∀ j < B.nprim, 1 / 2 ^ 20 ≤ B.alpha j
  bhi : ∀ j < B.nprim, B.alpha j ≤ 2 ^ 40
  apos : ∀ d, |A.pos d| ≤ R
  bpos : ∀ d, |B.pos d| ≤ R
  rhi : R ≤ 2 ^ 15
  coef : ∀ i < A.nprim, ∀ j < B.nprim, |A.coef i * B.coef j| ≤ 2 ^ 100

/-- Mean of `(x + M)^n` with the weight `exp (-x^2 / (2 h))`. -/
noncomputable def moment (M h : ℝ) (n : ℕ) : ℝ :=
  (∫ x : ℝ, (x + M) ^ n * exp (-x ^ 2 / (2 * h))) / ∫ x : ℝ, exp (-x ^ 2 / (2 * h))

/-- Exponent of the Gaussian factor of the product in one direction. -/
noncomputable def gexp1 (α A β B : ℝ) : ℝ := α * β / (α + β) * (A - B) ^ 2

/-- Bound of the distances between centers, with a margin. -/
noncomputable def reach (R : ℝ) : ℝ := 2 * R + 1 / 2 ^ 20

/-- What the error of the overlap of two primitives in one direction is measured with: the integral
with all distances replaced by their bound. -/
noncomputable def ovlSize (α A β B R : ℝ) (n : ℕ) : ℝ :=
  (√(π / (α + β)) * ((1 + gexp1 α A β B) * exp (-gexp1 α A β B)) + 1 / 2 ^ 200) *
    moment (reach R) (1 / (2 * (α + β))) n

/-- The same for the kinetic energy, which has the size of the overlap multiplied by exponents. -/
noncomputable def kinScale (α β R : ℝ) (n : ℕ) : ℝ :=
  α + 2 * α ^ 2 * (reach R ^ 2 + 1 / (2 * (α + β))) + n * (4 * (α + β))

/-- What the error of an overlap integral is measured with. -/
noncomputable def overlapMax (A B : Shell ℝ) (R : ℝ) (a b : Exp) : ℝ :=
  (∑ i ∈ Finset.range A.nprim, ∑ j ∈ Finset.range B.nprim, |A.coef i * B.coef j| *
    (ovlSize (A.alpha i) (A.pos .x) (B.alpha j) (B.pos .x) R (a.x + b.x).toNat *
     ovlSize (A.alpha i) (A.pos .y) (B.alpha j) (B.pos .y) R (a.y + b.y).toNat *
     ovlSize (A.alpha i) (A.pos .z) (B.alpha j) (B.pos .z) R (a.z + b.z).toNat)) + 1 / 2 ^ 200

/-- What the error of a kinetic energy integral is measured with. -/
noncomputable def kineticMax (A B : Shell ℝ) (R : ℝ) (a b : Exp) : ℝ :=
  (∑ i ∈ Finset.range A.nprim, ∑ j ∈ Finset.range B.nprim, |A.coef i * B.coef j| *
    (ovlSize (A.alpha i) (A.pos .x) (B.alpha j) (B.pos .x) R (a.x + b.x).toNat *
     ovlSize (A.alpha i) (A.pos .y) (B.alpha j) (B.pos .y) R (a.y + b.y).toNat *
     ovlSize (A.alpha i) (A.pos .z) (B.alpha j) (B.pos .z) R (a.z + b.z).toNat) *
    (kinScale (A.alpha i) (B.alpha j) R (a.x + b.x).toNat +
     kinScale (A.alpha i) (B.alpha j) R (a.y + b.y).toNat +
     kinScale (A.alpha i) (B.alpha j) R (a.z + b.z).toNat)) + 1 / 2 ^ 100

end Simint.FlOneEl
