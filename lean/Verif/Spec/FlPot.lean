import Verif.Spec.FlOneEl
import Verif.Spec.ERI

/-!
# What the errors of potential integrals are measured with
-/

set_option autoImplicit false

open Real

namespace Simint.FlPot

open FlOneEl (moment reach)

/-- Two shells and charges are of moderate size: at most 2^19 pairs of primitives, counted once for every
charge, exponents between `2^-20` and `2^40`, coordinates at most `R ≤ 2^15`, coefficients at most
`2^50`, charges at most `2^20`. -/
structure FieldIn (A B : Shell ℝ) (centers : List (ℝ × (Dir → ℝ))) (R : ℝ) : Prop where
  prims : centers.length * (A.nprim * B.nprim) ≤ 2 ^ 19
  alo : ∀ i < A.nprim, 1 / 2 ^ 20 ≤ A.alpha i
  ahi : ∀ i < A.nprim, A.alpha i ≤ 2 ^ 40
  blo : ∀ j < B.nprim, 1 / 2 ^ 20 ≤ B.alpha j
  bhi : ∀ j < B.nprim, B.alpha j ≤ 2 ^ 40
  apos : ∀ d, |A.pos d| ≤ R
  bpos : ∀ d, |B.pos d| ≤ R
  cpos : ∀ c ∈ centers, ∀ d, |c.2 d| ≤ R
  rhi : R ≤ 2 ^ 15
  acoef : ∀ i < A.nprim, |A.coef i| ≤ 2 ^ 50
  bcoef : ∀ j < B.nprim, |B.coef j| ≤ 2 ^ 50
  charge : ∀ c ∈ centers, |c.1| ≤ 2 ^ 20

/-- Exponent of the Gaussian factor of the product. -/
noncomputable def gexp3 (α : ℝ) (A : Dir → ℝ) (β : ℝ) (B : Dir → ℝ) : ℝ := α * β / (α + β) * dist2 A B

/-- What the errors of the start values are measured with: the value without the Boys function, and a
factor for the argument of the Boys function. -/
noncomputable def potStart (α : ℝ) (A : Dir → ℝ) (β : ℝ) (B : Dir → ℝ) (R : ℝ) : ℝ :=
  (2 + 3 * reach R ^ 2 * (α + β)) *
    (2 * π / (α + β) * ((1 + gexp3 α A β B) * exp (-gexp3 α A β B)) + 1 / 2 ^ 200)

/-- What the error of an integral of two primitives with total angular momentum `l` is measured with. -/
noncomputable def potSize (α : ℝ) (A : Dir → ℝ) (β : ℝ) (B : Dir → ℝ) (R : ℝ) (l : ℕ) : ℝ :=
  potStart α A β B R * moment (2 * reach R) (1 / (α + β)) l

/-- What the error of a potential integral is measured with. -/
noncomputable def potentialMax (centers : List (ℝ × (Dir → ℝ))) (A B : Shell ℝ) (R : ℝ) : ℝ :=
  (centers.map fun c => ∑ i ∈ Finset.range A.nprim, ∑ j ∈ Finset.range B.nprim,
    |c.1 * A.coef i * B.coef j| * potSize (A.alpha i) A.pos (B.alpha j) B.pos R (A.am + B.am)).sum + 1 / 2 ^ 200

/-- The argument of the Boys function. -/
noncomputable def argOf (α : ℝ) (A : Dir → ℝ) (β : ℝ) (B C : Dir → ℝ) : ℝ :=
  dist2 (fun d => (α * A d + β * B d) / (α + β)) C * (α + β)

end Simint.FlPot
