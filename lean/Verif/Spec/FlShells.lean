import Verif.FlShells
import Verif.Spec.FlFunction
import Verif.Spec.FlSum

/-!
# From shells to integrals on doubles

Sizes of shells, arguments of the Boys function and what errors of integrals over shells are measured
with.
-/

set_option autoImplicit false

namespace Simint

open Finset
open FlBoys (ieee)
open FlPrim (center startMax stepMax lowMax diffMax)
open VRRRound (growth)

/-- A shell of moderate size: at least one primitive, exponents between `2^-10` and `2^30`, coefficients up
to `2^30`, coordinates up to `R`, which are doubles. -/
structure Shell.Moderate (A : Shell ℝ) (R : ℝ) : Prop where
  prims : 0 < A.nprim
  lo : ∀ i < A.nprim, 1 / 2 ^ 10 ≤ A.alpha i
  hi : ∀ i < A.nprim, A.alpha i ≤ 2 ^ 30
  coef : ∀ i < A.nprim, |A.coef i| ≤ 2 ^ 30
  pos : ∀ d, |A.pos d| ≤ R
  double : ∀ d, IsDouble (ieee false) (A.pos d)

/-- Pairs of shells of moderate size; an address stands for one shell. -/
def PairsModerate (ps : List (Shell ℝ × Shell ℝ)) (R : ℝ) : Prop :=
  ∀ p ∈ ps, p.1.Moderate R ∧ p.2.Moderate R ∧ Faithful p.1 p.2

section
variable (A B C D : Shell ℝ) (a b c d : ℕ)

/-- Reduced exponent of two pairs of primitives. -/
noncomputable def redExp : ℝ :=
  (A.alpha a + B.alpha b) * (C.alpha c + D.alpha d) / (A.alpha a + B.alpha b + (C.alpha c + D.alpha d))

/-- Exact argument of the Boys function. -/
noncomputable def shellArg : ℝ := dist2 (center A B a b) (center C D c d) * redExp A B C D a b c d

/-- How much the computed argument may exceed the exact one (C86). -/
noncomputable def shellArgErr (R : ℝ) : ℝ :=
  24 * (1 / 2 ^ 52) * (3 * diffMax R ^ 2 * redExp A B C D a b c d + 1)

/-- All arguments of the Boys function, as they are computed, are below `x`. -/
def ArgsBelow (R x : ℝ) : Prop :=
  ∀ i < A.nprim, ∀ j < B.nprim, ∀ k < C.nprim, ∀ l < D.nprim,
    shellArg A B C D i j k l + shellArgErr A B C D i j k l R < x

/-- Primitives `i` and `j` of a pair of shells are stored: of a shell paired with itself, only `j ≤ i`. -/
def StoredPrims (i j : ℕ) : Prop := sameShell A B = true → j ≤ i

open Classical in
/-- Sum over the stored pairs of primitives of two pairs of shells. -/
noncomputable def overStored (f : ℕ → ℕ → ℕ → ℕ → ℝ) : ℝ :=
  ∑ i ∈ range A.nprim, ∑ j ∈ range B.nprim, if StoredPrims A B i j then
    (∑ k ∈ range C.nprim, ∑ l ∈ range D.nprim, if StoredPrims C D k l then f i j k l else 0) else 0

/-- What errors of integrals over four shells of total angular momentum `n` are measured with. -/
noncomputable def shellSize (R : ℝ) (n : ℕ) : ℝ :=
  overStored A B C D (fun i j k l =>
    growth (startMax A B C D i j k l R) (stepMax R)
      (lowMax (A.alpha i + B.alpha j) (C.alpha k + D.alpha l)) n) + 1 / 2 ^ 1000

end

end Simint
