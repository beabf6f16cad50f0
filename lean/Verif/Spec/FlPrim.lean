import Verif.FlApprox
import Verif.Spec.VRR
import Verif.Spec.ERI
import Verif.Shell

/-! What is to be compared with in the theorems on the rounding errors of shell pairs and of the
primitive loop. -/

set_option autoImplicit false

open Real

namespace Simint.FlPrim

open FlBoys (u)

/-- Primitives `a`, `b` of two shells are of moderate size: exponents between `2^-100` and `2^100`,
coordinates at most `R ≤ 2^100`, product of the coefficients at most `2^100`. -/
structure PairIn (A B : Shell ℝ) (a b : ℕ) (R : ℝ) : Prop where
  alo : 1 / 2 ^ 100 ≤ A.alpha a
  ahi : A.alpha a ≤ 2 ^ 100
  blo : 1 / 2 ^ 100 ≤ B.alpha b
  bhi : B.alpha b ≤ 2 ^ 100
  apos : ∀ d, |A.pos d| ≤ R
  bpos : ∀ d, |B.pos d| ≤ R
  rhi : R ≤ 2 ^ 100
  coef : |A.coef a * B.coef b| ≤ 2 ^ 100

/-- Center of the product of two primitives. -/
noncomputable def center (A B : Shell ℝ) (a b : ℕ) (d : Dir) : ℝ :=
  (A.alpha a * A.pos d + B.alpha b * B.pos d) / (A.alpha a + B.alpha b)

/-- Exponent of the Gaussian factor of the product. -/
noncomputable def gexp (A B : Shell ℝ) (a b : ℕ) : ℝ :=
  A.alpha a * B.alpha b / (A.alpha a + B.alpha b) * dist2 A.pos B.pos

/-- 2 if the combination stands for two (shell.c:497-498). -/
noncomputable def mult (A B : Shell ℝ) (a b : ℕ) : ℝ := if sameShell A B && decide (a ≠ b) then 2 else 1

/-- The prefactor of a pair of primitives. -/
noncomputable def factor (A B : Shell ℝ) (a b : ℕ) : ℝ :=
  mult A B a b * (A.coef a * B.coef b * exp (-gexp A B a b) * (√2 * π ^ ((5 : ℝ) / 4)) /
    (A.alpha a + B.alpha b))

/-- What the error of the prefactor is measured with. -/
noncomputable def factorMax (A B : Shell ℝ) (a b : ℕ) : ℝ :=
  mult A B a b * (|A.coef a * B.coef b| * ((1 + gexp A B a b) * exp (-gexp A B a b)) *
    (√2 * π ^ ((5 : ℝ) / 4)) / (A.alpha a + B.alpha b)) + 1 / 2 ^ 800

/-- What the errors of differences of coordinates are measured with. -/
noncomputable def diffMax (R : ℝ) : ℝ := 2 * R + 1 / 2 ^ 800

/-- What the errors of the variables of the primitive loop are measured with. -/
noncomputable def parMax (R p q : ℝ) : VPar ℝ where
  PA := fun _ => diffMax R
  PB := fun _ => diffMax R
  QA := fun _ => diffMax R
  QB := fun _ => diffMax R
  aopPQ := fun _ => diffMax R + κ
  aoqPQ := fun _ => diffMax R + κ
  aop := 1
  aoq := 1
  o2p := 1 / 2 * (1 / p)
  o2q := 1 / 2 * (1 / q)
  o2pq := 1 / 2 * (1 / (p + q))

/-- What the errors of the start values are measured with: prefactors of the two pairs, and a factor for
the argument of the Boys function. -/
noncomputable def startMax (A B C D : Shell ℝ) (a b c d : ℕ) (R : ℝ) : ℝ :=
  let p := A.alpha a + B.alpha b
  let q := C.alpha c + D.alpha d
  (2 + 3 * diffMax R ^ 2 * (p * q / (p + q))) *
    (factorMax A B a b * factorMax C D c d * √(1 / (p + q)) + 1 / 2 ^ 800)

/-- Product of the contraction coefficients, twice for each combination that stands for two. -/
noncomputable def coefs (A B C D : Shell ℝ) (a b c d : ℕ) : ℝ :=
  mult A B a b * (A.coef a * B.coef b) * (mult C D c d * (C.coef c * D.coef d))

/-- Bound of the factors of the integrals one lower in the vertical recurrence. -/
noncomputable def stepMax (R : ℝ) : ℝ := 2 * diffMax R + κ

/-- Bound of the factors of the integrals two lower. -/
noncomputable def lowMax (p q : ℝ) : ℝ := 3 * (max (1 / 2 * (1 / p)) (1 / 2 * (1 / q)) + κ)

/-- Element `i` of a list holds the values `v`. -/
structure Elem (P : MSP ℝ) (i : ℕ) (v : Arr → ℝ) : Prop where
  alpha : P.alpha i = v .alpha
  prefac : P.prefac i = v .prefac
  pos : ∀ d, P.pos d i = v (.pos d)
  PA : ∀ d, P.PA d i = v (.PA d)
  PB : ∀ d, P.PB d i = v (.PB d)

end Simint.FlPrim
