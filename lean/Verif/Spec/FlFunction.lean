import Verif.FlFunction
import Verif.Spec.FlPrim
import Verif.Spec.VRRRound
import Verif.Spec.Function

/-!
# What a complete function is compared with when it works on doubles

Lists of pairs of shells as the fill routine stores them with rounding, the exact contracted integral over
the evaluated primitives, and what errors are measured with.
-/

set_option autoImplicit false

namespace Simint

open Finset
open FlBoys (Arith u)
open FlPrim (PairIn Elem coefs startMax stepMax lowMax)
open VRRRound (growth)

/-- Two shells and the pairs of their primitives in the order in which they are stored. -/
structure PairData where
  A : Shell ℝ
  B : Shell ℝ
  prim : ℕ → ℕ × ℕ

/-- A list of doubles holds the pairs of shells `S`, whose primitives are of moderate size: the differences
of centers are rounded once (see `C84_diff`), the values of a pair of primitives are the ones of
`FlPrim.value`. `start s` is the first element of pair `s`. -/
structure HoldsFl (F : Arith) (M : MSP ℝ) (start : ℕ → ℕ) (S : ℕ → PairData) (R : ℝ) : Prop where
  AB : ∀ s < M.nclip, ∀ d, |M.AB d s - ((S s).A.pos d - (S s).B.pos d)| ≤ u * |(S s).A.pos d - (S s).B.pos d|
  pos : ∀ s < M.nclip, ∀ d, |(S s).A.pos d| ≤ R ∧ |(S s).B.pos d| ≤ R
  prims : ∀ s < M.nclip, ∀ k < M.nprim12 s,
    Elem M (start s + k) (FlPrim.value F (S s).A (S s).B ((S s).prim k).1 ((S s).prim k).2)
  size : ∀ s < M.nclip, ∀ k < M.nprim12 s, PairIn (S s).A (S s).B ((S s).prim k).1 ((S s).prim k).2 R

/-- Sizes as they occur in calculations on molecules: exponents between `2^-10` and `2^30`, coordinates at
most `R ≤ 2^10`, product of the coefficients at most `2^60`. -/
structure PairMod (A B : Shell ℝ) (a b : ℕ) (R : ℝ) : Prop where
  alo : 1 / 2 ^ 10 ≤ A.alpha a
  ahi : A.alpha a ≤ 2 ^ 30
  blo : 1 / 2 ^ 10 ≤ B.alpha b
  bhi : B.alpha b ≤ 2 ^ 30
  apos : ∀ d, |A.pos d| ≤ R
  bpos : ∀ d, |B.pos d| ≤ R
  rhi : R ≤ 2 ^ 10
  coef : |A.coef a * B.coef b| ≤ 2 ^ 60

/-- The pair of primitives at `i`, `j` is evaluated; the products of screening values are rounded. -/
def Call.KeptFl (F : Arith) (c : Call ℝ) (i j : ℕ) : Prop :=
  ¬ (0 < c.tol ∧ F.fl (c.P.screen i * c.Q.screenMax) < c.tol) ∧
  ¬ (0 < c.tol ∧ vectorMax c.len (fun n => F.fl (c.P.screen i * c.Q.screen (j / c.len * c.len + n))) < c.tol)

section
variable (F : Arith) (c : Call ℝ)

open Classical in
/-- Sum over the evaluated pairs of primitives of bra pair `ab` and ket pair `cd`. -/
noncomputable def overKept (ab cd : ℕ) (f : ℕ → ℕ → ℝ) : ℝ :=
  ∑ k ∈ range (c.P.nprim12 ab), ∑ l ∈ range (c.Q.nprim12 cd),
    if c.KeptFl F (tightStart c.P.nprim12 ab + k) (paddedStart c.len c.Q.nprim12 cd + l) then f k l else 0

variable (S T : ℕ → PairData)

/-- The exact integral of one pair of primitives with its coefficients. -/
noncomputable def exactPrim (ab cd k l : ℕ) (x y z w : Exp) : ℝ :=
  coefs (S ab).A (S ab).B (T cd).A (T cd).B ((S ab).prim k).1 ((S ab).prim k).2 ((T cd).prim l).1
      ((T cd).prim l).2 *
    coulomb ((S ab).A.alpha ((S ab).prim k).1) ((S ab).B.alpha ((S ab).prim k).2)
      ((T cd).A.alpha ((T cd).prim l).1) ((T cd).B.alpha ((T cd).prim l).2)
      (S ab).A.pos (S ab).B.pos (T cd).A.pos (T cd).B.pos x y z w

/-- The exact integral over the evaluated pairs of primitives. -/
noncomputable def exactERI (ab cd : ℕ) (x y z w : Exp) : ℝ :=
  overKept F c ab cd fun k l => exactPrim S T ab cd k l x y z w

/-- Bound of one primitive integral of angular momentum `n` in the course of the vertical recurrence. -/
noncomputable def primSize (R : ℝ) (ab cd : ℕ) (n : ℕ) (k l : ℕ) : ℝ :=
  growth (startMax (S ab).A (S ab).B (T cd).A (T cd).B ((S ab).prim k).1 ((S ab).prim k).2 ((T cd).prim l).1
      ((T cd).prim l).2 R) (stepMax R)
    (lowMax ((S ab).A.alpha ((S ab).prim k).1 + (S ab).B.alpha ((S ab).prim k).2)
      ((T cd).A.alpha ((T cd).prim l).1 + (T cd).B.alpha ((T cd).prim l).2)) n

/-- What errors of contracted integrals of angular momentum `n` are measured with: the bounds of the
evaluated primitives, added up (and something for underflow). -/
noncomputable def sizeMax (R : ℝ) (ab cd : ℕ) (n : ℕ) : ℝ :=
  overKept F c ab cd (primSize S T R ab cd n) + 1 / 2 ^ 1000

/-- The Boys function of every evaluated primitive has a relative error of at most `kb` roundings. -/
def BoysOK (vec : Bool) (L kb : ℕ) : Prop :=
  ∀ ab < c.P.nclip, ∀ cd < c.Q.nclip, ∀ k < c.P.nprim12 ab, ∀ l < c.Q.nprim12 cd,
    let i := tightStart c.P.nprim12 ab + k
    let j := paddedStart c.len c.Q.nprim12 cd + l
    c.KeptFl F i j → ∀ n ≤ L, ∃ y,
      FlBoys.split F vec c.len (fun w => FlPrim.fx F c.P c.Q i (j / c.len * c.len + w)) L n (j % c.len) =
        some y ∧
      |y - boysF n (FlPrim.fx F c.P c.Q i j)| ≤ ((1 + u) ^ kb - 1) * boysF n (FlPrim.fx F c.P c.Q i j)

/-- Number of roundings that the error is counted in: Boys function, variables and vertical recurrence of a
primitive, additions of the primitives, horizontal recurrence. -/
def errCount (kb : ℕ) (final : QAM) (n : ℕ) : ℕ :=
  2 * (kb + 110 + 46 * totalL final + 3 * (n - 1)) + 3 * (min final.a final.b + min final.c final.d).toNat

end

end Simint
