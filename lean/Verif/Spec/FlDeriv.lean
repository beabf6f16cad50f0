import Verif.FlDeriv
import Verif.Spec.FlFunction
import Verif.Spec.Deriv

/-!
# What a derivative function is compared with when it works on doubles
-/

set_option autoImplicit false

namespace Simint

open FlBoys (Arith)

/-- Pairs of shells with coordinate `i` of the first center replaced by `x`. -/
noncomputable def PairData.moveA (S : PairData) (i : Dir) (x : ℝ) : PairData :=
  { S with A := { S.A with pos := Function.update S.A.pos i x } }

/-- The same for the second center. -/
noncomputable def PairData.moveB (S : PairData) (i : Dir) (x : ℝ) : PairData :=
  { S with B := { S.B with pos := Function.update S.B.pos i x } }

/-- All quartets with coordinate `i` of center `t` replaced by `x`. -/
noncomputable def moveFl (S T : ℕ → PairData) (t : RRType) (i : Dir) (x : ℝ) :
    (ℕ → PairData) × (ℕ → PairData) :=
  match t with
  | .I => (fun s => (S s).moveA i x, T)
  | .J => (fun s => (S s).moveB i x, T)
  | .K => (S, fun s => (T s).moveA i x)
  | .L => (S, fun s => (T s).moveB i x)

/-- Coordinate `i` of center `t` of quartet `ab`, `cd`. -/
noncomputable def posFl (S T : ℕ → PairData) (ab cd : ℕ) (t : RRType) (i : Dir) : ℝ :=
  match t with
  | .I => (S ab).A.pos i
  | .J => (S ab).B.pos i
  | .K => (T cd).A.pos i
  | .L => (T cd).B.pos i

/-- Whether pair `k` of primitives stands for two pairs of one shell with itself (shell.c:513-525). -/
def PairData.folded (S : PairData) (k : ℕ) : Bool := sameShell S.A S.B && decide ((S.prim k).1 ≠ (S.prim k).2)

/-- Exponent of pair `k` on the first center; the mean of the two exponents if the pair stands for two pairs
of one shell with itself. -/
noncomputable def PairData.meanA (S : PairData) (k : ℕ) : ℝ :=
  if S.folded k then (S.A.alpha (S.prim k).1 + S.B.alpha (S.prim k).2) / 2 else S.A.alpha (S.prim k).1

/-- The same for the second center. -/
noncomputable def PairData.meanB (S : PairData) (k : ℕ) : ℝ :=
  if S.folded k then (S.A.alpha (S.prim k).1 + S.B.alpha (S.prim k).2) / 2 else S.B.alpha (S.prim k).2

/-- The arrays `alpha2`, `beta2` hold twice the exponents, up to one rounding; a shell paired with itself has
one center. -/
structure HoldsExpsFl (M : MSP ℝ) (alpha2 beta2 : ℕ → ℝ) (start : ℕ → ℕ) (S : ℕ → PairData) : Prop where
  same : ∀ s < M.nclip, sameShell (S s).A (S s).B = true → (S s).A.pos = (S s).B.pos
  a : ∀ s < M.nclip, ∀ k < M.nprim12 s,
    |alpha2 (start s + k) - 2 * (S s).meanA k| ≤ 1 / 2 ^ 52 * (2 * (S s).meanA k)
  b : ∀ s < M.nclip, ∀ k < M.nprim12 s,
    |beta2 (start s + k) - 2 * (S s).meanB k| ≤ 1 / 2 ^ 52 * (2 * (S s).meanB k)

/-- One primitive integral with its coefficients, with the exponents above. -/
noncomputable def meanPrim (S T : ℕ → PairData) (ab cd k l : ℕ) (x y z w : Exp) : ℝ :=
  FlPrim.coefs (S ab).A (S ab).B (T cd).A (T cd).B ((S ab).prim k).1 ((S ab).prim k).2 ((T cd).prim l).1
      ((T cd).prim l).2 *
    coulomb ((S ab).meanA k) ((S ab).meanB k) ((T cd).meanA l) ((T cd).meanB l)
      (S ab).A.pos (S ab).B.pos (T cd).A.pos (T cd).B.pos x y z w

/-- The exact integral over the evaluated pairs of primitives whose derivatives are computed.  It is the
integral `exactERI` wherever a shell paired with itself has one center (`meanERI_eq`). -/
noncomputable def meanERI (F : Arith) (c : Call ℝ) (S T : ℕ → PairData) (ab cd : ℕ) (x y z w : Exp) : ℝ :=
  overKept F c ab cd fun k l => meanPrim S T ab cd k l x y z w

/-- Twice the exponent on center `t` for pair `k` of bra pair `ab` and pair `l` of ket pair `cd`. -/
noncomputable def expFl (S T : ℕ → PairData) (ab cd : ℕ) (t : RRType) (k l : ℕ) : ℝ :=
  match t with
  | .I => 2 * (S ab).meanA k
  | .J => 2 * (S ab).meanB k
  | .K => 2 * (T cd).meanA l
  | .L => 2 * (T cd).meanB l

/-- Weight of a primitive in the bounds: one plus twice the exponents. -/
noncomputable def expWeight (S T : ℕ → PairData) (ab cd k l : ℕ) : ℝ :=
  1 + (expFl S T ab cd .I k l + expFl S T ab cd .J k l + expFl S T ab cd .K k l + expFl S T ab cd .L k l)

/-- What errors of the integrals that derivatives are formed from are measured with. -/
noncomputable def gradSize (F : Arith) (c : Call ℝ) (S T : ℕ → PairData) (R : ℝ) (ab cd n : ℕ) : ℝ :=
  overKept F c ab cd (fun k l => expWeight S T ab cd k l * primSize S T R ab cd n k l) + 1 / 2 ^ 1000

/-- Angular momentum on the stepped centers of the classes that derivatives are formed from, at most. -/
def gradStepped (final : QAM) : ℕ :=
  (steppedAM (setDirections (derivNeeded final)).1 final.bra +
    steppedAM (setDirections (derivNeeded final)).2 final.ket).toNat + 1

/-- Number of roundings: those of the integrals, one product per primitive, and the lines of
`WriteFormDeriv`. -/
def gradCount (kb : ℕ) (final : QAM) (n : ℕ) : ℕ :=
  2 * (kb + 114 + 46 * (totalL final + 1) + 3 * (n - 1)) + 3 * gradStepped final + 4

/-- Number of integrals that a derivative is a combination of, with their factors: at most the power plus
two for each center, and three centers for the missing one. -/
def gradTerms (final : QAM) (t : RRType) : ℕ :=
  if t = missingCenter final then 3 * totalL final + 7 else totalL final + 2

end Simint
