import Verif.Boys
import Mathlib.Data.Rat.Floor
import Mathlib.Analysis.SpecialFunctions.Pow.Real
import Mathlib.Data.Nat.Factorial.DoubleFactorial
import Mathlib.MeasureTheory.Integral.Bochner.Set
import Mathlib.MeasureTheory.Measure.Lebesgue.Basic

/-!
# The scripts that write the tables of constants

python/boys/gen_boys_shortgrid.py, python/boys/gen_boys_longfac.py, python/boys/boys_common/boys.py,
python/boys/cutoff_finder.py and python/gen_shellconstants.py.  Numbers of mpmath are rational or real
numbers; the loop over the grid has its roundings, as the number of grid points depends on them.  The text
of the output files is not modelled, only the numbers.
-/

set_option autoImplicit false

namespace Simint.TableScripts

/-! ## The grid -/

/-- Rounding of mpmath to `p` bits, to nearest, ties to even (not negative numbers only). -/
def mpRound (p : ℕ) (q : ℚ) : ℚ :=
  if q ≤ 0 then 0 else
  let n := q.num.toNat
  let d := q.den
  -- `2^(p-1) < q / 2^e < 2^(p+1)`
  let e : ℤ := (n.log2 : ℤ) - d.log2 - p
  let N := n * 2 ^ (-e).toNat
  let D := d * 2 ^ e.toNat
  let (D, e) := if D * 2 ^ p ≤ N then (2 * D, e + 1) else (D, e)
  let f := N / D
  let r := N % D
  let f := if D < 2 * r ∨ 2 * r = D ∧ f % 2 = 1 then f + 1 else f
  if 0 ≤ e then (f * 2 ^ e.toNat : ℕ) else (f : ℚ) / (2 ^ (-e).toNat : ℕ)

/-- `dps_to_prec` of mpmath, with the constant as it is written there. -/
def dpsToPrec (dps : ℕ) : ℕ := max 1 ⌊((dps + 1 : ℕ) : ℚ) * (33219280948873626 / 10 ^ 16) + 1 / 2⌋₊

section
variable (rnd : ℚ → ℚ)

/-- The loop over the points, gen_boys_shortgrid.py:33-42: `pts`, if the loop ends within `fuel` iterations. -/
def gridLoop (inc maxx : ℚ) : ℕ → ℚ → Option (List ℚ)
  | 0, _ => none
  | fuel + 1, x => if x < maxx then (gridLoop inc maxx fuel (rnd (x + inc))).map (x :: ·) else some []

/-- `pts` and `npoints` for given spacing and largest argument, gen_boys_shortgrid.py:27-42. -/
def shortGrid (spacing max : ℚ) (fuel : ℕ) : Option (List ℚ × ℕ) :=
  let inc := rnd spacing
  let maxx := rnd max
  let npoints := (⌊rnd (maxx / inc)⌋ + 1).toNat
  (gridLoop rnd inc maxx fuel 0).map fun pts => (pts, npoints)

end

/-! ## Values -/

/-- `mp.gammainc(N, 0, x)`. -/
noncomputable def gammaInc (N x : ℝ) : ℝ := ∫ t in Set.Ioo (0 : ℝ) x, t ^ (N - 1) * Real.exp (-t)

/-- `BoysValue`, boys.py:10-21. -/
noncomputable def boysValue (n : ℕ) (x : ℝ) : List ℝ :=
  (List.range (n + 1)).map fun (i : ℕ) =>
    if x = 0 then 1 / (2 * (i : ℝ) + 1)
    else
      let N : ℝ := i + 1 / 2
      gammaInc N x * 1 / (2 * x ^ N)

/-- `BoysValue_Asymptotic`, boys.py:26-38; `mp.fac2(-1)` is 1. -/
noncomputable def boysAsym (n : ℕ) (x : ℝ) : List ℝ :=
  (List.range (n + 1)).map fun (i : ℕ) =>
    if x = 0 then 1 / (2 * (i : ℝ) + 1)
    else
      let val := √(Real.pi / x ^ (2 * i + 1))
      val * ((2 * i - 1 : ℕ).doubleFactorial / 2 ^ (i + 1))

/-- Assignment to an element of a python list: an exception outside. -/
def pySet {α : Type} (a : List (Option α)) (i : ℕ) (v : α) : Option (List (Option α)) :=
  if i < a.length then some (a.set i (some v)) else none

/-- Value of an element: an exception outside, and for arithmetic with `None`. -/
def pyGet {α : Type} (a : List (Option α)) (i : ℕ) : Option α := (a[i]?).join

/-- `longfac`, gen_boys_longfac.py:37-42. -/
noncomputable def longfac (maxn : ℕ) : Option (List (Option ℝ)) := do
  let a ← pySet (List.replicate (maxn + 1) none) 0 (√Real.pi / 2)
  (List.range' 1 maxn).foldlM (fun a n => do
    let v ← pyGet a (n - 1)
    pySet a n (v * (1 / 2) * (2 * n - 1))) a

/-- `normfac`, gen_shellconstants.py:36-42. -/
noncomputable def normfac (maxam : ℕ) : Option (List (Option ℝ)) := do
  let a ← pySet (List.replicate (maxam + 1) none) 0 (Real.pi ^ (3 / 2 : ℝ))
  let v ← pyGet a 0
  let a ← pySet a 1 (v / 2)
  (List.range' 2 (maxam + 1 - 2)).foldlM (fun a l => do
    let v ← pyGet a (l - 1)
    pySet a l (v * ((2 * l - 1 : ℕ) : ℝ) / 2)) a

/-! ## Cutoffs -/

/-- State of the loop of cutoff_finder.py: `x`, `maxdiff`, `cutoffs`. -/
structure CutState where
  x : ℝ
  maxdiff : ℝ
  cutoffs : List (Option ℝ)

open Classical in
/-- Body of the loop, cutoff_finder.py:36-47. -/
noncomputable def cutStep (n : ℕ) (inc eps : ℝ) (s : CutState) : CutState :=
  let x := s.x + inc
  let diff := List.zipWith (fun a b => |a - b|) (boysValue n x) (boysAsym n x)
  ⟨x, diff.foldl max 0, List.zipWith (fun c d =>
    match c with
    | some y => some y
    | none => if d < eps then some x else none) s.cutoffs diff⟩

open Classical in
/-- The loop, cutoff_finder.py:35-47: the last state, if it ends within `fuel` iterations. -/
noncomputable def cutLoop (n : ℕ) (inc eps : ℝ) : ℕ → CutState → Option CutState
  | 0, _ => none
  | fuel + 1, s => if eps < s.maxdiff then cutLoop n inc eps fuel (cutStep n inc eps s) else some s

/-- `cutoffs`, cutoff_finder.py:26-47. -/
noncomputable def cutoffs (n : ℕ) (inc eps : ℝ) (fuel : ℕ) : Option (List (Option ℝ)) :=
  (cutLoop n inc eps fuel ⟨0, eps * 2, List.replicate (n + 1) none⟩).map CutState.cutoffs

end Simint.TableScripts
