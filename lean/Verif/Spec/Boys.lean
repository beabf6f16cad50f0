import Verif.Boys
import Mathlib.Analysis.SpecialFunctions.Pow.Real
import Mathlib.Algebra.Order.Floor.Ring

/-!
# Real arithmetic for the Boys function, and what `boys_F_split` is to store

`laneVal` describes the value of one lane without lanes, arrays and the choice of a vector function.
-/

set_option autoImplicit false

open Real

namespace Simint

open Classical in
/-- Operations on real numbers. -/
noncomputable def realBoys : BoysOps ℝ where
  sqrt := Real.sqrt
  exp := Real.exp
  pow := fun x y => x ^ y
  trunc := fun x => if 0 ≤ x then ⌊x⌋ else ⌈x⌉
  lt := fun a b => decide (a < b)

/-- Number of the grid point nearest to `x`. -/
noncomputable def gridIdx (x : ℝ) : ℕ := ⌊10 * x + 1 / 2⌋₊

/-- Seven terms of the Taylor series around the nearest grid point, with entries of the table. -/
noncomputable def shortVal (m : ℕ) (x : ℝ) : ℝ :=
  ∑ k ∈ Finset.range 8, ((gridIdx x / 10 : ℝ) - x) ^ k / k.factorial *
    ((boysGridN (gridIdx x) (m + k) : ℝ) / 10 ^ 34)

/-- Value for large `x` with the factor of the table. -/
noncomputable def longVal (m : ℕ) (x : ℝ) : ℝ :=
  (boysLongfacN.getD m 0 : ℝ) / 10 ^ 18 * x ^ (-((m : ℝ) + 1 / 2))

noncomputable def topVal (m : ℕ) (x : ℝ) : ℝ := if x < 36.5 then shortVal m x else longVal m x

/-- `k` steps of the recursion down from order `m + k`. -/
noncomputable def downVal (m : ℕ) (x : ℝ) : ℕ → ℝ
  | 0 => topVal m x
  | k + 1 => (2 * x * downVal (m + 1) x k + exp (-x)) / (2 * m + 1)

/-- Value of order `m` if orders `0, …, n` are requested. -/
noncomputable def laneVal (n m : ℕ) (x : ℝ) : ℝ :=
  if n < 4 then topVal m x else downVal m x (n - m)

end Simint
