import Verif.Spec.Boys
import Mathlib.Data.Int.Log
import Mathlib.Algebra.Order.Round

/-!
# Boys function with rounding

The functions of skel/simint/boys once more, now with every operation on doubles followed by a rounding
`fl`.  The values are real numbers; `mac` and `dot` are `a*b + c` and `a*b + c*d` as the compiler or the
macro `SIMINT_FMADD` evaluates them (products rounded or not), `exp` and `pow` are those of the C
library.  Literals and the entries of the tables are rounded to doubles.

Simplified: the value of one order in one lane is modelled, not the buffers (those are in
`Verif/Boys.lean`); comparisons and the conversion to `int` are exact; overflow is not a value: the
assumptions `Rounds` say nothing about results above 2^1023, so that the theorems have to show that
there are none.
-/

set_option autoImplicit false

namespace Simint.FlBoys

structure Arith where
  /-- Rounding to a double. -/
  fl : ℝ → ℝ
  /-- `a * b + c`. -/
  mac : ℝ → ℝ → ℝ → ℝ
  /-- `a * b + c * d`. -/
  dot : ℝ → ℝ → ℝ → ℝ → ℝ
  exp : ℝ → ℝ
  pow : ℝ → ℝ → ℝ

section
variable (A : Arith)

/-- `lookup_idx`, boys_taylor.h:17, 45, 78, 118. -/
noncomputable def idx (x : ℝ) : ℤ := realBoys.trunc (A.fl (10 * A.fl (x + A.fl (1 / 20))))

/-- `dx`, boys_taylor.h:18-19: `(double)lookup_idx * 0.1 - x`. -/
noncomputable def delta (x : ℝ) : ℝ := A.mac (idx A x) (A.fl (1 / 10)) (-x)

/-- Entry of `boys_shortgrid` as a double. -/
noncomputable def grid (i : ℤ) (j : ℕ) : Option ℝ := (gridGet i j).map A.fl

/-- Entry of `boys_longfac` as a double. -/
noncomputable def longfac (n : ℕ) : Option ℝ := (longfacGet n).map A.fl

/-- `dx * t + (1.0/f) * g`. -/
noncomputable def term (dx t f g : ℝ) : ℝ := A.dot dx t (A.fl (1 / f)) g

/-- Expression of boys_taylor.h:30-38, 51-59, 88-96, 124-132. -/
noncomputable def taylorSum (dx : ℝ) (g : ℕ → Option ℝ) : Option ℝ :=
  (g 0).bind fun g0 => (g 1).bind fun g1 => (g 2).bind fun g2 => (g 3).bind fun g3 =>
  (g 4).bind fun g4 => (g 5).bind fun g5 => (g 6).bind fun g6 => (g 7).map fun g7 =>
    let t7 := A.fl (A.fl (1 / 5040) * g7)
    let t6 := term A dx t7 720 g6
    let t5 := term A dx t6 120 g5
    let t4 := term A dx t5 24 g4
    let t3 := term A dx t4 6 g3
    let t2 := term A dx t3 2 g2
    A.mac dx (A.mac dx t2 g1) g0

/-- Order `i` at `x`: `boys_F_taylor`, `boys_F_taylor_single` and their vector forms,
boys_taylor.h:13-136. -/
noncomputable def taylor (x : ℝ) (i : ℕ) : Option ℝ := taylorSum A (delta A x) fun k => grid A (idx A x) (i + k)

/-- `x2` in iteration `i` of `boys_F_long` and `boys_F_long_vec`, boys_long.h:13-25, 35-49. -/
noncomputable def longX2 (x : ℝ) : ℕ → ℝ
  | 0 => A.fl √(A.fl (1 / x))
  | i + 1 => A.fl (longX2 x i * A.fl (1 / x))

/-- Order `i` stored by `boys_F_long` and `boys_F_long_vec`. -/
noncomputable def long (x : ℝ) (i : ℕ) : Option ℝ := (longfac A i).map fun f => A.fl (f * longX2 A x i)

/-- `boys_F_long_single`, boys_long.h:27-33. -/
noncomputable def longSingle (x : ℝ) (n : ℕ) : Option ℝ :=
  (longfac A n).map fun f => A.fl (f * A.fl √(A.pow x (-((2 * n + 1 : ℕ) : ℝ))))

/-- `boys_F_long_single_vec`, boys_long.h:51-58. -/
noncomputable def longSingleVec (x : ℝ) (n : ℕ) : Option ℝ :=
  (longfac A n).map fun f => A.fl (f * A.pow x (-((n : ℝ) + 1 / 2)))

/-- `k` iterations of the downward recursion, boys.h:70-80, from the value `t` of order `m + k`. -/
noncomputable def down (x t : ℝ) (m : ℕ) : ℕ → ℝ
  | 0 => t
  | k + 1 => A.fl (A.fl (1 / (2 * (m : ℝ) + 1)) * A.mac (A.fl (2 * x)) (down x t (m + 1) k) (A.exp (-x)))

/-- How a lane is evaluated (boys.h:21-39, 50-68): all lanes above 36.5, all lanes below, or one by
one. -/
inductive Path where
  | far
  | near
  | scalar
  deriving DecidableEq

/-- `vec` is false if SIMINT_BOYS_NOVECTOR is defined. -/
noncomputable def path (vec : Bool) (V : ℕ) (x : ℕ → ℝ) : Path :=
  if vec && realBoys.lt boysMaxX (laneMin realBoys V x) then .far
  else if vec && realBoys.lt (laneMax realBoys V x) boysMaxX then .near
  else .scalar

/-- The highest order, boys.h:50-68. -/
noncomputable def top (p : Path) (x : ℝ) (n : ℕ) : Option ℝ :=
  match p with
  | .far => longSingleVec A x n
  | .near => taylor A x n
  | .scalar => if realBoys.lt x boysMaxX then taylor A x n else longSingle A x n

/-- Order `m` of the lane with argument `x` after `boys_F_split(F, x, n)`, boys.h:14-92. -/
noncomputable def lane (p : Path) (x : ℝ) (n m : ℕ) : Option ℝ :=
  if n < 4 then
    match p with
    | .far => long A x m
    | .near => taylor A x m
    | .scalar => if realBoys.lt x boysMaxX then taylor A x m else long A x m
  else (top A p x n).map fun t => down A x t m (n - m)

/-- Order `m` of lane `v`. -/
noncomputable def split (vec : Bool) (V : ℕ) (x : ℕ → ℝ) (n m v : ℕ) : Option ℝ :=
  lane A (path vec V x) (x v) n m

end

/-! ## What is known of the operations -/

/-- Half a unit in the last place of 1. -/
noncomputable def u : ℝ := 1 / 2 ^ 53

/-- Half the smallest positive double. -/
noncomputable def η : ℝ := 1 / 2 ^ 1075

/-- Rounding has the error of doubles (also with gradual underflow) unless the result is above
2^1023; products in sums are rounded or not; the library functions have relative errors of at most
2^-50 (4 units in the last place), apart from underflow. -/
structure Rounds (A : Arith) : Prop where
  fl : ∀ y, |y| ≤ 2 ^ 1023 → |A.fl y - y| ≤ u * |y| + η
  mac : ∀ a b c, A.mac a b c = A.fl (a * b + c) ∨ A.mac a b c = A.fl (A.fl (a * b) + c)
  dot : ∀ a b c d, A.dot a b c d = A.fl (A.fl (a * b) + A.fl (c * d)) ∨
    A.dot a b c d = A.fl (a * b + A.fl (c * d)) ∨ A.dot a b c d = A.fl (A.fl (a * b) + c * d)
  exp : ∀ y ≤ 0, |A.exp y - Real.exp y| ≤ 1 / 2 ^ 50 * Real.exp y + η
  pow : ∀ x p, 1 ≤ x → p ≤ 0 → |A.pow x p - x ^ p| ≤ 1 / 2 ^ 50 * x ^ p + η

/-! ## Arithmetic of doubles, rounded to nearest -/

/-- Exponent of the last place of `y`. -/
noncomputable def lastPlace (y : ℝ) : ℤ := max (Int.log 2 |y| - 52) (-1074)

/-- Rounding to nearest (no overflow). -/
noncomputable def rn (y : ℝ) : ℝ := round (y / 2 ^ lastPlace y) * 2 ^ lastPlace y

/-- Doubles with fused operations or without, library functions rounded correctly. -/
noncomputable def ieee (fused : Bool) : Arith where
  fl := rn
  mac := fun a b c => if fused then rn (a * b + c) else rn (rn (a * b) + c)
  dot := fun a b c d => if fused then rn (a * b + rn (c * d)) else rn (rn (a * b) + rn (c * d))
  exp := fun y => rn (Real.exp y)
  pow := fun x p => rn (x ^ p)

/-- Exact arithmetic. -/
noncomputable def exact : Arith where
  fl := id
  mac := fun a b c => a * b + c
  dot := fun a b c d => a * b + c * d
  exp := Real.exp
  pow := fun x p => x ^ p

end Simint.FlBoys
