import Verif.FlShells
import Verif.Screen

/-!
# Screening of primitives on doubles

Model of `simint_compute_ostei` (skel/simint/ostei/ostei.c:11-26) and of the values of
`simint_primscreen_schwarz` (skel/simint/shell/shell_screen.c:124-224) with rounding.  Simplified: the function of the
class is called directly, so the model is for classes whose functions are generated and not permuted (C64); the
values are those of pairs with the larger angular momentum first.
-/

set_option autoImplicit false

namespace Simint

open FlBoys (Arith)
open FlPrim (shOps)

section
variable (F : Arith) (b : Build) (g : GenCfg)

/-- `simint_compute_ostei`, ostei.c:11-26, for a class with a generated function; the tolerance of the call is
the argument `screen_tol`, the function gets its rounded square. -/
noncomputable def flOstei (final : QAM) (c : Call ℝ) (hmem : HMem (Fd F)) (out : ℕ → Fd F) :
    Option (ℤ × (ℕ → Fd F)) :=
  if 0 < c.tol ∧ F.fl (c.P.screenMax * c.Q.screenMax) < F.fl (c.tol * c.tol) then some (-1, out)
  else (flFunction F b g final { c with tol := F.fl (c.tol * c.tol) } hmem out).map fun r => ((r.1 : ℤ), r.2)

/-- What is found in memory that was not initialised, and the addresses of the two temporary shells. -/
structure FlScrMem where
  ptrA : ℕ
  ptrB : ℕ
  buf : ℕ → ℝ
  junk : VPar ℝ
  scratch : ℕ → ℕ → ℕ → VMem ℝ
  hmem : HMem (Fd F)
  out : ℕ → Fd F

/-- Value of a pair of primitives in `simint_primscreen_schwarz`, shell_screen.c:169-200: two shells with one
primitive each, a list with this pair and no screening values, the integrals `(ab|ab)` with tolerance 0, and
the largest absolute value on the diagonal. -/
noncomputable def flPrimVal (sh : ShCfg) (big : ℝ) (w : FlScrMem F) (A B : Shell ℝ) (i j : ℕ) : Option ℝ :=
  (completeList { sh with screening := false } (shOps F) noScreen big
      [(oneShell w.ptrA A i, oneShell w.ptrB B j)] w.buf).bind fun P =>
    (flOstei F b g ⟨A.am, B.am, A.am, B.am, ""⟩
      ⟨sh.len, P.1, P.1, 0, scrNcart A * scrNcart B * (scrNcart A * scrNcart B) + 8, w.junk, w.scratch⟩ w.hmem
      w.out).map fun r =>
        let n1 := scrNcart A
        let n2 := scrNcart B
        maxLoop ((List.range n1).flatMap fun m => (List.range n2).map fun n =>
          |(r.2 (m * n2 * n1 * n2 + m * n2 + n * n1 * n2 + n)).val|)

/-- The values, as the argument of the loops. -/
noncomputable def flPrimVals (sh : ShCfg) (big : ℝ) (w : Shell ℝ → Shell ℝ → ℕ → ℕ → FlScrMem F) :
    Shell ℝ → Shell ℝ → ℕ → ℕ → ℝ := fun A B i j => (flPrimVal F b g sh big (w A B i j) A B i j).getD 0

end

end Simint
