import Verif.Spec.ERI
import Verif.Shell
import Mathlib.Analysis.Calculus.IteratedDeriv.Defs

/-!
# Specification: one-electron integrals over contracted Gaussians
-/

set_option autoImplicit false

open MeasureTheory Real

namespace Simint

/-- Primitive Gaussian factor of one direction. -/
noncomputable def gauss1 (α A : ℝ) (n : ℕ) (x : ℝ) : ℝ := (x - A) ^ n * exp (-α * (x - A) ^ 2)

/-- Overlap integral of one direction. -/
noncomputable def ovl1 (α A β B : ℝ) (i j : ℕ) : ℝ := ∫ x, gauss1 α A i x * gauss1 β B j x

/-- Kinetic energy integral of one direction. -/
noncomputable def kin1 (α A β B : ℝ) (i j : ℕ) : ℝ :=
  ∫ x, gauss1 α A i x * (-1 / 2 * iteratedDeriv 2 (gauss1 β B j) x)

/-- Position of an electron. -/
abbrev R3 := ℝ × ℝ × ℝ

def R3.dir (r : R3) : Dir → ℝ
  | .x => r.1
  | .y => r.2.1
  | .z => r.2.2

/-- Contracted Gaussian of a shell with powers `e`. -/
noncomputable def contrG (sh : Shell ℝ) (e : Exp) (r : Dir → ℝ) : ℝ :=
  ∑ i ∈ Finset.range sh.nprim, sh.coef i * primG (sh.alpha i) sh.pos e r

/-- Sum of the second derivatives in the three directions. -/
noncomputable def laplace (f : (Dir → ℝ) → ℝ) (r : Dir → ℝ) : ℝ :=
  iteratedDeriv 2 (fun x => f (Function.update r .x x)) (r .x) +
  iteratedDeriv 2 (fun x => f (Function.update r .y x)) (r .y) +
  iteratedDeriv 2 (fun x => f (Function.update r .z x)) (r .z)

/-- Overlap integral. -/
noncomputable def overlapInt (A B : Shell ℝ) (a b : Exp) : ℝ :=
  ∫ r : R3, contrG A a r.dir * contrG B b r.dir

/-- Kinetic energy integral. -/
noncomputable def kineticInt (A B : Shell ℝ) (a b : Exp) : ℝ :=
  ∫ r : R3, contrG A a r.dir * (-1 / 2 * laplace (contrG B b) r.dir)

/-- Potential energy of an electron at `r` in the field of the nuclei. -/
noncomputable def nuclearPotential (centers : List (ℝ × (Dir → ℝ))) (r : Dir → ℝ) : ℝ :=
  (centers.map fun c => -c.1 / √(dist2 r c.2)).sum

/-- Integral of the potential of the nuclei. -/
noncomputable def potentialInt (centers : List (ℝ × (Dir → ℝ))) (A B : Shell ℝ) (a b : Exp) : ℝ :=
  ∫ r : R3, contrG A a r.dir * nuclearPotential centers r.dir * contrG B b r.dir

end Simint
