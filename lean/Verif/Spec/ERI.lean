import Verif.Spec.VRR
import Verif.Spec.HRR
import Verif.GaussDecay

/-!
# Specification: auxiliary electron repulsion integrals over Gaussian pairs

`pw A B a b` is `(x - A)^a (x - B)^b` and `G2` integrates such products over two electrons in one
direction with weight `exp (-p (x-P)^2 - q (y-Q)^2 - u^2 (x-y)^2)`.  The auxiliary integral of order
`n` integrates the product of the three directions over `u`, with the weight
`(u^2 / (ρ + u^2))^n` (Obara and Saika).
-/

set_option autoImplicit false

open MeasureTheory Polynomial Real Set

namespace Simint

/-- `(x - A)^a (x - B)^b`. -/
noncomputable def pw (A B : ℝ) (a b : ℤ) : ℝ[X] := (X - C A) ^ a.toNat * (X - C B) ^ b.toNat

/-- Exponents and centers of a bra pair and a ket pair. -/
structure Pairs where
  p : ℝ
  q : ℝ
  P : Dir → ℝ
  Q : Dir → ℝ
  A : Dir → ℝ
  B : Dir → ℝ
  C : Dir → ℝ
  D : Dir → ℝ
  hp : 0 < p
  hq : 0 < q

namespace Pairs
variable (G : Pairs)

/-- Reduced exponent. -/
noncomputable def rho : ℝ := G.p * G.q / (G.p + G.q)

/-- One direction. -/
noncomputable def dim (a b c d : Exp) (i : Dir) (u : ℝ) : ℝ :=
  G2 G.p G.q (G.P i) (G.Q i) (u ^ 2) (pw (G.A i) (G.B i) (a.get i) (b.get i))
    (pw (G.C i) (G.D i) (c.get i) (d.get i))

noncomputable def tau (u : ℝ) : ℝ := u ^ 2 / (G.rho + u ^ 2)

/-- Auxiliary integral of order `n`, times a constant `K` (Gaussian prefactors and contraction
coefficients). -/
noncomputable def eri (K : ℝ) : VFam ℝ := fun n a b c d =>
  K * ∫ u in Ioi 0, G.tau u ^ n * (G.dim a b c d .x u * G.dim a b c d .y u * G.dim a b c d .z u)

/-- The variables computed by the primitive loop, generator/ostei/OSTEI_Writer.cpp:594-660 (note
the minus signs), with `PA = P - A` etc. from the shell pairs. -/
noncomputable def par : VPar ℝ where
  PA := fun i => G.P i - G.A i
  PB := fun i => G.P i - G.B i
  QA := fun i => G.Q i - G.C i
  QB := fun i => G.Q i - G.D i
  aopPQ := fun i => -(G.p * G.q * (1 / (G.p + G.q))) * (1 / G.p) * (G.P i - G.Q i)
  aoqPQ := fun i => (G.p * G.q * (1 / (G.p + G.q))) * (1 / G.q) * (G.P i - G.Q i)
  aop := -(G.p * G.q * (1 / (G.p + G.q))) * (1 / G.p)
  aoq := -((G.p * G.q * (1 / (G.p + G.q))) * (1 / G.q))
  o2p := 1 / 2 * (1 / G.p)
  o2q := 1 / 2 * (1 / G.q)
  o2pq := 1 / 2 * (1 / (G.p + G.q))

end Pairs

/-- Boys function. -/
noncomputable def boysF (n : ℕ) (x : ℝ) : ℝ := ∫ t in Ioo (0 : ℝ) 1, t ^ (2 * n) * exp (-x * t ^ 2)

/-! ## Electron repulsion integrals -/

/-- Six coordinates grouped by direction: `(x1, x2)`, `(y1, y2)`, `(z1, z2)`. -/
abbrev R6 := (ℝ × ℝ) × (ℝ × ℝ) × (ℝ × ℝ)

def R6.fst (w : R6) : Dir → ℝ
  | .x => w.1.1
  | .y => w.2.1.1
  | .z => w.2.2.1

def R6.snd (w : R6) : Dir → ℝ
  | .x => w.1.2
  | .y => w.2.1.2
  | .z => w.2.2.2

/-- Squared distance. -/
def dist2 (r s : Dir → ℝ) : ℝ := (r .x - s .x) ^ 2 + (r .y - s .y) ^ 2 + (r .z - s .z) ^ 2

/-- Primitive Cartesian Gaussian with exponent `α`, center `A` and powers `e`. -/
noncomputable def primG (α : ℝ) (A : Dir → ℝ) (e : Exp) (r : Dir → ℝ) : ℝ :=
  mono A e r * exp (-α * dist2 r A)

/-- Electron repulsion integral of four primitive Gaussians: integral over both electrons of the
product divided by their distance. -/
noncomputable def coulomb (α β γ δ : ℝ) (A B C D : Dir → ℝ) (a b c d : Exp) : ℝ :=
  ∫ w : R6, primG α A a w.fst * primG β B b w.fst * (primG γ C c w.snd * primG δ D d w.snd) /
    √(dist2 w.fst w.snd)

end Simint
