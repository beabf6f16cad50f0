import Verif.Dispatch
import Verif.Spec.Function

/-! Specification of the public functions for two-electron integrals. -/

set_option autoImplicit false

namespace Simint

/-- A library that can be built: containers are enumerated completely, every class is run once, and
the limit chosen for the build is not above the limit of the generated code
(skel/simint/CMakeLists.txt:6-8). -/
structure LibCfg.OK (L : LibCfg) : Prop where
  gen : L.gen.OK
  enum : ∀ l, l.Nodup → (L.enum l).Perm l
  use : L.use ≤ L.maxam

/-- Four shells with angular momenta up to `n`. -/
structure ClassUpTo (n : ℕ) (am : QAM) : Prop where
  tag : am.tag = ""
  valid : am.Valid
  a : am.a ≤ n
  b : am.b ≤ n
  c : am.c ≤ n
  d : am.d ≤ n

/-- The largest of the four angular momenta. -/
def topAM (am : QAM) : ℤ := max (max am.a am.b) (max am.c am.d)

/-- The screening values of all primitives of the first `nclip` shell pairs are those of the list;
other positions (padding) may differ. -/
def SameOnPairs (len : ℕ) (Q : MSP ℝ) (scr : ℕ → ℝ) : Prop :=
  ∀ s < Q.nclip, ∀ b < Q.nprim12 s,
    scr (paddedStart len Q.nprim12 s + b) = Q.screen (paddedStart len Q.nprim12 s + b)

/-- The arguments the inner function is called with: the square of the tolerance, and screening
values `scr` of the second list. -/
def Call.inside (c : Call ℝ) (scr : ℕ → ℝ) : Call ℝ :=
  { c with tol := c.tol * c.tol, Q := { c.Q with screen := scr } }

/-- The bound of the whole call is below the tolerance. -/
def Call.Negligible (c : Call ℝ) : Prop := 0 < c.tol ∧ c.P.screenMax * c.Q.screenMax < c.tol * c.tol

end Simint
