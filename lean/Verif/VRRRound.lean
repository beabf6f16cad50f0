import Verif.FlBoys
import Verif.VRRModes

/-!
# The vertical stage with rounding

The statements of `Verif/VRR.lean` and `Verif/VRRModes.lean` once more, on doubles.  The values are
real numbers and `fl` of `FlBoys.Arith` rounds them.  `SIMINT_FMADD` is one operation or two
(`mac`, `FlBoys.Rounds`): intrinsics_scalar.h:18-21, intrinsics_sse.h:48-57,
intrinsics_avx.h:58-67, intrinsics_avx512.h:58-61, intrinsics_asimd.h:49-53.  Not covered: a compiler
that fuses, in the first two terms of scalar code, the product that is written first.
-/

set_option autoImplicit false

namespace Simint.VRRRound

open FlBoys (Arith)

/-- The operations on doubles.  Integers are at most 2^31 and so are doubles themselves. -/
@[reducible] noncomputable def flOps (F : Arith) : VOps ℝ where
  mul := fun a b => F.fl (a * b)
  fma := F.mac
  int := fun i => (i : ℝ)
  zero := 0

/-- The vertical stage on doubles: inline code, external functions and generic routines. -/
noncomputable def run (F : Arith) (ord : ℕ → List Exp) (enum : List Qrt → List Qrt) (se sg : ℤ)
    (A : VRRAlgo) (P : VPar ℝ) (l : List QAM) (m : VMem ℝ) : Option (VMem ℝ) :=
  @vRunAllM ℝ (flOps F) ord enum se sg A P l m

end Simint.VRRRound
