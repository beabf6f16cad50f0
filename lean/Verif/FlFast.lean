import Verif.FlPrim
import Verif.Screen

/-!
# Fast screening values on doubles

Model of `simint_primscreen_fastschwarz` and `simint_shellscreen_fastschwarz` (skel/simint/shell/shell_screen.c:86-118,
231-270) with rounding.  `val += Gab` may be fused with the last product of `Gab`, in the sum over the primitives.
-/

set_option autoImplicit false

namespace Simint.FlFast

open FlBoys (Arith)
open FlPrim (xab)

/-- `SQRT_TWO_TIMES_PI_52`, skel/simint/constants.h:12, before it is rounded. -/
noncomputable def sqrtTwoTimesPi52 : ℝ := 24739429451193148050228357586821944304008810699990039583 / 10 ^ 54

section
variable (F : Arith) (A B : Shell ℝ) (i j : ℕ)

/-- `-2.0 * rho * R2`, shell_screen.c:101-108 and 246-252; `R2` is computed like `Xab` of shell.c:466-469. -/
noncomputable def arg : ℝ :=
  let p := F.fl (A.alpha i + B.alpha j)
  let rho := F.fl (F.fl (A.alpha i * B.alpha j) / p)
  F.fl (F.fl (-2 * rho) * xab F A B)

/-- `SQRT_TWO_TIMES_PI_52 * pow(oop, 2.5) * exp(-2.0 * rho * R2)`, shell_screen.c:111 and 255. -/
noncomputable def gab : ℝ :=
  let oop := F.fl (1 / F.fl (A.alpha i + B.alpha j))
  F.fl (F.fl (F.fl sqrtTwoTimesPi52 * F.pow oop (5 / 2)) * F.exp (arg F A B i j))

/-- `A->coef[i] * A->coef[i] * B->coef[j] * B->coef[j]`, shell_screen.c:112 and 256. -/
noncomputable def coefs : ℝ := F.fl (F.fl (F.fl (A.coef i * A.coef i) * B.coef j) * B.coef j)

/-- `out[idx]`, shell_screen.c:231-270. -/
noncomputable def value : ℝ := F.fl (gab F A B i j * coefs F A B i j)

/-- `simint_shellscreen_fastschwarz`, shell_screen.c:86-118. -/
noncomputable def shell : ℝ :=
  (primOrder A B).foldl (fun v p => F.mac (gab F A B p.1 p.2) (coefs F A B p.1 p.2) v) 0

end

end Simint.FlFast
