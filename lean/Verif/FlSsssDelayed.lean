import Verif.FlSsss
import Verif.SsssDelayed

/-! The hand-written (ss|ss) function of AVX512 builds on doubles: the loops of `Verif/SsssDelayed.lean` with the
primitive stage of `Verif/FlSsss.lean`. -/

set_option autoImplicit false

namespace Simint

open FlBoys (Arith)

/-- `ostei_s_s_s_s` of an AVX512 build on doubles, skel/ostei_s_s_s_s.c:62-323; `al` is its `contract_all`, `h` the
order of `_mm512_reduce_add_pd`. -/
noncomputable def flSsssDelayed (F : Arith) (b : Build) (al : AllSum 8) (h : HSum 8) (c : Call ℝ) (out : ℕ → Fd F) :
    Option (ℕ × (ℕ → Fd F) × (ℕ → Fd F)) :=
  runSsssDelayed (flSsssEnv F b c) al h ssss out

/-- `simint_compute_ostei`, ostei.c:11-26, for four s shells in an AVX512 build. -/
noncomputable def flOsteiSsssDelayed (F : Arith) (b : Build) (al : AllSum 8) (h : HSum 8) (c : Call ℝ)
    (out : ℕ → Fd F) : Option (ℤ × (ℕ → Fd F) × (ℕ → Fd F)) :=
  if 0 < c.tol ∧ F.fl (c.P.screenMax * c.Q.screenMax) < F.fl (c.tol * c.tol) then
    some (-1, fun k => ⟨c.Q.screen k⟩, out)
  else (flSsssDelayed F b al h { c with tol := F.fl (c.tol * c.tol) } out).map fun r => ((r.1 : ℤ), r.2)

end Simint
