import Verif.FlScreen
import Verif.Ssss

/-!
# The hand-written (ss|ss) function on doubles

Model of skel/ostei_s_s_s_s.c with rounding; create.py:299 puts this file in the place of the generated function of the
class.  The loops are those of `Verif/Ssss.lean`.  Simplified: as in `Verif/FlFunction.lean`.  Not part of
this function: the delayed sums of AVX512 builds (lines 268-300, 320-323), which add in another order and are modelled
on their own (`accDelayed` of `Verif/Hsum.lean`); `one_over_p`,
`one_over_q` and the three variables computed from them (lines 247-251) are not used by the function.
-/

set_option autoImplicit false

namespace Simint

open FlBoys (Arith)

section
variable (F : Arith) (b : Build)

/-- `F_x` of a pair of primitives, ostei_s_s_s_s.c:231-246, 259. -/
noncomputable def flSsssArg (P Q : MSP ℝ) (i j : ℕ) : ℝ :=
  let mul := F.fl (P.alpha i * Q.alpha j)
  let sum := F.fl (P.alpha i + Q.alpha j)
  let oneOver := F.fl (1 / sum)
  let pq := fun d => F.fl (P.pos d i - Q.pos d j)
  let r2 := F.fl (pq .x * pq .x)
  let r2 := F.mac (pq .y) (pq .y) r2
  let r2 := F.mac (pq .z) (pq .z) r2
  let alpha := F.fl (mul * oneOver)
  F.fl (r2 * alpha)

/-- `prefac` of a pair of primitives, ostei_s_s_s_s.c:266-267; `pf` is the element of `Q_prefac`. -/
noncomputable def flSsssPrefac (P Q : MSP ℝ) (i j : ℕ) (pf : ℝ) : ℝ :=
  let root := F.fl √(F.fl (1 / F.fl (P.alpha i + Q.alpha j)))
  F.fl (F.fl (P.prefac i * pf) * root)

/-- `PRIM_INT__s_s_s_s` of a vector, ostei_s_s_s_s.c:231-269; an array of one vector, so other elements do not exist
(what stands for them comes from `scratch`). -/
noncomputable def flSsssVec (c : Call ℝ) (i j : ℕ) (pf : ℕ → Fd F) : Option (ℕ → QAM → ℕ → Fd F) :=
  let boys n := FlBoys.split F b.vec c.len (fun w => flSsssArg F c.P c.Q i (j + w)) 0 0 n
  if ∀ n < c.len, (boys n).isSome then
    some fun n t k => ⟨match boys n with
      | some f => if t = ssss ∧ k = 0 then F.fl (f * flSsssPrefac F c.P c.Q i (j + n) (pf n).val)
        else c.scratch i j n t k
      | none => c.scratch i j n t k⟩
  else none

/-- Environment of the loops, see `ssssEnv`. -/
noncomputable def flSsssEnv (c : Call ℝ) : DEnv (Fd F) where
  len := c.len
  tops := [ssss]
  P := c.P.doubles F
  Q := c.Q.doubles F
  tol := ⟨c.tol⟩
  size := fun _ => c.outSize
  vec := flSsssVec F b c

/-- `ostei_s_s_s_s` on doubles: number of quartets, screening values of the second list after the call, output. -/
noncomputable def flSsss (c : Call ℝ) (out : ℕ → Fd F) : Option (ℕ × (ℕ → Fd F) × (ℕ → Fd F)) :=
  runSsssBy (flSsssEnv F b c) (b.all c.len) ssss out

/-- `simint_compute_ostei`, ostei.c:11-26, for four s shells. -/
noncomputable def flOsteiSsss (c : Call ℝ) (out : ℕ → Fd F) : Option (ℤ × (ℕ → Fd F) × (ℕ → Fd F)) :=
  if 0 < c.tol ∧ F.fl (c.P.screenMax * c.Q.screenMax) < F.fl (c.tol * c.tol) then
    some (-1, fun k => ⟨c.Q.screen k⟩, out)
  else (flSsss F b { c with tol := F.fl (c.tol * c.tol) } out).map fun r => ((r.1 : ℤ), r.2)

end

end Simint
