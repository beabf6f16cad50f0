import Verif.FlFunction
import Verif.Deriv

/-!
# A complete generated derivative function with rounding

`derivFunction` of `Verif/Deriv.lean` on doubles: the parts of `Verif/FlFunction.lean`, the products of
`contract_fac` and the differences and sums of `WriteFormDeriv` rounded.

Simplified: as in `Verif/FlFunction.lean`; the product in `dest[np] += factor * src` is rounded before it
is added, as in the SSE, AVX and AVX512 builds (skel/simint/vectorization/intrinsics_sse.h:104-119,
intrinsics_avx.h:141-156); a scalar build may contract it.
-/

set_option autoImplicit false

namespace Simint

open FlBoys (Arith)

/-- The lines of `WriteFormDeriv` with arithmetic in them, OSTEIDeriv1_Writer.cpp:399-401 and 497-499:
`out -= ijk * in` (contracted or not) and `-(a + b + c)`. -/
noncomputable def flForm (F : Arith) (fuse : RRType → Dir → Bool) : FormOps (Fd F) where
  sub := fun t d v k w =>
    ⟨if fuse t d then F.fl (v.val - k * w.val) else F.fl (v.val - F.fl (k * w.val))⟩
  neg
    | [] => 0
    | v :: vs => ⟨-(vs.foldl (fun s w => F.fl (s + w.val)) v.val)⟩

section
variable (F : Arith) (b : Build) (fuseD : RRType → Dir → Bool) (g : GenCfg)

/-- Primitive stage of one vector with the factors of `contract_fac`, see `derivVec`. -/
noncomputable def flDerivVec (A : VRRAlgo) (L : ℕ) (c : DerivCall ℝ) (i j : ℕ) (pf : ℕ → Fd F) :
    Option (ℕ → QAM → ℕ → Fd F) :=
  (flVec F b g A L c.toCall i j pf).map fun src n t k =>
    if t.tag = "" then src n t k else ⟨F.fl (c.cfac t.tag i (j + n) * (src n t.notag k).val)⟩

/-- Environment of the loops, see `derivEnv`. -/
noncomputable def flDerivEnv (final : QAM) (c : DerivCall ℝ) (H : HRRAlgo) (A : VRRAlgo) : DEnv (Fd F) where
  len := c.len
  tops := H.top.dedup
  P := c.P.doubles F
  Q := c.Q.doubles F
  tol := ⟨c.tol⟩
  size := fun t => nshellSimd c.len * ncartQ t
  vec := flDerivVec F b g A (totalL final + 1) c

/-- Horizontal stage and `WriteFormDeriv`, see `derivHrr`. -/
noncomputable def flDerivHrr (final : QAM) (c : DerivCall ℝ) (H : HRRAlgo) : HEnv (Fd F) where
  hrr := fun ab cd m => (HRRRound.runM F b.fuse b.fuseB b.fuseK psi4List g.enumD g.he g.hg H
    (fun d => c.P.AB d ab) (fun d => c.Q.AB d cd) H.order fun t k => (m t k).val).bind fun m' =>
      (formDeriv (flForm F fuseD) (H.top ++ H.order) final fun t k => (⟨m' t k⟩ : Fd F)).map fun l q i =>
        if q = final then l.getD i ⟨m' q i⟩ else ⟨m' q i⟩
  blk := 12 * ncartQ final
  outSize := c.outSize

/-- The generated derivative function for class `final` on doubles: number of quartets and contents of the
output. -/
noncomputable def flDerivFunction (final : QAM) (c : DerivCall ℝ) (hmem : HMem (Fd F)) (out : ℕ → Fd F) :
    Option (ℕ × (ℕ → Fd F)) :=
  (g.derivAlgos final).bind fun HA =>
    if HA.1.hasHRR then
      runHrrBy (flDerivEnv F b g final c HA.1 HA.2) (b.all c.len) (flDerivHrr F b fuseD g final c HA.1) final hmem out
    else none

end

end Simint
