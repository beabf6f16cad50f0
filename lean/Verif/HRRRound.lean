import Verif.FlBoys
import Verif.GeneralHRR

/-!
# The horizontal stage with rounding

The statements of `Verif/HRR.lean` once more, on doubles.  The values are real numbers and `fl` of
`FlBoys.Arith` rounds them; the line `v0 + ( h * v1 )` is compiled with or without contraction, which
may be different for different lines.
-/

set_option autoImplicit false

namespace Simint.HRRRound

open FlBoys (Arith u η)

/-- One line of `WriteBraSteps_` and `WriteKetSteps_`, OSTEI_HRR_Writer.cpp:40-54, 82-96, on
doubles.  `fuse s`: the compiler contracts the product and the sum of the line. -/
noncomputable def flOp (F : Arith) (fuse : HStmt → Bool) (h : Dir → ℝ) (s : HStmt) (v0 v1 : ℝ) : ℝ :=
  let p := if fuse s then h s.xyz * v1 else F.fl (h s.xyz * v1)
  F.fl (if s.minus then v0 - p else v0 + p)

/-- `Xab_x = A->x - B->x` and so on, skel/simint/shell/shell.c:466-468, 534-536. -/
noncomputable def diff (F : Arith) (A B : Dir → ℝ) (d : Dir) : ℝ := F.fl (A d - B d)

/-- The horizontal stage on doubles. -/
noncomputable def run (F : Arith) (fuse : HStmt → Bool) (ord : ℕ → List Exp) (A : HRRAlgo)
    (C : StepChoice) (hAB hCD : Dir → ℝ) (l : List QAM) (m : HMem ℝ) : Option (HMem ℝ) :=
  runHRROp ord A C (flOp F fuse hAB) (flOp F fuse hCD) l m

/-- A line of the loops of ostei_general_hrr.c on doubles: `output = t1 + hAB*t2` and, for the types `J`
and `L`, with a minus.  `fuse minus d`: the compiler contracts the line of the direction `d`. -/
noncomputable def flDirOp (F : Arith) (fuse : Bool → Dir → Bool) (h : Dir → ℝ) (minus : Bool) (d : Dir)
    (v0 v1 : ℝ) : ℝ :=
  let p := if fuse minus d then h d * v1 else F.fl (h d * v1)
  F.fl (if minus then v0 - p else v0 + p)

/-- The horizontal stage with the thresholds of external and generic routines, on doubles. -/
noncomputable def runM (F : Arith) (fuse : HStmt → Bool) (fuseB fuseK : Bool → Dir → Bool)
    (ord : ℕ → List Exp) (enum : List Dbl → List Dbl) (se sg : ℤ) (A : HRRAlgo) (hAB hCD : Dir → ℝ)
    (l : List QAM) (m : HMem ℝ) : Option (HMem ℝ) :=
  runHRRMOp ord enum se sg A (flOp F fuse hAB) (flOp F fuse hCD) (flDirOp F fuseB hAB) (flDirOp F fuseK hCD)
    l m

end Simint.HRRRound
