import Verif.FlPrim
import Verif.FlSum
import Verif.Hsum
import Verif.HRRRound

/-!
# A complete generated integral function with rounding

`genFunction` of `Verif/Function.lean` once more, with the parts on doubles: the primitive loop of
`Verif/FlPrim.lean` (Boys function and vertical stage included), the loops with rounded additions of
`Verif/FlSum.lean` (in any order of additions of a `contract_all`, `Verif/Hsum.lean`) and the horizontal stage of `Verif/HRRRound.lean`.

Simplified: as in these files; in particular overflow is not a value.  A lane with a zero prefactor
gives zero also if something overflows in it.
-/

set_option autoImplicit false

namespace Simint

open FlBoys (Arith)

/-- What the build and the compiler decide: SIMINT_BOYS_NOVECTOR, the variant of `contract_all`, and which lines of
the horizontal stage are contracted. -/
structure Build where
  vec : Bool
  all : (len : ℕ) → AllSum len
  fuse : HStmt → Bool
  fuseB : Bool → Dir → Bool
  fuseK : Bool → Dir → Bool

/-- The list with doubles in it. -/
def MSP.doubles (F : Arith) (P : MSP ℝ) : MSP (Fd F) where
  nclip := P.nclip
  nprim12 := P.nprim12
  alloc := P.alloc
  prefac := fun i => ⟨P.prefac i⟩
  screen := fun i => ⟨P.screen i⟩
  screenMax := ⟨P.screenMax⟩
  alpha := fun i => ⟨P.alpha i⟩
  pos := fun d i => ⟨P.pos d i⟩
  PA := fun d i => ⟨P.PA d i⟩
  PB := fun d i => ⟨P.PB d i⟩
  AB := fun d i => ⟨P.AB d i⟩

section
variable (F : Arith) (b : Build) (g : GenCfg)

/-- Primitive stage of one vector, OSTEI_Writer.cpp:596-706. -/
noncomputable def flVec (A : VRRAlgo) (L : ℕ) (c : Call ℝ) (i j : ℕ) (pf : ℕ → Fd F) :
    Option (ℕ → QAM → ℕ → Fd F) :=
  let lane n := FlPrim.lane F g b.vec c.len A L c.junk c.P c.Q i j n (pf n).val (c.scratch i j n)
  if ∀ n < c.len, (lane n).isSome then some fun n t k => ⟨(lane n).getD (c.scratch i j n) t k⟩ else none

/-- Environment of the loops, see `genEnv`. -/
noncomputable def flEnv (final : QAM) (c : Call ℝ) (H : HRRAlgo) (A : VRRAlgo) : DEnv (Fd F) where
  len := c.len
  tops := H.top.dedup
  P := c.P.doubles F
  Q := c.Q.doubles F
  tol := ⟨c.tol⟩
  size := fun t => if H.hasHRR then nshellSimd c.len * ncartQ t else c.outSize
  vec := flVec F b g A (totalL final) c

/-- The horizontal stage of the function, see `genHrr`. -/
noncomputable def flHrr (final : QAM) (c : Call ℝ) (H : HRRAlgo) : HEnv (Fd F) where
  hrr := fun ab cd m => (HRRRound.runM F b.fuse b.fuseB b.fuseK psi4List g.enumD g.he g.hg H
    (fun d => c.P.AB d ab) (fun d => c.Q.AB d cd) H.order fun t k => (m t k).val).map fun m' t k => ⟨m' t k⟩
  blk := ncartQ final
  outSize := c.outSize

/-- The generated function for class `final` on doubles: number of quartets and contents of the output. -/
noncomputable def flFunction (final : QAM) (c : Call ℝ) (hmem : HMem (Fd F)) (out : ℕ → Fd F) :
    Option (ℕ × (ℕ → Fd F)) :=
  (g.algos final).bind fun HA =>
    if HA.1.hasHRR then
      runHrrBy (flEnv F b g final c HA.1 HA.2) (b.all c.len) (flHrr F b g final c HA.1) final hmem out
    else runDirectBy (flEnv F b g final c HA.1 HA.2) (b.all c.len) final out

end

end Simint
