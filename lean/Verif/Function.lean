import Verif.Driver
import Verif.VRRModes

/-!
# A complete generated integral function

`main` of generator/ostei/ostei_generator.cpp:82-112 puts the pieces together: the horizontal
algorithm for the requested class, the vertical algorithm for the classes it asks for, and the
text written by `Write_Full_` (generator/ostei/OSTEI_Writer.cpp:321-754).  The loops are those of
`Driver.lean`; this file adds the computation of the loop variables, the start values from the
Boys function, and the calls of the two stages.

All operations of the primitive loop act on the lanes of a vector independently, so a vector is
modelled as `len` separate runs.  Arithmetic is exact (a field); the square root and the Boys
function are parameters.
-/

set_option autoImplicit false

namespace Simint

/-- Options and unspecified choices of a generator run: thresholds `-ve`, `-vg`, `-he`, `-hg` and
the iteration order of the sets. -/
structure GenCfg where
  ve : ℤ
  vg : ℤ
  he : ℤ
  hg : ℤ
  enumD : List Dbl → List Dbl
  enumQ : List QAM → List QAM
  enumV : List Qrt → List Qrt

/-- `QAM::notag`, generator/Types.hpp:54-57. -/
def QAM.notag (q : QAM) : QAM := { q with tag := "" }

/-- `hrralgo.Create(am)` for a set of classes, with the direction choice given, and
`vrralgo.Create(hrralgo.TopQuartets())`; the vertical algorithm strips the tags
(OSTEI_VRR_Algorithm_Base.cpp:293-296). -/
def GenCfg.algosFor (g : GenCfg) (dir : RRType × RRType) (ams : List QAM) :
    Option (HRRAlgo × VRRAlgo) :=
  (hrrCreate psi4List g.enumD g.enumQ dir.1 dir.2 ams).bind fun H =>
  let ts := classTargets psi4List (H.top.map QAM.notag)
  (vrrCreate g.enumV (vrrDirections ts) ts).map fun A => (H, A)

/-- `hrralgo.Create(finalam)` and `vrralgo.Create(hrralgo.TopQuartets())`,
ostei_generator.cpp:92-101. -/
def GenCfg.algos (g : GenCfg) (final : QAM) : Option (HRRAlgo × VRRAlgo) :=
  g.algosFor (hrrDirections final) [final]

section
variable {F : Type} [Field F]

/-- Square root and `boys_F_split` (value of order `n` at `x`). -/
structure FOps (F : Type) where
  sqrt : F → F
  boys : ℕ → F → F

/-- `alpha`, OSTEI_Writer.cpp:596-598 and 612. -/
def redAlpha (p q : F) : F := p * q * (1 / (p + q))

/-- `R2`, OSTEI_Writer.cpp:602-610. -/
def distR2 (P Q : MSP F) (i j : ℕ) : F :=
  (P.pos .z i - Q.pos .z j) * (P.pos .z i - Q.pos .z j)
    + ((P.pos .y i - Q.pos .y j) * (P.pos .y i - Q.pos .y j)
      + (P.pos .x i - Q.pos .x j) * (P.pos .x i - Q.pos .x j))

/-- Variables of the primitive loop for bra primitive `i` and ket primitive `j`,
OSTEI_Writer.cpp:528-562 and 596-674.  Variables that are not declared (lines 538, 546, 629, 637,
652, 663) have the value given by `junk`: the theorems hold for every `junk`, so no undeclared variable
is used. -/
def loopVars (A : VRRAlgo) (junk : VPar F) (P Q : MSP F) (i j : ℕ) : VPar F :=
  let p := P.alpha i
  let q := Q.alpha j
  let alpha := redAlpha p q
  let PQ : Dir → F := fun d => P.pos d i - Q.pos d j
  let bra := A.has .I || A.has .J
  let ket := A.has .K || A.has .L
  { PA := if bra && A.has .I then fun d => P.PA d i else junk.PA
    PB := if bra && !A.has .I then fun d => P.PB d i else junk.PB
    QA := if ket && A.has .K then fun d => Q.PA d j else junk.QA
    QB := if ket && !A.has .K then fun d => Q.PB d j else junk.QB
    aop := if bra then -alpha * (1 / p) else junk.aop
    aopPQ := if bra then fun d => -alpha * (1 / p) * PQ d else junk.aopPQ
    aoq := if ket then -(alpha * (1 / q)) else junk.aoq
    aoqPQ := if ket then fun d => alpha * (1 / q) * PQ d else junk.aoqPQ
    o2p := 1 / 2 * (1 / p)
    o2q := 1 / 2 * (1 / q)
    o2pq := 1 / 2 * (1 / (p + q)) }

/-- Primitive stage of one lane, OSTEI_Writer.cpp:683-706: `L+1` start values, multiplied by the
prefactor, written to the array of class `ssss`, then the vertical recurrence.  `pf` is the masked
ket prefactor, `scratch` what the primitive arrays hold before. -/
def primLane (g : GenCfg) (ops : FOps F) (A : VRRAlgo) (L : ℕ) (junk : VPar F) (P Q : MSP F)
    (i j : ℕ) (pf : F) (scratch : VMem F) : Option (VMem F) :=
  let p := P.alpha i
  let q := Q.alpha j
  let x := distR2 P Q i j * redAlpha p q
  let prefac := P.prefac i * pf * ops.sqrt (1 / (p + q))
  if L + 1 ≤ vSize A.mreq ssss then
    vRunAllM psi4List g.enumV g.ve g.vg A (loopVars A junk P Q i j) A.order fun t n =>
      if t = ssss ∧ n ≤ L then ops.boys n x * prefac else scratch t n
  else none

/-- Arguments of a call and the unspecified contents of memory: `outSize` doubles of output,
`scratch i j n` the primitive arrays before bra primitive `i` meets ket vector `j`, lane `n`. -/
structure Call (F : Type) where
  len : ℕ
  P : MSP F
  Q : MSP F
  tol : F
  outSize : ℕ
  junk : VPar F
  scratch : ℕ → ℕ → ℕ → VMem F

/-- `info_.L()`: total AM of the class. -/
def totalL (final : QAM) : ℕ := (final.a + final.b + final.c + final.d).toNat

/-- Primitive stage of one vector. -/
def vecStage (g : GenCfg) (ops : FOps F) (A : VRRAlgo) (L : ℕ) (c : Call F) (i j : ℕ) (pf : ℕ → F) :
    Option (ℕ → QAM → ℕ → F) :=
  let lane n := primLane g ops A L c.junk c.P c.Q i (j + n) (pf n) (c.scratch i j n)
  if ∀ n < c.len, (lane n).isSome then some fun n => (lane n).getD (c.scratch i j n) else none

variable [LinearOrder F]

/-- Environment of the loops. The batch arrays hold `SIMINT_NSHELL_SIMD` blocks
(OSTEI_Writer.cpp:256-263); without horizontal stage the only class handed over is the output. -/
def genEnv (g : GenCfg) (ops : FOps F) (final : QAM) (c : Call F) (H : HRRAlgo) (A : VRRAlgo) :
    DEnv F where
  len := c.len
  tops := H.top.dedup
  P := c.P
  Q := c.Q
  tol := c.tol
  size := fun t => if H.hasHRR then nshellSimd c.len * ncartQ t else c.outSize
  vec := vecStage g ops A (totalL final) c

/-- The horizontal stage of the function: center differences of bra shell `ab` and ket shell `cd`
(generator/ostei/OSTEI_HRR_Writer.cpp:132-160). -/
def genHrr (g : GenCfg) (final : QAM) (c : Call F) (H : HRRAlgo) : HEnv F where
  hrr := fun ab cd m => runHRRM psi4List g.enumD g.he g.hg H (fun d => c.P.AB d ab)
    (fun d => c.Q.AB d cd) H.order m
  blk := ncartQ final
  outSize := c.outSize

/-- The generated function for class `final`: number of quartets and contents of the output. -/
def genFunction (g : GenCfg) (ops : FOps F) (final : QAM) (c : Call F) (hmem : HMem F)
    (out : ℕ → F) : Option (ℕ × (ℕ → F)) :=
  (g.algos final).bind fun HA =>
    if HA.1.hasHRR then runHrr (genEnv g ops final c HA.1 HA.2) (genHrr g final c HA.1) final hmem out
    else runDirect (genEnv g ops final c HA.1 HA.2) final out

end

end Simint
