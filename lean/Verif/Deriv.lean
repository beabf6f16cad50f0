import Verif.Function
import Verif.GeneralHRR
import Mathlib.Data.String.Basic

/-!
# First-derivative functions

Model of `main` of generator/ostei/ostei_deriv1_generator.cpp and of the parts of
generator/ostei/OSTEIDeriv1_Writer.cpp that differ from the integral functions: the classes asked
for, the contraction with factors (`WriteAccumulation`), and `WriteFormDeriv`.  The four centers are
named by `RRType` (`I`, `J`, `K`, `L` for the first to the fourth); the loops are those of
`Driver.lean` (the text of `Write_Full_`, OSTEIDeriv1_Writer.cpp:539-945, is that of
OSTEI_Writer.cpp:321-754 except for the parts modelled here and the printing of statistics).
-/

set_option autoImplicit false

namespace Simint

/-- The centers in order. -/
def centers : List RRType := [.I, .J, .K, .L]

/-- `qam[i] += n`. -/
def QAM.bump (q : QAM) (n : ℤ) : RRType → QAM
  | .I => { q with a := q.a + n }
  | .J => { q with b := q.b + n }
  | .K => { q with c := q.c + n }
  | .L => { q with d := q.d + n }

/-- The center that is not differentiated: the first one with the largest AM,
ostei_deriv1_generator.cpp:97-107. -/
def missingCenter (q : QAM) : RRType :=
  let mx := max (max (max q.a q.b) q.c) q.d
  if q.a = mx then .I else if q.b = mx then .J else if q.c = mx then .K else .L

/-- `dir[i]`, ostei_deriv1_generator.cpp:109. -/
def centerTag : RRType → String
  | .I => "2a"
  | .J => "2b"
  | .K => "2c"
  | .L => "2d"

/-- `amtmp_p`, ostei_deriv1_generator.cpp:115-117. -/
def raisedQ (q : QAM) (t : RRType) : QAM := { q.bump 1 t with tag := centerTag t }

/-- `amtmp_m`, ostei_deriv1_generator.cpp:116-118. -/
def loweredQ (q : QAM) (t : RRType) : QAM := q.bump (-1) t

/-- `needed_am`, ostei_deriv1_generator.cpp:110-123. -/
def derivNeeded (q : QAM) : List QAM :=
  centers.flatMap fun t =>
    if t = missingCenter q then []
    else raisedQ q t :: if (loweredQ q t).valid then [loweredQ q t] else []

/-- `*(am.rbegin())`: the largest element of a set, OSTEI_HRR_Algorithm_Base.cpp:162. -/
def setMax : List QAM → QAM → QAM
  | [], m => m
  | q :: r, m => setMax r (if qamLt m q then q else m)

/-- Direction choice of `Create(std::set<QAM>)`, OSTEI_HRR_Algorithm_Base.cpp:160-175. -/
def setDirections (ams : List QAM) : RRType × RRType :=
  match ams with
  | [] => (.J, .L)
  | q :: r => hrrDirections (setMax r q)

/-- `hrralgo.Create(needed_am)` and `vrralgo.Create(hrralgo.TopQuartets())`,
ostei_deriv1_generator.cpp:127-135. -/
def GenCfg.derivAlgos (g : GenCfg) (final : QAM) : Option (HRRAlgo × VRRAlgo) :=
  g.algosFor (setDirections (derivNeeded final)) (derivNeeded final)

/-! ## WriteFormDeriv -/

/-- Values of `n1`, `n2`, `n3`, `n4`. -/
def loopIdx (n1 n2 n3 n4 : ℕ) : RRType → ℕ
  | .I => n1
  | .J => n2
  | .K => n3
  | .L => n4

/-- `full_idx`: position in the array of class `q` with the index of center `t` replaced by `x`,
OSTEIDeriv1_Writer.cpp:377-488 (all eight forms have this shape: the strides are products of the
component counts of the class that is read). -/
def fullIdx (q : QAM) (n : RRType → ℕ) (t : RRType) (x : ℤ) : ℤ :=
  let v : RRType → ℤ := fun s => if s = t then x else n s
  v .I * (ncart q.b * ncart q.c * ncart q.d : ℕ) + v .J * (ncart q.c * ncart q.d : ℕ)
    + v .K * (ncart q.d : ℕ) + v .L

/-- The two kinds of lines with arithmetic in them (the exact ones are `FormOps.exact`; for doubles see
`Verif/FlDeriv.lean`). -/
structure FormOps (V : Type) where
  /-- `v -= k * w` for a center and a direction -/
  sub : RRType → Dir → V → ℤ → V → V
  /-- `-(a + b + c)` -/
  neg : List V → V

def dirs : List Dir := [.x, .y, .z]

section
variable {V : Type}

/-- Read element `i` of array `HRR_q`: the array has to exist and the index has to be in range. -/
def declRead (decl : List QAM) (m : HMem V) (q : QAM) (i : ℤ) : Option V :=
  if q ∈ decl ∧ 0 ≤ i ∧ i < ncartQ q then some (m q i.toNat) else none

variable (ops : FormOps V)

/-- Derivative with respect to coordinate `d` of center `t`,
OSTEIDeriv1_Writer.cpp:378-401 (first center; 404-490 the others). -/
def centerVal (decl : List QAM) (final : QAM) (m : HMem V) (n : RRType → ℕ) (t : RRType) (d : Dir) :
    Option V :=
  (recAt (final.get t).toNat (n t)).bind fun r =>
  (declRead decl m (raisedQ final t) (fullIdx (raisedQ final t) n t (r.p1 d))).bind fun v =>
    if 0 < final.get t ∧ 0 ≤ r.m1 d then
      (declRead decl m (loweredQ final t) (fullIdx (loweredQ final t) n t (r.m1 d))).map fun w =>
        ops.sub t d v (r.ijk.get d) w
    else some v

/-- The value for the missing center: minus the sum of the other three,
OSTEIDeriv1_Writer.cpp:492-527. -/
def missingVal (decl : List QAM) (final : QAM) (m : HMem V) (n : RRType → ℕ) (d : Dir) : Option V :=
  let l := centers.filter fun t => t ≠ missingCenter final
  (l.mapM fun t => centerVal ops decl final m n t d).map ops.neg

/-- Body of the loop: the twelve values for one component, OSTEIDeriv1_Writer.cpp:375-529. -/
def formBody (decl : List QAM) (final : QAM) (m : HMem V) (n1 n2 n3 n4 : ℕ) : Option (List V) :=
  (centers.flatMap fun t => dirs.map fun d => (t, d)).mapM fun p =>
    if p.1 = missingCenter final then missingVal ops decl final m (loopIdx n1 n2 n3 n4) p.2
    else centerVal ops decl final m (loopIdx n1 n2 n3 n4) p.1 p.2

/-- `WriteFormDeriv`, OSTEIDeriv1_Writer.cpp:334-537: the values stored from `startidx = 0` on. -/
def formDeriv (decl : List QAM) (final : QAM) (m : HMem V) : Option (List V) :=
  forEach (ncart final.a) fun n1 => forEach (ncart final.b) fun n2 =>
    forEach (ncart final.c) fun n3 => forEach (ncart final.d) fun n4 =>
      formBody ops decl final m n1 n2 n3 n4

end

/-- Exact arithmetic. -/
def FormOps.exact {F : Type} [Field F] : FormOps F where
  sub := fun _ _ v k w => v - (k : F) * w
  neg := fun vs => -vs.sum

section
variable {F : Type} [Field F]

/-- Arguments of a call of a derivative function: the same plus the arrays `alpha2`, `beta2` of both
lists (twice the exponents, skel/simint/shell/shell.h). -/
structure DerivCall (F : Type) extends Call F where
  alpha2P : ℕ → F
  beta2P : ℕ → F
  alpha2Q : ℕ → F
  beta2Q : ℕ → F

/-- `cfac_2a`, `cfac_2b`, `cfac_2c`, `cfac_2d`, OSTEIDeriv1_Writer.cpp:745-746 and 800-801, for bra
primitive `i` and ket primitive `j`. -/
def DerivCall.cfac (c : DerivCall F) (tag : String) (i j : ℕ) : F :=
  if tag = "2a" then c.alpha2P i
  else if tag = "2b" then c.beta2P i
  else if tag = "2c" then c.alpha2Q j
  else c.beta2Q j

/-- Primitive stage of one vector with the contraction factors.  `WriteAccumulation`,
OSTEIDeriv1_Writer.cpp:54-95, passes a class with a tag to `contract_fac` together with the factor and
the primitive array of the class without tag; by `C30_contract_fac` this is `contract` applied to the
products, which is how it is written here. -/
def derivVec (g : GenCfg) (ops : FOps F) (A : VRRAlgo) (L : ℕ) (c : DerivCall F) (i j : ℕ)
    (pf : ℕ → F) : Option (ℕ → QAM → ℕ → F) :=
  (vecStage g ops A L c.toCall i j pf).map fun src n t k =>
    if t.tag = "" then src n t k else c.cfac t.tag i (j + n) * src n t.notag k

/-! ## The function -/

variable [LinearOrder F]

/-- Environment of the loops; the highest order of the start values is `L+1`
(OSTEIDeriv1_Writer.cpp:882, 893, 903). -/
def derivEnv (g : GenCfg) (ops : FOps F) (final : QAM) (c : DerivCall F) (H : HRRAlgo) (A : VRRAlgo) :
    DEnv F where
  len := c.len
  tops := H.top.dedup
  P := c.P
  Q := c.Q
  tol := c.tol
  size := fun t => nshellSimd c.len * ncartQ t
  vec := derivVec g ops A (totalL final + 1) c

/-- Horizontal stage and `WriteFormDeriv` for one quartet, OSTEIDeriv1_Writer.cpp:924-925: the values
are stored in the output block, which is the array `HRR` of the class itself
(OSTEI_HRR_Writer.cpp:143-144). -/
def derivHrr (g : GenCfg) (final : QAM) (c : DerivCall F) (H : HRRAlgo) : HEnv F where
  hrr := fun ab cd m =>
    (runHRRM psi4List g.enumD g.he g.hg H (fun d => c.P.AB d ab) (fun d => c.Q.AB d cd) H.order
      m).bind fun m' =>
    (formDeriv .exact (H.top ++ H.order) final m').map fun l q i =>
      if q = final then l.getD i (m' q i) else m' q i
  blk := 12 * ncartQ final
  outSize := c.outSize

/-- The generated derivative function for class `final`: number of quartets and output.  The
horizontal stage is always written (OSTEIDeriv1_Writer.cpp:924-925); `none` when the sets of classes
have no steps, in which case the accumulation arrays would be the output (this does not happen, see
`C36`). -/
def derivFunction (g : GenCfg) (ops : FOps F) (final : QAM) (c : DerivCall F) (hmem : HMem F)
    (out : ℕ → F) : Option (ℕ × (ℕ → F)) :=
  (g.derivAlgos final).bind fun HA =>
    if HA.1.hasHRR then
      runHrr (derivEnv g ops final c HA.1 HA.2) (derivHrr g final c HA.1) final hmem out
    else none

end

end Simint
