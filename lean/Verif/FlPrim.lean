import Verif.FlBoys
import Verif.Function
import Verif.VRRRound
import Verif.Shell

/-!
# Shell pairs and the primitive loop with rounding

`primValue` of `Verif/Shell.lean` and `loopVars`, `primLane` of `Verif/Function.lean` once more, now on
doubles: the values are real numbers and `fl` of `FlBoys.Arith` rounds them after each operation.

Simplified: centers, exponents and coefficients of the shells are given numbers (what the caller
stored); the value of one lane is modelled.  In `AxAa + alpha_j * B->x` (shell.c:500-502) the product
that is written last may be fused into the sum, not the one of shell.c:475-477.
-/

set_option autoImplicit false

namespace Simint.FlPrim

open FlBoys (Arith)

/-- `SQRT_TWO_PI_52`, skel/simint/constants.h:9, before it is rounded. -/
noncomputable def sqrtTwoPi52 : ℝ :=
  591496717279561287782347843505365022963403204272156069835237 / 10 ^ 59

section
variable (F : Arith)

/-- `Xab`, shell.c:466-469. -/
noncomputable def xab (A B : Shell ℝ) : ℝ :=
  let X := fun d => F.fl (A.pos d - B.pos d)
  F.mac (X .z) (X .z) (F.dot (X .x) (X .x) (X .y) (X .y))

/-- The values stored for primitives `i`, `j`, shell.c:472-526. -/
noncomputable def value (A B : Shell ℝ) (i j : ℕ) : Arr → ℝ :=
  let ai := A.alpha i
  let aj := B.alpha j
  let sum := F.fl (ai + aj)
  let mul := F.fl (ai * aj)
  let fold : Bool := sameShell A B && decide (i ≠ j)
  let x := fun d => F.fl (F.mac aj (B.pos d) (F.fl (A.pos d * ai)) / sum)
  fun
  | .prefac =>
    let e := F.exp (F.fl (F.fl (-xab F A B * mul) / sum))
    let v := F.fl (F.fl (F.fl (F.fl (A.coef i * B.coef j) * e) * F.fl sqrtTwoPi52) / sum)
    if fold then F.fl (v * 2) else v
  | .pos d => x d
  | .PA d => F.fl (x d - A.pos d)
  | .PB d => F.fl (x d - B.pos d)
  | .alpha => sum
  | .alpha2 => if fold then sum else F.fl (2 * ai)
  | .beta2 => if fold then sum else F.fl (2 * aj)
  | _ => 0

/-- `one_over_PQalpha_sum`, OSTEI_Writer.cpp:597-598. -/
noncomputable def ooSum (p q : ℝ) : ℝ := F.fl (1 / F.fl (p + q))

/-- `alpha`, OSTEI_Writer.cpp:596 and 612. -/
noncomputable def red (p q : ℝ) : ℝ := F.fl (F.fl (p * q) * ooSum F p q)

/-- `PQ`, OSTEI_Writer.cpp:602-605. -/
noncomputable def pq (P Q : MSP ℝ) (i j : ℕ) (d : Dir) : ℝ := F.fl (P.pos d i - Q.pos d j)

/-- `R2`, OSTEI_Writer.cpp:608-610. -/
noncomputable def r2 (P Q : MSP ℝ) (i j : ℕ) : ℝ :=
  F.mac (pq F P Q i j .z) (pq F P Q i j .z)
    (F.mac (pq F P Q i j .y) (pq F P Q i j .y) (F.fl (pq F P Q i j .x * pq F P Q i j .x)))

/-- `F_x`, OSTEI_Writer.cpp:683. -/
noncomputable def fx (P Q : MSP ℝ) (i j : ℕ) : ℝ := F.fl (r2 F P Q i j * red F (P.alpha i) (Q.alpha j))

/-- `a_over_p` without its sign and `a_over_q` before it is negated, OSTEI_Writer.cpp:615-618, 656
and 666. -/
noncomputable def over (a p : ℝ) : ℝ := F.fl (a * F.fl (1 / p))

/-- The variables of the primitive loop, OSTEI_Writer.cpp:596-674, as if all were declared. -/
noncomputable def allVars (P Q : MSP ℝ) (i j : ℕ) : VPar ℝ :=
  let p := P.alpha i
  let q := Q.alpha j
  let alpha := red F p q
  let aop := F.fl (-alpha * F.fl (1 / p))
  { PA := fun d => P.PA d i
    PB := fun d => P.PB d i
    QA := fun d => Q.PA d j
    QB := fun d => Q.PB d j
    aop := aop
    aopPQ := fun d => F.fl (aop * pq F P Q i j d)
    aoq := -over F alpha q
    aoqPQ := fun d => F.fl (over F alpha q * pq F P Q i j d)
    o2p := F.fl (1 / 2 * F.fl (1 / p))
    o2q := F.fl (1 / 2 * F.fl (1 / q))
    o2pq := F.fl (1 / 2 * ooSum F p q) }

/-- The variables with the undeclared ones (OSTEI_Writer.cpp:538-562, 629-674) replaced by `junk`. -/
noncomputable def loopVars (A : VRRAlgo) (junk : VPar ℝ) (P Q : MSP ℝ) (i j : ℕ) : VPar ℝ :=
  let v := allVars F P Q i j
  let bra := A.has .I || A.has .J
  let ket := A.has .K || A.has .L
  { PA := if bra && A.has .I then v.PA else junk.PA
    PB := if bra && !A.has .I then v.PB else junk.PB
    QA := if ket && A.has .K then v.QA else junk.QA
    QB := if ket && !A.has .K then v.QB else junk.QB
    aop := if bra then v.aop else junk.aop
    aopPQ := if bra then v.aopPQ else junk.aopPQ
    aoq := if ket then v.aoq else junk.aoq
    aoqPQ := if ket then v.aoqPQ else junk.aoqPQ
    o2p := v.o2p
    o2q := v.o2q
    o2pq := v.o2pq }

/-- `prefac`, OSTEI_Writer.cpp:695-696; `pf` is the ket prefactor of the lane. -/
noncomputable def prefac (P Q : MSP ℝ) (i j : ℕ) (pf : ℝ) : ℝ :=
  F.fl (F.fl (P.prefac i * pf) * F.fl √(ooSum F (P.alpha i) (Q.alpha j)))

/-- Primitive stage of lane `v` of the vector of ket primitives from `j` on, OSTEI_Writer.cpp:596-706:
`L+1` start values from `boys_F_split`, multiplied by the prefactor, then the vertical recurrence. -/
noncomputable def lane (g : GenCfg) (vec : Bool) (len : ℕ) (A : VRRAlgo) (L : ℕ) (junk : VPar ℝ)
    (P Q : MSP ℝ) (i j v : ℕ) (pf : ℝ) (scratch : VMem ℝ) : Option (VMem ℝ) :=
  let boys := fun n => FlBoys.split F vec len (fun w => fx F P Q i (j + w)) L n v
  if L + 1 ≤ vSize A.mreq ssss ∧ ∀ n ≤ L, (boys n).isSome then
    VRRRound.run F psi4List g.enumV g.ve g.vg A (loopVars F A junk P Q i (j + v)) A.order fun t n =>
      if t = ssss ∧ n ≤ L then F.fl ((boys n).getD 0 * prefac F P Q i (j + v) pf) else scratch t n
  else none

end

end Simint.FlPrim
