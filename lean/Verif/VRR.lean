import Verif.HRR
import Mathlib.Data.Fin.VecNotation

/-!
# Vertical recurrence: search, auxiliary orders, class order, emitted statements (model)

`generator/ostei/Makowski.hpp` (class `Makowski_VRR`),
`generator/ostei/OSTEI_VRR_Algorithm_Base.cpp`, `generator/ostei/OSTEI_VRR_Writer.cpp`.

As for the horizontal stage, iteration over a `std::set` or `std::map` is an arbitrary enumeration.
-/

set_option autoImplicit false

namespace Simint

/-! ## Quartets seen center by center -/

/-- The exponents of a center. -/
def Qrt.cen (q : Qrt) : RRType → Exp
  | .I => q.bra.left
  | .J => q.bra.right
  | .K => q.ket.left
  | .L => q.ket.right

/-- `q.<center>.ijk[d] -= n`. -/
def Qrt.low (q : Qrt) (t : RRType) (d : Dir) (n : ℤ) : Qrt :=
  match t with
  | .I => ⟨⟨q.bra.left.step d (-n), q.bra.right⟩, q.ket, q.m⟩
  | .J => ⟨⟨q.bra.left, q.bra.right.step d (-n)⟩, q.ket, q.m⟩
  | .K => ⟨q.bra, ⟨q.ket.left.step d (-n), q.ket.right⟩, q.m⟩
  | .L => ⟨q.bra, ⟨q.ket.left, q.ket.right.step d (-n)⟩, q.m⟩

/-- `q.m++`. -/
def Qrt.up (q : Qrt) : Qrt := ⟨q.bra, q.ket, q.m + 1⟩

/-- `Quartet::am`, generator/Types.hpp:472. -/
def Qrt.am (q : Qrt) : ℤ := q.bra.left.am + q.bra.right.am + (q.ket.left.am + q.ket.right.am)

/-- `Quartet::amlist` of an untagged quartet, generator/Types.hpp:475-479. -/
def Qrt.am4 (q : Qrt) : QAM := ⟨q.bra.left.am, q.bra.right.am, q.ket.left.am, q.ket.right.am, ""⟩

/-- `am[static_cast<int>(rrstep)]`. -/
def QAM.get (a : QAM) : RRType → ℤ
  | .I => a.a
  | .J => a.b
  | .K => a.c
  | .L => a.d

/-- `QAM{0,0,0,0}` -/
def ssss : QAM := ⟨0, 0, 0, 0, ""⟩

/-! ## One step -/

/-- `VRRStep`, generator/ostei/OSTEI_Types.hpp:44-76. -/
structure VStep where
  type : RRType
  target : Qrt
  src : Fin 8 → Qrt
  xyz : Dir
  ijkl : RRType → ℤ

/-- The sources, generator/ostei/Makowski.hpp:118-165 (ket) and 185-232 (bra). -/
def vrrSrc (ty : RRType) (q : Qrt) (d : Dir) : Fin 8 → Qrt :=
  match ty with
  | .K => ![q.low .K d 1, (q.low .K d 1).up, q.low .K d 2, (q.low .K d 2).up,
      (q.low .L d 1).low .K d 1, ((q.low .L d 1).low .K d 1).up,
      ((q.low .I d 1).low .K d 1).up, ((q.low .J d 1).low .K d 1).up]
  | .L => ![q.low .L d 1, (q.low .L d 1).up,
      (q.low .K d 1).low .L d 1, ((q.low .K d 1).low .L d 1).up,
      q.low .L d 2, (q.low .L d 2).up,
      ((q.low .I d 1).low .L d 1).up, ((q.low .J d 1).low .L d 1).up]
  | .I => ![q.low .I d 1, (q.low .I d 1).up, q.low .I d 2, (q.low .I d 2).up,
      (q.low .J d 1).low .I d 1, ((q.low .J d 1).low .I d 1).up,
      ((q.low .K d 1).low .I d 1).up, ((q.low .L d 1).low .I d 1).up]
  | .J => ![q.low .J d 1, (q.low .J d 1).up,
      (q.low .I d 1).low .J d 1, ((q.low .I d 1).low .J d 1).up,
      q.low .J d 2, (q.low .J d 2).up,
      ((q.low .K d 1).low .J d 1).up, ((q.low .L d 1).low .J d 1).up]

/-- Number multiplying a source pair, `Create_Single_`, OSTEI_VRR_Algorithm_Base.cpp:236-282. -/
def vrrIjkl (ty : RRType) (q : Qrt) (d : Dir) (src : Fin 8 → Qrt) : RRType → ℤ :=
  let pick (c : Prop) [Decidable c] (v : ℤ) : ℤ := if c then v else 0
  let s23 := (src 2).Valid ∨ (src 3).Valid
  let s45 := (src 4).Valid ∨ (src 5).Valid
  match ty with
  | .I => fun
    | .I => pick s23 (q.bra.left.get d - 1)
    | .J => pick s45 (q.bra.right.get d)
    | .K => pick (src 6).Valid (q.ket.left.get d)
    | .L => pick (src 7).Valid (q.ket.right.get d)
  | .J => fun
    | .I => pick s23 (q.bra.left.get d)
    | .J => pick s45 (q.bra.right.get d - 1)
    | .K => pick (src 6).Valid (q.ket.left.get d)
    | .L => pick (src 7).Valid (q.ket.right.get d)
  | .K => fun
    | .K => pick s23 (q.ket.left.get d - 1)
    | .L => pick s45 (q.ket.right.get d)
    | .I => pick (src 6).Valid (q.bra.left.get d)
    | .J => pick (src 7).Valid (q.bra.right.get d)
  | .L => fun
    | .K => pick s23 (q.ket.left.get d)
    | .L => pick s45 (q.ket.right.get d - 1)
    | .I => pick (src 6).Valid (q.bra.left.get d)
    | .J => pick (src 7).Valid (q.bra.right.get d)

/-- `VRRStep_` (Makowski.hpp:93-236) followed by the `ijkl` part of `Create_Single_`
(OSTEI_VRR_Algorithm_Base.cpp:232-285).  `none`: all exponents of the stepped center are zero, so
the C++ dereferences `end()`. -/
def createSingle (ty : RRType) (q : Qrt) : Option VStep :=
  (makDir (q.cen ty)).map fun d =>
    { type := ty, target := q, src := vrrSrc ty q d, xyz := d
      ijkl := vrrIjkl ty q d (vrrSrc ty q d) }

/-! ## The search -/

/-- `PruneQuartets_(q)`, OSTEI_VRR_Algorithm_Base.cpp:124-135. -/
def vPrune (l : List Qrt) : List Qrt := l.filter fun q => decide (q.Valid ∧ 0 < q.am)

/-- `PruneQuartets_(q, rrstep)`: the set kept in `q`, OSTEI_VRR_Algorithm_Base.cpp:137-160. -/
def vMine (ty : RRType) (l : List Qrt) : List Qrt :=
  (vPrune l).filter fun q => decide (q.Valid ∧ 0 < q.am4.get ty)

/-- `PruneQuartets_(q, rrstep)`: the returned set. -/
def vRest (ty : RRType) (l : List Qrt) : List Qrt :=
  (vPrune l).filter fun q => decide (¬ (q.Valid ∧ 0 < q.am4.get ty))

structure VSt where
  newt : List Qrt
  steps : List VStep
  solved : List Qrt

/-- `newmap[qam].insert(vs)`: the set order compares targets only
(OSTEI_Types.hpp:71-74). -/
def vInsert (s : VStep) (l : List VStep) : List VStep :=
  if ∃ t ∈ l, t.target = s.target then l else s :: l

instance (l : List VStep) (s : VStep) : Decidable (∃ t ∈ l, t.target = s.target) :=
  inferInstance

/-- Body of the `for` over `my_targets`, OSTEI_VRR_Algorithm_Base.cpp:325-343. -/
def vBody (ty : RRType) (st : VSt) (t : Qrt) : Option VSt :=
  (createSingle ty t).map fun vs =>
    { newt := (List.ofFn vs.src).foldl
        (fun l s => if s.Valid ∧ s ∉ st.solved then sins s l else l) st.newt
      steps := vInsert vs st.steps
      solved := sins t st.solved }

def vRound (ty : RRType) : List Qrt → VSt → Option VSt
  | [], st => some st
  | t :: ts, st => (vBody ty st t).bind fun st' => vRound ty ts st'

/-- Search state between rounds: remaining targets, steps, solved quartets. -/
structure VSearch where
  targets : List Qrt
  steps : List VStep
  solved : List Qrt

/-- The `while(my_targets.size())` loop, OSTEI_VRR_Algorithm_Base.cpp:320-355.  `none` also if the
fuel runs out. -/
def vLoop (ty : RRType) (enum : List Qrt → List Qrt) :
    ℕ → List Qrt → VSearch → Option VSearch
  | f, my, st =>
    if my = [] then some st
    else
      match f with
      | 0 => none
      | f + 1 =>
        (vRound ty (enum my) { newt := [], steps := st.steps, solved := st.solved }).bind
          fun r =>
            vLoop ty enum f (vMine ty r.newt)
              { targets := (vRest ty r.newt).foldl (fun l s => sins s l) st.targets
                steps := r.steps, solved := r.solved }

/-- The `for(int i = 0; i < 4; i++)` loop, OSTEI_VRR_Algorithm_Base.cpp:307-356; the order is cut
at the first negative index. -/
def vPhases (enum : List Qrt → List Qrt) (fuel : ℕ) :
    List RRType → VSearch → Option VSearch
  | [], st => some st
  | ty :: ts, st =>
    (vLoop ty enum fuel (vMine ty st.targets) { st with targets := vRest ty st.targets }).bind
      fun st' => vPhases enum fuel ts st'

/-- Bound on the number of rounds of one phase used to run the model. -/
def vrrFuel (q : List Qrt) : ℕ := (q.map fun x => x.am.toNat).foldr max 0 + 1

/-! ## Auxiliary orders -/

/-- `vrrmreq_max_`. -/
abbrev MReq := QAM → Option ℤ

/-- `vrrmreq_max_[a] = std::max(m, vrrmreq_max_[a])` (a missing entry is created as 0),
OSTEI_VRR_Algorithm_Base.cpp:375, 380. -/
def mreqMax (f : MReq) (a : QAM) (m : ℤ) : MReq :=
  fun b => if b = a then some (max m ((f a).getD 0)) else f b

/-- One pass of the loop body, OSTEI_VRR_Algorithm_Base.cpp:373-382.  All eight sources count,
valid or not. -/
def mreqStep (f : MReq) (s : VStep) : MReq :=
  (List.ofFn s.src).foldl (fun f q => mreqMax f q.am4 q.m) (mreqMax f s.target.am4 s.target.m)

/-- `vrrmreq_max_` after `Create_WithOrder`, OSTEI_VRR_Algorithm_Base.cpp:362-386. -/
def mreqAll (steps : List VStep) : MReq :=
  steps.foldl mreqStep fun b => if b = ssss then some 0 else none

/-- The step with `m` moved to the zero order, OSTEI_VRR_Algorithm_Base.cpp:377-382. -/
def VStep.norm (s : VStep) : VStep :=
  { s with
    target := { s.target with m := 0 }
    src := fun i => { s.src i with m := (s.src i).m - s.target.m } }

/-- Contents of `vrrmap_`, all classes together. -/
def vrrMapAll (steps : List VStep) : List VStep :=
  steps.foldl (fun l s => vInsert s.norm l) []

/-! ## Class order -/

/-- `ValidQAM`, generator/Types.cpp:104-110. -/
def QAM.valid (a : QAM) : Bool := decide (0 ≤ a.a ∧ 0 ≤ a.b ∧ 0 ≤ a.c ∧ 0 ≤ a.d)

/-- `GenerateAMReq(am, rrstep, true)`, OSTEI_VRR_Algorithm_Base.cpp:482-514. -/
def vAMReqAll (q : QAM) : RRType → List QAM
  | .I => [⟨q.a - 1, q.b, q.c, q.d, ""⟩, ⟨q.a - 2, q.b, q.c, q.d, ""⟩,
      ⟨q.a - 1, q.b - 1, q.c, q.d, ""⟩, ⟨q.a - 1, q.b, q.c - 1, q.d, ""⟩,
      ⟨q.a - 1, q.b, q.c, q.d - 1, ""⟩]
  | .J => [⟨q.a, q.b - 1, q.c, q.d, ""⟩, ⟨q.a - 1, q.b - 1, q.c, q.d, ""⟩,
      ⟨q.a, q.b - 2, q.c, q.d, ""⟩, ⟨q.a, q.b - 1, q.c - 1, q.d, ""⟩,
      ⟨q.a, q.b - 1, q.c, q.d - 1, ""⟩]
  | .K => [⟨q.a, q.b, q.c - 1, q.d, ""⟩, ⟨q.a, q.b, q.c - 2, q.d, ""⟩,
      ⟨q.a, q.b, q.c - 1, q.d - 1, ""⟩, ⟨q.a - 1, q.b, q.c - 1, q.d, ""⟩,
      ⟨q.a, q.b - 1, q.c - 1, q.d, ""⟩]
  | .L => [⟨q.a, q.b, q.c, q.d - 1, ""⟩, ⟨q.a, q.b, q.c - 1, q.d - 1, ""⟩,
      ⟨q.a, q.b, q.c, q.d - 2, ""⟩, ⟨q.a - 1, q.b, q.c, q.d - 1, ""⟩,
      ⟨q.a, q.b - 1, q.c, q.d - 1, ""⟩]

/-- `GenerateAMReq(am, rrstep)`: invalid classes removed, 516-530. -/
def vAMReq (q : QAM) (ty : RRType) : List QAM := (vAMReqAll q ty).filter QAM.valid

/-- What `Create_WithOrder` stores. -/
structure VRRAlgo where
  steps : List VStep       -- `vrrmap_`, all classes together
  allam : List QAM
  mreq : MReq
  order : List QAM
  rest : List Qrt          -- targets left when the index order is exhausted (not stored)

/-- `GetSteps(am)`, OSTEI_VRR_Algorithm_Base.cpp:40-43. -/
def vStepsFor (steps : List VStep) (a : QAM) : List VStep := steps.filter fun s => s.target.am4 = a

/-- `GetRRStep(am)`: type of the first step of the class, OSTEI_VRR_Algorithm_Base.cpp:24-28. -/
def vType (steps : List VStep) (a : QAM) : Option RRType := ((vStepsFor steps a).head?).map VStep.type

/-- `AMOrder_AddWithDependencies_`, OSTEI_VRR_Algorithm_Base.cpp:212-230. `none`: no step stored
for a class that is not skipped, or fuel exhausted. -/
def vOrderAdd (steps : List VStep) (allam : List QAM) :
    ℕ → List QAM → QAM → Option (List QAM)
  | 0, _, _ => none
  | f + 1, order, am =>
    if am ∈ order then some order
    else if am ∉ allam ∨ am = ssss then some order
    else (vType steps am).bind fun ty =>
      ((vAMReq am ty).foldlM (fun o r => vOrderAdd steps allam f o r) order).map
        fun o => o ++ [am]

/-- `Create_WithOrder`, OSTEI_VRR_Algorithm_Base.cpp:289-446. -/
def vrrCreate (enum : List Qrt → List Qrt) (ts : List RRType) (q : List Qrt) : Option VRRAlgo :=
  (vPhases enum (vrrFuel q) ts { targets := vPrune q, steps := [], solved := [] }).bind fun st =>
    let steps := vrrMapAll st.steps
    let allam := ssss :: st.solved.map Qrt.am4
    ((enum q).foldlM (fun o x => vOrderAdd steps allam (vrrFuel q) o x.am4) []).map fun order =>
      { steps := steps, allam := allam, mreq := mreqAll st.steps, order := order
        rest := st.targets }

/-- `idx_order` of `Create(q)`, OSTEI_VRR_Algorithm_Base.cpp:449-469: the centers, reversed, in
increasing order of the largest AM asked for (stable insertion sort). -/
def vrrDirections (q : List Qrt) : List RRType :=
  let mx := fun t : RRType => (q.map fun x => x.am4.get t).foldl max 0
  [RRType.L, .K, .J, .I].mergeSort fun i j => decide (mx i ≤ mx j)

/-- The components of the requested classes, as built for the classes that the horizontal stage
asks for, OSTEI_HRR_Algorithm_Base.cpp:275-280. -/
def classTargets (ord : ℕ → List Exp) (ams : List QAM) : List Qrt :=
  ams.flatMap fun q => quartetTargets ord q.a.toNat q.b.toNat q.c.toNat q.d.toNat

/-- `HasVRROfType`, OSTEI_VRR_Algorithm_Base.cpp:168-180. -/
def VRRAlgo.has (A : VRRAlgo) (t : RRType) : Bool := A.steps.any fun s => decide (s.type = t)

/-! ## Constants -/

/-- `qamint_2p_` entries of a step, OSTEI_VRR_Algorithm_Base.cpp:407-438. -/
def ints2p (s : VStep) : List ℤ :=
  if s.type = .I ∨ s.type = .J then
    (if (s.src 2).Valid ∨ (s.src 3).Valid then [s.ijkl .I] else []) ++
    (if (s.src 4).Valid ∨ (s.src 5).Valid then [s.ijkl .J] else [])
  else []

def ints2q (s : VStep) : List ℤ :=
  if s.type = .I ∨ s.type = .J then []
  else
    (if (s.src 2).Valid ∨ (s.src 3).Valid then [s.ijkl .K] else []) ++
    (if (s.src 4).Valid ∨ (s.src 5).Valid then [s.ijkl .L] else [])

def ints2pq (s : VStep) : List ℤ :=
  if s.type = .I ∨ s.type = .J then
    (if (s.src 6).Valid then [s.ijkl .K] else []) ++ (if (s.src 7).Valid then [s.ijkl .L] else [])
  else
    (if (s.src 6).Valid then [s.ijkl .I] else []) ++ (if (s.src 7).Valid then [s.ijkl .J] else [])

/-- `maxint_`, OSTEI_VRR_Algorithm_Base.cpp:394-405. -/
def vrrMaxInt (steps : List VStep) : ℤ :=
  steps.foldl (fun m s => max (s.ijkl .L) (max (s.ijkl .K) (max (s.ijkl .J) (max (s.ijkl .I) m)))) 0

/-- Constants in scope of a piece of vertical code: `vrr_const_<i>_over_2p` etc.; `lit i` says that
the right-hand side of the declaration of constant `i` is itself declared. -/
structure Decl where
  d2p : List ℤ
  d2q : List ℤ
  d2pq : List ℤ
  lit : ℤ → Bool
  /-- the constant of 1 is the factor itself, without a product -/
  one : Bool

/-- Constants declared by `WriteVRR` (OSTEI_VRR_Writer.cpp:150-173) with the plain numbers of
`GetConstants` (133-139). -/
def inlineDecl (steps : List VStep) : Decl where
  d2p := steps.flatMap ints2p
  d2q := steps.flatMap ints2q
  d2pq := steps.flatMap ints2pq
  lit := fun i => decide (1 ≤ i ∧ i ≤ vrrMaxInt steps)
  one := true

/-- Constants declared in the file of an external routine for a class,
OSTEI_VRR_Writer.cpp:361-370 (`SIMINT_DBLSET1(i)` needs nothing else). -/
def externDecl (steps : List VStep) (a : QAM) : Decl where
  d2p := (vStepsFor steps a).flatMap ints2p
  d2q := (vStepsFor steps a).flatMap ints2q
  d2pq := (vStepsFor steps a).flatMap ints2pq
  lit := fun _ => true
  one := false

/-! ## Emitted statements and their execution -/

/-- Arithmetic of the vertical stage: `SIMINT_MUL`, `SIMINT_FMADD`, `SIMINT_DBLSET1` of an integer
(vectorization.h). -/
class VOps (F : Type) where
  mul : F → F → F
  fma : F → F → F → F
  int : ℤ → F
  zero : F

/-- Exact arithmetic. -/
instance (priority := low) VOps.ring {F : Type} [CommRing F] : VOps F where
  mul := fun a b => a * b
  fma := fun a b c => a * b + c
  int := fun i => (i : F)
  zero := 0

/-- Variables of the primitive loop used by the vertical stage. -/
structure VPar (F : Type) where
  PA : Dir → F
  PB : Dir → F
  QA : Dir → F
  QB : Dir → F
  aopPQ : Dir → F
  aoqPQ : Dir → F
  aop : F
  aoq : F
  o2p : F
  o2q : F
  o2pq : F

/-- `P_PA`, `P_PB`, `Q_PA` or `Q_PB`, OSTEI_VRR_Writer.cpp:91-108. -/
def VPar.pa {F : Type} (P : VPar F) : RRType → Dir → F
  | .I => P.PA
  | .J => P.PB
  | .K => P.QA
  | .L => P.QB

def RRType.isBra : RRType → Bool
  | .I => true
  | .J => true
  | .K => false
  | .L => false

def VPar.apq {F : Type} (P : VPar F) (t : RRType) : Dir → F := if t.isBra then P.aopPQ else P.aoqPQ
def VPar.ao {F : Type} (P : VPar F) (t : RRType) : F := if t.isBra then P.aop else P.aoq
def VPar.o2 {F : Type} (P : VPar F) (t : RRType) : F := if t.isBra then P.o2p else P.o2q

/-- A source operand `PRIM_INT__...[(n + off) * nc + i]`. -/
structure VRef where
  q : QAM
  nc : ℕ
  i : ℕ

/-- One emitted block of assignments to `PRIM_INT__tq[n * nc + ti]`. -/
structure VStmt where
  type : RRType
  xyz : Dir
  tq : QAM
  ti : ℕ
  src : Fin 8 → Option VRef
  c0 : ℤ
  c1 : ℤ
  c2 : ℤ
  c3 : ℤ

/-- `srcname[i]`, OSTEI_VRR_Writer.cpp:53-68. -/
def vRef (ord : ℕ → List Exp) (q : Qrt) : Option VRef :=
  if q.Valid then some ⟨q.am4, q.ncart, q.index ord⟩ else none

/-- `WriteVRRSteps_`, OSTEI_VRR_Writer.cpp:44-126; names of the constants as in 75-88. -/
def vStmt (ord : ℕ → List Exp) (am : QAM) (s : VStep) : VStmt where
  type := s.type
  xyz := s.xyz
  tq := am
  ti := s.target.index ord
  src := fun i => vRef ord (s.src i)
  c0 := if s.type.isBra then s.ijkl .I else s.ijkl .K
  c1 := if s.type.isBra then s.ijkl .J else s.ijkl .L
  c2 := if s.type.isBra then s.ijkl .K else s.ijkl .I
  c3 := if s.type.isBra then s.ijkl .L else s.ijkl .J

/-- Value of `vrr_const_<i>_over_2x` with `x` the common factor; `none` if not declared. -/
def constVal {F : Type} [VOps F] (decl : List ℤ) (D : Decl) (x : F) (i : ℤ) : Option F :=
  if i ∈ decl then
    if D.one ∧ i = 1 then some x
    else if D.lit i then some (VOps.mul (VOps.int i) x) else none
  else none

/-- Memory of the vertical stage: one array per class; contents arbitrary. -/
abbrev VMem (F : Type) := QAM → ℕ → F

/-- Elements of the array of a class: `(GetMReq(am)+1) * NCART(am)`
(OSTEI_Writer.cpp:257-262). -/
def vSize (mr : MReq) (q : QAM) : ℕ :=
  match mr q with
  | some m => (m + 1).toNat * ncartQ q
  | none => 0

def vread {F : Type} (mr : MReq) (m : VMem F) (q : QAM) (i : ℕ) : Option F :=
  if i < vSize mr q then some (m q i) else none

def vwrite {F : Type} (mr : MReq) (m : VMem F) (q : QAM) (i : ℕ) (v : F) : Option (VMem F) :=
  if i < vSize mr q then some (fun q' i' => if q' = q ∧ i' = i then v else m q' i') else none

section
variable {F : Type} [VOps F]

/-- Read `srcname` at order `n`. -/
def VRef.get (rd : QAM → ℕ → Option F) (n : ℕ) (r : VRef) : Option F := rd r.q (n * r.nc + r.i)

/-- `prim = FMADD(c, src, prim)` if the source exists, OSTEI_VRR_Writer.cpp:110-111, 116-119. -/
def fmaOne (rd : QAM → ℕ → Option F) (n : ℕ) (c : Option F) (r : Option VRef) (t : F) : Option F :=
  match r with
  | none => some t
  | some r => c.bind fun c => (r.get rd n).map fun v => VOps.fma c v t

/-- `prim = FMADD(c, FMADD(aover, src[i+1], src[i]), prim)` if both exist,
OSTEI_VRR_Writer.cpp:112-115. -/
def fmaTwo (rd : QAM → ℕ → Option F) (n : ℕ) (c : Option F) (ao : F) (r r' : Option VRef) (t : F) :
    Option F :=
  match r, r' with
  | some r, some r' => c.bind fun c => (r.get rd n).bind fun v => (r'.get rd (n + 1)).map fun v' =>
      VOps.fma c (VOps.fma ao v' v) t
  | _, _ => some t

/-- Value stored by one block of assignments at order `n` (the intermediate stores to the same
element are folded into the last one). -/
def VStmt.value (P : VPar F) (D : Decl) (rd : QAM → ℕ → Option F) (n : ℕ) (s : VStmt) : Option F :=
  let k2 := if s.type.isBra then constVal D.d2p D P.o2p else constVal D.d2q D P.o2q
  let kpq := constVal D.d2pq D P.o2pq
  ((s.src 0).bind fun r => (r.get rd n).map fun v => VOps.mul (P.pa s.type s.xyz) v).bind fun t =>
  (fmaOne rd (n + 1) (some (P.apq s.type s.xyz)) (s.src 1) t).bind fun t =>
  (fmaTwo rd n (k2 s.c0) (P.ao s.type) (s.src 2) (s.src 3) t).bind fun t =>
  (fmaTwo rd n (k2 s.c1) (P.ao s.type) (s.src 4) (s.src 5) t).bind fun t =>
  (fmaOne rd (n + 1) (kpq s.c2) (s.src 6) t).bind fun t =>
  fmaOne rd (n + 1) (kpq s.c3) (s.src 7) t

/-- One block at order `n`. -/
def VStmt.exec (mr : MReq) (P : VPar F) (D : Decl) (n : ℕ) (s : VStmt) (m : VMem F) :
    Option (VMem F) :=
  (s.value P D (vread mr m) n).bind fun v => vwrite mr m s.tq (n * ncartQ s.tq + s.ti) v

def vExecAll (mr : MReq) (P : VPar F) (D : Decl) (n : ℕ) : List VStmt → VMem F → Option (VMem F)
  | [], m => some m
  | s :: ss, m => (s.exec mr P D n m).bind fun m' => vExecAll mr P D n ss m'

/-- `for(n = 0; n < num_n; ++n) { steps }`. -/
def vExecLoop (mr : MReq) (P : VPar F) (D : Decl) (ss : List VStmt) :
    List ℕ → VMem F → Option (VMem F)
  | [], m => some m
  | n :: ns, m => (vExecAll mr P D n ss m).bind fun m' => vExecLoop mr P D ss ns m'

/-- `WriteVRR_Inline_`, OSTEI_VRR_Writer.cpp:197-201. -/
def vRunInline (ord : ℕ → List Exp) (A : VRRAlgo) (P : VPar F) (am : QAM) (m : VMem F) :
    Option (VMem F) :=
  (A.mreq am).bind fun mm =>
    vExecLoop A.mreq P (inlineDecl A.steps) ((vStepsFor A.steps am).map (vStmt ord am))
      (List.range (mm + 1).toNat) m

/-- `WriteVRR`, OSTEI_VRR_Writer.cpp:177-193, all classes inline. -/
def vRunAll (ord : ℕ → List Exp) (A : VRRAlgo) (P : VPar F) : List QAM → VMem F → Option (VMem F)
  | [], m => some m
  | am :: l, m =>
    if am = ssss then vRunAll ord A P l m
    else (vRunInline ord A P am m).bind fun m' => vRunAll ord A P l m'

end

end Simint
