import Verif.Types

/-!
# Horizontal recurrence: search, ordering, emitted statements (model)

`generator/ostei/Makowski.hpp` (class `Makowski_HRR`),
`generator/ostei/OSTEI_HRR_Algorithm_Base.cpp`, `generator/ostei/OSTEI_HRR_Writer.cpp`.

Iteration over a `std::set` is modelled by an arbitrary enumeration `enum` of a duplicate-free
list; the theorems hold for every enumeration that visits exactly the members, in particular for
the `operator<` order (which C05 shows to be a strict total order).
-/

namespace Simint

/-- `RRStepType`, generator/Types.hpp:160-166. -/
inductive RRType | I | J | K | L
  deriving DecidableEq, Repr

/-- Does the step raise the left center (`I` or `K`)? -/
def RRType.isLeft : RRType → Bool
  | .I => true
  | .K => true
  | .J => false
  | .L => false

/-- `set.insert` -/
def sins {α : Type} [DecidableEq α] (x : α) (l : List α) : List α := if x ∈ l then l else x :: l

/-- `HRRDoubletStep`, generator/ostei/OSTEI_Types.hpp. -/
structure HRRStep where
  type : RRType
  target : Dbl
  src0 : Dbl
  src1 : Dbl
  xyz : Dir
  deriving DecidableEq

/-- The center whose exponent is lowered. -/
def Dbl.stepped (ty : RRType) (d : Dbl) : Exp := if ty.isLeft then d.left else d.right

/-- `Doublet::amlist` without tag, generator/Types.hpp:396. -/
def Dbl.am2 (d : Dbl) : ℤ × ℤ := (d.left.am, d.right.am)

/-- The number of the pair that belongs to the stepped center. -/
def steppedAM (ty : RRType) (p : ℤ × ℤ) : ℤ := if ty.isLeft then p.1 else p.2

/-- `Makowski_HRR::DoubletStep_`, generator/ostei/Makowski.hpp:26-82.
`none`: the exception for an s doublet or the dereference of `end()`. -/
def doubletStep (ty : RRType) (d : Dbl) : Option HRRStep :=
  if d.left.am + d.right.am = 0 then none
  else
    let t := if ty.isLeft then d.left else d.right
    let t2 := if ty.isLeft then d.right else d.left
    (makDir t).map fun idx =>
      let common := t.step idx (-1)
      let src1g := t2.step idx 1
      if ty.isLeft then
        { type := ty, target := d, src0 := ⟨common, src1g⟩, src1 := ⟨common, d.right⟩, xyz := idx }
      else
        { type := ty, target := d, src0 := ⟨src1g, common⟩, src1 := ⟨d.left, common⟩, xyz := idx }

/-- `PruneDoublets_` (the kept ones), OSTEI_HRR_Algorithm_Base.cpp:19-42. -/
def pruneKeep (ty : RRType) (l : List Dbl) : List Dbl :=
  l.filter fun d => decide ((d.stepped ty).Valid ∧ (d.stepped ty).am ≠ 0)

/-- `PruneDoublets_` (the pruned ones), OSTEI_HRR_Algorithm_Base.cpp:29-30, 36-37. -/
def pruneDrop (ty : RRType) (l : List Dbl) : List Dbl :=
  l.filter fun d => decide (¬ ((d.stepped ty).Valid ∧ (d.stepped ty).am ≠ 0) ∧ d.Valid)

/-- Loop-carried data of `HRRDoubletLoop_`. -/
structure LoopSt where
  steps : List HRRStep
  newt : List Dbl
  solved : List Dbl

/-- Body of the inner `for`, OSTEI_HRR_Algorithm_Base.cpp:116-132. -/
def loopBody (ty : RRType) (st : LoopSt) (t : Dbl) : Option LoopSt :=
  if t ∈ st.solved then some st
  else (doubletStep ty t).map fun hrr =>
    let n1 := if hrr.src0 ∈ st.solved then st.newt else sins hrr.src0 st.newt
    let n2 := if hrr.src1 ∈ st.solved then n1 else sins hrr.src1 n1
    { steps := st.steps ++ [hrr], newt := n2, solved := sins t st.solved }

/-- The inner `for`. -/
def loopRound (ty : RRType) : List Dbl → LoopSt → Option LoopSt
  | [], st => some st
  | t :: ts, st => (loopBody ty st t).bind fun st' => loopRound ty ts st'

/-- `HRRDoubletLoop_`, OSTEI_HRR_Algorithm_Base.cpp:104-145; `none` also if the fuel runs out.
Returns the step list, solved doublets and pruned doublets. -/
def doubletLoop (ty : RRType) (enum : List Dbl → List Dbl) :
    ℕ → List Dbl → List HRRStep → List Dbl → List Dbl →
      Option (List HRRStep × List Dbl × List Dbl)
  | f, targets, steps, solved, pruned =>
    if targets = [] then some (steps, solved, pruned)
    else
      match f with
      | 0 => none
      | f + 1 =>
        (loopRound ty (enum targets) { steps := steps, newt := [], solved := solved }).bind
          fun st =>
            doubletLoop ty enum f (pruneKeep ty st.newt) st.steps st.solved
              (pruneDrop ty st.newt ++ pruned)

/-- AM quadruple with a string tag. -/
abbrev QAM := TQAM String

def QAM.bra (q : QAM) : ℤ × ℤ := (q.a, q.b)
def QAM.ket (q : QAM) : ℤ × ℤ := (q.c, q.d)

/-- `ValidQAM`, generator/Types.cpp:104-110. -/
def QAM.Valid (q : QAM) : Prop := 0 ≤ q.a ∧ 0 ≤ q.b ∧ 0 ≤ q.c ∧ 0 ≤ q.d

/-- `NCART(QAM)`, generator/Ncart.hpp:45-53. -/
def ncartQ (q : QAM) : ℕ := ncart q.a * ncart q.b * (ncart q.c * ncart q.d)

/-- What `Create` stores for one side (bra or ket). -/
structure Side where
  type : RRType
  steps : List HRRStep     -- in emission order (after `std::reverse`)
  solved : List Dbl

/-- `GetBraSteps` / `GetKetSteps`, OSTEI_HRR_Algorithm_Base.cpp:315-329, with the grouping by
AM of lines 205-210 and 248-253. -/
def Side.stepsFor (s : Side) (p : ℤ × ℤ) : List HRRStep := s.steps.filter fun h => h.target.am2 = p

/-- `GetBraAMReq` / `GetKetAMReq`, OSTEI_HRR_Algorithm_Base.cpp:305-313 and 208-209, 251-252. -/
def Side.req (s : Side) (p : ℤ × ℤ) : List (ℤ × ℤ) :=
  ((s.stepsFor p).flatMap fun h => [h.src0.am2, h.src1.am2]).dedup

/-- `allbraam_` / `allketam_`, OSTEI_HRR_Algorithm_Base.cpp:267-270. -/
def Side.allam (s : Side) : List (ℤ × ℤ) := s.solved.map Dbl.am2

/-- One side of `Create`, OSTEI_HRR_Algorithm_Base.cpp:183-210 (ket) and 225-253 (bra):
collect targets, prune, loop, reverse. -/
def createSide (ord : ℕ → List Exp) (enum : List Dbl → List Dbl) (fuel : ℕ) (ty : RRType)
    (ams : List (ℤ × ℤ)) : Option Side :=
  let init := (ams.flatMap fun p => doubletTargets ord p.1.toNat p.2.toNat).dedup
  (doubletLoop ty enum fuel (pruneKeep ty init) [] [] (pruneDrop ty init)).map fun r =>
    { type := ty, steps := r.1.reverse, solved := r.2.1 }

/-- Quartets a class is formed from, OSTEI_HRR_Algorithm_Base.cpp:69-86 ("prefer ket first"). -/
def deps (bra ket : Side) (q : QAM) : List QAM :=
  if q.ket ∈ ket.allam then (ket.req q.ket).map fun p => ⟨q.a, q.b, p.1, p.2, q.tag⟩
  else (bra.req q.bra).map fun p => ⟨p.1, p.2, q.c, q.d, q.tag⟩

/-- "not done by HRR", OSTEI_HRR_Algorithm_Base.cpp:62. -/
def isTop (bra ket : Side) (q : QAM) : Bool := decide (q.bra ∉ bra.allam ∧ q.ket ∉ ket.allam)

/-- `smap[iam]`, OSTEI_HRR_Algorithm_Base.cpp:73, 82. -/
def stepSide (ket : Side) (q : QAM) : DType := if q.ket ∈ ket.allam then .ket else .bra

/-- `std::map` assignment `smap[k] = v`. -/
def mapSet {α β : Type} [DecidableEq α] (k : α) (v : β) (m : List (α × β)) : List (α × β) :=
  (k, v) :: m.filter (fun e => e.1 ≠ k)

structure OrderSt where
  order : List QAM
  top : List QAM
  smap : List (QAM × DType)

structure ScanSt where
  top : List QAM
  smap : List (QAM × DType)
  qnew : List QAM
  done : List QAM

/-- Body of the first loop of `AMOrder_AddWithDependencies_`,
OSTEI_HRR_Algorithm_Base.cpp:52-89. -/
def scanBody (bra ket : Side) (order : List QAM) (st : ScanSt) (q : QAM) : ScanSt :=
  if q ∈ order then st
  else if isTop bra ket q then { st with top := sins q st.top }
  else
    { top := st.top
      smap := mapSet q (stepSide ket q) st.smap
      qnew := (deps bra ket q).foldl (fun l x => sins x l) st.qnew
      done := sins q st.done }

/-- Last loop of `AMOrder_AddWithDependencies_`, OSTEI_HRR_Algorithm_Base.cpp:95-99. -/
def pushAll : List QAM → List QAM → List QAM
  | [], order => order
  | q :: qs, order => pushAll qs (if q ∈ order then order else order ++ [q])

/-- `AMOrder_AddWithDependencies_`, OSTEI_HRR_Algorithm_Base.cpp:44-100.
`none`: recursion fuel exhausted. -/
def amOrderAdd (bra ket : Side) (enum : List QAM → List QAM) :
    ℕ → OrderSt → List QAM → Option OrderSt
  | 0, _, _ => none
  | f + 1, st, ams =>
    let sc := (enum ams).foldl (scanBody bra ket st.order)
      { top := st.top, smap := st.smap, qnew := [], done := [] }
    let st1 : OrderSt := { order := st.order, top := sc.top, smap := sc.smap }
    (if sc.qnew = [] then some st1 else amOrderAdd bra ket enum f st1 sc.qnew).map fun st2 =>
      { st2 with order := pushAll (enum sc.done) st2.order }

/-- Result of `OSTEI_HRR_Algorithm_Base::Create`. -/
structure HRRAlgo where
  bra : Side
  ket : Side
  order : List QAM
  top : List QAM
  smap : List (QAM × DType)

/-- `HasHRR`, OSTEI_HRR_Algorithm_Base.cpp:331-344: some step was recorded. -/
def HRRAlgo.hasHRR (A : HRRAlgo) : Bool := decide (A.bra.steps ≠ [] ∨ A.ket.steps ≠ [])

/-- Bound on loop rounds and recursion depth used to run the model. -/
def hrrFuel (ams : List QAM) : ℕ :=
  (ams.map fun q => q.a.toNat + q.b.toNat + q.c.toNat + q.d.toNat).foldr max 0 + 1

/-- `Create(set<QAM>, RRStepType, RRStepType)`, OSTEI_HRR_Algorithm_Base.cpp:178-283. -/
def hrrCreate (ord : ℕ → List Exp) (enumD : List Dbl → List Dbl) (enumQ : List QAM → List QAM)
    (bty kty : RRType) (ams : List QAM) : Option HRRAlgo :=
  (createSide ord enumD (hrrFuel ams) kty (ams.map QAM.ket)).bind fun ket =>
  (createSide ord enumD (hrrFuel ams) bty (ams.map QAM.bra)).bind fun bra =>
  (amOrderAdd bra ket enumQ (hrrFuel ams) ⟨[], [], []⟩ ams).map fun st =>
    { bra := bra, ket := ket, order := st.order, top := st.top, smap := st.smap }

/-- Direction choice of `Create(set<QAM>)`, OSTEI_HRR_Algorithm_Base.cpp:160-175, from the highest
AM of the set. -/
def hrrDirections (highest : QAM) : RRType × RRType :=
  (if highest.a < highest.b then .I else .J, if highest.c < highest.d then .K else .L)

/-! ## Emitted statements and their execution -/

/-- Memory of the horizontal stage: one array per class (`HRR_INT__...`).  Contents are
arbitrary; only accesses below `ncartQ` are legal. -/
abbrev HMem (R : Type) := QAM → ℕ → R

def hread {R : Type} (m : HMem R) (q : QAM) (i : ℕ) : Option R :=
  if i < ncartQ q then some (m q i) else none

def hwrite {R : Type} (m : HMem R) (q : QAM) (i : ℕ) (v : R) : Option (HMem R) :=
  if i < ncartQ q then
    some (fun q' i' => if q' = q ∧ i' = i then v else m q' i')
  else none

/-- One emitted assignment `T[ti] = S0[i0] ± ( h[xyz] * S1[i1] );` -/
structure HStmt where
  tq : QAM
  ti : ℕ
  q0 : QAM
  i0 : ℕ
  q1 : QAM
  i1 : ℕ
  minus : Bool
  xyz : Dir

/-- Execution of one line, `op` being the operation on doubles: `op s v0 v1` is
`v0 - h[xyz] * v1` or `v0 + h[xyz] * v1`. -/
def HStmt.execOp {R : Type} (op : HStmt → R → R → R) (s : HStmt) (m : HMem R) :
    Option (HMem R) :=
  (hread m s.q0 s.i0).bind fun v0 => (hread m s.q1 s.i1).bind fun v1 =>
    hwrite m s.tq s.ti (op s v0 v1)

def execAllOp {R : Type} (op : HStmt → R → R → R) : List HStmt → HMem R → Option (HMem R)
  | [], m => some m
  | s :: ss, m => (s.execOp op m).bind fun m' => execAllOp op ss m'

/-- The operation without rounding. -/
def ringOp {R : Type} [CommRing R] (h : Dir → R) (s : HStmt) (v0 v1 : R) : R :=
  if s.minus then v0 - h s.xyz * v1 else v0 + h s.xyz * v1

def HStmt.exec {R : Type} [CommRing R] (h : Dir → R) (s : HStmt) (m : HMem R) : Option (HMem R) :=
  s.execOp (ringOp h) m

def execAll {R : Type} [CommRing R] (h : Dir → R) (l : List HStmt) (m : HMem R) :
    Option (HMem R) :=
  execAllOp (ringOp h) l m

/-- One line of `WriteBraSteps_`, OSTEI_HRR_Writer.cpp:29-55, with the index form of
`HRRBraStepVar_` (104-109). -/
def braStmt (ord : ℕ → List Exp) (q : QAM) (iket : ℕ) (s : HRRStep) : HStmt :=
  let nk := ncart q.c * ncart q.d
  let name := fun (d : Dbl) => (⟨d.left.am, d.right.am, q.c, q.d, q.tag⟩ : QAM)
  { tq := name s.target, ti := s.target.index ord * nk + iket
    q0 := name s.src0, i0 := s.src0.index ord * nk + iket
    q1 := name s.src1, i1 := s.src1.index ord * nk + iket
    minus := s.type = .I, xyz := s.xyz }

/-- One line of `WriteKetSteps_`, OSTEI_HRR_Writer.cpp:71-97, with the index form of
`HRRKetStepVar_` (112-116). -/
def ketStmt (ord : ℕ → List Exp) (q : QAM) (ibra : ℕ) (s : HRRStep) : HStmt :=
  let name := fun (d : Dbl) => (⟨q.a, q.b, d.left.am, d.right.am, q.tag⟩ : QAM)
  { tq := name s.target, ti := ibra * s.target.ncart + s.target.index ord
    q0 := name s.src0, i0 := ibra * s.src0.ncart + s.src0.index ord
    q1 := name s.src1, i1 := ibra * s.src1.ncart + s.src1.index ord
    minus := s.type = .K, xyz := s.xyz }

/-- `WriteBraSteps_`: `for(iket = 0; iket < ncart_ket; ++iket) { steps }`. -/
def braStmts (ord : ℕ → List Exp) (q : QAM) (steps : List HRRStep) : List HStmt :=
  (List.range (ncart q.c * ncart q.d)).flatMap fun iket => steps.map (braStmt ord q iket)

/-- `WriteKetSteps_`: `for(ibra = 0; ibra < ncart_bra; ++ibra) { steps }`. -/
def ketStmts (ord : ℕ → List Exp) (q : QAM) (steps : List HRRStep) : List HStmt :=
  (List.range (ncart q.a * ncart q.b)).flatMap fun ibra => steps.map (ketStmt ord q ibra)

/-- The step lists used for each class: inline code uses the needed steps
(`WriteHRR_Bra_Inline_`, OSTEI_HRR_Writer.cpp:183-195), an external routine the steps of its own
file (`WriteHRRFile`, 275-434). -/
structure StepChoice where
  bra : ℤ × ℤ → List HRRStep
  ket : ℤ × ℤ → List HRRStep

/-- Inline everywhere. -/
def HRRAlgo.inline (A : HRRAlgo) : StepChoice := ⟨A.bra.stepsFor, A.ket.stepsFor⟩

/-- `stepmap_.at(am)`. -/
def HRRAlgo.getStep (A : HRRAlgo) (q : QAM) : Option DType :=
  (A.smap.find? fun e => e.1 = q).map Prod.snd

/-- One class, OSTEI_HRR_Writer.cpp:148-179: bra or ket step according to the map. -/
def runClassOp {R : Type} (ord : ℕ → List Exp) (A : HRRAlgo) (C : StepChoice)
    (opB opK : HStmt → R → R → R) (q : QAM) (m : HMem R) : Option (HMem R) :=
  (A.getStep q).bind fun ty =>
    match ty with
    | .bra => execAllOp opB (braStmts ord q (C.bra q.bra)) m
    | .ket => execAllOp opK (ketStmts ord q (C.ket q.ket)) m

/-- `WriteHRR`, the body of the `abcd` loop, OSTEI_HRR_Writer.cpp:146-179: classes in AM order. -/
def runHRROp {R : Type} (ord : ℕ → List Exp) (A : HRRAlgo) (C : StepChoice)
    (opB opK : HStmt → R → R → R) : List QAM → HMem R → Option (HMem R)
  | [], m => some m
  | q :: qs, m => (runClassOp ord A C opB opK q m).bind fun m' => runHRROp ord A C opB opK qs m'

def runClass {R : Type} [CommRing R] (ord : ℕ → List Exp) (A : HRRAlgo) (C : StepChoice)
    (hAB hCD : Dir → R) (q : QAM) (m : HMem R) : Option (HMem R) :=
  runClassOp ord A C (ringOp hAB) (ringOp hCD) q m

def runHRR {R : Type} [CommRing R] (ord : ℕ → List Exp) (A : HRRAlgo) (C : StepChoice)
    (hAB hCD : Dir → R) (l : List QAM) (m : HMem R) : Option (HMem R) :=
  runHRROp ord A C (ringOp hAB) (ringOp hCD) l m

end Simint
