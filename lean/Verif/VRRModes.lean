import Verif.VRR
import Verif.GeneralHRR

/-!
# Vertical stage: external routines and generic run-time routines (model)

`generator/ostei/ostei_vrr_generator.cpp`, `WriteVRR`, `WriteVRR_External_`, `WriteVRR_General_`,
`WriteVRRFile` (generator/ostei/OSTEI_VRR_Writer.cpp), `skel/simint/ostei/ostei_general_vrr.c`.
-/

set_option autoImplicit false

namespace Simint

/-! ## External routines -/

/-- Names that `GenerateVarReq` can insert. -/
inductive VName
  | PPA | PPB | QPA | QPB | aop | aoq | aopPQ | aoqPQ | o2p | o2pq | o2q
  deriving DecidableEq

/-- Spelling in the generated code. -/
def VName.str : VName → String
  | .PPA => "P_PA"
  | .PPB => "P_PB"
  | .QPA => "Q_PA"
  | .QPB => "Q_PB"
  | .aop => "a_over_p"
  | .aoq => "a_over_q"
  | .aopPQ => "aop_PQ"
  | .aoqPQ => "aoq_PQ"
  | .o2p => "one_over_2p"
  | .o2pq => "one_over_2pq"
  | .o2q => "one_over_2q"

/-- The names in the order of `std::set<std::string>`. -/
def varOrder : List VName :=
  [.PPA, .PPB, .QPA, .QPB, .aop, .aoq, .aopPQ, .aoqPQ, .o2p, .o2pq, .o2q]

/-- Validity of the `i`-th entry of `GenerateAMReq(am, rrstep, true)`. -/
def reqValid (am : QAM) (t : RRType) (i : ℕ) : Bool :=
  match (vAMReqAll am t)[i]? with
  | some q => q.valid
  | none => false

/-- The names inserted by `GenerateVarReq(am, rrstep)`, OSTEI_VRR_Algorithm_Base.cpp:570-617. -/
def varIns (am : QAM) (t : RRType) : List VName :=
  (if reqValid am t 0 then
    [match t with | .I => .PPA | .J => .PPB | .K => .QPA | .L => .QPB,
      if t.isBra then .aopPQ else .aoqPQ] else []) ++
  (if reqValid am t 1 || reqValid am t 2 then
    (if t.isBra then [.o2p, .aop] else [.o2q, .aoq]) else []) ++
  (if reqValid am t 3 || reqValid am t 4 then [.o2pq] else [])

/-- `GetVarReq(am)` in iteration order. -/
def varReq (am : QAM) (t : RRType) : List VName := varOrder.filter fun v => v ∈ varIns am t

/-- Binding of parameters to arguments by position. -/
def bindPos {α β : Type} [DecidableEq α] (ps : List α) (args : List β) (p : α) : Option β :=
  ((ps.zip args).find? fun x => x.1 = p).map Prod.snd

section
variable {F : Type} [VOps F]

/-- Scalars and 3-vectors by name; a scalar is a constant vector. -/
abbrev Env (F : Type) := VName → Dir → F

/-- Names of the caller (variables of the primitive loop). -/
def VPar.env (P : VPar F) : Env F
  | .PPA => P.PA
  | .PPB => P.PB
  | .QPA => P.QA
  | .QPB => P.QB
  | .aop => fun _ => P.aop
  | .aoq => fun _ => P.aoq
  | .aopPQ => P.aopPQ
  | .aoqPQ => P.aoqPQ
  | .o2p => fun _ => P.o2p
  | .o2pq => fun _ => P.o2pq
  | .o2q => fun _ => P.o2q

/-- Variables as the body of a routine sees them. -/
def Env.par (e : Env F) : VPar F where
  PA := e .PPA
  PB := e .PPB
  QA := e .QPA
  QB := e .QPB
  aopPQ := e .aopPQ
  aoqPQ := e .aoqPQ
  aop := e .aop .x
  aoq := e .aoq .x
  o2p := e .o2p .x
  o2q := e .o2q .x
  o2pq := e .o2pq .x

/-- Statement with array names replaced by what they are bound to; `none` if a name is not
bound. -/
def VStmt.ren (σ : QAM → Option QAM) (s : VStmt) : Option VStmt :=
  (σ s.tq).bind fun tq =>
    if ∀ i, ∀ r ∈ s.src i, (σ r.q).isSome then
      some { s with
        tq := tq
        src := fun i => (s.src i).map fun r => { r with q := (σ r.q).getD r.q } }
    else none

/-- `tocall`, OSTEI_VRR_Writer.cpp:383-387. -/
def toCall (am : QAM) : QAM :=
  let am1 := if am.a = 0 then { am with a := am.b, b := am.a } else am
  if am1.c = 0 then { am1 with c := am1.d, d := am1.c } else am1

/-- The step letter of the routine called, OSTEI_VRR_Writer.cpp:389-392. -/
def toCallStep : RRType → RRType
  | .I => .I
  | .J => .I
  | .K => .K
  | .L => .K

/-- The algorithm run for the file of routine `VRR_<t>_<am>`:
`Create_WithOrder(finalam, {t,-1,-1,-1})`, ostei_vrr_generator.cpp:38-60, 88-89. -/
def extAlgo (ord : ℕ → List Exp) (enum : List Qrt → List Qrt) (t : RRType) (am : QAM) :
    Option VRRAlgo :=
  vrrCreate enum [t] (quartetTargets ord am.a.toNat am.b.toNat am.c.toNat am.d.toNat)

/-- Statements executed one after the other at order `n`, names bound by `σ`. -/
def vBody1 (mr : MReq) (P : VPar F) (D : Decl) (σ : QAM → Option QAM) (ss : List VStmt)
    (num : ℕ) (m : VMem F) : Option (VMem F) :=
  (ss.mapM (VStmt.ren σ)).bind fun ss' => vExecLoop mr P D ss' (List.range num) m

/-- A call `VRR_<t>_<am>(args..., vargs..., num_n)`; body as written by `WriteVRRFile`,
OSTEI_VRR_Writer.cpp:317-415.  The first counter bounds the depth of calls.
The name of a scalar that is not a parameter is given the value 0 here. -/
def vCall (ord : ℕ → List Exp) (enum : List Qrt → List Qrt) (mr : MReq) :
    ℕ → RRType → QAM → List QAM → List (Dir → F) → ℕ → VMem F → Option (VMem F)
  | 0, _, _, _, _, _, _ => none
  | f + 1, t, am, args, vargs, num, m =>
    (extAlgo ord enum t am).bind fun A => (vType A.steps am).bind fun t' =>
      let ps := am :: vAMReq am t'
      let vs := varReq am t'
      let env : Env F := fun v => (bindPos vs vargs v).getD fun _ => VOps.zero
      if am.b = 0 ∧ am.d = 0 then
        vBody1 mr env.par (externDecl A.steps am) (bindPos ps args)
          ((vStepsFor A.steps am).map (vStmt ord am)) num m
      else
        (ps.mapM (bindPos ps args)).bind fun args' =>
          vCall ord enum mr f (toCallStep t') (toCall am) args' (vs.map env) num m

/-- `WriteVRR_External_`, OSTEI_VRR_Writer.cpp:204-228. -/
def vRunExternal (ord : ℕ → List Exp) (enum : List Qrt → List Qrt) (A : VRRAlgo) (P : VPar F)
    (am : QAM) (m : VMem F) : Option (VMem F) :=
  (vType A.steps am).bind fun t => (A.mreq am).bind fun mm =>
    vCall ord enum A.mreq 2 t am (am :: vAMReq am t) ((varReq am t).map P.env) (mm + 1).toNat m

end

/-! ## Generic routines -/

section
variable {F : Type} [VOps F]

/-- `NULL` or an array. -/
abbrev Ptr := Option QAM

/-- `theta[i]` -/
def pread (mr : MReq) (m : VMem F) (p : Ptr) (i : ℤ) : Option F :=
  p.bind fun q => if 0 ≤ i then vread mr m q i.toNat else none

def nc1 (i : ℕ) : ℕ := i * (i + 1) / 2
def nc2 (i : ℕ) : ℕ := (i - 1) * i / 2

/-- The index expressions of ostei_general_vrr.c, e.g. `n * ncart1 + idx_i_1 * ncart_j * ncart_k *
ncart_l + idx_j * ncart_k * ncart_l + idx_k * ncart_l + idx_l` with
`ncart1 = ncart_i_1 * ncart_j * ncart_k * ncart_l`. -/
def gIdx (n : ℕ) (ni nj nk nl : ℕ) (i j k l : ℤ) : ℤ :=
  n * (ni * nj * nk * nl) + i * nj * nk * nl + j * nk * nl + k * nl + l

/-- `FMADD(PA[dir], theta1[idx1], MUL(aop_PQ[dir], theta1[idx2]))` -/
def gFirst (rd : Ptr → ℤ → Option F) (pa apq : F) (θ : Ptr) (i1 i2 : ℤ) : Option F :=
  (rd θ i1).bind fun v => (rd θ i2).map fun w => VOps.fma pa v (VOps.mul apq w)

/-- `if(c) { tmp1 = FMADD(a_over_p, theta[i4], theta[i3]); tmp2 = MUL(num, one_over_2p);
output = FMADD(tmp1, tmp2, output); }` -/
def gTwo (c : Bool) (rd : Ptr → ℤ → Option F) (num : ℤ) (ao o2 : F) (θ : Ptr) (i3 i4 : ℤ) (t : F) :
    Option F :=
  if c then (rd θ i3).bind fun v => (rd θ i4).map fun w =>
      VOps.fma (VOps.fma ao w v) (VOps.mul (VOps.int num) o2) t
  else some t

/-- `if(c) { tmp1 = MUL(one_over_2pq, num); output = FMADD(tmp1, theta[i7], output); }` -/
def gOne (c : Bool) (rd : Ptr → ℤ → Option F) (num : ℤ) (o2pq : F) (θ : Ptr) (i7 : ℤ) (t : F) :
    Option F :=
  if c then (rd θ i7).map fun v => VOps.fma (VOps.mul o2pq (VOps.int num)) v t else some t

/-- Scalar arguments of a generic routine. -/
structure GArg (F : Type) where
  o2 : F
  ao : F
  o2pq : F
  apq : Dir → F
  pa : Dir → F

/-- Value computed for one component at order `n`, memory given. -/
abbrev GCell (F : Type) := VMem F → ℕ → Option F

/-- One component computed in the loop of `ostei_general_vrr1`. -/
def gCell1 (mr : MReq) (i : ℕ) (g : GArg F) (θ1 θ2 : Ptr) (ri : RecurInfo) : GCell F := fun m n =>
  (dirOf ri.dir).bind fun dir =>
    let idx1 : ℤ := n * nc1 i + ri.m1 dir
    (gFirst (pread mr m) (g.pa dir) (g.apq dir) θ1 idx1 (idx1 + nc1 i)).bind fun t =>
    gTwo (decide (ri.ijk.get dir > 1)) (pread mr m) (ri.ijk.get dir - 1) g.ao g.o2 θ2
      (n * nc2 i + ri.m2 dir) ((n + 1) * nc2 i + ri.m2 dir) t

/-- `ostei_general_vrr1`, ostei_general_vrr.c:8-53. -/
def gVrr1 (mr : MReq) (i : ℕ) (g : GArg F) (θ1 θ2 : Ptr) : Option (List (GCell F)) :=
  forEach (nc i) fun xi => (recAt i xi).map fun ri => [gCell1 mr i g θ1 θ2 ri]

/-- The four nested loops, e.g. ostei_general_vrr.c:287-310. -/
def gLoops (i j k l : ℕ)
    (cell : RecurInfo → RecurInfo → RecurInfo → RecurInfo → ℕ → ℕ → ℕ → ℕ → GCell F) :
    Option (List (GCell F)) :=
  forEach (nc i) fun xi => (recAt i xi).bind fun ri =>
    forEach (nc j) fun xj => (recAt j xj).bind fun rj =>
      forEach (nc k) fun xk => (recAt k xk).bind fun rk =>
        forEach (nc l) fun xl => (recAt l xl).map fun rl =>
          [cell ri rj rk rl xi xj xk xl]

/-- One component computed in the loops of `ostei_general_vrr_I_j0_l0`. -/
def gCellI0 (mr : MReq) (i k : ℕ) (g : GArg F) (θ1 θ2 θ4 : Ptr) (ri rk : RecurInfo) (_xi xk : ℕ) :
    GCell F := fun m n =>
  (dirOf ri.dir).bind fun dir =>
    let i1 := ri.m1 dir
    let idx1 := gIdx n (nc1 i) 1 (nc k) 1 i1 0 xk 0
    let first := gFirst (pread mr m) (g.pa dir) (g.apq dir) θ1 idx1 (idx1 + nc1 i * 1 * nc k * 1)
    let two := fun t =>
      let idx3 := gIdx n (nc2 i) 1 (nc k) 1 (ri.m2 dir) 0 xk 0
      gTwo true (pread mr m) (ri.ijk.get dir - 1) g.ao g.o2 θ2 idx3 (idx3 + nc2 i * 1 * nc k * 1) t
    let one := fun t =>
      gOne true (pread mr m) (rk.ijk.get dir) g.o2pq θ4
        (gIdx (n + 1) (nc1 i) 1 (nc1 k) 1 i1 0 (rk.m1 dir) 0) t
    if ri.ijk.get dir ≤ 1 then
      if rk.ijk.get dir = 0 then first else first.bind one
    else
      if rk.ijk.get dir = 0 then first.bind two else (first.bind two).bind one

/-- `ostei_general_vrr_I_j0_l0`, ostei_general_vrr.c:55-228 (four loops selected by two tests). -/
def gVrrI0 (mr : MReq) (i k : ℕ) (g : GArg F) (θ1 θ2 θ4 : Ptr) : Option (List (GCell F)) :=
  forEach (nc i) fun xi => (recAt i xi).bind fun ri =>
    forEach (nc k) fun xk => (recAt k xk).map fun rk => [gCellI0 mr i k g θ1 θ2 θ4 ri rk xi xk]

/-- One component computed in the loops of `ostei_general_vrr_I`. -/
def gCellI (mr : MReq) (i j k l : ℕ) (g : GArg F) (θ1 θ2 θ3 θ4 θ5 : Ptr)
    (ri rj rk rl : RecurInfo) (_xi xj xk xl : ℕ) : GCell F := fun m n =>
  (dirOf ri.dir).bind fun dir =>
    let i1 := ri.m1 dir
    let idx1 := gIdx n (nc1 i) (nc j) (nc k) (nc l) i1 xj xk xl
    let idx3 := gIdx n (nc2 i) (nc j) (nc k) (nc l) (ri.m2 dir) xj xk xl
    let idx5 := gIdx n (nc1 i) (nc1 j) (nc k) (nc l) i1 (rj.m1 dir) xk xl
    let idx7 := gIdx (n + 1) (nc1 i) (nc j) (nc1 k) (nc l) i1 xj (rk.m1 dir) xl
    let idx8 := gIdx (n + 1) (nc1 i) (nc j) (nc k) (nc1 l) i1 xj xk (rl.m1 dir)
    (gFirst (pread mr m) (g.pa dir) (g.apq dir) θ1 idx1
      (idx1 + nc1 i * nc j * nc k * nc l)).bind fun t =>
    (gTwo (decide (ri.ijk.get dir > 1)) (pread mr m) (ri.ijk.get dir - 1) g.ao g.o2 θ2 idx3
      (idx3 + nc2 i * nc j * nc k * nc l) t).bind fun t =>
    (gTwo (decide (rj.ijk.get dir ≠ 0)) (pread mr m) (rj.ijk.get dir) g.ao g.o2 θ3 idx5
      (idx5 + nc1 i * nc1 j * nc k * nc l) t).bind fun t =>
    (gOne (decide (rk.ijk.get dir ≠ 0)) (pread mr m) (rk.ijk.get dir) g.o2pq θ4 idx7 t).bind fun t =>
    gOne (decide (rl.ijk.get dir ≠ 0)) (pread mr m) (rl.ijk.get dir) g.o2pq θ5 idx8 t

/-- `ostei_general_vrr_I`, ostei_general_vrr.c:230-380. -/
def gVrrI (mr : MReq) (i j k l : ℕ) (g : GArg F) (θ1 θ2 θ3 θ4 θ5 : Ptr) : Option (List (GCell F)) :=
  if j = 0 ∧ l = 0 ∧ θ3 = none ∧ θ5 = none then gVrrI0 mr i k g θ1 θ2 θ4
  else gLoops i j k l (gCellI mr i j k l g θ1 θ2 θ3 θ4 θ5)

/-- One component computed in the loops of `ostei_general_vrr_J`. -/
def gCellJ (mr : MReq) (i j k l : ℕ) (g : GArg F) (θ1 θ2 θ3 θ4 θ5 : Ptr)
    (ri rj rk rl : RecurInfo) (xi _xj xk xl : ℕ) : GCell F := fun m n =>
  (dirOf rj.dir).bind fun dir =>
    let j1 := rj.m1 dir
    let idx1 := gIdx n (nc i) (nc1 j) (nc k) (nc l) xi j1 xk xl
    let idx3 := gIdx n (nc1 i) (nc1 j) (nc k) (nc l) (ri.m1 dir) j1 xk xl
    let idx5 := gIdx n (nc i) (nc2 j) (nc k) (nc l) xi (rj.m2 dir) xk xl
    let idx7 := gIdx (n + 1) (nc i) (nc1 j) (nc1 k) (nc l) xi j1 (rk.m1 dir) xl
    let idx8 := gIdx (n + 1) (nc i) (nc1 j) (nc k) (nc1 l) xi j1 xk (rl.m1 dir)
    (gFirst (pread mr m) (g.pa dir) (g.apq dir) θ1 idx1
      (idx1 + nc i * nc1 j * nc k * nc l)).bind fun t =>
    (gTwo (decide (ri.ijk.get dir ≠ 0)) (pread mr m) (ri.ijk.get dir) g.ao g.o2 θ2 idx3
      (idx3 + nc1 i * nc1 j * nc k * nc l) t).bind fun t =>
    (gTwo (decide (rj.ijk.get dir > 1)) (pread mr m) (rj.ijk.get dir - 1) g.ao g.o2 θ3 idx5
      (idx5 + nc i * nc2 j * nc k * nc l) t).bind fun t =>
    (gOne (decide (rk.ijk.get dir ≠ 0)) (pread mr m) (rk.ijk.get dir) g.o2pq θ4 idx7 t).bind fun t =>
    gOne (decide (rl.ijk.get dir ≠ 0)) (pread mr m) (rl.ijk.get dir) g.o2pq θ5 idx8 t

/-- `ostei_general_vrr_J`, ostei_general_vrr.c:383-524. -/
def gVrrJ (mr : MReq) (i j k l : ℕ) (g : GArg F) (θ1 θ2 θ3 θ4 θ5 : Ptr) : Option (List (GCell F)) :=
  gLoops i j k l (gCellJ mr i j k l g θ1 θ2 θ3 θ4 θ5)

/-- One component computed in the loops of `ostei_general_vrr_K_j0_l0`. -/
def gCellK0 (mr : MReq) (i k : ℕ) (g : GArg F) (θ1 θ2 θ4 : Ptr) (ri rk : RecurInfo) (xi _xk : ℕ) :
    GCell F := fun m n =>
  (dirOf rk.dir).bind fun dir =>
    let k1 := rk.m1 dir
    let ncart1 : ℕ := nc i * 1 * nc1 k * 1
    let idx1 := gIdx 0 (nc i) 1 (nc1 k) 1 xi 0 k1 0 + n * ncart1
    let first := gFirst (pread mr m) (g.pa dir) (g.apq dir) θ1 idx1 (idx1 + ncart1)
    let two := fun t =>
      let ncart2 : ℕ := nc i * 1 * nc2 k * 1
      let idx3 := gIdx 0 (nc i) 1 (nc2 k) 1 xi 0 (rk.m2 dir) 0 + n * ncart2
      gTwo true (pread mr m) (rk.ijk.get dir - 1) g.ao g.o2 θ2 idx3 (idx3 + ncart2) t
    let one := fun t =>
      let ncart4 : ℕ := nc1 i * 1 * nc1 k * 1
      gOne true (pread mr m) (ri.ijk.get dir) g.o2pq θ4
        (gIdx 1 (nc1 i) 1 (nc1 k) 1 (ri.m1 dir) 0 k1 0 + n * ncart4) t
    if rk.ijk.get dir ≤ 1 then
      if ri.ijk.get dir = 0 then first else first.bind one
    else
      if ri.ijk.get dir = 0 then first.bind two else (first.bind two).bind one

/-- `ostei_general_vrr_K_j0_l0`, ostei_general_vrr.c:526-712.  The indices that the C loop over `n`
increments are written here as functions of `n`; `rj`, `rl` are computed but not used there. -/
def gVrrK0 (mr : MReq) (i k : ℕ) (g : GArg F) (θ1 θ2 θ4 : Ptr) : Option (List (GCell F)) :=
  forEach (nc i) fun xi => (recAt i xi).bind fun ri =>
    forEach (nc k) fun xk => (recAt k xk).map fun rk => [gCellK0 mr i k g θ1 θ2 θ4 ri rk xi xk]

/-- One component computed in the loops of `ostei_general_vrr_K`. -/
def gCellK (mr : MReq) (i j k l : ℕ) (g : GArg F) (θ1 θ2 θ3 θ4 θ5 : Ptr)
    (ri rj rk rl : RecurInfo) (xi xj _xk xl : ℕ) : GCell F := fun m n =>
  (dirOf rk.dir).bind fun dir =>
    let k1 := rk.m1 dir
    let idx1 := gIdx n (nc i) (nc j) (nc1 k) (nc l) xi xj k1 xl
    let idx3 := gIdx n (nc i) (nc j) (nc2 k) (nc l) xi xj (rk.m2 dir) xl
    let idx5 := gIdx n (nc i) (nc j) (nc1 k) (nc1 l) xi xj k1 (rl.m1 dir)
    let idx7 := gIdx (n + 1) (nc1 i) (nc j) (nc1 k) (nc l) (ri.m1 dir) xj k1 xl
    let idx8 := gIdx (n + 1) (nc i) (nc1 j) (nc1 k) (nc l) xi (rj.m1 dir) k1 xl
    (gFirst (pread mr m) (g.pa dir) (g.apq dir) θ1 idx1
      (idx1 + nc i * nc j * nc1 k * nc l)).bind fun t =>
    (gTwo (decide (rk.ijk.get dir > 1)) (pread mr m) (rk.ijk.get dir - 1) g.ao g.o2 θ2 idx3
      (idx3 + nc i * nc j * nc2 k * nc l) t).bind fun t =>
    (gTwo (decide (rl.ijk.get dir ≠ 0)) (pread mr m) (rl.ijk.get dir) g.ao g.o2 θ3 idx5
      (idx5 + nc i * nc j * nc1 k * nc1 l) t).bind fun t =>
    (gOne (decide (ri.ijk.get dir ≠ 0)) (pread mr m) (ri.ijk.get dir) g.o2pq θ4 idx7 t).bind fun t =>
    gOne (decide (rj.ijk.get dir ≠ 0)) (pread mr m) (rj.ijk.get dir) g.o2pq θ5 idx8 t

/-- `ostei_general_vrr_K`, ostei_general_vrr.c:714-864. -/
def gVrrK (mr : MReq) (i j k l : ℕ) (g : GArg F) (θ1 θ2 θ3 θ4 θ5 : Ptr) : Option (List (GCell F)) :=
  if j = 0 ∧ l = 0 ∧ θ3 = none ∧ θ5 = none then gVrrK0 mr i k g θ1 θ2 θ4
  else gLoops i j k l (gCellK mr i j k l g θ1 θ2 θ3 θ4 θ5)

/-- One component computed in the loops of `ostei_general_vrr_L`. -/
def gCellL (mr : MReq) (i j k l : ℕ) (g : GArg F) (θ1 θ2 θ3 θ4 θ5 : Ptr)
    (ri rj rk rl : RecurInfo) (xi xj xk _xl : ℕ) : GCell F := fun m n =>
  (dirOf rl.dir).bind fun dir =>
    let l1 := rl.m1 dir
    let idx1 := gIdx n (nc i) (nc j) (nc k) (nc1 l) xi xj xk l1
    let idx3 := gIdx n (nc i) (nc j) (nc1 k) (nc1 l) xi xj (rk.m1 dir) l1
    let idx5 := gIdx n (nc i) (nc j) (nc k) (nc2 l) xi xj xk (rl.m2 dir)
    let idx7 := gIdx (n + 1) (nc1 i) (nc j) (nc k) (nc1 l) (ri.m1 dir) xj xk l1
    let idx8 := gIdx (n + 1) (nc i) (nc1 j) (nc k) (nc1 l) xi (rj.m1 dir) xk l1
    (gFirst (pread mr m) (g.pa dir) (g.apq dir) θ1 idx1
      (idx1 + nc i * nc j * nc k * nc1 l)).bind fun t =>
    (gTwo (decide (rk.ijk.get dir ≠ 0)) (pread mr m) (rk.ijk.get dir) g.ao g.o2 θ2 idx3
      (idx3 + nc i * nc j * nc1 k * nc1 l) t).bind fun t =>
    (gTwo (decide (rl.ijk.get dir > 1)) (pread mr m) (rl.ijk.get dir - 1) g.ao g.o2 θ3 idx5
      (idx5 + nc i * nc j * nc k * nc2 l) t).bind fun t =>
    (gOne (decide (ri.ijk.get dir ≠ 0)) (pread mr m) (ri.ijk.get dir) g.o2pq θ4 idx7 t).bind fun t =>
    gOne (decide (rj.ijk.get dir ≠ 0)) (pread mr m) (rj.ijk.get dir) g.o2pq θ5 idx8 t

/-- `ostei_general_vrr_L`, ostei_general_vrr.c:866-1007. -/
def gVrrL (mr : MReq) (i j k l : ℕ) (g : GArg F) (θ1 θ2 θ3 θ4 θ5 : Ptr) : Option (List (GCell F)) :=
  gLoops i j k l (gCellL mr i j k l g θ1 θ2 θ3 θ4 θ5)

/-- The writes of one component: `for(n = 0; n < num_n; n++) output[n * ncart + curidx] = ...`. -/
def gCol (mr : MReq) (am : QAM) (ncart cur : ℕ) (f : GCell F) : List ℕ → VMem F → Option (VMem F)
  | [], m => some m
  | n :: ns, m => (f m n).bind fun v => (vwrite mr m am (n * ncart + cur) v).bind fun m' =>
      gCol mr am ncart cur f ns m'

/-- All components; `curidx` counts them. -/
def gExec (mr : MReq) (am : QAM) (ncart num : ℕ) : ℕ → List (GCell F) → VMem F → Option (VMem F)
  | _, [], m => some m
  | cur, f :: fs, m => (gCol mr am ncart cur f (List.range num) m).bind fun m' =>
      gExec mr am ncart num (cur + 1) fs m'

/-- The scalar arguments written at the call, OSTEI_VRR_Writer.cpp:253-256, 262, 291-304. -/
def gArg (P : VPar F) (t : RRType) : GArg F where
  o2 := P.o2 t
  ao := P.ao t
  o2pq := P.o2pq
  apq := P.apq t
  pa := P.pa t

/-- `WriteVRR_General_`, OSTEI_VRR_Writer.cpp:230-314. -/
def vRunGeneral (A : VRRAlgo) (P : VPar F) (am : QAM) (m : VMem F) : Option (VMem F) :=
  (vType A.steps am).bind fun t => (A.mreq am).bind fun mm =>
    let num := (mm + 1).toNat
    let ptr : ℕ → Ptr := fun i => (vAMReqAll am t)[i]?.bind fun q => if q.valid then some q else none
    let i := am.a.toNat
    let j := am.b.toNat
    let k := am.c.toNat
    let l := am.d.toNat
    if ([am.a, am.b, am.c, am.d].count 0 = 3) then
      let x := (am.get t).toNat
      (gVrr1 A.mreq x (gArg P t) (ptr 0) (match t with | .I => ptr 1 | .J => ptr 2 | .K => ptr 1 | .L => ptr 2)).bind
        fun fs => gExec A.mreq am (nc x) num 0 fs m
    else
      ((match t with
        | .I => gVrrI A.mreq i j k l (gArg P t) (ptr 0) (ptr 1) (ptr 2) (ptr 3) (ptr 4)
        | .J => gVrrJ A.mreq i j k l (gArg P t) (ptr 0) (ptr 1) (ptr 2) (ptr 3) (ptr 4)
        | .K => gVrrK A.mreq i j k l (gArg P t) (ptr 0) (ptr 1) (ptr 2) (ptr 3) (ptr 4)
        | .L => gVrrL A.mreq i j k l (gArg P t) (ptr 0) (ptr 1) (ptr 2) (ptr 3) (ptr 4))).bind
        fun fs => gExec A.mreq am (nc i * nc j * nc k * nc l) num 0 fs m

/-- Code written for one class by `WriteVRR` with the two thresholds,
OSTEI_VRR_Writer.cpp:183-189. -/
def vRunMode (ord : ℕ → List Exp) (enum : List Qrt → List Qrt) (se sg : ℤ) (A : VRRAlgo)
    (P : VPar F) (am : QAM) (m : VMem F) : Option (VMem F) :=
  if am.a + am.b + am.c + am.d < se then vRunInline ord A P am m
  else if am.a + am.b + am.c + am.d < sg then vRunExternal ord enum A P am m
  else vRunGeneral A P am m

/-- `WriteVRR`, OSTEI_VRR_Writer.cpp:177-193. -/
def vRunAllM (ord : ℕ → List Exp) (enum : List Qrt → List Qrt) (se sg : ℤ) (A : VRRAlgo)
    (P : VPar F) : List QAM → VMem F → Option (VMem F)
  | [], m => some m
  | am :: l, m =>
    if am = ssss then vRunAllM ord enum se sg A P l m
    else (vRunMode ord enum se sg A P am m).bind fun m' => vRunAllM ord enum se sg A P l m'

end

end Simint
