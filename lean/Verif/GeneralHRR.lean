import Verif.Recur
import Verif.HRR

/-!
# Generic run-time horizontal routines (model of skel/simint/ostei/ostei_general_hrr.c)

Arrays are lists; a read outside the list is `none`.  Indices are computed in the integers, so a
`-1` neighbour that is used gives `none`.
-/

set_option autoImplicit false

namespace Simint

/-- C array read. -/
def rd {R : Type} (l : List R) (i : ℤ) : Option R := if 0 ≤ i then l[i.toNat]? else none

/-- `for(int i = 0; i < n; i++) { ... output[outidx++] = ...; }`: the values appended. -/
def forEach {R : Type} (n : ℕ) (f : ℕ → Option (List R)) : Option (List R) :=
  (List.range n).foldl (fun acc i => acc.bind fun l => (f i).map fun r => l ++ r) (some [])

/-- An `int8_t dir` used as array subscript. -/
def dirOf (n : ℤ) : Option Dir :=
  if n = 0 then some .x else if n = 1 then some .y else if n = 2 then some .z else none

/-- `(aminfo + idx)` with `aminfo = &recurinfo_array[am_recur_map[am]]`;
the table of the shipped library stops at AM 18 (skel/simint/recur_lookup.c). -/
def recAt (am idx : ℕ) : Option RecurInfo :=
  if am ≤ 18 then (recurArrayGen 18)[recurStart am + idx]? else none

/-- `((n+1)*(n+2))/2` of a C `int`, ostei_general_hrr.c:11. -/
def nc (n : ℕ) : ℕ := (n + 1) * (n + 2) / 2

variable {R : Type}

/-- `ostei_general_hrr_I`, ostei_general_hrr.c:5-53; `op` is the operation of its innermost line. -/
def generalHrrIOp (i j k l : ℕ) (op : Dir → R → R → R) (theta1 theta2 : List R) : Option (List R) :=
  let ncart_kl := nc k * nc l
  let ncart_j_p1 := (j + 2) * (j + 3) / 2
  forEach (nc i) fun idx_i => (recAt i idx_i).bind fun ri =>
    forEach (nc j) fun idx_j => (recAt j idx_j).bind fun rj =>
      (dirOf ri.dir).bind fun dir =>
        let idx_i_m1 := ri.m1 dir
        let idx_j_p1 := rj.p1 dir
        let idx1 : ℤ := idx_i_m1 * ncart_j_p1 * ncart_kl + idx_j_p1 * ncart_kl
        let idx2 : ℤ := idx_i_m1 * nc j * ncart_kl + idx_j * ncart_kl
        forEach ncart_kl fun idx_kl =>
          (rd theta1 (idx1 + idx_kl)).bind fun t1 => (rd theta2 (idx2 + idx_kl)).map fun t2 =>
            [op dir t1 t2]

/-- `ostei_general_hrr_J`, ostei_general_hrr.c:57-105; `op` is the operation of its innermost line. -/
def generalHrrJOp (i j k l : ℕ) (op : Dir → R → R → R) (theta1 theta2 : List R) : Option (List R) :=
  let ncart_kl := nc k * nc l
  let ncart_j_m1 := j * (j + 1) / 2
  forEach (nc i) fun idx_i => (recAt i idx_i).bind fun ri =>
    forEach (nc j) fun idx_j => (recAt j idx_j).bind fun rj =>
      (dirOf rj.dir).bind fun dir =>
        let idx_i_p1 := ri.p1 dir
        let idx_j_m1 := rj.m1 dir
        let idx1 : ℤ := idx_i_p1 * ncart_j_m1 * ncart_kl + idx_j_m1 * ncart_kl
        let idx2 : ℤ := idx_i * ncart_j_m1 * ncart_kl + idx_j_m1 * ncart_kl
        forEach ncart_kl fun idx_kl =>
          (rd theta1 (idx1 + idx_kl)).bind fun t1 => (rd theta2 (idx2 + idx_kl)).map fun t2 =>
            [op dir t1 t2]

/-- `ostei_general_hrr_K`, ostei_general_hrr.c:108-156; `op` is the operation of its innermost line. -/
def generalHrrKOp (i j k l : ℕ) (op : Dir → R → R → R) (theta1 theta2 : List R) : Option (List R) :=
  let ncart_ij := nc i * nc j
  let ncart_k_m1 := k * (k + 1) / 2
  let ncart_l_p1 := (l + 2) * (l + 3) / 2
  forEach ncart_ij fun idx_ij =>
    forEach (nc k) fun idx_k => (recAt k idx_k).bind fun rk =>
      forEach (nc l) fun idx_l => (recAt l idx_l).bind fun rl =>
        (dirOf rk.dir).bind fun dir =>
          let idx_k_m1 := rk.m1 dir
          let idx_l_p1 := rl.p1 dir
          let idx1 : ℤ := idx_ij * ncart_k_m1 * ncart_l_p1 + idx_k_m1 * ncart_l_p1 + idx_l_p1
          let idx2 : ℤ := idx_ij * ncart_k_m1 * nc l + idx_k_m1 * nc l + idx_l
          (rd theta1 idx1).bind fun t1 => (rd theta2 idx2).map fun t2 => [op dir t1 t2]

/-- `ostei_general_hrr_L`, ostei_general_hrr.c:158-206; `op` is the operation of its innermost line. -/
def generalHrrLOp (i j k l : ℕ) (op : Dir → R → R → R) (theta1 theta2 : List R) : Option (List R) :=
  let ncart_ij := nc i * nc j
  let ncart_k_p1 := (k + 2) * (k + 3) / 2
  let ncart_l_m1 := l * (l + 1) / 2
  forEach ncart_ij fun idx_ij =>
    forEach (nc k) fun idx_k => (recAt k idx_k).bind fun rk =>
      forEach (nc l) fun idx_l => (recAt l idx_l).bind fun rl =>
        (dirOf rl.dir).bind fun dir =>
          let idx_k_p1 := rk.p1 dir
          let idx_l_m1 := rl.m1 dir
          let idx1 : ℤ := idx_ij * ncart_k_p1 * ncart_l_m1 + idx_k_p1 * ncart_l_m1 + idx_l_m1
          let idx2 : ℤ := idx_ij * nc k * ncart_l_m1 + idx_k * ncart_l_m1 + idx_l_m1
          (rd theta1 idx1).bind fun t1 => (rd theta2 idx2).map fun t2 => [op dir t1 t2]

/-- The innermost line of the four routines in exact arithmetic. -/
def ringDirOp [CommRing R] (h : Dir → R) (minus : Bool) (d : Dir) (v0 v1 : R) : R :=
  if minus then v0 - h d * v1 else v0 + h d * v1

/-- `ostei_general_hrr_I` in exact arithmetic. -/
def generalHrrI [CommRing R] (i j k l : ℕ) (AB : Dir → R) (theta1 theta2 : List R) : Option (List R) :=
  generalHrrIOp i j k l (ringDirOp AB true) theta1 theta2

/-- `ostei_general_hrr_J` in exact arithmetic. -/
def generalHrrJ [CommRing R] (i j k l : ℕ) (AB : Dir → R) (theta1 theta2 : List R) : Option (List R) :=
  generalHrrJOp i j k l (ringDirOp AB false) theta1 theta2

/-- `ostei_general_hrr_K` in exact arithmetic. -/
def generalHrrK [CommRing R] (i j k l : ℕ) (CD : Dir → R) (theta1 theta2 : List R) : Option (List R) :=
  generalHrrKOp i j k l (ringDirOp CD true) theta1 theta2

/-- `ostei_general_hrr_L` in exact arithmetic. -/
def generalHrrL [CommRing R] (i j k l : ℕ) (CD : Dir → R) (theta1 theta2 : List R) : Option (List R) :=
  generalHrrLOp i j k l (ringDirOp CD false) theta1 theta2

end Simint

/-! ## Choosing inline, external or generic code per class -/

namespace Simint

/-- Steps emitted in the file of an external routine for the AM pair `p`: `Create` is run on a
class that has only this pair (generator/ostei/ostei_hrr_generator.cpp:70-106 and
`WriteHRRFile`, OSTEI_HRR_Writer.cpp:275-434, which writes the steps of the last pair). -/
def extSteps (ord : ℕ → List Exp) (enum : List Dbl → List Dbl) (ty : RRType) (p : ℤ × ℤ) :
    Option (List HRRStep) :=
  (createSide ord enum (p.1.toNat + p.2.toNat + 1) ty [p]).map fun S => S.stepsFor p

/-- `GenerateAMReq`, OSTEI_HRR_Algorithm_Base.cpp:368-392. -/
def generateAMReq (ty : RRType) (q : QAM) : QAM × QAM :=
  match ty with
  | .I => (⟨q.a - 1, q.b + 1, q.c, q.d, q.tag⟩, ⟨q.a - 1, q.b, q.c, q.d, q.tag⟩)
  | .J => (⟨q.a + 1, q.b - 1, q.c, q.d, q.tag⟩, ⟨q.a, q.b - 1, q.c, q.d, q.tag⟩)
  | .K => (⟨q.a, q.b, q.c - 1, q.d + 1, q.tag⟩, ⟨q.a, q.b, q.c - 1, q.d, q.tag⟩)
  | .L => (⟨q.a, q.b, q.c + 1, q.d - 1, q.tag⟩, ⟨q.a, q.b, q.c, q.d - 1, q.tag⟩)

/-- The array of a class seen as a list. -/
def memBlock {R : Type} (m : HMem R) (q : QAM) : List R := (List.range (ncartQ q)).map (m q)

/-- Store a list at the start of the array of a class; `none` if it does not fit. -/
def putBlock {R : Type} (m : HMem R) (q : QAM) (l : List R) : Option (HMem R) :=
  if l.length ≤ ncartQ q then
    some fun q' i => if q' = q ∧ i < l.length then l.getD i (m q i) else m q' i
  else none

/-- The call written by `WriteHRR_Bra_General_` / `WriteHRR_Ket_General_`,
OSTEI_HRR_Writer.cpp:249-273; `op minus` is the innermost line of the routine. -/
def generalClassOp {R : Type} (ty : RRType) (op : Bool → Dir → R → R → R) (q : QAM) (m : HMem R) :
    Option (HMem R) :=
  let i := q.a.toNat
  let j := q.b.toNat
  let k := q.c.toNat
  let l := q.d.toNat
  let r := generateAMReq ty q
  let t1 := memBlock m r.1
  let t2 := memBlock m r.2
  (match ty with
    | .I => generalHrrIOp i j k l (op true) t1 t2
    | .J => generalHrrJOp i j k l (op false) t1 t2
    | .K => generalHrrKOp i j k l (op true) t1 t2
    | .L => generalHrrLOp i j k l (op false) t1 t2).bind fun out => putBlock m q out

/-- `WriteHRR`, OSTEI_HRR_Writer.cpp:148-179, with the thresholds `start_external_` and
`start_general_`.  `opB`, `opK`: operations of the emitted lines, `gB`, `gK`: of the generic routines. -/
def runClassMOp {R : Type} (ord : ℕ → List Exp) (enum : List Dbl → List Dbl)
    (se sg : ℤ) (A : HRRAlgo) (opB opK : HStmt → R → R → R) (gB gK : Bool → Dir → R → R → R) (q : QAM)
    (m : HMem R) : Option (HMem R) :=
  (A.getStep q).bind fun ty =>
    match ty with
    | .bra =>
      if q.a + q.b < se then execAllOp opB (braStmts ord q (A.bra.stepsFor q.bra)) m
      else if q.a + q.b < sg then
        (extSteps ord enum A.bra.type q.bra).bind fun s => execAllOp opB (braStmts ord q s) m
      else generalClassOp A.bra.type gB q m
    | .ket =>
      if q.c + q.d < se then execAllOp opK (ketStmts ord q (A.ket.stepsFor q.ket)) m
      else if q.c + q.d < sg then
        (extSteps ord enum A.ket.type q.ket).bind fun s => execAllOp opK (ketStmts ord q s) m
      else generalClassOp A.ket.type gK q m

/-- The whole stage with thresholds. -/
def runHRRMOp {R : Type} (ord : ℕ → List Exp) (enum : List Dbl → List Dbl)
    (se sg : ℤ) (A : HRRAlgo) (opB opK : HStmt → R → R → R) (gB gK : Bool → Dir → R → R → R) :
    List QAM → HMem R → Option (HMem R)
  | [], m => some m
  | q :: qs, m => (runClassMOp ord enum se sg A opB opK gB gK q m).bind fun m' =>
      runHRRMOp ord enum se sg A opB opK gB gK qs m'

/-- The stage in exact arithmetic. -/
def runHRRM {R : Type} [CommRing R] (ord : ℕ → List Exp) (enum : List Dbl → List Dbl)
    (se sg : ℤ) (A : HRRAlgo) (hAB hCD : Dir → R) (l : List QAM) (m : HMem R) : Option (HMem R) :=
  runHRRMOp ord enum se sg A (ringOp hAB) (ringOp hCD) (ringDirOp hAB) (ringDirOp hCD) l m

end Simint
