import Verif.CommandLine
import Verif.Deriv
import Verif.Permute
import Verif.VRRModes

/-!
# create.py: generator runs, helper routines and file lists (model)

The part of create.py that runs the four generator programs (lines 33-75, 183-285, 305-404, 464-640)
and writes the lists of files for cmake (660-671).  A generated file is represented by its name, the
helper routines it defines and the helper routines its text calls.  Not modelled: the headers, the work
sizes (see `Workspace.lean`), the copying of the skeleton, the locks and processes of the pool (each run
writes its own files; the log is read after all runs have ended), the messages.
-/

set_option autoImplicit false

namespace Simint

/-! ## Calls in the generated text -/

/-- A helper routine `VRR_<t>_<am>` or `HRR_<t>_<pair>`. -/
inductive Routine
  | vrr (t : RRType) (am : QAM)
  | hrr (t : RRType) (p : ℤ × ℤ)
  deriving DecidableEq

/-- The routine called for a class by `WriteVRR`, OSTEI_VRR_Writer.cpp:177-193 and 204-227. -/
def vCallOf (ve vg : ℤ) (A : VRRAlgo) (am : QAM) : Option Routine :=
  if am = ssss then none
  else if am.a + am.b + am.c + am.d < ve then none
  else if am.a + am.b + am.c + am.d < vg then (vType A.steps am).map fun t => .vrr t am
  else none

/-- The routine called for a class by `WriteHRR`, OSTEI_HRR_Writer.cpp:149-179 and 208-247.  All steps of
a side have the type of the side (`SideOK.ste`), so `GetBraRRStep` is that type. -/
def hCallOf (he hg : ℤ) (H : HRRAlgo) (q : QAM) : Option Routine :=
  (H.getStep q).bind fun s =>
    match s with
    | .bra => if q.a + q.b < he then none
        else if q.a + q.b < hg then some (.hrr H.bra.type q.bra) else none
    | .ket => if q.c + q.d < he then none
        else if q.c + q.d < hg then some (.hrr H.ket.type q.ket) else none

/-- The line written to standard output for each call, OSTEI_VRR_Writer.cpp:225-226 and
OSTEI_HRR_Writer.cpp:225-226, 245-246, after `line.split()`. -/
def Routine.logLine : Routine → List String
  | .vrr t am => ["SIMINT", "EXTERNAL", "VRR", t.letter, toString am.a, toString am.b, toString am.c,
      toString am.d]
  | .hrr t p => ["SIMINT", "EXTERNAL", "HRR", t.letter, toString p.1, toString p.2]

/-! ## The script -/

/-- Arguments of create.py and the unspecified orders: `enumS` is the iteration order of the set
`valid`. -/
structure PyCfg where
  maxam : ℕ
  der : ℕ
  T : Thresh
  enumD : List Dbl → List Dbl
  enumQ : List QAM → List QAM
  enumV : List Qrt → List Qrt
  enumS : List QAM → List QAM
  outdir : String

/-- `amchar[i]` (a negative number is not modelled). -/
def amcharAt (i : ℤ) : Option String :=
  if 0 ≤ i then (amchar[i.toNat]?).map fun c => String.singleton c else none

/-- `"{}_{}_{}_{}".format(amchar[q[0]], …)`. -/
def amStr4 (q : QAM) : Option String :=
  (amcharAt q.a).bind fun a => (amcharAt q.b).bind fun b => (amcharAt q.c).bind fun c =>
    (amcharAt q.d).map fun d => a ++ "_" ++ b ++ "_" ++ c ++ "_" ++ d

/-- `filebase`, create.py:36, 261, 380. -/
def fnBase (d : ℕ) (q : QAM) : Option String :=
  (amStr4 q).map fun s => (if d = 0 then "ostei_" else "ostei_deriv1_") ++ s

/-- `filebase` of an HRR helper, create.py:273-275, 498. -/
def hrrBase (t : String) (p : ℤ × ℤ) : Option String :=
  (amcharAt p.1).bind fun a => (amcharAt p.2).map fun b => "hrr_" ++ t ++ "_" ++ a ++ "_" ++ b

/-- `filebase` of a VRR helper, create.py:279-283, 605. -/
def vrrBase (t : String) (q : QAM) : Option String :=
  (amStr4 q).map fun s => "vrr_" ++ t ++ "_" ++ s

/-- A file of the output directory: the helper routines it defines and calls. -/
structure GenFile where
  name : String
  defines : List Routine
  calls : List Routine

/-- `os.path.join(outdir_osteigen, filebase + ".c")`. -/
def PyCfg.path (cfg : PyCfg) (base : String) : String := cfg.outdir ++ "/" ++ base ++ ".c"

/-- `headerfile`, create.py:205-206, 342-343, 477-478, 584-585. -/
def PyCfg.hdr (cfg : PyCfg) (name : String) : String := cfg.outdir ++ "/" ++ name ++ "_generated.h"

/-- `runostei`, create.py:33-75: program, command line, and the text it writes
(`main` of ostei_generator.cpp:82-112 and ostei_deriv1_generator.cpp:90-160).
`none`: the program fails; create.py goes on (line 72). -/
def PyCfg.fnRun (cfg : PyCfg) (d : ℕ) (q : QAM) : Option GenFile :=
  (fnBase d q).bind fun base =>
  (progArgs (if d = 0 then .ostei else .deriv1)
    (osteiCmd "generator" (cfg.path base)
      (cfg.hdr (if d = 0 then "ostei" else "ostei_deriv1")) cfg.T (q.a, q.b, q.c, q.d))).bind fun r =>
  let m := r.1
  let g : GenCfg := ⟨m .extVRR, m .genVRR, m .extHRR, m .genHRR, cfg.enumD, cfg.enumQ, cfg.enumV⟩
  let am : QAM := ⟨r.2.am 0, r.2.am 1, r.2.am 2, r.2.am 3, ""⟩
  (if d = 0 then g.algos am else g.derivAlgos am).map fun HA =>
    { name := base ++ ".c", defines := []
      calls := HA.2.order.filterMap (vCallOf g.ve g.vg HA.2) ++
        HA.1.order.filterMap (hCallOf g.he g.hg HA.1) }

/-- The log file of a run. Other lines (work sizes, messages) do not start with `SIMINT EXTERNAL`. -/
def PyCfg.log (cfg : PyCfg) (d : ℕ) (q : QAM) : List (List String) :=
  match cfg.fnRun d q with
  | some f => f.calls.map Routine.logLine
  | none => []

/-- Dictionary objects and the references stored in the list `filelists`.  The keys `0 … maxam` all
exist; other keys are not used. -/
structure PyLists where
  heap : List (ℤ → List String)
  refs : List ℕ

/-- `[{ k: [] for k in range(0, maxam+1) }]*(derorder+1)`, create.py:219: one dictionary, repeated
references. -/
def pyLists (der : ℕ) : PyLists := ⟨[fun _ => []], List.replicate (der + 1) 0⟩

/-- `filelists[d]`. -/
def PyLists.dict (L : PyLists) (d : ℕ) : Option (ℤ → List String) := (L.refs[d]?).bind fun r => L.heap[r]?

/-- `filelists[d][l].append(s)`. -/
def PyLists.append (L : PyLists) (d : ℕ) (l : ℤ) (s : String) : Option PyLists :=
  (L.refs[d]?).bind fun r => (L.heap[r]?).map fun D =>
    { L with heap := L.heap.set r fun k => if k = l then D k ++ [s] else D k }

/-- Variables of the script: `filelists`, `reqext_hrr`, `reqext_vrr`. -/
structure PySt where
  lists : PyLists
  hrr : List (List String)
  vrr : List (List String)

/-- `filelists[d][mq].append(name)`. -/
def PySt.addFile (st : PySt) (d : ℕ) (mq : ℤ) (name : Option String) : Option PySt :=
  name.bind fun s => (st.lists.append d mq (s ++ ".c")).map fun L => { st with lists := L }

/-- File name of an entry of `reqext_hrr`, create.py:273-275, 497-498. -/
def hrrReqBase (r : List String) : Option String :=
  match r with
  | [t, a, b] => (stoi a).bind fun a => (stoi b).bind fun b => hrrBase t (a, b)
  | _ => none

/-- File name of an entry of `reqext_vrr`, create.py:279-283, 603-605. -/
def vrrReqBase (r : List String) : Option String :=
  match r with
  | [t, a, b, c, d] => (stoi a).bind fun a => (stoi b).bind fun b => (stoi c).bind fun c =>
      (stoi d).bind fun d => vrrBase t ⟨a, b, c, d, ""⟩
  | _ => none

/-- Body of the loop over the lines of a log, create.py:266-283 and 385-402. -/
def readLine (d : ℕ) (mq : ℤ) (st : PySt) (line : List String) : Option PySt :=
  let r := line.drop 3
  if line.take 3 = ["SIMINT", "EXTERNAL", "HRR"] then
    { st with hrr := st.hrr ++ [r] }.addFile d mq (hrrReqBase r)
  else if line.take 3 = ["SIMINT", "EXTERNAL", "VRR"] then
    { st with vrr := st.vrr ++ [r] }.addFile d mq (vrrReqBase r)
  else some st

/-- Body of the loop over `valid`, create.py:260-283 and 379-402. -/
def PyCfg.readFn (cfg : PyCfg) (d : ℕ) (st : PySt) (q : QAM) : Option PySt :=
  (st.addFile d (maxQ q) (fnBase d q)).bind fun st =>
    (cfg.log d q).foldlM (readLine d (maxQ q)) st

/-- `valid` for derivative order 0 (create.py:183-191) and 1 (305-307, 320-331). -/
def PyCfg.classes (cfg : PyCfg) (d : ℕ) : List QAM :=
  validQuartets (if d = 0 then cfg.maxam else if cfg.der > 0 then cfg.maxam else -1) cfg.T.p

/-- State after both loops. -/
def PyCfg.run (cfg : PyCfg) : Option PySt :=
  ((cfg.enumS (cfg.classes 0)).foldlM (cfg.readFn 0) ⟨pyLists cfg.der, [], []⟩).bind fun st =>
    (cfg.enumS (cfg.classes 1)).foldlM (cfg.readFn 1) st

/-- One pass of the loop that adds "the permutations that will actually compute stuff",
create.py:561-577. -/
def vrrClosure (v : List String) : List (List String) :=
  match v with
  | [t, a, b, c, d] =>
    v :: if a = "0" ∧ c = "0" then [[if t = "J" then "I" else "K", b, a, d, c]]
      else if a = "0" then [[if t = "J" then "I" else "K", b, a, c, d]]
      else if c = "0" then [[if t = "L" then "K" else "I", a, b, d, c]]
      else []
  | _ => [v]

/-- Text written by the HRR program for its command line, ostei_hrr_generator.cpp:63-106 and
`WriteHRRFile`, OSTEI_HRR_Writer.cpp:275-434: a routine for each side that has steps. -/
def PyCfg.hrrProg (cfg : PyCfg) (base : String) (args : List String) : Option GenFile :=
  (progArgs .hrr args).bind fun r =>
  let j := hrrJob r.2
  (hrrCreate psi4List cfg.enumD cfg.enumQ j.2.1 j.2.2 [j.1]).map fun H =>
    { name := base ++ ".c"
      defines := (if H.bra.stepsFor j.1.bra ≠ [] then [.hrr H.bra.type j.1.bra] else []) ++
        (if H.ket.stepsFor j.1.ket ≠ [] then [.hrr H.ket.type j.1.ket] else [])
      calls := [] }

/-- The file written by `WriteVRRFile` for class `am` with step type `t`, OSTEI_VRR_Writer.cpp:318-416:
the steps themselves if the right centers are s, otherwise a call. -/
def vrrFile (enumV : List Qrt → List Qrt) (name : String) (t : RRType) (am : QAM) : Option GenFile :=
  (extAlgo psi4List enumV t am).bind fun A => (vType A.steps am).map fun t' =>
    { name := name, defines := [.vrr t' am]
      calls := if am.b = 0 ∧ am.d = 0 then [] else [.vrr (toCallStep t') (toCall am)] }

/-- Text written by the VRR program for its command line, ostei_vrr_generator.cpp:80-96. -/
def PyCfg.vrrProg (cfg : PyCfg) (base : String) (args : List String) : Option GenFile :=
  (progArgs .vrr args).bind fun r =>
  let j := vrrJob r.2
  vrrFile cfg.enumV (base ++ ".c") j.2 j.1

/-- Body of the loop over `reqext_hrr`, create.py:496-535. `none`: `quit(1)`. -/
def PyCfg.hrrHelper (cfg : PyCfg) (h : List String) : Option GenFile :=
  match h with
  | [t, a, b] => (stoi a).bind fun a => (stoi b).bind fun b => (hrrBase t (a, b)).bind fun base =>
      cfg.hrrProg base (hrrCmd "generator" (cfg.path base) (cfg.hdr "hrr") (t, a, b))
  | _ => none

/-- Body of the loop over `reqext_vrr`, create.py:602-640. `none`: `quit(1)`. -/
def PyCfg.vrrHelper (cfg : PyCfg) (v : List String) : Option GenFile :=
  match v with
  | [t, a, b, c, d] => (stoi a).bind fun a => (stoi b).bind fun b => (stoi c).bind fun c =>
      (stoi d).bind fun d => (vrrBase t ⟨a, b, c, d, ""⟩).bind fun base =>
      cfg.vrrProg base (vrrCmd "generator" (cfg.path base) (cfg.hdr "vrr") (t, a, b, c, d))
  | _ => none

/-- All helper files.  The sets of create.py:470 and 555-577 are lists here: a repeated entry writes the
same file again. -/
def PyCfg.helpers (cfg : PyCfg) (st : PySt) : Option (List GenFile) :=
  (st.hrr.mapM cfg.hrrHelper).bind fun hs =>
    ((st.vrr.flatMap vrrClosure).mapM cfg.vrrHelper).map fun vs => hs ++ vs

/-- Contents of `filelist_d<d>_<l>` without the directory prefix, create.py:660-671. -/
def PySt.fileList (st : PySt) (d l : ℕ) : Option (List String) :=
  (st.lists.dict d).map fun D => (List.range (l + 1)).flatMap fun (k : ℕ) => D (k : ℤ)

end Simint
