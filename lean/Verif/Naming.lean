import Verif.CreatePy

/-!
# Names in the generated code

Model of generator/Naming.hpp and of the function names made by the writers.  A name is a `String`; an
angular momentum outside `amchar` (Types.hpp:21, 60 letters) gives `none`: number 60 would put the
terminating zero byte into the name and larger or negative numbers read outside the literal.
-/

set_option autoImplicit false

namespace Simint

/-- `tag.size() ? tag + "_" : ""`, Naming.hpp:25, 65, 105. -/
def tagStr (tag : String) : String := if tag = "" then "" else tag ++ "_"

/-- `if(prefix.size()) …`, Naming.hpp:30-33, 49-52, 69-72, 88-91, 109-112. -/
def withPrefix (pre s : String) : String := if pre = "" then s else pre ++ "_" ++ s

/-- `amchar[a] + "_" + amchar[b]`, OSTEI_HRR_Writer.cpp:189, 202 and in Naming.hpp. -/
def amStr2 (a b : ℤ) : Option String :=
  (amcharAt a).bind fun x => (amcharAt b).map fun y => x ++ "_" ++ y

/-- `ArrVarName(QAM, prefix)`, Naming.hpp:21-34. -/
def arrVarName (am : QAM) (pre : String := "") : Option String :=
  (amStr4 am).map fun s => withPrefix pre ("INT__" ++ tagStr am.tag ++ s)

/-- `ArrVarName(am1, am2, ketstr, prefix)`, Naming.hpp:45-53. -/
def arrVarNameKetStr (a b : ℤ) (ketstr : String) (pre : String := "") : Option String :=
  (amStr2 a b).map fun s => withPrefix pre ("INT__" ++ s ++ "_" ++ ketstr)

/-- `ArrVarName(Doublet, ketstr, prefix)`, Naming.hpp:63-73; `a` and `b` are the angular momenta of the
doublet and `tag` its tag. -/
def arrVarNameBra (a b : ℤ) (tag ketstr : String) (pre : String := "") : Option String :=
  (amStr2 a b).map fun s => withPrefix pre ("INT__" ++ tagStr tag ++ s ++ "_" ++ ketstr)

/-- `ArrVarName(brastr, am3, am4, prefix)`, Naming.hpp:84-92. -/
def arrVarNameBraStr (brastr : String) (c d : ℤ) (pre : String := "") : Option String :=
  (amStr2 c d).map fun s => withPrefix pre ("INT__" ++ brastr ++ "_" ++ s)

/-- `ArrVarName(brastr, Doublet, prefix)`, Naming.hpp:103-113. -/
def arrVarNameKet (brastr : String) (c d : ℤ) (tag : String) (pre : String := "") : Option String :=
  (amStr2 c d).map fun s => withPrefix pre ("INT__" ++ tagStr tag ++ brastr ++ "_" ++ s)

/-- `HRRVarName(QAM)`, Naming.hpp:122-125. -/
def hrrVarName (am : QAM) : Option String := arrVarName am "HRR"

/-- `HRRVarName(am1, am2, ketstr)`, Naming.hpp:136-139. -/
def hrrVarNameKetStr (a b : ℤ) (ketstr : String) : Option String := arrVarNameKetStr a b ketstr "HRR"

/-- `HRRVarName(brastr, am3, am4)`, Naming.hpp:149-152. -/
def hrrVarNameBraStr (brastr : String) (c d : ℤ) : Option String := arrVarNameBraStr brastr c d "HRR"

/-- `PrimVarName`, Naming.hpp:160-163. -/
def primVarName (am : QAM) : Option String := arrVarName am "PRIM"

/-- `PrimPtrName`, Naming.hpp:171-174. -/
def primPtrName (am : QAM) : Option String := arrVarName am "PRIM_PTR"

/-- The array in `HRRBraStepVar_`, OSTEI_HRR_Writer.cpp:104-109: the name before the `[`. -/
def hrrBraStepArr (a b : ℤ) (tag ketstr : String) : Option String :=
  (arrVarNameBra a b tag ketstr).map fun s => "HRR_" ++ s

/-- The array in `HRRKetStepVar_`, OSTEI_HRR_Writer.cpp:112-116. -/
def hrrKetStepArr (brastr : String) (c d : ℤ) (tag : String) : Option String :=
  (arrVarNameKet brastr c d tag).map fun s => "HRR_" ++ s

/-- The four kinds of arrays of a generated function. -/
inductive ArrKind | contr | hrr | prim | primPtr
  deriving DecidableEq, Repr

/-- Name of an array of a kind. -/
def ArrKind.name : ArrKind → QAM → Option String
  | .contr, am => arrVarName am
  | .hrr, am => hrrVarName am
  | .prim, am => primVarName am
  | .primPtr, am => primPtrName am

/-! ## Functions -/

/-- The functions with external linkage that the generator writes. -/
inductive GenFn
  /-- A class; `deriv` selects the derivative. -/
  | ostei (deriv : Bool) (am : QAM)
  | vrr (t : RRType) (am : QAM)
  | hrr (t : RRType) (a b : ℤ)
  deriving DecidableEq

/-- Names of the functions: `FunctionName_`, OSTEI_Writer.cpp:101-108 and OSTEIDeriv1_Writer.cpp:96-103;
`WriteVRRFile`, OSTEI_VRR_Writer.cpp:332-334; `WriteHRRFile`, OSTEI_HRR_Writer.cpp:299-300 and
404-405. -/
def GenFn.name : GenFn → Option String
  | .ostei der am => (amStr4 am).map fun s => (if der then "ostei_deriv1_" else "ostei_") ++ s
  | .vrr t am => (amStr4 am).map fun s => "VRR_" ++ t.letter ++ "_" ++ s
  | .hrr t a b => (amStr2 a b).map fun s => "HRR_" ++ t.letter ++ "_" ++ s

/-- Name of the variant for a fixed number of ket components, OSTEI_HRR_Writer.cpp:316-317. -/
def hrrFixedName (t : RRType) (a b : ℤ) (ncart : ℕ) : Option String :=
  (amStr2 a b).map fun s => "HRR_" ++ t.letter ++ "_" ++ s ++ "_" ++ toString ncart

/-- Name at the call of a vertical routine, OSTEI_VRR_Writer.cpp:210-212. -/
def vrrCallName (t : RRType) (am : QAM) : Option String :=
  (amStr4 am).map fun s => "VRR_" ++ t.letter ++ "_" ++ s

/-- Name at the call of a horizontal routine, OSTEI_HRR_Writer.cpp:212-213 and 232-233. -/
def hrrCallName (t : RRType) (a b : ℤ) : Option String :=
  (amcharAt a).bind fun x => (amcharAt b).map fun y => "HRR_" ++ t.letter ++ "_" ++ x ++ "_" ++ y

/-! ## The routine of a bra pair -/

/-- `ncart_ket_vals`, OSTEI_HRR_Writer.cpp:312. -/
def ncartKetVals : List ℕ := [1, 3, 6, 10, 15, 21, 28, 36, 45, 55, 66, 78, 91, 105, 120]

/-- The body of the routine of a bra pair, OSTEI_HRR_Writer.cpp:342-378: `body n` is the loop over `iket`
with `n` for the number of ket components.  The state carries `done_brastep`. -/
def braRoutine {σ : Type} (body : ℕ → σ → σ) (ncartKet : ℕ) (s : σ) : σ :=
  let r := ncartKetVals.foldl (fun (p : σ × Bool) v => if ncartKet = v then (body v p.1, true) else p) (s, false)
  if r.2 = false then body ncartKet r.1 else r.1

end Simint
