import Verif.HRR

/-!
# Command line of the generator programs and the command lines written by create.py

`generator/CommandLine.cpp`, the option loops of the four `main` functions under `generator/ostei`, and
the lists `cmdline` of `create.py`.  An exception or `return 1` is `none`.
-/

set_option autoImplicit false

namespace Simint

/-- `enum class Option`, generator/Options.hpp:15-22. -/
inductive Opt | extVRR | genVRR | extHRR | genHRR | perm
  deriving DecidableEq

/-- `OptionMap`; every key is present from the start. -/
abbrev OptMap := Opt → ℤ

/-- `DefaultOptions`, generator/Options.hpp:32-41. -/
def defaultOptions : OptMap := fun _ => 0

def OptMap.set (m : OptMap) (o : Opt) (v : ℤ) : OptMap := fun x => if x = o then v else m x

/-- `isspace` in the C locale. -/
def isSpaceC (c : Char) : Bool := c.toNat == 32 || (9 ≤ c.toNat && c.toNat ≤ 13)

/-- An optional sign in front. -/
def splitSign : List Char → Bool × List Char
  | '-' :: r => (true, r)
  | '+' :: r => (false, r)
  | r => (false, r)

/-- `std::stoi`: white space, optional sign, digits, rest ignored; no digits or a value outside of `int`
throws. -/
def stoi (s : String) : Option ℤ :=
  let r := splitSign (s.toList.dropWhile isSpaceC)
  let ds := r.2.takeWhile Char.isDigit
  if ds = [] then none
  else
    let n : ℤ := ((ds.foldl (fun v c => 10 * v + (c.toNat - 48)) 0 : ℕ) : ℤ)
    let n := if r.1 then -n else n
    if -2147483648 ≤ n ∧ n ≤ 2147483647 then some n else none

/-- `GetNextArg`, CommandLine.cpp:13-19 and 38-44: the argument and the incremented position. -/
def getNextArg (i : ℕ) (argv : List String) : Option (String × ℕ) :=
  if i ≥ argv.length then none else (argv[i]?).map fun s => (s, i + 1)

/-- `GetIArg`, CommandLine.cpp:22-35 and 47-59. -/
def getIArg (i : ℕ) (argv : List String) : Option (ℤ × ℕ) :=
  (getNextArg i argv).bind fun r => (stoi r.1).map fun n => (n, r.2)

/-- Variables of `ParseCommonOptions`. -/
structure CommonSt where
  i : ℕ
  options : OptMap
  ret : List String

/-- Body of the loop, CommandLine.cpp:69-81. -/
def commonBody (argv : List String) (st : CommonSt) : Option CommonSt :=
  (getNextArg st.i argv).bind fun r =>
    let setInt (o : Opt) : Option CommonSt :=
      (getIArg r.2 argv).map fun n => ⟨n.2, st.options.set o n.1, st.ret⟩
    if r.1 = "-ve" then setInt .extVRR
    else if r.1 = "-vg" then setInt .genVRR
    else if r.1 = "-he" then setInt .extHRR
    else if r.1 = "-hg" then setInt .genHRR
    else if r.1 = "-p" then some ⟨r.2, st.options.set .perm 1, st.ret⟩
    else some ⟨r.2, st.options, st.ret ++ [r.1]⟩

/-- `while(i < argc)`; every round advances `i`, so `argc` rounds are enough. -/
def whileArgs {σ : Type} (pos : σ → ℕ) (argc : ℕ) (body : σ → Option σ) : ℕ → σ → Option σ
  | 0, st => if pos st < argc then none else some st
  | f + 1, st => if pos st < argc then (body st).bind (whileArgs pos argc body f) else some st

/-- `ParseCommonOptions`, CommandLine.cpp:62-85. -/
def parseCommon (options : OptMap) (argv : List String) : Option (OptMap × List String) :=
  (whileArgs CommonSt.i argv.length (commonBody argv) argv.length ⟨1, options, []⟩).map
    fun st => (st.options, st.ret)

/-- The generator programs. -/
inductive Prog | ostei | deriv1 | vrr | hrr
  deriving DecidableEq

/-- Variables set by the option loop of a program (`order[0]` of the VRR program as `center`; the three
flags belong to the HRR program). -/
structure ProgSt where
  i : ℕ
  fpath : String
  hpath : String
  am : ℕ → ℤ
  amset : Bool
  center : ℕ
  braI : Bool
  ketK : Bool
  doBra : Bool

def ProgSt.init : ProgSt := ⟨0, "", "", fun _ => 0, false, 0, false, false, false⟩

/-- How many numbers follow `-q`. -/
def Prog.nam : Prog → ℕ
  | .hrr => 2
  | _ => 4

/-- `finalam[0] = GetIArg(...); finalam[1] = ...` -/
def readAM (argv : List String) : ℕ → ℕ → ProgSt → Option ProgSt
  | 0, _, st => some st
  | n + 1, k, st => (getIArg st.i argv).bind fun r =>
      readAM argv n (k + 1) { st with i := r.2, am := fun x => if x = k then r.1 else st.am x }

/-- Body of the option loop: ostei_generator.cpp:34-54, ostei_deriv1_generator.cpp:34-54,
ostei_vrr_generator.cpp:35-61, ostei_hrr_generator.cpp:37-61. -/
def progBody (p : Prog) (argv : List String) (st : ProgSt) : Option ProgSt :=
  (getNextArg st.i argv).bind fun r =>
    if r.1 = "-o" then (getNextArg r.2 argv).map fun s => { st with i := s.2, fpath := s.1 }
    else if r.1 = "-oh" then (getNextArg r.2 argv).map fun s => { st with i := s.2, hpath := s.1 }
    else if r.1 = "-q" then
      (readAM argv p.nam 0 { st with i := r.2 }).map fun st => { st with amset := true }
    else if p = .vrr ∧ r.1 = "-center_j" then some { st with i := r.2, center := 1 }
    else if p = .vrr ∧ r.1 = "-center_k" then some { st with i := r.2, center := 2 }
    else if p = .vrr ∧ r.1 = "-center_l" then some { st with i := r.2, center := 3 }
    else if p = .hrr ∧ r.1 = "-bra_i" then some { st with i := r.2, braI := true }
    else if p = .hrr ∧ r.1 = "-ket_k" then some { st with i := r.2, ketK := true }
    else if p = .hrr ∧ r.1 = "-bra" then some { st with i := r.2, doBra := true }
    else none

/-- Start of `main` up to the checks of required options (ostei_generator.cpp:19-61 and the
corresponding lines of the other programs). -/
def progArgs (p : Prog) (argv : List String) : Option (OptMap × ProgSt) :=
  (parseCommon defaultOptions argv).bind fun r =>
    (whileArgs ProgSt.i r.2.length (progBody p r.2) r.2.length ProgSt.init).bind fun st =>
      if st.fpath ≠ "" ∧ st.hpath ≠ "" ∧ st.amset = true then some (r.1, st) else none

/-- Class and step types of the HRR program, ostei_hrr_generator.cpp:70-80, 97-98. -/
def hrrJob (st : ProgSt) : QAM × RRType × RRType :=
  (if st.doBra then ⟨st.am 0, st.am 1, 0, 0, ""⟩ else ⟨0, 0, st.am 0, st.am 1, ""⟩,
    if st.braI then .I else .J, if st.ketK then .K else .L)

/-- Class and first step type of the VRR program, ostei_vrr_generator.cpp:17, 29, 48-53, 89; the number is
cast to a step type in OSTEI_VRR_Algorithm_Base.cpp:316. -/
def vrrJob (st : ProgSt) : QAM × RRType :=
  (⟨st.am 0, st.am 1, st.am 2, st.am 3, ""⟩,
    match st.center with | 0 => .I | 1 => .J | 2 => .K | _ => .L)

/-! ## create.py -/

/-- Values of the options `-ve -vg -he -hg -p` of create.py. -/
structure Thresh where
  ve : ℤ
  vg : ℤ
  he : ℤ
  hg : ℤ
  p : ℤ

/-- `cmdline` in `runostei`, create.py:43-53. -/
def osteiCmd (cmd out hdr : String) (T : Thresh) (q : ℤ × ℤ × ℤ × ℤ) : List String :=
  [cmd] ++ ["-q", toString q.1, toString q.2.1, toString q.2.2.1, toString q.2.2.2] ++ ["-o", out] ++
    ["-oh", hdr] ++ ["-ve", toString T.ve] ++ ["-vg", toString T.vg] ++ ["-he", toString T.he] ++
    ["-hg", toString T.hg] ++
    (if max (max (max q.1 q.2.1) q.2.2.1) q.2.2.2 ≥ T.p then ["-p"] else [])

/-- `RRStepTypeToStr`, generator/Types.hpp:180-194. -/
def RRType.letter : RRType → String
  | .I => "I"
  | .J => "J"
  | .K => "K"
  | .L => "L"

/-- `cmdline` of an HRR helper `h`, create.py:505-518. -/
def hrrCmd (cmd out hdr : String) (h : String × ℤ × ℤ) : List String :=
  [cmd] ++ ["-q", toString h.2.1, toString h.2.2] ++ ["-o", out] ++ ["-oh", hdr] ++
    (if h.1 = "I" ∨ h.1 = "J" then ["-bra"] else []) ++ (if h.1 = "I" then ["-bra_i"] else []) ++
    (if h.1 = "K" then ["-ket_k"] else [])

/-- `cmdline` of a VRR helper `v`, create.py:614-624. -/
def vrrCmd (cmd out hdr : String) (v : String × ℤ × ℤ × ℤ × ℤ) : List String :=
  [cmd] ++ ["-q", toString v.2.1, toString v.2.2.1, toString v.2.2.2.1, toString v.2.2.2.2] ++ ["-o", out] ++
    ["-oh", hdr] ++ (if v.1 = "J" then ["-center_j"] else []) ++
    (if v.1 = "K" then ["-center_k"] else []) ++ (if v.1 = "L" then ["-center_l"] else [])

end Simint
