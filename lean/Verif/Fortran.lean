/-
The Fortran module (skel/simint/simint.f90) and the C declarations it binds to (skel/simint/shell/shell.h,
skel/simint/simint_eri.h, skel/simint/simint_oneelectron.h, skel/simint/simint_init.h): the two structures, the
interface block, and the procedures behind `contains`.

Simplifications: the sizes and alignments of the C types are parameters; `const`, `restrict`, `intent` and the types
behind the pointers are left out; default integers and `C_INT` are the same, so `INT(n, C_INT)` changes nothing.
-/
import Mathlib.Data.Real.Basic

set_option autoImplicit false

namespace Simint

/-- The C types in the interface. -/
inductive CTy | int | dbl | size | ptr
  deriving DecidableEq, Repr

/-- Sizes and alignments of the platform. -/
structure CABI where
  size : CTy → ℕ
  align : CTy → ℕ

/-- The next multiple of `a` from `n` on. -/
def alignUp (a n : ℕ) : ℕ := (n + a - 1) / a * a

/-- Layout of a C structure from offset `off` on: every member at the next offset that suits its alignment.
`type, bind(C)` in Fortran means the same layout. -/
def structLayout (abi : CABI) : ℕ → List (String × CTy) → List (String × ℕ × CTy)
  | _, [] => []
  | off, (n, t) :: l => (n, alignUp (abi.align t) off, t) :: structLayout abi (alignUp (abi.align t) off + abi.size t) l

/-- End of the last member. -/
def structEnd (abi : CABI) : ℕ → List (String × CTy) → ℕ
  | off, [] => off
  | off, (_, t) :: l => structEnd abi (alignUp (abi.align t) off + abi.size t) l

/-- `sizeof`: the end, padded to the largest alignment. -/
def structSize (abi : CABI) (l : List (String × CTy)) : ℕ :=
  alignUp ((l.map fun m => abi.align m.2).foldl max 1) (structEnd abi 0 l)

/-- `struct simint_shell`, shell.h:18-32. -/
def cShell : List (String × CTy) :=
  [("am", .int), ("nprim", .int), ("x", .dbl), ("y", .dbl), ("z", .dbl), ("alpha", .ptr), ("coef", .ptr),
   ("memsize", .size), ("ptr", .ptr)]

/-- `struct simint_multi_shellpair`, shell.h:47-85. -/
def cPair (maxder : ℕ) : List (String × CTy) :=
  [("am1", .int), ("am2", .int), ("nprim", .int), ("nshell12", .int), ("nshell12_clip", .int), ("nprim12", .ptr),
   ("AB_x", .ptr), ("AB_y", .ptr), ("AB_z", .ptr), ("x", .ptr), ("y", .ptr), ("z", .ptr),
   ("PA_x", .ptr), ("PA_y", .ptr), ("PA_z", .ptr), ("PB_x", .ptr), ("PB_y", .ptr), ("PB_z", .ptr), ("alpha", .ptr)] ++
  (if maxder > 0 then [("alpha2", .ptr), ("beta2", .ptr)] else []) ++
  [("prefac", .ptr), ("screen", .ptr), ("screen_max", .dbl), ("memsize", .size), ("ptr", .ptr)]

/-- `c_simint_shell`, simint.f90:6-16. -/
def fShell : List (String × CTy) :=
  [("am", .int), ("nprim", .int), ("x", .dbl), ("y", .dbl), ("z", .dbl), ("alpha", .ptr), ("coef", .ptr),
   ("memsize", .size), ("ptr", .ptr)]

/-- `c_simint_multi_shellpair`, simint.f90:18-49.  `pp`: the file is preprocessed (with `SIMINT_OSTEI_MAXDER` defined as
in the C files, skel/simint/CMakeLists.txt:54).  Otherwise the lines 39 and 42 that start with `#` are skipped and the
two members between them are there in any case. -/
def fPair (pp : Bool) (maxder : ℕ) : List (String × CTy) :=
  [("am1", .int), ("am2", .int), ("nprim", .int), ("nshell12", .int), ("nshell12_clip", .int), ("nprim12", .ptr),
   ("AB_x", .ptr), ("AB_y", .ptr), ("AB_z", .ptr), ("x", .ptr), ("y", .ptr), ("z", .ptr),
   ("PA_x", .ptr), ("PA_y", .ptr), ("PA_z", .ptr), ("PB_x", .ptr), ("PB_y", .ptr), ("PB_z", .ptr), ("alpha", .ptr)] ++
  (if pp = false ∨ maxder > 0 then [("alpha2", .ptr), ("beta2", .ptr)] else []) ++
  [("prefac", .ptr), ("screen", .ptr), ("screen_max", .dbl), ("memsize", .size), ("ptr", .ptr)]

/-- The compilers of skel/cmake/DefaultFlags.cmake. -/
inductive FCompiler | intel | pgi | gnu | clang
  deriving DecidableEq, Repr

/-- Do the flags turn on the preprocessor for a file with suffix `.f90`?  DefaultFlags.cmake:16 (`-fpp`), 35
(`-Mpreprocess`), 50-79 (no Fortran flags at all). -/
def preprocessed : FCompiler → Bool
  | .intel => true
  | .pgi => true
  | .gnu => false
  | .clang => false

/-- A C function: name, parameters, result. -/
structure CProto where
  name : String
  args : List CTy
  ret : Option CTy
  deriving DecidableEq

/-- The C functions: simint_init.h:21, 37, shell.h:104-345, simint_eri.h:22-62, simint_oneelectron.h:12-25. -/
def cProtos : List CProto :=
  [⟨"simint_init", [], none⟩,
   ⟨"simint_finalize", [], none⟩,
   ⟨"simint_initialize_shell", [.ptr], none⟩,
   ⟨"simint_initialize_shells", [.int, .ptr], none⟩,
   ⟨"simint_allocate_shell", [.int, .ptr], none⟩,
   ⟨"simint_free_shell", [.ptr], none⟩,
   ⟨"simint_free_shells", [.int, .ptr], none⟩,
   ⟨"simint_copy_shell", [.ptr, .ptr], none⟩,
   ⟨"simint_normalize_shells", [.int, .ptr], none⟩,
   ⟨"simint_create_shell", [.int, .int, .dbl, .dbl, .dbl, .ptr, .ptr, .ptr], none⟩,
   ⟨"simint_create_zero_shell", [.ptr], none⟩,
   ⟨"simint_initialize_multi_shellpair", [.ptr], none⟩,
   ⟨"simint_initialize_multi_shellpairs", [.int, .ptr], none⟩,
   ⟨"simint_free_multi_shellpair", [.ptr], none⟩,
   ⟨"simint_free_multi_shellpairs", [.int, .ptr], none⟩,
   ⟨"simint_create_multi_shellpair", [.int, .ptr, .int, .ptr, .ptr, .int], none⟩,
   ⟨"simint_create_multi_shellpair2", [.int, .ptr, .ptr, .int], none⟩,
   ⟨"simint_compute_eri", [.ptr, .ptr, .dbl, .ptr, .ptr], some .int⟩,
   ⟨"simint_compute_eri_deriv", [.int, .ptr, .ptr, .dbl, .ptr, .ptr], some .int⟩,
   ⟨"simint_eri_worksize", [.int, .int], some .size⟩,
   ⟨"simint_eri_workmem", [.int, .int], some .size⟩,
   ⟨"simint_compute_overlap", [.ptr, .ptr, .ptr], some .int⟩,
   ⟨"simint_compute_ke", [.ptr, .ptr, .ptr], some .int⟩,
   ⟨"simint_compute_potential", [.int, .ptr, .ptr, .ptr, .ptr, .ptr, .ptr, .ptr], some .int⟩]

/-- A procedure of the interface block: Fortran name, name in `bind`, dummies with their types (all have `value`),
result. -/
structure FIface where
  name : String
  bind : String
  args : List CTy
  ret : Option CTy
  deriving DecidableEq

/-- The interface block, simint.f90:51-227: the types in the order of the argument list. -/
def fIfaces : List FIface :=
  [⟨"simint_init", "simint_init", [], none⟩,
   ⟨"simint_finalize", "simint_finalize", [], none⟩,
   ⟨"c_simint_initialize_shell", "simint_initialize_shell", [.ptr], none⟩,
   ⟨"c_simint_initialize_shells", "simint_initialize_shells", [.int, .ptr], none⟩,
   ⟨"c_simint_allocate_shell", "simint_allocate_shell", [.int, .ptr], none⟩,
   ⟨"c_simint_free_shell", "simint_free_shell", [.ptr], none⟩,
   ⟨"c_simint_free_shells", "simint_free_shells", [.int, .ptr], none⟩,
   ⟨"c_simint_normalize_shells", "simint_normalize_shells", [.int, .ptr], none⟩,
   ⟨"c_simint_copy_shell", "simint_copy_shell", [.ptr, .ptr], none⟩,
   ⟨"c_simint_create_shell", "simint_create_shell", [.int, .int, .dbl, .dbl, .dbl, .ptr, .ptr, .ptr], none⟩,
   ⟨"c_simint_create_zero_shell", "simint_create_zero_shell", [.ptr], none⟩,
   ⟨"c_simint_initialize_multi_shellpair", "simint_initialize_multi_shellpair", [.ptr], none⟩,
   ⟨"c_simint_initialize_multi_shellpairs", "simint_initialize_multi_shellpairs", [.int, .ptr], none⟩,
   ⟨"c_simint_free_multi_shellpair", "simint_free_multi_shellpair", [.ptr], none⟩,
   ⟨"c_simint_free_multi_shellpairs", "simint_free_multi_shellpairs", [.int, .ptr], none⟩,
   ⟨"c_simint_create_multi_shellpair", "simint_create_multi_shellpair", [.int, .ptr, .int, .ptr, .ptr, .int], none⟩,
   ⟨"c_simint_create_multi_shellpair2", "simint_create_multi_shellpair2", [.int, .ptr, .ptr, .int], none⟩,
   ⟨"c_simint_compute_eri", "simint_compute_eri", [.ptr, .ptr, .dbl, .ptr, .ptr], some .int⟩,
   ⟨"c_simint_compute_eri_deriv", "simint_compute_eri_deriv", [.int, .ptr, .ptr, .dbl, .ptr, .ptr], some .int⟩,
   ⟨"c_simint_eri_worksize", "simint_eri_worksize", [.int, .int], some .size⟩,
   ⟨"c_simint_eri_workmem", "simint_eri_workmem", [.int, .int], some .size⟩,
   ⟨"c_simint_compute_overlap", "simint_compute_overlap", [.ptr, .ptr, .ptr], some .int⟩,
   ⟨"c_simint_compute_ke", "simint_compute_ke", [.ptr, .ptr, .ptr], some .int⟩,
   ⟨"c_simint_compute_potential", "simint_compute_potential", [.int, .ptr, .ptr, .ptr, .ptr, .ptr, .ptr, .ptr],
     some .int⟩]

/-- An actual argument in the calls behind `contains`: `INT(n, C_INT)`, `REAL(x, C_DOUBLE)`, `C_LOC(a)`. -/
inductive FActual | int (s : String) | real (s : String) | loc (s : String)
  deriving DecidableEq

/-- A procedure behind `contains`: its name, its dummies, the procedure it calls and the actual arguments. -/
structure FWrapper where
  name : String
  dummies : List String
  callee : String
  actuals : List FActual
  deriving DecidableEq

open FActual in
/-- The procedures behind `contains`, simint.f90:233-469. -/
def fWrappers : List FWrapper :=
  [⟨"simint_initialize_shell", ["G"], "c_simint_initialize_shell", [loc "G"]⟩,
   ⟨"simint_initialize_shells", ["n", "G"], "c_simint_initialize_shells", [int "n", loc "G"]⟩,
   ⟨"simint_allocate_shell", ["nprim", "G"], "c_simint_allocate_shell", [int "nprim", loc "G"]⟩,
   ⟨"simint_free_shell", ["G"], "c_simint_free_shell", [loc "G"]⟩,
   ⟨"simint_free_shells", ["n", "G"], "c_simint_free_shells", [int "n", loc "G"]⟩,
   ⟨"simint_normalize_shells", ["n", "G"], "c_simint_normalize_shells", [int "n", loc "G"]⟩,
   ⟨"simint_copy_shell", ["src", "dest"], "c_simint_copy_shell", [loc "src", loc "dest"]⟩,
   ⟨"simint_create_shell", ["nprim", "am", "x", "y", "z", "alpha", "coef", "G"], "c_simint_create_shell",
     [int "nprim", int "am", real "x", real "y", real "z", loc "alpha", loc "coef", loc "G"]⟩,
   ⟨"simint_create_zero_shell", ["G"], "c_simint_create_zero_shell", [loc "G"]⟩,
   ⟨"simint_initialize_multi_shellpair", ["P"], "c_simint_initialize_multi_shellpair", [loc "P"]⟩,
   ⟨"simint_initialize_multi_shellpairs", ["n", "P"], "c_simint_initialize_multi_shellpairs", [int "n", loc "P"]⟩,
   ⟨"simint_free_multi_shellpair", ["P"], "c_simint_free_multi_shellpair", [loc "P"]⟩,
   ⟨"simint_free_multi_shellpairs", ["n", "P"], "c_simint_free_multi_shellpairs", [int "n", loc "P"]⟩,
   ⟨"simint_create_multi_shellpair", ["na", "A", "nb", "B", "P", "screen_method"], "c_simint_create_multi_shellpair",
     [int "na", loc "A", int "nb", loc "B", loc "P", int "screen_method"]⟩,
   ⟨"simint_create_multi_shellpair2", ["npair", "AB", "P", "screen_method"], "c_simint_create_multi_shellpair2",
     [int "npair", loc "AB", loc "P", int "screen_method"]⟩,
   ⟨"simint_compute_eri", ["P", "Q", "screen_tol", "work", "integrals"], "c_simint_compute_eri",
     [loc "P", loc "Q", real "screen_tol", loc "work", loc "integrals"]⟩,
   ⟨"simint_compute_eri_deriv", ["deriv", "P", "Q", "screen_tol", "work", "integrals"], "c_simint_compute_eri_deriv",
     [int "deriv", loc "P", loc "Q", real "screen_tol", loc "work", loc "integrals"]⟩,
   ⟨"simint_eri_worksize", ["derorder", "maxam"], "c_simint_eri_worksize", [int "derorder", int "maxam"]⟩,
   ⟨"simint_eri_workmem", ["derorder", "maxam"], "c_simint_eri_workmem", [int "derorder", int "maxam"]⟩,
   ⟨"simint_compute_overlap", ["P", "Q", "integrals"], "c_simint_compute_overlap", [loc "P", loc "Q", loc "integrals"]⟩,
   ⟨"simint_compute_ke", ["P", "Q", "integrals"], "c_simint_compute_ke", [loc "P", loc "Q", loc "integrals"]⟩,
   ⟨"simint_compute_potential", ["n", "nuc_charge", "X", "Y", "Z", "P", "Q", "integrals"],
     "c_simint_compute_potential",
     [int "n", loc "nuc_charge", loc "X", loc "Y", loc "Z", loc "P", loc "Q", loc "integrals"]⟩]

/-- A value that a C function receives. -/
inductive CVal | int (n : ℤ) | dbl (x : ℝ) | ptr (a : ℕ)

/-- What the dummies of a procedure are: integers, reals, or variables with an address. -/
structure FEnv where
  ival : String → ℤ
  rval : String → ℝ
  addr : String → ℕ

/-- Value of an actual argument. -/
def FActual.eval (e : FEnv) : FActual → CVal
  | .int s => .int (e.ival s)
  | .real s => .dbl (e.rval s)
  | .loc s => .ptr (e.addr s)

/-- Type of an actual argument. -/
def FActual.ty : FActual → CTy
  | .int _ => .int
  | .real _ => .dbl
  | .loc _ => .ptr

/-- The C call that a procedure makes: the symbol and the values; `none` if the compiler rejects it because the
types do not fit the interface. -/
def FWrapper.call (w : FWrapper) (e : FEnv) : Option (String × List CVal) := do
  let i ← fIfaces.find? fun i => i.name == w.callee
  if w.actuals.map FActual.ty = i.args then some (i.bind, w.actuals.map (FActual.eval e)) else none

/-- Conversion of an integer to 32 bits. -/
def toInt32 (n : ℤ) : ℤ := (n + 2 ^ 31) % 2 ^ 32 - 2 ^ 31

/-- Result of `simint_eri_worksize` and `simint_eri_workmem`, simint.f90:405-423: `res2` is a `C_INT`, although the C
functions return `size_t`. -/
def fWorkResult (n : ℕ) : ℤ := toInt32 n

end Simint
