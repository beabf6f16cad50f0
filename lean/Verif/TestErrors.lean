/-
The comparison of the library with the reference in the test programs: the errors, the map of errors, the mark in the
last column, the sizes of the buffers, and `UniqueQuartet` (skel/test/Common.cpp, skel/test/test_eri.cpp,
skel/test/test_eri_deriv1.cpp).

Simplifications: a double is a real number or NaN; infinities and rounding are not modelled.  The threads of
`omp parallel for` enter the critical section one after the other in an arbitrary order, which is a parameter.
-/
import Verif.Cart
import Mathlib.Data.Real.Basic

set_option autoImplicit false

namespace Simint

/-- A double: a real number, or `none` for NaN. -/
abbrev Fp := Option ℝ

/-- `a > b`; false if one of them is NaN. -/
def Fp.gt (a b : Fp) : Prop := ∃ x y, a = some x ∧ b = some y ∧ y < x

/-- `a - b`. -/
noncomputable def Fp.sub (a b : Fp) : Fp := do pure ((← a) - (← b))

/-- `fabs`. -/
noncomputable def Fp.abs (a : Fp) : Fp := a.map fun x => |x|

open Classical in
/-- `a / b`; a division by zero gives no real number. -/
noncomputable def Fp.div : Fp → Fp → Fp
  | some x, some y => if y = 0 then none else some (x / y)
  | _, _ => none

/-- `RND_ZERO`, skel/test/Common.hpp:14. -/
noncomputable def rndZero : ℝ := 1e-15

open Classical in
/-- One turn of the loop of `CalcError`, skel/test/Common.cpp:223-232. -/
noncomputable def calcStep (lib ref : ℕ → Fp) (s : Fp × Fp) (i : ℕ) : Fp × Fp :=
  let r := ref i
  let diff := Fp.abs (Fp.sub (lib i) r)
  let rel := if Fp.gt (Fp.abs (ref i)) (some rndZero) then Fp.abs (Fp.div diff r) else some 0
  (if Fp.gt diff s.1 then diff else s.1, if Fp.gt rel s.2 then rel else s.2)

/-- `CalcError`, skel/test/Common.cpp:218-235. -/
noncomputable def calcError (lib ref : ℕ → Fp) (n : ℕ) : Fp × Fp :=
  (List.range n).foldl (calcStep lib ref) (some 0, some 0)

open Classical in
/-- `std::max(a, b)`, which is `a < b ? b : a`. -/
noncomputable def Fp.max (a b : Fp) : Fp := if Fp.gt b a then b else a

/-- `QAM`, skel/test/test_eri.cpp:19. -/
abbrev TQ := ℕ × ℕ × ℕ × ℕ

/-- `ErrorMap`, skel/test/test_eri.cpp:23; `none` for keys that are not there. -/
abbrev ErrorMap := TQ → Option (Fp × Fp)

/-- `UpdateErrorMap`, skel/test/test_eri.cpp:25-31; `none` is the exception of `at`. -/
noncomputable def updateErrorMap (m : ErrorMap) (am : TQ) (p : Fp × Fp) : Option ErrorMap := do
  let val ← m am
  pure (Function.update m am (some (Fp.max val.1 p.1, Fp.max val.2 p.2)))

/-- The loops over quartets, skel/test/test_eri.cpp:87-90 and 103-106. -/
def allTQ (maxam : ℕ) : List TQ :=
  (List.range (maxam + 1)).flatMap fun i => (List.range (maxam + 1)).flatMap fun j =>
    (List.range (maxam + 1)).flatMap fun k => (List.range (maxam + 1)).map fun l => (i, j, k, l)

/-- The initial errors, skel/test/test_eri.cpp:86-91. -/
def initErrors (maxam : ℕ) : ErrorMap :=
  (allTQ maxam).foldl (fun m q => Function.update m q (some (some 0, some 0))) fun _ => none

/-- What one turn of the loop over `a`, `b` compares: `len` values of the library and of the reference. -/
structure Compared where
  len : ℕ
  lib : ℕ → Fp
  ref : ℕ → Fp

open Classical in
/-- `bad`, skel/test/test_eri.cpp:227. -/
noncomputable def isBad (abserr relerr : Fp) : Bool :=
  decide (Fp.gt abserr (some 1e-14) ∧ Fp.gt relerr (some 1e-8))

/-- One turn of the loop over quartets, skel/test/test_eri.cpp:107-229: `order` is the order in which the threads
update the map.  The second component is the printed line. -/
noncomputable def testQuartet (m : ErrorMap) (q : TQ) (order : List Compared) :
    Option (ErrorMap × (TQ × Fp × Fp × Bool)) := do
  let m ← order.foldlM (fun m c => updateErrorMap m q (calcError c.lib c.ref c.len)) m
  let e ← m q
  pure (m, (q, e.1, e.2, isBad e.1 e.2))

/-- The loop over quartets. -/
noncomputable def testLoop (order : TQ → List Compared) :
    List TQ → ErrorMap → Option (List (TQ × Fp × Fp × Bool))
  | [], _ => some []
  | q :: l, m => do
    let (m, line) ← testQuartet m q (order q)
    let rest ← testLoop order l m
    pure (line :: rest)

/-- The table that `test_eri` and `test_eri_deriv1` print, skel/test/test_eri.cpp:86-229, skel/test/
test_eri_deriv1.cpp:86-231. -/
noncomputable def testTable (maxam : ℕ) (order : TQ → List Compared) : Option (List (TQ × Fp × Fp × Bool)) :=
  testLoop order (allTQ maxam) (initErrors maxam)

/-- `UniqueQuartet`, skel/test/Common.cpp:263-274. -/
def testUnique (i j k l : ℤ) : Bool :=
  if i < j then false
  else if k < l then false
  else if i + j < k + l then false
  else if i + j = k + l ∧ i < k then false
  else true

/-- `FindMaxParams`, skel/test/Common.cpp:178-199; the map is the list of its keys with the number of shells. -/
def findMaxParams (m : List (ℕ × ℕ)) : ℕ × ℕ :=
  m.foldl (fun s it =>
    let maxam := if it.1 > s.1 then it.1 else s.1
    let n := ncart it.1 * it.2
    (maxam, if n > s.2 then n else s.2)) (0, 0)

/-- `maxam` of the test programs, skel/test/test_eri.cpp:59; `libmax` is `SIMINT_OSTEI_MAXAM`. -/
def testMaxam (m : List (ℕ × ℕ)) (libmax : ℕ) : ℕ :=
  if (findMaxParams m).1 > libmax then libmax else (findMaxParams m).1

/-- `maxsize`, skel/test/test_eri.cpp:60-61 with `width = 1`, skel/test/test_eri_deriv1.cpp:60-61 with `width = 12`. -/
def testMaxsize (m : List (ℕ × ℕ)) (libmax width : ℕ) : ℕ :=
  let max_ncart := (testMaxam m libmax + 1) * (testMaxam m libmax + 2) / 2
  (findMaxParams m).2 * (findMaxParams m).2 * max_ncart * max_ncart * width

/-- `shellmap[k].size()`: a missing key is inserted with an empty vector. -/
def shellsOf (m : List (ℕ × ℕ)) (k : ℕ) : ℕ := (m.lookup k).getD 0

/-- Product of `int`s from left to right; `none` is an overflow. -/
def intProd : List ℕ → Option ℕ
  | [] => some 1
  | a :: l => l.foldlM (fun a b => if a * b < 2 ^ 31 then some (a * b) else none) a

/-- Size in bytes of the buffers, skel/test/test_eri.cpp:60-61, 74-75, skel/test/test_eri_deriv1.cpp:60-61, 74-75:
`nthread * maxsize` is a product of `int`s, only the factor `sizeof(double)` is a `size_t`. -/
def testAlloc (m : List (ℕ × ℕ)) (libmax width nthread : ℕ) : Option ℕ := do
  let max_ncart := (testMaxam m libmax + 1) * (testMaxam m libmax + 2) / 2
  let maxsize ← intProd [(findMaxParams m).2, (findMaxParams m).2, max_ncart, max_ncart, width]
  let n ← intProd [nthread, maxsize]
  pure (n * 8)

end Simint
