import Verif.Shell

/-!
# Sorting the primitives of a list of shell pairs

Model of skel/simint/shell/shell.c:35-128.  Indices are integers (the C code lets `j` go below the
first element); the arrays are functions of the index.  A read of `screen` outside the range of the
call is the outcome `none`.
-/

set_option autoImplicit false

namespace Simint

section
variable {F : Type}

/-- Arrays of a list, indexed by integers. -/
abbrev SMem (F : Type) := Arr → ℤ → F

/-- `SWAP_DOUBLE(P->a[i], P->a[j])`, shell.c:35. -/
def swapOne (m : SMem F) (a : Arr) (i j : ℤ) : SMem F :=
  let tmp := m a i
  let m1 : SMem F := fun b k => if b = a ∧ k = i then m a j else m b k
  fun b k => if b = a ∧ k = j then tmp else m1 b k

/-- The arrays that are swapped, in the order of the text, shell.c:52-69. -/
def swapArrs (deriv : Bool) : List Arr :=
  dirList.map .pos ++ dirList.map .PA ++ dirList.map .PB ++ [.alpha, .prefac, .screen] ++
    (if deriv then [.alpha2, .beta2] else [])

/-- All swaps, shell.c:52-69. -/
def swapAll (deriv : Bool) (m : SMem F) (i j : ℤ) : SMem F :=
  (swapArrs deriv).foldl (fun m a => swapOne m a i j) m

variable [LinearOrder F]

/-- `while (P->screen[i] > mid) i++;`, shell.c:48. -/
def scanUp (s : ℤ → F) (mid : F) (lo hi : ℤ) : ℕ → ℤ → Option ℤ
  | 0, _ => none
  | f + 1, i =>
    if lo ≤ i ∧ i ≤ hi then (if s i > mid then scanUp s mid lo hi f (i + 1) else some i) else none

/-- `while (P->screen[j] < mid) j--;`, shell.c:49. -/
def scanDown (s : ℤ → F) (mid : F) (lo hi : ℤ) : ℕ → ℤ → Option ℤ
  | 0, _ => none
  | f + 1, j =>
    if lo ≤ j ∧ j ≤ hi then (if s j < mid then scanDown s mid lo hi f (j - 1) else some j) else none

/-- The partition loop `while (i <= j)`, shell.c:46-73, in a call for `[lo, hi]`. -/
def partLoop (deriv : Bool) (mid : F) (lo hi : ℤ) : ℕ → SMem F → ℤ → ℤ → Option (SMem F × ℤ × ℤ)
  | 0, _, _, _ => none
  | f + 1, m, i, j =>
    if i ≤ j then
      (scanUp (m .screen) mid lo hi (hi - lo + 2).toNat i).bind fun i =>
      (scanDown (m .screen) mid lo hi (hi - lo + 2).toNat j).bind fun j =>
      if i ≤ j then partLoop deriv mid lo hi f (swapAll deriv m i j) (i + 1) (j - 1)
      else partLoop deriv mid lo hi f m i j
    else some (m, i, j)

/-- `simint_shellpair_screenval_quicksort`, shell.c:37-76 (`(i + j) / 2` with C division). -/
def qsort (deriv : Bool) : ℕ → SMem F → ℤ → ℤ → Option (SMem F)
  | 0, _, _, _ => none
  | f + 1, m, left, right =>
    let p := (left + right).tdiv 2
    if left ≤ p ∧ p ≤ right then
      (partLoop deriv (m .screen p) left right (right - left + 2).toNat m left right).bind fun r =>
      (if r.2.1 < right then qsort deriv f r.1 r.2.1 right else some r.1).bind fun m1 =>
      if left < r.2.2 then qsort deriv f m1 left r.2.2 else some m1
    else none

/-- State of the loop of `simint_sort_multi_shellpair`. -/
structure SortSt (F : Type) where
  mem : SMem F
  idx : ℕ
  ab : ℕ

/-- Loop body, shell.c:86-126. -/
def sortStep (len : ℕ) (deriv : Bool) (npair : ℕ) (st : SortSt F) (n : ℕ) : Option (SortSt F) :=
  (qsort deriv (n + 1) st.mem st.idx (st.idx + n - 1)).map fun m =>
    let idx := st.idx + n
    let ab1 := st.ab + 1
    { mem := m
      idx := if ab1 % nshellSimd len = 0 ∨ npair ≤ ab1 then simdRound len idx else idx
      ab := ab1 }

/-- `simint_sort_multi_shellpair`, shell.c:78-128: the arrays afterwards; `nprim` is `P->nprim`. -/
def sortPairs (len : ℕ) (deriv : Bool) (nprim : ℕ) (nprim12 : List ℕ) (m : SMem F) : Option (SMem F) :=
  if nprim = 1 then some m
  else (nprim12.foldl (fun st n => st.bind fun st => sortStep len deriv nprim12.length st n)
    (some ⟨m, 0, 0⟩)).map SortSt.mem

end

end Simint
