import Mathlib.Tactic.Ring
import Mathlib.Tactic.Linarith
import Mathlib.Tactic.Common
import Mathlib.Data.List.Basic
import Mathlib.Data.List.Sort
import Mathlib.Data.List.Nodup
import Mathlib.Data.List.Perm.Basic
import Mathlib.Data.List.Dedup
import Mathlib.Algebra.Order.Group.Unbundled.Int

/-!
# Cartesian exponents and their ordering (model)

Models `Gaussian` of `generator/Types.hpp`, `NCART` of `generator/Ncart.hpp`, the python
enumeration in `python/ordering_common`, the Makowski direction choice of
`generator/ostei/Makowski.hpp` and the record builder of `python/gen_recurinfo.py`.
-/

namespace Simint

/-- Cartesian direction; `XYZStep` in generator/Types.hpp:183-188. -/
inductive Dir | x | y | z
  deriving DecidableEq, Repr

/-- `XYZStepToIdx`, generator/Types.hpp:233-241. -/
def Dir.idx : Dir → ℕ
  | .x => 0
  | .y => 1
  | .z => 2

/-- Exponents of a Cartesian Gaussian, `Gaussian::ijk`, generator/Types.hpp:253-256.
Entries are C `int`s and may be negative (modelled as unbounded integers). -/
@[ext] structure Exp where
  x : ℤ
  y : ℤ
  z : ℤ
  deriving DecidableEq, Repr

namespace Exp

/-- `ijk[idx]`. -/
def get (e : Exp) : Dir → ℤ
  | .x => e.x
  | .y => e.y
  | .z => e.z

/-- `StepUp(idx, n)`, generator/Types.hpp:340-345 (`StepDown` is `n` negative, 364-369). -/
def step (e : Exp) (d : Dir) (n : ℤ) : Exp :=
  match d with
  | .x => ⟨e.x + n, e.y, e.z⟩
  | .y => ⟨e.x, e.y + n, e.z⟩
  | .z => ⟨e.x, e.y, e.z + n⟩

/-- `Gaussian::am`, generator/Types.hpp:259. -/
def am (e : Exp) : ℤ := e.x + e.y + e.z

/-- `Gaussian::operator bool`, generator/Types.hpp:305-308. -/
def Valid (e : Exp) : Prop := 0 ≤ e.x ∧ 0 ≤ e.y ∧ 0 ≤ e.z

instance (e : Exp) : Decidable e.Valid := by unfold Valid; infer_instance

@[simp] theorem am_step (e : Exp) (d : Dir) (n : ℤ) : (e.step d n).am = e.am + n := by
  cases d <;> simp [step, am] <;> ring

@[simp] theorem get_step_self (e : Exp) (d : Dir) (n : ℤ) : (e.step d n).get d = e.get d + n := by
  cases d <;> simp [step, get]

theorem get_step_ne (e : Exp) {d d' : Dir} (n : ℤ) (h : d' ≠ d) :
    (e.step d n).get d' = e.get d' := by
  cases d <;> cases d' <;> simp_all [step, get]

@[simp] theorem step_zero (e : Exp) (d : Dir) : e.step d 0 = e := by
  cases d <;> simp [step]

@[simp] theorem step_step (e : Exp) (d : Dir) (n k : ℤ) :
    (e.step d n).step d k = e.step d (n + k) := by
  cases d <;> simp [step, add_assoc]

theorem valid_step_iff (e : Exp) (d : Dir) (n : ℤ) (h : e.Valid) :
    (e.step d n).Valid ↔ 0 ≤ e.get d + n := by
  obtain ⟨h1, h2, h3⟩ := h
  cases d <;> simp [step, Valid, get, *]

theorem valid_iff (e : Exp) : e.Valid ↔ ∀ d, 0 ≤ e.get d := by
  constructor
  · rintro ⟨h1, h2, h3⟩ d; cases d <;> assumption
  · intro h; exact ⟨h .x, h .y, h .z⟩

theorem Valid.am_nonneg {e : Exp} (h : e.Valid) : 0 ≤ e.am := by
  obtain ⟨h1, h2, h3⟩ := h; simp only [am]; omega

theorem Valid.get_le_am {e : Exp} (h : e.Valid) (d : Dir) : e.get d ≤ e.am := by
  obtain ⟨h1, h2, h3⟩ := h; cases d <;> simp only [am, get] <;> omega

theorem ext_get {e f : Exp} (h : ∀ d, e.get d = f.get d) : e = f :=
  Exp.ext (h .x) (h .y) (h .z)

/-- The pure-x component `(am,0,0)`. -/
def px (n : ℤ) : Exp := ⟨n, 0, 0⟩

end Exp

/-- `NCART_(am)`, generator/Ncart.hpp:13 (also `Gaussian::ncart`, Types.hpp:267): number of
Cartesian components; 0 for negative `am`. -/
def ncart (am : ℤ) : ℕ := if 0 ≤ am then (am.toNat + 2) * (am.toNat + 1) / 2 else 0

/-! ## The python enumeration -/

/-- `Gaussian.IsValid` in python/ordering_common/gaussian.py:18-22. -/
def pyValid (am : ℤ) (e : Exp) : Bool :=
  decide (0 ≤ e.x ∧ e.x ≤ am ∧ 0 ≤ e.y ∧ e.y ≤ am ∧ 0 ≤ e.z ∧ e.z ≤ am ∧ e.x + e.y + e.z = am)

/-- `IteratePsi4`, python/ordering_common/ordering_psi4.py:3-13. -/
def iteratePsi4 (am : ℤ) (e : Exp) : Exp :=
  if e.z = am then ⟨-1, -1, -1⟩
  else if e.z < am - e.x then ⟨e.x, e.y - 1, e.z + 1⟩
  else ⟨e.x - 1, am - e.x + 1, 0⟩

/-- The `while g.IsValid()` loop of `GenerateMap`, python/ordering_common/generate.py:10-13.
`fuel` bounds the number of iterations; `generateMap_get` (CartLemmas) shows it is never exhausted. -/
def genLoop (am : ℤ) : ℕ → Exp → List Exp
  | 0, _ => []
  | f + 1, g =>
    let g' := iteratePsi4 am g
    if pyValid am g' then g' :: genLoop am f g' else []

/-- `GenerateMap(..., IteratePsi4)[am]`, python/ordering_common/generate.py:3-15. -/
def generateMap (fuel : ℕ) (am : ℤ) : List Exp :=
  ⟨am, 0, 0⟩ :: genLoop am fuel ⟨am, 0, 0⟩

/-- The Psi4 order for a given AM (generator/Ordering_Psi4.cpp is the printed form). -/
def psi4List (am : ℕ) : List Exp := generateMap (ncart am) am

/-! ## Direction choice -/

/-- The value `*v` of Makowski.hpp:49-51 (and 113-115, 182-184): sort, first non-zero.
`none` is the C++ dereference of `end()`. -/
def firstNonzero (e : Exp) : Option ℤ :=
  ([e.x, e.y, e.z].insertionSort (· ≤ ·)).find? (fun i => i ≠ 0)

/-- Index by reverse search, Makowski.hpp:52-53: distance from the right of the first match. -/
def makDir (e : Exp) : Option Dir :=
  (firstNonzero e).map fun v =>
    if e.z = v then .z else if e.y = v then .y else .x

/-- Direction computed by python/gen_recurinfo.py:71-77: smallest `> 0`, then index in the
reversed list. -/
def pyDir (e : Exp) : Option Dir :=
  if e.am = 0 then none
  else (([e.x, e.y, e.z].insertionSort (· ≤ ·)).find? (fun i => i > 0)).bind fun m =>
    match [e.z, e.y, e.x].findIdx? (· = m) with
    | some 0 => some .z
    | some 1 => some .y
    | some 2 => some .x
    | _ => none

end Simint
