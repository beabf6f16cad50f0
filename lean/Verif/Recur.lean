import Verif.Types

/-!
# Recursion records (model of python/gen_recurinfo.py and skel/simint/recur_lookup.h)
-/

namespace Simint

/-- `struct RecurInfo`, skel/simint/recur_lookup.h; `m1 d`, `m2 d`, `p1 d` are
`idx[d][0]`, `idx[d][1]`, `idx[d][2]`. -/
structure RecurInfo where
  ijk : Exp
  dir : ℤ
  m1 : Dir → ℤ
  m2 : Dir → ℤ
  p1 : Dir → ℤ

/-- `FindIndex`, python/gen_recurinfo.py:12-16. -/
def findIndex (l : List Exp) (e : Exp) : ℤ :=
  match l.findIdx? (· = e) with
  | some i => i
  | none => -1

/-- One record, python/gen_recurinfo.py:65-118, for a component `vi` of AM `k`. -/
def recurRow (k : ℕ) (vi : Exp) : RecurInfo where
  ijk := vi
  dir := if k = 0 then -1 else
    match pyDir vi with
    | some d => d.idx
    | none => -1
  m1 := fun d => if k = 0 then -1 else findIndex (psi4List (k - 1)) (vi.step d (-1))
  m2 := fun d => if k > 1 then findIndex (psi4List (k - 2)) (vi.step d (-2)) else -1
  p1 := fun d => if k = 0 then d.idx else findIndex (psi4List (k + 1)) (vi.step d 1)

/-- The rows of AM `k`. -/
def recurRows (k : ℕ) : List RecurInfo := (psi4List k).map (recurRow k)

/-- `recurinfo_array`, python/gen_recurinfo.py:59-126. -/
def recurArrayGen (maxam : ℕ) : List RecurInfo := (List.range (maxam + 1)).flatMap recurRows

/-- `am_recur_map`, python/gen_recurinfo.py:56-63, 131-133: running count of components. -/
def recurStart : ℕ → ℕ
  | 0 => 0
  | k + 1 => recurStart k + (psi4List k).length

/-- printed form of a row -/
def RecurInfo.print (r : RecurInfo) : List ℤ :=
  [r.ijk.x, r.ijk.y, r.ijk.z, r.dir, r.m1 .x, r.m2 .x, r.p1 .x, r.m1 .y, r.m2 .y, r.p1 .y,
    r.m1 .z, r.m2 .z, r.p1 .z]

end Simint
