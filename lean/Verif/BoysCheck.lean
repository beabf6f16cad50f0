import Verif.BoysTable

/-!
# Check of the table of the Boys function

Interval arithmetic with natural numbers (scale 10^60): the downward recursion is run for every row
from order 160, starting with the interval `[0, 1]`, and every entry of the table is compared with
the result.  The meaning of the check is proved in `BoysGrid.lean`.
-/

set_option autoImplicit false

namespace Simint

/-- One step of the recursion at `x = i / 10`, rounded down: `(2 x v + e) / (2 n + 1)`. -/
def boysStep (i e n v : Nat) : Nat := (2 * i * v + 10 * e) / (10 * (2 * n + 1))

/-- Entry `t` (scale 10^34) differs from every number of `[lo, hi]` by at most `lo / (2 * 10^17)`. -/
def boysEntry (t lo hi : Nat) : Bool :=
  Nat.ble (t * 10 ^ 26) (lo + lo / (2 * 10 ^ 17)) && Nat.ble hi (t * 10 ^ 26 + lo / (2 * 10 ^ 17))

/-- Orders `n-1, …, 0` of row `i`; `[lo, hi]` is the interval for order `n`, `[elo, ehi]` the interval
for `exp (-x)`, the last entry of `row` belongs to order `min 31 (n-1)`. -/
def boysRow (i elo ehi : Nat) : Nat → Nat → Nat → Nat → Bool
  | 0, _, _, _ => true
  | n + 1, lo, hi, row =>
    let lo' := boysStep i elo n lo
    let hi' := boysStep i ehi n hi + 1
    if n < 32 then boysEntry (row % 10 ^ 35) lo' hi' && boysRow i elo ehi n lo' hi' (row / 10 ^ 35)
    else boysRow i elo ehi n lo' hi' row

/-- Bounds of `exp (-1/10)`, scale 10^60. -/
def expLo : Nat := 904837418035959573164249059446436621194705360980400952056257
def expHi : Nat := 904837418035959573164249059446436621194705360980400952056258

/-- All rows from row `i` on. -/
def boysRows : Nat → Nat → Nat → List Nat → Bool
  | _, _, _, [] => true
  | i, elo, ehi, row :: rows =>
    boysRow i elo ehi 160 0 (10 ^ 60) row &&
      boysRows (i + 1) (elo * expLo / 10 ^ 60) (ehi * expHi / 10 ^ 60 + 1) rows

end Simint
