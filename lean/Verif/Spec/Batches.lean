import Verif.Shell
import Mathlib.Data.Real.Basic

/-!
# Lists of bra pairs with full batches
-/

set_option autoImplicit false

namespace Simint

/-- Number of combinations of primitives that the fill routines store for a pair. -/
def storedCount (p : Shell ℝ × Shell ℝ) : ℕ :=
  if p.1.nprim = p.2.nprim ∧ p.1.ptr = p.2.ptr then p.1.nprim * (p.1.nprim + 1) / 2 else p.1.nprim * p.2.nprim

/-- Every complete batch of pairs (twice the vector length) that is followed by another pair holds,
with all batches before it, a multiple of the vector length of primitives. -/
def BatchesFull (len : ℕ) (ps : List (Shell ℝ × Shell ℝ)) : Prop :=
  ∀ b, (b + 1) * (2 * len) < ps.length → len ∣ ((ps.take ((b + 1) * (2 * len))).map storedCount).sum

end Simint
