import Verif.Spec.FlBasis
import Verif.Spec.FlScreen
import Verif.Spec.FlFast

/-!
# Specification for C105: screened integrals over basis sets
-/

set_option autoImplicit false

namespace Simint

open FlFast (s0)

/-- The number `v` differs by at most `d` from one that has the error of `BasisError` (C96). -/
def DropError (G : List (Shell ℝ)) (K : ℕ) (R : ℝ) (kb : ℕ) (p q : ℕ × ℕ) (v d : ℝ) : Prop :=
  ∃ v', |v - v'| ≤ d ∧ BasisError G K R ssss kb p q s0 s0 s0 s0 v'

/-- The exact fast values of pairs of normalised shells are at most `V`. -/
def FastBelow (G : List (Shell ℝ)) (prs : List (ℕ × ℕ)) (V : ℝ) : Prop :=
  ∀ p ∈ prs, ∀ i < (shellAt G p.1).nprim, ∀ j < (shellAt G p.2).nprim,
    fastVal (normedShell (shellAt G p.1)) (normedShell (shellAt G p.2)) i j ≤ V

/-- What screening with tolerance `t` may leave out of the integrals of two pairs. -/
noncomputable def dropAt (G : List (Shell ℝ)) (t V : ℝ) (p q : ℕ × ℕ) : ℝ :=
  quartets (shellAt G p.1) (shellAt G p.2) (shellAt G q.1) (shellAt G q.2) * FlFast.dropMax t (2 * V)

end Simint
