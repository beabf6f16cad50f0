import Verif.Spec.FlBasis
import Verif.Spec.FlScreen

/-!
# Specification for C106: integrals of any class over basis sets, screened with computed Schwarz values
-/

set_option autoImplicit false

namespace Simint

/-- The number `v` differs by at most `d` from one that has the error of `BasisError` (C96). -/
def ClassDropError (G : List (Shell ℝ)) (K : ℕ) (R : ℝ) (final : QAM) (kb : ℕ) (p q : ℕ × ℕ) (x y z w : Exp)
    (v d : ℝ) : Prop :=
  ∃ v', |v - v'| ≤ d ∧ BasisError G K R final kb p q x y z w v'

/-- The pairs of exactly normalised shells. -/
noncomputable def normedPairs (G : List (Shell ℝ)) (prs : List (ℕ × ℕ)) : List (Shell ℝ × Shell ℝ) :=
  prs.map fun p => (normedShell (shellAt G p.1), normedShell (shellAt G p.2))

/-- What screening with tolerance `t` may leave out of the integrals of two pairs; `e` and `V` are the bounds of
`SelfBelow` for the exactly normalised shells. -/
noncomputable def schwarzDrop (G : List (Shell ℝ)) (t e V : ℝ) (p q : ℕ × ℕ) : ℝ :=
  quartets (shellAt G p.1) (shellAt G p.2) (shellAt G q.1) (shellAt G q.2) * dropMax 1 t (2 * e) (2 * V + 2 * e)

end Simint
