import Verif.Spec.Driver
import Mathlib.Data.Real.Basic

/-! Vocabulary of C102. -/

set_option autoImplicit false

namespace Simint

/-- Element `k` of a list is not one of the primitives of its first `nclip` pairs. -/
def BetweenPairs (len : ℕ) (Q : MSP ℝ) (k : ℕ) : Prop :=
  ∀ s < Q.nclip, ¬ (paddedStart len Q.nprim12 s ≤ k ∧ k < paddedStart len Q.nprim12 s + Q.nprim12 s)

end Simint
