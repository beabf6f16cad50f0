import Verif.Hsum
import Verif.Spec.FlSum

/-! What the accumulation block of the (ss|ss) function adds to an element of the output. -/

set_option autoImplicit false

namespace Simint

open Finset
open FlBoys (Arith)

section
variable {F : Arith}

/-- The numbers that a request adds to element `k`: the lanes that belong to it. -/
noncomputable def AccReq.terms (k : ℕ) : AccReq (Fd F) → Multiset ℝ
  | .all idx v => if idx = k then ∑ n ∈ range 8, {(v n).val} else 0
  | .some off ptr v => ∑ n ∈ range 8, if ptr + off n = k then {(v n).val} else 0

/-- All lanes belong to elements of the array. -/
def AccReq.Within (size : ℕ) : AccReq (Fd F) → Prop
  | .all idx _ => idx < size
  | .some off ptr _ => ∀ n < 8, ptr + off n < size

end

end Simint
