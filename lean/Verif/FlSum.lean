import Verif.FlBoys
import Verif.Driver

/-!
# The driver on doubles

`Fd F` is a double: a real number together with the arithmetic `F` (Verif/FlBoys.lean), whose sums and
products are rounded.  The definitions of `Verif/Simd.lean` and `Verif/Driver.lean` ask only for an
addition, a multiplication and comparisons; on `Fd F` they are the loops of the generated functions with
rounding after every `+=` of the `contract` functions (skel/simint/vectorization/intrinsics_*.h) and
after every product of the primitive screening (OSTEI_Writer.cpp:503, 577).

`contract_all` is the loop over lanes here (scalar, SSE and gcc AVX builds); the other builds are in
`Verif/Hsum.lean`.  Simplified: no overflow, no NaN.
-/

set_option autoImplicit false

namespace Simint

open FlBoys (Arith)

/-- A double. -/
structure Fd (F : Arith) where
  val : ℝ

namespace Fd

variable {F : Arith}

theorem val_injective : Function.Injective (val : Fd F → ℝ) := by
  rintro ⟨a⟩ ⟨b⟩ h
  simpa using h

instance : Zero (Fd F) := ⟨⟨0⟩⟩

noncomputable instance : Add (Fd F) := ⟨fun a b => ⟨F.fl (a.val + b.val)⟩⟩

noncomputable instance : Mul (Fd F) := ⟨fun a b => ⟨F.fl (a.val * b.val)⟩⟩

noncomputable instance : LinearOrder (Fd F) := LinearOrder.lift' val val_injective

end Fd

end Simint
