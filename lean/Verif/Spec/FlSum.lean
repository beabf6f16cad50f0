import Verif.FlSum
import Verif.FlRel
import Verif.Spec.Driver

/-!
# What the driver is supposed to compute on doubles

A contracted value is a sum of the values of the evaluated primitive quartets, added in some order.
-/

set_option autoImplicit false

namespace Simint

open Finset
open FlBoys (Arith)

/-- `x` is the result of adding the numbers of `m`, each of them once, in some order and grouping, with
a rounding after each addition. -/
inductive SumOf (F : Arith) : ℝ → Multiset ℝ → Prop
  | zero : SumOf F 0 0
  | one (x : ℝ) : SumOf F x {x}
  | add {a b : ℝ} {m n : Multiset ℝ} : SumOf F a m → SumOf F b n → SumOf F (F.fl (a + b)) (m + n)

/-- Doubles are not changed by rounding, and zero is a double. -/
structure Stable (F : Arith) : Prop where
  idem : ∀ y, F.fl (F.fl y) = F.fl y
  zero : F.fl 0 = 0

/-- The number is a double of this arithmetic. -/
def IsDouble (F : Arith) (x : ℝ) : Prop := F.fl x = x

section
variable {F : Arith}

/-- The values of the evaluated primitive quartets of bra shell `ab` and ket shell `cd`: bra primitives
stored without gaps, ket primitives in padded batches. Quartets whose ket prefactor is zero are left
out. -/
noncomputable def quartetValues (e : DEnv (Fd F)) (prim : ℕ → ℕ → Fd F → QAM → ℕ → Fd F) (ab cd : ℕ)
    (t : QAM) (c : ℕ) : Multiset ℝ :=
  let i := fun a => tightStart e.P.nprim12 ab + a
  let j := fun b => paddedStart e.len e.Q.nprim12 cd + b
  ∑ a ∈ range (e.P.nprim12 ab), ∑ b ∈ range (e.Q.nprim12 cd),
    if e.Kept (i a) (j b) ∧ e.Q.prefac (j b) ≠ 0 then
      {(prim (i a) (j b) (e.Q.prefac (j b)) t c).val} else 0

/-- A sum over the evaluated primitive quartets of bra shell `ab` and ket shell `cd`. -/
noncomputable def overPrims (e : DEnv (Fd F)) (ab cd : ℕ) (f : ℕ → ℕ → ℝ) : ℝ :=
  ∑ a ∈ range (e.P.nprim12 ab), ∑ b ∈ range (e.Q.nprim12 cd),
    if e.Kept (tightStart e.P.nprim12 ab + a) (paddedStart e.len e.Q.nprim12 cd + b) then
      f (tightStart e.P.nprim12 ab + a) (paddedStart e.len e.Q.nprim12 cd + b) else 0

end

end Simint
