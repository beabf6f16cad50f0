import Verif.FlApprox
import Verif.Spec.HRR

/-! What is to be compared with in the theorems on the rounding errors of the horizontal stage. -/

set_option autoImplicit false

namespace Simint.HRRRound

/-- `Θ` bounds what the recursion adds up: the relation of the family with absolute values, and
something for underflow. `lb`, `lk`: the first center of the pair is the stepped one. -/
structure Majorant (lb lk : Bool) (AB CD : Dir → ℝ) (Θ : Fam ℝ) : Prop where
  bra : ∀ a b c d i, a.Valid → b.Valid → c.Valid → d.Valid →
    if lb then Θ a (b.step i 1) c d + |AB i| * Θ a b c d + 2 * κ ≤ Θ (a.step i 1) b c d
    else Θ (a.step i 1) b c d + |AB i| * Θ a b c d + 2 * κ ≤ Θ a (b.step i 1) c d
  ket : ∀ a b c d i, a.Valid → b.Valid → c.Valid → d.Valid →
    if lk then Θ a b c (d.step i 1) + |CD i| * Θ a b c d + 2 * κ ≤ Θ a b (c.step i 1) d
    else Θ a b (c.step i 1) d + |CD i| * Θ a b c d + 2 * κ ≤ Θ a b c (d.step i 1)

/-- `∑ k, binom n k * h^(n-k) * f k`. -/
noncomputable def binSum (h : ℝ) (n : ℕ) (f : ℕ → ℝ) : ℝ :=
  ∑ k ∈ Finset.range (n + 1), (n.choose k : ℝ) * h ^ (n - k) * f k

/-- The same in three directions: the sum over all exponents up to `b` of the terms of the binomial
theorem with `|h|`. -/
noncomputable def binSum3 (h : Dir → ℝ) (b : Exp) (f : Exp → ℝ) (a : Exp) : ℝ :=
  binSum |h .x| b.x.toNat fun i => binSum |h .y| b.y.toNat fun j => binSum |h .z| b.z.toNat fun k =>
    f ⟨a.x + i, a.y + j, a.z + k⟩

/-- Sum of the absolute values of the terms that `(ab|cd)` consists of, `M e f` being the absolute
values of the integrals without angular momentum on the stepped centers. -/
noncomputable def absSum (lb lk : Bool) (AB CD : Dir → ℝ) (M : Exp → Exp → ℝ) (a b c d : Exp) : ℝ :=
  binSum3 AB (if lb then a else b)
    (fun e => binSum3 CD (if lk then c else d) (M e) (if lk then d else c)) (if lb then b else a)

/-- Absolute values of the integrals without angular momentum on the stepped centers. -/
def topAbs (lb lk : Bool) (θ : Fam ℝ) (e f : Exp) : ℝ :=
  |θ (if lb then ⟨0, 0, 0⟩ else e) (if lb then e else ⟨0, 0, 0⟩)
    (if lk then ⟨0, 0, 0⟩ else f) (if lk then f else ⟨0, 0, 0⟩)|

end Simint.HRRRound
