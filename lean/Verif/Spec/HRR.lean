import Verif.Cart
import Mathlib.Algebra.Module.LinearMap.Basic
import Mathlib.Algebra.Module.Pi

/-!
# Specification of the horizontal recurrence

A family of two-electron quantities indexed by four Cartesian components.  The prototype is a
linear functional applied to products of shifted monomials.
-/

namespace Simint

/-- `enum` visits exactly the members of the set (iteration over a `std::set` in
some order). -/
def EnumOK {α : Type} (enum : List α → List α) : Prop := ∀ l x, x ∈ enum l ↔ x ∈ l

/-- Value of a quantity for four Cartesian components. -/
abbrev Fam (R : Type) := Exp → Exp → Exp → Exp → R

/-- The family shifts angular momentum between the two centers of a pair with the center
differences `AB`, `CD`:  (a, b+1) = (a+1, b) + AB (a, b). -/
structure HRRFam {R : Type} [CommRing R] (AB CD : Dir → R) (θ : Fam R) : Prop where
  bra : ∀ a b c d i, a.Valid → b.Valid → c.Valid → d.Valid →
    θ a (b.step i 1) c d = θ (a.step i 1) b c d + AB i * θ a b c d
  ket : ∀ a b c d i, a.Valid → b.Valid → c.Valid → d.Valid →
    θ a b c (d.step i 1) = θ a b (c.step i 1) d + CD i * θ a b c d

/-- Product of shifted powers `(r_x - A_x)^i (r_y - A_y)^j (r_z - A_z)^k`. -/
def mono {R : Type} [CommRing R] (A : Dir → R) (e : Exp) (r : Dir → R) : R :=
  (r .x - A .x) ^ e.x.toNat * (r .y - A .y) ^ e.y.toNat * (r .z - A .z) ^ e.z.toNat

/-- A linear functional on functions of two points applied to the product of four shifted
monomials (contracted integrals are of this form, with Gaussian weights and contraction
coefficients inside the functional). -/
def functionalFam {R : Type} [CommRing R] (Λ : ((Dir → R) → (Dir → R) → R) →ₗ[R] R)
    (A B C D : Dir → R) : Fam R :=
  fun a b c d => Λ fun r1 r2 => mono A a r1 * mono B b r1 * mono C c r2 * mono D d r2

/-- Component pairs of two shells, row-major. -/
def pairs (ord : ℕ → List Exp) (i j : ℕ) : List (Exp × Exp) :=
  (ord i).flatMap fun a => (ord j).map fun b => (a, b)

/-- The block of a quantity for four shells, as it is laid out in memory. -/
def block {R : Type} (ord : ℕ → List Exp) (θ : Fam R) (i j k l : ℕ) : List R :=
  (pairs ord i j).flatMap fun ab => (pairs ord k l).map fun cd => θ ab.1 ab.2 cd.1 cd.2

end Simint
