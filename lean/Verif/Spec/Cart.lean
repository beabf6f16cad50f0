import Verif.Cart

/-!
# Specification vocabulary for Cartesian components

Independent of how the generator enumerates components.
-/

namespace Simint

/-- `e` is a Cartesian component of angular momentum `am`. -/
def IsComp (am : ℕ) (e : Exp) : Prop := 0 ≤ e.x ∧ 0 ≤ e.y ∧ 0 ≤ e.z ∧ e.x + e.y + e.z = am

/-- A Cartesian order: for every AM a list with each component exactly once. -/
structure OrdOK (ord : ℕ → List Exp) : Prop where
  nodup : ∀ am, (ord am).Nodup
  mem : ∀ am e, e ∈ ord am ↔ IsComp am e

/-- Component number in an order; `GaussianOrder`, generator/Types.cpp:74-86. -/
def cidx (ord : ℕ → List Exp) (e : Exp) : ℕ := (ord e.am.toNat).idxOf e

/-- `d` is the direction of the smallest positive exponent, right-most among equals. -/
def SmallestRight (e : Exp) (d : Dir) : Prop :=
  0 < e.get d ∧ ∀ d', 0 < e.get d' → e.get d < e.get d' ∨ (e.get d = e.get d' ∧ d'.idx ≤ d.idx)

end Simint
