import Verif.Function

/-! Which classes each stage forms, written down without the searches. -/

set_option autoImplicit false

namespace Simint

/-- The pair `r` comes from the pair `p` by moving angular momentum away from the left center (or the
right one): the other center does not lose, the sum does not grow. -/
def PairBelow (left : Bool) (p r : ℤ × ℤ) : Prop :=
  if left then 0 ≤ r.1 ∧ p.2 ≤ r.2 ∧ r.1 + r.2 ≤ p.1 + p.2
  else 0 ≤ r.2 ∧ p.1 ≤ r.1 ∧ r.1 + r.2 ≤ p.1 + p.2

/-- All of it has been moved: `(e 0)` with `a ≤ e ≤ a + b`, or `(0 e)` with `b ≤ e ≤ a + b`. -/
def PairDone (left : Bool) (p r : ℤ × ℤ) : Prop :=
  if left then r.1 = 0 ∧ p.2 ≤ r.2 ∧ r.2 ≤ p.1 + p.2
  else r.2 = 0 ∧ p.1 ≤ r.1 ∧ r.1 ≤ p.1 + p.2

/-- Classes the horizontal stage asks the vertical stage for. -/
def HTop (bl kl : Bool) (q t : QAM) : Prop :=
  t.tag = q.tag ∧ PairDone bl (q.a, q.b) (t.a, t.b) ∧ PairDone kl (q.c, q.d) (t.c, t.d)

/-- Classes the horizontal stage forms: first the ket is done with the bra as requested, then the bra. -/
def HFormed (bl kl : Bool) (q t : QAM) : Prop :=
  t.tag = q.tag ∧
    ((t.a, t.b) = (q.a, q.b) ∧ PairBelow kl (q.c, q.d) (t.c, t.d) ∨
      PairBelow bl (q.a, q.b) (t.a, t.b) ∧ PairDone kl (q.c, q.d) (t.c, t.d)) ∧
    ((if bl then 0 < t.a else 0 < t.b) ∨ if kl then 0 < t.c else 0 < t.d)

/-- The larger of the two numbers of a pair; the other center is emptied. -/
def keptMax (a b : ℤ) : ℤ := max a b

/-- Classes `(x|y)` (angular momentum `x` on one center of the bra, `y` on one of the ket) formed by the
vertical stage for the class `(a b|c d)`.  The pair with the smaller sum is reduced first (the ket if they
are equal); only while it is reduced the other one can lose, one for one. -/
def VFormed (q : QAM) (x y : ℤ) : Prop :=
  0 ≤ x ∧ 0 ≤ y ∧ x ≤ q.a + q.b ∧ y ≤ q.c + q.d ∧ (x ≠ 0 ∨ y ≠ 0) ∧
    if q.a + q.b < q.c + q.d then x = 0 ∨ keptMax q.c q.d ≤ y + (q.a + q.b - x)
    else y = 0 ∨ keptMax q.a q.b ≤ x + (q.c + q.d - y)

end Simint
