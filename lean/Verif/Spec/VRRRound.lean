import Verif.FlApprox
import Verif.Spec.VRR

/-! What is to be compared with in the theorems on the rounding errors of the vertical stage. -/

set_option autoImplicit false

namespace Simint.VRRRound

open FlBoys (u)

/-- `P'` are the parameters `P` up to `k` roundings of quantities of size `Pm`. -/
structure ParNear (k : ℕ) (P' P Pm : VPar ℝ) : Prop where
  PA : ∀ i, Approx k (P'.PA i) (P.PA i) (Pm.PA i)
  PB : ∀ i, Approx k (P'.PB i) (P.PB i) (Pm.PB i)
  QA : ∀ i, Approx k (P'.QA i) (P.QA i) (Pm.QA i)
  QB : ∀ i, Approx k (P'.QB i) (P.QB i) (Pm.QB i)
  aopPQ : ∀ i, Approx k (P'.aopPQ i) (P.aopPQ i) (Pm.aopPQ i)
  aoqPQ : ∀ i, Approx k (P'.aoqPQ i) (P.aoqPQ i) (Pm.aoqPQ i)
  aop : Approx k P'.aop P.aop Pm.aop
  aoq : Approx k P'.aoq P.aoq Pm.aoq
  o2p : Approx k P'.o2p P.o2p Pm.o2p
  o2q : Approx k P'.o2q P.o2q Pm.o2q
  o2pq : Approx k P'.o2pq P.o2pq Pm.o2pq

/-- `Θ` bounds what the recurrence adds up: the recurrence with bounds of the parameters, and
something for underflow. -/
structure Majorant (Pm : VPar ℝ) (Θ : VFam ℝ) : Prop where
  I : ∀ n a b c d (i : Dir), a.Valid → b.Valid → c.Valid → d.Valid →
      Pm.PA i * Θ n a b c d + Pm.aopPQ i * Θ (n + 1) a b c d
      + (a.get i : ℝ) * (Pm.o2p + κ) *
        (Θ n (a.step i (-1)) b c d + Pm.aop * Θ (n + 1) (a.step i (-1)) b c d + 2 * κ)
      + (b.get i : ℝ) * (Pm.o2p + κ) *
        (Θ n a (b.step i (-1)) c d + Pm.aop * Θ (n + 1) a (b.step i (-1)) c d + 2 * κ)
      + (c.get i : ℝ) * (Pm.o2pq + κ) * Θ (n + 1) a b (c.step i (-1)) d
      + (d.get i : ℝ) * (Pm.o2pq + κ) * Θ (n + 1) a b c (d.step i (-1)) + 11 * κ
      ≤ Θ n (a.step i 1) b c d
  J : ∀ n a b c d (i : Dir), a.Valid → b.Valid → c.Valid → d.Valid →
      Pm.PB i * Θ n a b c d + Pm.aopPQ i * Θ (n + 1) a b c d
      + (a.get i : ℝ) * (Pm.o2p + κ) *
        (Θ n (a.step i (-1)) b c d + Pm.aop * Θ (n + 1) (a.step i (-1)) b c d + 2 * κ)
      + (b.get i : ℝ) * (Pm.o2p + κ) *
        (Θ n a (b.step i (-1)) c d + Pm.aop * Θ (n + 1) a (b.step i (-1)) c d + 2 * κ)
      + (c.get i : ℝ) * (Pm.o2pq + κ) * Θ (n + 1) a b (c.step i (-1)) d
      + (d.get i : ℝ) * (Pm.o2pq + κ) * Θ (n + 1) a b c (d.step i (-1)) + 11 * κ
      ≤ Θ n a (b.step i 1) c d
  K : ∀ n a b c d (i : Dir), a.Valid → b.Valid → c.Valid → d.Valid →
      Pm.QA i * Θ n a b c d + Pm.aoqPQ i * Θ (n + 1) a b c d
      + (c.get i : ℝ) * (Pm.o2q + κ) *
        (Θ n a b (c.step i (-1)) d + Pm.aoq * Θ (n + 1) a b (c.step i (-1)) d + 2 * κ)
      + (d.get i : ℝ) * (Pm.o2q + κ) *
        (Θ n a b c (d.step i (-1)) + Pm.aoq * Θ (n + 1) a b c (d.step i (-1)) + 2 * κ)
      + (a.get i : ℝ) * (Pm.o2pq + κ) * Θ (n + 1) (a.step i (-1)) b c d
      + (b.get i : ℝ) * (Pm.o2pq + κ) * Θ (n + 1) a (b.step i (-1)) c d + 11 * κ
      ≤ Θ n a b (c.step i 1) d
  L : ∀ n a b c d (i : Dir), a.Valid → b.Valid → c.Valid → d.Valid →
      Pm.QB i * Θ n a b c d + Pm.aoqPQ i * Θ (n + 1) a b c d
      + (c.get i : ℝ) * (Pm.o2q + κ) *
        (Θ n a b (c.step i (-1)) d + Pm.aoq * Θ (n + 1) a b (c.step i (-1)) d + 2 * κ)
      + (d.get i : ℝ) * (Pm.o2q + κ) *
        (Θ n a b c (d.step i (-1)) + Pm.aoq * Θ (n + 1) a b c (d.step i (-1)) + 2 * κ)
      + (a.get i : ℝ) * (Pm.o2pq + κ) * Θ (n + 1) (a.step i (-1)) b c d
      + (b.get i : ℝ) * (Pm.o2pq + κ) * Θ (n + 1) a (b.step i (-1)) c d + 11 * κ
      ≤ Θ n a b c (d.step i 1)

/-- Roundings after the steps to a total angular momentum of `l`. -/
def rounds (k0 kp : ℕ) (l : ℤ) : ℕ := k0 + (2 * kp + 8) * l.toNat

/-- Nothing overflows up to order plus angular momentum `N`: not the results, not the sums
`θ_n + aop θ_(n+1)` inside of a step, not the multiples of `1/2p`, `1/2q` and `1/2(p+q)`. -/
structure NoOverflow (N k0 kp : ℕ) (Pm : VPar ℝ) (Θ : VFam ℝ) : Prop where
  val : ∀ (n : ℕ) (a b c d : Exp), a.Valid → b.Valid → c.Valid → d.Valid →
    (n : ℤ) + (a.am + b.am + c.am + d.am) ≤ N →
    (1 + u) ^ rounds k0 kp (a.am + b.am + c.am + d.am) * Θ n a b c d ≤ 2 ^ 1023
  bra : ∀ (n : ℕ) (a b c d : Exp), a.Valid → b.Valid → c.Valid → d.Valid →
    (n : ℤ) + (a.am + b.am + c.am + d.am) < N →
    (1 + u) ^ rounds k0 kp (a.am + b.am + c.am + d.am + 2) *
      (Θ n a b c d + Pm.aop * Θ (n + 1) a b c d + 2 * κ) ≤ 2 ^ 1023
  ket : ∀ (n : ℕ) (a b c d : Exp), a.Valid → b.Valid → c.Valid → d.Valid →
    (n : ℤ) + (a.am + b.am + c.am + d.am) < N →
    (1 + u) ^ rounds k0 kp (a.am + b.am + c.am + d.am + 2) *
      (Θ n a b c d + Pm.aoq * Θ (n + 1) a b c d + 2 * κ) ≤ 2 ^ 1023
  o2p : (1 + u) ^ kp * (N * Pm.o2p) ≤ 2 ^ 1023
  o2q : (1 + u) ^ kp * (N * Pm.o2q) ≤ 2 ^ 1023
  o2pq : (1 + u) ^ kp * (N * Pm.o2pq) ≤ 2 ^ 1023

/-- Bound of the integrals of total angular momentum `l` in closed form: `w` bounds
`|PA| + |aop PQ|`, `v` the factors of the lower integrals, `M` the `(ss|ss)` integrals. -/
noncomputable def growth (M w v : ℝ) (l : ℕ) : ℝ := M * ∏ j ∈ Finset.range l, (1 + w + j * v)

/-- Bounds of the parameters that the closed form needs. -/
structure ParBound (Pm : VPar ℝ) (w v : ℝ) : Prop where
  I : ∀ i, 0 ≤ Pm.PA i ∧ 0 ≤ Pm.aopPQ i ∧ Pm.PA i + Pm.aopPQ i ≤ w
  J : ∀ i, 0 ≤ Pm.PB i ∧ Pm.PB i + Pm.aopPQ i ≤ w
  K : ∀ i, 0 ≤ Pm.QA i ∧ 0 ≤ Pm.aoqPQ i ∧ Pm.QA i + Pm.aoqPQ i ≤ w
  L : ∀ i, 0 ≤ Pm.QB i ∧ Pm.QB i + Pm.aoqPQ i ≤ w
  p : 0 ≤ Pm.o2p ∧ 0 ≤ Pm.aop ∧ (Pm.o2p + κ) * (2 + Pm.aop) ≤ v
  q : 0 ≤ Pm.o2q ∧ 0 ≤ Pm.aoq ∧ (Pm.o2q + κ) * (2 + Pm.aoq) ≤ v
  pq : 0 ≤ Pm.o2pq ∧ Pm.o2pq + κ ≤ v

end Simint.VRRRound
