import Verif.VRR

/-!
# Specification of the vertical stage: the eight-term Obara-Saika recurrence

A family `θ n a b c d` of auxiliary integrals (order `n`, exponents of the four centers) satisfies
the recurrence on each of the four centers.  A term whose lowered exponent is zero has a zero
factor, so values of `θ` at negative exponents do not matter.
-/

set_option autoImplicit false

namespace Simint

variable {F : Type} [CommRing F]

abbrev VFam (F : Type) := ℕ → Exp → Exp → Exp → Exp → F

/-- The recurrence on all four centers, for parameters `P`. -/
structure VRRFam (P : VPar F) (θ : VFam F) : Prop where
  I : ∀ n a b c d (i : Dir), a.Valid → b.Valid → c.Valid → d.Valid →
    θ n (a.step i 1) b c d =
      P.PA i * θ n a b c d + P.aopPQ i * θ (n + 1) a b c d
      + (a.get i : F) * P.o2p * (θ n (a.step i (-1)) b c d + P.aop * θ (n + 1) (a.step i (-1)) b c d)
      + (b.get i : F) * P.o2p * (θ n a (b.step i (-1)) c d + P.aop * θ (n + 1) a (b.step i (-1)) c d)
      + (c.get i : F) * P.o2pq * θ (n + 1) a b (c.step i (-1)) d
      + (d.get i : F) * P.o2pq * θ (n + 1) a b c (d.step i (-1))
  J : ∀ n a b c d (i : Dir), a.Valid → b.Valid → c.Valid → d.Valid →
    θ n a (b.step i 1) c d =
      P.PB i * θ n a b c d + P.aopPQ i * θ (n + 1) a b c d
      + (a.get i : F) * P.o2p * (θ n (a.step i (-1)) b c d + P.aop * θ (n + 1) (a.step i (-1)) b c d)
      + (b.get i : F) * P.o2p * (θ n a (b.step i (-1)) c d + P.aop * θ (n + 1) a (b.step i (-1)) c d)
      + (c.get i : F) * P.o2pq * θ (n + 1) a b (c.step i (-1)) d
      + (d.get i : F) * P.o2pq * θ (n + 1) a b c (d.step i (-1))
  K : ∀ n a b c d (i : Dir), a.Valid → b.Valid → c.Valid → d.Valid →
    θ n a b (c.step i 1) d =
      P.QA i * θ n a b c d + P.aoqPQ i * θ (n + 1) a b c d
      + (c.get i : F) * P.o2q * (θ n a b (c.step i (-1)) d + P.aoq * θ (n + 1) a b (c.step i (-1)) d)
      + (d.get i : F) * P.o2q * (θ n a b c (d.step i (-1)) + P.aoq * θ (n + 1) a b c (d.step i (-1)))
      + (a.get i : F) * P.o2pq * θ (n + 1) (a.step i (-1)) b c d
      + (b.get i : F) * P.o2pq * θ (n + 1) a (b.step i (-1)) c d
  L : ∀ n a b c d (i : Dir), a.Valid → b.Valid → c.Valid → d.Valid →
    θ n a b c (d.step i 1) =
      P.QB i * θ n a b c d + P.aoqPQ i * θ (n + 1) a b c d
      + (c.get i : F) * P.o2q * (θ n a b (c.step i (-1)) d + P.aoq * θ (n + 1) a b (c.step i (-1)) d)
      + (d.get i : F) * P.o2q * (θ n a b c (d.step i (-1)) + P.aoq * θ (n + 1) a b c (d.step i (-1)))
      + (a.get i : F) * P.o2pq * θ (n + 1) (a.step i (-1)) b c d
      + (b.get i : F) * P.o2pq * θ (n + 1) a (b.step i (-1)) c d

end Simint
