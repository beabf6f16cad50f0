import Verif.Spec.Driver

/-!
# What the statistics of primitive screening should say
-/

set_option autoImplicit false

namespace Simint.Stat

section
variable {F : Type}

/-- Number of primitives of a list of pairs. -/
def primCount (m : MSP F) : ℕ := ∑ s ∈ Finset.range m.nclip, m.nprim12 s

/-- Number of primitives in batch `b` of the ket: `2*len` pairs, fewer in the last batch. -/
def batchPrims (len : ℕ) (m : MSP F) (b : ℕ) : ℕ :=
  ∑ s ∈ Finset.range m.nclip with s / (2 * len) = b, m.nprim12 s

/-- Number of vectors in a row: every batch is filled up to full vectors. -/
def rowVecs (len : ℕ) (m : MSP F) : ℕ :=
  ∑ b ∈ Finset.range ((m.nclip + 2 * len - 1) / (2 * len)), (batchPrims len m b + len - 1) / len

/-- Pairs of a bra primitive and a lane of the ket whose product of screening values is large enough. -/
def significant [Mul F] [LinearOrder F] (e : DEnv F) : ℕ :=
  ((Finset.range (primCount e.P) ×ˢ Finset.range (rowVecs e.len e.Q * e.len)).filter fun p =>
    e.tol ≤ e.P.screen p.1 * e.Q.screen p.2).card

end

end Simint.Stat
