import Verif.Spec.ERI
import Verif.Spec.Driver
import Verif.Function
import Verif.Spec.HRR
import Mathlib.Analysis.SpecialFunctions.Pow.Real

/-!
# What a generated function is supposed to return

Contracted electron repulsion integrals over shell pairs, and how a list of shell pairs holds the
data of given shell pairs.
-/

set_option autoImplicit false

open Real

namespace Simint

/-- A pair of primitives: product of the contraction coefficients and the two exponents. -/
structure PrimPair where
  coef : ℝ
  α : ℝ
  β : ℝ
  hα : 0 < α
  hβ : 0 < β

/-- A shell pair: two centers and the pairs of primitives. -/
structure ShellPair where
  A : Dir → ℝ
  B : Dir → ℝ
  prims : List PrimPair

/-- Contracted integral of a bra pair and a ket pair for four components. -/
noncomputable def contractedERI (S T : ShellPair) (a b c d : Exp) : ℝ :=
  (S.prims.map fun x => (T.prims.map fun y =>
    x.coef * y.coef * coulomb x.α x.β y.α y.β S.A S.B T.A T.B a b c d).sum).sum

/-- Element `i` of the arrays of the list holds the pair of primitives `x` on centers `A`, `B`:
sum of the exponents, weighted center, its distances to both centers, and the prefactor documented
for `prefac` (coefficients, Gaussian product factor, `√2 π^(5/4) / (α+β)`). -/
structure HoldsPrim (M : MSP ℝ) (i : ℕ) (A B : Dir → ℝ) (x : PrimPair) : Prop where
  alpha : M.alpha i = x.α + x.β
  pos : ∀ d, M.pos d i = (x.α * A d + x.β * B d) / (x.α + x.β)
  PA : ∀ d, M.PA d i = M.pos d i - A d
  PB : ∀ d, M.PB d i = M.pos d i - B d
  prefac : M.prefac i = x.coef * exp (-(x.α * x.β / (x.α + x.β)) * dist2 A B) *
    (√2 * π ^ ((5 : ℝ) / 4)) / (x.α + x.β)

/-- The list holds the shell pairs `S 0, S 1, …`, the primitives of pair `s` from element
`start s` on. -/
structure Holds (M : MSP ℝ) (start : ℕ → ℕ) (S : ℕ → ShellPair) : Prop where
  count : ∀ s < M.nclip, M.nprim12 s = (S s).prims.length
  AB : ∀ s < M.nclip, ∀ d, M.AB d s = (S s).A d - (S s).B d
  prims : ∀ s < M.nclip, ∀ k (h : k < (S s).prims.length),
    HoldsPrim M (start s + k) (S s).A (S s).B ((S s).prims[k])

/-- Primitives `i`, `j` pass the screening tests of the call (all do when the tolerance is not
positive). -/
def Call.Kept (c : Call ℝ) (i j : ℕ) : Prop :=
  ¬ (0 < c.tol ∧ c.P.screen i * c.Q.screenMax < c.tol) ∧
  ¬ (0 < c.tol ∧ vectorMax c.len (fun n => c.P.screen i * c.Q.screen (j / c.len * c.len + n)) < c.tol)

noncomputable instance (c : Call ℝ) (i j : ℕ) : Decidable (c.Kept i j) :=
  inferInstanceAs (Decidable (_ ∧ _))

/-- Contracted integral restricted to the pairs of primitives that pass the screening; `i0`, `j0`
are the positions of the first primitives in the lists. -/
noncomputable def screenedERI (call : Call ℝ) (i0 j0 : ℕ) (S T : ShellPair) (a b c d : Exp) : ℝ :=
  ∑ k : Fin S.prims.length, ∑ l : Fin T.prims.length,
    if call.Kept (i0 + k) (j0 + l) then
      S.prims[k].coef * T.prims[l].coef *
        coulomb S.prims[k].α S.prims[k].β T.prims[l].α T.prims[l].β S.A S.B T.A T.B a b c d
    else 0

/-- Iteration orders visit exactly the members of the sets. -/
structure GenCfg.OK (g : GenCfg) : Prop where
  D : EnumOK g.enumD
  Q : EnumOK g.enumQ
  V : EnumOK g.enumV

/-- The classes the generic run-time tables cover. -/
structure ClassOK (final : QAM) : Prop where
  valid : final.Valid
  tag : final.tag = ""
  bra : final.a + final.b ≤ 18
  ket : final.c + final.d ≤ 18

/-- Real square root and the exact Boys function. -/
noncomputable def realOps : FOps ℝ := ⟨Real.sqrt, boysF⟩

/-- What a call has to provide: a positive vector length, at least one primitive pair per ket
shell, arrays that cover the layouts, positive exponents (padding included), and an output array
that holds the results. -/
structure CallOK (final : QAM) (c : Call ℝ) : Prop where
  len : 0 < c.len
  prims : ∀ s < c.Q.nclip, 0 < c.Q.nprim12 s
  bra : tightStart c.P.nprim12 c.P.nclip ≤ c.P.alloc
  ket : ∀ s < c.Q.nclip,
    simdRound c.len (paddedStart c.len c.Q.nprim12 s + c.Q.nprim12 s) ≤ c.Q.alloc
  braPos : ∀ i < c.P.alloc, 0 < c.P.alpha i
  ketPos : ∀ j < c.Q.alloc, 0 < c.Q.alpha j
  out : c.P.nclip * c.Q.nclip * ncartQ final ≤ c.outSize

end Simint
