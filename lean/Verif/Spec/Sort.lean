import Verif.Sort
import Verif.Spec.ShellPairs

/-!
# What the sort of primitives is supposed to do
-/

set_option autoImplicit false

namespace Simint

/-- The arrays `m'` arise from `m` by reordering the primitives inside every pair (the same order for
every array that has an entry per primitive) such that the screening values of a pair are in
descending order; nothing else changes.  Pair `s` has `np s` primitives from element `start s` on. -/
structure Reordered {F : Type} [LE F] (g : ShCfg) (npair : ℕ) (np start : ℕ → ℕ) (m m' : Arr → ℕ → F) :
    Prop where
  perm : ∀ s < npair, ∃ σ : Equiv.Perm (Fin (np s)), ∀ a, PerPrim g a → ∀ k : Fin (np s),
    m' a (start s + k) = m a (start s + σ k)
  sorted : ∀ s < npair, ∀ k l, k ≤ l → l < np s → m' .screen (start s + l) ≤ m' .screen (start s + k)
  rest : ∀ a i, (PerPrim g a → ∀ s < npair, ¬ (start s ≤ i ∧ i < start s + np s)) → m' a i = m a i

/-- The arrays after `simint_fill_multi_shellpair2` including the final sort, shell.c:425-577. -/
noncomputable def completeFill {F : Type} [Field F] [LinearOrder F] (g : ShCfg) (ops : ShOps F)
    (scr : PrimScreen F) (big : F) (ps : List (Shell F × Shell F)) (mf : ℕ → F) : Option (Arr → ℕ → F) :=
  let st := fillPairs g ops scr big ps
  let n := allocPrims g.len ps
  let m := bufView g ps.length n (applyFlat g ps.length n st.log mf)
  if g.screening then
    (sortPairs g.len g.deriv st.nprim st.nprim12 fun a k => m a k.toNat).map fun m' a i => m' a (i : ℤ)
  else some m

/-- The list that results from a complete fill, with its arrays `alpha2` and `beta2`. -/
noncomputable def completeList {F : Type} [Field F] [LinearOrder F] (g : ShCfg) (ops : ShOps F)
    (scr : PrimScreen F) (big : F) (ps : List (Shell F × Shell F)) (mf : ℕ → F) :
    Option (MSP F × (ℕ → F) × (ℕ → F)) :=
  let st := fillPairs g ops scr big ps
  (completeFill g ops scr big ps mf).map fun m =>
    (mspOf m (allocPrims g.len ps) st.nprim12 st.screenMax, m .alpha2, m .beta2)

end Simint
