import Verif.Cat
import Verif.Spec.ShellPairs

/-!
# What concatenation is supposed to do
-/

set_option autoImplicit false

namespace Simint

/-- All pairs of the given lists, in order: list and number of the pair in it. -/
def pairsIn {F : Type} (ins : List (PairList F)) : List (PairList F × ℕ) :=
  ins.flatMap fun P => (List.range P.nprim12.length).map fun j => (P, j)

/-- The arrays `m` hold at pair `s` (primitives from element `start` on) the data of pair `j` of `P`. -/
def PairCopied {F : Type} (g : ShCfg) (m : Arr → ℕ → F) (start s : ℕ) (P : PairList F) (j : ℕ) : Prop :=
  (∀ a, PerPrim g a → ∀ k < P.nprim12.getD j 0,
    m a (start + k) = P.arr a (paddedStart g.len (fun t => P.nprim12.getD t 0) j + k)) ∧
  ∀ d, m (.AB d) s = P.arr (.AB d) j

/-- Arrays of the result of a concatenation, when the buffer contained `mf`. -/
noncomputable def catArrays {F : Type} [Field F] (g : ShCfg) (npair alloc : ℕ) (st : CatSt F) (mf : ℕ → F) :
    Arr → ℕ → F :=
  bufView g npair alloc (applyFlat g npair alloc st.log mf)

end Simint
