import Verif.Spec.FlShells
import Verif.Spec.FlNorm

/-!
# From basis sets to integrals on doubles

Normalised shells, their integrals with absolute values, and basis sets of moderate size.
-/

set_option autoImplicit false

namespace Simint

/-- The shell that a basis set table means: its coefficients refer to normalised primitives, and the
component `(l, 0, 0)` of the contracted function has norm 1. -/
noncomputable def normedShell (sh : Shell ℝ) : Shell ℝ :=
  { sh with coef := fun j => (primNorm sh).coef j /
      √(overlapInt (primNorm sh) (primNorm sh) ⟨sh.am, 0, 0⟩ ⟨sh.am, 0, 0⟩) }

/-- `shellERI` with the absolute value of each term. -/
noncomputable def shellERIAbs (A B C D : Shell ℝ) (a b c d : Exp) : ℝ :=
  ∑ i ∈ Finset.range A.nprim, ∑ j ∈ Finset.range B.nprim, ∑ k ∈ Finset.range C.nprim,
    ∑ l ∈ Finset.range D.nprim, |A.coef i * B.coef j * (C.coef k * D.coef l) *
      coulomb (A.alpha i) (B.alpha j) (C.alpha k) (D.alpha l) A.pos B.pos C.pos D.pos a b c d|

/-- Shell `i` of an array. -/
noncomputable def shellAt (G : List (Shell ℝ)) (i : ℕ) : Shell ℝ :=
  G.getD i ⟨0, 0, 0, fun _ => 0, fun _ => 0, fun _ => 0⟩

/-- Pairs of shells of an array, given by their numbers. -/
noncomputable def pairsAt (G : List (Shell ℝ)) (prs : List (ℕ × ℕ)) : List (Shell ℝ × Shell ℝ) :=
  prs.map fun p => (shellAt G p.1, shellAt G p.2)

/-- A basis set of moderate size: each shell can be normalised without much cancellation, and the normalised
shell is of moderate size.  Different shells have their data at different addresses. -/
structure BasisIn (G : List (Shell ℝ)) (K : ℕ) (R : ℝ) : Prop where
  norm : ∀ s ∈ G, FlNorm.NormIn s K
  prims : ∀ s ∈ G, 0 < s.nprim
  lo : ∀ s ∈ G, ∀ i < s.nprim, 1 / 2 ^ 10 ≤ s.alpha i
  hi : ∀ s ∈ G, ∀ i < s.nprim, s.alpha i ≤ 2 ^ 30
  coef : ∀ s ∈ G, ∀ i < s.nprim, |(normedShell s).coef i| ≤ 2 ^ 29
  pos : ∀ s ∈ G, ∀ d, |s.pos d| ≤ R
  double : ∀ s ∈ G, ∀ d, IsDouble (FlBoys.ieee false) (s.pos d)
  ptr : ∀ i < G.length, ∀ j < G.length, (shellAt G i).ptr = (shellAt G j).ptr → i = j

/-- Numbers of pairs of shells of an array of `n`. -/
def InArray (prs : List (ℕ × ℕ)) (n : ℕ) : Prop := ∀ p ∈ prs, p.1 < n ∧ p.2 < n

/-- Roundings of the coefficients of a normalised shell (C95). -/
def normRound (sh : Shell ℝ) (K : ℕ) : ℕ := K * (3 * sh.am + 27 + sh.nprim * sh.nprim) + 16

/-- Errors of the integrals that belong to pairs `ab` and `cd` of shells of the array. -/
def BasisError (G : List (Shell ℝ)) (K : ℕ) (R : ℝ) (final : QAM) (kb : ℕ) (p q : ℕ × ℕ) (x y z w : Exp) (v : ℝ) :
    Prop :=
  let A := shellAt G p.1
  let B := shellAt G p.2
  let C := shellAt G q.1
  let D := shellAt G q.2
  |v - shellERI (normedShell A) (normedShell B) (normedShell C) (normedShell D) x y z w| ≤
    errCount kb final (pairPrims A B * pairPrims C D) * (1 / 2 ^ 52) *
      (2 * shellSize (normedShell A) (normedShell B) (normedShell C) (normedShell D) R (totalL final) *
        (2 + 2 * R) ^ (min final.a final.b + min final.c final.d).toNat) +
    (normRound A K + normRound B K + (normRound C K + normRound D K) : ℕ) * (1 / 2 ^ 52) *
      shellERIAbs (normedShell A) (normedShell B) (normedShell C) (normedShell D) x y z w

end Simint
