import Verif.FlBasisGrad
import Verif.Props.FlBasis
import Verif.Props.FlGrad

/-!
# From basis sets to derivatives on doubles (C99)
-/

set_option autoImplicit false

open Real

namespace Simint

open FlBoys (ieee)
open FlPrim (shOps)
open FlBasis

namespace FlBasisGrad

section
variable {G G' : List (Shell ℝ)} {K : ℕ} {R : ℝ} (hG : BasisIn G K R)
  (h : ∀ i < G.length, ∃ c, shellAt G' i = withCoef (shellAt G i) c ∧ ∀ j < (shellAt G i).nprim,
        |c j - (normedShell (shellAt G i)).coef j| ≤
          γ (normRound (shellAt G i) K) * |(normedShell (shellAt G i)).coef j|)
include hG h

/-- Errors of normalisation and of derivatives together. -/
theorem finish {final : QAM} {kb : ℕ} {p q : ℕ × ℕ} (hp : p.1 < G.length ∧ p.2 < G.length)
    (hq : q.1 < G.length ∧ q.2 < G.length) (hR : 0 ≤ R) {x y z w : Exp} (hx : x.Valid) (hy : y.Valid) (hz : z.Valid)
    (hw : w.Valid) (t : RRType) (i : Dir) {v : ℝ}
    (hv : ∃ v', HasDerivAt (movedERI (shellAt G' p.1) (shellAt G' p.2) (shellAt G' q.1) (shellAt G' q.2) x y z w t i) v'
        (shellCenter (shellAt G' p.1) (shellAt G' p.2) (shellAt G' q.1) (shellAt G' q.2) t i) ∧
      |v - v'| ≤
        gradCount kb final (pairPrims (shellAt G' p.1) (shellAt G' p.2) * pairPrims (shellAt G' q.1) (shellAt G' q.2)) *
          (1 / 2 ^ 52) * (gradTerms final t *
            (shellGradSize (shellAt G' p.1) (shellAt G' p.2) (shellAt G' q.1) (shellAt G' q.2) R (totalL final + 1) *
              (2 + 2 * R) ^ gradStepped final))) :
    BasisGradError G K R final kb p q x y z w t i v := by
  obtain ⟨a, eA, hA⟩ := h _ hp.1
  obtain ⟨b, eB, hB⟩ := h _ hp.2
  obtain ⟨c, eC, hC⟩ := h _ hq.1
  obtain ⟨d, eD, hD⟩ := h _ hq.2
  have cA := fun m (hm : m < (shellAt G p.1).nprim) => coef_le hG h hp.1 eA hm
  have cB := fun m (hm : m < (shellAt G p.2).nprim) => coef_le hG h hp.2 eB hm
  have cC := fun m (hm : m < (shellAt G q.1).nprim) => coef_le hG h hq.1 eC hm
  have cD := fun m (hm : m < (shellAt G q.2).nprim) => coef_le hG h hq.2 eD hm
  have b1 := normRound_le hG hp.1
  have b2 := normRound_le hG hp.2
  have b3 := normRound_le hG hq.1
  have b4 := normRound_le hG hq.2
  have pos : ∀ {m : ℕ}, m < G.length → (shellAt G m).Pos := fun {m} hm =>
    normIn_pos (hG.norm (shellAt G m) (shellAt_mem hm))
  have pA := pos hp.1
  have pB := pos hp.2
  have pC := pos hq.1
  have pD := pos hq.2
  rw [eA, eB, eC, eD] at hv
  unfold BasisGradError
  generalize shellAt G p.1 = A at *
  generalize shellAt G p.2 = B at *
  generalize shellAt G q.1 = C at *
  generalize shellAt G q.2 = D at *
  obtain ⟨v', d', hv⟩ := hv
  have near := grad_near (A := normedShell A) (B := normedShell B) (C := normedShell C) (D := normedShell D)
    pA pB pC pD hA hB hC hD hx hy hz hw t i
  have size := gradSize_near (A := normedShell A) (B := normedShell B) (C := normedShell C) (D := normedShell D)
    pA pB pC pD cA cB cC cD hR (totalL final + 1)
  change |gradERI (four (withCoef A a) (withCoef B b) (withCoef C c) (withCoef D d)) _ t i - _| ≤ _ at near
  change shellGradSize (withCoef A a) (withCoef B b) (withCoef C c) (withCoef D d) R _ ≤ _ at size
  have ev : v' = gradERI (four (withCoef A a) (withCoef B b) (withCoef C c) (withCoef D d)) (four x y z w) t i :=
    d'.unique (grad (A := withCoef A a) (B := withCoef B b) (C := withCoef C c) (D := withCoef D d) pA pB pC pD
      hx hy hz hw t i)
  rw [← ev] at near
  have dn := grad (A := normedShell A) (B := normedShell B) (C := normedShell C) (D := normedShell D) pA pB pC pD
    hx hy hz hw t i
  refine ⟨_, by
    have e : shellCenter A B C D t i = shellCenter (normedShell A) (normedShell B) (normedShell C) (normedShell D) t i := by
      cases t <;> rfl
    rw [e]
    exact dn, ?_⟩
  norm_num at b1 b2 b3 b4
  have abs0 : 0 ≤ shellGradAbs (normedShell A) (normedShell B) (normedShell C) (normedShell D) x y z w t i := by
    unfold shellGradAbs
    positivity
  have g1 : γ (normRound A K + normRound B K + (normRound C K + normRound D K)) ≤ _ := γ_le (by norm_num; omega)
  have near' := near.trans (mul_le_mul_of_nonneg_right g1 abs0)
  have s1 := mul_le_mul_of_nonneg_left (mul_le_mul_of_nonneg_left (mul_le_mul_of_nonneg_right size
      (show (0 : ℝ) ≤ (2 + 2 * R) ^ gradStepped final by positivity)) (Nat.cast_nonneg (α := ℝ) (gradTerms final t)))
    (show (0 : ℝ) ≤ gradCount kb final (pairPrims A B * pairPrims C D) * (1 / 2 ^ 52) by positivity)
  have hv2 := hv.trans s1
  refine (abs_sub_le v v' _).trans (add_le_add hv2 near')

end

end FlBasisGrad

/-- **C99.**  IEEE doubles, from a basis set to gradients: `simint_normalize_shells`, the complete fill of two lists
of pairs of its shells and a generated derivative function all run, and each number differs from the derivative
of the integral over exactly normalised shells, with respect to that coordinate of that center, by the errors of
C91 plus those of the coefficients; arguments of the Boys function below 36.5. -/
theorem C99_gradients (fused : Bool) (b : Build) (fuseD : RRType → Dir → Bool) {g : GenCfg} (hg : g.OK)
    {final : QAM} (hf : DerivClassOK final) (hL : totalL final + 1 ≤ 24) (sh : ShCfg) (hl : 0 < sh.len)
    (hder : sh.deriv = true) (scr : PrimScreen ℝ) (val : Shell ℝ → Shell ℝ → ℕ → ℕ → ℝ)
    (hscr : sh.screening = true → ExactScr scr val) (big : ℝ)
    {G : List (Shell ℝ)} {K : ℕ} {R : ℝ} (hR0 : 0 ≤ R) (hR : R ≤ 2 ^ 10) (hG : BasisIn G K R)
    (prP prQ : List (ℕ × ℕ)) (hP : InArray prP G.length) (hQ : InArray prQ G.length)
    (hbra : BatchesFull sh.len (pairsAt G prP))
    (hn : ∀ p ∈ pairsAt G prP, ∀ q ∈ pairsAt G prQ, pairPrims p.1 p.2 * pairPrims q.1 q.2 ≤ 2 ^ 49)
    (hx : ∀ p ∈ pairsAt G prP, ∀ q ∈ pairsAt G prQ, ArgsBelow p.1 p.2 q.1 q.2 R 36.5)
    (memP memQ : ℕ → ℝ) (tol : ℝ) (htol : tol ≤ 0) (outSize : ℕ)
    (hout : prP.length * prQ.length * (12 * ncartQ final) ≤ outSize) (junk : VPar ℝ)
    (scratch : ℕ → ℕ → ℕ → VMem ℝ) (hmem : HMem (Fd (ieee fused))) (out : ℕ → Fd (ieee fused)) :
    ∃ G' P Q o, FlNorm.normalizeShells (ieee fused) G = some G' ∧
      completeList sh (shOps (ieee fused)) scr big (pairsAt G' prP) memP = some P ∧
      completeList sh (shOps (ieee fused)) scr big (pairsAt G' prQ) memQ = some Q ∧
      flDerivFunction (ieee fused) b fuseD g final ⟨⟨sh.len, P.1, Q.1, tol, outSize, junk, scratch⟩, P.2.1, P.2.2,
        Q.2.1, Q.2.2⟩ hmem out = some (prP.length * prQ.length, o) ∧
      (∀ ab (hab : ab < prP.length) cd (hcd : cd < prQ.length) (x y z w : Exp),
        x.Valid → y.Valid → z.Valid → w.Valid →
        x.am = final.a → y.am = final.b → z.am = final.c → w.am = final.d → ∀ (t : RRType) (i : Dir),
        BasisGradError G K R final 226 prP[ab] prQ[cd] x y z w t i
          (o ((ab * prQ.length + cd) * (12 * ncartQ final) +
              (12 * Qrt.index psi4List ⟨⟨x, y⟩, ⟨z, w⟩, 0⟩ + (3 * t.idx + i.idx)))).val) ∧
      ∀ k, prP.length * prQ.length * (12 * ncartQ final) ≤ k → o k = out k := by
  obtain ⟨G', eG, -, h⟩ := normalise_basis fused hG.norm
  have hn' := transport h (fun A B C D => pairPrims A B * pairPrims C D ≤ 2 ^ 49)
    (fun _ _ _ _ _ _ _ _ hh => hh) hP hQ hn
  have hx' := transport h (fun A B C D => ArgsBelow A B C D R 36.5) (fun _ _ _ _ _ _ _ _ hh => hh) hP hQ hx
  have lP : (pairsAt G' prP).length = prP.length := List.length_map _
  have lQ : (pairsAt G' prQ).length = prQ.length := List.length_map _
  obtain ⟨P, Q, o, eP, eQ, r, h1, h2⟩ := C91_gradients fused b fuseD hg hf hL sh hl hder scr val hscr big
    (pairsAt G' prP) (pairsAt G' prQ) hR0 hR (pairs_moderate hG h hP) (pairs_moderate hG h hQ)
    (full_transport h hP hbra) hn' hx' memP memQ tol htol outSize (by rw [lP, lQ]; exact hout) junk scratch hmem out
  rw [lP, lQ] at r h2
  refine ⟨G', P, Q, o, eG, eP, eQ, r, fun ab hab cd hcd x y z w vx vy vz vw ex ey ez ew t i => ?_, h2⟩
  have u := h1 ab (by rw [lP]; exact hab) cd (by rw [lQ]; exact hcd) x y z w vx vy vz vw ex ey ez ew t i
  simp only [pairsAt, List.getElem_map, List.length_map] at u
  refine FlBasisGrad.finish hG h (hP _ (List.getElem_mem hab)) (hQ _ (List.getElem_mem hcd)) hR0 vx vy vz vw t i ?_
  obtain ⟨v, hd, hv⟩ := u
  refine ⟨v, hd, hv.trans (le_of_eq ?_)⟩
  congr 3
  unfold gradCount
  omega

/-- **C99, arguments of the Boys function up to `10^8`**, total angular momentum at most 2. -/
theorem C99_gradients_far (fused : Bool) (b : Build) (fuseD : RRType → Dir → Bool) {g : GenCfg} (hg : g.OK)
    {final : QAM} (hf : DerivClassOK final) (hL : totalL final + 1 < 4) (sh : ShCfg) (hl : 0 < sh.len)
    (hder : sh.deriv = true) (scr : PrimScreen ℝ) (val : Shell ℝ → Shell ℝ → ℕ → ℕ → ℝ)
    (hscr : sh.screening = true → ExactScr scr val) (big : ℝ)
    {G : List (Shell ℝ)} {K : ℕ} {R : ℝ} (hR0 : 0 ≤ R) (hR : R ≤ 2 ^ 10) (hG : BasisIn G K R)
    (prP prQ : List (ℕ × ℕ)) (hP : InArray prP G.length) (hQ : InArray prQ G.length)
    (hbra : BatchesFull sh.len (pairsAt G prP))
    (hn : ∀ p ∈ pairsAt G prP, ∀ q ∈ pairsAt G prQ, pairPrims p.1 p.2 * pairPrims q.1 q.2 ≤ 2 ^ 49)
    (hx : ∀ p ∈ pairsAt G prP, ∀ q ∈ pairsAt G prQ, ArgsBelow p.1 p.2 q.1 q.2 R (10 ^ 8))
    (memP memQ : ℕ → ℝ) (tol : ℝ) (htol : tol ≤ 0) (outSize : ℕ)
    (hout : prP.length * prQ.length * (12 * ncartQ final) ≤ outSize) (junk : VPar ℝ)
    (scratch : ℕ → ℕ → ℕ → VMem ℝ) (hmem : HMem (Fd (ieee fused))) (out : ℕ → Fd (ieee fused)) :
    ∃ G' P Q o, FlNorm.normalizeShells (ieee fused) G = some G' ∧
      completeList sh (shOps (ieee fused)) scr big (pairsAt G' prP) memP = some P ∧
      completeList sh (shOps (ieee fused)) scr big (pairsAt G' prQ) memQ = some Q ∧
      flDerivFunction (ieee fused) b fuseD g final ⟨⟨sh.len, P.1, Q.1, tol, outSize, junk, scratch⟩, P.2.1, P.2.2,
        Q.2.1, Q.2.2⟩ hmem out = some (prP.length * prQ.length, o) ∧
      (∀ ab (hab : ab < prP.length) cd (hcd : cd < prQ.length) (x y z w : Exp),
        x.Valid → y.Valid → z.Valid → w.Valid →
        x.am = final.a → y.am = final.b → z.am = final.c → w.am = final.d → ∀ (t : RRType) (i : Dir),
        BasisGradError G K R final 9910 prP[ab] prQ[cd] x y z w t i
          (o ((ab * prQ.length + cd) * (12 * ncartQ final) +
              (12 * Qrt.index psi4List ⟨⟨x, y⟩, ⟨z, w⟩, 0⟩ + (3 * t.idx + i.idx)))).val) ∧
      ∀ k, prP.length * prQ.length * (12 * ncartQ final) ≤ k → o k = out k := by
  obtain ⟨G', eG, -, h⟩ := normalise_basis fused hG.norm
  have hn' := transport h (fun A B C D => pairPrims A B * pairPrims C D ≤ 2 ^ 49)
    (fun _ _ _ _ _ _ _ _ hh => hh) hP hQ hn
  have hx' := transport h (fun A B C D => ArgsBelow A B C D R (10 ^ 8)) (fun _ _ _ _ _ _ _ _ hh => hh) hP hQ hx
  have lP : (pairsAt G' prP).length = prP.length := List.length_map _
  have lQ : (pairsAt G' prQ).length = prQ.length := List.length_map _
  obtain ⟨P, Q, o, eP, eQ, r, h1, h2⟩ := C91_gradients_far fused b fuseD hg hf hL sh hl hder scr val hscr big
    (pairsAt G' prP) (pairsAt G' prQ) hR0 hR (pairs_moderate hG h hP) (pairs_moderate hG h hQ)
    (full_transport h hP hbra) hn' hx' memP memQ tol htol outSize (by rw [lP, lQ]; exact hout) junk scratch hmem out
  rw [lP, lQ] at r h2
  refine ⟨G', P, Q, o, eG, eP, eQ, r, fun ab hab cd hcd x y z w vx vy vz vw ex ey ez ew t i => ?_, h2⟩
  have u := h1 ab (by rw [lP]; exact hab) cd (by rw [lQ]; exact hcd) x y z w vx vy vz vw ex ey ez ew t i
  simp only [pairsAt, List.getElem_map, List.length_map] at u
  refine FlBasisGrad.finish hG h (hP _ (List.getElem_mem hab)) (hQ _ (List.getElem_mem hcd)) hR0 vx vy vz vw t i ?_
  exact u

/-- Non-trivial case: two p shells with two primitives each, a pair of a shell with itself in the bra, two
pairs in the ket, vectors of four lanes: all derivatives of the second quartet. -/
example (fused : Bool) (b : Build) (fuseD : RRType → Dir → Bool) {g : GenCfg} (hg : g.OK) (junk : VPar ℝ)
    (scratch : ℕ → ℕ → ℕ → VMem ℝ) (memP memQ : ℕ → ℝ) (hmem : HMem (Fd (ieee fused))) (out : ℕ → Fd (ieee fused)) :
    let G := [twoShell 1 0, twoShell 2 1]
    ∃ G' P Q o, FlNorm.normalizeShells (ieee fused) G = some G' ∧
      completeList ⟨4, false, true⟩ (shOps (ieee fused)) noScreen 1e99 (pairsAt G' [(0, 0)]) memP = some P ∧
      completeList ⟨4, false, true⟩ (shOps (ieee fused)) noScreen 1e99 (pairsAt G' [(0, 1), (1, 1)]) memQ = some Q ∧
      flDerivFunction (ieee fused) b fuseD g ⟨1, 1, 1, 1, ""⟩ ⟨⟨4, P.1, Q.1, 0, 1944, junk, scratch⟩, P.2.1, P.2.2,
        Q.2.1, Q.2.2⟩ hmem out = some (2, o) ∧
      ∀ x y z w : Exp, x.Valid → y.Valid → z.Valid → w.Valid → x.am = 1 → y.am = 1 → z.am = 1 → w.am = 1 →
        ∀ (t : RRType) (i : Dir), BasisGradError G 2 1 ⟨1, 1, 1, 1, ""⟩ 226 (0, 0) (1, 1) x y z w t i
          (o (1 * (12 * ncartQ ⟨1, 1, 1, 1, ""⟩) +
            (12 * Qrt.index psi4List ⟨⟨x, y⟩, ⟨z, w⟩, 0⟩ + (3 * t.idx + i.idx)))).val := by
  intro G
  have hx : ∀ p ∈ pairsAt G [(0, 0)], ∀ q ∈ pairsAt G [(0, 1), (1, 1)], ArgsBelow p.1 p.2 q.1 q.2 1 36.5 := by
    intro p hp q hq
    simp only [pairsAt, List.map_cons, List.map_nil, List.mem_cons, List.not_mem_nil, or_false] at hp hq
    subst hp
    rcases hq with rfl | rfl
    · exact twoShell_args 1 1 1 2 (Or.inl rfl) (Or.inl rfl) (Or.inl rfl) (Or.inr rfl)
    · exact twoShell_args 1 1 2 2 (Or.inl rfl) (Or.inl rfl) (Or.inr rfl) (Or.inr rfl)
  have hn : ∀ p ∈ pairsAt G [(0, 0)], ∀ q ∈ pairsAt G [(0, 1), (1, 1)],
      pairPrims p.1 p.2 * pairPrims q.1 q.2 ≤ 2 ^ 49 := by
    intro p hp q hq
    simp only [pairsAt, List.map_cons, List.map_nil, List.mem_cons, List.not_mem_nil, or_false] at hp hq
    subst hp
    rcases hq with rfl | rfl <;> norm_num [pairPrims, sameShell, shellAt, G, twoShell]
  have hf : DerivClassOK (⟨1, 1, 1, 1, ""⟩ : QAM) := ⟨by unfold QAM.Valid; decide, rfl, by decide, by decide⟩
  obtain ⟨G', P, Q, o, eG, eP, eQ, r, h, -⟩ := C99_gradients fused b fuseD hg hf (by decide)
    ⟨4, false, true⟩ (by norm_num) rfl noScreen (fun _ _ _ _ => 0) (fun h => by simp at h) 1e99 zero_le_one (by norm_num)
    twoShell_basis [(0, 0)] [(0, 1), (1, 1)] (by intro p hp; simp at hp; subst hp; simp)
    (by intro p hp; simp at hp; rcases hp with rfl | rfl <;> simp) (batchesFull_one (by decide)) hn hx memP memQ 0 le_rfl 1944
    (by decide) junk scratch hmem out
  refine ⟨G', P, Q, o, eG, eP, eQ, r, fun x y z w vx vy vz vw ex ey ez ew t i => ?_⟩
  exact h 0 (by decide) 1 (by decide) x y z w vx vy vz vw ex ey ez ew t i

end Simint
