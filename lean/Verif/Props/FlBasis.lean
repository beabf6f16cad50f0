import Verif.FlBasis

/-!
# From basis sets to integrals on doubles (C96)
-/

set_option autoImplicit false

open Real

namespace Simint

open FlBoys (ieee rn)
open FlPrim (shOps)
open FlNorm (NormIn coef_near powOK_ieee normalize_eq result)
open FlBasis

theorem shellAt_mem {G : List (Shell ℝ)} {i : ℕ} (hi : i < G.length) : shellAt G i ∈ G := by
  rw [shellAt, List.getD_eq_getElem _ _ hi]
  exact List.getElem_mem hi

theorem normIn_pos {s : Shell ℝ} {K : ℕ} (h : NormIn s K) : s.Pos := fun _ hj => (h.inR hj).pos

/-- The array after normalisation: coefficients close to those of normalised shells, everything else as
before. -/
theorem normalise_basis (fused : Bool) {G : List (Shell ℝ)} {K : ℕ} (hG : ∀ s ∈ G, NormIn s K) :
    ∃ G', FlNorm.normalizeShells (ieee fused) G = some G' ∧ G'.length = G.length ∧ ∀ i < G.length, ∃ c,
      shellAt G' i = withCoef (shellAt G i) c ∧ ∀ j < (shellAt G i).nprim,
        |c j - (normedShell (shellAt G i)).coef j| ≤
          γ (normRound (shellAt G i) K) * |(normedShell (shellAt G i)).coef j| := by
  induction G with
  | nil => exact ⟨[], by simp [FlNorm.normalizeShells], rfl, fun i hi => by simp at hi⟩
  | cons s G ih =>
    obtain ⟨G', e, hl, h⟩ := ih fun t ht => hG t (List.mem_cons_of_mem _ ht)
    have hs := hG s List.mem_cons_self
    obtain ⟨v, hv, r⟩ := coef_near (sound_ieee fused) (powOK_ieee fused) hs
    refine ⟨result (ieee fused) s v :: G', ?_, by simp [hl], fun i hi => ?_⟩
    · unfold FlNorm.normalizeShells at e ⊢
      rw [List.mapM_cons, normalize_eq hv]
      simp [e]
    · rcases i with _ | i
      · refine ⟨_, rfl, fun j hj => ?_⟩
        have h := r j hj
        change |_ - (normedShell s).coef j| ≤ γ (normRound s K) * |(normedShell s).coef j|
        rw [unit_coef (normIn_pos hs)]
        exact h
      · exact h i (by simpa using hi)

section
variable {G G' : List (Shell ℝ)} {K : ℕ} {R : ℝ} (hG : BasisIn G K R)
include hG

theorem normRound_le {i : ℕ} (hi : i < G.length) : normRound (shellAt G i) K ≤ 2 ^ 19 := by
  have h := (hG.norm _ (shellAt_mem hi)).count
  have hm : K * (3 * (shellAt G i).am + 27 + (shellAt G i).nprim * (shellAt G i).nprim) ≤ 2 ^ 18 :=
    (Nat.mul_le_mul_left K (by omega)).trans h
  norm_num at hm
  unfold normRound
  norm_num
  omega

variable (h : ∀ i < G.length, ∃ c, shellAt G' i = withCoef (shellAt G i) c ∧ ∀ j < (shellAt G i).nprim,
        |c j - (normedShell (shellAt G i)).coef j| ≤
          γ (normRound (shellAt G i) K) * |(normedShell (shellAt G i)).coef j|)
include h

theorem coef_le {i : ℕ} (hi : i < G.length) {c : ℕ → ℝ} (e : shellAt G' i = withCoef (shellAt G i) c) {j : ℕ}
    (hj : j < (shellAt G i).nprim) : |c j| ≤ 9 / 8 * |(normedShell (shellAt G i)).coef j| := by
  obtain ⟨c', e', hc⟩ := h i hi
  have ec : c = c' := by
    rw [e] at e'
    exact congrArg Shell.coef e'
  rw [ec]
  have h1 := hc j hj
  have h2 : γ (normRound (shellAt G i) K) ≤ 1 / 8 := by
    have h3 := normRound_le hG hi
    refine (γ_le (h3.trans (by norm_num))).trans ?_
    have : ((normRound (shellAt G i) K : ℕ) : ℝ) ≤ 2 ^ 19 := by exact_mod_cast h3
    calc _ ≤ (2 : ℝ) ^ 19 * (1 / 2 ^ 52) := mul_le_mul_of_nonneg_right this (by norm_num)
      _ ≤ 1 / 8 := by norm_num
  have h4 := mul_le_mul_of_nonneg_right h2 (abs_nonneg ((normedShell (shellAt G i)).coef j))
  have h5 := abs_sub_abs_le_abs_sub (c' j) ((normedShell (shellAt G i)).coef j)
  linarith

theorem moderate {i : ℕ} (hi : i < G.length) : (shellAt G' i).Moderate R := by
  obtain ⟨c, e, -⟩ := h i hi
  have hc := fun {j} => coef_le hG h hi e (j := j)
  have m := shellAt_mem hi
  rw [e]
  refine ⟨hG.prims (shellAt G i) m, hG.lo (shellAt G i) m, hG.hi (shellAt G i) m, fun j hj => (hc hj).trans ?_,
    hG.pos (shellAt G i) m, hG.double (shellAt G i) m⟩
  have := hG.coef _ m j hj
  have e2 : (2 : ℝ) ^ 30 = 2 * 2 ^ 29 := by norm_num
  have : (0 : ℝ) < 2 ^ 29 := by norm_num
  linarith

theorem faithful {i j : ℕ} (hi : i < G.length) (hj : j < G.length) : Faithful (shellAt G' i) (shellAt G' j) := by
  intro hs
  obtain ⟨c, e, -⟩ := h i hi
  obtain ⟨d, e', -⟩ := h j hj
  have hp : (shellAt G' i).ptr = (shellAt G' j).ptr := by
    unfold sameShell at hs
    rw [Bool.and_eq_true] at hs
    exact of_decide_eq_true hs.2
  rw [e, e'] at hp
  obtain rfl := hG.ptr i hi j hj hp
  exact ⟨rfl, fun _ _ => ⟨rfl, rfl⟩⟩

theorem pairs_moderate {prs : List (ℕ × ℕ)} (hp : InArray prs G.length) : PairsModerate (pairsAt G' prs) R := by
  intro p hm
  obtain ⟨q, hq, rfl⟩ := List.mem_map.1 hm
  obtain ⟨h1, h2⟩ := hp q hq
  exact ⟨moderate hG h h1, moderate hG h h2, faithful hG h h1 h2⟩

/-- Errors of normalisation and of integrals together. -/
theorem combine {i j k l : ℕ} (hi : i < G.length) (hj : j < G.length) (hk : k < G.length) (hl : l < G.length)
    (hR : 0 ≤ R) {x y z w : Exp} {v f : ℝ} (hf : 0 ≤ f) {N n : ℕ}
    (hv : |v - shellERI (shellAt G' i) (shellAt G' j) (shellAt G' k) (shellAt G' l) x y z w| ≤
      N * (1 / 2 ^ 52) * (shellSize (shellAt G' i) (shellAt G' j) (shellAt G' k) (shellAt G' l) R n * f)) :
    |v - shellERI (normedShell (shellAt G i)) (normedShell (shellAt G j)) (normedShell (shellAt G k))
        (normedShell (shellAt G l)) x y z w| ≤
      N * (1 / 2 ^ 52) * (2 * shellSize (normedShell (shellAt G i)) (normedShell (shellAt G j)) (normedShell (shellAt G k))
        (normedShell (shellAt G l)) R n * f) +
      (normRound (shellAt G i) K + normRound (shellAt G j) K + (normRound (shellAt G k) K + normRound (shellAt G l) K) :
        ℕ) * (1 / 2 ^ 52) * shellERIAbs (normedShell (shellAt G i)) (normedShell (shellAt G j)) (normedShell (shellAt G k))
        (normedShell (shellAt G l)) x y z w := by
  obtain ⟨a, eA, hA⟩ := h i hi
  obtain ⟨b, eB, hB⟩ := h j hj
  obtain ⟨c, eC, hC⟩ := h k hk
  obtain ⟨d, eD, hD⟩ := h l hl
  have pos : ∀ {m : ℕ}, m < G.length → (normedShell (shellAt G m)).Pos := fun {m} hm =>
    show (shellAt G m).Pos from normIn_pos (hG.norm (shellAt G m) (shellAt_mem hm))
  have near := eri_near (A := normedShell (shellAt G i)) (B := normedShell (shellAt G j)) (C := normedShell (shellAt G k))
    (D := normedShell (shellAt G l)) hA hB hC hD x y z w
  have size := size_near (A := normedShell (shellAt G i)) (B := normedShell (shellAt G j)) (C := normedShell (shellAt G k))
    (D := normedShell (shellAt G l)) (pos hi) (pos hj) (pos hk) (pos hl) (fun _ hm => coef_le hG h hi eA hm)
    (fun _ hm => coef_le hG h hj eB hm) (fun _ hm => coef_le hG h hk eC hm) (fun _ hm => coef_le hG h hl eD hm) hR n
  change |shellERI (withCoef (shellAt G i) a) (withCoef (shellAt G j) b) (withCoef (shellAt G k) c)
    (withCoef (shellAt G l) d) x y z w - _| ≤ _ at near
  change shellSize (withCoef (shellAt G i) a) (withCoef (shellAt G j) b) (withCoef (shellAt G k) c)
    (withCoef (shellAt G l) d) R n ≤ _ at size
  rw [← eA, ← eB, ← eC, ← eD] at near size
  have b1 := normRound_le hG hi
  have b2 := normRound_le hG hj
  have b3 := normRound_le hG hk
  have b4 := normRound_le hG hl
  norm_num at b1 b2 b3 b4
  have abs0 : 0 ≤ shellERIAbs (normedShell (shellAt G i)) (normedShell (shellAt G j)) (normedShell (shellAt G k))
      (normedShell (shellAt G l)) x y z w := by
    unfold shellERIAbs
    positivity
  have g1 : γ (normRound (shellAt G i) K + normRound (shellAt G j) K + (normRound (shellAt G k) K +
      normRound (shellAt G l) K)) ≤ _ := γ_le (by norm_num; omega)
  have near' := near.trans (mul_le_mul_of_nonneg_right g1 abs0)
  have s1 := mul_le_mul_of_nonneg_left (mul_le_mul_of_nonneg_right size hf)
    (show (0 : ℝ) ≤ N * (1 / 2 ^ 52) by positivity)
  have tri := abs_sub_le v (shellERI (shellAt G' i) (shellAt G' j) (shellAt G' k) (shellAt G' l) x y z w)
    (shellERI (normedShell (shellAt G i)) (normedShell (shellAt G j)) (normedShell (shellAt G k))
        (normedShell (shellAt G l)) x y z w)
  linarith

omit hG in
/-- What does not depend on the coefficients holds for the normalised shells too. -/
theorem transport (Φ : Shell ℝ → Shell ℝ → Shell ℝ → Shell ℝ → Prop)
    (hΦ : ∀ A B C D a b c d, Φ A B C D → Φ (withCoef A a) (withCoef B b) (withCoef C c) (withCoef D d))
    {prP prQ : List (ℕ × ℕ)} (hP : InArray prP G.length) (hQ : InArray prQ G.length)
    (hx : ∀ p ∈ pairsAt G prP, ∀ q ∈ pairsAt G prQ, Φ p.1 p.2 q.1 q.2) :
    ∀ p ∈ pairsAt G' prP, ∀ q ∈ pairsAt G' prQ, Φ p.1 p.2 q.1 q.2 := by
  intro p hp q hq
  obtain ⟨p, hp', rfl⟩ := List.mem_map.1 hp
  obtain ⟨q, hq', rfl⟩ := List.mem_map.1 hq
  have hh := hx _ (List.mem_map_of_mem hp') _ (List.mem_map_of_mem hq')
  obtain ⟨c1, e1, -⟩ := h _ (hP p hp').1
  obtain ⟨c2, e2, -⟩ := h _ (hP p hp').2
  obtain ⟨c3, e3, -⟩ := h _ (hQ q hq').1
  obtain ⟨c4, e4, -⟩ := h _ (hQ q hq').2
  dsimp only
  rw [e1, e2, e3, e4]
  exact hΦ _ _ _ _ _ _ _ _ hh

omit hG in
/-- Full batches do not depend on the coefficients. -/
theorem full_transport {len : ℕ} {prs : List (ℕ × ℕ)} (hp : InArray prs G.length)
    (hb : BatchesFull len (pairsAt G prs)) : BatchesFull len (pairsAt G' prs) := by
  refine batchesFull_congr ?_ hb
  simp only [pairsAt, List.map_map]
  refine List.map_congr_left fun p hp' => ?_
  obtain ⟨c1, e1, -⟩ := h _ (hp p hp').1
  obtain ⟨c2, e2, -⟩ := h _ (hp p hp').2
  simp only [Function.comp_apply]
  rw [e1, e2]
  rfl

theorem finish {final : QAM} {kb : ℕ} {p q : ℕ × ℕ} (hp : p.1 < G.length ∧ p.2 < G.length)
    (hq : q.1 < G.length ∧ q.2 < G.length) (hR : 0 ≤ R) {x y z w : Exp} {v : ℝ}
    (hv : |v - shellERI (shellAt G' p.1) (shellAt G' p.2) (shellAt G' q.1) (shellAt G' q.2) x y z w| ≤
      errCount kb final (pairPrims (shellAt G' p.1) (shellAt G' p.2) * pairPrims (shellAt G' q.1) (shellAt G' q.2)) *
        (1 / 2 ^ 52) *
        (shellSize (shellAt G' p.1) (shellAt G' p.2) (shellAt G' q.1) (shellAt G' q.2) R (totalL final) *
        (2 + 2 * R) ^ (min final.a final.b + min final.c final.d).toNat)) :
    BasisError G K R final kb p q x y z w v := by
  have c := combine hG h hp.1 hp.2 hq.1 hq.2 hR (by positivity) hv
  obtain ⟨c1, e1, -⟩ := h _ hp.1
  obtain ⟨c2, e2, -⟩ := h _ hp.2
  obtain ⟨c3, e3, -⟩ := h _ hq.1
  obtain ⟨c4, e4, -⟩ := h _ hq.2
  have pp : pairPrims (shellAt G' p.1) (shellAt G' p.2) = pairPrims (shellAt G p.1) (shellAt G p.2) := by
    rw [e1, e2]; rfl
  have pq : pairPrims (shellAt G' q.1) (shellAt G' q.2) = pairPrims (shellAt G q.1) (shellAt G q.2) := by
    rw [e3, e4]; rfl
  rw [pp, pq] at c
  exact c

end

/-- **C96.**  IEEE doubles, from a basis set to integrals: `simint_normalize_shells`, the complete fill of two lists
of pairs of its shells and a generated function all run, and each integral differs from the one over exactly
normalised shells by the errors of C89 plus those of the coefficients; arguments of the Boys function below
36.5. -/
theorem C96_basis (fused : Bool) (b : Build) {g : GenCfg} (hg : g.OK) {final : QAM} (hf : ClassOK final)
    (hL : totalL final ≤ 24) (sh : ShCfg) (hl : 0 < sh.len) (scr : PrimScreen ℝ)
    (val : Shell ℝ → Shell ℝ → ℕ → ℕ → ℝ) (hscr : sh.screening = true → ExactScr scr val) (big : ℝ)
    {G : List (Shell ℝ)} {K : ℕ} {R : ℝ} (hR0 : 0 ≤ R) (hR : R ≤ 2 ^ 10) (hG : BasisIn G K R)
    (prP prQ : List (ℕ × ℕ)) (hP : InArray prP G.length) (hQ : InArray prQ G.length)
    (hbra : BatchesFull sh.len (pairsAt G prP))
    (hn : ∀ p ∈ pairsAt G prP, ∀ q ∈ pairsAt G prQ, pairPrims p.1 p.2 * pairPrims q.1 q.2 ≤ 2 ^ 49)
    (hx : ∀ p ∈ pairsAt G prP, ∀ q ∈ pairsAt G prQ, ArgsBelow p.1 p.2 q.1 q.2 R 36.5)
    (memP memQ : ℕ → ℝ) (tol : ℝ) (htol : tol ≤ 0) (outSize : ℕ)
    (hout : prP.length * prQ.length * ncartQ final ≤ outSize) (junk : VPar ℝ)
    (scratch : ℕ → ℕ → ℕ → VMem ℝ) (hmem : HMem (Fd (ieee fused))) (out : ℕ → Fd (ieee fused))
    (hod : ∀ k, IsDouble (ieee fused) (out k).val) :
    ∃ G' P Q o, FlNorm.normalizeShells (ieee fused) G = some G' ∧
      completeList sh (shOps (ieee fused)) scr big (pairsAt G' prP) memP = some P ∧
      completeList sh (shOps (ieee fused)) scr big (pairsAt G' prQ) memQ = some Q ∧
      flFunction (ieee fused) b g final ⟨sh.len, P.1, Q.1, tol, outSize, junk, scratch⟩ hmem out
        = some (prP.length * prQ.length, o) ∧
      (∀ ab (hab : ab < prP.length) cd (hcd : cd < prQ.length) (x y z w : Exp),
        x.Valid → y.Valid → z.Valid → w.Valid →
        x.am = final.a → y.am = final.b → z.am = final.c → w.am = final.d →
        BasisError G K R final 226 prP[ab] prQ[cd] x y z w
          (o ((ab * prQ.length + cd) * ncartQ final + Qrt.index psi4List ⟨⟨x, y⟩, ⟨z, w⟩, 0⟩)).val) ∧
      ∀ k, prP.length * prQ.length * ncartQ final ≤ k → o k = out k := by
  obtain ⟨G', eG, -, h⟩ := normalise_basis fused hG.norm
  have hn' := transport h (fun A B C D => pairPrims A B * pairPrims C D ≤ 2 ^ 49)
    (fun _ _ _ _ _ _ _ _ hh => hh) hP hQ hn
  have hx' := transport h (fun A B C D => ArgsBelow A B C D R 36.5) (fun _ _ _ _ _ _ _ _ hh => hh) hP hQ hx
  have lP : (pairsAt G' prP).length = prP.length := List.length_map _
  have lQ : (pairsAt G' prQ).length = prQ.length := List.length_map _
  obtain ⟨P, Q, o, eP, eQ, r, h1, h2⟩ := C89_shells fused b hg hf hL sh hl scr val hscr big (pairsAt G' prP)
    (pairsAt G' prQ) hR0 hR (pairs_moderate hG h hP) (pairs_moderate hG h hQ) (full_transport h hP hbra) hn' hx'
    memP memQ tol htol outSize (by rw [lP, lQ]; exact hout) junk scratch hmem out hod
  rw [lP, lQ] at r h2
  refine ⟨G', P, Q, o, eG, eP, eQ, r, fun ab hab cd hcd x y z w vx vy vz vw ex ey ez ew => ?_, h2⟩
  have t := h1 ab (by rw [lP]; exact hab) cd (by rw [lQ]; exact hcd) x y z w vx vy vz vw ex ey ez ew
  simp only [pairsAt, List.getElem_map, List.length_map] at t
  refine finish hG h (hP _ (List.getElem_mem hab)) (hQ _ (List.getElem_mem hcd)) hR0 (t.trans (le_of_eq ?_))
  congr 3
  unfold errCount
  omega

/-- **C96, arguments of the Boys function up to `10^8`**, total angular momentum at most 3. -/
theorem C96_basis_far (fused : Bool) (b : Build) {g : GenCfg} (hg : g.OK) {final : QAM} (hf : ClassOK final)
    (hL : totalL final < 4) (sh : ShCfg) (hl : 0 < sh.len) (scr : PrimScreen ℝ)
    (val : Shell ℝ → Shell ℝ → ℕ → ℕ → ℝ) (hscr : sh.screening = true → ExactScr scr val) (big : ℝ)
    {G : List (Shell ℝ)} {K : ℕ} {R : ℝ} (hR0 : 0 ≤ R) (hR : R ≤ 2 ^ 10) (hG : BasisIn G K R)
    (prP prQ : List (ℕ × ℕ)) (hP : InArray prP G.length) (hQ : InArray prQ G.length)
    (hbra : BatchesFull sh.len (pairsAt G prP))
    (hn : ∀ p ∈ pairsAt G prP, ∀ q ∈ pairsAt G prQ, pairPrims p.1 p.2 * pairPrims q.1 q.2 ≤ 2 ^ 49)
    (hx : ∀ p ∈ pairsAt G prP, ∀ q ∈ pairsAt G prQ, ArgsBelow p.1 p.2 q.1 q.2 R (10 ^ 8))
    (memP memQ : ℕ → ℝ) (tol : ℝ) (htol : tol ≤ 0) (outSize : ℕ)
    (hout : prP.length * prQ.length * ncartQ final ≤ outSize) (junk : VPar ℝ)
    (scratch : ℕ → ℕ → ℕ → VMem ℝ) (hmem : HMem (Fd (ieee fused))) (out : ℕ → Fd (ieee fused))
    (hod : ∀ k, IsDouble (ieee fused) (out k).val) :
    ∃ G' P Q o, FlNorm.normalizeShells (ieee fused) G = some G' ∧
      completeList sh (shOps (ieee fused)) scr big (pairsAt G' prP) memP = some P ∧
      completeList sh (shOps (ieee fused)) scr big (pairsAt G' prQ) memQ = some Q ∧
      flFunction (ieee fused) b g final ⟨sh.len, P.1, Q.1, tol, outSize, junk, scratch⟩ hmem out
        = some (prP.length * prQ.length, o) ∧
      (∀ ab (hab : ab < prP.length) cd (hcd : cd < prQ.length) (x y z w : Exp),
        x.Valid → y.Valid → z.Valid → w.Valid →
        x.am = final.a → y.am = final.b → z.am = final.c → w.am = final.d →
        BasisError G K R final 9910 prP[ab] prQ[cd] x y z w
          (o ((ab * prQ.length + cd) * ncartQ final + Qrt.index psi4List ⟨⟨x, y⟩, ⟨z, w⟩, 0⟩)).val) ∧
      ∀ k, prP.length * prQ.length * ncartQ final ≤ k → o k = out k := by
  obtain ⟨G', eG, -, h⟩ := normalise_basis fused hG.norm
  have hn' := transport h (fun A B C D => pairPrims A B * pairPrims C D ≤ 2 ^ 49)
    (fun _ _ _ _ _ _ _ _ hh => hh) hP hQ hn
  have hx' := transport h (fun A B C D => ArgsBelow A B C D R (10 ^ 8)) (fun _ _ _ _ _ _ _ _ hh => hh) hP hQ hx
  have lP : (pairsAt G' prP).length = prP.length := List.length_map _
  have lQ : (pairsAt G' prQ).length = prQ.length := List.length_map _
  obtain ⟨P, Q, o, eP, eQ, r, h1, h2⟩ := C89_shells_far fused b hg hf hL sh hl scr val hscr big (pairsAt G' prP)
    (pairsAt G' prQ) hR0 hR (pairs_moderate hG h hP) (pairs_moderate hG h hQ) (full_transport h hP hbra) hn' hx'
    memP memQ tol htol outSize (by rw [lP, lQ]; exact hout) junk scratch hmem out hod
  rw [lP, lQ] at r h2
  refine ⟨G', P, Q, o, eG, eP, eQ, r, fun ab hab cd hcd x y z w vx vy vz vw ex ey ez ew => ?_, h2⟩
  have t := h1 ab (by rw [lP]; exact hab) cd (by rw [lQ]; exact hcd) x y z w vx vy vz vw ex ey ez ew
  simp only [pairsAt, List.getElem_map, List.length_map] at t
  exact finish hG h (hP _ (List.getElem_mem hab)) (hQ _ (List.getElem_mem hcd)) hR0 t

/-! ### The hypotheses can be met -/

theorem twoShell_norm (ptr : ℕ) (x : ℝ) : NormIn (twoShell ptr x) 2 := by
  have am : (twoShell ptr x).am = 1 := rfl
  have np : (twoShell ptr x).nprim = 2 := rfl
  refine FlNorm.normIn_nonneg (by rw [am]; norm_num) (fun j _ => ?_) (fun j _ => ?_) (fun j _ => ?_) (fun j _ => ?_)
    (fun j _ => ?_) ⟨0, by rw [np]; norm_num, ?_⟩ (by rw [np]; norm_num)
  · simp only [twoShell]; split_ifs <;> norm_num
  · simp only [twoShell]; split_ifs <;> norm_num
  · simp only [twoShell]; norm_num
  · right; simp only [twoShell]; norm_num
  · simp only [twoShell]; norm_num
  · simp only [twoShell]; norm_num

theorem twoShell_unit (ptr : ℕ) (x : ℝ) {j : ℕ} (_ : j < 2) : |(normedShell (twoShell ptr x)).coef j| ≤ 2 ^ 29 := by
  have al : ∀ j, 0 < (twoShell ptr x).alpha j ∧ (twoShell ptr x).alpha j ≤ 1 := fun j => by
    simp only [twoShell]; split_ifs <;> norm_num
  rw [unit_coef fun i _ => (al i).1]
  have e1 : 0 ≤ (primNorm (twoShell ptr x)).coef j ∧ (primNorm (twoShell ptr x)).coef j ≤ 1 := by
    have hc : (twoShell ptr x).coef j = 1 := rfl
    simp only [primNorm, hc, one_mul]
    exact ⟨rpow_nonneg (al j).1.le _, rpow_le_one (al j).1.le (al j).2 (by positivity)⟩
  have t0 : ∀ i k, 0 ≤ (twoShell ptr x).coef i * (twoShell ptr x).coef k *
      (((twoShell ptr x).alpha i * (twoShell ptr x).alpha k) ^ (1 / 2 * (((twoShell ptr x).am : ℝ) + 3 / 2)) /
        ((twoShell ptr x).alpha i + (twoShell ptr x).alpha k) ^ (((twoShell ptr x).am : ℝ) + 3 / 2)) := by
    intro i k
    have h1 : (twoShell ptr x).coef i = 1 := rfl
    have h2 : (twoShell ptr x).coef k = 1 := rfl
    have := (al i).1
    have := (al k).1
    rw [h1, h2]
    positivity
  have q : 1 / 8 ≤ FlNorm.normSq (twoShell ptr x) (twoShell ptr x).coef := by
    have h0 : (1 : ℝ) / 8 ≤ (twoShell ptr x).coef 0 * (twoShell ptr x).coef 0 *
      (((twoShell ptr x).alpha 0 * (twoShell ptr x).alpha 0) ^ (1 / 2 * (((twoShell ptr x).am : ℝ) + 3 / 2)) /
        ((twoShell ptr x).alpha 0 + (twoShell ptr x).alpha 0) ^ (((twoShell ptr x).am : ℝ) + 3 / 2)) := by
      have h1 : (twoShell ptr x).coef 0 = 1 := rfl
      have h2 : (twoShell ptr x).alpha 0 = 1 := by simp [twoShell]
      have h3 : ((twoShell ptr x).am : ℝ) = 1 := Nat.cast_one
      rw [h1, h2, h3, mul_one, one_rpow, one_mul]
      refine one_div_le_one_div_of_le (rpow_pos_of_pos (by norm_num) _) ?_
      calc ((1 : ℝ) + 1) ^ ((1 : ℝ) + 3 / 2) ≤ 2 ^ ((3 : ℕ) : ℝ) := by
            rw [one_add_one_eq_two]
            exact rpow_le_rpow_of_exponent_le (by norm_num) (by norm_num)
        _ = 8 := by rw [rpow_natCast]; norm_num
    unfold FlNorm.normSq
    have np : (twoShell ptr x).nprim = 2 := rfl
    rw [np]
    simp only [Finset.sum_range_succ, Finset.sum_range_zero, zero_add]
    have := t0 0 1
    have := t0 1 0
    have := t0 1 1
    linarith
  have n1 : 1 ≤ normFacExact (twoShell ptr x).am := by
    have e : normFacExact (twoShell ptr x).am = π * √π / 2 := by
      have : oddFac 1 = 1 := rfl
      show normFacExact 1 = _
      simp [normFacExact, this]
    have h3 := pi_gt_three
    have h4 : 1 ≤ √π := by
      rw [one_le_sqrt]
      linarith
    rw [e]
    nlinarith
  have s1 : FlNorm.scale (twoShell ptr x) ≤ 8 := by
    unfold FlNorm.scale
    rw [div_le_iff₀ (sqrt_pos.2 (by positivity))]
    have : 1 / 8 ≤ √(FlNorm.normSq (twoShell ptr x) (twoShell ptr x).coef * normFacExact (twoShell ptr x).am) := by
      refine le_sqrt_of_sq_le ?_
      nlinarith
    linarith
  have s0 : 0 ≤ FlNorm.scale (twoShell ptr x) := by unfold FlNorm.scale; positivity
  rw [abs_of_nonneg (mul_nonneg s0 e1.1)]
  calc _ ≤ (8 : ℝ) * 1 := mul_le_mul s1 e1.2 e1.1 (by norm_num)
    _ ≤ _ := by norm_num

theorem twoShell_basis : BasisIn [twoShell 1 0, twoShell 2 1] 2 1 := by
  have m : ∀ s ∈ [twoShell 1 0, twoShell 2 1], s = twoShell 1 0 ∨ s = twoShell 2 1 := fun s hs => by simpa using hs
  have mod : ∀ s ∈ [twoShell 1 0, twoShell 2 1], s.Moderate 1 := fun s hs => by
    rcases m s hs with rfl | rfl
    · exact twoShell_moderate 1 (Or.inl rfl)
    · exact twoShell_moderate 2 (Or.inr rfl)
  refine ⟨fun s hs => ?_, fun s hs => (mod s hs).prims, fun s hs => (mod s hs).lo, fun s hs => (mod s hs).hi,
    fun s hs i hi => ?_, fun s hs => (mod s hs).pos, fun s hs => (mod s hs).double, fun i hi j hj e => ?_⟩
  · rcases m s hs with rfl | rfl <;> exact twoShell_norm _ _
  · rcases m s hs with rfl | rfl <;> exact twoShell_unit _ _ hi
  · have hi' : i = 0 ∨ i = 1 := by simp at hi; omega
    have hj' : j = 0 ∨ j = 1 := by simp at hj; omega
    rcases hi' with rfl | rfl <;> rcases hj' with rfl | rfl <;> first | rfl | (exfalso; revert e; simp [shellAt, twoShell])

/-- Non-trivial case: two p shells with two primitives each, a pair of a shell with itself in the bra, two
pairs in the ket, vectors of four lanes. -/
example (fused : Bool) (b : Build) {g : GenCfg} (hg : g.OK) (junk : VPar ℝ) (scratch : ℕ → ℕ → ℕ → VMem ℝ)
    (memP memQ : ℕ → ℝ) (hmem : HMem (Fd (ieee fused))) (out : ℕ → Fd (ieee fused))
    (hod : ∀ k, IsDouble (ieee fused) (out k).val) :
    let G := [twoShell 1 0, twoShell 2 1]
    ∃ G' P Q o, FlNorm.normalizeShells (ieee fused) G = some G' ∧
      completeList ⟨4, false, false⟩ (shOps (ieee fused)) noScreen 1e99 (pairsAt G' [(0, 0)]) memP = some P ∧
      completeList ⟨4, false, false⟩ (shOps (ieee fused)) noScreen 1e99 (pairsAt G' [(0, 1), (1, 1)]) memQ = some Q ∧
      flFunction (ieee fused) b g ⟨1, 1, 1, 1, ""⟩ ⟨4, P.1, Q.1, 0, 162, junk, scratch⟩ hmem out = some (2, o) ∧
      ∀ x y z w : Exp, x.Valid → y.Valid → z.Valid → w.Valid → x.am = 1 → y.am = 1 → z.am = 1 → w.am = 1 →
        BasisError G 2 1 ⟨1, 1, 1, 1, ""⟩ 226 (0, 0) (1, 1) x y z w
          (o (1 * ncartQ ⟨1, 1, 1, 1, ""⟩ + Qrt.index psi4List ⟨⟨x, y⟩, ⟨z, w⟩, 0⟩)).val := by
  intro G
  have hx : ∀ p ∈ pairsAt G [(0, 0)], ∀ q ∈ pairsAt G [(0, 1), (1, 1)], ArgsBelow p.1 p.2 q.1 q.2 1 36.5 := by
    intro p hp q hq
    simp only [pairsAt, List.map_cons, List.map_nil, List.mem_cons, List.not_mem_nil, or_false] at hp hq
    subst hp
    rcases hq with rfl | rfl
    · exact twoShell_args 1 1 1 2 (Or.inl rfl) (Or.inl rfl) (Or.inl rfl) (Or.inr rfl)
    · exact twoShell_args 1 1 2 2 (Or.inl rfl) (Or.inl rfl) (Or.inr rfl) (Or.inr rfl)
  have hn : ∀ p ∈ pairsAt G [(0, 0)], ∀ q ∈ pairsAt G [(0, 1), (1, 1)],
      pairPrims p.1 p.2 * pairPrims q.1 q.2 ≤ 2 ^ 49 := by
    intro p hp q hq
    simp only [pairsAt, List.map_cons, List.map_nil, List.mem_cons, List.not_mem_nil, or_false] at hp hq
    subst hp
    rcases hq with rfl | rfl <;> norm_num [pairPrims, sameShell, shellAt, G, twoShell]
  have hf : ClassOK (⟨1, 1, 1, 1, ""⟩ : QAM) := ⟨by unfold QAM.Valid; decide, rfl, by decide, by decide⟩
  obtain ⟨G', P, Q, o, eG, eP, eQ, r, h, -⟩ := C96_basis fused b hg hf (by decide)
    ⟨4, false, false⟩ (by norm_num) noScreen (fun _ _ _ _ => 0) (fun h => by simp at h) 1e99 zero_le_one (by norm_num)
    twoShell_basis [(0, 0)] [(0, 1), (1, 1)] (by intro p hp; simp at hp; subst hp; simp)
    (by intro p hp; simp at hp; rcases hp with rfl | rfl <;> simp) (batchesFull_one (by decide)) hn hx memP memQ 0 le_rfl 162
    (by decide) junk scratch hmem out hod
  refine ⟨G', P, Q, o, eG, eP, eQ, r, fun x y z w vx vy vz vw ex ey ez ew => ?_⟩
  exact h 0 (by decide) 1 (by decide) x y z w vx vy vz vw ex ey ez ew

end Simint
