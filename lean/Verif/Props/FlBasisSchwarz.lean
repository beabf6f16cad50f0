import Verif.Spec.FlBasisSchwarz
import Verif.Props.FlBasisScreen

/-!
# C106: from basis sets to integrals of any class on doubles, screened with computed Schwarz values
-/

set_option autoImplicit false

open Real

namespace Simint

open FlBoys (ieee rn)
open FlPrim (shOps)
open FlBasis

section
variable {G G' : List (Shell ℝ)} {K : ℕ} {R : ℝ} (hG : BasisIn G K R)
variable (h : ∀ i < G.length, ∃ c, shellAt G' i = withCoef (shellAt G i) c ∧ ∀ j < (shellAt G i).nprim,
        |c j - (normedShell (shellAt G i)).coef j| ≤
          γ (normRound (shellAt G i) K) * |(normedShell (shellAt G i)).coef j|)

include h in
theorem prims_transport {prs : List (ℕ × ℕ)} (hp : InArray prs G.length) :
    ((pairsAt G' prs).map fun p => pairPrims p.1 p.2) = (pairsAt G prs).map fun p => pairPrims p.1 p.2 := by
  simp only [pairsAt, List.map_map]
  refine List.map_congr_left fun p hp' => ?_
  obtain ⟨c1, e1, -⟩ := h _ (hp p hp').1
  obtain ⟨c2, e2, -⟩ := h _ (hp p hp').2
  simp only [Function.comp_apply]
  rw [e1, e2]
  rfl

include h in
/-- Whether the stores of Schwarz screening stay in the array (C44) does not depend on the coefficients. -/
theorem stores_transport {prs : List (ℕ × ℕ)} (hp : InArray prs G.length) (sh : ShCfg) (hl : 0 < sh.len)
    (hsc : sh.screening = true) (ops : ShOps ℝ) (val : Shell ℝ → Shell ℝ → ℕ → ℕ → ℝ) (big : ℝ)
    (hin : ∀ i v, (Arr.screen, i, v) ∈ (fillPairs sh ops (schwarz sh.len val) big (pairsAt G prs)).log →
      i < allocPrims sh.len (pairsAt G prs)) :
    ∀ i v, (Arr.screen, i, v) ∈ (fillPairs sh ops (schwarz sh.len val) big (pairsAt G' prs)).log →
      i < allocPrims sh.len (pairsAt G' prs) := by
  rw [C44_schwarz_iff sh hl hsc] at hin ⊢
  have ec := prims_transport h hp
  have ea : allocPrims sh.len (pairsAt G' prs) = allocPrims sh.len (pairsAt G prs) := by
    unfold allocPrims
    rw [ec]
  rw [ec, ea]
  intro s hs
  have hs1 : s < prs.length := by simpa [pairsAt] using hs
  have := hin s (by simpa [pairsAt] using hs1)
  simp only [pairsAt, List.getElem_map] at this ⊢
  obtain ⟨c1, e1, -⟩ := h _ (hp _ (List.getElem_mem hs1)).1
  obtain ⟨c2, e2, -⟩ := h _ (hp _ (List.getElem_mem hs1)).2
  rw [e1, e2]
  exact this

include hG h

theorem class_drop_finish {final : QAM} {kb : ℕ} {p q : ℕ × ℕ} (hp : p.1 < G.length ∧ p.2 < G.length)
    (hq : q.1 < G.length ∧ q.2 < G.length) (hR : 0 ≤ R) {x y z w : Exp} {v d : ℝ} (hd : 0 ≤ d)
    (hv : |v - shellERI (shellAt G' p.1) (shellAt G' p.2) (shellAt G' q.1) (shellAt G' q.2) x y z w| ≤
      errCount kb final (pairPrims (shellAt G' p.1) (shellAt G' p.2) * pairPrims (shellAt G' q.1) (shellAt G' q.2)) *
        (1 / 2 ^ 52) *
        (shellSize (shellAt G' p.1) (shellAt G' p.2) (shellAt G' q.1) (shellAt G' q.2) R (totalL final) *
        (2 + 2 * R) ^ (min final.a final.b + min final.c final.d).toNat) +
      quartets (shellAt G' p.1) (shellAt G' p.2) (shellAt G' q.1) (shellAt G' q.2) * d) :
    ClassDropError G K R final kb p q x y z w v
      (quartets (shellAt G p.1) (shellAt G p.2) (shellAt G q.1) (shellAt G q.2) * d) := by
  have pos : ∀ {i}, i < G.length → (shellAt G' i).Pos := fun {i} hi j hj =>
    lt_of_lt_of_le (by norm_num) ((moderate hG h hi).lo j hj)
  have s := shellSize_nonneg (pos hp.1) (pos hp.2) (pos hq.1) (pos hq.2) hR (totalL final)
  have np : ∀ {i}, i < G.length → (shellAt G' i).nprim = (shellAt G i).nprim := fun {i} hi => by
    obtain ⟨c, e, -⟩ := h i hi
    rw [e]
    rfl
  obtain ⟨v', h1, h2⟩ := clamp (by positivity)
    (mul_nonneg (by unfold quartets; positivity) hd) hv
  refine ⟨v', ?_, finish hG h hp hq hR h2⟩
  unfold quartets at h1 ⊢
  rw [np hp.1, np hp.2, np hq.1, np hq.2] at h1
  exact h1

theorem class_am_transport {prs : List (ℕ × ℕ)} (hp : InArray prs G.length) {a b : ℤ}
    (ham : ∀ p ∈ pairsAt G prs, (p.1.am : ℤ) = a ∧ (p.2.am : ℤ) = b) :
    ∀ p ∈ pairsAt G' prs, (p.1.am : ℤ) = a ∧ (p.2.am : ℤ) = b := by
  intro p hp'
  obtain ⟨q, hq, rfl⟩ := List.mem_map.1 hp'
  obtain ⟨c1, e1, -⟩ := h _ (hp q hq).1
  obtain ⟨c2, e2, -⟩ := h _ (hp q hq).2
  dsimp only
  rw [e1, e2]
  exact ham _ (List.mem_map_of_mem hq)

/-- The bounds for Schwarz screening at most double when coefficients are rounded. -/
theorem self_transport {prs : List (ℕ × ℕ)} (hp : InArray prs G.length) (hR : 0 ≤ R) {e V : ℝ}
    (hs : SelfBelow (normedPairs G prs) R e V) : SelfBelow (pairsAt G' prs) R (2 * e) (2 * V) := by
  intro p hp' i hi j hj
  obtain ⟨q, hq, rfl⟩ := List.mem_map.1 hp'
  obtain ⟨c1, e1, -⟩ := h _ (hp q hq).1
  obtain ⟨c2, e2, -⟩ := h _ (hp q hq).2
  dsimp only at hi hj ⊢
  rw [e1] at hi ⊢
  rw [e2] at hj ⊢
  have a1 := coef_le hG h (hp q hq).1 e1 hi
  have a2 := coef_le hG h (hp q hq).2 e2 hj
  obtain ⟨s1, s2, s3⟩ := hs _ (List.mem_map_of_mem hq) i hi j hj
  have p1 : 0 < (shellAt G q.1).alpha i :=
    lt_of_lt_of_le (by norm_num) (hG.lo _ (shellAt_mem (hp q hq).1) i hi)
  have p2 : 0 < (shellAt G q.2).alpha j :=
    lt_of_lt_of_le (by norm_num) (hG.lo _ (shellAt_mem (hp q hq).2) j hj)
  refine ⟨s1, ?_, fun x y hx hy => ?_⟩
  · have o1 : (oneShell 0 (normedShell (shellAt G q.1)) i).Pos := fun _ _ => p1
    have o2 : (oneShell 1 (normedShell (shellAt G q.2)) j).Pos := fun _ _ => p2
    have sn := size_near (a' := fun _ => c1 i) (b' := fun _ => c2 j) (c' := fun _ => c1 i) (d' := fun _ => c2 j)
      o1 o2 o1 o2 (fun _ _ => a1) (fun _ _ => a2) (fun _ _ => a1) (fun _ _ => a2) hR
      (2 * ((shellAt G q.1).am + (shellAt G q.2).am))
    refine le_trans ?_ (mul_le_mul_of_nonneg_left s2 zero_le_two)
    unfold selfErr
    rw [mul_left_comm (2 : ℝ), ← mul_assoc (2 : ℝ)]
    exact mul_le_mul_of_nonneg_left (mul_le_mul_of_nonneg_right sn (by positivity)) (by positivity)
  · refine le_trans ?_ (mul_le_mul_of_nonneg_left (s3 x y hx hy) zero_le_two)
    have n0 := coulomb_self_nonneg p1 p2 (shellAt G q.1).pos (shellAt G q.2).pos x y
    unfold primSelf
    rw [← mul_assoc]
    refine mul_le_mul_of_nonneg_right ?_ n0
    show (c1 i * c2 j) ^ 2 ≤ _
    have m := mul_le_mul a1 a2 (abs_nonneg _) (by positivity)
    rw [← abs_mul] at m
    have m2 := pow_le_pow_left₀ (abs_nonneg _) m 2
    rw [sq_abs] at m2
    refine m2.trans ?_
    have e4 : ∀ y1 y2 : ℝ, (9 / 8 * |y1| * (9 / 8 * |y2|)) ^ 2 ≤ 2 * (y1 * y2) ^ 2 := fun y1 y2 => by
      have e5 : (9 / 8 * |y1| * (9 / 8 * |y2|)) ^ 2 = (81 / 64) ^ 2 * (|y1| ^ 2 * |y2| ^ 2) := by ring
      rw [e5, sq_abs, sq_abs, ← mul_pow]
      nlinarith [sq_nonneg (y1 * y2)]
    exact e4 _ _

end

/-- **C106.** IEEE doubles, from a basis set to screened integrals of any class: `simint_normalize_shells`, the complete
fill of two lists with the Schwarz values that the library computes (its stores staying in the array, C44) and
`simint_compute_ostei` with a positive tolerance all run.  Each integral has the errors of C96 plus what screening
leaves out; if the call returns -1, zero has them. -/
theorem C106_basis (fused : Bool) (b : Build) {g : GenCfg} (hg : g.OK) {final : QAM} (hf : ClassOK final)
    (hLb : final.a + final.b ≤ 12) (hLk : final.c + final.d ≤ 12) (sh : ShCfg) (hl : 0 < sh.len)
    (hsc : sh.screening = true) {big : ℝ} (hb0 : 0 ≤ big) (hb : big ≤ 2 ^ 500)
    (w : Shell ℝ → Shell ℝ → ℕ → ℕ → FlScrMem (ieee fused)) (hw : ∀ A B i j, (w A B i j).ptrA ≠ (w A B i j).ptrB)
    (hwd : ∀ A B i j k, IsDouble (ieee fused) ((w A B i j).out k).val)
    {G : List (Shell ℝ)} {K : ℕ} {R : ℝ} (hR0 : 0 ≤ R) (hR : R ≤ 2 ^ 10) (hG : BasisIn G K R)
    (prP prQ : List (ℕ × ℕ)) (hP : InArray prP G.length) (hQ : InArray prQ G.length)
    (hbra : BatchesFull sh.len (pairsAt G prP))
    (hn : ∀ p ∈ pairsAt G prP, ∀ q ∈ pairsAt G prQ, pairPrims p.1 p.2 * pairPrims q.1 q.2 ≤ 2 ^ 49)
    (hx : ∀ p ∈ pairsAt G prP, ∀ q ∈ pairsAt G prQ, ArgsBelow p.1 p.2 q.1 q.2 R 36.5)
    (hamP : ∀ p ∈ pairsAt G prP, (p.1.am : ℤ) = final.a ∧ (p.2.am : ℤ) = final.b)
    (hamQ : ∀ p ∈ pairsAt G prQ, (p.1.am : ℤ) = final.c ∧ (p.2.am : ℤ) = final.d)
    {e V : ℝ} (he : 0 ≤ e) (hV0 : 0 ≤ V) (hV : 2 * V + 2 * e ≤ 2 ^ 500) (hsP : SelfBelow (normedPairs G prP) R e V)
    (hsQ : SelfBelow (normedPairs G prQ) R e V)
    (hinP : ∀ i v, (Arr.screen, i, v) ∈ (fillPairs sh (shOps (ieee fused))
      (schwarz sh.len (flPrimVals (ieee fused) b g sh big w)) big (pairsAt G prP)).log →
        i < allocPrims sh.len (pairsAt G prP))
    (hinQ : ∀ i v, (Arr.screen, i, v) ∈ (fillPairs sh (shOps (ieee fused))
      (schwarz sh.len (flPrimVals (ieee fused) b g sh big w)) big (pairsAt G prQ)).log →
        i < allocPrims sh.len (pairsAt G prQ))
    (memP memQ : ℕ → ℝ) {t : ℝ} (ht0 : 0 < t) (ht : t ≤ 2 ^ 500) (outSize : ℕ)
    (hout : prP.length * prQ.length * ncartQ final ≤ outSize) (junk : VPar ℝ)
    (scratch : ℕ → ℕ → ℕ → VMem ℝ) (hmem : HMem (Fd (ieee fused))) (out : ℕ → Fd (ieee fused))
    (hod : ∀ k, IsDouble (ieee fused) (out k).val) :
    ∃ G' P Q n o, FlNorm.normalizeShells (ieee fused) G = some G' ∧
      completeList sh (shOps (ieee fused)) (schwarz sh.len (flPrimVals (ieee fused) b g sh big w)) big
        (pairsAt G' prP) memP = some P ∧
      completeList sh (shOps (ieee fused)) (schwarz sh.len (flPrimVals (ieee fused) b g sh big w)) big
        (pairsAt G' prQ) memQ = some Q ∧
      flOstei (ieee fused) b g final ⟨sh.len, P.1, Q.1, t, outSize, junk, scratch⟩ hmem out = some (n, o) ∧
      (n = -1 ∧ o = out ∧
        (∀ ab (hab : ab < prP.length) cd (hcd : cd < prQ.length) (x y z w : Exp),
          x.Valid → y.Valid → z.Valid → w.Valid →
          x.am = final.a → y.am = final.b → z.am = final.c → w.am = final.d →
          ClassDropError G K R final 226 prP[ab] prQ[cd] x y z w 0 (schwarzDrop G t e V prP[ab] prQ[cd])) ∨
      n = prP.length * prQ.length ∧
        (∀ ab (hab : ab < prP.length) cd (hcd : cd < prQ.length) (x y z w : Exp),
          x.Valid → y.Valid → z.Valid → w.Valid →
          x.am = final.a → y.am = final.b → z.am = final.c → w.am = final.d →
          ClassDropError G K R final 226 prP[ab] prQ[cd] x y z w
            (o ((ab * prQ.length + cd) * ncartQ final + Qrt.index psi4List ⟨⟨x, y⟩, ⟨z, w⟩, 0⟩)).val
            (schwarzDrop G t e V prP[ab] prQ[cd])) ∧
        ∀ k, prP.length * prQ.length * ncartQ final ≤ k → o k = out k) := by
  obtain ⟨G', eG, -, hh⟩ := normalise_basis fused hG.norm
  have hn' := transport hh (fun A B C D => pairPrims A B * pairPrims C D ≤ 2 ^ 49)
    (fun _ _ _ _ _ _ _ _ hh => hh) hP hQ hn
  have hx' := transport hh (fun A B C D => ArgsBelow A B C D R 36.5) (fun _ _ _ _ _ _ _ _ hh => hh) hP hQ hx
  have lP : (pairsAt G' prP).length = prP.length := List.length_map _
  have lQ : (pairsAt G' prQ).length = prQ.length := List.length_map _
  obtain ⟨P, Q, n, o, eP, eQ, r, hr⟩ := C100_schwarz fused b hg hf hLb hLk sh hl hsc hb0 hb w hw hwd
    (pairsAt G' prP) (pairsAt G' prQ) hR0 hR (pairs_moderate hG hh hP) (pairs_moderate hG hh hQ)
    (full_transport hh hP hbra) hn' hx' (class_am_transport hG hh hP hamP) (class_am_transport hG hh hQ hamQ)
    (e := 2 * e) (V := 2 * V) (by linarith) (by linarith) hV (self_transport hG hh hP hR0 hsP)
    (self_transport hG hh hQ hR0 hsQ) (stores_transport hh hP sh hl hsc _ _ _ hinP)
    (stores_transport hh hQ sh hl hsc _ _ _ hinQ) memP memQ ht0 ht outSize (by rw [lP, lQ]; exact hout)
    junk scratch hmem out hod
  have hd : 0 ≤ dropMax 1 t (2 * e) (2 * V + 2 * e) := sqrt_nonneg _
  have pos : ∀ {i}, i < G.length → (shellAt G' i).Pos := fun {i} hi j hj =>
    lt_of_lt_of_le (by norm_num) ((moderate hG hh hi).lo j hj)
  refine ⟨G', P, Q, n, o, eG, eP, eQ, r, ?_⟩
  rcases hr with ⟨r1, r2, r3⟩ | ⟨r1, r2, r3⟩
  · refine Or.inl ⟨r1, r2, fun ab hab cd hcd x y z w vx vy vz vw ex ey ez ew => ?_⟩
    have u := r3 ab (by rw [lP]; exact hab) cd (by rw [lQ]; exact hcd) x y z w vx vy vz vw ex ey ez ew
    simp only [pairsAt, List.getElem_map] at u
    have p1 := hP _ (List.getElem_mem hab)
    have q1 := hQ _ (List.getElem_mem hcd)
    refine class_drop_finish hG hh p1 q1 hR0 hd ?_
    have s := shellSize_nonneg (pos p1.1) (pos p1.2) (pos q1.1) (pos q1.2) hR0 (totalL final)
    rw [zero_sub, abs_neg]
    exact u.trans (le_add_of_nonneg_left (by positivity))
  · rw [lP, lQ] at r1 r3
    refine Or.inr ⟨r1, fun ab hab cd hcd x y z w vx vy vz vw ex ey ez ew => ?_, r3⟩
    have u := r2 ab (by rw [lP]; exact hab) cd (by rw [lQ]; exact hcd) x y z w vx vy vz vw ex ey ez ew
    simp only [pairsAt, List.getElem_map, List.length_map] at u
    have p1 := hP _ (List.getElem_mem hab)
    have q1 := hQ _ (List.getElem_mem hcd)
    exact class_drop_finish hG hh p1 q1 hR0 hd u

/-- **C106, arguments of the Boys function up to 10^8.** Classes with total angular momentum below 4. -/
theorem C106_basis_far (fused : Bool) (b : Build) {g : GenCfg} (hg : g.OK) {final : QAM} (hf : ClassOK final)
    (hL : totalL final < 4) (sh : ShCfg) (hl : 0 < sh.len)
    (hsc : sh.screening = true) {big : ℝ} (hb0 : 0 ≤ big) (hb : big ≤ 2 ^ 500)
    (w : Shell ℝ → Shell ℝ → ℕ → ℕ → FlScrMem (ieee fused)) (hw : ∀ A B i j, (w A B i j).ptrA ≠ (w A B i j).ptrB)
    (hwd : ∀ A B i j k, IsDouble (ieee fused) ((w A B i j).out k).val)
    {G : List (Shell ℝ)} {K : ℕ} {R : ℝ} (hR0 : 0 ≤ R) (hR : R ≤ 2 ^ 10) (hG : BasisIn G K R)
    (prP prQ : List (ℕ × ℕ)) (hP : InArray prP G.length) (hQ : InArray prQ G.length)
    (hbra : BatchesFull sh.len (pairsAt G prP))
    (hn : ∀ p ∈ pairsAt G prP, ∀ q ∈ pairsAt G prQ, pairPrims p.1 p.2 * pairPrims q.1 q.2 ≤ 2 ^ 49)
    (hx : ∀ p ∈ pairsAt G prP, ∀ q ∈ pairsAt G prQ, ArgsBelow p.1 p.2 q.1 q.2 R (10 ^ 8))
    (hamP : ∀ p ∈ pairsAt G prP, (p.1.am : ℤ) = final.a ∧ (p.2.am : ℤ) = final.b)
    (hamQ : ∀ p ∈ pairsAt G prQ, (p.1.am : ℤ) = final.c ∧ (p.2.am : ℤ) = final.d)
    {e V : ℝ} (he : 0 ≤ e) (hV0 : 0 ≤ V) (hV : 2 * V + 2 * e ≤ 2 ^ 500) (hsP : SelfBelow (normedPairs G prP) R e V)
    (hsQ : SelfBelow (normedPairs G prQ) R e V)
    (hinP : ∀ i v, (Arr.screen, i, v) ∈ (fillPairs sh (shOps (ieee fused))
      (schwarz sh.len (flPrimVals (ieee fused) b g sh big w)) big (pairsAt G prP)).log →
        i < allocPrims sh.len (pairsAt G prP))
    (hinQ : ∀ i v, (Arr.screen, i, v) ∈ (fillPairs sh (shOps (ieee fused))
      (schwarz sh.len (flPrimVals (ieee fused) b g sh big w)) big (pairsAt G prQ)).log →
        i < allocPrims sh.len (pairsAt G prQ))
    (memP memQ : ℕ → ℝ) {t : ℝ} (ht0 : 0 < t) (ht : t ≤ 2 ^ 500) (outSize : ℕ)
    (hout : prP.length * prQ.length * ncartQ final ≤ outSize) (junk : VPar ℝ)
    (scratch : ℕ → ℕ → ℕ → VMem ℝ) (hmem : HMem (Fd (ieee fused))) (out : ℕ → Fd (ieee fused))
    (hod : ∀ k, IsDouble (ieee fused) (out k).val) :
    ∃ G' P Q n o, FlNorm.normalizeShells (ieee fused) G = some G' ∧
      completeList sh (shOps (ieee fused)) (schwarz sh.len (flPrimVals (ieee fused) b g sh big w)) big
        (pairsAt G' prP) memP = some P ∧
      completeList sh (shOps (ieee fused)) (schwarz sh.len (flPrimVals (ieee fused) b g sh big w)) big
        (pairsAt G' prQ) memQ = some Q ∧
      flOstei (ieee fused) b g final ⟨sh.len, P.1, Q.1, t, outSize, junk, scratch⟩ hmem out = some (n, o) ∧
      (n = -1 ∧ o = out ∧
        (∀ ab (hab : ab < prP.length) cd (hcd : cd < prQ.length) (x y z w : Exp),
          x.Valid → y.Valid → z.Valid → w.Valid →
          x.am = final.a → y.am = final.b → z.am = final.c → w.am = final.d →
          ClassDropError G K R final 9910 prP[ab] prQ[cd] x y z w 0 (schwarzDrop G t e V prP[ab] prQ[cd])) ∨
      n = prP.length * prQ.length ∧
        (∀ ab (hab : ab < prP.length) cd (hcd : cd < prQ.length) (x y z w : Exp),
          x.Valid → y.Valid → z.Valid → w.Valid →
          x.am = final.a → y.am = final.b → z.am = final.c → w.am = final.d →
          ClassDropError G K R final 9910 prP[ab] prQ[cd] x y z w
            (o ((ab * prQ.length + cd) * ncartQ final + Qrt.index psi4List ⟨⟨x, y⟩, ⟨z, w⟩, 0⟩)).val
            (schwarzDrop G t e V prP[ab] prQ[cd])) ∧
        ∀ k, prP.length * prQ.length * ncartQ final ≤ k → o k = out k) := by
  obtain ⟨G', eG, -, hh⟩ := normalise_basis fused hG.norm
  have hn' := transport hh (fun A B C D => pairPrims A B * pairPrims C D ≤ 2 ^ 49)
    (fun _ _ _ _ _ _ _ _ hh => hh) hP hQ hn
  have hx' := transport hh (fun A B C D => ArgsBelow A B C D R (10 ^ 8)) (fun _ _ _ _ _ _ _ _ hh => hh) hP hQ hx
  have lP : (pairsAt G' prP).length = prP.length := List.length_map _
  have lQ : (pairsAt G' prQ).length = prQ.length := List.length_map _
  obtain ⟨P, Q, n, o, eP, eQ, r, hr⟩ := C100_schwarz_far fused b hg hf hL sh hl hsc hb0 hb w hw hwd
    (pairsAt G' prP) (pairsAt G' prQ) hR0 hR (pairs_moderate hG hh hP) (pairs_moderate hG hh hQ)
    (full_transport hh hP hbra) hn' hx' (class_am_transport hG hh hP hamP) (class_am_transport hG hh hQ hamQ)
    (e := 2 * e) (V := 2 * V) (by linarith) (by linarith) hV (self_transport hG hh hP hR0 hsP)
    (self_transport hG hh hQ hR0 hsQ) (stores_transport hh hP sh hl hsc _ _ _ hinP)
    (stores_transport hh hQ sh hl hsc _ _ _ hinQ) memP memQ ht0 ht outSize (by rw [lP, lQ]; exact hout)
    junk scratch hmem out hod
  have hd : 0 ≤ dropMax 1 t (2 * e) (2 * V + 2 * e) := sqrt_nonneg _
  have pos : ∀ {i}, i < G.length → (shellAt G' i).Pos := fun {i} hi j hj =>
    lt_of_lt_of_le (by norm_num) ((moderate hG hh hi).lo j hj)
  refine ⟨G', P, Q, n, o, eG, eP, eQ, r, ?_⟩
  rcases hr with ⟨r1, r2, r3⟩ | ⟨r1, r2, r3⟩
  · refine Or.inl ⟨r1, r2, fun ab hab cd hcd x y z w vx vy vz vw ex ey ez ew => ?_⟩
    have u := r3 ab (by rw [lP]; exact hab) cd (by rw [lQ]; exact hcd) x y z w vx vy vz vw ex ey ez ew
    simp only [pairsAt, List.getElem_map] at u
    have p1 := hP _ (List.getElem_mem hab)
    have q1 := hQ _ (List.getElem_mem hcd)
    refine class_drop_finish hG hh p1 q1 hR0 hd ?_
    have s := shellSize_nonneg (pos p1.1) (pos p1.2) (pos q1.1) (pos q1.2) hR0 (totalL final)
    rw [zero_sub, abs_neg]
    exact u.trans (le_add_of_nonneg_left (by positivity))
  · rw [lP, lQ] at r1 r3
    refine Or.inr ⟨r1, fun ab hab cd hcd x y z w vx vy vz vw ex ey ez ew => ?_, r3⟩
    have u := r2 ab (by rw [lP]; exact hab) cd (by rw [lQ]; exact hcd) x y z w vx vy vz vw ex ey ez ew
    simp only [pairsAt, List.getElem_map, List.length_map] at u
    have p1 := hP _ (List.getElem_mem hab)
    have q1 := hQ _ (List.getElem_mem hcd)
    exact class_drop_finish hG hh p1 q1 hR0 hd u

/-- Sizes of shells with larger coefficients. -/
theorem size_pow {A B : Shell ℝ} (hA : A.Pos) (hB : B.Pos) (a1 : ∀ i, A.coef i = 1) (b1 : ∀ i, B.coef i = 1) {R : ℝ}
    (hR : 0 ≤ R) (n k : ℕ) :
    shellSize (withCoef A fun _ => (9 / 8) ^ k) (withCoef B fun _ => (9 / 8) ^ k) (withCoef A fun _ => (9 / 8) ^ k)
      (withCoef B fun _ => (9 / 8) ^ k) R n ≤ 2 ^ k * shellSize A B A B R n := by
  have c : ∀ k : ℕ, |((9 : ℝ) / 8) ^ (k + 1)| ≤ 9 / 8 * |(9 / 8) ^ k| := fun k => by
    rw [abs_of_pos (by positivity), abs_of_pos (by positivity), pow_succ']
  induction k with
  | zero =>
    have ea : (withCoef A fun _ => (9 / 8) ^ 0) = A := by
      obtain ⟨p, m, q, r, u, v⟩ := A
      simp only [withCoef, pow_zero]
      congr
      exact (funext a1).symm
    have eb : (withCoef B fun _ => (9 / 8) ^ 0) = B := by
      obtain ⟨p, m, q, r, u, v⟩ := B
      simp only [withCoef, pow_zero]
      congr
      exact (funext b1).symm
    rw [ea, eb, pow_zero, one_mul]
  | succ k ih =>
    have s := size_near (A := withCoef A fun _ => (9 / 8) ^ k) (B := withCoef B fun _ => (9 / 8) ^ k)
      (C := withCoef A fun _ => (9 / 8) ^ k) (D := withCoef B fun _ => (9 / 8) ^ k)
      (a' := fun _ => (9 / 8) ^ (k + 1)) (b' := fun _ => (9 / 8) ^ (k + 1)) (c' := fun _ => (9 / 8) ^ (k + 1))
      (d' := fun _ => (9 / 8) ^ (k + 1)) hA hB hA hB (fun _ _ => c k) (fun _ _ => c k) (fun _ _ => c k)
      (fun _ _ => c k) hR n
    refine le_trans s ?_
    rw [pow_succ', mul_assoc]
    linarith

theorem sShell_normed_self : SelfBelow (normedPairs [sShell 1 0, sShell 2 1] [(0, 1)]) 1 (1 / 2 ^ 14) (2 ^ 17) := by
  intro p hp i hi j hj
  obtain rfl : p = (normedShell (sShell 1 0), normedShell (sShell 2 1)) := List.mem_singleton.1 hp
  have c1 := sShell_unit 1 0 i
  have c2 := sShell_unit 2 1 j
  obtain ⟨s1, -, s3⟩ := sShell_self _ (List.mem_singleton.2 rfl) i hi j hj
  refine ⟨s1, ?_, fun x y hx hy => ?_⟩
  · have o1 : (oneShell 0 (sShell 1 0) 0).Pos := fun _ _ => by norm_num [oneShell, sShell]
    have o2 : (oneShell 1 (sShell 2 1) 0).Pos := fun _ _ => by norm_num [oneShell, sShell]
    have k8 : ∀ {c : ℝ}, |c| ≤ 8 → |c| ≤ 9 / 8 * |((9 : ℝ) / 8) ^ 18| := fun {c} hc =>
      hc.trans (by rw [abs_of_pos (by positivity)]; norm_num)
    have h1 := size_pow o1 o2 (fun _ => rfl) (fun _ => rfl) zero_le_one 0 18
    have h2 := size_near (A := withCoef (oneShell 0 (sShell 1 0) 0) fun _ => (9 / 8) ^ 18)
      (B := withCoef (oneShell 1 (sShell 2 1) 0) fun _ => (9 / 8) ^ 18)
      (C := withCoef (oneShell 0 (sShell 1 0) 0) fun _ => (9 / 8) ^ 18)
      (D := withCoef (oneShell 1 (sShell 2 1) 0) fun _ => (9 / 8) ^ 18)
      (a' := fun _ => (normedShell (sShell 1 0)).coef i) (b' := fun _ => (normedShell (sShell 2 1)).coef j)
      (c' := fun _ => (normedShell (sShell 1 0)).coef i) (d' := fun _ => (normedShell (sShell 2 1)).coef j)
      o1 o2 o1 o2 (fun _ _ => k8 c1) (fun _ _ => k8 c2) (fun _ _ => k8 c1) (fun _ _ => k8 c2) zero_le_one 0
    have h3 := sShell_size
    have h4 : shellSize (oneShell 0 (normedShell (sShell 1 0)) i) (oneShell 1 (normedShell (sShell 2 1)) j)
        (oneShell 0 (normedShell (sShell 1 0)) i) (oneShell 1 (normedShell (sShell 2 1)) j) 1 0 ≤ 2 * (2 ^ 18 * 755) :=
      le_trans h2 (mul_le_mul_of_nonneg_left
        (h1.trans (mul_le_mul_of_nonneg_left h3 (by norm_num))) zero_le_two)
    unfold selfErr
    simp only [show (normedShell (sShell 1 0)).am = 0 from rfl, show (normedShell (sShell 2 1)).am = 0 from rfl,
      add_zero, mul_zero, min_self, pow_zero, mul_one]
    calc _ ≤ ((672 : ℕ) : ℝ) * (1 / 2 ^ 52) * (2 * (2 ^ 18 * 755)) := mul_le_mul_of_nonneg_left h4 (by positivity)
      _ ≤ 1 / 2 ^ 14 := by norm_num
  · have u := s3 x y hx hy
    unfold primSelf at u ⊢
    have e1 : (sShell 1 0).coef i = 1 := rfl
    have e2 : (sShell 2 1).coef j = 1 := rfl
    simp only [e1, e2, one_mul, one_pow] at u
    have m := mul_le_mul c1 c2 (abs_nonneg _) (by norm_num)
    rw [← abs_mul] at m
    have m2 := pow_le_pow_left₀ (abs_nonneg _) m 2
    rw [sq_abs] at m2
    have n0 := coulomb_self_nonneg (α := 1) (β := 1) one_pos one_pos (sShell 1 0).pos (sShell 2 1).pos x y
    refine (mul_le_mul m2 u n0 (by norm_num)).trans ?_
    norm_num

/-- Non-trivial case: two s shells, a pair of them in each list, four lanes, tolerance 10^-5. -/
example (fused : Bool) (b : Build) {g : GenCfg} (hg : g.OK) (junk : VPar ℝ) (scratch : ℕ → ℕ → ℕ → VMem ℝ)
    (w : Shell ℝ → Shell ℝ → ℕ → ℕ → FlScrMem (ieee fused)) (hw : ∀ A B i j, (w A B i j).ptrA ≠ (w A B i j).ptrB)
    (hwd : ∀ A B i j k, IsDouble (ieee fused) ((w A B i j).out k).val) (mem : ℕ → ℝ) (hmem : HMem (Fd (ieee fused)))
    (out : ℕ → Fd (ieee fused)) (hod : ∀ k, IsDouble (ieee fused) (out k).val) :
    let G := [sShell 1 0, sShell 2 1]
    ∃ G' P n o, FlNorm.normalizeShells (ieee fused) G = some G' ∧
      completeList ⟨4, true, false⟩ (shOps (ieee fused))
        (schwarz 4 (flPrimVals (ieee fused) b g ⟨4, true, false⟩ 1e99 w)) 1e99 (pairsAt G' [(0, 1)]) mem = some P ∧
      flOstei (ieee fused) b g ssss ⟨4, P.1, P.1, 1 / 10 ^ 5, 1, junk, scratch⟩ hmem out = some (n, o) ∧
      (n = 1 → ClassDropError G 2 1 ssss 226 (0, 1) (0, 1) ⟨0, 0, 0⟩ ⟨0, 0, 0⟩ ⟨0, 0, 0⟩ ⟨0, 0, 0⟩ (o 0).val
        (schwarzDrop G (1 / 10 ^ 5) (1 / 2 ^ 14) (2 ^ 17) (0, 1) (0, 1))) := by
  intro G
  have hf : ClassOK ssss := ⟨by unfold QAM.Valid; decide, rfl, by decide, by decide⟩
  have one : ∀ p ∈ pairsAt G [(0, 1)], p = (sShell 1 0, sShell 2 1) := fun p hp => List.mem_singleton.1 hp
  have inA : InArray [(0, 1)] G.length := by intro p hp; simp at hp; subst hp; simp [G]
  have hin := C44_schwarz_partial ⟨4, true, false⟩ (by decide) rfl (shOps (ieee fused))
    (flPrimVals (ieee fused) b g ⟨4, true, false⟩ 1e99 w) 1e99 (pairsAt G [(0, 1)]) (Or.inl le_rfl)
  have ham : ∀ p ∈ pairsAt G [(0, 1)], (p.1.am : ℤ) = 0 ∧ (p.2.am : ℤ) = 0 := fun p hp => by
    rw [one p hp]
    exact ⟨rfl, rfl⟩
  have big : (1e99 : ℝ) ≤ 2 ^ 500 := by
    calc (1e99 : ℝ) = (10 ^ 33) ^ 3 := by norm_num
      _ ≤ (2 ^ 110) ^ 3 := pow_le_pow_left₀ (by norm_num) (by norm_num) 3
      _ = 2 ^ 330 := by rw [← pow_mul]
      _ ≤ 2 ^ 500 := pow_le_pow_right₀ (by norm_num) (by norm_num)
  have two : (1 : ℝ) ≤ 2 ^ 500 := one_le_pow₀ (by norm_num)
  have two' : (2 : ℝ) ^ 19 ≤ 2 ^ 500 := pow_le_pow_right₀ (by norm_num) (by norm_num)
  obtain ⟨G', P, Q, n, o, eG, h1, h2, h3, h4⟩ := C106_basis fused b hg hf (by decide) (by decide) ⟨4, true, false⟩
    (by decide) rfl (by norm_num) big w hw hwd zero_le_one (by norm_num) sShell_basis [(0, 1)] [(0, 1)] inA inA
    (batchesFull_one (by decide))
    (fun p hp q hq => by
      rw [one p hp, one q hq]
      have : pairPrims (sShell 1 0) (sShell 2 1) = 1 := by decide
      simp only [this]
      norm_num)
    (fun p hp q hq => by rw [one p hp, one q hq]; exact sShell_args) ham ham (e := 1 / 2 ^ 14) (V := 2 ^ 17)
    (by norm_num) (by norm_num) (le_trans (by norm_num) two') sShell_normed_self sShell_normed_self hin hin mem mem
    (t := 1 / 10 ^ 5) (by norm_num) (le_trans (by norm_num) two) 1 (by decide) junk scratch hmem out hod
  rw [h1] at h2
  obtain rfl := Option.some.inj h2
  refine ⟨G', P, n, o, eG, h1, h3, fun hn => ?_⟩
  rcases h4 with ⟨e, -⟩ | ⟨-, h, -⟩
  · rw [hn] at e
    exact absurd e (by decide)
  · exact h 0 (by decide) 0 (by decide) ⟨0, 0, 0⟩ ⟨0, 0, 0⟩ ⟨0, 0, 0⟩ ⟨0, 0, 0⟩ (by decide) (by decide) (by decide)
      (by decide) rfl rfl rfl rfl

end Simint
