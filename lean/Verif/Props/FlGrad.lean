import Verif.Props.FlShells
import Verif.Props.FlDeriv
import Verif.Spec.FlGrad

/-!
# Property C91: from shells to derivatives on doubles

Complete fills with rounding, followed by a call of a generated derivative function.
-/

set_option autoImplicit false

open Real Finset

namespace Simint

open FlBoys (Arith ieee u η)
open FlPrim (shOps)

/-! ### The arrays of exponents -/

theorem fl_double_err {F : Arith} (hF : Sound F) {a : ℝ} (h1 : 1 / 2 ^ 10 ≤ a) (h2 : a ≤ 2 ^ 30) :
    |F.fl (2 * a) - 2 * a| ≤ 1 / 2 ^ 52 * (2 * a) := by
  have h0 : 0 < 2 * a := by
    have : (0 : ℝ) < 1 / 2 ^ 10 := by positivity
    linarith
  have r := hF.fl (2 * a) (by
    rw [abs_of_pos h0, FlPrim.T_def]
    exact FlPrim.mul_T (n := 1) (m := 30) (by unfold FlPrim.T; norm_num) (by rw [← FlPrim.T_def]; exact h2)
      (by linarith) (by norm_num))
  rw [abs_of_pos h0] at r
  have hκ : κ ≤ 2 * a := by
    have e1 : κ ≤ FlPrim.S 10 := by
      have h1 := FlPrim.κT (show 1 + 1021 = 1022 by norm_num)
      have h2 : FlPrim.S 1021 ≤ FlPrim.S 10 := FlPrim.S_le (by norm_num)
      have h3 : FlPrim.T 1 = 2 := by unfold FlPrim.T; norm_num
      rw [h3] at h1
      have := κ_pos
      linarith
    rw [← FlPrim.S_def] at e1
    linarith
  have hη : η ≤ u * (2 * a) := by
    rw [η_eq]
    exact mul_le_mul_of_nonneg_left hκ u_pos.le
  refine r.trans ?_
  have : u * 2 ≤ 1 / 2 ^ 52 := by unfold u; norm_num
  calc u * (2 * a) + η ≤ u * 2 * (2 * a) := by linarith
    _ ≤ _ := mul_le_mul_of_nonneg_right this h0.le

/-- What a fill stores in the arrays of exponents. -/
theorem exps_err (fused : Bool) {S : PairData} {k : ℕ} {R : ℝ}
    (hm : PairMod S.A S.B (S.prim k).1 (S.prim k).2 R) :
    |FlPrim.value (ieee fused) S.A S.B (S.prim k).1 (S.prim k).2 .alpha2 - 2 * S.meanA k| ≤
        1 / 2 ^ 52 * (2 * S.meanA k) ∧
      |FlPrim.value (ieee fused) S.A S.B (S.prim k).1 (S.prim k).2 .beta2 - 2 * S.meanB k| ≤
        1 / 2 ^ 52 * (2 * S.meanB k) := by
  have hF := (C87_ieee fused).1
  have hp := (FlPrim.C86_pair hF hm.pairIn).1
  by_cases h : S.folded k = true
  · have h' : (sameShell S.A S.B && decide ((S.prim k).1 ≠ (S.prim k).2)) = true := h
    have ea : 2 * S.meanA k = S.A.alpha (S.prim k).1 + S.B.alpha (S.prim k).2 := by
      unfold PairData.meanA; rw [if_pos h]; ring
    have eb : 2 * S.meanB k = S.A.alpha (S.prim k).1 + S.B.alpha (S.prim k).2 := by
      unfold PairData.meanB; rw [if_pos h]; ring
    rw [ea, eb]
    unfold FlPrim.value at hp ⊢
    simp only [h', if_true] at hp ⊢
    exact ⟨hp, hp⟩
  · have h' : ¬ (sameShell S.A S.B && decide ((S.prim k).1 ≠ (S.prim k).2)) = true := h
    have ea : S.meanA k = S.A.alpha (S.prim k).1 := by unfold PairData.meanA; rw [if_neg h]
    have eb : S.meanB k = S.B.alpha (S.prim k).2 := by unfold PairData.meanB; rw [if_neg h]
    rw [ea, eb]
    unfold FlPrim.value
    simp only
    rw [if_neg h', if_neg h']
    exact ⟨fl_double_err hF hm.alo hm.ahi, fl_double_err hF hm.blo hm.bhi⟩

/-! ### Sums over stored primitives -/

section
variable {A B C D : Shell ℝ}

/-- Exponents of a stored pair of primitives. -/
noncomputable def keptA (A B : Shell ℝ) (i j : ℕ) : ℝ := (⟨A, B, fun _ => (i, j)⟩ : PairData).meanA 0

noncomputable def keptB (A B : Shell ℝ) (i j : ℕ) : ℝ := (⟨A, B, fun _ => (i, j)⟩ : PairData).meanB 0

open Classical in
theorem storedPrims_sum (hA : A.OK) (hB : B.OK) (f : ℝ → ℝ → ℝ → ℝ) :
    ((storedPrims A B).map fun p => f p.coef p.α p.β).sum =
      ∑ i ∈ range A.nprim, ∑ j ∈ range B.nprim, if StoredPrims A B i j then
        f (FlPrim.mult A B i j * (A.coef i * B.coef j)) (keptA A B i j) (keptB A B i j) else 0 := by
  have h := stored_prims_sum (A := A) (B := B) (List.Perm.refl (primOrder A B)) (n := pairPrims A B) rfl
    (fun i j => f (FlPrim.mult A B i j * (A.coef i * B.coef j)) (keptA A B i j) (keptB A B i j))
  rw [← h, ← primOrder_length, sum_getD (primOrder A B) (0, 0) fun p =>
    f (FlPrim.mult A B p.1 p.2 * (A.coef p.1 * B.coef p.2)) (keptA A B p.1 p.2) (keptB A B p.1 p.2)]
  unfold storedPrims
  rw [List.map_map]
  congr 1
  refine List.map_congr_left fun p hp => ?_
  obtain ⟨i, j⟩ := p
  obtain ⟨h1, h2, -⟩ := (mem_primOrder A B _ _).1 hp
  have a1 := hA.2 i h1
  have b1 := hB.2 j h2
  simp only [Function.comp]
  unfold FlPrim.mult keptA keptB PairData.meanA PairData.meanB PairData.folded
  simp only
  by_cases h : (sameShell A B && decide (i ≠ j)) = true
  · simp only [h, if_true]
    rw [primPair_eq (by linarith) (by linarith)]
  · simp only [h, if_false, Bool.false_eq_true]
    rw [primPair_eq a1 b1, one_mul]

theorem stored_total (hA : A.OK) (hB : B.OK) (hC : C.OK) (hD : D.OK) (a b c d : Dir → ℝ) (x y z w : Exp) :
    overStored A B C D (fun i j k l => FlPrim.coefs A B C D i j k l *
      coulomb (keptA A B i j) (keptB A B i j) (keptA C D k l) (keptB C D k l) a b c d x y z w) =
      contractedERI ⟨a, b, storedPrims A B⟩ ⟨c, d, storedPrims C D⟩ x y z w := by
  classical
  unfold contractedERI
  simp only
  rw [storedPrims_sum hA hB fun e α β => ((storedPrims C D).map fun q =>
    e * q.coef * coulomb α β q.α q.β a b c d x y z w).sum]
  unfold overStored
  refine sum_congr rfl fun i _ => sum_congr rfl fun j _ => ?_
  split_ifs
  · rw [storedPrims_sum hC hD fun e γ δ => FlPrim.mult A B i j * (A.coef i * B.coef j) * e *
      coulomb (keptA A B i j) (keptB A B i j) γ δ a b c d x y z w]
    unfold FlPrim.coefs
    rfl
  · rfl

end

section
variable {F : Arith} {len : ℕ} {c : Call ℝ} {psP psQ : List (Shell ℝ × Shell ℝ)} {S T : ℕ → PairData} {R : ℝ}

theorem meanERI_shells (htol : c.tol ≤ 0) (hP : FilledWith F len c.P psP S R)
    (hQ : FilledWith F len c.Q psQ T R) {ab cd : ℕ} (hab : ab < psP.length) (hcd : cd < psQ.length)
    (oA : psP[ab].1.OK) (oB : psP[ab].2.OK) (oC : psQ[cd].1.OK) (oD : psQ[cd].2.OK) (x y z w : Exp) (t : RRType)
    (i : Dir) (v : ℝ) :
    meanERI F c (moveFl S T t i v).1 (moveFl S T t i v).2 ab cd x y z w =
      contractedERI (moveCenter (storedPair psP[ab].1 psP[ab].2) (storedPair psQ[cd].1 psQ[cd].2) t i v).1
        (moveCenter (storedPair psP[ab].1 psP[ab].2) (storedPair psQ[cd].1 psQ[cd].2) t i v).2 x y z w := by
  obtain ⟨s1, s2⟩ := hP.shells ab hab
  obtain ⟨t1, t2⟩ := hQ.shells cd hcd
  have key : ∀ (a b c' d : Dir → ℝ), (∀ k l, meanPrim (moveFl S T t i v).1 (moveFl S T t i v).2 ab cd k l x y z w =
      FlPrim.coefs (S ab).A (S ab).B (T cd).A (T cd).B ((S ab).prim k).1 ((S ab).prim k).2 ((T cd).prim l).1
      ((T cd).prim l).2 * coulomb ((S ab).meanA k) ((S ab).meanB k) ((T cd).meanA l) ((T cd).meanB l) a b c' d
        x y z w) →
      meanERI F c (moveFl S T t i v).1 (moveFl S T t i v).2 ab cd x y z w =
        contractedERI ⟨a, b, storedPrims psP[ab].1 psP[ab].2⟩ ⟨c', d, storedPrims psQ[cd].1 psQ[cd].2⟩ x y z w := by
    intro a b c' d h
    rw [← stored_total oA oB oC oD a b c' d x y z w]
    rw [← overKept_shells htol hP hQ hab hcd fun p q =>
      FlPrim.coefs psP[ab].1 psP[ab].2 psQ[cd].1 psQ[cd].2 p.1 p.2 q.1 q.2 *
        coulomb (keptA psP[ab].1 psP[ab].2 p.1 p.2) (keptB psP[ab].1 psP[ab].2 p.1 p.2)
          (keptA psQ[cd].1 psQ[cd].2 q.1 q.2) (keptB psQ[cd].1 psQ[cd].2 q.1 q.2) a b c' d x y z w]
    unfold meanERI
    simp only [h]
    rw [← s1, ← s2, ← t1, ← t2]
    rfl
  cases t
  · exact key (Function.update (S ab).A.pos i v) (S ab).B.pos (T cd).A.pos (T cd).B.pos (fun k l => rfl) |>.trans
      (by rw [s1, s2, t1, t2]; rfl)
  · exact key (S ab).A.pos (Function.update (S ab).B.pos i v) (T cd).A.pos (T cd).B.pos (fun k l => rfl) |>.trans
      (by rw [s1, s2, t1, t2]; rfl)
  · exact key (S ab).A.pos (S ab).B.pos (Function.update (T cd).A.pos i v) (T cd).B.pos (fun k l => rfl) |>.trans
      (by rw [s1, s2, t1, t2]; rfl)
  · exact key (S ab).A.pos (S ab).B.pos (T cd).A.pos (Function.update (T cd).B.pos i v) (fun k l => rfl) |>.trans
      (by rw [s1, s2, t1, t2]; rfl)

theorem gradSize_shells (htol : c.tol ≤ 0) (hP : FilledWith F len c.P psP S R)
    (hQ : FilledWith F len c.Q psQ T R) {ab cd : ℕ} (hab : ab < psP.length) (hcd : cd < psQ.length) (n : ℕ) :
    gradSize F c S T R ab cd n = shellGradSize psP[ab].1 psP[ab].2 psQ[cd].1 psQ[cd].2 R n := by
  obtain ⟨s1, s2⟩ := hP.shells ab hab
  obtain ⟨t1, t2⟩ := hQ.shells cd hcd
  unfold gradSize shellGradSize
  rw [← overKept_shells htol hP hQ hab hcd fun p q => (1 + 2 * (psP[ab].1.alpha p.1 + psP[ab].2.alpha p.2 +
      psQ[cd].1.alpha q.1 + psQ[cd].2.alpha q.2)) *
    VRRRound.growth (FlPrim.startMax psP[ab].1 psP[ab].2 psQ[cd].1 psQ[cd].2 p.1 p.2 q.1 q.2 R) (FlPrim.stepMax R)
      (FlPrim.lowMax (psP[ab].1.alpha p.1 + psP[ab].2.alpha p.2) (psQ[cd].1.alpha q.1 + psQ[cd].2.alpha q.2)) n]
  have hw : ∀ k l, expWeight S T ab cd k l = 1 + 2 * ((S ab).A.alpha ((S ab).prim k).1 +
      (S ab).B.alpha ((S ab).prim k).2 + (T cd).A.alpha ((T cd).prim l).1 + (T cd).B.alpha ((T cd).prim l).2) := by
    intro k l
    have e1 := (S ab).mean_sum k
    have e2 := (T cd).mean_sum l
    unfold expWeight expFl
    simp only
    linarith
  simp only [hw]
  unfold primSize
  rw [s1, s2, t1, t2]

end

/-! ### The derivatives -/

/-- Common part of the two theorems below. -/
theorem gradients_aux (fused : Bool) (b : Build) (fuseD : RRType → Dir → Bool) {g : GenCfg} (hg : g.OK)
    {final : QAM} (hf : DerivClassOK final) (hL : totalL final + 1 ≤ 24) (sh : ShCfg) (hl : 0 < sh.len)
    (hder : sh.deriv = true) (scr : PrimScreen ℝ) (val : Shell ℝ → Shell ℝ → ℕ → ℕ → ℝ)
    (hscr : sh.screening = true → ExactScr scr val) (big : ℝ) (psP psQ : List (Shell ℝ × Shell ℝ)) {R : ℝ}
    (hR0 : 0 ≤ R) (hR : R ≤ 2 ^ 10) (hP : PairsModerate psP R)
    (hQ : PairsModerate psQ R) (hbra : BatchesFull sh.len psP)
    (hn : ∀ p ∈ psP, ∀ q ∈ psQ, pairPrims p.1 p.2 * pairPrims q.1 q.2 ≤ 2 ^ 49)
    {kb : ℕ} (hkb : kb ≤ 2 ^ 19) {X : ℝ}
    (hx : ∀ p ∈ psP, ∀ q ∈ psQ, ArgsBelow p.1 p.2 q.1 q.2 R X)
    (hX : ∀ (c : Call ℝ) (S T : ℕ → PairData), c.len = sh.len →
      HoldsFl (ieee fused) c.P (tightStart c.P.nprim12) S R →
      HoldsFl (ieee fused) c.Q (paddedStart c.len c.Q.nprim12) T R →
      (∀ ab < c.P.nclip, ∀ cd < c.Q.nclip, ∀ k < c.P.nprim12 ab, ∀ l < c.Q.nprim12 cd,
        FlPrim.fx (ieee fused) c.P c.Q (tightStart c.P.nprim12 ab + k)
          (paddedStart c.len c.Q.nprim12 cd + l) < X) → BoysOK (ieee fused) c b.vec (totalL final + 1) kb)
    (memP memQ : ℕ → ℝ) (tol : ℝ) (htol : tol ≤ 0) (outSize : ℕ)
    (hout : psP.length * psQ.length * (12 * ncartQ final) ≤ outSize) (junk : VPar ℝ)
    (scratch : ℕ → ℕ → ℕ → VMem ℝ) (hmem : HMem (Fd (ieee fused))) (out : ℕ → Fd (ieee fused)) :
    ∃ P Q o, completeList sh (shOps (ieee fused)) scr big psP memP = some P ∧
      completeList sh (shOps (ieee fused)) scr big psQ memQ = some Q ∧
      flDerivFunction (ieee fused) b fuseD g final ⟨⟨sh.len, P.1, Q.1, tol, outSize, junk, scratch⟩, P.2.1, P.2.2,
        Q.2.1, Q.2.2⟩ hmem out = some (psP.length * psQ.length, o) ∧
      (∀ ab (hab : ab < psP.length) cd (hcd : cd < psQ.length) (x y z w : Exp),
        x.Valid → y.Valid → z.Valid → w.Valid →
        x.am = final.a → y.am = final.b → z.am = final.c → w.am = final.d → ∀ (t : RRType) (i : Dir),
        ∃ v, HasDerivAt (movedERI psP[ab].1 psP[ab].2 psQ[cd].1 psQ[cd].2 x y z w t i) v
            (shellCenter psP[ab].1 psP[ab].2 psQ[cd].1 psQ[cd].2 t i) ∧
          |(o ((ab * psQ.length + cd) * (12 * ncartQ final) +
              (12 * Qrt.index psi4List ⟨⟨x, y⟩, ⟨z, w⟩, 0⟩ + (3 * t.idx + i.idx)))).val - v| ≤
            gradCount kb final (pairPrims psP[ab].1 psP[ab].2 * pairPrims psQ[cd].1 psQ[cd].2) * (1 / 2 ^ 52) *
              (gradTerms final t * (shellGradSize psP[ab].1 psP[ab].2 psQ[cd].1 psQ[cd].2 R (totalL final + 1) *
                (2 + 2 * R) ^ gradStepped final))) ∧
      ∀ k, psP.length * psQ.length * (12 * ncartQ final) ≤ k → o k = out k := by
  obtain ⟨P, eP, S, fP, xP, -⟩ := C89_list fused sh hl scr val hscr big psP hR hP memP
  obtain ⟨Q, eQ, T, fQ, xQ, -⟩ := C89_list fused sh hl scr val hscr big psQ hR hQ memQ
  have hF := (C87_ieee fused).1
  have hst := (C87_ieee fused).2
  let c : DerivCall ℝ := ⟨⟨sh.len, P.1, Q.1, tol, outSize, junk, scratch⟩, P.2.1, P.2.2, Q.2.1, Q.2.2⟩
  have hc : DerivCallOK final c.toCall := ⟨hl, fun s hs => by
      have hs' : s < psQ.length := by rw [← fQ.nclip]; exact hs
      show 0 < Q.1.nprim12 s
      rw [fQ.count s hs']
      exact pairPrims_pos (hQ _ (List.getElem_mem hs')).1.prims (hQ _ (List.getElem_mem hs')).2.1.prims,
    fP.tight, fQ.padded, fP.pos, fQ.pos, by show P.1.nclip * Q.1.nclip * _ ≤ _; rw [fP.nclip, fQ.nclip]; exact hout⟩
  have htp : ∀ s < c.P.nclip, tightStart c.P.nprim12 s = paddedStart sh.len c.P.nprim12 s :=
    fP.starts hl hbra
  have hS : HoldsFl (ieee fused) c.P (tightStart c.P.nprim12) S R := by
    refine ⟨fP.holds.AB, fP.holds.pos, fun s hs k hk => ?_, fP.holds.size⟩
    rw [htp s hs]
    exact fP.holds.prims s hs k hk
  have hT : HoldsFl (ieee fused) c.Q (paddedStart c.len c.Q.nprim12) T R := fQ.holds
  have exps : ∀ (ps : List (Shell ℝ × Shell ℝ)) (M : MSP ℝ × (ℕ → ℝ) × (ℕ → ℝ)) (S : ℕ → PairData),
      PairsModerate ps R → FilledWith (ieee fused) sh.len M.1 ps S R →
      (∀ s < ps.length, ∀ k < M.1.nprim12 s,
          M.2.1 (paddedStart sh.len M.1.nprim12 s + k) = FlPrim.value (ieee fused) (S s).A (S s).B ((S s).prim k).1
            ((S s).prim k).2 .alpha2 ∧
          M.2.2 (paddedStart sh.len M.1.nprim12 s + k) = FlPrim.value (ieee fused) (S s).A (S s).B ((S s).prim k).1
            ((S s).prim k).2 .beta2) →
      HoldsExpsFl M.1 M.2.1 M.2.2 (paddedStart sh.len M.1.nprim12) S := by
    intro ps M S hps f h
    refine ⟨fun s hs hsame => ?_, fun s hs k hk => ?_, fun s hs k hk => ?_⟩
    · rw [f.nclip] at hs
      obtain ⟨e1, e2⟩ := f.shells s hs
      rw [e1, e2] at hsame ⊢
      exact ((hps _ (List.getElem_mem hs)).2.2 hsame).1
    · have hs' := hs
      rw [f.nclip] at hs'
      rw [(h s hs' k hk).1]
      exact (exps_err fused (f.mods s hs k hk)).1
    · have hs' := hs
      rw [f.nclip] at hs'
      rw [(h s hs' k hk).2]
      exact (exps_err fused (f.mods s hs k hk)).2
  have hxP' := exps psP P S hP fP (xP hder)
  have hxP : HoldsExpsFl c.P c.alpha2P c.beta2P (tightStart c.P.nprim12) S := by
    refine ⟨hxP'.same, fun s hs k hk => ?_, fun s hs k hk => ?_⟩ <;> rw [htp s hs]
    · exact hxP'.a s hs k hk
    · exact hxP'.b s hs k hk
  have hxQ : HoldsExpsFl c.Q c.alpha2Q c.beta2Q (paddedStart c.len c.Q.nprim12) T := exps psQ Q T hQ fQ (xQ hder)
  have hfx := fx_shells (c := c.toCall) hF fP fQ htp rfl (X := X) fun ab hab cd hcd =>
    hx _ (List.getElem_mem hab) _ (List.getElem_mem hcd)
  have hn' : ∀ ab < c.P.nclip, ∀ cd < c.Q.nclip, c.P.nprim12 ab * c.Q.nprim12 cd ≤ 2 ^ 49 := by
    intro ab hab cd hcd
    have hab' : ab < psP.length := by rw [← fP.nclip]; exact hab
    have hcd' : cd < psQ.length := by rw [← fQ.nclip]; exact hcd
    show P.1.nprim12 ab * Q.1.nprim12 cd ≤ _
    rw [fP.count ab hab', fQ.count cd hcd']
    exact hn _ (List.getElem_mem hab') _ (List.getElem_mem hcd')
  obtain ⟨o, r, h1, h2⟩ := C90_function hF hst b fuseD hg hf hL hc hS hT hxP hxQ hkb
    (hX c.toCall S T rfl hS hT hfx) hn'
    (fun ab hab cd hcd => gradSize_moderate hF hR0 hR (fP.mods ab hab) (fQ.mods cd hcd) (hn' ab hab cd hcd) hL)
    hmem out
  have e1 : c.P.nclip = psP.length := fP.nclip
  have e2 : c.Q.nclip = psQ.length := fQ.nclip
  rw [e1, e2] at r h2
  refine ⟨P, Q, o, eP, eQ, r, fun ab hab cd hcd x y z w vx vy vz vw ex ey ez ew t i => ?_, h2⟩
  obtain ⟨v, d1, d2⟩ := h1 ab (by rw [e1]; exact hab) cd (by rw [e2]; exact hcd) x y z w vx vy vz vw ex ey ez ew t i
  obtain ⟨mA, mB, mf⟩ := hP _ (List.getElem_mem hab)
  obtain ⟨mC, mD, mf'⟩ := hQ _ (List.getElem_mem hcd)
  have ok : ∀ {A : Shell ℝ}, A.Moderate R → A.OK := fun h => ⟨h.prims, fun i hi =>
    lt_of_lt_of_le (by positivity) (h.lo i hi)⟩
  have n1 : c.P.nprim12 ab = pairPrims psP[ab].1 psP[ab].2 := fP.count ab hab
  have n2 : c.Q.nprim12 cd = pairPrims psQ[cd].1 psQ[cd].2 := fQ.count cd hcd
  rw [gradSize_shells (c := c.toCall) htol fP fQ hab hcd, e2, n1, n2] at d2
  refine ⟨v, ?_, d2⟩
  have em : (fun v => meanERI (ieee fused) c.toCall (moveFl S T t i v).1 (moveFl S T t i v).2 ab cd x y z w) =
      fun v => contractedERI (moveCenter (storedPair psP[ab].1 psP[ab].2) (storedPair psQ[cd].1 psQ[cd].2) t i v).1
        (moveCenter (storedPair psP[ab].1 psP[ab].2) (storedPair psQ[cd].1 psQ[cd].2) t i v).2 x y z w :=
    funext fun v => meanERI_shells (c := c.toCall) htol fP fQ hab hcd (ok mA) (ok mB) (ok mC) (ok mD) x y z w t i v
  rw [em] at d1
  have hp : posFl S T ab cd t i = centerOf (storedPair psP[ab].1 psP[ab].2) (storedPair psQ[cd].1 psQ[cd].2) t i := by
    obtain ⟨s1, s2⟩ := fP.shells ab hab
    obtain ⟨t1, t2⟩ := fQ.shells cd hcd
    unfold posFl
    rw [s1, s2, t1, t2]
    cases t <;> rfl
  rw [hp, C40_derivatives (ok mA) (ok mB) mf (ok mC) (ok mD) mf' vx vy vz vw] at d1
  have e : movedERI psP[ab].1 psP[ab].2 psQ[cd].1 psQ[cd].2 x y z w t i = fun v =>
      contractedERI (moveCenter (fullPair psP[ab].1 psP[ab].2) (fullPair psQ[cd].1 psQ[cd].2) t i v).1
      (moveCenter (fullPair psP[ab].1 psP[ab].2) (fullPair psQ[cd].1 psQ[cd].2) t i v).2 x y z w :=
    funext fun v => (movedERI_full (ok mA) (ok mB) (ok mC) (ok mD) x y z w t i v).symm
  rw [e]
  cases t <;> exact d1

/-- **C91.** From shells to derivatives on IEEE doubles: fill two lists from pairs of shells of moderate size
(any memory, with or without screening values, at most one batch of bra pairs, pairs may repeat a shell) and
call the generated derivative function of the class without screening.  If the arguments of the Boys function
are below 36.5, every step runs, and each value written differs from the derivative of the sum over all
primitives of the four shells, with respect to that coordinate of that center, by at most
`(776 + 92 L + 6 (N - 1) + 3 n) * 2^-52` times `gradTerms` integrals of the raised class, measured with their
exponents; `N`: pairs of primitives, `n`: angular momentum on the stepped centers plus one.  This holds for
pairs of a shell with itself as well, for which the fill stores the rounded sum of the two exponents. -/
theorem C91_gradients (fused : Bool) (b : Build) (fuseD : RRType → Dir → Bool) {g : GenCfg} (hg : g.OK)
    {final : QAM} (hf : DerivClassOK final) (hL : totalL final + 1 ≤ 24) (sh : ShCfg) (hl : 0 < sh.len)
    (hder : sh.deriv = true) (scr : PrimScreen ℝ) (val : Shell ℝ → Shell ℝ → ℕ → ℕ → ℝ)
    (hscr : sh.screening = true → ExactScr scr val) (big : ℝ) (psP psQ : List (Shell ℝ × Shell ℝ)) {R : ℝ}
    (hR0 : 0 ≤ R) (hR : R ≤ 2 ^ 10) (hP : PairsModerate psP R)
    (hQ : PairsModerate psQ R) (hbra : BatchesFull sh.len psP)
    (hn : ∀ p ∈ psP, ∀ q ∈ psQ, pairPrims p.1 p.2 * pairPrims q.1 q.2 ≤ 2 ^ 49)
    (hx : ∀ p ∈ psP, ∀ q ∈ psQ, ArgsBelow p.1 p.2 q.1 q.2 R 36.5)
    (memP memQ : ℕ → ℝ) (tol : ℝ) (htol : tol ≤ 0) (outSize : ℕ)
    (hout : psP.length * psQ.length * (12 * ncartQ final) ≤ outSize) (junk : VPar ℝ)
    (scratch : ℕ → ℕ → ℕ → VMem ℝ) (hmem : HMem (Fd (ieee fused))) (out : ℕ → Fd (ieee fused)) :
    ∃ P Q o, completeList sh (shOps (ieee fused)) scr big psP memP = some P ∧
      completeList sh (shOps (ieee fused)) scr big psQ memQ = some Q ∧
      flDerivFunction (ieee fused) b fuseD g final ⟨⟨sh.len, P.1, Q.1, tol, outSize, junk, scratch⟩, P.2.1, P.2.2,
        Q.2.1, Q.2.2⟩ hmem out = some (psP.length * psQ.length, o) ∧
      (∀ ab (hab : ab < psP.length) cd (hcd : cd < psQ.length) (x y z w : Exp),
        x.Valid → y.Valid → z.Valid → w.Valid →
        x.am = final.a → y.am = final.b → z.am = final.c → w.am = final.d → ∀ (t : RRType) (i : Dir),
        ∃ v, HasDerivAt (movedERI psP[ab].1 psP[ab].2 psQ[cd].1 psQ[cd].2 x y z w t i) v
            (shellCenter psP[ab].1 psP[ab].2 psQ[cd].1 psQ[cd].2 t i) ∧
          |(o ((ab * psQ.length + cd) * (12 * ncartQ final) +
              (12 * Qrt.index psi4List ⟨⟨x, y⟩, ⟨z, w⟩, 0⟩ + (3 * t.idx + i.idx)))).val - v| ≤
            (776 + 92 * totalL final + 6 * (pairPrims psP[ab].1 psP[ab].2 * pairPrims psQ[cd].1 psQ[cd].2 - 1) +
                3 * gradStepped final : ℕ) * (1 / 2 ^ 52) *
              (gradTerms final t * (shellGradSize psP[ab].1 psP[ab].2 psQ[cd].1 psQ[cd].2 R (totalL final + 1) *
                (2 + 2 * R) ^ gradStepped final))) ∧
      ∀ k, psP.length * psQ.length * (12 * ncartQ final) ≤ k → o k = out k := by
  have hF := (C87_ieee fused).1
  obtain ⟨P, Q, o, eP, eQ, r, h1, h2⟩ := gradients_aux fused b fuseD hg hf hL sh hl hder scr val hscr big psP psQ
    hR0 hR hP hQ hbra hn (kb := 226) (by norm_num) hx
    (fun c S T e hS hT hfx => C88_near hF (by rw [e]; exact hl) hS hT b.vec hL hfx)
    memP memQ tol htol outSize hout junk scratch hmem out
  refine ⟨P, Q, o, eP, eQ, r, fun ab hab cd hcd x y z w vx vy vz vw ex ey ez ew t i => ?_, h2⟩
  have h := h1 ab hab cd hcd x y z w vx vy vz vw ex ey ez ew t i
  have e : gradCount 226 final (pairPrims psP[ab].1 psP[ab].2 * pairPrims psQ[cd].1 psQ[cd].2) =
      776 + 92 * totalL final + 6 * (pairPrims psP[ab].1 psP[ab].2 * pairPrims psQ[cd].1 psQ[cd].2 - 1) +
        3 * gradStepped final := by
    unfold gradCount
    omega
  rw [e] at h
  exact h

/-- **C91, arguments of the Boys function up to `10^8`**, total angular momentum at most 2. -/
theorem C91_gradients_far (fused : Bool) (b : Build) (fuseD : RRType → Dir → Bool) {g : GenCfg} (hg : g.OK)
    {final : QAM} (hf : DerivClassOK final) (hL : totalL final + 1 < 4) (sh : ShCfg) (hl : 0 < sh.len)
    (hder : sh.deriv = true) (scr : PrimScreen ℝ) (val : Shell ℝ → Shell ℝ → ℕ → ℕ → ℝ)
    (hscr : sh.screening = true → ExactScr scr val) (big : ℝ) (psP psQ : List (Shell ℝ × Shell ℝ)) {R : ℝ}
    (hR0 : 0 ≤ R) (hR : R ≤ 2 ^ 10) (hP : PairsModerate psP R)
    (hQ : PairsModerate psQ R) (hbra : BatchesFull sh.len psP)
    (hn : ∀ p ∈ psP, ∀ q ∈ psQ, pairPrims p.1 p.2 * pairPrims q.1 q.2 ≤ 2 ^ 49)
    (hx : ∀ p ∈ psP, ∀ q ∈ psQ, ArgsBelow p.1 p.2 q.1 q.2 R (10 ^ 8))
    (memP memQ : ℕ → ℝ) (tol : ℝ) (htol : tol ≤ 0) (outSize : ℕ)
    (hout : psP.length * psQ.length * (12 * ncartQ final) ≤ outSize) (junk : VPar ℝ)
    (scratch : ℕ → ℕ → ℕ → VMem ℝ) (hmem : HMem (Fd (ieee fused))) (out : ℕ → Fd (ieee fused)) :
    ∃ P Q o, completeList sh (shOps (ieee fused)) scr big psP memP = some P ∧
      completeList sh (shOps (ieee fused)) scr big psQ memQ = some Q ∧
      flDerivFunction (ieee fused) b fuseD g final ⟨⟨sh.len, P.1, Q.1, tol, outSize, junk, scratch⟩, P.2.1, P.2.2,
        Q.2.1, Q.2.2⟩ hmem out = some (psP.length * psQ.length, o) ∧
      (∀ ab (hab : ab < psP.length) cd (hcd : cd < psQ.length) (x y z w : Exp),
        x.Valid → y.Valid → z.Valid → w.Valid →
        x.am = final.a → y.am = final.b → z.am = final.c → w.am = final.d → ∀ (t : RRType) (i : Dir),
        ∃ v, HasDerivAt (movedERI psP[ab].1 psP[ab].2 psQ[cd].1 psQ[cd].2 x y z w t i) v
            (shellCenter psP[ab].1 psP[ab].2 psQ[cd].1 psQ[cd].2 t i) ∧
          |(o ((ab * psQ.length + cd) * (12 * ncartQ final) +
              (12 * Qrt.index psi4List ⟨⟨x, y⟩, ⟨z, w⟩, 0⟩ + (3 * t.idx + i.idx)))).val - v| ≤
            gradCount 9910 final (pairPrims psP[ab].1 psP[ab].2 * pairPrims psQ[cd].1 psQ[cd].2) * (1 / 2 ^ 52) *
              (gradTerms final t * (shellGradSize psP[ab].1 psP[ab].2 psQ[cd].1 psQ[cd].2 R (totalL final + 1) *
                (2 + 2 * R) ^ gradStepped final))) ∧
      ∀ k, psP.length * psQ.length * (12 * ncartQ final) ≤ k → o k = out k := by
  have hF := (C87_ieee fused).1
  exact gradients_aux fused b fuseD hg hf (by omega) sh hl hder scr val hscr big psP psQ
    hR0 hR hP hQ hbra hn (kb := 9910) (by norm_num) hx
    (fun c S T e hS hT hfx => C88_far hF (by rw [e]; exact hl) hS hT b.vec hL
      fun ab hab cd hcd k hk l hl => (hfx ab hab cd hcd k hk l hl).le)
    memP memQ tol htol outSize hout junk scratch hmem out

/-- Non-trivial case: p shells with two primitives each at two centers, a pair of a shell with itself in the
bra, two pairs in the ket, vectors of four lanes, IEEE doubles: all 1944 derivatives run; the one at position
978 (the second quartet, `(px px | px px)`, with respect to `x` of the third center, 972 numbers per quartet)
has an error of at most `1201 * 2^-52` times the bound. -/
example (fused : Bool) (b : Build) (fuseD : RRType → Dir → Bool) {g : GenCfg} (hg : g.OK) (junk : VPar ℝ)
    (scratch : ℕ → ℕ → ℕ → VMem ℝ)
    (memP memQ : ℕ → ℝ) (hmem : HMem (Fd (ieee fused))) (out : ℕ → Fd (ieee fused)) :
    let A := twoShell 1 0
    let B := twoShell 2 1
    ∃ P Q o, completeList ⟨4, false, true⟩ (shOps (ieee fused)) noScreen 1e99 [(A, A)] memP = some P ∧
      completeList ⟨4, false, true⟩ (shOps (ieee fused)) noScreen 1e99 [(A, B), (B, B)] memQ = some Q ∧
      flDerivFunction (ieee fused) b fuseD g ⟨1, 1, 1, 1, ""⟩ ⟨⟨4, P.1, Q.1, 0, 1944, junk, scratch⟩, P.2.1, P.2.2,
        Q.2.1, Q.2.2⟩ hmem out = some (2, o) ∧
      |(o 978).val - deriv (movedERI A A B B ⟨1, 0, 0⟩ ⟨1, 0, 0⟩ ⟨1, 0, 0⟩ ⟨1, 0, 0⟩ .K .x) 1| ≤
        1201 * (1 / 2 ^ 52) * (6 * (shellGradSize A A B B 1 5 * 4 ^ 3)) ∧
      o 1944 = out 1944 := by
  intro A B
  have hf : DerivClassOK (⟨1, 1, 1, 1, ""⟩ : QAM) := ⟨by unfold QAM.Valid; decide, rfl, by decide, by decide⟩
  have mA : A.Moderate 1 := twoShell_moderate 1 (.inl rfl)
  have mB : B.Moderate 1 := twoShell_moderate 2 (.inr rfl)
  have nAA : pairPrims A A = 3 := by decide
  have nBB : pairPrims B B = 3 := by decide
  have nAB : pairPrims A B = 4 := by decide
  obtain ⟨P, Q, o, eP, eQ, r, h1, h2⟩ := C91_gradients fused b fuseD hg hf (by decide) ⟨4, false, true⟩ (by decide) rfl noScreen
    (fun _ _ _ _ => 0) (fun h => by simp at h) 1e99 [(A, A)] [(A, B), (B, B)] (R := 1) (by norm_num) (by norm_num)
    (by
      intro p hp
      simp only [List.mem_singleton] at hp
      subst hp
      exact ⟨mA, mA, fun _ => ⟨rfl, fun _ _ => ⟨rfl, rfl⟩⟩⟩)
    (by
      intro p hp
      simp only [List.mem_cons, List.not_mem_nil, or_false] at hp
      rcases hp with rfl | rfl
      · exact ⟨mA, mB, fun h => absurd h (by decide)⟩
      · exact ⟨mB, mB, fun _ => ⟨rfl, fun _ _ => ⟨rfl, rfl⟩⟩⟩)
    (batchesFull_one (by decide))
    (by
      intro p hp q hq
      simp only [List.mem_singleton] at hp
      simp only [List.mem_cons, List.not_mem_nil, or_false] at hq
      subst hp
      rcases hq with rfl | rfl
      · simp only [nAA, nAB]; norm_num
      · simp only [nAA, nBB]; norm_num)
    (by
      intro p hp q hq
      simp only [List.mem_singleton] at hp
      simp only [List.mem_cons, List.not_mem_nil, or_false] at hq
      subst hp
      rcases hq with rfl | rfl
      · exact twoShell_args 1 1 1 2 (.inl rfl) (.inl rfl) (.inl rfl) (.inr rfl)
      · exact twoShell_args 1 1 2 2 (.inl rfl) (.inl rfl) (.inr rfl) (.inr rfl))
    memP memQ 0 le_rfl 1944 (by decide) junk scratch hmem out
  refine ⟨P, Q, o, eP, eQ, r, ?_, h2 1944 (by decide)⟩
  obtain ⟨v, d1, d2⟩ := h1 0 (by decide) 1 (by decide) ⟨1, 0, 0⟩ ⟨1, 0, 0⟩ ⟨1, 0, 0⟩ ⟨1, 0, 0⟩ (by decide)
    (by decide) (by decide) (by decide) rfl rfl rfl rfl .K .x
  have hp : shellCenter A A B B .K .x = 1 := by simp [shellCenter, B, twoShell]
  have hd : deriv (movedERI A A B B ⟨1, 0, 0⟩ ⟨1, 0, 0⟩ ⟨1, 0, 0⟩ ⟨1, 0, 0⟩ .K .x) 1 = v := by
    rw [← hp]
    exact d1.deriv
  rw [hd]
  have ei : (0 * [(A, B), (B, B)].length + 1) * (12 * ncartQ ⟨1, 1, 1, 1, ""⟩) +
      (12 * Qrt.index psi4List ⟨⟨⟨1, 0, 0⟩, ⟨1, 0, 0⟩⟩, ⟨⟨1, 0, 0⟩, ⟨1, 0, 0⟩⟩, 0⟩ +
        (3 * RRType.K.idx + Dir.x.idx)) = 978 := by decide
  rw [ei] at d2
  refine d2.trans (le_of_eq ?_)
  have e1 : totalL (⟨1, 1, 1, 1, ""⟩ : QAM) = 4 := by decide
  have e4 : gradStepped ⟨1, 1, 1, 1, ""⟩ = 3 := by decide
  have e5 : gradTerms ⟨1, 1, 1, 1, ""⟩ .K = 6 := by decide
  simp only [List.getElem_cons_zero, List.getElem_cons_succ, e1, e4, e5, nAA, nBB]
  norm_num

end Simint
