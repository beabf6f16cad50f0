import Verif.FlScreenLemmas
import Verif.Props.FastScreen

/-!
# C100: screening of primitives on doubles
-/

set_option autoImplicit false

open Finset

namespace Simint

open FlBoys (Arith ieee u η)
open FlPrim (shOps)

/-- Common part of the two theorems below. -/
theorem screened_aux (fused : Bool) (b : Build) {g : GenCfg} (hg : g.OK) {final : QAM} (hf : ClassOK final)
    (hL : totalL final ≤ 24) (sh : ShCfg) (hl : 0 < sh.len) (hsc : sh.screening = true)
    (val : Shell ℝ → Shell ℝ → ℕ → ℕ → ℝ) {big : ℝ} (hb0 : 0 ≤ big) (hb : big ≤ 2 ^ 500)
    (psP psQ : List (Shell ℝ × Shell ℝ)) {R : ℝ} (hR0 : 0 ≤ R) (hR : R ≤ 2 ^ 10) (hP : PairsModerate psP R)
    (hQ : PairsModerate psQ R) (hbra : BatchesFull sh.len psP)
    (hn : ∀ p ∈ psP, ∀ q ∈ psQ, pairPrims p.1 p.2 * pairPrims q.1 q.2 ≤ 2 ^ 49)
    {kb : ℕ} (hkb : kb ≤ 2 ^ 19) {X : ℝ}
    (hx : ∀ p ∈ psP, ∀ q ∈ psQ, ArgsBelow p.1 p.2 q.1 q.2 R X)
    (hX : ∀ (c : Call ℝ) (S T : ℕ → PairData), c.len = sh.len →
      HoldsFl (ieee fused) c.P (tightStart c.P.nprim12) S R →
      HoldsFl (ieee fused) c.Q (paddedStart c.len c.Q.nprim12) T R →
      (∀ ab < c.P.nclip, ∀ cd < c.Q.nclip, ∀ k < c.P.nprim12 ab, ∀ l < c.Q.nprim12 cd,
        FlPrim.fx (ieee fused) c.P c.Q (tightStart c.P.nprim12 ab + k)
          (paddedStart c.len c.Q.nprim12 cd + l) < X) → BoysOK (ieee fused) c b.vec (totalL final) kb)
    (hamP : ∀ p ∈ psP, (p.1.am : ℤ) = final.a ∧ (p.2.am : ℤ) = final.b)
    (hamQ : ∀ p ∈ psQ, (p.1.am : ℤ) = final.c ∧ (p.2.am : ℤ) = final.d)
    {m e V : ℝ} (hm : 0 ≤ m) (he : 0 ≤ e) (hV0 : 0 ≤ V) (hV : V ≤ 2 ^ 500) (hbP : ∀ p ∈ psP, NearBounding val p.1 p.2 m e V)
    (hbQ : ∀ p ∈ psQ, NearBounding val p.1 p.2 m e V)
    (memP memQ : ℕ → ℝ) {t : ℝ} (ht0 : 0 < t) (ht : t ≤ 2 ^ 500) (outSize : ℕ)
    (hout : psP.length * psQ.length * ncartQ final ≤ outSize) (junk : VPar ℝ)
    (scratch : ℕ → ℕ → ℕ → VMem ℝ) (hmem : HMem (Fd (ieee fused))) (out : ℕ → Fd (ieee fused))
    (hod : ∀ k, IsDouble (ieee fused) (out k).val) :
    ∃ P Q n o, completeList sh (shOps (ieee fused)) (fastSchwarz val) big psP memP = some P ∧
      completeList sh (shOps (ieee fused)) (fastSchwarz val) big psQ memQ = some Q ∧
      flOstei (ieee fused) b g final ⟨sh.len, P.1, Q.1, t, outSize, junk, scratch⟩ hmem out = some (n, o) ∧
      (n = -1 ∧ o = out ∧
        (∀ ab (hab : ab < psP.length) cd (hcd : cd < psQ.length) (x y z w : Exp),
          x.Valid → y.Valid → z.Valid → w.Valid →
          x.am = final.a → y.am = final.b → z.am = final.c → w.am = final.d →
          |shellERI psP[ab].1 psP[ab].2 psQ[cd].1 psQ[cd].2 x y z w| ≤
            quartets psP[ab].1 psP[ab].2 psQ[cd].1 psQ[cd].2 * dropMax m t e V) ∨
      n = psP.length * psQ.length ∧
        (∀ ab (hab : ab < psP.length) cd (hcd : cd < psQ.length) (x y z w : Exp),
          x.Valid → y.Valid → z.Valid → w.Valid →
          x.am = final.a → y.am = final.b → z.am = final.c → w.am = final.d →
          |(o ((ab * psQ.length + cd) * ncartQ final + Qrt.index psi4List ⟨⟨x, y⟩, ⟨z, w⟩, 0⟩)).val -
              shellERI psP[ab].1 psP[ab].2 psQ[cd].1 psQ[cd].2 x y z w| ≤
            errCount kb final (pairPrims psP[ab].1 psP[ab].2 * pairPrims psQ[cd].1 psQ[cd].2) * (1 / 2 ^ 52) *
              (shellSize psP[ab].1 psP[ab].2 psQ[cd].1 psQ[cd].2 R (totalL final) *
                (2 + 2 * R) ^ (min final.a final.b + min final.c final.d).toNat) +
            quartets psP[ab].1 psP[ab].2 psQ[cd].1 psQ[cd].2 * dropMax m t e V) ∧
        ∀ k, psP.length * psQ.length * ncartQ final ≤ k → o k = out k) := by
  classical
  obtain ⟨P, eP, S, fP, -, sP, mP⟩ := C89_list fused sh hl _ val (fun _ => fastSchwarz_exact val) big psP hR hP memP
  obtain ⟨Q, eQ, T, fQ, -, sQ, mQ⟩ := C89_list fused sh hl _ val (fun _ => fastSchwarz_exact val) big psQ hR hQ memQ
  have hF := (C87_ieee fused).1
  have hst := (C87_ieee fused).2
  have hD : 0 ≤ dropMax m t e V := Real.sqrt_nonneg _
  have habs : |t| ≤ 2 ^ 500 := by rwa [abs_of_pos ht0]
  -- values and maxima
  have vP : ∀ ab (hab : ab < psP.length), ∀ k < P.1.nprim12 ab,
      P.1.screen (paddedStart sh.len P.1.nprim12 ab + k) = val psP[ab].1 psP[ab].2 ((S ab).prim k).1 ((S ab).prim k).2 ∧
      ((S ab).prim k).1 < psP[ab].1.nprim ∧ ((S ab).prim k).2 < psP[ab].2.nprim := by
    intro ab hab k hk
    have h := sP hsc ab hab k hk
    have hi := fP.index ab hab k hk
    rw [(fP.shells ab hab).1, (fP.shells ab hab).2] at h hi
    exact ⟨h, hi⟩
  have vQ : ∀ cd (hcd : cd < psQ.length), ∀ l < Q.1.nprim12 cd,
      Q.1.screen (paddedStart sh.len Q.1.nprim12 cd + l) = val psQ[cd].1 psQ[cd].2 ((T cd).prim l).1 ((T cd).prim l).2 ∧
      ((T cd).prim l).1 < psQ[cd].1.nprim ∧ ((T cd).prim l).2 < psQ[cd].2.nprim := by
    intro cd hcd l hl'
    have h := sQ hsc cd hcd l hl'
    have hi := fQ.index cd hcd l hl'
    rw [(fQ.shells cd hcd).1, (fQ.shells cd hcd).2] at h hi
    exact ⟨h, hi⟩
  have gP : ∀ ab (hab : ab < psP.length), ∀ k < P.1.nprim12 ab,
      P.1.screen (paddedStart sh.len P.1.nprim12 ab + k) ≤ P.1.screenMax := by
    intro ab hab k hk
    obtain ⟨o1, p1, e1⟩ := fP.order ab hab
    rw [(vP ab hab k hk).1, mP]
    refine max_ge sh hsc _ val big psP hab ?_
    rw [e1]
    have hlt : k < o1.length := by rw [p1.length_eq, primOrder_length, ← fP.count ab hab]; exact hk
    show o1.getD k (0, 0) ∈ _
    rw [List.getD_eq_getElem _ _ hlt]
    exact p1.mem_iff.1 (List.getElem_mem hlt)
  have gQ : ∀ cd (hcd : cd < psQ.length), ∀ l < Q.1.nprim12 cd,
      Q.1.screen (paddedStart sh.len Q.1.nprim12 cd + l) ≤ Q.1.screenMax := by
    intro ab hab k hk
    obtain ⟨o1, p1, e1⟩ := fQ.order ab hab
    rw [(vQ ab hab k hk).1, mQ]
    refine max_ge sh hsc _ val big psQ hab ?_
    rw [e1]
    have hlt : k < o1.length := by rw [p1.length_eq, primOrder_length, ← fQ.count ab hab]; exact hk
    show o1.getD k (0, 0) ∈ _
    rw [List.getD_eq_getElem _ _ hlt]
    exact p1.mem_iff.1 (List.getElem_mem hlt)
  have bP0 : 0 ≤ P.1.screenMax := hb0.trans (by rw [mP]; exact max_big sh hsc _ val big psP)
  have bQ0 : 0 ≤ Q.1.screenMax := hb0.trans (by rw [mQ]; exact max_big sh hsc _ val big psQ)
  have bP : P.1.screenMax ≤ 2 ^ 500 := by
    rw [mP]
    exact max_le sh hsc _ val big psP (by positivity) hb fun p hp i hi j hj => (hbP p hp i hi j hj).2.1.trans hV
  have bQ : Q.1.screenMax ≤ 2 ^ 500 := by
    rw [mQ]
    exact max_le sh hsc _ val big psQ (by positivity) hb fun p hp i hi j hj => (hbQ p hp i hi j hj).2.1.trans hV
  have prod : ∀ x y : ℝ, x ≤ 2 ^ 500 → 0 ≤ y → y ≤ 2 ^ 500 → x * y ≤ 2 ^ 1023 := by
    intro x y hx' hy0 hy
    refine (mul_le_mul hx' hy hy0 (by positivity)).trans ?_
    rw [← pow_add]
    exact pow_le_pow_right₀ (by norm_num) (by norm_num)
  -- a quartet of primitives whose values have a small product
  have hdrop : ∀ ab (hab : ab < psP.length) cd (hcd : cd < psQ.length) (x y z w : Exp),
      x.Valid → y.Valid → z.Valid → w.Valid →
      x.am = final.a → y.am = final.b → z.am = final.c → w.am = final.d →
      ∀ k < P.1.nprim12 ab, ∀ l < Q.1.nprim12 cd,
      P.1.screen (paddedStart sh.len P.1.nprim12 ab + k) * Q.1.screen (paddedStart sh.len Q.1.nprim12 cd + l) ≤
        tolSq t → |exactPrim S T ab cd k l x y z w| ≤
        FlPrim.mult psP[ab].1 psP[ab].2 ((S ab).prim k).1 ((S ab).prim k).2 *
          FlPrim.mult psQ[cd].1 psQ[cd].2 ((T cd).prim l).1 ((T cd).prim l).2 * dropMax m t e V := by
    intro ab hab cd hcd x y z w vx vy vz vw ex ey ez ew k hk l hl' h
    have mp := List.getElem_mem hab
    have mq := List.getElem_mem hcd
    obtain ⟨e1, i1, i2⟩ := vP ab hab k hk
    obtain ⟨e2, j1, j2⟩ := vQ cd hcd l hl'
    obtain ⟨-, p2, p3⟩ := hbP _ mp _ i1 _ i2
    obtain ⟨-, q2, q3⟩ := hbQ _ mq _ j1 _ j2
    have pos : ∀ {A : Shell ℝ}, A.Moderate R → ∀ {i}, i < A.nprim → 0 < A.alpha i := fun hA i hi =>
      lt_of_lt_of_le (by norm_num) (hA.lo i hi)
    rw [e1, e2] at h
    unfold exactPrim
    rw [(fP.shells ab hab).1, (fP.shells ab hab).2, (fQ.shells cd hcd).1, (fQ.shells cd hcd).2]
    exact drop_one (pos (hP _ mp).1 i1) (pos (hP _ mp).2.1 i2) (pos (hQ _ mq).1 j1) (pos (hQ _ mq).2.1 j2)
      (p3 x y ⟨vx.1, vx.2.1, vx.2.2, ex.trans (hamP _ mp).1.symm⟩ ⟨vy.1, vy.2.1, vy.2.2, ey.trans (hamP _ mp).2.symm⟩)
      (q3 z w ⟨vz.1, vz.2.1, vz.2.2, ez.trans (hamQ _ mq).1.symm⟩ ⟨vw.1, vw.2.1, vw.2.2, ew.trans (hamQ _ mq).2.symm⟩)
      h hm he p2 q2
  have nnP : ∀ ab (hab : ab < psP.length), ∀ k < P.1.nprim12 ab,
      0 ≤ P.1.screen (paddedStart sh.len P.1.nprim12 ab + k) := by
    intro ab hab k hk
    obtain ⟨e1, i1, i2⟩ := vP ab hab k hk
    rw [e1]
    exact (hbP _ (List.getElem_mem hab) _ i1 _ i2).1
  have nnQ : ∀ cd (hcd : cd < psQ.length), ∀ l < Q.1.nprim12 cd,
      0 ≤ Q.1.screen (paddedStart sh.len Q.1.nprim12 cd + l) := by
    intro cd hcd l hl'
    obtain ⟨e1, i1, i2⟩ := vQ cd hcd l hl'
    rw [e1]
    exact (hbQ _ (List.getElem_mem hcd) _ i1 _ i2).1
  by_cases hneg : (ieee fused).fl (P.1.screenMax * Q.1.screenMax) < (ieee fused).fl (t * t)
  · have hpr := below_tol hF (mul_nonneg bP0 bQ0) (prod _ _ bP bQ0 bQ) habs hneg
    refine ⟨P, Q, -1, out, eP, eQ, by unfold flOstei; exact if_pos ⟨ht0, hneg⟩, Or.inl ⟨rfl, rfl, ?_⟩⟩
    intro ab hab cd hcd x y z w vx vy vz vw ex ey ez ew
    have := drop_all (c := ⟨sh.len, P.1, Q.1, t, outSize, junk, scratch⟩) fP fQ hab hcd (hP _ (List.getElem_mem hab)).2.2
      (hQ _ (List.getElem_mem hcd)).2.2 x y z w hD (fun _ _ => False) fun k hk l hl' _ =>
        hdrop ab hab cd hcd x y z w vx vy vz vw ex ey ez ew k hk l hl' ((mul_le_mul (gP ab hab k hk)
          (gQ cd hcd l hl') (nnQ cd hcd l hl') bP0).trans hpr)
    simpa [quartets] using this
  let c : Call ℝ := ⟨sh.len, P.1, Q.1, (ieee fused).fl (t * t), outSize, junk, scratch⟩
  have hc : CallOK final c := ⟨hl, fun s hs => by
      have hs' : s < psQ.length := by rw [← fQ.nclip]; exact hs
      show 0 < Q.1.nprim12 s
      rw [fQ.count s hs']
      exact pairPrims_pos (hQ _ (List.getElem_mem hs')).1.prims (hQ _ (List.getElem_mem hs')).2.1.prims,
    fP.tight, fQ.padded, fP.pos, fQ.pos, by show P.1.nclip * Q.1.nclip * _ ≤ _; rw [fP.nclip, fQ.nclip]; exact hout⟩
  have htp : ∀ s < c.P.nclip, tightStart c.P.nprim12 s = paddedStart sh.len c.P.nprim12 s :=
    fP.starts hl hbra
  have hS : HoldsFl (ieee fused) c.P (tightStart c.P.nprim12) S R := by
    refine ⟨fP.holds.AB, fP.holds.pos, fun s hs k hk => ?_, fP.holds.size⟩
    rw [htp s hs]
    exact fP.holds.prims s hs k hk
  have hT : HoldsFl (ieee fused) c.Q (paddedStart c.len c.Q.nprim12) T R := fQ.holds
  have hfx := fx_shells (c := c) hF fP fQ htp rfl (X := X) fun ab hab cd hcd =>
    hx _ (List.getElem_mem hab) _ (List.getElem_mem hcd)
  have hn' : ∀ ab < c.P.nclip, ∀ cd < c.Q.nclip, c.P.nprim12 ab * c.Q.nprim12 cd ≤ 2 ^ 49 := by
    intro ab hab cd hcd
    have hab' : ab < psP.length := by rw [← fP.nclip]; exact hab
    have hcd' : cd < psQ.length := by rw [← fQ.nclip]; exact hcd
    show P.1.nprim12 ab * Q.1.nprim12 cd ≤ _
    rw [fP.count ab hab', fQ.count cd hcd']
    exact hn _ (List.getElem_mem hab') _ (List.getElem_mem hcd')
  obtain ⟨o, r, h1, h2⟩ := C88_function hF hst b hg hf hL hc hS hT hkb
    (hX c S T rfl hS hT hfx) hn'
    (fun ab hab cd hcd => sizeMax_moderate hF hR0 hR (fP.mods ab hab) (fQ.mods cd hcd) (hn' ab hab cd hcd) hL)
    hmem out hod
  have e1 : c.P.nclip = psP.length := fP.nclip
  have e2 : c.Q.nclip = psQ.length := fQ.nclip
  rw [e1, e2] at r h2
  refine ⟨P, Q, ((psP.length * psQ.length : ℕ) : ℤ), o, eP, eQ, ?_, Or.inr ⟨by push_cast; rfl, ?_, h2⟩⟩
  · unfold flOstei
    rw [if_neg fun h => hneg h.2]
    show (flFunction (ieee fused) b g final c hmem out).map _ = _
    rw [r]
    rfl
  intro ab hab cd hcd x y z w vx vy vz vw ex ey ez ew
  have h := h1 ab (by rw [e1]; exact hab) cd (by rw [e2]; exact hcd) x y z w vx vy vz vw ex ey ez ew
  have n1 : c.P.nprim12 ab = pairPrims psP[ab].1 psP[ab].2 := fP.count ab hab
  have n2 : c.Q.nprim12 cd = pairPrims psQ[cd].1 psQ[cd].2 := fQ.count cd hcd
  rw [n1, n2, e2] at h
  have hsz := sizeMax_le_shells (c := c) fP fQ hab hcd (totalL final) hF
  have h3 : |exactERI (ieee fused) c S T ab cd x y z w -
      shellERI psP[ab].1 psP[ab].2 psQ[cd].1 psQ[cd].2 x y z w| ≤
      quartets psP[ab].1 psP[ab].2 psQ[cd].1 psQ[cd].2 * dropMax m t e V := by
    refine drop_all (c := c) fP fQ hab hcd (hP _ (List.getElem_mem hab)).2.2
      (hQ _ (List.getElem_mem hcd)).2.2 x y z w hD (fun k l => c.KeptFl (ieee fused) (tightStart c.P.nprim12 ab + k)
        (paddedStart c.len c.Q.nprim12 cd + l)) fun k hk l hl' hk' =>
        hdrop ab hab cd hcd x y z w vx vy vz vw ex ey ez ew k hk l hl' ?_
    have hpv := nnP ab hab k hk
    have hqv := nnQ cd hcd l hl'
    rw [htp ab (by rw [e1]; exact hab)] at hk'
    rw [Call.KeptFl, not_and_or, not_not, not_not] at hk'
    rcases hk' with ⟨-, hk'⟩ | ⟨-, hk'⟩
    · exact (mul_le_mul_of_nonneg_left (gQ cd hcd l hl') hpv).trans
        (below_tol hF (mul_nonneg hpv bQ0) (prod _ _ ((gP ab hab k hk).trans bP) bQ0 bQ) habs hk')
    · have hge := vectorMax_ge (len := sh.len) (fun n => (ieee fused).fl (P.1.screen (paddedStart sh.len P.1.nprim12 ab + k) *
        Q.1.screen ((paddedStart sh.len Q.1.nprim12 cd + l) / sh.len * sh.len + n)))
        (Nat.mod_lt (paddedStart sh.len Q.1.nprim12 cd + l) hl)
      simp only [Nat.div_add_mod'] at hge
      exact below_tol hF (mul_nonneg hpv hqv) (prod _ _ ((gP ab hab k hk).trans bP) hqv
        ((gQ cd hcd l hl').trans bQ)) habs (hge.trans_lt hk')
  have hRn : 0 ≤ (2 + 2 * R) ^ (min final.a final.b + min final.c final.d).toNat := by positivity
  have h4 := mul_le_mul_of_nonneg_left (mul_le_mul_of_nonneg_right hsz hRn)
    (by positivity : (0 : ℝ) ≤ errCount kb final (pairPrims psP[ab].1 psP[ab].2 * pairPrims psQ[cd].1 psQ[cd].2) *
      (1 / 2 ^ 52))
  exact (abs_sub_le _ _ _).trans (add_le_add (h.trans h4) h3)

/-- **C100, any values.** Fill two lists of pairs of shells of moderate size with screening values that bound
the integrals `(xy|xy)` of the pairs of primitives up to a factor `m` and a term `e`, and call `simint_compute_ostei` with a positive
tolerance `t`, on IEEE doubles.  Every step runs.  Either the call returns -1, leaves the output alone and every
integral over the shells is at most the number of quartets of primitives times `dropMax m t e V`; or it returns the
number of quartets of shells and every integral differs from the sum over all primitives by at most that, plus
the error without screening (C89). -/
theorem C100_screened (fused : Bool) (b : Build) {g : GenCfg} (hg : g.OK) {final : QAM} (hf : ClassOK final)
    (hL : totalL final ≤ 24) (sh : ShCfg) (hl : 0 < sh.len) (hsc : sh.screening = true)
    (val : Shell ℝ → Shell ℝ → ℕ → ℕ → ℝ) {big : ℝ} (hb0 : 0 ≤ big) (hb : big ≤ 2 ^ 500)
    (psP psQ : List (Shell ℝ × Shell ℝ)) {R : ℝ} (hR0 : 0 ≤ R) (hR : R ≤ 2 ^ 10) (hP : PairsModerate psP R)
    (hQ : PairsModerate psQ R) (hbra : BatchesFull sh.len psP)
    (hn : ∀ p ∈ psP, ∀ q ∈ psQ, pairPrims p.1 p.2 * pairPrims q.1 q.2 ≤ 2 ^ 49)
    (hx : ∀ p ∈ psP, ∀ q ∈ psQ, ArgsBelow p.1 p.2 q.1 q.2 R 36.5)
    (hamP : ∀ p ∈ psP, (p.1.am : ℤ) = final.a ∧ (p.2.am : ℤ) = final.b)
    (hamQ : ∀ p ∈ psQ, (p.1.am : ℤ) = final.c ∧ (p.2.am : ℤ) = final.d)
    {m e V : ℝ} (hm : 0 ≤ m) (he : 0 ≤ e) (hV0 : 0 ≤ V) (hV : V ≤ 2 ^ 500) (hbP : ∀ p ∈ psP, NearBounding val p.1 p.2 m e V)
    (hbQ : ∀ p ∈ psQ, NearBounding val p.1 p.2 m e V)
    (memP memQ : ℕ → ℝ) {t : ℝ} (ht0 : 0 < t) (ht : t ≤ 2 ^ 500) (outSize : ℕ)
    (hout : psP.length * psQ.length * ncartQ final ≤ outSize) (junk : VPar ℝ)
    (scratch : ℕ → ℕ → ℕ → VMem ℝ) (hmem : HMem (Fd (ieee fused))) (out : ℕ → Fd (ieee fused))
    (hod : ∀ k, IsDouble (ieee fused) (out k).val) :
    ∃ P Q n o, completeList sh (shOps (ieee fused)) (fastSchwarz val) big psP memP = some P ∧
      completeList sh (shOps (ieee fused)) (fastSchwarz val) big psQ memQ = some Q ∧
      flOstei (ieee fused) b g final ⟨sh.len, P.1, Q.1, t, outSize, junk, scratch⟩ hmem out = some (n, o) ∧
      (n = -1 ∧ o = out ∧
        (∀ ab (hab : ab < psP.length) cd (hcd : cd < psQ.length) (x y z w : Exp),
          x.Valid → y.Valid → z.Valid → w.Valid →
          x.am = final.a → y.am = final.b → z.am = final.c → w.am = final.d →
          |shellERI psP[ab].1 psP[ab].2 psQ[cd].1 psQ[cd].2 x y z w| ≤
            quartets psP[ab].1 psP[ab].2 psQ[cd].1 psQ[cd].2 * dropMax m t e V) ∨
      n = psP.length * psQ.length ∧
        (∀ ab (hab : ab < psP.length) cd (hcd : cd < psQ.length) (x y z w : Exp),
          x.Valid → y.Valid → z.Valid → w.Valid →
          x.am = final.a → y.am = final.b → z.am = final.c → w.am = final.d →
          |(o ((ab * psQ.length + cd) * ncartQ final + Qrt.index psi4List ⟨⟨x, y⟩, ⟨z, w⟩, 0⟩)).val -
              shellERI psP[ab].1 psP[ab].2 psQ[cd].1 psQ[cd].2 x y z w| ≤
            errCount 226 final (pairPrims psP[ab].1 psP[ab].2 * pairPrims psQ[cd].1 psQ[cd].2) * (1 / 2 ^ 52) *
              (shellSize psP[ab].1 psP[ab].2 psQ[cd].1 psQ[cd].2 R (totalL final) *
                (2 + 2 * R) ^ (min final.a final.b + min final.c final.d).toNat) +
            quartets psP[ab].1 psP[ab].2 psQ[cd].1 psQ[cd].2 * dropMax m t e V) ∧
        ∀ k, psP.length * psQ.length * ncartQ final ≤ k → o k = out k) := by
  exact screened_aux fused b hg hf hL sh hl hsc val hb0 hb psP psQ hR0 hR hP hQ hbra hn
    (kb := 226) (by norm_num) hx (fun c S T e hS hT hfx => C88_near (C87_ieee fused).1 (by rw [e]; exact hl) hS hT b.vec hL hfx)
    hamP hamQ hm he hV0 hV hbP hbQ memP memQ ht0 ht outSize hout junk scratch hmem out hod

/-- **C100, any values, arguments of the Boys function up to 10^8**, total angular momentum at most 3. -/
theorem C100_screened_far (fused : Bool) (b : Build) {g : GenCfg} (hg : g.OK) {final : QAM} (hf : ClassOK final)
    (hL : totalL final < 4) (sh : ShCfg) (hl : 0 < sh.len) (hsc : sh.screening = true)
    (val : Shell ℝ → Shell ℝ → ℕ → ℕ → ℝ) {big : ℝ} (hb0 : 0 ≤ big) (hb : big ≤ 2 ^ 500)
    (psP psQ : List (Shell ℝ × Shell ℝ)) {R : ℝ} (hR0 : 0 ≤ R) (hR : R ≤ 2 ^ 10) (hP : PairsModerate psP R)
    (hQ : PairsModerate psQ R) (hbra : BatchesFull sh.len psP)
    (hn : ∀ p ∈ psP, ∀ q ∈ psQ, pairPrims p.1 p.2 * pairPrims q.1 q.2 ≤ 2 ^ 49)
    (hx : ∀ p ∈ psP, ∀ q ∈ psQ, ArgsBelow p.1 p.2 q.1 q.2 R (10 ^ 8))
    (hamP : ∀ p ∈ psP, (p.1.am : ℤ) = final.a ∧ (p.2.am : ℤ) = final.b)
    (hamQ : ∀ p ∈ psQ, (p.1.am : ℤ) = final.c ∧ (p.2.am : ℤ) = final.d)
    {m e V : ℝ} (hm : 0 ≤ m) (he : 0 ≤ e) (hV0 : 0 ≤ V) (hV : V ≤ 2 ^ 500) (hbP : ∀ p ∈ psP, NearBounding val p.1 p.2 m e V)
    (hbQ : ∀ p ∈ psQ, NearBounding val p.1 p.2 m e V)
    (memP memQ : ℕ → ℝ) {t : ℝ} (ht0 : 0 < t) (ht : t ≤ 2 ^ 500) (outSize : ℕ)
    (hout : psP.length * psQ.length * ncartQ final ≤ outSize) (junk : VPar ℝ)
    (scratch : ℕ → ℕ → ℕ → VMem ℝ) (hmem : HMem (Fd (ieee fused))) (out : ℕ → Fd (ieee fused))
    (hod : ∀ k, IsDouble (ieee fused) (out k).val) :
    ∃ P Q n o, completeList sh (shOps (ieee fused)) (fastSchwarz val) big psP memP = some P ∧
      completeList sh (shOps (ieee fused)) (fastSchwarz val) big psQ memQ = some Q ∧
      flOstei (ieee fused) b g final ⟨sh.len, P.1, Q.1, t, outSize, junk, scratch⟩ hmem out = some (n, o) ∧
      (n = -1 ∧ o = out ∧
        (∀ ab (hab : ab < psP.length) cd (hcd : cd < psQ.length) (x y z w : Exp),
          x.Valid → y.Valid → z.Valid → w.Valid →
          x.am = final.a → y.am = final.b → z.am = final.c → w.am = final.d →
          |shellERI psP[ab].1 psP[ab].2 psQ[cd].1 psQ[cd].2 x y z w| ≤
            quartets psP[ab].1 psP[ab].2 psQ[cd].1 psQ[cd].2 * dropMax m t e V) ∨
      n = psP.length * psQ.length ∧
        (∀ ab (hab : ab < psP.length) cd (hcd : cd < psQ.length) (x y z w : Exp),
          x.Valid → y.Valid → z.Valid → w.Valid →
          x.am = final.a → y.am = final.b → z.am = final.c → w.am = final.d →
          |(o ((ab * psQ.length + cd) * ncartQ final + Qrt.index psi4List ⟨⟨x, y⟩, ⟨z, w⟩, 0⟩)).val -
              shellERI psP[ab].1 psP[ab].2 psQ[cd].1 psQ[cd].2 x y z w| ≤
            errCount 9910 final (pairPrims psP[ab].1 psP[ab].2 * pairPrims psQ[cd].1 psQ[cd].2) * (1 / 2 ^ 52) *
              (shellSize psP[ab].1 psP[ab].2 psQ[cd].1 psQ[cd].2 R (totalL final) *
                (2 + 2 * R) ^ (min final.a final.b + min final.c final.d).toNat) +
            quartets psP[ab].1 psP[ab].2 psQ[cd].1 psQ[cd].2 * dropMax m t e V) ∧
        ∀ k, psP.length * psQ.length * ncartQ final ≤ k → o k = out k) := by
  exact screened_aux fused b hg hf (by omega) sh hl hsc val hb0 hb psP psQ hR0 hR hP hQ hbra hn
    (kb := 9910) (by norm_num) hx (fun c S T e hS hT hfx => C88_far (C87_ieee fused).1 (by rw [e]; exact hl) hS hT b.vec hL
      fun ab hab cd hcd k hk l hl => (hfx ab hab cd hcd k hk l hl).le)
    hamP hamQ hm he hV0 hV hbP hbQ memP memQ ht0 ht outSize hout junk scratch hmem out hod

/-- **C100, calls that are not skipped.** The maximum of a list starts with `big` (1.e99 in shell.c); if the square
of the tolerance is below the square of it, the call runs the function. -/
theorem C100_runs (fused : Bool) (b : Build) (g : GenCfg) (final : QAM) {sh : ShCfg} (hl : 0 < sh.len)
    (hsc : sh.screening = true) (val : Shell ℝ → Shell ℝ → ℕ → ℕ → ℝ) {big : ℝ} (hb0 : 0 ≤ big) (hb : big ≤ 2 ^ 500)
    {psP psQ : List (Shell ℝ × Shell ℝ)} {R : ℝ} (hR : R ≤ 2 ^ 10) (hP : PairsModerate psP R)
    (hQ : PairsModerate psQ R) {m e V : ℝ} (hV : V ≤ 2 ^ 500) (hbP : ∀ p ∈ psP, NearBounding val p.1 p.2 m e V)
    (hbQ : ∀ p ∈ psQ, NearBounding val p.1 p.2 m e V) {memP memQ : ℕ → ℝ} {P Q : MSP ℝ × (ℕ → ℝ) × (ℕ → ℝ)}
    (eP : completeList sh (shOps (ieee fused)) (fastSchwarz val) big psP memP = some P)
    (eQ : completeList sh (shOps (ieee fused)) (fastSchwarz val) big psQ memQ = some Q) {t : ℝ}
    (ht0 : 0 < t) (ht : t ≤ 2 ^ 500) (hbt : tolSq t < big ^ 2) (outSize : ℕ) (junk : VPar ℝ)
    (scratch : ℕ → ℕ → ℕ → VMem ℝ) (hmem : HMem (Fd (ieee fused))) (out : ℕ → Fd (ieee fused)) :
    flOstei (ieee fused) b g final ⟨sh.len, P.1, Q.1, t, outSize, junk, scratch⟩ hmem out =
      (flFunction (ieee fused) b g final ⟨sh.len, P.1, Q.1, (ieee fused).fl (t * t), outSize, junk, scratch⟩ hmem
        out).map fun r => ((r.1 : ℤ), r.2) := by
  obtain ⟨P', eP', S, fP, -, sP, mP⟩ := C89_list fused sh hl _ val (fun _ => fastSchwarz_exact val) big psP hR hP memP
  obtain ⟨Q', eQ', T, fQ, -, sQ, mQ⟩ := C89_list fused sh hl _ val (fun _ => fastSchwarz_exact val) big psQ hR hQ memQ
  rw [eP] at eP'
  rw [eQ] at eQ'
  obtain rfl := Option.some.inj eP'
  obtain rfl := Option.some.inj eQ'
  unfold flOstei
  refine if_neg fun h => ?_
  have h1 : big ≤ P.1.screenMax := by rw [mP]; exact max_big sh hsc _ val big psP
  have h2 : big ≤ Q.1.screenMax := by rw [mQ]; exact max_big sh hsc _ val big psQ
  have b1 : P.1.screenMax ≤ 2 ^ 500 := by
    rw [mP]
    exact max_le sh hsc _ val big psP (by positivity) hb fun p hp i hi j hj => (hbP p hp i hi j hj).2.1.trans hV
  have b2 : Q.1.screenMax ≤ 2 ^ 500 := by
    rw [mQ]
    exact max_le sh hsc _ val big psQ (by positivity) hb fun p hp i hi j hj => (hbQ p hp i hi j hj).2.1.trans hV
  have hpr := below_tol (C87_ieee fused).1 (mul_nonneg (hb0.trans h1) (hb0.trans h2)) (by
    refine (mul_le_mul b1 b2 (hb0.trans h2) (by positivity)).trans ?_
    rw [← pow_add]
    exact pow_le_pow_right₀ (by norm_num) (by norm_num)) (by rwa [abs_of_pos ht0]) h.2
  have := mul_le_mul h1 h2 hb0 (hb0.trans h1)
  rw [← sq] at this
  linarith

/-- **C100, Schwarz values.** The value that `simint_primscreen_schwarz` computes on doubles for a pair of primitives
exists, is not negative, and is the largest of the integrals `(xy|xy)` up to `selfErr`. -/
theorem C100_values (fused : Bool) (b : Build) {g : GenCfg} (hg : g.OK) (sh : ShCfg) (hl : 0 < sh.len)
    (big : ℝ) (w : FlScrMem (ieee fused)) (hw : w.ptrA ≠ w.ptrB) (hod : ∀ k, IsDouble (ieee fused) (w.out k).val)
    {A B : Shell ℝ} {R : ℝ} (hR0 : 0 ≤ R) (hR : R ≤ 2 ^ 10) (hA : A.Moderate R) (hB : B.Moderate R)
    (ham : A.am + B.am ≤ 12) {i j : ℕ} (hi : i < A.nprim) (hj : j < B.nprim)
    (hx : ArgsBelow (oneShell 0 A i) (oneShell 1 B j) (oneShell 0 A i) (oneShell 1 B j) R 36.5) :
    ∃ v, flPrimVal (ieee fused) b g sh big w A B i j = some v ∧ 0 ≤ v ∧
      (∀ x y, IsComp A.am x → IsComp B.am y → primSelf A B i j x y ≤ v + selfErr A B R i j) ∧
      ∃ x y, IsComp A.am x ∧ IsComp B.am y ∧ v ≤ primSelf A B i j x y + selfErr A B R i j :=
  flPrimVal_spec fused b hg sh hl big w hw hod hR0 hR hA hB ham hi hj hx

theorem SelfBelow.near (fused : Bool) (b : Build) {g : GenCfg} (hg : g.OK) (sh : ShCfg) (hl : 0 < sh.len) (big : ℝ)
    {w : Shell ℝ → Shell ℝ → ℕ → ℕ → FlScrMem (ieee fused)} (hw : ∀ A B i j, (w A B i j).ptrA ≠ (w A B i j).ptrB)
    (hod : ∀ A B i j k, IsDouble (ieee fused) ((w A B i j).out k).val) {ps : List (Shell ℝ × Shell ℝ)} {R e V : ℝ}
    (h : SelfBelow ps R e V) (hR0 : 0 ≤ R) (hR : R ≤ 2 ^ 10) (hps : PairsModerate ps R)
    (ham : ∀ p ∈ ps, p.1.am + p.2.am ≤ 12) :
    ∀ p ∈ ps, NearBounding (flPrimVals (ieee fused) b g sh big w) p.1 p.2 1 e (V + e) := by
  intro p hp i hi j hj
  obtain ⟨hx, hE, hS⟩ := h p hp i hi j hj
  obtain ⟨v, h1, h2, h3, x, y, hx', hy', h4⟩ := flPrimVal_spec fused b hg sh hl big (w p.1 p.2 i j) (hw _ _ _ _)
    (hod _ _ _ _) hR0 hR (hps p hp).1 (hps p hp).2.1 (ham p hp) hi hj hx
  have hval : flPrimVals (ieee fused) b g sh big w p.1 p.2 i j = v := by
    unfold flPrimVals
    rw [h1]
    rfl
  rw [hval]
  refine ⟨h2, h4.trans (add_le_add (hS x y hx' hy') hE), fun x y hx hy => ?_⟩
  rw [one_mul]
  exact (h3 x y hx hy).trans (add_le_add le_rfl hE)

/-- **C100, Schwarz screening.** C100 with the values that `simint_primscreen_schwarz` computes on doubles (its
stores staying in the array, C44): everything is done in doubles, from the shells to the screened integrals. -/
theorem C100_schwarz (fused : Bool) (b : Build) {g : GenCfg} (hg : g.OK) {final : QAM} (hf : ClassOK final)
    (hLb : final.a + final.b ≤ 12) (hLk : final.c + final.d ≤ 12) (sh : ShCfg) (hl : 0 < sh.len)
    (hsc : sh.screening = true) {big : ℝ} (hb0 : 0 ≤ big) (hb : big ≤ 2 ^ 500)
    (w : Shell ℝ → Shell ℝ → ℕ → ℕ → FlScrMem (ieee fused)) (hw : ∀ A B i j, (w A B i j).ptrA ≠ (w A B i j).ptrB)
    (hwd : ∀ A B i j k, IsDouble (ieee fused) ((w A B i j).out k).val)
    (psP psQ : List (Shell ℝ × Shell ℝ)) {R : ℝ} (hR0 : 0 ≤ R) (hR : R ≤ 2 ^ 10) (hP : PairsModerate psP R)
    (hQ : PairsModerate psQ R) (hbra : BatchesFull sh.len psP)
    (hn : ∀ p ∈ psP, ∀ q ∈ psQ, pairPrims p.1 p.2 * pairPrims q.1 q.2 ≤ 2 ^ 49)
    (hx : ∀ p ∈ psP, ∀ q ∈ psQ, ArgsBelow p.1 p.2 q.1 q.2 R 36.5)
    (hamP : ∀ p ∈ psP, (p.1.am : ℤ) = final.a ∧ (p.2.am : ℤ) = final.b)
    (hamQ : ∀ p ∈ psQ, (p.1.am : ℤ) = final.c ∧ (p.2.am : ℤ) = final.d)
    {e V : ℝ} (he : 0 ≤ e) (hV0 : 0 ≤ V) (hV : V + e ≤ 2 ^ 500) (hsP : SelfBelow psP R e V)
    (hsQ : SelfBelow psQ R e V)
    (hinP : ∀ i v, (Arr.screen, i, v) ∈ (fillPairs sh (shOps (ieee fused))
      (schwarz sh.len (flPrimVals (ieee fused) b g sh big w)) big psP).log → i < allocPrims sh.len psP)
    (hinQ : ∀ i v, (Arr.screen, i, v) ∈ (fillPairs sh (shOps (ieee fused))
      (schwarz sh.len (flPrimVals (ieee fused) b g sh big w)) big psQ).log → i < allocPrims sh.len psQ)
    (memP memQ : ℕ → ℝ) {t : ℝ} (ht0 : 0 < t) (ht : t ≤ 2 ^ 500) (outSize : ℕ)
    (hout : psP.length * psQ.length * ncartQ final ≤ outSize) (junk : VPar ℝ)
    (scratch : ℕ → ℕ → ℕ → VMem ℝ) (hmem : HMem (Fd (ieee fused))) (out : ℕ → Fd (ieee fused))
    (hod : ∀ k, IsDouble (ieee fused) (out k).val) :
    ∃ P Q n o,
      completeList sh (shOps (ieee fused)) (schwarz sh.len (flPrimVals (ieee fused) b g sh big w)) big psP memP =
        some P ∧
      completeList sh (shOps (ieee fused)) (schwarz sh.len (flPrimVals (ieee fused) b g sh big w)) big psQ memQ =
        some Q ∧
      flOstei (ieee fused) b g final ⟨sh.len, P.1, Q.1, t, outSize, junk, scratch⟩ hmem out = some (n, o) ∧
      (n = -1 ∧ o = out ∧
        (∀ ab (hab : ab < psP.length) cd (hcd : cd < psQ.length) (x y z w : Exp),
          x.Valid → y.Valid → z.Valid → w.Valid →
          x.am = final.a → y.am = final.b → z.am = final.c → w.am = final.d →
          |shellERI psP[ab].1 psP[ab].2 psQ[cd].1 psQ[cd].2 x y z w| ≤
            quartets psP[ab].1 psP[ab].2 psQ[cd].1 psQ[cd].2 * dropMax 1 t e (V + e)) ∨
      n = psP.length * psQ.length ∧
        (∀ ab (hab : ab < psP.length) cd (hcd : cd < psQ.length) (x y z w : Exp),
          x.Valid → y.Valid → z.Valid → w.Valid →
          x.am = final.a → y.am = final.b → z.am = final.c → w.am = final.d →
          |(o ((ab * psQ.length + cd) * ncartQ final + Qrt.index psi4List ⟨⟨x, y⟩, ⟨z, w⟩, 0⟩)).val -
              shellERI psP[ab].1 psP[ab].2 psQ[cd].1 psQ[cd].2 x y z w| ≤
            errCount 226 final (pairPrims psP[ab].1 psP[ab].2 * pairPrims psQ[cd].1 psQ[cd].2) * (1 / 2 ^ 52) *
              (shellSize psP[ab].1 psP[ab].2 psQ[cd].1 psQ[cd].2 R (totalL final) *
                (2 + 2 * R) ^ (min final.a final.b + min final.c final.d).toNat) +
            quartets psP[ab].1 psP[ab].2 psQ[cd].1 psQ[cd].2 * dropMax 1 t e (V + e)) ∧
        ∀ k, psP.length * psQ.length * ncartQ final ≤ k → o k = out k) := by
  rw [completeList_schwarz sh hl (shOps (ieee fused)) _ big psP hinP,
    completeList_schwarz sh hl (shOps (ieee fused)) _ big psQ hinQ]
  have n1 := hsP.near fused b hg sh hl big hw hwd hR0 hR hP fun p hp => by
    have := hamP p hp
    omega
  have n2 := hsQ.near fused b hg sh hl big hw hwd hR0 hR hQ fun p hp => by
    have := hamQ p hp
    omega
  exact C100_screened fused b hg hf (by unfold totalL; omega) sh hl hsc _ hb0 hb psP psQ hR0 hR hP hQ hbra hn hx hamP
    hamQ zero_le_one he (add_nonneg hV0 he) hV n1 n2 memP memQ ht0 ht outSize hout junk scratch hmem out hod

/-- **C100, computed values, arguments of the Boys function up to 10^8**, total angular momentum at most 3. -/
theorem C100_schwarz_far (fused : Bool) (b : Build) {g : GenCfg} (hg : g.OK) {final : QAM} (hf : ClassOK final)
    (hL : totalL final < 4) (sh : ShCfg) (hl : 0 < sh.len)
    (hsc : sh.screening = true) {big : ℝ} (hb0 : 0 ≤ big) (hb : big ≤ 2 ^ 500)
    (w : Shell ℝ → Shell ℝ → ℕ → ℕ → FlScrMem (ieee fused)) (hw : ∀ A B i j, (w A B i j).ptrA ≠ (w A B i j).ptrB)
    (hwd : ∀ A B i j k, IsDouble (ieee fused) ((w A B i j).out k).val)
    (psP psQ : List (Shell ℝ × Shell ℝ)) {R : ℝ} (hR0 : 0 ≤ R) (hR : R ≤ 2 ^ 10) (hP : PairsModerate psP R)
    (hQ : PairsModerate psQ R) (hbra : BatchesFull sh.len psP)
    (hn : ∀ p ∈ psP, ∀ q ∈ psQ, pairPrims p.1 p.2 * pairPrims q.1 q.2 ≤ 2 ^ 49)
    (hx : ∀ p ∈ psP, ∀ q ∈ psQ, ArgsBelow p.1 p.2 q.1 q.2 R (10 ^ 8))
    (hamP : ∀ p ∈ psP, (p.1.am : ℤ) = final.a ∧ (p.2.am : ℤ) = final.b)
    (hamQ : ∀ p ∈ psQ, (p.1.am : ℤ) = final.c ∧ (p.2.am : ℤ) = final.d)
    {e V : ℝ} (he : 0 ≤ e) (hV0 : 0 ≤ V) (hV : V + e ≤ 2 ^ 500) (hsP : SelfBelow psP R e V)
    (hsQ : SelfBelow psQ R e V)
    (hinP : ∀ i v, (Arr.screen, i, v) ∈ (fillPairs sh (shOps (ieee fused))
      (schwarz sh.len (flPrimVals (ieee fused) b g sh big w)) big psP).log → i < allocPrims sh.len psP)
    (hinQ : ∀ i v, (Arr.screen, i, v) ∈ (fillPairs sh (shOps (ieee fused))
      (schwarz sh.len (flPrimVals (ieee fused) b g sh big w)) big psQ).log → i < allocPrims sh.len psQ)
    (memP memQ : ℕ → ℝ) {t : ℝ} (ht0 : 0 < t) (ht : t ≤ 2 ^ 500) (outSize : ℕ)
    (hout : psP.length * psQ.length * ncartQ final ≤ outSize) (junk : VPar ℝ)
    (scratch : ℕ → ℕ → ℕ → VMem ℝ) (hmem : HMem (Fd (ieee fused))) (out : ℕ → Fd (ieee fused))
    (hod : ∀ k, IsDouble (ieee fused) (out k).val) :
    ∃ P Q n o,
      completeList sh (shOps (ieee fused)) (schwarz sh.len (flPrimVals (ieee fused) b g sh big w)) big psP memP =
        some P ∧
      completeList sh (shOps (ieee fused)) (schwarz sh.len (flPrimVals (ieee fused) b g sh big w)) big psQ memQ =
        some Q ∧
      flOstei (ieee fused) b g final ⟨sh.len, P.1, Q.1, t, outSize, junk, scratch⟩ hmem out = some (n, o) ∧
      (n = -1 ∧ o = out ∧
        (∀ ab (hab : ab < psP.length) cd (hcd : cd < psQ.length) (x y z w : Exp),
          x.Valid → y.Valid → z.Valid → w.Valid →
          x.am = final.a → y.am = final.b → z.am = final.c → w.am = final.d →
          |shellERI psP[ab].1 psP[ab].2 psQ[cd].1 psQ[cd].2 x y z w| ≤
            quartets psP[ab].1 psP[ab].2 psQ[cd].1 psQ[cd].2 * dropMax 1 t e (V + e)) ∨
      n = psP.length * psQ.length ∧
        (∀ ab (hab : ab < psP.length) cd (hcd : cd < psQ.length) (x y z w : Exp),
          x.Valid → y.Valid → z.Valid → w.Valid →
          x.am = final.a → y.am = final.b → z.am = final.c → w.am = final.d →
          |(o ((ab * psQ.length + cd) * ncartQ final + Qrt.index psi4List ⟨⟨x, y⟩, ⟨z, w⟩, 0⟩)).val -
              shellERI psP[ab].1 psP[ab].2 psQ[cd].1 psQ[cd].2 x y z w| ≤
            errCount 9910 final (pairPrims psP[ab].1 psP[ab].2 * pairPrims psQ[cd].1 psQ[cd].2) * (1 / 2 ^ 52) *
              (shellSize psP[ab].1 psP[ab].2 psQ[cd].1 psQ[cd].2 R (totalL final) *
                (2 + 2 * R) ^ (min final.a final.b + min final.c final.d).toNat) +
            quartets psP[ab].1 psP[ab].2 psQ[cd].1 psQ[cd].2 * dropMax 1 t e (V + e)) ∧
        ∀ k, psP.length * psQ.length * ncartQ final ≤ k → o k = out k) := by
  have hv := hf.valid
  unfold QAM.Valid at hv
  have hL' := hL
  unfold totalL at hL'
  rw [completeList_schwarz sh hl (shOps (ieee fused)) _ big psP hinP,
    completeList_schwarz sh hl (shOps (ieee fused)) _ big psQ hinQ]
  have n1 := hsP.near fused b hg sh hl big hw hwd hR0 hR hP fun p hp => by
    have := hamP p hp
    omega
  have n2 := hsQ.near fused b hg sh hl big hw hwd hR0 hR hQ fun p hp => by
    have := hamQ p hp
    omega
  exact C100_screened_far fused b hg hf hL sh hl hsc _ hb0 hb psP psQ hR0 hR hP hQ hbra hn hx hamP
    hamQ zero_le_one he (add_nonneg hV0 he) hV n1 n2 memP memQ ht0 ht outSize hout junk scratch hmem out hod

/-! ### The hypotheses can be met -/

/-- An s shell with one primitive at `(x, 0, 0)`. -/
noncomputable def sShell (ptr : ℕ) (x : ℝ) : Shell ℝ :=
  ⟨ptr, 0, 1, fun d => if d = .x then x else 0, fun _ => 1, fun _ => 1⟩

theorem sShell_moderate (ptr : ℕ) {x : ℝ} (hx : x = 0 ∨ x = 1) : (sShell ptr x).Moderate 1 := by
  have h := twoShell_moderate ptr hx
  exact ⟨one_pos, fun i _ => by simp only [sShell]; norm_num, fun i _ => by simp only [sShell]; norm_num,
    fun i _ => by simp only [sShell]; norm_num, h.pos, h.double⟩

theorem sShell_args : ArgsBelow (sShell 1 0) (sShell 2 1) (sShell 1 0) (sShell 2 1) 1 36.5 := by
  intro i _ j _ k _ l _
  have e0 : shellArg (sShell 1 0) (sShell 2 1) (sShell 1 0) (sShell 2 1) i j k l = 0 := by
    unfold shellArg dist2
    have : FlPrim.center (sShell 1 0) (sShell 2 1) i j = FlPrim.center (sShell 1 0) (sShell 2 1) k l := rfl
    rw [this]
    simp
  have e1 : redExp (sShell 1 0) (sShell 2 1) (sShell 1 0) (sShell 2 1) i j k l = 1 := by
    simp only [redExp, sShell]; norm_num
  have h1 : (1 : ℝ) / 2 ^ 800 ≤ 1 := by
    rw [div_le_one (by positivity)]; exact one_le_pow₀ (by norm_num)
  have h0 : (0 : ℝ) ≤ 1 / 2 ^ 800 := by positivity
  rw [e0]
  unfold shellArgErr FlPrim.diffMax
  rw [e1]
  nlinarith

theorem sShell_size : shellSize (oneShell 0 (sShell 1 0) 0) (oneShell 1 (sShell 2 1) 0) (oneShell 0 (sShell 1 0) 0)
    (oneShell 1 (sShell 2 1) 0) 1 0 ≤ 755 := by
  have hs : sameShell (oneShell 0 (sShell 1 0) 0) (oneShell 1 (sShell 2 1) 0) = false := by simp [sameShell, oneShell]
  have h8 : (1 : ℝ) / 2 ^ 800 ≤ 1 := by
    rw [div_le_one (by positivity)]; exact one_le_pow₀ (by norm_num)
  have h80 : (0 : ℝ) ≤ 1 / 2 ^ 800 := by positivity
  have h10 : (1 : ℝ) / 2 ^ 1000 ≤ 1 := by
    rw [div_le_one (by positivity)]; exact one_le_pow₀ (by norm_num)
  have hf0 : 0 ≤ FlPrim.factorMax (oneShell 0 (sShell 1 0) 0) (oneShell 1 (sShell 2 1) 0) 0 0 ∧
      FlPrim.factorMax (oneShell 0 (sShell 1 0) 0) (oneShell 1 (sShell 2 1) 0) 0 0 ≤ 5 := by
    have hg : 0 ≤ FlPrim.gexp (oneShell 0 (sShell 1 0) 0) (oneShell 1 (sShell 2 1) 0) 0 0 := by
      unfold FlPrim.gexp dist2
      simp only [oneShell, sShell]
      positivity
    have hG1 : (1 + FlPrim.gexp (oneShell 0 (sShell 1 0) 0) (oneShell 1 (sShell 2 1) 0) 0 0) *
        Real.exp (-FlPrim.gexp (oneShell 0 (sShell 1 0) 0) (oneShell 1 (sShell 2 1) 0) 0 0) ≤ 1 := by
      rw [Real.exp_neg, ← div_eq_mul_inv, div_le_one (Real.exp_pos _)]
      linarith [Real.add_one_le_exp (FlPrim.gexp (oneShell 0 (sShell 1 0) 0) (oneShell 1 (sShell 2 1) 0) 0 0)]
    have c3 : √2 * Real.pi ^ ((5 : ℝ) / 4) ≤ 8 := by
      have := FlPrim.const_rng.hi
      norm_num at this ⊢
      exact this
    have c0 := FlPrim.const_rng.pos
    unfold FlPrim.factorMax FlPrim.mult
    rw [hs]
    set G := (1 + FlPrim.gexp (oneShell 0 (sShell 1 0) 0) (oneShell 1 (sShell 2 1) 0) 0 0) *
        Real.exp (-FlPrim.gexp (oneShell 0 (sShell 1 0) 0) (oneShell 1 (sShell 2 1) 0) 0 0)
    have hG0 : 0 ≤ G := by positivity
    simp only [Bool.false_and, Bool.false_eq_true, if_false, oneShell, sShell, mul_one, abs_one, one_mul]
    have := mul_le_mul hG1 c3 c0.le zero_le_one
    have n := mul_nonneg hG0 c0.le
    constructor
    · positivity
    · linarith
  unfold shellSize overStored StoredPrims
  rw [hs]
  simp only [Bool.false_eq_true, false_imp_iff, if_true, VRRRound.growth, range_zero, prod_empty, mul_one,
    show (oneShell 0 (sShell 1 0) 0).nprim = 1 from rfl, show (oneShell 1 (sShell 2 1) 0).nprim = 1 from rfl,
    sum_range_one]
  unfold FlPrim.startMax FlPrim.diffMax
  simp only [show (oneShell 0 (sShell 1 0) 0).alpha 0 = 1 from rfl, show (oneShell 1 (sShell 2 1) 0).alpha 0 = 1 from rfl]
  set f := FlPrim.factorMax (oneShell 0 (sShell 1 0) 0) (oneShell 1 (sShell 2 1) 0) 0 0
  have hq0 := Real.sqrt_nonneg (1 / (1 + 1 + (1 + 1)) : ℝ)
  have hq : √(1 / (1 + 1 + (1 + 1)) : ℝ) ≤ 1 := Real.sqrt_le_one.2 (by norm_num)
  have ff : f * f ≤ 25 := by nlinarith [hf0.1, hf0.2]
  have ff0 := mul_nonneg hf0.1 hf0.1
  have fq : f * f * √(1 / (1 + 1 + (1 + 1)) : ℝ) ≤ 25 := by nlinarith
  have fq0 := mul_nonneg ff0 hq0
  have d : (2 * 1 + 1 / 2 ^ 800 : ℝ) ^ 2 ≤ 9 := by nlinarith
  have d0 : 0 ≤ (2 * 1 + 1 / 2 ^ 800 : ℝ) ^ 2 := sq_nonneg _
  have m1 : (2 + 3 * (2 * 1 + 1 / 2 ^ 800 : ℝ) ^ 2 * ((1 + 1) * (1 + 1) / (1 + 1 + (1 + 1)))) ≤ 29 := by
    norm_num at d ⊢
    linarith
  have := mul_le_mul m1 (show f * f * √(1 / (1 + 1 + (1 + 1)) : ℝ) + 1 / 2 ^ 800 ≤ 26 by linarith)
    (by linarith) (by norm_num)
  linarith

theorem sShell_self : SelfBelow [(sShell 1 0, sShell 2 1)] 1 (1 / 2 ^ 33) 32 := by
  intro p hp i hi j hj
  rw [List.mem_singleton] at hp
  subst hp
  refine ⟨sShell_args, ?_, ?_⟩
  · unfold selfErr
    have h := sShell_size
    have e : ∀ i j, shellSize (oneShell 0 (sShell 1 0) i) (oneShell 1 (sShell 2 1) j) (oneShell 0 (sShell 1 0) i)
        (oneShell 1 (sShell 2 1) j) 1 0 = shellSize (oneShell 0 (sShell 1 0) 0) (oneShell 1 (sShell 2 1) 0)
        (oneShell 0 (sShell 1 0) 0) (oneShell 1 (sShell 2 1) 0) 1 0 := fun i j => rfl
    simp only [show (sShell 1 0).am = 0 from rfl, show (sShell 2 1).am = 0 from rfl, add_zero, mul_zero, min_self,
      pow_zero, mul_one]
    rw [e]
    calc _ ≤ ((672 : ℕ) : ℝ) * (1 / 2 ^ 52) * 755 := mul_le_mul_of_nonneg_left h (by positivity)
      _ ≤ 1 / 2 ^ 33 := by norm_num
  · rintro x y ⟨x1, x2, x3, x4⟩ ⟨y1, y2, y3, y4⟩
    have ex : x = ⟨0, 0, 0⟩ := by
      obtain ⟨a, b, c⟩ := x
      simp only [sShell] at *
      congr 1 <;> omega
    have ey : y = ⟨0, 0, 0⟩ := by
      obtain ⟨a, b, c⟩ := y
      simp only [sShell] at *
      congr 1 <;> omega
    subst ex ey
    unfold primSelf
    simp only [sShell]
    rw [self_s one_pos one_pos, rpow_52 Real.pi_pos, rpow_52 (by norm_num)]
    have h1 : √(2 : ℝ) ≤ 2 := by rw [Real.sqrt_le_left (by norm_num)]; norm_num
    have h2 := Real.pi_le_four
    have h3 : √Real.pi ≤ 2 := by rw [Real.sqrt_le_left (by norm_num)]; linarith
    have h4 : √(1 / (1 + 1) : ℝ) ≤ 1 := Real.sqrt_le_one.2 (by norm_num)
    have h5 : ∀ d : ℝ, 0 ≤ d → Real.exp (-2 * (1 * 1 / (1 + 1)) * d) ≤ 1 := fun d hd =>
      Real.exp_le_one_iff.2 (by nlinarith)
    have h6 := h5 (dist2 (fun d => if d = .x then (0 : ℝ) else 0) fun d => if d = .x then 1 else 0)
      (by unfold dist2; positivity)
    have h7 : Real.pi ^ 2 ≤ 16 := by nlinarith [Real.pi_pos]
    have a1 : √2 * (Real.pi ^ 2 * √Real.pi) ≤ 2 * (16 * 2) :=
      mul_le_mul h1 (mul_le_mul h7 h3 (Real.sqrt_nonneg _) (by norm_num)) (by positivity) (by norm_num)
    have a2 : √2 * (Real.pi ^ 2 * √Real.pi) * ((1 / (1 + 1)) ^ 2 * √(1 / (1 + 1))) ≤ 2 * (16 * 2) * (1 / 4 * 1) :=
      mul_le_mul a1 (mul_le_mul (by norm_num) h4 (Real.sqrt_nonneg _) (by norm_num)) (by positivity) (by norm_num)
    have a3 := mul_le_mul a2 h6 (Real.exp_pos _).le (by norm_num)
    norm_num at a3 ⊢
    linarith

/-- Two lists with one pair of s shells, four lanes, tolerance 10^-5, everything in doubles. -/
example (fused : Bool) (b : Build) {g : GenCfg} (hg : g.OK) (junk : VPar ℝ) (scratch : ℕ → ℕ → ℕ → VMem ℝ)
    (w : Shell ℝ → Shell ℝ → ℕ → ℕ → FlScrMem (ieee fused)) (hw : ∀ A B i j, (w A B i j).ptrA ≠ (w A B i j).ptrB)
    (hwd : ∀ A B i j k, IsDouble (ieee fused) ((w A B i j).out k).val) (mem : ℕ → ℝ) (hmem : HMem (Fd (ieee fused)))
    (out : ℕ → Fd (ieee fused)) (hod : ∀ k, IsDouble (ieee fused) (out k).val) :
    let A := sShell 1 0
    let B := sShell 2 1
    ∃ P n o, completeList ⟨4, true, false⟩ (shOps (ieee fused))
        (schwarz 4 (flPrimVals (ieee fused) b g ⟨4, true, false⟩ 1e99 w)) 1e99 [(A, B)] mem = some P ∧
      flOstei (ieee fused) b g ⟨0, 0, 0, 0, ""⟩ ⟨4, P.1, P.1, 1 / 10 ^ 5, 1, junk, scratch⟩ hmem out = some (n, o) ∧
      (n = 1 → |(o 0).val - shellERI A B A B ⟨0, 0, 0⟩ ⟨0, 0, 0⟩ ⟨0, 0, 0⟩ ⟨0, 0, 0⟩| ≤
        672 * (1 / 2 ^ 52) * shellSize A B A B 1 0 + dropMax 1 (1 / 10 ^ 5) (1 / 2 ^ 33) (32 + 1 / 2 ^ 33)) := by
  intro A B
  have hf : ClassOK (⟨0, 0, 0, 0, ""⟩ : QAM) := ⟨by unfold QAM.Valid; decide, rfl, by decide, by decide⟩
  have hps : PairsModerate [(A, B)] 1 := by
    intro p hp
    rw [List.mem_singleton] at hp
    subst hp
    exact ⟨sShell_moderate 1 (.inl rfl), sShell_moderate 2 (.inr rfl), fun h => absurd h (by decide)⟩
  have hin := C44_schwarz_partial ⟨4, true, false⟩ (by decide) rfl (shOps (ieee fused))
    (flPrimVals (ieee fused) b g ⟨4, true, false⟩ 1e99 w) 1e99 [(A, B)] (Or.inl le_rfl)
  have ham : ∀ p ∈ [(A, B)], (p.1.am : ℤ) = 0 ∧ (p.2.am : ℤ) = 0 := by
    intro p hp
    rw [List.mem_singleton] at hp
    subst hp
    exact ⟨rfl, rfl⟩
  have big : (1e99 : ℝ) ≤ 2 ^ 500 := by
    calc (1e99 : ℝ) = (10 ^ 33) ^ 3 := by norm_num
      _ ≤ (2 ^ 110) ^ 3 := pow_le_pow_left₀ (by norm_num) (by norm_num) 3
      _ = 2 ^ 330 := by rw [← pow_mul]
      _ ≤ 2 ^ 500 := pow_le_pow_right₀ (by norm_num) (by norm_num)
  have two : (1 : ℝ) ≤ 2 ^ 500 := one_le_pow₀ (by norm_num)
  have two' : (2 : ℝ) ^ 6 ≤ 2 ^ 500 := pow_le_pow_right₀ (by norm_num) (by norm_num)
  obtain ⟨P, Q, n, o, h1, h2, h3, h4⟩ := C100_schwarz fused b hg hf (by decide) (by decide) ⟨4, true, false⟩ (by decide) rfl
    (by norm_num) big w hw hwd [(A, B)] [(A, B)] zero_le_one (by norm_num) hps hps
    (batchesFull_one (by rw [List.length_singleton]; decide))
    (fun p hp q hq => by
      rw [List.mem_singleton] at hp hq
      subst hp hq
      have : pairPrims A B = 1 := by decide
      simp only [this]
      norm_num)
    (fun p hp q hq => by
      rw [List.mem_singleton] at hp hq
      subst hp hq
      exact sShell_args) ham ham (e := 1 / 2 ^ 33) (V := 32) (by norm_num) (by norm_num)
    (le_trans (by norm_num) two') sShell_self sShell_self hin hin mem mem (t := 1 / 10 ^ 5) (by norm_num)
    (le_trans (by norm_num) two) 1 (by rw [List.length_singleton]; decide) junk scratch hmem out hod
  rw [h1] at h2
  obtain rfl := Option.some.inj h2
  refine ⟨P, n, o, h1, h3, fun hn => ?_⟩
  rcases h4 with ⟨e, -⟩ | ⟨-, h, -⟩
  · rw [hn] at e
    exact absurd e (by decide)
  · have := h 0 (by simp) 0 (by simp) ⟨0, 0, 0⟩ ⟨0, 0, 0⟩ ⟨0, 0, 0⟩ ⟨0, 0, 0⟩ (by decide) (by decide) (by decide)
      (by decide) rfl rfl rfl rfl
    have e0 : Qrt.index psi4List ⟨⟨⟨0, 0, 0⟩, ⟨0, 0, 0⟩⟩, ⟨⟨0, 0, 0⟩, ⟨0, 0, 0⟩⟩, 0⟩ = 0 := by decide
    have e1 : quartets A B A B = 1 := by simp [quartets, A, B, sShell]
    have e2 : errCount 226 ⟨0, 0, 0, 0, ""⟩ (pairPrims A B * pairPrims A B) = 672 := by decide
    simp only [List.getElem_cons_zero, e0, e1, e2] at this
    simpa [totalL] using this

end Simint
