import Verif.Props.SsssDelayed

/-!
# C104 with screening: the (ss|ss) function of AVX512 builds and a positive tolerance
-/

set_option autoImplicit false

open Finset

namespace Simint

open FlBoys (Arith ieee u η)
open FlPrim (shOps)
open FlFast (s0 value)

/-- Common part of the two theorems below. -/
theorem screenedD_aux (fused : Bool) (b : Build) (al : AllSum 8) (h : HSum 8) (sh : ShCfg) (h8 : sh.len = 8)
    (hsc : sh.screening = true)
    (val : Shell ℝ → Shell ℝ → ℕ → ℕ → ℝ) {big : ℝ} (hb0 : 0 ≤ big) (hb : big ≤ 2 ^ 500)
    (psP psQ : List (Shell ℝ × Shell ℝ)) {R : ℝ} (hR0 : 0 ≤ R) (hR : R ≤ 2 ^ 10) (hP : PairsModerate psP R)
    (hQ : PairsModerate psQ R) (hbra : BatchesFull sh.len psP)
    (hn : ∀ p ∈ psP, ∀ q ∈ psQ, pairPrims p.1 p.2 * pairPrims q.1 q.2 ≤ 2 ^ 49)
    {kb : ℕ} (hkb : kb ≤ 2 ^ 19) {X : ℝ}
    (hx : ∀ p ∈ psP, ∀ q ∈ psQ, ArgsBelow p.1 p.2 q.1 q.2 R X)
    (hX : ∀ (c : Call ℝ) (S T : ℕ → PairData), c.len = sh.len →
      HoldsFl (ieee fused) c.P (tightStart c.P.nprim12) S R →
      HoldsFl (ieee fused) c.Q (paddedStart c.len c.Q.nprim12) T R →
      (∀ ab < c.P.nclip, ∀ cd < c.Q.nclip, ∀ k < c.P.nprim12 ab, ∀ l < c.Q.nprim12 cd,
        FlPrim.fx (ieee fused) c.P c.Q (tightStart c.P.nprim12 ab + k)
          (paddedStart c.len c.Q.nprim12 cd + l) < X) → BoysOK (ieee fused) c b.vec 0 kb)
    (hamP : ∀ p ∈ psP, (p.1.am : ℤ) = ssss.a ∧ (p.2.am : ℤ) = ssss.b)
    (hamQ : ∀ p ∈ psQ, (p.1.am : ℤ) = ssss.c ∧ (p.2.am : ℤ) = ssss.d)
    {m e V : ℝ} (hm : 0 ≤ m) (he : 0 ≤ e) (hV : V ≤ 2 ^ 500) (hbP : ∀ p ∈ psP, NearBounding val p.1 p.2 m e V)
    (hbQ : ∀ p ∈ psQ, NearBounding val p.1 p.2 m e V)
    (memP memQ : ℕ → ℝ) {t : ℝ} (ht0 : 0 < t) (ht : t ≤ 2 ^ 500) (outSize : ℕ)
    (hout : psP.length * psQ.length ≤ outSize) (junk : VPar ℝ)
    (scratch : ℕ → ℕ → ℕ → VMem ℝ) (out : ℕ → Fd (ieee fused)) (hod : ∀ k, IsDouble (ieee fused) (out k).val) :
    ∃ P Q n o, completeList sh (shOps (ieee fused)) (fastSchwarz val) big psP memP = some P ∧
      completeList sh (shOps (ieee fused)) (fastSchwarz val) big psQ memQ = some Q ∧
      flOsteiSsssDelayed (ieee fused) b al h ⟨sh.len, P.1, Q.1, t, outSize, junk, scratch⟩ out =
        some (n, fun k => ⟨Q.1.screen k⟩, o) ∧
      (n = -1 ∧ o = out ∧
        (∀ ab (hab : ab < psP.length) cd (hcd : cd < psQ.length),
          |shellERI psP[ab].1 psP[ab].2 psQ[cd].1 psQ[cd].2 s0 s0 s0 s0| ≤
            quartets psP[ab].1 psP[ab].2 psQ[cd].1 psQ[cd].2 * dropMax m t e V) ∨
      n = psP.length * psQ.length ∧
        (∀ ab (hab : ab < psP.length) cd (hcd : cd < psQ.length),
          |(o (ab * psQ.length + cd)).val - shellERI psP[ab].1 psP[ab].2 psQ[cd].1 psQ[cd].2 s0 s0 s0 s0| ≤
            (kb + 110 + 3 * (pairPrims psP[ab].1 psP[ab].2 * pairPrims psQ[cd].1 psQ[cd].2 - 1) : ℕ) * (1 / 2 ^ 52) *
              shellSize psP[ab].1 psP[ab].2 psQ[cd].1 psQ[cd].2 R 0 +
            quartets psP[ab].1 psP[ab].2 psQ[cd].1 psQ[cd].2 * dropMax m t e V) ∧
        ∀ k, psP.length * psQ.length ≤ k → o k = out k) := by
  classical
  have hl : 0 < sh.len := by omega
  have hn1 : ncartQ ssss = 1 := by decide
  have v0 : s0.Valid := by decide
  obtain ⟨P, eP, S, fP, -, sP, mP⟩ := C89_list fused sh hl _ val (fun _ => fastSchwarz_exact val) big psP hR hP memP
  obtain ⟨Q, eQ, T, fQ, -, sQ, mQ⟩ := C89_list fused sh hl _ val (fun _ => fastSchwarz_exact val) big psQ hR hQ memQ
  have hF := (C87_ieee fused).1
  have hst := (C87_ieee fused).2
  have hD : 0 ≤ dropMax m t e V := Real.sqrt_nonneg _
  have habs : |t| ≤ 2 ^ 500 := by rwa [abs_of_pos ht0]
  -- values and maxima
  have vP : ∀ ab (hab : ab < psP.length), ∀ k < P.1.nprim12 ab,
      P.1.screen (paddedStart sh.len P.1.nprim12 ab + k) = val psP[ab].1 psP[ab].2 ((S ab).prim k).1 ((S ab).prim k).2 ∧
      ((S ab).prim k).1 < psP[ab].1.nprim ∧ ((S ab).prim k).2 < psP[ab].2.nprim := by
    intro ab hab k hk
    have h := sP hsc ab hab k hk
    have hi := fP.index ab hab k hk
    rw [(fP.shells ab hab).1, (fP.shells ab hab).2] at h hi
    exact ⟨h, hi⟩
  have vQ : ∀ cd (hcd : cd < psQ.length), ∀ l < Q.1.nprim12 cd,
      Q.1.screen (paddedStart sh.len Q.1.nprim12 cd + l) = val psQ[cd].1 psQ[cd].2 ((T cd).prim l).1 ((T cd).prim l).2 ∧
      ((T cd).prim l).1 < psQ[cd].1.nprim ∧ ((T cd).prim l).2 < psQ[cd].2.nprim := by
    intro cd hcd l hl'
    have h := sQ hsc cd hcd l hl'
    have hi := fQ.index cd hcd l hl'
    rw [(fQ.shells cd hcd).1, (fQ.shells cd hcd).2] at h hi
    exact ⟨h, hi⟩
  have gP : ∀ ab (hab : ab < psP.length), ∀ k < P.1.nprim12 ab,
      P.1.screen (paddedStart sh.len P.1.nprim12 ab + k) ≤ P.1.screenMax := by
    intro ab hab k hk
    obtain ⟨o1, p1, e1⟩ := fP.order ab hab
    rw [(vP ab hab k hk).1, mP]
    refine max_ge sh hsc _ val big psP hab ?_
    rw [e1]
    have hlt : k < o1.length := by rw [p1.length_eq, primOrder_length, ← fP.count ab hab]; exact hk
    show o1.getD k (0, 0) ∈ _
    rw [List.getD_eq_getElem _ _ hlt]
    exact p1.mem_iff.1 (List.getElem_mem hlt)
  have gQ : ∀ cd (hcd : cd < psQ.length), ∀ l < Q.1.nprim12 cd,
      Q.1.screen (paddedStart sh.len Q.1.nprim12 cd + l) ≤ Q.1.screenMax := by
    intro ab hab k hk
    obtain ⟨o1, p1, e1⟩ := fQ.order ab hab
    rw [(vQ ab hab k hk).1, mQ]
    refine max_ge sh hsc _ val big psQ hab ?_
    rw [e1]
    have hlt : k < o1.length := by rw [p1.length_eq, primOrder_length, ← fQ.count ab hab]; exact hk
    show o1.getD k (0, 0) ∈ _
    rw [List.getD_eq_getElem _ _ hlt]
    exact p1.mem_iff.1 (List.getElem_mem hlt)
  have bP0 : 0 ≤ P.1.screenMax := hb0.trans (by rw [mP]; exact max_big sh hsc _ val big psP)
  have bQ0 : 0 ≤ Q.1.screenMax := hb0.trans (by rw [mQ]; exact max_big sh hsc _ val big psQ)
  have bP : P.1.screenMax ≤ 2 ^ 500 := by
    rw [mP]
    exact max_le sh hsc _ val big psP (by positivity) hb fun p hp i hi j hj => (hbP p hp i hi j hj).2.1.trans hV
  have bQ : Q.1.screenMax ≤ 2 ^ 500 := by
    rw [mQ]
    exact max_le sh hsc _ val big psQ (by positivity) hb fun p hp i hi j hj => (hbQ p hp i hi j hj).2.1.trans hV
  have prod : ∀ x y : ℝ, x ≤ 2 ^ 500 → 0 ≤ y → y ≤ 2 ^ 500 → x * y ≤ 2 ^ 1023 := by
    intro x y hx' hy0 hy
    refine (mul_le_mul hx' hy hy0 (by positivity)).trans ?_
    rw [← pow_add]
    exact pow_le_pow_right₀ (by norm_num) (by norm_num)
  -- a quartet of primitives whose values have a small product
  have hdrop : ∀ ab (hab : ab < psP.length) cd (hcd : cd < psQ.length) (x y z w : Exp),
      x.Valid → y.Valid → z.Valid → w.Valid →
      x.am = ssss.a → y.am = ssss.b → z.am = ssss.c → w.am = ssss.d →
      ∀ k < P.1.nprim12 ab, ∀ l < Q.1.nprim12 cd,
      P.1.screen (paddedStart sh.len P.1.nprim12 ab + k) * Q.1.screen (paddedStart sh.len Q.1.nprim12 cd + l) ≤
        tolSq t → |exactPrim S T ab cd k l x y z w| ≤
        FlPrim.mult psP[ab].1 psP[ab].2 ((S ab).prim k).1 ((S ab).prim k).2 *
          FlPrim.mult psQ[cd].1 psQ[cd].2 ((T cd).prim l).1 ((T cd).prim l).2 * dropMax m t e V := by
    intro ab hab cd hcd x y z w vx vy vz vw ex ey ez ew k hk l hl' h
    have mp := List.getElem_mem hab
    have mq := List.getElem_mem hcd
    obtain ⟨e1, i1, i2⟩ := vP ab hab k hk
    obtain ⟨e2, j1, j2⟩ := vQ cd hcd l hl'
    obtain ⟨-, p2, p3⟩ := hbP _ mp _ i1 _ i2
    obtain ⟨-, q2, q3⟩ := hbQ _ mq _ j1 _ j2
    have pos : ∀ {A : Shell ℝ}, A.Moderate R → ∀ {i}, i < A.nprim → 0 < A.alpha i := fun hA i hi =>
      lt_of_lt_of_le (by norm_num) (hA.lo i hi)
    rw [e1, e2] at h
    unfold exactPrim
    rw [(fP.shells ab hab).1, (fP.shells ab hab).2, (fQ.shells cd hcd).1, (fQ.shells cd hcd).2]
    exact drop_one (pos (hP _ mp).1 i1) (pos (hP _ mp).2.1 i2) (pos (hQ _ mq).1 j1) (pos (hQ _ mq).2.1 j2)
      (p3 x y ⟨vx.1, vx.2.1, vx.2.2, ex.trans (hamP _ mp).1.symm⟩ ⟨vy.1, vy.2.1, vy.2.2, ey.trans (hamP _ mp).2.symm⟩)
      (q3 z w ⟨vz.1, vz.2.1, vz.2.2, ez.trans (hamQ _ mq).1.symm⟩ ⟨vw.1, vw.2.1, vw.2.2, ew.trans (hamQ _ mq).2.symm⟩)
      h hm he p2 q2
  have nnP : ∀ ab (hab : ab < psP.length), ∀ k < P.1.nprim12 ab,
      0 ≤ P.1.screen (paddedStart sh.len P.1.nprim12 ab + k) := by
    intro ab hab k hk
    obtain ⟨e1, i1, i2⟩ := vP ab hab k hk
    rw [e1]
    exact (hbP _ (List.getElem_mem hab) _ i1 _ i2).1
  have nnQ : ∀ cd (hcd : cd < psQ.length), ∀ l < Q.1.nprim12 cd,
      0 ≤ Q.1.screen (paddedStart sh.len Q.1.nprim12 cd + l) := by
    intro cd hcd l hl'
    obtain ⟨e1, i1, i2⟩ := vQ cd hcd l hl'
    rw [e1]
    exact (hbQ _ (List.getElem_mem hcd) _ i1 _ i2).1
  by_cases hneg : (ieee fused).fl (P.1.screenMax * Q.1.screenMax) < (ieee fused).fl (t * t)
  · have hpr := below_tol hF (mul_nonneg bP0 bQ0) (prod _ _ bP bQ0 bQ) habs hneg
    refine ⟨P, Q, -1, out, eP, eQ, by unfold flOsteiSsssDelayed; exact if_pos ⟨ht0, hneg⟩, Or.inl ⟨rfl, rfl, ?_⟩⟩
    intro ab hab cd hcd
    have := drop_all (c := ⟨sh.len, P.1, Q.1, t, outSize, junk, scratch⟩) fP fQ hab hcd (hP _ (List.getElem_mem hab)).2.2
      (hQ _ (List.getElem_mem hcd)).2.2 s0 s0 s0 s0 hD (fun _ _ => False) fun k hk l hl' _ =>
        hdrop ab hab cd hcd s0 s0 s0 s0 v0 v0 v0 v0 rfl rfl rfl rfl k hk l hl' ((mul_le_mul (gP ab hab k hk)
          (gQ cd hcd l hl') (nnQ cd hcd l hl') bP0).trans hpr)
    simpa [quartets] using this
  let c : Call ℝ := ⟨sh.len, P.1, Q.1, (ieee fused).fl (t * t), outSize, junk, scratch⟩
  have hc : CallOK ssss c := ⟨hl, fun s hs => by
      have hs' : s < psQ.length := by rw [← fQ.nclip]; exact hs
      show 0 < Q.1.nprim12 s
      rw [fQ.count s hs']
      exact pairPrims_pos (hQ _ (List.getElem_mem hs')).1.prims (hQ _ (List.getElem_mem hs')).2.1.prims,
    fP.tight, fQ.padded, fP.pos, fQ.pos, by
      show P.1.nclip * Q.1.nclip * _ ≤ _
      rw [fP.nclip, fQ.nclip, hn1, mul_one]
      exact hout⟩
  have htp : ∀ s < c.P.nclip, tightStart c.P.nprim12 s = paddedStart sh.len c.P.nprim12 s :=
    fP.starts hl hbra
  have hS : HoldsFl (ieee fused) c.P (tightStart c.P.nprim12) S R := by
    refine ⟨fP.holds.AB, fP.holds.pos, fun s hs k hk => ?_, fP.holds.size⟩
    rw [htp s hs]
    exact fP.holds.prims s hs k hk
  have hT : HoldsFl (ieee fused) c.Q (paddedStart c.len c.Q.nprim12) T R := fQ.holds
  have hfx := fx_shells (c := c) hF fP fQ htp rfl (X := X) fun ab hab cd hcd =>
    hx _ (List.getElem_mem hab) _ (List.getElem_mem hcd)
  have hn' : ∀ ab < c.P.nclip, ∀ cd < c.Q.nclip, c.P.nprim12 ab * c.Q.nprim12 cd ≤ 2 ^ 49 := by
    intro ab hab cd hcd
    have hab' : ab < psP.length := by rw [← fP.nclip]; exact hab
    have hcd' : cd < psQ.length := by rw [← fQ.nclip]; exact hcd
    show P.1.nprim12 ab * Q.1.nprim12 cd ≤ _
    rw [fP.count ab hab', fQ.count cd hcd']
    exact hn _ (List.getElem_mem hab') _ (List.getElem_mem hcd')
  obtain ⟨o, r, h1, h2⟩ := C104_function hF hst b (c := c) h8 al h hc hS hT hkb
    (hX c S T rfl hS hT hfx) hn'
    (fun ab hab cd hcd => by
      have := sizeMax_moderate (L := 0) hF hR0 hR (fP.mods ab hab) (fQ.mods cd hcd) (hn' ab hab cd hcd) (by norm_num)
      rw [pow_zero, mul_one] at this
      exact this)
    (fun _ k hk hbt => complete_screen_pad sh hl hsc _ _ val (fastSchwarz_exact val) big psQ
      (fun p hp => ⟨(hQ p hp).1.prims, (hQ p hp).2.1.prims⟩) memQ eQ hk hbt) out hod
  have e1 : c.P.nclip = psP.length := fP.nclip
  have e2 : c.Q.nclip = psQ.length := fQ.nclip
  rw [e1, e2] at r h2
  refine ⟨P, Q, ((psP.length * psQ.length : ℕ) : ℤ), o, eP, eQ, ?_, Or.inr ⟨by push_cast; rfl, ?_, h2⟩⟩
  · unfold flOsteiSsssDelayed
    rw [if_neg fun h => hneg h.2]
    show (flSsssDelayed (ieee fused) b al h c out).map _ = _
    rw [r]
    rfl
  intro ab hab cd hcd
  have h := h1 ab (by rw [e1]; exact hab) cd (by rw [e2]; exact hcd)
  have n1 : c.P.nprim12 ab = pairPrims psP[ab].1 psP[ab].2 := fP.count ab hab
  have n2 : c.Q.nprim12 cd = pairPrims psQ[cd].1 psQ[cd].2 := fQ.count cd hcd
  rw [n1, n2, e2] at h
  have hsz := sizeMax_le_shells (c := c) fP fQ hab hcd 0 hF
  have h3 : |exactERI (ieee fused) c S T ab cd s0 s0 s0 s0 -
      shellERI psP[ab].1 psP[ab].2 psQ[cd].1 psQ[cd].2 s0 s0 s0 s0| ≤
      quartets psP[ab].1 psP[ab].2 psQ[cd].1 psQ[cd].2 * dropMax m t e V := by
    refine drop_all (c := c) fP fQ hab hcd (hP _ (List.getElem_mem hab)).2.2
      (hQ _ (List.getElem_mem hcd)).2.2 s0 s0 s0 s0 hD (fun k l => c.KeptFl (ieee fused) (tightStart c.P.nprim12 ab + k)
        (paddedStart c.len c.Q.nprim12 cd + l)) fun k hk l hl' hk' =>
        hdrop ab hab cd hcd s0 s0 s0 s0 v0 v0 v0 v0 rfl rfl rfl rfl k hk l hl' ?_
    have hpv := nnP ab hab k hk
    have hqv := nnQ cd hcd l hl'
    rw [htp ab (by rw [e1]; exact hab)] at hk'
    rw [Call.KeptFl, not_and_or, not_not, not_not] at hk'
    rcases hk' with ⟨-, hk'⟩ | ⟨-, hk'⟩
    · exact (mul_le_mul_of_nonneg_left (gQ cd hcd l hl') hpv).trans
        (below_tol hF (mul_nonneg hpv bQ0) (prod _ _ ((gP ab hab k hk).trans bP) bQ0 bQ) habs hk')
    · have hge := vectorMax_ge (len := sh.len) (fun n => (ieee fused).fl (P.1.screen (paddedStart sh.len P.1.nprim12 ab + k) *
        Q.1.screen ((paddedStart sh.len Q.1.nprim12 cd + l) / sh.len * sh.len + n)))
        (Nat.mod_lt (paddedStart sh.len Q.1.nprim12 cd + l) hl)
      simp only [Nat.div_add_mod'] at hge
      exact below_tol hF (mul_nonneg hpv hqv) (prod _ _ ((gP ab hab k hk).trans bP) hqv
        ((gQ cd hcd l hl').trans bQ)) habs (hge.trans_lt hk')
  have h4 := mul_le_mul_of_nonneg_left hsz
    (by positivity : (0 : ℝ) ≤ (kb + 110 + 3 * (pairPrims psP[ab].1 psP[ab].2 * pairPrims psQ[cd].1 psQ[cd].2 - 1) : ℕ) *
      (1 / 2 ^ 52))
  exact (abs_sub_le _ _ _).trans (add_le_add (h.trans h4) h3)

/-- **C104, screening with any values.** `C100_screened` for four s shells in an AVX512 build: fill two lists of pairs
of s shells with screening values that bound the integrals up to a factor and a term, and call `simint_compute_ostei`
with a positive tolerance. -/
theorem C104_screened_any (fused : Bool) (b : Build) (al : AllSum 8) (h : HSum 8) (sh : ShCfg) (h8 : sh.len = 8)
    (hsc : sh.screening = true)
    (val : Shell ℝ → Shell ℝ → ℕ → ℕ → ℝ) {big : ℝ} (hb0 : 0 ≤ big) (hb : big ≤ 2 ^ 500)
    (psP psQ : List (Shell ℝ × Shell ℝ)) {R : ℝ} (hR0 : 0 ≤ R) (hR : R ≤ 2 ^ 10) (hP : PairsModerate psP R)
    (hQ : PairsModerate psQ R) (hbra : BatchesFull sh.len psP)
    (hn : ∀ p ∈ psP, ∀ q ∈ psQ, pairPrims p.1 p.2 * pairPrims q.1 q.2 ≤ 2 ^ 49)
    (hx : ∀ p ∈ psP, ∀ q ∈ psQ, ArgsBelow p.1 p.2 q.1 q.2 R 36.5)
    (hamP : ∀ p ∈ psP, (p.1.am : ℤ) = ssss.a ∧ (p.2.am : ℤ) = ssss.b)
    (hamQ : ∀ p ∈ psQ, (p.1.am : ℤ) = ssss.c ∧ (p.2.am : ℤ) = ssss.d)
    {m e V : ℝ} (hm : 0 ≤ m) (he : 0 ≤ e) (hV : V ≤ 2 ^ 500) (hbP : ∀ p ∈ psP, NearBounding val p.1 p.2 m e V)
    (hbQ : ∀ p ∈ psQ, NearBounding val p.1 p.2 m e V)
    (memP memQ : ℕ → ℝ) {t : ℝ} (ht0 : 0 < t) (ht : t ≤ 2 ^ 500) (outSize : ℕ)
    (hout : psP.length * psQ.length ≤ outSize) (junk : VPar ℝ)
    (scratch : ℕ → ℕ → ℕ → VMem ℝ) (out : ℕ → Fd (ieee fused)) (hod : ∀ k, IsDouble (ieee fused) (out k).val) :
    ∃ P Q n o, completeList sh (shOps (ieee fused)) (fastSchwarz val) big psP memP = some P ∧
      completeList sh (shOps (ieee fused)) (fastSchwarz val) big psQ memQ = some Q ∧
      flOsteiSsssDelayed (ieee fused) b al h ⟨sh.len, P.1, Q.1, t, outSize, junk, scratch⟩ out =
        some (n, fun k => ⟨Q.1.screen k⟩, o) ∧
      (n = -1 ∧ o = out ∧
        (∀ ab (hab : ab < psP.length) cd (hcd : cd < psQ.length),
          |shellERI psP[ab].1 psP[ab].2 psQ[cd].1 psQ[cd].2 s0 s0 s0 s0| ≤
            quartets psP[ab].1 psP[ab].2 psQ[cd].1 psQ[cd].2 * dropMax m t e V) ∨
      n = psP.length * psQ.length ∧
        (∀ ab (hab : ab < psP.length) cd (hcd : cd < psQ.length),
          |(o (ab * psQ.length + cd)).val - shellERI psP[ab].1 psP[ab].2 psQ[cd].1 psQ[cd].2 s0 s0 s0 s0| ≤
            (336 + 3 * (pairPrims psP[ab].1 psP[ab].2 * pairPrims psQ[cd].1 psQ[cd].2 - 1) : ℕ) * (1 / 2 ^ 52) *
              shellSize psP[ab].1 psP[ab].2 psQ[cd].1 psQ[cd].2 R 0 +
            quartets psP[ab].1 psP[ab].2 psQ[cd].1 psQ[cd].2 * dropMax m t e V) ∧
        ∀ k, psP.length * psQ.length ≤ k → o k = out k) := by
  have hl : 0 < sh.len := by omega
  exact screenedD_aux fused b al h sh h8 hsc val hb0 hb psP psQ hR0 hR hP hQ hbra hn
    (kb := 226) (by norm_num) hx (fun c S T e hS hT hfx => C88_near (C87_ieee fused).1 (by rw [e]; exact hl) hS hT b.vec (by norm_num) hfx)
    hamP hamQ hm he hV hbP hbQ memP memQ ht0 ht outSize hout junk scratch out hod

/-- **C104, screening with any values, arguments of the Boys function up to 10^8.** -/
theorem C104_screened_any_far (fused : Bool) (b : Build) (al : AllSum 8) (h : HSum 8) (sh : ShCfg) (h8 : sh.len = 8)
    (hsc : sh.screening = true)
    (val : Shell ℝ → Shell ℝ → ℕ → ℕ → ℝ) {big : ℝ} (hb0 : 0 ≤ big) (hb : big ≤ 2 ^ 500)
    (psP psQ : List (Shell ℝ × Shell ℝ)) {R : ℝ} (hR0 : 0 ≤ R) (hR : R ≤ 2 ^ 10) (hP : PairsModerate psP R)
    (hQ : PairsModerate psQ R) (hbra : BatchesFull sh.len psP)
    (hn : ∀ p ∈ psP, ∀ q ∈ psQ, pairPrims p.1 p.2 * pairPrims q.1 q.2 ≤ 2 ^ 49)
    (hx : ∀ p ∈ psP, ∀ q ∈ psQ, ArgsBelow p.1 p.2 q.1 q.2 R (10 ^ 8))
    (hamP : ∀ p ∈ psP, (p.1.am : ℤ) = ssss.a ∧ (p.2.am : ℤ) = ssss.b)
    (hamQ : ∀ p ∈ psQ, (p.1.am : ℤ) = ssss.c ∧ (p.2.am : ℤ) = ssss.d)
    {m e V : ℝ} (hm : 0 ≤ m) (he : 0 ≤ e) (hV : V ≤ 2 ^ 500) (hbP : ∀ p ∈ psP, NearBounding val p.1 p.2 m e V)
    (hbQ : ∀ p ∈ psQ, NearBounding val p.1 p.2 m e V)
    (memP memQ : ℕ → ℝ) {t : ℝ} (ht0 : 0 < t) (ht : t ≤ 2 ^ 500) (outSize : ℕ)
    (hout : psP.length * psQ.length ≤ outSize) (junk : VPar ℝ)
    (scratch : ℕ → ℕ → ℕ → VMem ℝ) (out : ℕ → Fd (ieee fused)) (hod : ∀ k, IsDouble (ieee fused) (out k).val) :
    ∃ P Q n o, completeList sh (shOps (ieee fused)) (fastSchwarz val) big psP memP = some P ∧
      completeList sh (shOps (ieee fused)) (fastSchwarz val) big psQ memQ = some Q ∧
      flOsteiSsssDelayed (ieee fused) b al h ⟨sh.len, P.1, Q.1, t, outSize, junk, scratch⟩ out =
        some (n, fun k => ⟨Q.1.screen k⟩, o) ∧
      (n = -1 ∧ o = out ∧
        (∀ ab (hab : ab < psP.length) cd (hcd : cd < psQ.length),
          |shellERI psP[ab].1 psP[ab].2 psQ[cd].1 psQ[cd].2 s0 s0 s0 s0| ≤
            quartets psP[ab].1 psP[ab].2 psQ[cd].1 psQ[cd].2 * dropMax m t e V) ∨
      n = psP.length * psQ.length ∧
        (∀ ab (hab : ab < psP.length) cd (hcd : cd < psQ.length),
          |(o (ab * psQ.length + cd)).val - shellERI psP[ab].1 psP[ab].2 psQ[cd].1 psQ[cd].2 s0 s0 s0 s0| ≤
            (10020 + 3 * (pairPrims psP[ab].1 psP[ab].2 * pairPrims psQ[cd].1 psQ[cd].2 - 1) : ℕ) * (1 / 2 ^ 52) *
              shellSize psP[ab].1 psP[ab].2 psQ[cd].1 psQ[cd].2 R 0 +
            quartets psP[ab].1 psP[ab].2 psQ[cd].1 psQ[cd].2 * dropMax m t e V) ∧
        ∀ k, psP.length * psQ.length ≤ k → o k = out k) := by
  have hl : 0 < sh.len := by omega
  exact screenedD_aux fused b al h sh h8 hsc val hb0 hb psP psQ hR0 hR hP hQ hbra hn
    (kb := 9910) (by norm_num) hx (fun c S T e hS hT hfx => C88_far (C87_ieee fused).1 (by rw [e]; exact hl) hS hT b.vec (by norm_num)
      fun ab hab cd hcd k hk l hl => (hfx ab hab cd hcd k hk l hl).le)
    hamP hamQ hm he hV hbP hbQ memP memQ ht0 ht outSize hout junk scratch out hod

/-- **C104, fast screening.** `C102_screened` for AVX512 builds: fill two lists of pairs of s shells with the fast
values and call `simint_compute_ostei` with a positive tolerance, everything on doubles. -/
theorem C104_screened (fused : Bool) (b : Build) (al : AllSum 8) (h : HSum 8) (sh : ShCfg) (h8 : sh.len = 8)
    (hsc : sh.screening = true) {big : ℝ} (hb0 : 0 ≤ big) (hb : big ≤ 2 ^ 500)
    (psP psQ : List (Shell ℝ × Shell ℝ)) {R : ℝ} (hR0 : 0 ≤ R) (hR : R ≤ 2 ^ 10) (hP : PairsModerate psP R)
    (hQ : PairsModerate psQ R) (hbra : BatchesFull sh.len psP)
    (hn : ∀ p ∈ psP, ∀ q ∈ psQ, pairPrims p.1 p.2 * pairPrims q.1 q.2 ≤ 2 ^ 49)
    (hx : ∀ p ∈ psP, ∀ q ∈ psQ, ArgsBelow p.1 p.2 q.1 q.2 R 36.5)
    (ham : ∀ p ∈ psP ++ psQ, p.1.am = 0 ∧ p.2.am = 0) {V : ℝ} (hV0 : 0 ≤ V) (hV1 : V ≤ 2 ^ 400)
    (hV : ∀ p ∈ psP ++ psQ, ∀ i < p.1.nprim, ∀ j < p.2.nprim, fastVal p.1 p.2 i j ≤ V)
    (memP memQ : ℕ → ℝ) {t : ℝ} (ht0 : 0 < t) (ht : t ≤ 2 ^ 500) (outSize : ℕ)
    (hout : psP.length * psQ.length ≤ outSize) (junk : VPar ℝ)
    (scratch : ℕ → ℕ → ℕ → VMem ℝ) (out : ℕ → Fd (ieee fused))
    (hod : ∀ k, IsDouble (ieee fused) (out k).val) :
    ∃ P Q n o, completeList sh (shOps (ieee fused)) (fastSchwarz (value (ieee fused))) big psP memP = some P ∧
      completeList sh (shOps (ieee fused)) (fastSchwarz (value (ieee fused))) big psQ memQ = some Q ∧
      flOsteiSsssDelayed (ieee fused) b al h ⟨sh.len, P.1, Q.1, t, outSize, junk, scratch⟩ out =
        some (n, fun k => ⟨Q.1.screen k⟩, o) ∧
      (n = -1 ∧ o = out ∧
        (∀ ab (hab : ab < psP.length) cd (hcd : cd < psQ.length),
          |shellERI psP[ab].1 psP[ab].2 psQ[cd].1 psQ[cd].2 s0 s0 s0 s0| ≤
            quartets psP[ab].1 psP[ab].2 psQ[cd].1 psQ[cd].2 * FlFast.dropMax t V) ∨
      n = psP.length * psQ.length ∧
        (∀ ab (hab : ab < psP.length) cd (hcd : cd < psQ.length),
          |(o (ab * psQ.length + cd)).val - shellERI psP[ab].1 psP[ab].2 psQ[cd].1 psQ[cd].2 s0 s0 s0 s0| ≤
            (336 + 3 * (pairPrims psP[ab].1 psP[ab].2 * pairPrims psQ[cd].1 psQ[cd].2 - 1) : ℕ) * (1 / 2 ^ 52) *
              shellSize psP[ab].1 psP[ab].2 psQ[cd].1 psQ[cd].2 R 0 +
            quartets psP[ab].1 psP[ab].2 psQ[cd].1 psQ[cd].2 * FlFast.dropMax t V) ∧
        ∀ k, psP.length * psQ.length ≤ k → o k = out k) := by
  have near : ∀ p ∈ psP ++ psQ, p.1.Moderate R ∧ p.2.Moderate R →
      NearBounding (value (ieee fused)) p.1 p.2 (1 + 1 / 2 ^ 33) (1 / 2 ^ 400) ((1 + 1 / 2 ^ 33) * V + 1 / 2 ^ 400) :=
    fun p hp hm => FlFast.C101_near fused hR hm.1 hm.2 (ham p hp).1 (ham p hp).2 (hV p hp)
  have q0 : ∀ A B C D : Shell ℝ, 0 ≤ quartets A B C D := fun A B C D => by unfold quartets; positivity
  obtain ⟨P, Q, n, o, h1, h2, h3, h4⟩ := C104_screened_any fused b al h sh h8 hsc (value (ieee fused)) hb0 hb psP
    psQ hR0 hR hP hQ hbra hn hx
    (fun p hp => by
      obtain ⟨a1, a2⟩ := ham p (List.mem_append_left _ hp)
      rw [a1, a2]; exact ⟨rfl, rfl⟩)
    (fun p hp => by
      obtain ⟨a1, a2⟩ := ham p (List.mem_append_right _ hp)
      rw [a1, a2]; exact ⟨rfl, rfl⟩)
    (m := 1 + 1 / 2 ^ 33) (e := 1 / 2 ^ 400) (V := (1 + 1 / 2 ^ 33) * V + 1 / 2 ^ 400) (by positivity) (by positivity)
    (by
      have a1 : (1 : ℝ) / 2 ^ 400 ≤ 1 := FlPrim.S_one 400
      have a2 : (V : ℝ) ≤ FlPrim.T 400 := hV1
      have a3 := FlPrim.T_one 400
      have a4 := FlPrim.T_twice (n := 400) (m := 401) rfl
      have a5 := FlPrim.T_twice (n := 401) (m := 402) rfl
      have a6 : FlPrim.T 402 ≤ 2 ^ 500 := FlPrim.T_le (by norm_num)
      refine le_trans ?_ a6
      generalize (1 : ℝ) / 2 ^ 400 = e at a1 ⊢
      linarith)
    (fun p hp => near p (List.mem_append_left _ hp) ⟨(hP p hp).1, (hP p hp).2.1⟩)
    (fun p hp => near p (List.mem_append_right _ hp) ⟨(hQ p hp).1, (hQ p hp).2.1⟩)
    memP memQ ht0 ht outSize hout junk scratch out hod
  have hd := FlFast.drop_le ht0.le hV0
  refine ⟨P, Q, n, o, h1, h2, h3, ?_⟩
  rcases h4 with ⟨e1, e2, e3⟩ | ⟨e1, e2, e3⟩
  · exact Or.inl ⟨e1, e2, fun ab hab cd hcd => (e3 ab hab cd hcd).trans
      (mul_le_mul_of_nonneg_left hd (q0 _ _ _ _))⟩
  · exact Or.inr ⟨e1, fun ab hab cd hcd => (e2 ab hab cd hcd).trans
      (add_le_add le_rfl (mul_le_mul_of_nonneg_left hd (q0 _ _ _ _))), e3⟩

/-- **C104, fast screening, arguments of the Boys function up to 10^8.** -/
theorem C104_screened_far (fused : Bool) (b : Build) (al : AllSum 8) (h : HSum 8) (sh : ShCfg) (h8 : sh.len = 8)
    (hsc : sh.screening = true) {big : ℝ} (hb0 : 0 ≤ big) (hb : big ≤ 2 ^ 500)
    (psP psQ : List (Shell ℝ × Shell ℝ)) {R : ℝ} (hR0 : 0 ≤ R) (hR : R ≤ 2 ^ 10) (hP : PairsModerate psP R)
    (hQ : PairsModerate psQ R) (hbra : BatchesFull sh.len psP)
    (hn : ∀ p ∈ psP, ∀ q ∈ psQ, pairPrims p.1 p.2 * pairPrims q.1 q.2 ≤ 2 ^ 49)
    (hx : ∀ p ∈ psP, ∀ q ∈ psQ, ArgsBelow p.1 p.2 q.1 q.2 R (10 ^ 8))
    (ham : ∀ p ∈ psP ++ psQ, p.1.am = 0 ∧ p.2.am = 0) {V : ℝ} (hV0 : 0 ≤ V) (hV1 : V ≤ 2 ^ 400)
    (hV : ∀ p ∈ psP ++ psQ, ∀ i < p.1.nprim, ∀ j < p.2.nprim, fastVal p.1 p.2 i j ≤ V)
    (memP memQ : ℕ → ℝ) {t : ℝ} (ht0 : 0 < t) (ht : t ≤ 2 ^ 500) (outSize : ℕ)
    (hout : psP.length * psQ.length ≤ outSize) (junk : VPar ℝ)
    (scratch : ℕ → ℕ → ℕ → VMem ℝ) (out : ℕ → Fd (ieee fused))
    (hod : ∀ k, IsDouble (ieee fused) (out k).val) :
    ∃ P Q n o, completeList sh (shOps (ieee fused)) (fastSchwarz (value (ieee fused))) big psP memP = some P ∧
      completeList sh (shOps (ieee fused)) (fastSchwarz (value (ieee fused))) big psQ memQ = some Q ∧
      flOsteiSsssDelayed (ieee fused) b al h ⟨sh.len, P.1, Q.1, t, outSize, junk, scratch⟩ out =
        some (n, fun k => ⟨Q.1.screen k⟩, o) ∧
      (n = -1 ∧ o = out ∧
        (∀ ab (hab : ab < psP.length) cd (hcd : cd < psQ.length),
          |shellERI psP[ab].1 psP[ab].2 psQ[cd].1 psQ[cd].2 s0 s0 s0 s0| ≤
            quartets psP[ab].1 psP[ab].2 psQ[cd].1 psQ[cd].2 * FlFast.dropMax t V) ∨
      n = psP.length * psQ.length ∧
        (∀ ab (hab : ab < psP.length) cd (hcd : cd < psQ.length),
          |(o (ab * psQ.length + cd)).val - shellERI psP[ab].1 psP[ab].2 psQ[cd].1 psQ[cd].2 s0 s0 s0 s0| ≤
            (10020 + 3 * (pairPrims psP[ab].1 psP[ab].2 * pairPrims psQ[cd].1 psQ[cd].2 - 1) : ℕ) * (1 / 2 ^ 52) *
              shellSize psP[ab].1 psP[ab].2 psQ[cd].1 psQ[cd].2 R 0 +
            quartets psP[ab].1 psP[ab].2 psQ[cd].1 psQ[cd].2 * FlFast.dropMax t V) ∧
        ∀ k, psP.length * psQ.length ≤ k → o k = out k) := by
  have near : ∀ p ∈ psP ++ psQ, p.1.Moderate R ∧ p.2.Moderate R →
      NearBounding (value (ieee fused)) p.1 p.2 (1 + 1 / 2 ^ 33) (1 / 2 ^ 400) ((1 + 1 / 2 ^ 33) * V + 1 / 2 ^ 400) :=
    fun p hp hm => FlFast.C101_near fused hR hm.1 hm.2 (ham p hp).1 (ham p hp).2 (hV p hp)
  have q0 : ∀ A B C D : Shell ℝ, 0 ≤ quartets A B C D := fun A B C D => by unfold quartets; positivity
  obtain ⟨P, Q, n, o, h1, h2, h3, h4⟩ := C104_screened_any_far fused b al h sh h8 hsc (value (ieee fused)) hb0 hb psP
    psQ hR0 hR hP hQ hbra hn hx
    (fun p hp => by
      obtain ⟨a1, a2⟩ := ham p (List.mem_append_left _ hp)
      rw [a1, a2]; exact ⟨rfl, rfl⟩)
    (fun p hp => by
      obtain ⟨a1, a2⟩ := ham p (List.mem_append_right _ hp)
      rw [a1, a2]; exact ⟨rfl, rfl⟩)
    (m := 1 + 1 / 2 ^ 33) (e := 1 / 2 ^ 400) (V := (1 + 1 / 2 ^ 33) * V + 1 / 2 ^ 400) (by positivity) (by positivity)
    (by
      have a1 : (1 : ℝ) / 2 ^ 400 ≤ 1 := FlPrim.S_one 400
      have a2 : (V : ℝ) ≤ FlPrim.T 400 := hV1
      have a3 := FlPrim.T_one 400
      have a4 := FlPrim.T_twice (n := 400) (m := 401) rfl
      have a5 := FlPrim.T_twice (n := 401) (m := 402) rfl
      have a6 : FlPrim.T 402 ≤ 2 ^ 500 := FlPrim.T_le (by norm_num)
      refine le_trans ?_ a6
      generalize (1 : ℝ) / 2 ^ 400 = e at a1 ⊢
      linarith)
    (fun p hp => near p (List.mem_append_left _ hp) ⟨(hP p hp).1, (hP p hp).2.1⟩)
    (fun p hp => near p (List.mem_append_right _ hp) ⟨(hQ p hp).1, (hQ p hp).2.1⟩)
    memP memQ ht0 ht outSize hout junk scratch out hod
  have hd := FlFast.drop_le ht0.le hV0
  refine ⟨P, Q, n, o, h1, h2, h3, ?_⟩
  rcases h4 with ⟨e1, e2, e3⟩ | ⟨e1, e2, e3⟩
  · exact Or.inl ⟨e1, e2, fun ab hab cd hcd => (e3 ab hab cd hcd).trans
      (mul_le_mul_of_nonneg_left hd (q0 _ _ _ _))⟩
  · exact Or.inr ⟨e1, fun ab hab cd hcd => (e2 ab hab cd hcd).trans
      (add_le_add le_rfl (mul_le_mul_of_nonneg_left hd (q0 _ _ _ _))), e3⟩

/-! ### The hypotheses can be met -/

/-- One pair of s shells, tolerance 10^-10, fast screening, function of AVX512 builds. -/
example (fused : Bool) (b : Build) (junk : VPar ℝ) (scratch : ℕ → ℕ → ℕ → VMem ℝ)
    (mem : ℕ → ℝ) (out : ℕ → Fd (ieee fused))
    (hod : ∀ k, IsDouble (ieee fused) (out k).val) :
    let A := sShell 1 0
    let B := sShell 2 1
    ∃ P n o, completeList ⟨8, true, false⟩ (shOps (ieee fused)) (fastSchwarz (value (ieee fused))) 1e99 [(A, B)] mem =
        some P ∧
      flOsteiSsssDelayed (ieee fused) b (.avx512 halves8) halves8 ⟨8, P.1, P.1, 1 / 10 ^ 10, 1, junk, scratch⟩ out =
        some (n, fun k => ⟨P.1.screen k⟩, o) ∧
      (n = 1 → |(o 0).val - shellERI A B A B s0 s0 s0 s0| ≤
        336 * (1 / 2 ^ 52) * shellSize A B A B 1 0 + 1.0001 / 10 ^ 10) := by
  intro A B
  have hps : PairsModerate [(A, B)] 1 := by
    intro p hp
    rw [List.mem_singleton] at hp
    subst hp
    exact ⟨sShell_moderate 1 (.inl rfl), sShell_moderate 2 (.inr rfl), fun h => absurd h (by decide)⟩
  have big : (1e99 : ℝ) ≤ 2 ^ 500 := by
    calc (1e99 : ℝ) = (10 ^ 33) ^ 3 := by norm_num
      _ ≤ (2 ^ 110) ^ 3 := pow_le_pow_left₀ (by norm_num) (by norm_num) 3
      _ = 2 ^ 330 := by rw [← pow_mul]
      _ ≤ 2 ^ 500 := pow_le_pow_right₀ (by norm_num) (by norm_num)
  have two : (1 : ℝ) ≤ 2 ^ 500 := one_le_pow₀ (by norm_num)
  have two' : (2 : ℝ) ^ 6 ≤ 2 ^ 400 := pow_le_pow_right₀ (by norm_num) (by norm_num)
  have one : ∀ p ∈ [(A, B)] ++ [(A, B)], p = (A, B) := by simp
  obtain ⟨P, Q, n, o, h1, h2, h3, h4⟩ := C104_screened fused b (.avx512 halves8) halves8 ⟨8, true, false⟩ rfl rfl
    (by norm_num) big [(A, B)] [(A, B)] zero_le_one (by norm_num) hps hps
    (batchesFull_one (by rw [List.length_singleton]; decide))
    (fun p hp q hq => by
      rw [List.mem_singleton] at hp hq
      subst hp hq
      have : pairPrims A B = 1 := by decide
      simp only [this]
      norm_num)
    (fun p hp q hq => by
      rw [List.mem_singleton] at hp hq
      subst hp hq
      exact sShell_args)
    (fun p hp => by rw [one p hp]; exact ⟨rfl, rfl⟩) (V := 32) (by norm_num) (le_trans (by norm_num) two')
    (fun p hp i hi j hj => by
      rw [one p hp] at hi hj ⊢
      have ok : ∀ {X : Shell ℝ}, X.Moderate 1 → X.OK := fun m =>
        ⟨m.prims, fun k hk => lt_of_lt_of_le (by positivity) (m.lo k hk)⟩
      rw [C70_value (ok (sShell_moderate 1 (.inl rfl))) (ok (sShell_moderate 2 (.inr rfl))) hi hj]
      exact (sShell_self (A, B) (by simp [A, B]) i hi j hj).2.2 ⟨0, 0, 0⟩ ⟨0, 0, 0⟩ ⟨le_rfl, le_rfl, le_rfl, rfl⟩
        ⟨le_rfl, le_rfl, le_rfl, rfl⟩)
    mem mem (t := 1 / 10 ^ 10) (by norm_num)
    (le_trans (by norm_num) two) 1 (by simp) junk scratch out hod
  rw [h1] at h2
  obtain rfl := Option.some.inj h2
  refine ⟨P, n, o, h1, h3, fun hn => ?_⟩
  rcases h4 with ⟨e, -⟩ | ⟨-, h, -⟩
  · rw [hn] at e
    exact absurd e (by decide)
  · have := h 0 (by simp) 0 (by simp)
    have e1 : quartets A B A B = 1 := by simp [quartets, A, B, sShell]
    have e2 : 336 + 3 * (pairPrims A B * pairPrims A B - 1) = 336 := by decide
    simp only [List.getElem_cons_zero, e1, e2, zero_mul, zero_add, one_mul] at this
    refine this.trans (add_le_add (by push_cast; exact le_rfl) ?_)
    unfold FlFast.dropMax
    norm_num

end Simint
