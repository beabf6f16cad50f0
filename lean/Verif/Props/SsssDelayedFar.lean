import Verif.Props.SsssDelayed

/-! # C104 with arguments of the Boys function up to 10^8 -/

set_option autoImplicit false

open Real Finset

namespace Simint

open FlBoys (Arith ieee rn)
open FlPrim (shOps)
open FlFast (s0)

/-- **C104, from distant shells.** `C104_shells` with arguments of the Boys function up to 10^8, for the function that AVX512 builds compile for four s shells: fill two lists of
pairs of s shells and compute all integrals without screening, everything on doubles. -/
theorem C104_shells_far (fused : Bool) (b : Build) (al : AllSum 8) (h : HSum 8) (sh : ShCfg) (h8 : sh.len = 8)
    (scr : PrimScreen ℝ)
    (val : Shell ℝ → Shell ℝ → ℕ → ℕ → ℝ) (hscr : sh.screening = true → ExactScr scr val) (big : ℝ)
    (psP psQ : List (Shell ℝ × Shell ℝ)) {R : ℝ} (hR0 : 0 ≤ R) (hR : R ≤ 2 ^ 10) (hP : PairsModerate psP R)
    (hQ : PairsModerate psQ R) (hbra : BatchesFull sh.len psP)
    (hn : ∀ p ∈ psP, ∀ q ∈ psQ, pairPrims p.1 p.2 * pairPrims q.1 q.2 ≤ 2 ^ 49)
    (hx : ∀ p ∈ psP, ∀ q ∈ psQ, ArgsBelow p.1 p.2 q.1 q.2 R (10 ^ 8))
    (memP memQ : ℕ → ℝ) (tol : ℝ) (htol : tol ≤ 0) (outSize : ℕ)
    (hout : psP.length * psQ.length ≤ outSize) (junk : VPar ℝ)
    (scratch : ℕ → ℕ → ℕ → VMem ℝ) (out : ℕ → Fd (ieee fused)) (hod : ∀ k, IsDouble (ieee fused) (out k).val) :
    ∃ P Q o, completeList sh (shOps (ieee fused)) scr big psP memP = some P ∧
      completeList sh (shOps (ieee fused)) scr big psQ memQ = some Q ∧
      flSsssDelayed (ieee fused) b al h ⟨sh.len, P.1, Q.1, tol, outSize, junk, scratch⟩ out
        = some (psP.length * psQ.length, fun k => ⟨Q.1.screen k⟩, o) ∧
      (∀ ab (hab : ab < psP.length) cd (hcd : cd < psQ.length),
        |(o (ab * psQ.length + cd)).val - shellERI psP[ab].1 psP[ab].2 psQ[cd].1 psQ[cd].2 s0 s0 s0 s0| ≤
          (10020 + 3 * (pairPrims psP[ab].1 psP[ab].2 * pairPrims psQ[cd].1 psQ[cd].2 - 1) : ℕ) * (1 / 2 ^ 52) *
            shellSize psP[ab].1 psP[ab].2 psQ[cd].1 psQ[cd].2 R 0) ∧
      ∀ k, psP.length * psQ.length ≤ k → o k = out k := by
  have hl : 0 < sh.len := by omega
  have hn1 : ncartQ ssss = 1 := by decide
  obtain ⟨P, eP, S, fP, -⟩ := C89_list fused sh hl scr val hscr big psP hR hP memP
  obtain ⟨Q, eQ, T, fQ, -⟩ := C89_list fused sh hl scr val hscr big psQ hR hQ memQ
  have hF := (C87_ieee fused).1
  have hst := (C87_ieee fused).2
  let c : Call ℝ := ⟨sh.len, P.1, Q.1, tol, outSize, junk, scratch⟩
  have hc : CallOK ssss c := ⟨hl, fun s hs => by
      have hs' : s < psQ.length := by rw [← fQ.nclip]; exact hs
      show 0 < Q.1.nprim12 s
      rw [fQ.count s hs']
      exact pairPrims_pos (hQ _ (List.getElem_mem hs')).1.prims (hQ _ (List.getElem_mem hs')).2.1.prims,
    fP.tight, fQ.padded, fP.pos, fQ.pos, by
      show P.1.nclip * Q.1.nclip * _ ≤ _
      rw [fP.nclip, fQ.nclip, hn1, mul_one]
      exact hout⟩
  have htp : ∀ s < c.P.nclip, tightStart c.P.nprim12 s = paddedStart sh.len c.P.nprim12 s :=
    fP.starts hl hbra
  have hS : HoldsFl (ieee fused) c.P (tightStart c.P.nprim12) S R := by
    refine ⟨fP.holds.AB, fP.holds.pos, fun s hs k hk => ?_, fP.holds.size⟩
    rw [htp s hs]
    exact fP.holds.prims s hs k hk
  have hT : HoldsFl (ieee fused) c.Q (paddedStart c.len c.Q.nprim12) T R := fQ.holds
  have hfx := fx_shells (c := c) hF fP fQ htp rfl (X := 10 ^ 8) fun ab hab cd hcd =>
    hx _ (List.getElem_mem hab) _ (List.getElem_mem hcd)
  have hn' : ∀ ab < c.P.nclip, ∀ cd < c.Q.nclip, c.P.nprim12 ab * c.Q.nprim12 cd ≤ 2 ^ 49 := by
    intro ab hab cd hcd
    have hab' : ab < psP.length := by rw [← fP.nclip]; exact hab
    have hcd' : cd < psQ.length := by rw [← fQ.nclip]; exact hcd
    show P.1.nprim12 ab * Q.1.nprim12 cd ≤ _
    rw [fP.count ab hab', fQ.count cd hcd']
    exact hn _ (List.getElem_mem hab') _ (List.getElem_mem hcd')
  obtain ⟨o, r, h1, h2⟩ := C104_function hF hst b (c := c) h8 al h hc hS hT (kb := 9910) (by norm_num)
    (C88_far hF hl hS hT b.vec (by norm_num) fun a b' c' d k l m n => (hfx a b' c' d k l m n).le) hn'
    (fun ab hab cd hcd => by
      have := sizeMax_moderate (L := 0) hF hR0 hR (fP.mods ab hab) (fQ.mods cd hcd) (hn' ab hab cd hcd) (by norm_num)
      rw [pow_zero, mul_one] at this
      exact this)
    (fun ht => absurd ht (not_lt.2 htol)) out hod
  have e1 : c.P.nclip = psP.length := fP.nclip
  have e2 : c.Q.nclip = psQ.length := fQ.nclip
  rw [e1, e2] at r h2
  refine ⟨P, Q, o, eP, eQ, r, fun ab hab cd hcd => ?_, h2⟩
  have h := h1 ab (by rw [e1]; exact hab) cd (by rw [e2]; exact hcd)
  rw [exactERI_shells (c := c) htol fP fQ hab hcd (hP _ (List.getElem_mem hab)).2.2
    (hQ _ (List.getElem_mem hcd)).2.2, sizeMax_shells (c := c) htol fP fQ hab hcd, e2] at h
  have n1 : c.P.nprim12 ab = pairPrims psP[ab].1 psP[ab].2 := fP.count ab hab
  have n2 : c.Q.nprim12 cd = pairPrims psQ[cd].1 psQ[cd].2 := fQ.count cd hcd
  rw [n1, n2] at h
  exact h

/-- **C104, from basis sets, distant shells.** Normalise, fill two lists of pairs of s shells, run the function with the buffer: the
error bound of `C96_basis_far` holds. -/
theorem C104_basis_far (fused : Bool) (b : Build) (al : AllSum 8) (h : HSum 8) (sh : ShCfg) (h8 : sh.len = 8)
    (scr : PrimScreen ℝ)
    (val : Shell ℝ → Shell ℝ → ℕ → ℕ → ℝ) (hscr : sh.screening = true → ExactScr scr val) (big : ℝ)
    {G : List (Shell ℝ)} {K : ℕ} {R : ℝ} (hR0 : 0 ≤ R) (hR : R ≤ 2 ^ 10) (hG : BasisIn G K R)
    (prP prQ : List (ℕ × ℕ)) (hP : InArray prP G.length) (hQ : InArray prQ G.length)
    (hbra : BatchesFull sh.len (pairsAt G prP))
    (hn : ∀ p ∈ pairsAt G prP, ∀ q ∈ pairsAt G prQ, pairPrims p.1 p.2 * pairPrims q.1 q.2 ≤ 2 ^ 49)
    (hx : ∀ p ∈ pairsAt G prP, ∀ q ∈ pairsAt G prQ, ArgsBelow p.1 p.2 q.1 q.2 R (10 ^ 8))
    (memP memQ : ℕ → ℝ) (tol : ℝ) (htol : tol ≤ 0) (outSize : ℕ)
    (hout : prP.length * prQ.length ≤ outSize) (junk : VPar ℝ)
    (scratch : ℕ → ℕ → ℕ → VMem ℝ) (out : ℕ → Fd (ieee fused)) (hod : ∀ k, IsDouble (ieee fused) (out k).val) :
    ∃ G' P Q o, FlNorm.normalizeShells (ieee fused) G = some G' ∧
      completeList sh (shOps (ieee fused)) scr big (pairsAt G' prP) memP = some P ∧
      completeList sh (shOps (ieee fused)) scr big (pairsAt G' prQ) memQ = some Q ∧
      flSsssDelayed (ieee fused) b al h ⟨sh.len, P.1, Q.1, tol, outSize, junk, scratch⟩ out
        = some (prP.length * prQ.length, fun k => ⟨Q.1.screen k⟩, o) ∧
      (∀ ab (hab : ab < prP.length) cd (hcd : cd < prQ.length),
        BasisError G K R ssss 9910 prP[ab] prQ[cd] s0 s0 s0 s0 (o (ab * prQ.length + cd)).val) ∧
      ∀ k, prP.length * prQ.length ≤ k → o k = out k := by
  obtain ⟨G', eG, -, hh⟩ := normalise_basis fused hG.norm
  have hn' := transport hh (fun A B C D => pairPrims A B * pairPrims C D ≤ 2 ^ 49)
    (fun _ _ _ _ _ _ _ _ hh => hh) hP hQ hn
  have hx' := transport hh (fun A B C D => ArgsBelow A B C D R (10 ^ 8)) (fun _ _ _ _ _ _ _ _ hh => hh) hP hQ hx
  have lP : (pairsAt G' prP).length = prP.length := List.length_map _
  have lQ : (pairsAt G' prQ).length = prQ.length := List.length_map _
  obtain ⟨P, Q, o, eP, eQ, r, h1, h2⟩ := C104_shells_far fused b al h sh h8 scr val hscr big (pairsAt G' prP)
    (pairsAt G' prQ) hR0 hR (pairs_moderate hG hh hP) (pairs_moderate hG hh hQ) (full_transport hh hP hbra) hn' hx'
    memP memQ tol htol outSize (by rw [lP, lQ]; exact hout) junk scratch out hod
  rw [lP, lQ] at r h2
  refine ⟨G', P, Q, o, eG, eP, eQ, r, fun ab hab cd hcd => ?_, h2⟩
  have t := h1 ab (by rw [lP]; exact hab) cd (by rw [lQ]; exact hcd)
  simp only [pairsAt, List.getElem_map, List.length_map] at t
  refine finish hG hh (hP _ (List.getElem_mem hab)) (hQ _ (List.getElem_mem hcd)) hR0 (t.trans ?_)
  rw [show (min ssss.a ssss.b + min ssss.c ssss.d).toNat = 0 from rfl, pow_zero, mul_one,
    show totalL ssss = 0 from rfl]
  have hs := nonneg_of_mul_nonneg_right ((abs_nonneg _).trans t)
    (mul_pos (Nat.cast_pos.2 (by omega)) (by norm_num))
  refine mul_le_mul_of_nonneg_right (mul_le_mul_of_nonneg_right (Nat.cast_le.2 ?_) (by norm_num)) hs
  unfold errCount
  rw [show totalL ssss = 0 from rfl]
  omega

/-! ### The hypotheses can be met -/

theorem sShell_far (ptr : ℕ) {x : ℝ} (hx : x = 0 ∨ x = 16) : (sShell ptr x).Moderate 16 := by
  refine ⟨one_pos, fun i _ => by simp only [sShell]; norm_num, fun i _ => by simp only [sShell]; norm_num,
    fun i _ => by simp only [sShell]; norm_num, fun d => ?_, fun d => ?_⟩
  · simp only [sShell]; rcases hx with rfl | rfl <;> split_ifs <;> norm_num
  · have h1 : rn 16 = 16 := by simpa using rn_int 16 0 (by norm_num) (by norm_num)
    show rn (if d = .x then x else 0) = if d = .x then x else 0
    rcases hx with rfl | rfl <;> split_ifs
    · exact rn_zero
    · exact rn_zero
    · exact h1
    · exact rn_zero

/-- A pair of s shells at the origin and a pair at distance 16: the argument of the Boys function is 256. -/
example (fused : Bool) (b : Build) (junk : VPar ℝ) (scratch : ℕ → ℕ → ℕ → VMem ℝ)
    (mem : ℕ → ℝ) (out : ℕ → Fd (ieee fused)) (hod : ∀ k, IsDouble (ieee fused) (out k).val) :
    let A := sShell 1 0
    let B := sShell 2 0
    let C := sShell 3 16
    let D := sShell 4 16
    shellArg A B C D 0 0 0 0 = 256 ∧
    ∃ P Q o, completeList ⟨8, false, false⟩ (shOps (ieee fused)) noScreen 0 [(A, B)] mem = some P ∧
      completeList ⟨8, false, false⟩ (shOps (ieee fused)) noScreen 0 [(C, D)] mem = some Q ∧
      flSsssDelayed (ieee fused) b (.avx512 halves8) halves8 ⟨8, P.1, Q.1, 0, 1, junk, scratch⟩ out =
        some (1, fun k => ⟨Q.1.screen k⟩, o) ∧
      |(o 0).val - shellERI A B C D s0 s0 s0 s0| ≤ 10020 * (1 / 2 ^ 52) * shellSize A B C D 16 0 := by
  intro A B C D
  have red : ∀ i j k l, redExp A B C D i j k l = 1 := fun i j k l => by
    simp only [redExp, sShell, A, B, C, D]; norm_num
  have arg : ∀ i j k l, shellArg A B C D i j k l = 256 := fun i j k l => by
    rw [shellArg, red]
    simp only [dist2, FlPrim.center, sShell, A, B, C, D]
    norm_num
    rw [if_neg (by decide), if_neg (by decide)]
    norm_num
  refine ⟨arg 0 0 0 0, ?_⟩
  have np : pairPrims A B = 1 := by decide
  have nq : pairPrims C D = 1 := by decide
  obtain ⟨P, Q, o, h1, h2, h3, h4, -⟩ := C104_shells_far fused b (.avx512 halves8) halves8 ⟨8, false, false⟩ rfl noScreen
    (fun _ _ _ _ => 0) (fun h => absurd h (by decide)) 0 [(A, B)] [(C, D)] (R := 16) (by norm_num) (by norm_num)
    (fun p hp => by
      rw [List.mem_singleton.1 hp]
      exact ⟨sShell_far 1 (.inl rfl), sShell_far 2 (.inl rfl), fun h => absurd h (by decide)⟩)
    (fun p hp => by
      rw [List.mem_singleton.1 hp]
      exact ⟨sShell_far 3 (.inr rfl), sShell_far 4 (.inr rfl), fun h => absurd h (by decide)⟩)
    (batchesFull_one (by simp))
    (fun p hp q hq => by rw [List.mem_singleton.1 hp, List.mem_singleton.1 hq]; simp only [np, nq]; norm_num)
    (fun p hp q hq => by
      rw [List.mem_singleton.1 hp, List.mem_singleton.1 hq]
      intro i _ j _ k _ l _
      have e1 : (1 : ℝ) / 2 ^ 800 ≤ 1 := by
        rw [div_le_one (by positivity)]; exact one_le_pow₀ (by norm_num)
      have e0 : (0 : ℝ) ≤ 1 / 2 ^ 800 := by positivity
      simp only
      rw [arg, shellArgErr, red, FlPrim.diffMax]
      nlinarith)
    mem mem 0 le_rfl 1 (by simp) junk scratch out hod
  refine ⟨P, Q, o, h1, h2, h3, ?_⟩
  have := h4 0 (by simp) 0 (by simp)
  simpa [np, nq] using this

end Simint
