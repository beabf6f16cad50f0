import Verif.FlSsssDelayed
import Verif.SsssDelayedLemmas
import Verif.Props.FlSsss
import Verif.Props.Hsum

/-!
# Property C104: the hand-written (ss|ss) function of AVX512 builds

This function collects vectors in a buffer and adds them to the output later.  The theorems of C103 about the buffer say
nothing about its place in the loops; here is the complete function.
-/

set_option autoImplicit false

open Real Finset

namespace Simint

open FlBoys (Arith ieee)
open FlPrim (shOps)
open FlFast (s0)

section
variable {F : Arith}

/-- **C104, sums.** For every stage that computes primitive integrals lane by lane, all lists and tolerances (screening
values behind the batches zero, or no screening): the complete function with the buffer succeeds, writes nothing
outside its output, does not change the lists, and stores for each pair of pairs a rounded sum of exactly the values
of its evaluated primitive quartets, each once, in some order and grouping. -/
theorem C104_sums (hS : Stable F) (e : DEnv (Fd F)) (h8 : e.len = 8) (al : AllSum 8) (h : HSum 8) (final : QAM)
    (prim : ℕ → ℕ → Fd F → QAM → ℕ → Fd F) (hprim : LaneWise e prim) (hok : ListsOK e) (hn : ncartQ final = 1)
    (htop : e.tops = [final]) (hsize : e.P.nclip * e.Q.nclip ≤ e.size final)
    (hz : e.check → ∀ k, Tail e k → e.Q.screen k = 0) (out : ℕ → Fd F) (hout : ∀ k, IsDouble F (out k).val) :
    ∃ res, runSsssDelayed e al h final out = some (e.P.nclip * e.Q.nclip, e.Q.screen, res) ∧
      (∀ ab < e.P.nclip, ∀ cd < e.Q.nclip,
        SumOf F (res (ab * e.Q.nclip + cd)).val (quartetValues e prim ab cd final 0)) ∧
      ∀ k, e.P.nclip * e.Q.nclip ≤ k → res k = out k := by
  obtain ⟨r, h1, h2, h3⟩ := C25_direct (trEnv e) final (trPrim prim) (tr_laneWise e prim hprim)
    (tr_lists e hok) htop (by rw [hn, mul_one]; exact hsize) (fun k => ⟨0, {(out k).val}⟩)
  have h4 : runSsss (trEnv e) final (fun k => ⟨0, {(out k).val}⟩) = some (_, (trEnv e).Q.screen, r) :=
    runSsssBy_same (trEnv e) (.lanes (trEnv e).len) final hn htop hok.len
      (fun hc k hk => by
        have := hz ((tr_check e).1 hc) k hk
        show Tr.of (e.Q.screen k).val = 0
        rw [this]
        rfl) _ _ r ((congrFun (congrFun (runDirectBy_lanes (trEnv e)) final) _).trans h1)
  obtain ⟨scr, res, g1, g2, g3⟩ := runSsssDelayed_rel h8 al hprim hn htop h out _ (fun k => SumOf.one _) _ _ _ h4
  have hs : scr = e.Q.screen := funext fun k => Fd.val_injective (congrArg Tr.num (g2 k)).symm
  refine ⟨res, by rw [g1, hs]; rfl, fun ab hab cd hcd => ?_, fun k hk => ?_⟩
  · have h6 := g3 (ab * e.Q.nclip + cd)
    have h7 := h2 ab hab cd hcd 0 (by omega)
    rw [hn, mul_one, add_zero] at h7
    rw [show r (ab * e.Q.nclip + cd) = _ from h7, tr_contracted] at h6
    exact h6
  · have h6 := g3 k
    rw [h3 k (by rw [hn, mul_one]; exact hk)] at h6
    exact Fd.val_injective (sumOf_single hS h6 (hout k) rfl)

end

/-- The searches give four s shells a function whose primitive stage is the one of the hand-written function. -/
theorem flEnv_ssss (F : Arith) (b : Build) {g : GenCfg} (hg : g.OK) (c : Call ℝ) :
    ∃ H A, g.algos ssss = some (H, A) ∧ AlgosOK g (hrrDirections ssss) [ssss] 0 H A ∧ H.top = [ssss] ∧
      flEnv F b g ssss c H A = flSsssEnv F b c := by
  obtain ⟨H, A, e, hA, h1, h2, h3⟩ := ssss_algos hg
  have hm := hA.mreq
  refine ⟨H, A, e, hA, h2, ?_⟩
  have hv : flVec F b g A (totalL ssss) c = flSsssVec F b c := by
    funext i j pf
    unfold flVec flSsssVec
    rw [show totalL ssss = 0 from rfl]
    simp only [ssss_lane h3 hm, Option.isSome_map]
    congr 2
    funext n t k
    cases FlBoys.split F b.vec c.len (fun w => flSsssArg F c.P c.Q i (j + w)) 0 0 n <;> rfl
  unfold flEnv flSsssEnv
  rw [hv]
  simp only [h1, h2]
  rfl

/-- **C104, error.** The integrals that the function with the buffer stores have the error bound of `C88_function`. -/
theorem C104_function {F : Arith} (hF : Sound F) (hst : Stable F) (b : Build) {c : Call ℝ} (h8 : c.len = 8)
    (al : AllSum 8) (h : HSum 8) (hc : CallOK ssss c)
    {S T : ℕ → PairData} {R : ℝ} (hS : HoldsFl F c.P (tightStart c.P.nprim12) S R)
    (hT : HoldsFl F c.Q (paddedStart c.len c.Q.nprim12) T R) {kb : ℕ} (hkb : kb ≤ 2 ^ 19)
    (hboys : BoysOK F c b.vec 0 kb)
    (hn : ∀ ab < c.P.nclip, ∀ cd < c.Q.nclip, c.P.nprim12 ab * c.Q.nprim12 cd ≤ 2 ^ 49)
    (hov : ∀ ab < c.P.nclip, ∀ cd < c.Q.nclip, 4 * sizeMax F c S T R ab cd 0 ≤ 2 ^ 1022)
    (hz : 0 < c.tol → ∀ k < c.Q.alloc, BetweenPairs c.len c.Q k → c.Q.screen k = 0)
    (out : ℕ → Fd F) (hout : ∀ k, IsDouble F (out k).val) :
    ∃ o, flSsssDelayed F b al h c out = some (c.P.nclip * c.Q.nclip, fun k => ⟨c.Q.screen k⟩, o) ∧
      (∀ ab < c.P.nclip, ∀ cd < c.Q.nclip,
        |(o (ab * c.Q.nclip + cd)).val - exactERI F c S T ab cd s0 s0 s0 s0| ≤
          (kb + 110 + 3 * (c.P.nprim12 ab * c.Q.nprim12 cd - 1) : ℕ) * (1 / 2 ^ 52) *
            sizeMax F c S T R ab cd 0) ∧
      ∀ k, c.P.nclip * c.Q.nclip ≤ k → o k = out k := by
  obtain ⟨g, hg⟩ : ∃ g : GenCfg, g.OK :=
    ⟨⟨0, 0, 0, 0, id, id, id⟩, fun _ _ => Iff.rfl, fun _ _ => Iff.rfl, fun _ _ => Iff.rfl⟩
  obtain ⟨H, A, e, hA, ht, he⟩ := flEnv_ssss F b hg c
  have hn1 : ncartQ ssss = 1 := by decide
  have hl := flEnv_laneWise (b := b) hF hst hg ssss_classOK (by decide) hA hc.braPos hc.ketPos
  rw [he] at hl
  have hok : ListsOK (flSsssEnv F b c) :=
    ⟨hc.len, hc.prims, hc.bra, hc.ket, List.nodup_singleton _, fun t ht => by
      rw [List.mem_singleton.1 ht, hn1]
      exact one_pos⟩
  have hout' := hc.out
  rw [hn1, mul_one] at hout'
  obtain ⟨o, h1, h2, h3⟩ := C104_sums hst (flSsssEnv F b c) h8 al h ssss _ hl hok hn1 rfl hout' (fun hck k hk => by
    obtain ⟨k1, k2⟩ := tail_between hc.len hc.ket hk
    exact congrArg Fd.mk (hz hck k k1 k2)) out hout
  refine ⟨o, h1, fun ab hab cd hcd => ?_, h3⟩
  have hs := h2 ab hab cd hcd
  rw [← he] at hs
  have i0 : Qrt.index psi4List ⟨⟨s0, s0⟩, ⟨s0, s0⟩, 0⟩ = 0 := by decide
  have hv : (⟨⟨s0, s0⟩, ⟨s0, s0⟩, 0⟩ : Qrt).Valid := by decide
  have h4 : (⟨⟨s0, s0⟩, ⟨s0, s0⟩, 0⟩ : Qrt).am4 = ssss := by decide
  have := (contracted_err hF hst hg ssss_classOK (by decide) hc e hA hS hT hkb hboys hab hcd (hn ab hab cd hcd)
    (hov ab hab cd hcd) hv (by rw [h4, ht]; simp) (by rw [h4, i0]; exact hs)).2
  exact this

/-- **C104, from shells.** `C89_shells` for the function that AVX512 builds compile for four s shells: fill two lists of
pairs of s shells and compute all integrals without screening, everything on doubles. -/
theorem C104_shells (fused : Bool) (b : Build) (al : AllSum 8) (h : HSum 8) (sh : ShCfg) (h8 : sh.len = 8)
    (scr : PrimScreen ℝ)
    (val : Shell ℝ → Shell ℝ → ℕ → ℕ → ℝ) (hscr : sh.screening = true → ExactScr scr val) (big : ℝ)
    (psP psQ : List (Shell ℝ × Shell ℝ)) {R : ℝ} (hR0 : 0 ≤ R) (hR : R ≤ 2 ^ 10) (hP : PairsModerate psP R)
    (hQ : PairsModerate psQ R) (hbra : BatchesFull sh.len psP)
    (hn : ∀ p ∈ psP, ∀ q ∈ psQ, pairPrims p.1 p.2 * pairPrims q.1 q.2 ≤ 2 ^ 49)
    (hx : ∀ p ∈ psP, ∀ q ∈ psQ, ArgsBelow p.1 p.2 q.1 q.2 R 36.5)
    (memP memQ : ℕ → ℝ) (tol : ℝ) (htol : tol ≤ 0) (outSize : ℕ)
    (hout : psP.length * psQ.length ≤ outSize) (junk : VPar ℝ)
    (scratch : ℕ → ℕ → ℕ → VMem ℝ) (out : ℕ → Fd (ieee fused)) (hod : ∀ k, IsDouble (ieee fused) (out k).val) :
    ∃ P Q o, completeList sh (shOps (ieee fused)) scr big psP memP = some P ∧
      completeList sh (shOps (ieee fused)) scr big psQ memQ = some Q ∧
      flSsssDelayed (ieee fused) b al h ⟨sh.len, P.1, Q.1, tol, outSize, junk, scratch⟩ out
        = some (psP.length * psQ.length, fun k => ⟨Q.1.screen k⟩, o) ∧
      (∀ ab (hab : ab < psP.length) cd (hcd : cd < psQ.length),
        |(o (ab * psQ.length + cd)).val - shellERI psP[ab].1 psP[ab].2 psQ[cd].1 psQ[cd].2 s0 s0 s0 s0| ≤
          (336 + 3 * (pairPrims psP[ab].1 psP[ab].2 * pairPrims psQ[cd].1 psQ[cd].2 - 1) : ℕ) * (1 / 2 ^ 52) *
            shellSize psP[ab].1 psP[ab].2 psQ[cd].1 psQ[cd].2 R 0) ∧
      ∀ k, psP.length * psQ.length ≤ k → o k = out k := by
  have hl : 0 < sh.len := by omega
  have hn1 : ncartQ ssss = 1 := by decide
  obtain ⟨P, eP, S, fP, -⟩ := C89_list fused sh hl scr val hscr big psP hR hP memP
  obtain ⟨Q, eQ, T, fQ, -⟩ := C89_list fused sh hl scr val hscr big psQ hR hQ memQ
  have hF := (C87_ieee fused).1
  have hst := (C87_ieee fused).2
  let c : Call ℝ := ⟨sh.len, P.1, Q.1, tol, outSize, junk, scratch⟩
  have hc : CallOK ssss c := ⟨hl, fun s hs => by
      have hs' : s < psQ.length := by rw [← fQ.nclip]; exact hs
      show 0 < Q.1.nprim12 s
      rw [fQ.count s hs']
      exact pairPrims_pos (hQ _ (List.getElem_mem hs')).1.prims (hQ _ (List.getElem_mem hs')).2.1.prims,
    fP.tight, fQ.padded, fP.pos, fQ.pos, by
      show P.1.nclip * Q.1.nclip * _ ≤ _
      rw [fP.nclip, fQ.nclip, hn1, mul_one]
      exact hout⟩
  have htp : ∀ s < c.P.nclip, tightStart c.P.nprim12 s = paddedStart sh.len c.P.nprim12 s :=
    fP.starts hl hbra
  have hS : HoldsFl (ieee fused) c.P (tightStart c.P.nprim12) S R := by
    refine ⟨fP.holds.AB, fP.holds.pos, fun s hs k hk => ?_, fP.holds.size⟩
    rw [htp s hs]
    exact fP.holds.prims s hs k hk
  have hT : HoldsFl (ieee fused) c.Q (paddedStart c.len c.Q.nprim12) T R := fQ.holds
  have hfx := fx_shells (c := c) hF fP fQ htp rfl (X := 36.5) fun ab hab cd hcd =>
    hx _ (List.getElem_mem hab) _ (List.getElem_mem hcd)
  have hn' : ∀ ab < c.P.nclip, ∀ cd < c.Q.nclip, c.P.nprim12 ab * c.Q.nprim12 cd ≤ 2 ^ 49 := by
    intro ab hab cd hcd
    have hab' : ab < psP.length := by rw [← fP.nclip]; exact hab
    have hcd' : cd < psQ.length := by rw [← fQ.nclip]; exact hcd
    show P.1.nprim12 ab * Q.1.nprim12 cd ≤ _
    rw [fP.count ab hab', fQ.count cd hcd']
    exact hn _ (List.getElem_mem hab') _ (List.getElem_mem hcd')
  obtain ⟨o, r, h1, h2⟩ := C104_function hF hst b (c := c) h8 al h hc hS hT (kb := 226) (by norm_num)
    (C88_near hF hl hS hT b.vec (by norm_num) hfx) hn'
    (fun ab hab cd hcd => by
      have := sizeMax_moderate (L := 0) hF hR0 hR (fP.mods ab hab) (fQ.mods cd hcd) (hn' ab hab cd hcd) (by norm_num)
      rw [pow_zero, mul_one] at this
      exact this)
    (fun ht => absurd ht (not_lt.2 htol)) out hod
  have e1 : c.P.nclip = psP.length := fP.nclip
  have e2 : c.Q.nclip = psQ.length := fQ.nclip
  rw [e1, e2] at r h2
  refine ⟨P, Q, o, eP, eQ, r, fun ab hab cd hcd => ?_, h2⟩
  have h := h1 ab (by rw [e1]; exact hab) cd (by rw [e2]; exact hcd)
  rw [exactERI_shells (c := c) htol fP fQ hab hcd (hP _ (List.getElem_mem hab)).2.2
    (hQ _ (List.getElem_mem hcd)).2.2, sizeMax_shells (c := c) htol fP fQ hab hcd, e2] at h
  have n1 : c.P.nprim12 ab = pairPrims psP[ab].1 psP[ab].2 := fP.count ab hab
  have n2 : c.Q.nprim12 cd = pairPrims psQ[cd].1 psQ[cd].2 := fQ.count cd hcd
  rw [n1, n2] at h
  exact h

/-- **C104, from basis sets.** Normalise, fill two lists of pairs of s shells, run the function with the buffer: the
error bound of `C96_basis` holds. -/
theorem C104_basis (fused : Bool) (b : Build) (al : AllSum 8) (h : HSum 8) (sh : ShCfg) (h8 : sh.len = 8)
    (scr : PrimScreen ℝ)
    (val : Shell ℝ → Shell ℝ → ℕ → ℕ → ℝ) (hscr : sh.screening = true → ExactScr scr val) (big : ℝ)
    {G : List (Shell ℝ)} {K : ℕ} {R : ℝ} (hR0 : 0 ≤ R) (hR : R ≤ 2 ^ 10) (hG : BasisIn G K R)
    (prP prQ : List (ℕ × ℕ)) (hP : InArray prP G.length) (hQ : InArray prQ G.length)
    (hbra : BatchesFull sh.len (pairsAt G prP))
    (hn : ∀ p ∈ pairsAt G prP, ∀ q ∈ pairsAt G prQ, pairPrims p.1 p.2 * pairPrims q.1 q.2 ≤ 2 ^ 49)
    (hx : ∀ p ∈ pairsAt G prP, ∀ q ∈ pairsAt G prQ, ArgsBelow p.1 p.2 q.1 q.2 R 36.5)
    (memP memQ : ℕ → ℝ) (tol : ℝ) (htol : tol ≤ 0) (outSize : ℕ)
    (hout : prP.length * prQ.length ≤ outSize) (junk : VPar ℝ)
    (scratch : ℕ → ℕ → ℕ → VMem ℝ) (out : ℕ → Fd (ieee fused)) (hod : ∀ k, IsDouble (ieee fused) (out k).val) :
    ∃ G' P Q o, FlNorm.normalizeShells (ieee fused) G = some G' ∧
      completeList sh (shOps (ieee fused)) scr big (pairsAt G' prP) memP = some P ∧
      completeList sh (shOps (ieee fused)) scr big (pairsAt G' prQ) memQ = some Q ∧
      flSsssDelayed (ieee fused) b al h ⟨sh.len, P.1, Q.1, tol, outSize, junk, scratch⟩ out
        = some (prP.length * prQ.length, fun k => ⟨Q.1.screen k⟩, o) ∧
      (∀ ab (hab : ab < prP.length) cd (hcd : cd < prQ.length),
        BasisError G K R ssss 226 prP[ab] prQ[cd] s0 s0 s0 s0 (o (ab * prQ.length + cd)).val) ∧
      ∀ k, prP.length * prQ.length ≤ k → o k = out k := by
  obtain ⟨G', eG, -, hh⟩ := normalise_basis fused hG.norm
  have hn' := transport hh (fun A B C D => pairPrims A B * pairPrims C D ≤ 2 ^ 49)
    (fun _ _ _ _ _ _ _ _ hh => hh) hP hQ hn
  have hx' := transport hh (fun A B C D => ArgsBelow A B C D R 36.5) (fun _ _ _ _ _ _ _ _ hh => hh) hP hQ hx
  have lP : (pairsAt G' prP).length = prP.length := List.length_map _
  have lQ : (pairsAt G' prQ).length = prQ.length := List.length_map _
  obtain ⟨P, Q, o, eP, eQ, r, h1, h2⟩ := C104_shells fused b al h sh h8 scr val hscr big (pairsAt G' prP)
    (pairsAt G' prQ) hR0 hR (pairs_moderate hG hh hP) (pairs_moderate hG hh hQ) (full_transport hh hP hbra) hn' hx'
    memP memQ tol htol outSize (by rw [lP, lQ]; exact hout) junk scratch out hod
  rw [lP, lQ] at r h2
  refine ⟨G', P, Q, o, eG, eP, eQ, r, fun ab hab cd hcd => ?_, h2⟩
  have t := h1 ab (by rw [lP]; exact hab) cd (by rw [lQ]; exact hcd)
  simp only [pairsAt, List.getElem_map, List.length_map] at t
  refine finish hG hh (hP _ (List.getElem_mem hab)) (hQ _ (List.getElem_mem hcd)) hR0 (t.trans ?_)
  rw [show (min ssss.a ssss.b + min ssss.c ssss.d).toNat = 0 from rfl, pow_zero, mul_one,
    show totalL ssss = 0 from rfl]
  have hs := nonneg_of_mul_nonneg_right ((abs_nonneg _).trans t)
    (mul_pos (Nat.cast_pos.2 (by omega)) (by norm_num))
  refine mul_le_mul_of_nonneg_right (mul_le_mul_of_nonneg_right (Nat.cast_le.2 ?_) (by norm_num)) hs
  unfold errCount
  rw [show totalL ssss = 0 from rfl]
  omega

/-! ### The hypotheses can be met -/

/-- Two pairs of s shells on each side: four integrals, the function with the buffer, sums in the order of gcc. -/
example (fused : Bool) (b : Build) (junk : VPar ℝ) (scratch : ℕ → ℕ → ℕ → VMem ℝ)
    (mem : ℕ → ℝ) (out : ℕ → Fd (ieee fused)) (hod : ∀ k, IsDouble (ieee fused) (out k).val) :
    let A := sShell 1 0
    let B := sShell 2 1
    ∃ P o, completeList ⟨8, false, false⟩ (shOps (ieee fused)) noScreen 0 [(A, B), (A, B)] mem = some P ∧
      flSsssDelayed (ieee fused) b (.avx512 halves8) halves8 ⟨8, P.1, P.1, 0, 4, junk, scratch⟩ out =
        some (4, fun k => ⟨P.1.screen k⟩, o) ∧
      |(o 3).val - shellERI A B A B s0 s0 s0 s0| ≤ 336 * (1 / 2 ^ 52) * shellSize A B A B 1 0 := by
  intro A B
  have one : ∀ p ∈ [(A, B), (A, B)], p = (A, B) := by simp
  have hps : PairsModerate [(A, B), (A, B)] 1 := by
    intro p hp
    rw [one p hp]
    exact ⟨sShell_moderate 1 (.inl rfl), sShell_moderate 2 (.inr rfl), fun h => absurd h (by decide)⟩
  have np : pairPrims A B = 1 := by decide
  obtain ⟨P, Q, o, h1, h2, h3, h4, -⟩ := C104_shells fused b (.avx512 halves8) halves8 ⟨8, false, false⟩ rfl noScreen
    (fun _ _ _ _ => 0) (fun h => absurd h (by decide)) 0 [(A, B), (A, B)] [(A, B), (A, B)] zero_le_one (by norm_num)
    hps hps (batchesFull_one (by simp))
    (fun p hp q hq => by rw [one p hp, one q hq]; simp only [np]; norm_num)
    (fun p hp q hq => by rw [one p hp, one q hq]; exact sShell_args)
    mem mem 0 le_rfl 4 (by simp) junk scratch out hod
  rw [h1] at h2
  obtain rfl := Option.some.inj h2
  refine ⟨P, o, h1, h3, ?_⟩
  have := h4 1 (by simp) 1 (by simp)
  simpa [np] using this

end Simint
