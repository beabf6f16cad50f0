import Verif.Spec.FlSsss
import Verif.FlSsssLemmas
import Verif.Props.FlFast
import Verif.Props.FlBasis

/-!
# C102: the hand-written (ss|ss) function on doubles

The library contains skel/ostei_s_s_s_s.c in the place of the generated function for four s shells.  On doubles both
store the same values, so the bounds for generated functions hold for the library.
-/

set_option autoImplicit false

namespace Simint

open FlBoys (Arith ieee)
open FlPrim (shOps)
open FlFast (s0 value)

theorem tail_between {F : Arith} {b : Build} {c : Call ℝ} (hl : 0 < c.len)
    (hroom : ∀ s < c.Q.nclip, simdRound c.len (paddedStart c.len c.Q.nprim12 s + c.Q.nprim12 s) ≤ c.Q.alloc) {k : ℕ}
    (hk : Tail (flSsssEnv F b c) k) : k < c.Q.alloc ∧ BetweenPairs c.len c.Q k := by
  obtain ⟨s, hs, h⟩ := tail_in_last (flSsssEnv F b c) hl hk
  refine ⟨lt_of_lt_of_le h (hroom s hs), fun s hs ⟨h1, h2⟩ => ?_⟩
  exact real_not_tail (flSsssEnv F b c) hl k ⟨s, hs, k - paddedStart c.len c.Q.nprim12 s, by
    change _ < c.Q.nprim12 s
    omega, by
    change k = paddedStart c.len c.Q.nprim12 s + _
    omega⟩ hk

/-- **C102, any list.** Whatever the screening values between the pairs are, the hand-written function stores what the
generated one stores for a list with other screening values there; the screening values of the pairs are not
changed. -/
theorem C102_any (F : Arith) (b : Build) {g : GenCfg} (hg : g.OK) (c : Call ℝ) (hl : 0 < c.len) (out : ℕ → Fd F) :
    ∃ z : ℕ → ℝ, (∀ k, ¬ BetweenPairs c.len c.Q k → z k = c.Q.screen k) ∧
      ∀ (hmem : HMem (Fd F)) (n : ℕ) (o : ℕ → Fd F),
        flFunction F b g ssss { c with Q := { c.Q with screen := z } } hmem out = some (n, o) →
        ∃ scr, flSsss F b c out = some (n, scr, o) ∧
          ∀ k, (scr k).val = c.Q.screen k ∨ (BetweenPairs c.len c.Q k ∧ (scr k).val = 0) := by
  classical
  have hreal : ∀ k, ¬ BetweenPairs c.len c.Q k → ¬ Tail (flSsssEnv F b c) k := by
    intro k hk
    unfold BetweenPairs at hk
    push Not at hk
    obtain ⟨s, hs, h1, h2⟩ := hk
    exact real_not_tail (flSsssEnv F b c) hl k ⟨s, hs, k - paddedStart c.len c.Q.nprim12 s, by
      change _ < c.Q.nprim12 s
      omega, by
      change k = paddedStart c.len c.Q.nprim12 s + _
      omega⟩
  obtain ⟨z, ez⟩ : ∃ z : ℕ → ℝ, z = fun k => if Tail (flSsssEnv F b c) k then 0 else c.Q.screen k := ⟨_, rfl⟩
  refine ⟨z, fun k hk => by rw [ez]; exact if_neg (hreal k hk), ?_⟩
  intro hmem n o h
  rw [flFunction_ssss F b hg] at h
  have hz : flSsssEnv F b { c with Q := { c.Q with screen := z } } = zeroed (flSsssEnv F b c) := by
    have : (fun k => (⟨z k⟩ : Fd F)) = fun k => if Tail (flSsssEnv F b c) k then 0 else (⟨c.Q.screen k⟩ : Fd F) := by
      funext k
      rw [ez]
      simp only
      split_ifs <;> rfl
    change ({ flSsssEnv F b c with Q := { (flSsssEnv F b c).Q with screen := fun k => (⟨z k⟩ : Fd F) } } : DEnv (Fd F)) =
      _
    rw [this]
    unfold zeroed
    congr!
  obtain ⟨scr, h1, h2⟩ := runSsssBy_sim (flSsssEnv F b c) (b.all c.len) ssss (by decide) rfl hl out n o
    ((runDirectBy_congr hz b.all ssss out).symm.trans h)
  refine ⟨scr, h1, fun k => ?_⟩
  rcases h2 k with h | ⟨h, h'⟩
  · exact Or.inl (congrArg Fd.val h)
  · refine Or.inr ⟨?_, congrArg Fd.val h'⟩
    by_contra hk
    exact hreal k hk h

/-- **C102, same doubles.** If nothing is screened, or the elements between the pairs have screening value zero, the
hand-written function returns and stores the same as the generated one, bit for bit, and does not change the
lists. -/
theorem C102_same (F : Arith) (b : Build) {g : GenCfg} (hg : g.OK) (c : Call ℝ) (hl : 0 < c.len)
    (hroom : ∀ s < c.Q.nclip, simdRound c.len (paddedStart c.len c.Q.nprim12 s + c.Q.nprim12 s) ≤ c.Q.alloc)
    (hz : 0 < c.tol → ∀ k < c.Q.alloc, BetweenPairs c.len c.Q k → c.Q.screen k = 0) (hmem : HMem (Fd F))
    (out : ℕ → Fd F) {n : ℕ} {o : ℕ → Fd F} (h : flFunction F b g ssss c hmem out = some (n, o)) :
    flSsss F b c out = some (n, fun k => ⟨c.Q.screen k⟩, o) := by
  rw [flFunction_ssss F b hg] at h
  refine runSsssBy_same (flSsssEnv F b c) (b.all c.len) ssss (by decide) rfl hl (fun hc k hk => ?_) out n o h
  obtain ⟨h1, h2⟩ := tail_between hl hroom hk
  exact congrArg Fd.mk (hz hc k h1 h2)

theorem complete_nclip {sh : ShCfg} (hl : 0 < sh.len) {ops : ShOps ℝ} {scr : PrimScreen ℝ} {big : ℝ}
    {ps : List (Shell ℝ × Shell ℝ)} {mf : ℕ → ℝ} {M : MSP ℝ × (ℕ → ℝ) × (ℕ → ℝ)}
    (e : completeList sh ops scr big ps mf = some M) : M.1.nclip = ps.length := by
  unfold completeList at e
  obtain ⟨m, -, rfl⟩ := Option.map_eq_some_iff.1 e
  obtain ⟨-, -, i3, -⟩ := fill_inv sh hl ops scr big ps ps.length le_rfl
  rw [fillAfter_length] at i3
  change (fillPairs sh ops scr big ps).nprim12.length = ps.length
  rw [i3]
  simp [countsOf]

/-- **C102, filled lists.** For a second list that was filled completely with screening values, `simint_compute_ostei`
with the hand-written function returns and stores the same as with the generated one, for every tolerance, and does
not change the list. -/
theorem C102_filled (F : Arith) (b : Build) {g : GenCfg} (hg : g.OK) (sh : ShCfg) (hl : 0 < sh.len)
    (hsc : sh.screening = true) (ops : ShOps ℝ) (scr : PrimScreen ℝ) (val : Shell ℝ → Shell ℝ → ℕ → ℕ → ℝ)
    (hscr : ExactScr scr val) (big : ℝ) (psQ : List (Shell ℝ × Shell ℝ))
    (hps : ∀ p ∈ psQ, 0 < p.1.nprim ∧ 0 < p.2.nprim) (mem : ℕ → ℝ) {Q : MSP ℝ × (ℕ → ℝ) × (ℕ → ℝ)}
    (eQ : completeList sh ops scr big psQ mem = some Q) (P : MSP ℝ) (tol : ℝ) (outSize : ℕ) (junk : VPar ℝ)
    (scratch : ℕ → ℕ → ℕ → VMem ℝ) (hmem : HMem (Fd F)) (out : ℕ → Fd F) {n : ℤ} {o : ℕ → Fd F}
    (h : flOstei F b g ssss ⟨sh.len, P, Q.1, tol, outSize, junk, scratch⟩ hmem out = some (n, o)) :
    flOsteiSsss F b ⟨sh.len, P, Q.1, tol, outSize, junk, scratch⟩ out = some (n, fun k => ⟨Q.1.screen k⟩, o) := by
  unfold flOstei at h
  unfold flOsteiSsss
  split_ifs at h ⊢ with hs
  · simp only [Option.some.injEq, Prod.mk.injEq] at h
    rw [← h.1, ← h.2]
  · obtain ⟨⟨m, o'⟩, h1, h2⟩ := Option.map_eq_some_iff.1 h
    simp only [Prod.mk.injEq] at h2
    have hlen := complete_nclip hl eQ
    have := C102_same F b hg ⟨sh.len, P, Q.1, F.fl (tol * tol), outSize, junk, scratch⟩ hl
      (fun s hs => (complete_room hl eQ).2 s (hs.trans_eq hlen))
      (fun _ k hk hb => complete_screen_pad sh hl hsc ops scr val hscr big psQ hps mem eQ hk hb) hmem out h1
    simp only at this ⊢
    rw [this, Option.map_some, h2.1, h2.2]

/-- **C102, fast screening of s shells in the library.** `C101_screened` for the function that is compiled into the
library: fill two lists of pairs of s shells with the fast values and call `simint_compute_ostei` with a positive
tolerance, everything on doubles. -/
theorem C102_screened (fused : Bool) (b : Build) (sh : ShCfg) (hl : 0 < sh.len)
    (hsc : sh.screening = true) {big : ℝ} (hb0 : 0 ≤ big) (hb : big ≤ 2 ^ 500)
    (psP psQ : List (Shell ℝ × Shell ℝ)) {R : ℝ} (hR0 : 0 ≤ R) (hR : R ≤ 2 ^ 10) (hP : PairsModerate psP R)
    (hQ : PairsModerate psQ R) (hbra : BatchesFull sh.len psP)
    (hn : ∀ p ∈ psP, ∀ q ∈ psQ, pairPrims p.1 p.2 * pairPrims q.1 q.2 ≤ 2 ^ 49)
    (hx : ∀ p ∈ psP, ∀ q ∈ psQ, ArgsBelow p.1 p.2 q.1 q.2 R 36.5)
    (ham : ∀ p ∈ psP ++ psQ, p.1.am = 0 ∧ p.2.am = 0) {V : ℝ} (hV0 : 0 ≤ V) (hV1 : V ≤ 2 ^ 400)
    (hV : ∀ p ∈ psP ++ psQ, ∀ i < p.1.nprim, ∀ j < p.2.nprim, fastVal p.1 p.2 i j ≤ V)
    (memP memQ : ℕ → ℝ) {t : ℝ} (ht0 : 0 < t) (ht : t ≤ 2 ^ 500) (outSize : ℕ)
    (hout : psP.length * psQ.length ≤ outSize) (junk : VPar ℝ)
    (scratch : ℕ → ℕ → ℕ → VMem ℝ) (out : ℕ → Fd (ieee fused))
    (hod : ∀ k, IsDouble (ieee fused) (out k).val) :
    ∃ P Q n o, completeList sh (shOps (ieee fused)) (fastSchwarz (value (ieee fused))) big psP memP = some P ∧
      completeList sh (shOps (ieee fused)) (fastSchwarz (value (ieee fused))) big psQ memQ = some Q ∧
      flOsteiSsss (ieee fused) b ⟨sh.len, P.1, Q.1, t, outSize, junk, scratch⟩ out =
        some (n, fun k => ⟨Q.1.screen k⟩, o) ∧
      (n = -1 ∧ o = out ∧
        (∀ ab (hab : ab < psP.length) cd (hcd : cd < psQ.length),
          |shellERI psP[ab].1 psP[ab].2 psQ[cd].1 psQ[cd].2 s0 s0 s0 s0| ≤
            quartets psP[ab].1 psP[ab].2 psQ[cd].1 psQ[cd].2 * FlFast.dropMax t V) ∨
      n = psP.length * psQ.length ∧
        (∀ ab (hab : ab < psP.length) cd (hcd : cd < psQ.length),
          |(o (ab * psQ.length + cd)).val - shellERI psP[ab].1 psP[ab].2 psQ[cd].1 psQ[cd].2 s0 s0 s0 s0| ≤
            errCount 226 ssss (pairPrims psP[ab].1 psP[ab].2 * pairPrims psQ[cd].1 psQ[cd].2) * (1 / 2 ^ 52) *
              shellSize psP[ab].1 psP[ab].2 psQ[cd].1 psQ[cd].2 R 0 +
            quartets psP[ab].1 psP[ab].2 psQ[cd].1 psQ[cd].2 * FlFast.dropMax t V) ∧
        ∀ k, psP.length * psQ.length ≤ k → o k = out k) := by
  have hg : GenCfg.OK ⟨0, 0, 0, 0, id, id, id⟩ := ⟨fun _ _ => Iff.rfl, fun _ _ => Iff.rfl, fun _ _ => Iff.rfl⟩
  obtain ⟨P, Q, n, o, h1, h2, h3, h4⟩ := FlFast.C101_screened fused b hg sh hl hsc hb0 hb psP psQ hR0 hR hP hQ hbra hn
    hx ham hV0 hV1 hV memP memQ ht0 ht outSize hout junk scratch (fun _ _ => 0) out hod
  exact ⟨P, Q, n, o, h1, h2, C102_filled (ieee fused) b hg sh hl hsc _ _ _ (fastSchwarz_exact _) big psQ
    (fun p hp => ⟨(hQ p hp).1.prims, (hQ p hp).2.1.prims⟩) memQ h2 P.1 t outSize junk scratch _ out h3, h4⟩

/-- **C102, fast screening, arguments of the Boys function up to 10^8.** -/
theorem C102_screened_far (fused : Bool) (b : Build) (sh : ShCfg) (hl : 0 < sh.len)
    (hsc : sh.screening = true) {big : ℝ} (hb0 : 0 ≤ big) (hb : big ≤ 2 ^ 500)
    (psP psQ : List (Shell ℝ × Shell ℝ)) {R : ℝ} (hR0 : 0 ≤ R) (hR : R ≤ 2 ^ 10) (hP : PairsModerate psP R)
    (hQ : PairsModerate psQ R) (hbra : BatchesFull sh.len psP)
    (hn : ∀ p ∈ psP, ∀ q ∈ psQ, pairPrims p.1 p.2 * pairPrims q.1 q.2 ≤ 2 ^ 49)
    (hx : ∀ p ∈ psP, ∀ q ∈ psQ, ArgsBelow p.1 p.2 q.1 q.2 R (10 ^ 8))
    (ham : ∀ p ∈ psP ++ psQ, p.1.am = 0 ∧ p.2.am = 0) {V : ℝ} (hV0 : 0 ≤ V) (hV1 : V ≤ 2 ^ 400)
    (hV : ∀ p ∈ psP ++ psQ, ∀ i < p.1.nprim, ∀ j < p.2.nprim, fastVal p.1 p.2 i j ≤ V)
    (memP memQ : ℕ → ℝ) {t : ℝ} (ht0 : 0 < t) (ht : t ≤ 2 ^ 500) (outSize : ℕ)
    (hout : psP.length * psQ.length ≤ outSize) (junk : VPar ℝ)
    (scratch : ℕ → ℕ → ℕ → VMem ℝ) (out : ℕ → Fd (ieee fused))
    (hod : ∀ k, IsDouble (ieee fused) (out k).val) :
    ∃ P Q n o, completeList sh (shOps (ieee fused)) (fastSchwarz (value (ieee fused))) big psP memP = some P ∧
      completeList sh (shOps (ieee fused)) (fastSchwarz (value (ieee fused))) big psQ memQ = some Q ∧
      flOsteiSsss (ieee fused) b ⟨sh.len, P.1, Q.1, t, outSize, junk, scratch⟩ out =
        some (n, fun k => ⟨Q.1.screen k⟩, o) ∧
      (n = -1 ∧ o = out ∧
        (∀ ab (hab : ab < psP.length) cd (hcd : cd < psQ.length),
          |shellERI psP[ab].1 psP[ab].2 psQ[cd].1 psQ[cd].2 s0 s0 s0 s0| ≤
            quartets psP[ab].1 psP[ab].2 psQ[cd].1 psQ[cd].2 * FlFast.dropMax t V) ∨
      n = psP.length * psQ.length ∧
        (∀ ab (hab : ab < psP.length) cd (hcd : cd < psQ.length),
          |(o (ab * psQ.length + cd)).val - shellERI psP[ab].1 psP[ab].2 psQ[cd].1 psQ[cd].2 s0 s0 s0 s0| ≤
            errCount 9910 ssss (pairPrims psP[ab].1 psP[ab].2 * pairPrims psQ[cd].1 psQ[cd].2) * (1 / 2 ^ 52) *
              shellSize psP[ab].1 psP[ab].2 psQ[cd].1 psQ[cd].2 R 0 +
            quartets psP[ab].1 psP[ab].2 psQ[cd].1 psQ[cd].2 * FlFast.dropMax t V) ∧
        ∀ k, psP.length * psQ.length ≤ k → o k = out k) := by
  have hg : GenCfg.OK ⟨0, 0, 0, 0, id, id, id⟩ := ⟨fun _ _ => Iff.rfl, fun _ _ => Iff.rfl, fun _ _ => Iff.rfl⟩
  obtain ⟨P, Q, n, o, h1, h2, h3, h4⟩ := FlFast.C101_screened_far fused b hg sh hl hsc hb0 hb psP psQ hR0 hR hP hQ hbra hn
    hx ham hV0 hV1 hV memP memQ ht0 ht outSize hout junk scratch (fun _ _ => 0) out hod
  exact ⟨P, Q, n, o, h1, h2, C102_filled (ieee fused) b hg sh hl hsc _ _ _ (fastSchwarz_exact _) big psQ
    (fun p hp => ⟨(hQ p hp).1.prims, (hQ p hp).2.1.prims⟩) memQ h2 P.1 t outSize junk scratch _ out h3, h4⟩

/-- **C102, from basis sets.** `C96_basis` for the function that is compiled into the library: normalise a basis, fill
two lists of pairs of s shells and compute all integrals without screening, everything on doubles. -/
theorem C102_basis (fused : Bool) (b : Build) (sh : ShCfg) (hl : 0 < sh.len) (scr : PrimScreen ℝ)
    (val : Shell ℝ → Shell ℝ → ℕ → ℕ → ℝ) (hscr : sh.screening = true → ExactScr scr val) (big : ℝ)
    {G : List (Shell ℝ)} {K : ℕ} {R : ℝ} (hR0 : 0 ≤ R) (hR : R ≤ 2 ^ 10) (hG : BasisIn G K R)
    (prP prQ : List (ℕ × ℕ)) (hP : InArray prP G.length) (hQ : InArray prQ G.length)
    (hbra : BatchesFull sh.len (pairsAt G prP))
    (hn : ∀ p ∈ pairsAt G prP, ∀ q ∈ pairsAt G prQ, pairPrims p.1 p.2 * pairPrims q.1 q.2 ≤ 2 ^ 49)
    (hx : ∀ p ∈ pairsAt G prP, ∀ q ∈ pairsAt G prQ, ArgsBelow p.1 p.2 q.1 q.2 R 36.5)
    (memP memQ : ℕ → ℝ) (tol : ℝ) (htol : tol ≤ 0) (outSize : ℕ)
    (hout : prP.length * prQ.length ≤ outSize) (junk : VPar ℝ)
    (scratch : ℕ → ℕ → ℕ → VMem ℝ) (out : ℕ → Fd (ieee fused)) (hod : ∀ k, IsDouble (ieee fused) (out k).val) :
    ∃ G' P Q o, FlNorm.normalizeShells (ieee fused) G = some G' ∧
      completeList sh (shOps (ieee fused)) scr big (pairsAt G' prP) memP = some P ∧
      completeList sh (shOps (ieee fused)) scr big (pairsAt G' prQ) memQ = some Q ∧
      flSsss (ieee fused) b ⟨sh.len, P.1, Q.1, tol, outSize, junk, scratch⟩ out
        = some (prP.length * prQ.length, fun k => ⟨Q.1.screen k⟩, o) ∧
      (∀ ab (hab : ab < prP.length) cd (hcd : cd < prQ.length),
        BasisError G K R ssss 226 prP[ab] prQ[cd] s0 s0 s0 s0 (o (ab * prQ.length + cd)).val) ∧
      ∀ k, prP.length * prQ.length ≤ k → o k = out k := by
  have hg : GenCfg.OK ⟨0, 0, 0, 0, id, id, id⟩ := ⟨fun _ _ => Iff.rfl, fun _ _ => Iff.rfl, fun _ _ => Iff.rfl⟩
  have hn1 : ncartQ ssss = 1 := by decide
  obtain ⟨G', P, Q, o, h1, h2, h3, h4, h5, h6⟩ := C96_basis fused b hg ssss_classOK (by decide) sh hl scr val hscr big hR0 hR
    hG prP prQ hP hQ hbra hn hx memP memQ tol htol outSize (by rw [hn1, mul_one]; exact hout) junk scratch
    (fun _ _ => 0) out hod
  rw [hn1, mul_one] at h6
  refine ⟨G', P, Q, o, h1, h2, h3, ?_, fun ab hab cd hcd => ?_, h6⟩
  · refine C102_same (ieee fused) b hg _ hl (fun s hs => (complete_room hl h3).2 s (hs.trans_eq (complete_nclip hl h3)))
      (fun h => absurd h (not_lt.2 htol)) _ out h4
  · have := h5 ab hab cd hcd s0 s0 s0 s0 (by decide) (by decide) (by decide) (by decide) rfl rfl rfl rfl
    have i0 : Qrt.index psi4List ⟨⟨s0, s0⟩, ⟨s0, s0⟩, 0⟩ = 0 := by decide
    rw [hn1, mul_one, i0, add_zero] at this
    exact this

/-- **C102, from basis sets, distant shells.** The same with arguments of the Boys function up to 10^8. -/
theorem C102_basis_far (fused : Bool) (b : Build) (sh : ShCfg) (hl : 0 < sh.len) (scr : PrimScreen ℝ)
    (val : Shell ℝ → Shell ℝ → ℕ → ℕ → ℝ) (hscr : sh.screening = true → ExactScr scr val) (big : ℝ)
    {G : List (Shell ℝ)} {K : ℕ} {R : ℝ} (hR0 : 0 ≤ R) (hR : R ≤ 2 ^ 10) (hG : BasisIn G K R)
    (prP prQ : List (ℕ × ℕ)) (hP : InArray prP G.length) (hQ : InArray prQ G.length)
    (hbra : BatchesFull sh.len (pairsAt G prP))
    (hn : ∀ p ∈ pairsAt G prP, ∀ q ∈ pairsAt G prQ, pairPrims p.1 p.2 * pairPrims q.1 q.2 ≤ 2 ^ 49)
    (hx : ∀ p ∈ pairsAt G prP, ∀ q ∈ pairsAt G prQ, ArgsBelow p.1 p.2 q.1 q.2 R (10 ^ 8))
    (memP memQ : ℕ → ℝ) (tol : ℝ) (htol : tol ≤ 0) (outSize : ℕ)
    (hout : prP.length * prQ.length ≤ outSize) (junk : VPar ℝ)
    (scratch : ℕ → ℕ → ℕ → VMem ℝ) (out : ℕ → Fd (ieee fused)) (hod : ∀ k, IsDouble (ieee fused) (out k).val) :
    ∃ G' P Q o, FlNorm.normalizeShells (ieee fused) G = some G' ∧
      completeList sh (shOps (ieee fused)) scr big (pairsAt G' prP) memP = some P ∧
      completeList sh (shOps (ieee fused)) scr big (pairsAt G' prQ) memQ = some Q ∧
      flSsss (ieee fused) b ⟨sh.len, P.1, Q.1, tol, outSize, junk, scratch⟩ out
        = some (prP.length * prQ.length, fun k => ⟨Q.1.screen k⟩, o) ∧
      (∀ ab (hab : ab < prP.length) cd (hcd : cd < prQ.length),
        BasisError G K R ssss 9910 prP[ab] prQ[cd] s0 s0 s0 s0 (o (ab * prQ.length + cd)).val) ∧
      ∀ k, prP.length * prQ.length ≤ k → o k = out k := by
  have hg : GenCfg.OK ⟨0, 0, 0, 0, id, id, id⟩ := ⟨fun _ _ => Iff.rfl, fun _ _ => Iff.rfl, fun _ _ => Iff.rfl⟩
  have hn1 : ncartQ ssss = 1 := by decide
  obtain ⟨G', P, Q, o, h1, h2, h3, h4, h5, h6⟩ := C96_basis_far fused b hg ssss_classOK (by decide) sh hl scr val hscr big hR0 hR
    hG prP prQ hP hQ hbra hn hx memP memQ tol htol outSize (by rw [hn1, mul_one]; exact hout) junk scratch
    (fun _ _ => 0) out hod
  rw [hn1, mul_one] at h6
  refine ⟨G', P, Q, o, h1, h2, h3, ?_, fun ab hab cd hcd => ?_, h6⟩
  · refine C102_same (ieee fused) b hg _ hl (fun s hs => (complete_room hl h3).2 s (hs.trans_eq (complete_nclip hl h3)))
      (fun h => absurd h (not_lt.2 htol)) _ out h4
  · have := h5 ab hab cd hcd s0 s0 s0 s0 (by decide) (by decide) (by decide) (by decide) rfl rfl rfl rfl
    have i0 : Qrt.index psi4List ⟨⟨s0, s0⟩, ⟨s0, s0⟩, 0⟩ = 0 := by decide
    rw [hn1, mul_one, i0, add_zero] at this
    exact this

/-! ### The hypotheses can be met -/

/-- One pair of s shells, tolerance 10^-10, fast screening, hand-written function. -/
example (fused : Bool) (b : Build) (junk : VPar ℝ) (scratch : ℕ → ℕ → ℕ → VMem ℝ)
    (mem : ℕ → ℝ) (out : ℕ → Fd (ieee fused))
    (hod : ∀ k, IsDouble (ieee fused) (out k).val) :
    let A := sShell 1 0
    let B := sShell 2 1
    ∃ P n o, completeList ⟨4, true, false⟩ (shOps (ieee fused)) (fastSchwarz (value (ieee fused))) 1e99 [(A, B)] mem =
        some P ∧
      flOsteiSsss (ieee fused) b ⟨4, P.1, P.1, 1 / 10 ^ 10, 1, junk, scratch⟩ out =
        some (n, fun k => ⟨P.1.screen k⟩, o) ∧
      (n = 1 → |(o 0).val - shellERI A B A B s0 s0 s0 s0| ≤
        672 * (1 / 2 ^ 52) * shellSize A B A B 1 0 + 1.0001 / 10 ^ 10) := by
  intro A B
  have hps : PairsModerate [(A, B)] 1 := by
    intro p hp
    rw [List.mem_singleton] at hp
    subst hp
    exact ⟨sShell_moderate 1 (.inl rfl), sShell_moderate 2 (.inr rfl), fun h => absurd h (by decide)⟩
  have big : (1e99 : ℝ) ≤ 2 ^ 500 := by
    calc (1e99 : ℝ) = (10 ^ 33) ^ 3 := by norm_num
      _ ≤ (2 ^ 110) ^ 3 := pow_le_pow_left₀ (by norm_num) (by norm_num) 3
      _ = 2 ^ 330 := by rw [← pow_mul]
      _ ≤ 2 ^ 500 := pow_le_pow_right₀ (by norm_num) (by norm_num)
  have two : (1 : ℝ) ≤ 2 ^ 500 := one_le_pow₀ (by norm_num)
  have two' : (2 : ℝ) ^ 6 ≤ 2 ^ 400 := pow_le_pow_right₀ (by norm_num) (by norm_num)
  have one : ∀ p ∈ [(A, B)] ++ [(A, B)], p = (A, B) := by simp
  obtain ⟨P, Q, n, o, h1, h2, h3, h4⟩ := C102_screened fused b ⟨4, true, false⟩ (by decide) rfl
    (by norm_num) big [(A, B)] [(A, B)] zero_le_one (by norm_num) hps hps
    (batchesFull_one (by rw [List.length_singleton]; decide))
    (fun p hp q hq => by
      rw [List.mem_singleton] at hp hq
      subst hp hq
      have : pairPrims A B = 1 := by decide
      simp only [this]
      norm_num)
    (fun p hp q hq => by
      rw [List.mem_singleton] at hp hq
      subst hp hq
      exact sShell_args)
    (fun p hp => by rw [one p hp]; exact ⟨rfl, rfl⟩) (V := 32) (by norm_num) (le_trans (by norm_num) two')
    (fun p hp i hi j hj => by
      rw [one p hp] at hi hj ⊢
      have ok : ∀ {X : Shell ℝ}, X.Moderate 1 → X.OK := fun m =>
        ⟨m.prims, fun k hk => lt_of_lt_of_le (by positivity) (m.lo k hk)⟩
      rw [C70_value (ok (sShell_moderate 1 (.inl rfl))) (ok (sShell_moderate 2 (.inr rfl))) hi hj]
      exact (sShell_self (A, B) (by simp [A, B]) i hi j hj).2.2 ⟨0, 0, 0⟩ ⟨0, 0, 0⟩ ⟨le_rfl, le_rfl, le_rfl, rfl⟩
        ⟨le_rfl, le_rfl, le_rfl, rfl⟩)
    mem mem (t := 1 / 10 ^ 10) (by norm_num)
    (le_trans (by norm_num) two) 1 (by simp) junk scratch out hod
  rw [h1] at h2
  obtain rfl := Option.some.inj h2
  refine ⟨P, n, o, h1, h3, fun hn => ?_⟩
  rcases h4 with ⟨e, -⟩ | ⟨-, h, -⟩
  · rw [hn] at e
    exact absurd e (by decide)
  · have := h 0 (by simp) 0 (by simp)
    have e1 : quartets A B A B = 1 := by simp [quartets, A, B, sShell]
    have e2 : errCount 226 ssss (pairPrims A B * pairPrims A B) = 672 := by decide
    simp only [List.getElem_cons_zero, e1, e2, zero_mul, zero_add, one_mul] at this
    refine this.trans (add_le_add (by push_cast; exact le_rfl) ?_)
    unfold FlFast.dropMax
    norm_num

end Simint
