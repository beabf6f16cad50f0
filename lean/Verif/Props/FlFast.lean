import Verif.Spec.FlFast
import Verif.FlFastLemmas
import Verif.Props.FlNorm
import Verif.Props.FlScreen

/-!
# C101: fast screening values on doubles
-/

set_option autoImplicit false

open Finset

namespace Simint.FlFast

open FlBoys (Arith ieee u η)
open FlPrim (shOps T S T_le T_one T_twice S_one S_pos S_le S_twice ov_T κS)
open FlNorm (PowOK powOK_ieee)
open VRRRound (fma_near)

theorem γ_value : γ 131100 ≤ 1 / 2 ^ 34 := by
  refine (γ_le (by norm_num)).trans ?_
  norm_num

/-- **C101, value of a pair of primitives.** The value that `simint_primscreen_fastschwarz` computes is the exact one
up to a relative error of 2^-34, for values that are not tiny. -/
theorem C101_value {F : Arith} (hF : Sound F) (hpow : PowOK F) {A B : Shell ℝ} {R : ℝ} (hR : R ≤ 2 ^ 10)
    (hA : A.Moderate R) (hB : B.Moderate R) {i j : ℕ} (hi : i < A.nprim) (hj : j < B.nprim) :
    |value F A B i j - fastVal A B i j| ≤ 1 / 2 ^ 34 * (fastVal A B i j + 1 / 2 ^ 700) := by
  have h := value_near hF hpow hR hA hB hi hj
  exact h.err.trans (mul_le_mul_of_nonneg_right γ_value h.nonneg)

theorem sum_near {F : Arith} (hF : Sound F) (hpow : PowOK F) {A B : Shell ℝ} {R : ℝ} (hR : R ≤ 2 ^ 10)
    (hA : A.Moderate R) (hB : B.Moderate R) : ∀ (l : List (ℕ × ℕ)) (n : ℕ) (v' v : ℝ),
    (∀ p ∈ l, p.1 < A.nprim ∧ p.2 < B.nprim) → n + l.length ≤ 2 ^ 19 → 0 ≤ v → v ≤ n * T 219 →
    Approx (131100 + n) v' v (v + n * S 700) →
    Approx (131100 + (n + l.length)) (l.foldl (fun v p => F.mac (gab F A B p.1 p.2) (coefs F A B p.1 p.2) v) v')
      (l.foldl (fun v p => v + fastVal A B p.1 p.2) v)
      (l.foldl (fun v p => v + fastVal A B p.1 p.2) v + ((n + l.length : ℕ) : ℝ) * S 700) := by
  intro l
  induction l with
  | nil => exact fun n v' v _ _ _ _ h => h
  | cons p l ih =>
    intro n v' v hp hn h0 hv h
    obtain ⟨hi, hj⟩ := hp p List.mem_cons_self
    rw [List.length_cons] at hn
    have pl := prod_le hA hB hi hj
    have fl := fastVal_le hA hB hi hj
    have hκ := κ_pos
    have g := gab_near hF hR hA hB hi hj hpow
    have c := coefs_near hF hA hB hi hj
    have s0 := S_pos 700
    have s1 := S_one 700
    have nT : ((n + 1 : ℕ) : ℝ) ≤ T 19 := by
      have : n + 1 ≤ 2 ^ 19 := by omega
      unfold T
      exact_mod_cast this
    have tw := T_twice (n := 218) rfl
    have t1 := T_one 218
    have big : ((n + 1 : ℕ) : ℝ) * T 219 ≤ T 238 := FlPrim.mul_T nT le_rfl (by linarith) le_rfl
    have two := T_twice (n := 238) rfl
    have hi' := T_le (show 239 ≤ 1000 by norm_num)
    have n0 : (0 : ℝ) ≤ n := Nat.cast_nonneg n
    have e1 : ((n + 1 : ℕ) : ℝ) = n + 1 := by push_cast; ring
    have ns : (n : ℝ) * S 700 ≤ n * T 219 := mul_le_mul_of_nonneg_left (by linarith) n0
    rw [e1] at big
    have hgc := mul_nonneg g.nonneg c.nonneg
    have t := fma_near hF.toRounds g c h (by omega) (ov_T (by omega) (by have := h.nonneg; linarith) (by linarith))
    rw [← fastVal_eq, add_comm (fastVal A B p.1 p.2) v] at t
    have t' := ih (n + 1) _ _ (fun q hq => hp q (List.mem_cons_of_mem _ hq)) (by omega) (add_nonneg h0 fl.1)
      (by rw [e1]; linarith) (t.mono (by omega) (by rw [e1]; linarith))
    rw [List.foldl_cons, List.foldl_cons, List.length_cons, show n + (l.length + 1) = n + 1 + l.length by omega]
    exact t'

/-- **C101, value of a pair of shells.** The value that `simint_shellscreen_fastschwarz` computes, fused operations
or not, is the exact sum up to a relative error of `γ (131100 + n)` for `n` pairs of primitives, less than 2^-32. -/
theorem C101_shell {F : Arith} (hF : Sound F) (hpow : PowOK F) {A B : Shell ℝ} {R : ℝ} (hR : R ≤ 2 ^ 10)
    (hA : A.Moderate R) (hB : B.Moderate R) (hn : pairPrims A B ≤ 2 ^ 19) :
    |shell F A B - fastShell A B| ≤ γ (131100 + pairPrims A B) * (fastShell A B + pairPrims A B * (1 / 2 ^ 700)) ∧
      γ (131100 + pairPrims A B) ≤ 1 / 2 ^ 32 := by
  have h := sum_near hF hpow hR hA hB (primOrder A B) 0 0 0
    (fun p hp => ((mem_primOrder A B p.1 p.2).1 hp).imp_right And.left)
    (by rw [primOrder_length, zero_add]; exact hn) le_rfl (by simp) (by
      simp only [Nat.cast_zero, zero_mul, add_zero]
      exact ⟨by simp, by simp⟩)
  rw [primOrder_length, zero_add] at h
  exact ⟨h.err, γ_small (by omega)⟩

theorem exp_nonneg (fused : Bool) (y : ℝ) : 0 ≤ (ieee fused).exp y :=
  (sound_ieee fused).nonneg _ (Real.exp_pos y).le

/-- **C101, bound.** For s shells the computed value bounds the integral `(ss|ss)` of the pair of primitives up to a
factor of `1 + 2^-33` and a term of 2^-400. -/
theorem C101_near (fused : Bool) {A B : Shell ℝ} {R V : ℝ} (hR : R ≤ 2 ^ 10) (hA : A.Moderate R) (hB : B.Moderate R)
    (ha : A.am = 0) (hb : B.am = 0) (hV : ∀ i < A.nprim, ∀ j < B.nprim, fastVal A B i j ≤ V) :
    NearBounding (value (ieee fused)) A B (1 + 1 / 2 ^ 33) (1 / 2 ^ 400) ((1 + 1 / 2 ^ 33) * V + 1 / 2 ^ 400) := by
  intro i hi j hj
  have h := abs_le.1 (C101_value (sound_ieee fused) (powOK_ieee fused) hR hA hB hi hj)
  have h0 := value_nonneg (sound_ieee fused) (powOK_ieee fused) hR hA hB hi hj (exp_nonneg fused)
  have f0 := (fastVal_le hA hB hi hj).1
  have hv := hV i hi j hj
  have hs : (1 : ℝ) / 2 ^ 700 ≤ 1 / 2 ^ 400 := S_le (show 400 ≤ 700 by norm_num)
  have hs0 : (0 : ℝ) < 1 / 2 ^ 400 := S_pos 400
  have hs7 : (0 : ℝ) < 1 / 2 ^ 700 := S_pos 700
  generalize (1 : ℝ) / 2 ^ 700 = s at *
  generalize (1 : ℝ) / 2 ^ 400 = e at *
  refine ⟨h0, by linarith, ?_⟩
  intro x y hx hy
  obtain ⟨x1, x2, x3, x4⟩ := hx
  obtain ⟨y1, y2, y3, y4⟩ := hy
  have ex : x = ⟨0, 0, 0⟩ := by
    obtain ⟨a, b, c⟩ := x
    simp only [ha] at *
    congr 1 <;> omega
  have ey : y = ⟨0, 0, 0⟩ := by
    obtain ⟨a, b, c⟩ := y
    simp only [hb] at *
    congr 1 <;> omega
  subst ex ey
  have ok : ∀ {X : Shell ℝ}, X.Moderate R → X.OK := fun m =>
    ⟨m.prims, fun k hk => lt_of_lt_of_le (by positivity) (m.lo k hk)⟩
  have := C70_value (ok hA) (ok hB) hi hj
  unfold primSelf
  rw [← this]
  linarith

theorem drop_le {t V : ℝ} (ht : 0 ≤ t) (hV : 0 ≤ V) :
    Simint.dropMax (1 + 1 / 2 ^ 33) t (1 / 2 ^ 400) ((1 + 1 / 2 ^ 33) * V + 1 / 2 ^ 400) ≤ dropMax t V := by
  have e0 : (0 : ℝ) < 1 / 2 ^ 400 := S_pos 400
  have e1 : (1 : ℝ) / 2 ^ 400 ≤ 1 := S_one 400
  have z1 : (1 : ℝ) / 2 ^ 1000 ≤ 1 / 2 ^ 400 := S_le (show 400 ≤ 1000 by norm_num)
  have e2 : ((1 : ℝ) / 2 ^ 197) ^ 2 = 64 * (1 / 2 ^ 400) := by
    rw [div_pow, one_pow, ← pow_mul, show 400 = 197 * 2 + 6 by norm_num, pow_add]
    field_simp
    norm_num
  unfold Simint.dropMax dropMax tolSq
  refine Real.sqrt_le_iff.2 ⟨by positivity, ?_⟩
  have e3 : (1 + V) / 2 ^ 197 = (1 + V) * (1 / 2 ^ 197) := by ring
  rw [e3, add_sq ((1 + 1 / 2 ^ 32) * t), mul_pow (1 + V), e2]
  have c0 : (0 : ℝ) ≤ 1 / 2 ^ 197 := by positivity
  generalize (1 : ℝ) / 2 ^ 197 = c at *
  generalize (1 : ℝ) / 2 ^ 1000 = z at *
  generalize (1 : ℝ) / 2 ^ 400 = e at *
  have q1 : (1 + 1 / 2 ^ 33 : ℝ) ^ 2 * ((1 + 1 / 2 ^ 51) * t ^ 2) ≤ ((1 + 1 / 2 ^ 32) * t) ^ 2 := by
    have : (1 + 1 / 2 ^ 33 : ℝ) ^ 2 * (1 + 1 / 2 ^ 51) ≤ (1 + 1 / 2 ^ 32) ^ 2 := by norm_num
    nlinarith [mul_le_mul_of_nonneg_right this (sq_nonneg t)]
  have q2 : 0 ≤ 2 * ((1 + 1 / 2 ^ 32) * t) * ((1 + V) * c) := by positivity
  have q3 : (1 + 1 / 2 ^ 33 : ℝ) ^ 2 * z ≤ 4 * e := by
    have : (1 + 1 / 2 ^ 33 : ℝ) ^ 2 ≤ 4 := by norm_num
    calc _ ≤ (1 + 1 / 2 ^ 33 : ℝ) ^ 2 * e := mul_le_mul_of_nonneg_left z1 (by positivity)
      _ ≤ _ := mul_le_mul_of_nonneg_right this e0.le
  have q4 : e ^ 2 ≤ e := by nlinarith
  have q5 : 2 * (1 + 1 / 2 ^ 33 : ℝ) * e * ((1 + 1 / 2 ^ 33) * V + e) ≤ e * (8 * V + 4) := by
    have h1 : (1 + 1 / 2 ^ 33 : ℝ) * V + e ≤ 2 * V + 1 := by linarith
    have h2 : 2 * (1 + 1 / 2 ^ 33 : ℝ) * e ≤ 4 * e := by linarith
    have := mul_le_mul h2 h1 (by positivity) (by positivity)
    linarith
  have q6 : e * (8 * V + 9) ≤ (1 + V) ^ 2 * (64 * e) := by
    have : 8 * V + 9 ≤ (1 + V) ^ 2 * 64 := by nlinarith
    have := mul_le_mul_of_nonneg_left this e0.le
    linarith
  linarith

/-- **C101, fast screening of s shells.** Fill two lists of pairs of s shells with the fast values and call
`simint_compute_ostei` with a positive tolerance, everything on doubles.  Every step runs.  Either the call returns -1,
leaves the output alone and all integrals are small, or each integral differs from the full sum over primitives by the
error without screening (C89) plus, for each quartet of primitives, hardly more than the tolerance. -/
theorem C101_screened (fused : Bool) (b : Build) {g : GenCfg} (hg : g.OK) (sh : ShCfg) (hl : 0 < sh.len)
    (hsc : sh.screening = true) {big : ℝ} (hb0 : 0 ≤ big) (hb : big ≤ 2 ^ 500)
    (psP psQ : List (Shell ℝ × Shell ℝ)) {R : ℝ} (hR0 : 0 ≤ R) (hR : R ≤ 2 ^ 10) (hP : PairsModerate psP R)
    (hQ : PairsModerate psQ R) (hbra : BatchesFull sh.len psP)
    (hn : ∀ p ∈ psP, ∀ q ∈ psQ, pairPrims p.1 p.2 * pairPrims q.1 q.2 ≤ 2 ^ 49)
    (hx : ∀ p ∈ psP, ∀ q ∈ psQ, ArgsBelow p.1 p.2 q.1 q.2 R 36.5)
    (ham : ∀ p ∈ psP ++ psQ, p.1.am = 0 ∧ p.2.am = 0) {V : ℝ} (hV0 : 0 ≤ V) (hV1 : V ≤ 2 ^ 400)
    (hV : ∀ p ∈ psP ++ psQ, ∀ i < p.1.nprim, ∀ j < p.2.nprim, fastVal p.1 p.2 i j ≤ V)
    (memP memQ : ℕ → ℝ) {t : ℝ} (ht0 : 0 < t) (ht : t ≤ 2 ^ 500) (outSize : ℕ)
    (hout : psP.length * psQ.length ≤ outSize) (junk : VPar ℝ)
    (scratch : ℕ → ℕ → ℕ → VMem ℝ) (hmem : HMem (Fd (ieee fused))) (out : ℕ → Fd (ieee fused))
    (hod : ∀ k, IsDouble (ieee fused) (out k).val) :
    ∃ P Q n o, completeList sh (shOps (ieee fused)) (fastSchwarz (value (ieee fused))) big psP memP = some P ∧
      completeList sh (shOps (ieee fused)) (fastSchwarz (value (ieee fused))) big psQ memQ = some Q ∧
      flOstei (ieee fused) b g ssss ⟨sh.len, P.1, Q.1, t, outSize, junk, scratch⟩ hmem out = some (n, o) ∧
      (n = -1 ∧ o = out ∧
        (∀ ab (hab : ab < psP.length) cd (hcd : cd < psQ.length),
          |shellERI psP[ab].1 psP[ab].2 psQ[cd].1 psQ[cd].2 s0 s0 s0 s0| ≤
            quartets psP[ab].1 psP[ab].2 psQ[cd].1 psQ[cd].2 * dropMax t V) ∨
      n = psP.length * psQ.length ∧
        (∀ ab (hab : ab < psP.length) cd (hcd : cd < psQ.length),
          |(o (ab * psQ.length + cd)).val - shellERI psP[ab].1 psP[ab].2 psQ[cd].1 psQ[cd].2 s0 s0 s0 s0| ≤
            errCount 226 ssss (pairPrims psP[ab].1 psP[ab].2 * pairPrims psQ[cd].1 psQ[cd].2) * (1 / 2 ^ 52) *
              shellSize psP[ab].1 psP[ab].2 psQ[cd].1 psQ[cd].2 R 0 +
            quartets psP[ab].1 psP[ab].2 psQ[cd].1 psQ[cd].2 * dropMax t V) ∧
        ∀ k, psP.length * psQ.length ≤ k → o k = out k) := by
  have hf : ClassOK ssss := ⟨by unfold QAM.Valid; decide, rfl, by decide, by decide⟩
  have near : ∀ p ∈ psP ++ psQ, p.1.Moderate R ∧ p.2.Moderate R →
      NearBounding (value (ieee fused)) p.1 p.2 (1 + 1 / 2 ^ 33) (1 / 2 ^ 400) ((1 + 1 / 2 ^ 33) * V + 1 / 2 ^ 400) :=
    fun p hp hm => C101_near fused hR hm.1 hm.2 (ham p hp).1 (ham p hp).2 (hV p hp)
  have hn1 : ncartQ ssss = 1 := by decide
  have q0 : ∀ A B C D : Shell ℝ, 0 ≤ quartets A B C D := fun A B C D => by unfold quartets; positivity
  obtain ⟨P, Q, n, o, h1, h2, h3, h4⟩ := C100_screened fused b hg hf (by decide) sh hl hsc (value (ieee fused)) hb0 hb psP
    psQ hR0 hR hP hQ hbra hn hx
    (fun p hp => by
      obtain ⟨a1, a2⟩ := ham p (List.mem_append_left _ hp)
      rw [a1, a2]; exact ⟨rfl, rfl⟩)
    (fun p hp => by
      obtain ⟨a1, a2⟩ := ham p (List.mem_append_right _ hp)
      rw [a1, a2]; exact ⟨rfl, rfl⟩)
    (m := 1 + 1 / 2 ^ 33) (e := 1 / 2 ^ 400) (V := (1 + 1 / 2 ^ 33) * V + 1 / 2 ^ 400) (by positivity) (by positivity)
    (by positivity)
    (by
      have a1 : (1 : ℝ) / 2 ^ 400 ≤ 1 := S_one 400
      have a2 : (V : ℝ) ≤ T 400 := hV1
      have a3 := T_one 400
      have a4 := T_twice (n := 400) (m := 401) rfl
      have a5 := T_twice (n := 401) (m := 402) rfl
      have a6 : T 402 ≤ 2 ^ 500 := T_le (by norm_num)
      refine le_trans ?_ a6
      generalize (1 : ℝ) / 2 ^ 400 = e at a1 ⊢
      linarith)
    (fun p hp => near p (List.mem_append_left _ hp) ⟨(hP p hp).1, (hP p hp).2.1⟩)
    (fun p hp => near p (List.mem_append_right _ hp) ⟨(hQ p hp).1, (hQ p hp).2.1⟩)
    memP memQ ht0 ht outSize (by rw [hn1, mul_one]; exact hout) junk scratch hmem out hod
  have hd := drop_le ht0.le hV0
  refine ⟨P, Q, n, o, h1, h2, h3, ?_⟩
  rcases h4 with ⟨e1, e2, e3⟩ | ⟨e1, e2, e3⟩
  · refine Or.inl ⟨e1, e2, fun ab hab cd hcd => ?_⟩
    exact (e3 ab hab cd hcd s0 s0 s0 s0 (by decide) (by decide) (by decide) (by decide) rfl rfl rfl rfl).trans
      (mul_le_mul_of_nonneg_left hd (q0 _ _ _ _))
  · refine Or.inr ⟨e1, fun ab hab cd hcd => ?_, fun k hk => e3 k (by rw [hn1, mul_one]; exact hk)⟩
    have := e2 ab hab cd hcd s0 s0 s0 s0 (by decide) (by decide) (by decide) (by decide) rfl rfl rfl rfl
    have i0 : Qrt.index psi4List ⟨⟨s0, s0⟩, ⟨s0, s0⟩, 0⟩ = 0 := by decide
    have L0 : totalL ssss = 0 := by decide
    have m0 : (min ssss.a ssss.b + min ssss.c ssss.d).toNat = 0 := by decide
    rw [hn1, mul_one, i0, L0, m0, pow_zero, mul_one, add_zero] at this
    exact this.trans (add_le_add le_rfl (mul_le_mul_of_nonneg_left hd (q0 _ _ _ _)))

/-- **C101, screening, arguments of the Boys function up to 10^8.** -/
theorem C101_screened_far (fused : Bool) (b : Build) {g : GenCfg} (hg : g.OK) (sh : ShCfg) (hl : 0 < sh.len)
    (hsc : sh.screening = true) {big : ℝ} (hb0 : 0 ≤ big) (hb : big ≤ 2 ^ 500)
    (psP psQ : List (Shell ℝ × Shell ℝ)) {R : ℝ} (hR0 : 0 ≤ R) (hR : R ≤ 2 ^ 10) (hP : PairsModerate psP R)
    (hQ : PairsModerate psQ R) (hbra : BatchesFull sh.len psP)
    (hn : ∀ p ∈ psP, ∀ q ∈ psQ, pairPrims p.1 p.2 * pairPrims q.1 q.2 ≤ 2 ^ 49)
    (hx : ∀ p ∈ psP, ∀ q ∈ psQ, ArgsBelow p.1 p.2 q.1 q.2 R (10 ^ 8))
    (ham : ∀ p ∈ psP ++ psQ, p.1.am = 0 ∧ p.2.am = 0) {V : ℝ} (hV0 : 0 ≤ V) (hV1 : V ≤ 2 ^ 400)
    (hV : ∀ p ∈ psP ++ psQ, ∀ i < p.1.nprim, ∀ j < p.2.nprim, fastVal p.1 p.2 i j ≤ V)
    (memP memQ : ℕ → ℝ) {t : ℝ} (ht0 : 0 < t) (ht : t ≤ 2 ^ 500) (outSize : ℕ)
    (hout : psP.length * psQ.length ≤ outSize) (junk : VPar ℝ)
    (scratch : ℕ → ℕ → ℕ → VMem ℝ) (hmem : HMem (Fd (ieee fused))) (out : ℕ → Fd (ieee fused))
    (hod : ∀ k, IsDouble (ieee fused) (out k).val) :
    ∃ P Q n o, completeList sh (shOps (ieee fused)) (fastSchwarz (value (ieee fused))) big psP memP = some P ∧
      completeList sh (shOps (ieee fused)) (fastSchwarz (value (ieee fused))) big psQ memQ = some Q ∧
      flOstei (ieee fused) b g ssss ⟨sh.len, P.1, Q.1, t, outSize, junk, scratch⟩ hmem out = some (n, o) ∧
      (n = -1 ∧ o = out ∧
        (∀ ab (hab : ab < psP.length) cd (hcd : cd < psQ.length),
          |shellERI psP[ab].1 psP[ab].2 psQ[cd].1 psQ[cd].2 s0 s0 s0 s0| ≤
            quartets psP[ab].1 psP[ab].2 psQ[cd].1 psQ[cd].2 * dropMax t V) ∨
      n = psP.length * psQ.length ∧
        (∀ ab (hab : ab < psP.length) cd (hcd : cd < psQ.length),
          |(o (ab * psQ.length + cd)).val - shellERI psP[ab].1 psP[ab].2 psQ[cd].1 psQ[cd].2 s0 s0 s0 s0| ≤
            errCount 9910 ssss (pairPrims psP[ab].1 psP[ab].2 * pairPrims psQ[cd].1 psQ[cd].2) * (1 / 2 ^ 52) *
              shellSize psP[ab].1 psP[ab].2 psQ[cd].1 psQ[cd].2 R 0 +
            quartets psP[ab].1 psP[ab].2 psQ[cd].1 psQ[cd].2 * dropMax t V) ∧
        ∀ k, psP.length * psQ.length ≤ k → o k = out k) := by
  have hf : ClassOK ssss := ⟨by unfold QAM.Valid; decide, rfl, by decide, by decide⟩
  have near : ∀ p ∈ psP ++ psQ, p.1.Moderate R ∧ p.2.Moderate R →
      NearBounding (value (ieee fused)) p.1 p.2 (1 + 1 / 2 ^ 33) (1 / 2 ^ 400) ((1 + 1 / 2 ^ 33) * V + 1 / 2 ^ 400) :=
    fun p hp hm => C101_near fused hR hm.1 hm.2 (ham p hp).1 (ham p hp).2 (hV p hp)
  have hn1 : ncartQ ssss = 1 := by decide
  have q0 : ∀ A B C D : Shell ℝ, 0 ≤ quartets A B C D := fun A B C D => by unfold quartets; positivity
  obtain ⟨P, Q, n, o, h1, h2, h3, h4⟩ := C100_screened_far fused b hg hf (by decide) sh hl hsc (value (ieee fused)) hb0 hb psP
    psQ hR0 hR hP hQ hbra hn hx
    (fun p hp => by
      obtain ⟨a1, a2⟩ := ham p (List.mem_append_left _ hp)
      rw [a1, a2]; exact ⟨rfl, rfl⟩)
    (fun p hp => by
      obtain ⟨a1, a2⟩ := ham p (List.mem_append_right _ hp)
      rw [a1, a2]; exact ⟨rfl, rfl⟩)
    (m := 1 + 1 / 2 ^ 33) (e := 1 / 2 ^ 400) (V := (1 + 1 / 2 ^ 33) * V + 1 / 2 ^ 400) (by positivity) (by positivity)
    (by positivity)
    (by
      have a1 : (1 : ℝ) / 2 ^ 400 ≤ 1 := S_one 400
      have a2 : (V : ℝ) ≤ T 400 := hV1
      have a3 := T_one 400
      have a4 := T_twice (n := 400) (m := 401) rfl
      have a5 := T_twice (n := 401) (m := 402) rfl
      have a6 : T 402 ≤ 2 ^ 500 := T_le (by norm_num)
      refine le_trans ?_ a6
      generalize (1 : ℝ) / 2 ^ 400 = e at a1 ⊢
      linarith)
    (fun p hp => near p (List.mem_append_left _ hp) ⟨(hP p hp).1, (hP p hp).2.1⟩)
    (fun p hp => near p (List.mem_append_right _ hp) ⟨(hQ p hp).1, (hQ p hp).2.1⟩)
    memP memQ ht0 ht outSize (by rw [hn1, mul_one]; exact hout) junk scratch hmem out hod
  have hd := drop_le ht0.le hV0
  refine ⟨P, Q, n, o, h1, h2, h3, ?_⟩
  rcases h4 with ⟨e1, e2, e3⟩ | ⟨e1, e2, e3⟩
  · refine Or.inl ⟨e1, e2, fun ab hab cd hcd => ?_⟩
    exact (e3 ab hab cd hcd s0 s0 s0 s0 (by decide) (by decide) (by decide) (by decide) rfl rfl rfl rfl).trans
      (mul_le_mul_of_nonneg_left hd (q0 _ _ _ _))
  · refine Or.inr ⟨e1, fun ab hab cd hcd => ?_, fun k hk => e3 k (by rw [hn1, mul_one]; exact hk)⟩
    have := e2 ab hab cd hcd s0 s0 s0 s0 (by decide) (by decide) (by decide) (by decide) rfl rfl rfl rfl
    have i0 : Qrt.index psi4List ⟨⟨s0, s0⟩, ⟨s0, s0⟩, 0⟩ = 0 := by decide
    have L0 : totalL ssss = 0 := by decide
    have m0 : (min ssss.a ssss.b + min ssss.c ssss.d).toNat = 0 := by decide
    rw [hn1, mul_one, i0, L0, m0, pow_zero, mul_one, add_zero] at this
    exact this.trans (add_le_add le_rfl (mul_le_mul_of_nonneg_left hd (q0 _ _ _ _)))

/-! ### The hypotheses can be met -/

/-- One pair of s shells, tolerance 10^-10, fast screening. -/
example (fused : Bool) (b : Build) {g : GenCfg} (hg : g.OK) (junk : VPar ℝ) (scratch : ℕ → ℕ → ℕ → VMem ℝ)
    (mem : ℕ → ℝ) (hmem : HMem (Fd (ieee fused))) (out : ℕ → Fd (ieee fused))
    (hod : ∀ k, IsDouble (ieee fused) (out k).val) :
    let A := sShell 1 0
    let B := sShell 2 1
    ∃ P n o, completeList ⟨4, true, false⟩ (shOps (ieee fused)) (fastSchwarz (value (ieee fused))) 1e99 [(A, B)] mem =
        some P ∧
      flOstei (ieee fused) b g ssss ⟨4, P.1, P.1, 1 / 10 ^ 10, 1, junk, scratch⟩ hmem out = some (n, o) ∧
      (n = 1 → |(o 0).val - shellERI A B A B s0 s0 s0 s0| ≤
        672 * (1 / 2 ^ 52) * shellSize A B A B 1 0 + 1.0001 / 10 ^ 10) := by
  intro A B
  have hps : PairsModerate [(A, B)] 1 := by
    intro p hp
    rw [List.mem_singleton] at hp
    subst hp
    exact ⟨sShell_moderate 1 (.inl rfl), sShell_moderate 2 (.inr rfl), fun h => absurd h (by decide)⟩
  have big : (1e99 : ℝ) ≤ 2 ^ 500 := by
    calc (1e99 : ℝ) = (10 ^ 33) ^ 3 := by norm_num
      _ ≤ (2 ^ 110) ^ 3 := pow_le_pow_left₀ (by norm_num) (by norm_num) 3
      _ = 2 ^ 330 := by rw [← pow_mul]
      _ ≤ 2 ^ 500 := pow_le_pow_right₀ (by norm_num) (by norm_num)
  have two : (1 : ℝ) ≤ 2 ^ 500 := one_le_pow₀ (by norm_num)
  have two' : (2 : ℝ) ^ 6 ≤ 2 ^ 400 := pow_le_pow_right₀ (by norm_num) (by norm_num)
  have one : ∀ p ∈ [(A, B)] ++ [(A, B)], p = (A, B) := by simp
  obtain ⟨P, Q, n, o, h1, h2, h3, h4⟩ := C101_screened fused b hg ⟨4, true, false⟩ (by decide) rfl
    (by norm_num) big [(A, B)] [(A, B)] zero_le_one (by norm_num) hps hps
    (batchesFull_one (by rw [List.length_singleton]; decide))
    (fun p hp q hq => by
      rw [List.mem_singleton] at hp hq
      subst hp hq
      have : pairPrims A B = 1 := by decide
      simp only [this]
      norm_num)
    (fun p hp q hq => by
      rw [List.mem_singleton] at hp hq
      subst hp hq
      exact sShell_args)
    (fun p hp => by rw [one p hp]; exact ⟨rfl, rfl⟩) (V := 32) (by norm_num) (le_trans (by norm_num) two')
    (fun p hp i hi j hj => by
      rw [one p hp] at hi hj ⊢
      have ok : ∀ {X : Shell ℝ}, X.Moderate 1 → X.OK := fun m =>
        ⟨m.prims, fun k hk => lt_of_lt_of_le (by positivity) (m.lo k hk)⟩
      rw [C70_value (ok (sShell_moderate 1 (.inl rfl))) (ok (sShell_moderate 2 (.inr rfl))) hi hj]
      exact (sShell_self (A, B) (by simp [A, B]) i hi j hj).2.2 ⟨0, 0, 0⟩ ⟨0, 0, 0⟩ ⟨le_rfl, le_rfl, le_rfl, rfl⟩
        ⟨le_rfl, le_rfl, le_rfl, rfl⟩)
    mem mem (t := 1 / 10 ^ 10) (by norm_num)
    (le_trans (by norm_num) two) 1 (by simp) junk scratch hmem out hod
  rw [h1] at h2
  obtain rfl := Option.some.inj h2
  refine ⟨P, n, o, h1, h3, fun hn => ?_⟩
  rcases h4 with ⟨e, -⟩ | ⟨-, h, -⟩
  · rw [hn] at e
    exact absurd e (by decide)
  · have := h 0 (by simp) 0 (by simp)
    have e1 : quartets A B A B = 1 := by simp [quartets, A, B, sShell]
    have e2 : errCount 226 ssss (pairPrims A B * pairPrims A B) = 672 := by decide
    simp only [List.getElem_cons_zero, e1, e2, zero_mul, zero_add, one_mul] at this
    refine this.trans (add_le_add (by push_cast; exact le_rfl) ?_)
    unfold dropMax
    norm_num

/-- The exact value for a pair of shells is not zero. -/
example : 0 < fastVal (sShell 1 0) (sShell 2 1) 0 0 := by
  have ok : ∀ {X : Shell ℝ}, X.Moderate 1 → X.OK := fun m =>
    ⟨m.prims, fun k hk => lt_of_lt_of_le (by positivity) (m.lo k hk)⟩
  exact fastVal_pos (ok (sShell_moderate 1 (.inl rfl))) (ok (sShell_moderate 2 (.inr rfl))) Nat.one_pos Nat.one_pos
    one_ne_zero one_ne_zero

end Simint.FlFast
