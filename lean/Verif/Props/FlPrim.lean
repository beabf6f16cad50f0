import Verif.FlLoopLemmas
import Verif.FunctionLemmas
import Verif.Props.FlBoys
import Verif.Props.VRRRound
import Verif.HRRRoundLemmas

/-!
# C86: rounding errors of shell pairs and of the primitive loop

Shells and pairs of moderate size (`PairIn`), arithmetic `Sound`: doubles rounded to nearest
(`C86_ieee`) or anything with the same error bounds.
-/

set_option autoImplicit false

open Real

namespace Simint.FlPrim

open FlBoys (Arith Rounds u rn ieee)
open VRRRound (ParNear ParBound growth)

/-- Doubles rounded to nearest are covered, with fused multiply-add and without. -/
theorem C86_ieee (fused : Bool) : Sound (ieee fused) := sound_ieee fused

theorem Approx.bound {k : ℕ} {x' x X : ℝ} (h : Approx k x' x X) (hk : k ≤ 2 ^ 52) :
    |x' - x| ≤ k * (1 / 2 ^ 52) * X :=
  h.err.trans (mul_le_mul_of_nonneg_right (γ_le hk) h.nonneg)

/-- What is stored for a pair of primitives: the exponent has a relative error of one rounding, the
errors of the center and of the distances to the two shells are relative to the coordinates, and the
prefactor has an error relative to itself times one plus the exponent of the Gaussian factor. -/
theorem C86_pair {F : Arith} (hF : Sound F) {A B : Shell ℝ} {a b : ℕ} {R : ℝ} (h : PairIn A B a b R) :
    |value F A B a b .alpha - (A.alpha a + B.alpha b)| ≤ 1 / 2 ^ 52 * (A.alpha a + B.alpha b) ∧
    (∀ d, |value F A B a b (.pos d) - center A B a b d| ≤ 5 * (1 / 2 ^ 52) * (R + 1 / 2 ^ 900)) ∧
    (∀ d, |value F A B a b (.PA d) - (center A B a b d - A.pos d)| ≤ 6 * (1 / 2 ^ 52) * diffMax R) ∧
    (∀ d, |value F A B a b (.PB d) - (center A B a b d - B.pos d)| ≤ 6 * (1 / 2 ^ 52) * diffMax R) ∧
    |value F A B a b .prefac - factor A B a b| ≤ 39 * (1 / 2 ^ 52) * factorMax A B a b := by
  refine ⟨?_, fun d => ?_, fun d => ?_, fun d => ?_, ?_⟩
  · have := Approx.bound (sum_rl hF h).approx (by norm_num)
    rwa [Nat.cast_one, one_mul] at this
  · exact_mod_cast Approx.bound (pos_near hF h d) (by norm_num)
  · exact_mod_cast Approx.bound (PA_near hF h d) (by norm_num)
  · exact_mod_cast Approx.bound (PB_near hF h d) (by norm_num)
  · exact_mod_cast Approx.bound (prefac_near hF h) (by norm_num)

/-- The variables of the primitive loop, all of them, have errors of at most 19 roundings, relative to
the coordinates (`parMax`) or to themselves. -/
theorem C86_vars {F : Arith} (hF : Sound F) {A B C D : Shell ℝ} {a b c d : ℕ} {R : ℝ} (hP : PairIn A B a b R)
    (hQ : PairIn C D c d R) {P Q : MSP ℝ} {i j : ℕ} (eP : Elem P i (value F A B a b))
    (eQ : Elem Q j (value F C D c d)) : ParNear 19 (allVars F P Q i j)
      (pairsOf hP.ar.pos hP.br.pos hQ.ar.pos hQ.br.pos A.pos B.pos C.pos D.pos).par
      (parMax R (A.alpha a + B.alpha b) (C.alpha c + D.alpha d)) := vars_near hF hP hQ eP eQ

/-- The argument of the Boys function. -/
theorem C86_arg {F : Arith} (hF : Sound F) {A B C D : Shell ℝ} {a b c d : ℕ} {R : ℝ} (hP : PairIn A B a b R)
    (hQ : PairIn C D c d R) {P Q : MSP ℝ} {i j : ℕ} (eP : Elem P i (value F A B a b))
    (eQ : Elem Q j (value F C D c d)) :
    let rho := (A.alpha a + B.alpha b) * (C.alpha c + D.alpha d) / (A.alpha a + B.alpha b + (C.alpha c + D.alpha d))
    0 ≤ fx F P Q i j ∧ |fx F P Q i j - dist2 (center A B a b) (center C D c d) * rho| ≤
      24 * (1 / 2 ^ 52) * (3 * diffMax R ^ 2 * rho + 1) := by
  obtain ⟨h0, h⟩ := fx_near hF hP hQ eP eQ
  refine ⟨h0, ?_⟩
  have := Approx.bound h (by norm_num)
  unfold argT at this
  rw [mul_one_div] at this
  exact_mod_cast this

theorem flLoopVars_all {F : Arith} {g : GenCfg} {dir : RRType × RRType} {ams : List QAM} {L : ℕ} {H : HRRAlgo}
    {A : VRRAlgo} (hA : AlgosOK g dir ams L H A) (junk : VPar ℝ) (P Q : MSP ℝ) (i j : ℕ) : ∀ s ∈ A.steps,
    (loopVars F A junk P Q i j).Agree (allVars F P Q i j) s.type := by
  intro s hs
  have hhas : A.has s.type = true := by
    simp only [VRRAlgo.has, List.any_eq_true, decide_eq_true_eq]
    exact ⟨s, hs, rfl⟩
  obtain ⟨hIJ, hKL⟩ := has_excl hA
  cases ht : s.type <;> rw [ht] at hhas
  · constructor <;> simp [VPar.pa, VPar.apq, VPar.ao, VPar.o2, RRType.isBra, loopVars, hhas, allVars]
  · have hI : A.has .I = false := by
      by_contra h
      exact hIJ ⟨by simpa using h, hhas⟩
    constructor <;> simp [VPar.pa, VPar.apq, VPar.ao, VPar.o2, RRType.isBra, loopVars, hhas, hI, allVars]
  · constructor <;> simp [VPar.pa, VPar.apq, VPar.ao, VPar.o2, RRType.isBra, loopVars, hhas, allVars]
  · have hK : A.has .K = false := by
      by_contra h
      exact hKL ⟨by simpa using h, hhas⟩
    constructor <;> simp [VPar.pa, VPar.apq, VPar.ao, VPar.o2, RRType.isBra, loopVars, hhas, hK, allVars]

theorem parBound {A B C D : Shell ℝ} {a b c d : ℕ} {R : ℝ} (hP : PairIn A B a b R) (hQ : PairIn C D c d R)
    (hD : 0 < diffMax R) :
    ParBound (parMax R (A.alpha a + B.alpha b) (C.alpha c + D.alpha d)) (stepMax R)
      (lowMax (A.alpha a + B.alpha b) (C.alpha c + D.alpha d)) := by
  have hκ := κ_pos
  have h1 := hP.sumR.pos
  have h2 := hQ.sumR.pos
  set p := A.alpha a + B.alpha b
  set q := C.alpha c + D.alpha d
  have i1 : 0 < 1 / p := by positivity
  have i2 : 0 < 1 / q := by positivity
  have i3 : 0 < 1 / (p + q) := by positivity
  have i4 : 1 / (p + q) ≤ 1 / p := one_div_le_one_div_of_le h1 (by linarith)
  have m1 := le_max_left (1 / 2 * (1 / p)) (1 / 2 * (1 / q))
  have m2 := le_max_right (1 / 2 * (1 / p)) (1 / 2 * (1 / q))
  constructor
  · intro _
    show 0 ≤ diffMax R ∧ 0 ≤ diffMax R + κ ∧ diffMax R + (diffMax R + κ) ≤ stepMax R
    unfold stepMax
    exact ⟨hD.le, by linarith, by linarith⟩
  · intro _
    show 0 ≤ diffMax R ∧ diffMax R + (diffMax R + κ) ≤ stepMax R
    unfold stepMax
    exact ⟨hD.le, by linarith⟩
  · intro _
    show 0 ≤ diffMax R ∧ 0 ≤ diffMax R + κ ∧ diffMax R + (diffMax R + κ) ≤ stepMax R
    unfold stepMax
    exact ⟨hD.le, by linarith, by linarith⟩
  · intro _
    show 0 ≤ diffMax R ∧ diffMax R + (diffMax R + κ) ≤ stepMax R
    unfold stepMax
    exact ⟨hD.le, by linarith⟩
  · show 0 ≤ 1 / 2 * (1 / p) ∧ (0 : ℝ) ≤ 1 ∧ (1 / 2 * (1 / p) + κ) * (2 + 1) ≤ lowMax p q
    unfold lowMax
    exact ⟨by linarith, by norm_num, by linarith⟩
  · show 0 ≤ 1 / 2 * (1 / q) ∧ (0 : ℝ) ≤ 1 ∧ (1 / 2 * (1 / q) + κ) * (2 + 1) ≤ lowMax p q
    unfold lowMax
    exact ⟨by linarith, by norm_num, by linarith⟩
  · show 0 ≤ 1 / 2 * (1 / (p + q)) ∧ 1 / 2 * (1 / (p + q)) + κ ≤ lowMax p q
    unfold lowMax
    exact ⟨by linarith, by linarith⟩

/-- What the errors of the start values are measured with is not tiny. -/
theorem startMax_low {F : Arith} (hF : Sound F) {A B C D : Shell ℝ} {a b c d : ℕ} {R : ℝ} (hP : PairIn A B a b R)
    (hQ : PairIn C D c d R) : (11 : ℝ) / 2 ^ 1022 ≤ startMax A B C D a b c d R := by
  obtain ⟨D1, D0⟩ := diffMax_le hF hP
  have hκ := κ_pos
  obtain ⟨-, P0⟩ := factorMax_le hF hP
  obtain ⟨-, Q0⟩ := factorMax_le hF hQ
  have h1 := hP.sumR.pos
  have h2 := hQ.sumR.pos
  have e : (11 : ℝ) / 2 ^ 1022 = 11 * κ := by unfold κ; ring
  have k : κ * T 4 ≤ S 800 := by
    rw [κT (show 4 + 1018 = 1022 by norm_num)]; exact S_le (by norm_num)
  have k4 : T 4 = 16 := by unfold T; norm_num
  rw [k4] at k
  rw [e]
  unfold startMax
  simp only
  rw [S_def]
  have w0 : 0 ≤ factorMax A B a b * factorMax C D c d * √(1 / (A.alpha a + B.alpha b + (C.alpha c + D.alpha d))) := by
    positivity
  have x0 : 0 ≤ 3 * diffMax R ^ 2 * ((A.alpha a + B.alpha b) * (C.alpha c + D.alpha d) /
      (A.alpha a + B.alpha b + (C.alpha c + D.alpha d))) := by positivity
  have y0 := S_pos 800
  generalize factorMax A B a b * factorMax C D c d * √(1 / (A.alpha a + B.alpha b + (C.alpha c + D.alpha d))) = w
    at w0 ⊢
  generalize 3 * diffMax R ^ 2 * ((A.alpha a + B.alpha b) * (C.alpha c + D.alpha d) /
      (A.alpha a + B.alpha b + (C.alpha c + D.alpha d))) = x at x0 ⊢
  have : 1 * S 800 ≤ (2 + x) * (w + S 800) :=
    mul_le_mul (by linarith) (by linarith) y0.le (by linarith)
  linarith

/-- One lane, for the algorithms of any set of classes. -/
theorem lane_err {g : GenCfg} (hg : g.OK) {dir : RRType × RRType} {ams : List QAM} {L : ℕ} (hL : L ≤ 36)
    {H : HRRAlgo} {V : VRRAlgo} (hA : AlgosOK g dir ams L H V) :
    ∀ F : Arith, Sound F → ∀ (A B C D : Shell ℝ) (a b c d : ℕ) (R : ℝ), PairIn A B a b R → PairIn C D c d R →
    ∀ (P Q : MSP ℝ) (i j v : ℕ), Elem P i (value F A B a b) → Elem Q (j + v) (value F C D c d) →
    ∀ (vec : Bool) (len kb : ℕ), kb ≤ 2 ^ 19 →
    (∀ n ≤ L, ∃ y,
      FlBoys.split F vec len (fun w => fx F P Q i (j + w)) (L) n v = some y ∧
        |y - boysF n (fx F P Q i (j + v))| ≤ ((1 + u) ^ kb - 1) * boysF n (fx F P Q i (j + v))) →
    3 * growth (startMax A B C D a b c d R) (stepMax R)
      (lowMax (A.alpha a + B.alpha b) (C.alpha c + D.alpha d)) (L) ≤ 2 ^ 1022 →
    ∀ (junk : VPar ℝ) (scratch : VMem ℝ), ∃ m,
      lane F g vec len V (L) junk P Q i j v (Q.prefac (j + v)) scratch = some m ∧
      ∀ q : Qrt, q.Valid → q.am4 ∈ H.top.map QAM.notag →
        |coefs A B C D a b c d *
            coulomb (A.alpha a) (B.alpha b) (C.alpha c) (D.alpha d) A.pos B.pos C.pos D.pos
              q.bra.left q.bra.right q.ket.left q.ket.right| ≤ growth (startMax A B C D a b c d R) (stepMax R)
            (lowMax (A.alpha a + B.alpha b) (C.alpha c + D.alpha d)) q.am.toNat ∧
        |m q.am4 (q.index psi4List) - coefs A B C D a b c d *
            coulomb (A.alpha a) (B.alpha b) (C.alpha c) (D.alpha d) A.pos B.pos C.pos D.pos
              q.bra.left q.bra.right q.ket.left q.ket.right| ≤
          (kb + 110 + 46 * q.am.toNat : ℕ) * (1 / 2 ^ 52) * growth (startMax A B C D a b c d R) (stepMax R)
            (lowMax (A.alpha a + B.alpha b) (C.alpha c + D.alpha d)) q.am.toNat := by
  intro F hF A B C D a b c d R hP hQ P Q i j v eP eQ vec len kb hkb hboys hgr junk scratch
  have hvt : ∀ a ∈ H.top.map QAM.notag, a.valid = true ∧ a.tag = "" := by
    intro a ha
    obtain ⟨t, ht, rfl⟩ := List.mem_map.1 ha
    exact ⟨valid_of_Valid (q := t.notag) (hA.tval t ht), rfl⟩
  obtain ⟨V', M, e', m1, hrun⟩ := VRRRound.C85_closed psi4_ordOK psi4_start hg.V hvt hA.vmode
  rw [hA.vcreate, Option.some.injEq] at e'
  subst e'
  rw [hA.mreq, Option.some.injEq] at m1
  subst m1
  have hsum : ∀ a ∈ H.top.map QAM.notag, a.a + a.b + a.c + a.d ≤ (L : ℤ) := by
    obtain ⟨A', e', -, M, m1, m2, -⟩ := C15_orders_sufficient psi4_ordOK psi4_start hg.V
      (vrrDirections_nodup _) (vrrDirections_mem (classTargets psi4List (H.top.map QAM.notag))) hvt
    rw [hA.vcreate, Option.some.injEq] at e'
    subst e'
    rw [hA.mreq, Option.some.injEq] at m1
    subst m1
    exact m2
  obtain ⟨D1, D0⟩ := diffMax_le hF hP
  have hκ := κ_pos
  have hsz : L + 1 ≤ vSize V.mreq ssss := by
    simp only [vSize, hA.mreq]
    have : ncartQ ssss = 1 := by decide
    rw [this]
    omega
  have hs := startMax_low hF hP hQ
  have hv : (L : ℝ) * lowMax (A.alpha a + B.alpha b) (C.alpha c + D.alpha d) ≤ 2 ^ 1022 := by
    have p1 : 1 / (A.alpha a + B.alpha b) ≤ T 100 := hP.inv_le
    have q1 : 1 / (C.alpha c + D.alpha d) ≤ T 100 := hQ.inv_le
    have p0 : 0 < 1 / (A.alpha a + B.alpha b) := by have := hP.sumR.pos; positivity
    have t1 := T_one 100
    have hκ1 : κ ≤ 1 := κS ▸ S_one 1022
    have m : max (1 / 2 * (1 / (A.alpha a + B.alpha b))) (1 / 2 * (1 / (C.alpha c + D.alpha d))) ≤ T 100 :=
      max_le (by linarith) (by linarith)
    have m0 : 0 ≤ max (1 / 2 * (1 / (A.alpha a + B.alpha b))) (1 / 2 * (1 / (C.alpha c + D.alpha d))) :=
      le_max_of_le_left (by linarith)
    have k1 := T_twice (n := 100) rfl
    have k2 := T_twice (n := 101) rfl
    have k3 := T_twice (n := 102) rfl
    have l1 : lowMax (A.alpha a + B.alpha b) (C.alpha c + D.alpha d) ≤ T 103 := by
      unfold lowMax; linarith
    have l0 : 0 ≤ lowMax (A.alpha a + B.alpha b) (C.alpha c + D.alpha d) := by
      unfold lowMax; linarith
    have l2 : (L : ℝ) ≤ T 6 := by
      have : (L : ℝ) ≤ 36 := by exact_mod_cast hL
      unfold T; norm_num; linarith
    rw [T_def]
    exact (mul_T l2 l1 l0 le_rfl).trans (T_le (by norm_num))
  have hall : ∀ n ≤ L,
      (FlBoys.split F vec len (fun w => fx F P Q i (j + w)) (L) n v).isSome := by
    intro n hn
    obtain ⟨y, e, -⟩ := hboys n hn
    rw [e]; rfl
  unfold lane
  simp only
  rw [if_pos ⟨hsz, hall⟩]
  have hcong : ∀ m, VRRRound.run F psi4List g.enumV g.ve g.vg V (loopVars F V junk P Q i (j + v)) V.order m =
      VRRRound.run F psi4List g.enumV g.ve g.vg V (allVars F P Q i (j + v)) V.order m := fun m =>
    @vRunAllM_congr ℝ (VRRRound.flOps F) _ _ _ _ _ _ _ (flLoopVars_all hA junk P Q i (j + v)) _ m
  rw [hcong]
  obtain ⟨m', r, h⟩ := hrun F hF.toRounds
    (pairsOf hP.ar.pos hP.br.pos hQ.ar.pos hQ.br.pos A.pos B.pos C.pos D.pos) (scale A B C D a b c d) 19
    (allVars F P Q i (j + v)) _ (vars_near hF hP hQ eP eQ) (stepMax R)
    (lowMax (A.alpha a + B.alpha b) (C.alpha c + D.alpha d)) (startMax A B C D a b c d R)
    (parBound hP hQ D0) hs (L) (kb + 110) (by norm_num at hkb ⊢; omega)
    (by rw [show (2 : ℝ) + (parMax R (A.alpha a + B.alpha b) (C.alpha c + D.alpha d)).aop = 3 from by
          show (2 : ℝ) + 1 = 3; norm_num]; exact hgr)
    (by rw [show (2 : ℝ) + (parMax R (A.alpha a + B.alpha b) (C.alpha c + D.alpha d)).aoq = 3 from by
          show (2 : ℝ) + 1 = 3; norm_num]; exact hgr) hv
    (fun t n => if t = ssss ∧ n ≤ L then
      F.fl ((FlBoys.split F vec len (fun w => fx F P Q i (j + w)) (L) n v).getD 0 *
        prefac F P Q i (j + v) (Q.prefac (j + v))) else scratch t n) (by
      intro n hn _
      have hn' : n ≤ L := by exact_mod_cast hn
      obtain ⟨y, e, hy⟩ := hboys n hn'
      rw [if_pos ⟨rfl, hn'⟩, e, Option.getD_some, eri_start hP hQ]
      have := start_near hF hP hQ eP eQ hkb hy
      exact ⟨this.le, this.err⟩)
  refine ⟨m', r, ?_⟩
  intro q hq hqt
  obtain ⟨Mq, -, h0, h⟩ := h q hq hqt
  have := h 0 (by exact_mod_cast h0) (by
    have := hsum _ hqt
    simp only [Qrt.am4] at this
    unfold Qrt.am
    push_cast
    linarith)
  rw [eri_zero hP hQ] at this
  simpa [Qrt.cen] using this

/-- One lane of the primitive loop, from the shells to the integrals over primitives: with values of
the Boys function that have a relative error of `kb` roundings, the integrals that go into the
contraction are the coefficients times the electron repulsion integrals of the four primitives, with
an error of at most `kb + 110 + 46 l` times `2^-52` times `startMax ∏ (1 + w + j v)`, `j < l`, where
`l` is the total angular momentum; the integrals themselves are not larger than that product. -/
theorem C86_lane {g : GenCfg} (hg : g.OK) {final : QAM} (hf : ClassOK final) :
    ∃ H V, g.algos final = some (H, V) ∧
    ∀ F : Arith, Sound F → ∀ (A B C D : Shell ℝ) (a b c d : ℕ) (R : ℝ), PairIn A B a b R → PairIn C D c d R →
    ∀ (P Q : MSP ℝ) (i j v : ℕ), Elem P i (value F A B a b) → Elem Q (j + v) (value F C D c d) →
    ∀ (vec : Bool) (len kb : ℕ), kb ≤ 2 ^ 19 →
    (∀ n ≤ totalL final, ∃ y,
      FlBoys.split F vec len (fun w => fx F P Q i (j + w)) (totalL final) n v = some y ∧
        |y - boysF n (fx F P Q i (j + v))| ≤ ((1 + u) ^ kb - 1) * boysF n (fx F P Q i (j + v))) →
    3 * growth (startMax A B C D a b c d R) (stepMax R)
      (lowMax (A.alpha a + B.alpha b) (C.alpha c + D.alpha d)) (totalL final) ≤ 2 ^ 1022 →
    ∀ (junk : VPar ℝ) (scratch : VMem ℝ), ∃ m,
      lane F g vec len V (totalL final) junk P Q i j v (Q.prefac (j + v)) scratch = some m ∧
      ∀ q : Qrt, q.Valid → q.am4 ∈ H.top.map QAM.notag →
        |coefs A B C D a b c d *
            coulomb (A.alpha a) (B.alpha b) (C.alpha c) (D.alpha d) A.pos B.pos C.pos D.pos
              q.bra.left q.bra.right q.ket.left q.ket.right| ≤ growth (startMax A B C D a b c d R) (stepMax R)
            (lowMax (A.alpha a + B.alpha b) (C.alpha c + D.alpha d)) q.am.toNat ∧
        |m q.am4 (q.index psi4List) - coefs A B C D a b c d *
            coulomb (A.alpha a) (B.alpha b) (C.alpha c) (D.alpha d) A.pos B.pos C.pos D.pos
              q.bra.left q.bra.right q.ket.left q.ket.right| ≤
          (kb + 110 + 46 * q.am.toNat : ℕ) * (1 / 2 ^ 52) * growth (startMax A B C D a b c d R) (stepMax R)
            (lowMax (A.alpha a + B.alpha b) (C.alpha c + D.alpha d)) q.am.toNat := by
  obtain ⟨H, V, eg, hA⟩ := algos_ok hg hf
  refine ⟨H, V, eg, lane_err hg ?_ hA⟩
  have h1 := hf.bra
  have h2 := hf.ket
  unfold totalL
  omega

theorem laneErr {P : VMem ℝ → Prop} {T : Qrt → Prop} {U V : VMem ℝ → Qrt → Prop}
    (h : ∃ m, P m ∧ ∀ q : Qrt, q.Valid → T q → U m q ∧ V m q) :
    ∃ m, P m ∧ ∀ q : Qrt, q.Valid → T q → V m q := by
  obtain ⟨m, h1, h2⟩ := h
  exact ⟨m, h1, fun q hq ht => (h2 q hq ht).2⟩

theorem γ_ge {k : ℕ} {e : ℝ} (h : e ≤ k * (1 / 2 ^ 53)) : e ≤ (1 + u) ^ k - 1 := by
  have := one_add_mul_le_pow (a := u) (by have := u_pos; linarith) k
  unfold u at this ⊢
  linarith

/-- With the Boys function of the library, argument below 36.5 and total angular momentum up to 24:
the error is at most `336 + 46 l` times `2^-52` times the bound of the integrals. -/
theorem C86_near {g : GenCfg} (hg : g.OK) {final : QAM} (hf : ClassOK final) (hL : totalL final ≤ 24) :
    ∃ H V, g.algos final = some (H, V) ∧
    ∀ F : Arith, Sound F → ∀ (A B C D : Shell ℝ) (a b c d : ℕ) (R : ℝ), PairIn A B a b R → PairIn C D c d R →
    ∀ (P Q : MSP ℝ) (i j v : ℕ), Elem P i (value F A B a b) → Elem Q (j + v) (value F C D c d) →
    ∀ (vec : Bool) (len : ℕ), v < len → fx F P Q i (j + v) < 36.5 →
    3 * growth (startMax A B C D a b c d R) (stepMax R)
      (lowMax (A.alpha a + B.alpha b) (C.alpha c + D.alpha d)) (totalL final) ≤ 2 ^ 1022 →
    ∀ (junk : VPar ℝ) (scratch : VMem ℝ), ∃ m,
      lane F g vec len V (totalL final) junk P Q i j v (Q.prefac (j + v)) scratch = some m ∧
      ∀ q : Qrt, q.Valid → q.am4 ∈ H.top.map QAM.notag →
        |m q.am4 (q.index psi4List) - coefs A B C D a b c d *
            coulomb (A.alpha a) (B.alpha b) (C.alpha c) (D.alpha d) A.pos B.pos C.pos D.pos
              q.bra.left q.bra.right q.ket.left q.ket.right| ≤
          (336 + 46 * q.am.toNat : ℕ) * (1 / 2 ^ 52) * growth (startMax A B C D a b c d R) (stepMax R)
            (lowMax (A.alpha a + B.alpha b) (C.alpha c + D.alpha d)) q.am.toNat := by
  obtain ⟨H, V, eg, main⟩ := C86_lane hg hf
  refine ⟨H, V, eg, ?_⟩
  intro F hF A B C D a b c d R hP hQ P Q i j v eP eQ vec len hv hx hgr junk scratch
  refine laneErr (main F hF A B C D a b c d R hP hQ P Q i j v eP eQ vec len 226 (by norm_num) ?_ hgr junk scratch)
  intro n hn
  obtain ⟨y, e, hy⟩ := FlBoys.C83_near hF.toRounds vec (x := fun w => fx F P Q i (j + w)) hv
    (fx_near hF hP hQ eP eQ).1 hx hL hn
  exact ⟨y, e, hy.trans (mul_le_mul_of_nonneg_right (γ_ge (by norm_num)) (boysF_nonneg _ _))⟩

/-- Larger arguments, total angular momentum up to 3: `10020 + 46 l`, because the asymptotic formula
of the library is that much off. -/
theorem C86_far {g : GenCfg} (hg : g.OK) {final : QAM} (hf : ClassOK final) (hL : totalL final < 4) :
    ∃ H V, g.algos final = some (H, V) ∧
    ∀ F : Arith, Sound F → ∀ (A B C D : Shell ℝ) (a b c d : ℕ) (R : ℝ), PairIn A B a b R → PairIn C D c d R →
    ∀ (P Q : MSP ℝ) (i j v : ℕ), Elem P i (value F A B a b) → Elem Q (j + v) (value F C D c d) →
    ∀ (vec : Bool) (len : ℕ), v < len → fx F P Q i (j + v) ≤ 10 ^ 8 →
    3 * growth (startMax A B C D a b c d R) (stepMax R)
      (lowMax (A.alpha a + B.alpha b) (C.alpha c + D.alpha d)) (totalL final) ≤ 2 ^ 1022 →
    ∀ (junk : VPar ℝ) (scratch : VMem ℝ), ∃ m,
      lane F g vec len V (totalL final) junk P Q i j v (Q.prefac (j + v)) scratch = some m ∧
      ∀ q : Qrt, q.Valid → q.am4 ∈ H.top.map QAM.notag →
        |m q.am4 (q.index psi4List) - coefs A B C D a b c d *
            coulomb (A.alpha a) (B.alpha b) (C.alpha c) (D.alpha d) A.pos B.pos C.pos D.pos
              q.bra.left q.bra.right q.ket.left q.ket.right| ≤
          (10020 + 46 * q.am.toNat : ℕ) * (1 / 2 ^ 52) * growth (startMax A B C D a b c d R) (stepMax R)
            (lowMax (A.alpha a + B.alpha b) (C.alpha c + D.alpha d)) q.am.toNat := by
  obtain ⟨H, V, eg, main⟩ := C86_lane hg hf
  refine ⟨H, V, eg, ?_⟩
  intro F hF A B C D a b c d R hP hQ P Q i j v eP eQ vec len hv hx hgr junk scratch
  refine laneErr (main F hF A B C D a b c d R hP hQ P Q i j v eP eQ vec len 9910 (by norm_num) ?_ hgr junk scratch)
  intro n hn
  by_cases h36 : fx F P Q i (j + v) < 36.5
  · obtain ⟨y, e, hy⟩ := FlBoys.C83_near hF.toRounds vec (x := fun w => fx F P Q i (j + w)) hv
      (fx_near hF hP hQ eP eQ).1 h36 (by omega) hn
    exact ⟨y, e, hy.trans (mul_le_mul_of_nonneg_right (γ_ge (by norm_num)) (boysF_nonneg _ _))⟩
  · obtain ⟨y, e, hy⟩ := FlBoys.C83_far_small hF.toRounds vec (x := fun w => fx F P Q i (j + w)) hv
      (not_lt.1 h36) hx hL hn
    exact ⟨y, e, hy.trans (mul_le_mul_of_nonneg_right (γ_ge (by norm_num)) (boysF_nonneg _ _))⟩

/-! ## A case -/

/-- one primitive of exponent 1 at a distance `x` on the x axis -/
def unit (ptr : ℕ) (x : ℝ) : Shell ℝ := ⟨ptr, 0, 1, fun d => if d = .x then x else 0, fun _ => 1, fun _ => 1⟩

theorem unit_in {k l : ℕ} {x y R : ℝ} (hR : 0 ≤ R) (hR' : R ≤ 2 ^ 100) (hx : |x| ≤ R) (hy : |y| ≤ R) :
    PairIn (unit k x) (unit l y) 0 0 R where
  alo := by norm_num [unit]
  ahi := by norm_num [unit]
  blo := by norm_num [unit]
  bhi := by norm_num [unit]
  apos := by intro d; simp only [unit]; split_ifs <;> simp [hx, hR]
  bpos := by intro d; simp only [unit]; split_ifs <;> simp [hy, hR]
  rhi := hR'
  coef := by simp only [unit, mul_one, abs_one]; norm_num

/-- a list with one element -/
def single (v : Arr → ℝ) : MSP ℝ :=
  ⟨1, fun _ => 1, 1, fun _ => v .prefac, fun _ => 0, 0, fun _ => v .alpha, fun d _ => v (.pos d),
    fun d _ => v (.PA d), fun d _ => v (.PB d), fun _ _ => 0⟩

theorem single_elem (v : Arr → ℝ) (i : ℕ) : Elem (single v) i v := ⟨rfl, rfl, fun _ => rfl, fun _ => rfl, fun _ => rfl⟩

theorem unit_fx {F : Arith} (hF : Sound F) : fx F (single (value F (unit 0 0) (unit 1 0) 0 0))
    (single (value F (unit 2 1) (unit 3 1) 0 0)) 0 (0 + 0) < 36.5 := by
  obtain ⟨-, h⟩ := C86_arg hF (unit_in (k := 0) (l := 1) (x := 0) (y := 0) (R := 1) (by norm_num) (by norm_num) (by simp) (by simp))
    (unit_in (k := 2) (l := 3) (x := 1) (y := 1) (by norm_num) (by norm_num) (by simp) (by simp)) (single_elem _ 0) (single_elem _ 0)
  have s := S_one 800
  have s0 := S_pos 800
  have e1 : dist2 (center (unit 0 0) (unit 1 0) 0 0) (center (unit 2 1) (unit 3 1) 0 0) = 1 := by
    simp [dist2, center, unit]
  have e2 : ((unit 0 0).alpha 0 + (unit 1 0).alpha 0) * ((unit 2 1).alpha 0 + (unit 3 1).alpha 0) /
      ((unit 0 0).alpha 0 + (unit 1 0).alpha 0 + ((unit 2 1).alpha 0 + (unit 3 1).alpha 0)) = 1 := by
    norm_num [unit]
  have d : diffMax 1 ^ 2 ≤ 9 := by
    have : diffMax 1 ≤ 3 := by unfold diffMax; rw [S_def]; linarith
    have h0 : 0 ≤ diffMax 1 := by unfold diffMax; rw [S_def]; linarith
    nlinarith
  rw [e1, e2] at h
  have := (abs_le.1 h).2
  have k : (24 : ℝ) * (1 / 2 ^ 52) * (3 * diffMax 1 ^ 2 * 1 + 1) ≤ 1 := by
    have : (24 : ℝ) * (1 / 2 ^ 52) ≤ 1 / 28 := by norm_num
    calc (24 : ℝ) * (1 / 2 ^ 52) * (3 * diffMax 1 ^ 2 * 1 + 1) ≤ 1 / 28 * (3 * diffMax 1 ^ 2 * 1 + 1) :=
          mul_le_mul_of_nonneg_right this (by positivity)
      _ ≤ 1 := by linarith
  have e3 : (36.5 : ℝ) = 73 / 2 := by norm_num
  rw [e3]
  rw [zero_add]
  linarith

theorem startMax_le {F : Arith} (hF : Sound F) {A B C D : Shell ℝ} {a b c d : ℕ} {R : ℝ} (hP : PairIn A B a b R)
    (hQ : PairIn C D c d R) : startMax A B C D a b c d R ≤ T 821 ∧ 0 ≤ startMax A B C D a b c d R := by
  obtain ⟨P1, P0⟩ := factorMax_le hF hP
  obtain ⟨Q1, Q0⟩ := factorMax_le hF hQ
  obtain ⟨D1, D0⟩ := diffMax_le hF hP
  have rr := rho_le hP hQ
  rw [mul_one_div] at rr
  have h1 := hP.sumR.pos
  have h2 := hQ.sumR.pos
  have r0 : 0 < (A.alpha a + B.alpha b) * (C.alpha c + D.alpha d) /
        (A.alpha a + B.alpha b + (C.alpha c + D.alpha d)) := by positivity
  have sr := (hP.sumR.add hQ.sumR).inv.sqrt
  have s1 : √(1 / (A.alpha a + B.alpha b + (C.alpha c + D.alpha d))) ≤ T 102 := sr.hi
  have s0 := sr.pos
  have pq1 : factorMax A B a b * factorMax C D c d ≤ T 410 := mul_T P1 Q1 Q0.le le_rfl
  have l2 := mul_T pq1 s1 s0.le (le_refl 512)
  have l3 := add_T l2 ((S_one 800).trans (T_one 512)) (le_refl 513)
  have n3 : 0 ≤ factorMax A B a b * factorMax C D c d *
    √(1 / (A.alpha a + B.alpha b + (C.alpha c + D.alpha d))) + S 800 := by
    have := S_pos 800
    positivity
  have b1 : 2 + 3 * diffMax R ^ 2 * ((A.alpha a + B.alpha b) * (C.alpha c + D.alpha d) /
        (A.alpha a + B.alpha b + (C.alpha c + D.alpha d))) ≤ T 308 := by
    have sq : diffMax R ^ 2 ≤ T 204 := by rw [sq]; exact mul_T D1 D1 D0.le le_rfl
    have k0 := mul_T sq rr r0.le (le_refl 305)
    have k1 := T_twice (n := 305) rfl
    have k2 := T_twice (n := 306) rfl
    have k3 := T_twice (n := 307) rfl
    linarith [T_one 305]
  unfold startMax
  simp only
  rw [S_def]
  exact ⟨mul_T b1 l3 n3 le_rfl, mul_nonneg (by positivity) n3⟩

/-- `(ps|ss)` for two pairs at distance 1: the error is below 2^-43 times the bound -/
example {g : GenCfg} (hg : g.OK) (fused vec : Bool) (junk : VPar ℝ) (scratch : VMem ℝ) :
    ∃ H V m, g.algos ⟨1, 0, 0, 0, ""⟩ = some (H, V) ∧
      lane (ieee fused) g vec 4 V 1 junk (single (value (ieee fused) (unit 0 0) (unit 1 0) 0 0))
        (single (value (ieee fused) (unit 2 1) (unit 3 1) 0 0)) 0 0 0
        (value (ieee fused) (unit 2 1) (unit 3 1) 0 0 .prefac) scratch = some m ∧
      ∀ q : Qrt, q.Valid → q.am4 ∈ H.top.map QAM.notag →
        |m q.am4 (q.index psi4List) - coulomb 1 1 1 1 (unit 0 0).pos (unit 1 0).pos (unit 2 1).pos (unit 3 1).pos
              q.bra.left q.bra.right q.ket.left q.ket.right| ≤
          (336 + 46 * q.am.toNat : ℕ) * (1 / 2 ^ 52) * growth
            (startMax (unit 0 0) (unit 1 0) (unit 2 1) (unit 3 1) 0 0 0 0 1) (stepMax 1)
            (lowMax 2 2) q.am.toNat := by
  have hF := sound_ieee fused
  have hf : ClassOK ⟨1, 0, 0, 0, ""⟩ := by
    refine ⟨?_, rfl, ?_, ?_⟩ <;> simp [QAM.Valid]
  have hP := unit_in (k := 0) (l := 1) (x := 0) (y := 0) (R := 1) (by norm_num) (by norm_num) (by simp) (by simp)
  have hQ := unit_in (k := 2) (l := 3) (x := 1) (y := 1) (R := 1) (by norm_num) (by norm_num) (by simp) (by simp)
  obtain ⟨H, V, eg, main⟩ := C86_near hg hf (by decide)
  obtain ⟨m, e, h⟩ := main (ieee fused) hF _ _ _ _ 0 0 0 0 1 hP hQ _ _ 0 0 0 (single_elem _ 0) (single_elem _ (0 + 0))
    vec 4 (by norm_num) (unit_fx hF) (by
      obtain ⟨s1, s0⟩ := startMax_le hF hP hQ
      obtain ⟨D1, D0⟩ := diffMax_le hF hP
      have hκ1 : κ ≤ 1 := κS ▸ S_one 1022
      have hκ := κ_pos
      have t1 := T_one 102
      have k1 := T_twice (n := 102) rfl
      have k2 := T_twice (n := 103) rfl
      have w1 : 1 + stepMax 1 ≤ T 104 := by unfold stepMax; linarith
      have w0 : 0 ≤ 1 + stepMax 1 := by unfold stepMax; linarith
      have e : totalL ⟨1, 0, 0, 0, ""⟩ = 1 := by decide
      rw [e, growth, Finset.prod_range_one]
      have t := mul_T s1 w1 w0 (le_refl 925)
      have k3 := T_twice (n := 925) rfl
      have k4 := T_twice (n := 926) rfl
      have k5 : T 927 ≤ T 1022 := T_le (by norm_num)
      rw [T_def]
      simp only [Nat.cast_zero, zero_mul, add_zero]
      linarith [T_pos 925]) junk scratch
  refine ⟨H, V, m, eg, e, ?_⟩
  intro q hq hqt
  have := h q hq hqt
  have e1 : coefs (unit 0 0) (unit 1 0) (unit 2 1) (unit 3 1) 0 0 0 0 = 1 := by
    simp [coefs, mult, unit, sameShell]
  have e2 : (unit 0 0).alpha 0 + (unit 1 0).alpha 0 = (2 : ℝ) := by norm_num [unit]
  have e3 : (unit 2 1).alpha 0 + (unit 3 1).alpha 0 = (2 : ℝ) := by norm_num [unit]
  rw [e1, e2, e3, one_mul] at this
  exact this

/-! ## No relative bound -/

theorem rn_two (e : ℕ) : rn (2 ^ e) = 2 ^ e ∧ rn (-2 ^ e) = -2 ^ e := by
  have p : ∀ y : ℝ, |y| = 2 ^ e → FlBoys.lastPlace y = e - 52 := by
    intro y hy
    refine HRRRound.rn_place (e := e) ?_ ?_ (by omega)
    · rw [hy, zpow_natCast]
    · rw [hy, zpow_add₀ (by norm_num), zpow_natCast, zpow_one]
      have : (0 : ℝ) < 2 ^ e := by positivity
      linarith
  have q : (2 : ℝ) ^ e / 2 ^ ((e : ℤ) - 52) = ((2 ^ 52 : ℤ) : ℝ) := by
    rw [zpow_sub₀ (by norm_num), zpow_natCast]
    have : (0 : ℝ) < 2 ^ e := by positivity
    field_simp
    norm_num
  have r : ((2 ^ 52 : ℤ) : ℝ) * 2 ^ ((e : ℤ) - 52) = 2 ^ e := by
    rw [← q, div_mul_cancel₀]
    positivity
  constructor
  · unfold FlBoys.rn
    rw [p _ (abs_of_pos (by positivity)), q, round_intCast, r]
  · unfold FlBoys.rn
    rw [p _ (by rw [abs_neg]; exact abs_of_pos (by positivity)), neg_div, q, ← Int.cast_neg, round_intCast,
      Int.cast_neg, neg_mul, r]

/-- The prefactor has no bound of its error relative to itself: for exponents 1 at a distance of 64
the Gaussian factor underflows, and the prefactor is zero though the exact one is not. -/
theorem C86_underflow (fused : Bool) : PairIn (unit 0 0) (unit 1 64) 0 0 64 ∧
    value (ieee fused) (unit 0 0) (unit 1 64) 0 0 .prefac = 0 ∧ 0 < factor (unit 0 0) (unit 1 64) 0 0 := by
  refine ⟨unit_in (by norm_num) (by norm_num) (by norm_num) (by norm_num), ?_, ?_⟩
  · have r1 : rn 1 = 1 := by simpa using (rn_two 0).1
    have r2 : rn 2 = 2 := by simpa using (rn_two 1).1
    have r4 : rn 4096 = 4096 := by have := (rn_two 12).1; norm_num at this; exact this
    have n64 : rn (-64) = -64 := by have := (rn_two 6).2; norm_num at this; exact this
    have n4 : rn (-4096) = -4096 := by have := (rn_two 12).2; norm_num at this; exact this
    have n2 : rn (-2048) = -2048 := by have := (rn_two 11).2; norm_num at this; exact this
    have z := FlBoys.rn_zero
    have hx : xab (ieee fused) (unit 0 0) (unit 1 64) = 4096 := by
      cases fused <;> simp [xab, unit, ieee, n64, z] <;> norm_num [r4, z]
    have he : rn (exp (-2048)) = 0 := by
      refine FlBoys.rn_tiny ?_
      rw [abs_of_pos (exp_pos _)]
      have h1 : exp (-1) < 1 / 2 := by
        rw [exp_neg, inv_lt_comm₀ (exp_pos _) (by norm_num)]
        have := Real.exp_one_gt_d9
        norm_num
        linarith
      have e : exp (-2048) = exp (-1) ^ 2048 := by
        rw [← exp_nat_mul]; norm_num
      rw [e]
      unfold FlBoys.η
      calc exp (-1) ^ 2048 < (1 / 2) ^ 2048 := pow_lt_pow_left₀ h1 (exp_nonneg _) (by norm_num)
        _ = 1 / 2 ^ 2048 := by rw [one_div_pow]
        _ ≤ 1 / 2 ^ 1075 := one_div_le_one_div_of_le (by positivity) (pow_le_pow_right₀ (by norm_num) (by norm_num))
    have hs : sameShell (unit 0 0) (unit 1 64) = false := by simp [sameShell, unit]
    have key : value (ieee fused) (unit 0 0) (unit 1 64) 0 0 .prefac =
        if sameShell (unit 0 0) (unit 1 64) && decide (0 ≠ 0) then
          rn (rn (rn (rn (rn (1 * 1) * rn (exp (rn (rn (-xab (ieee fused) (unit 0 0) (unit 1 64) * rn (1 * 1)) / rn (1 + 1))))) *
            rn sqrtTwoPi52) / rn (1 + 1)) * 2)
        else rn (rn (rn (rn (1 * 1) * rn (exp (rn (rn (-xab (ieee fused) (unit 0 0) (unit 1 64) * rn (1 * 1)) / rn (1 + 1))))) *
            rn sqrtTwoPi52) / rn (1 + 1)) := rfl
    rw [key, hs, hx]
    have o : (1 : ℝ) + 1 = 2 := by norm_num
    have o' : (-4096 : ℝ) / 2 = -2048 := by norm_num
    simp [o, r1, r2, n4, o', n2, he, z]
  · unfold factor mult
    have := pi_pos
    simp only [unit, sameShell]
    norm_num
    positivity

end Simint.FlPrim
