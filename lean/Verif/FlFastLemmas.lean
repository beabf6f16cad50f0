import Verif.FlFast
import Verif.FlNormLemmas
import Verif.FlScreenLemmas
import Verif.Props.FastScreen

/-!
# Lemmas on rounded fast screening values
-/

set_option autoImplicit false

open Real

namespace Simint.FlFast

open FlBoys (Arith Rounds u η)
open FlPrim (T S T_def S_def T_pos S_pos T_one T_le S_le T_add T_mul T_twice S_twice S_one κT κS ov_T mul_T add_T xab PairIn
  gexp)
open FlNorm (PowOK pow_near InR.rpow)
open VRRRound (mul_near fma_near)

theorem const_lit : |sqrtTwoTimesPi52 - √2 * π ^ ((5 : ℝ) / 2)| ≤ u * (√2 * π ^ ((5 : ℝ) / 2)) := by
  set C := √2 * π ^ ((5 : ℝ) / 2) with hC
  have hp : 0 < π := pi_pos
  have h0 : 0 < C := by positivity
  have h4 : C ^ 2 = 2 * π ^ 5 := by
    rw [hC, mul_pow]
    have e1 : √2 ^ 2 = 2 := Real.sq_sqrt (by norm_num)
    have e2 : (π ^ ((5 : ℝ) / 2)) ^ 2 = π ^ 5 := by
      rw [← rpow_natCast (π ^ ((5 : ℝ) / 2)) 2, ← rpow_mul hp.le, ← rpow_natCast π 5]
      norm_num
    rw [e1, e2]
  have hlo := pi_gt_d20
  have hhi := pi_lt_d20
  have l5 : (3.14159265358979323846 : ℝ) ^ 5 ≤ π ^ 5 := pow_le_pow_left₀ (by norm_num) hlo.le 5
  have h5 : π ^ 5 ≤ (3.14159265358979323847 : ℝ) ^ 5 := pow_le_pow_left₀ hp.le hhi.le 5
  have lo : sqrtTwoTimesPi52 * (1 - 1 / 10 ^ 17) ≤ C := by
    refine le_of_pow_le_pow_left₀ (n := 2) (by norm_num) h0.le ?_
    rw [h4]
    refine le_trans ?_ (mul_le_mul_of_nonneg_left l5 (by norm_num))
    unfold sqrtTwoTimesPi52
    norm_num
  have hi : C ≤ sqrtTwoTimesPi52 * (1 + 1 / 10 ^ 17) := by
    refine le_of_pow_le_pow_left₀ (n := 2) (by norm_num) (by unfold sqrtTwoTimesPi52; norm_num) ?_
    rw [h4]
    refine le_trans (mul_le_mul_of_nonneg_left h5 (by norm_num)) ?_
    unfold sqrtTwoTimesPi52
    norm_num
  have hs : 0 < sqrtTwoTimesPi52 := by unfold sqrtTwoTimesPi52; norm_num
  have hu : 2 / 10 ^ 17 ≤ u := by unfold FlBoys.u; norm_num
  rw [abs_le]
  constructor <;> nlinarith

theorem const_rng : InR 5 (√2 * π ^ ((5 : ℝ) / 2)) := by
  have h := abs_le.1 const_lit
  have hu : u ≤ 1 / 100 := by unfold FlBoys.u; norm_num
  have h0 : 0 < √2 * π ^ ((5 : ℝ) / 2) := by have := pi_pos; positivity
  set C := √2 * π ^ ((5 : ℝ) / 2)
  have h1 : 24 < sqrtTwoTimesPi52 ∧ sqrtTwoTimesPi52 < 25 := by unfold sqrtTwoTimesPi52; constructor <;> norm_num
  have h2 : u * C ≤ 1 / 100 * C := mul_le_mul_of_nonneg_right hu h0.le
  constructor
  · norm_num at h1 ⊢; linarith
  · norm_num at h1 ⊢; linarith

theorem const_rl {F : Arith} (hF : Sound F) : Rl 2 5 (F.fl sqrtTwoTimesPi52) (√2 * π ^ ((5 : ℝ) / 2)) :=
  (⟨by rw [γ_one]; exact const_lit, const_rng⟩ : Rl 1 5 sqrtTwoTimesPi52 (√2 * π ^ ((5 : ℝ) / 2))).fl hF
    (by norm_num) (by norm_num)

theorem γ_linear (n : ℕ) : n * u ≤ γ n := by
  unfold γ
  have := one_add_mul_le_pow (show (-2 : ℝ) ≤ u by linarith [u_pos]) n
  linarith

/-- The exponential of an argument with a small relative error, as a relative error while the value is a
normal double. -/
theorem exp_near {F : Arith} (hF : Rounds F) {y a : ℝ} (hy : y ≤ 0) (ha : 0 ≤ a) (h : |y + a| ≤ γ 12 * (a + 1)) :
    Approx 131072 (F.exp y) (exp (-a)) (exp (-a) + κ) := by
  have hκ := κ_pos
  have hu := u_pos
  have hE := exp_pos (-a)
  have r := hF.exp y hy
  rw [η_eq] at r
  have h50 : (1 : ℝ) / 2 ^ 50 = 8 * u := by unfold FlBoys.u; norm_num
  rw [h50] at r
  have gs : γ 12 ≤ 24 * u := by
    have := γ_le (k := 12) (by norm_num)
    push_cast at this
    unfold FlBoys.u
    linarith
  have gb : 131072 * u ≤ γ 131072 := by
    have := γ_linear 131072
    push_cast at this
    exact this
  have usmall : u ≤ 1 / 2 ^ 50 := by unfold FlBoys.u; norm_num
  refine ⟨by rw [abs_of_pos hE]; linarith, ?_⟩
  have h6 : |F.exp y - exp (-a)| ≤ |F.exp y - exp y| + |exp y - exp (-a)| := by
    have := abs_add_le (F.exp y - exp y) (exp y - exp (-a))
    simpa using this
  have key : 131072 * u * (exp (-a) + κ) ≤ γ 131072 * (exp (-a) + κ) :=
    mul_le_mul_of_nonneg_right gb (by linarith)
  have uE := mul_pos hu hE
  have uκ := mul_pos hu hκ
  rcases le_total a 2048 with c | c
  · have hd : |y + a| ≤ 24 * u * 2049 :=
      h.trans (mul_le_mul gs (by linarith) (by linarith) (by linarith))
    have hd1 : |y + a| ≤ 1 / 100 := hd.trans (by linarith)
    have e1 : exp y = exp (-a) * exp (y + a) := by rw [← exp_add]; congr 1; ring
    have h1 := Real.abs_exp_sub_one_le (x := y + a) (by linarith)
    have h2 := (abs_le.1 h1).2
    have h3 : exp y ≤ exp (-a) * (1 + 2 / 100) := by
      rw [e1]; exact mul_le_mul_of_nonneg_left (by linarith) hE.le
    have h4 : |exp y - exp (-a)| ≤ exp (-a) * (2 * (24 * u * 2049)) := by
      rw [e1, show exp (-a) * exp (y + a) - exp (-a) = exp (-a) * (exp (y + a) - 1) by ring, abs_mul,
        abs_of_pos hE]
      exact mul_le_mul_of_nonneg_left (h1.trans (by linarith)) hE.le
    have h5 := mul_le_mul_of_nonneg_left h3 (by linarith : 0 ≤ 8 * u)
    nlinarith
  · have h1 := (abs_le.1 h).2
    have h2 : γ 12 * (a + 1) ≤ 1 / 2 ^ 40 * (a + 1) :=
      mul_le_mul_of_nonneg_right (gs.trans (by linarith)) (by linarith)
    have h3 : 2000 ≤ -y := by linarith
    have h4 := FlBoys.exp_tiny_neg h3
    have h5 := FlBoys.exp_tiny_neg (show 2000 ≤ a by linarith)
    rw [neg_neg, η_eq] at h4
    rw [η_eq] at h5
    have h7 : |exp y - exp (-a)| ≤ u * κ := by
      rw [abs_le]; constructor <;> linarith [exp_pos y]
    have h8 : 8 * u * exp y ≤ u * κ := by
      have h9 : 8 * u ≤ 1 := by linarith
      have := mul_le_mul_of_nonneg_right h9 (exp_pos y).le
      linarith
    nlinarith

section
variable {F : Arith} (hF : Sound F) {A B : Shell ℝ} {R : ℝ} (hR : R ≤ 2 ^ 10) (hA : A.Moderate R) (hB : B.Moderate R)
  {i j : ℕ} (hi : i < A.nprim) (hj : j < B.nprim)
include hA hB hi hj

theorem sum_in : InR 31 (A.alpha i + B.alpha j) := by
  have a1 := hA.lo i hi
  have a2 := hA.hi i hi
  have b1 := hB.lo j hj
  have b2 := hB.hi j hj
  constructor
  · norm_num at *; linarith
  · norm_num at *; linarith

theorem alpha_in : InR 30 (A.alpha i) ∧ InR 30 (B.alpha j) := by
  have a1 := hA.lo i hi
  have a2 := hA.hi i hi
  have b1 := hB.lo j hj
  have b2 := hB.hi j hj
  refine ⟨⟨?_, a2⟩, ?_, b2⟩
  · norm_num at *; linarith
  · norm_num at *; linarith

include hR in
theorem pair_in : PairIn A B i j R := by
  obtain ⟨a, b⟩ := alpha_in hA hB hi hj
  have a' := a.mono (show 30 ≤ 100 by norm_num)
  have b' := b.mono (show 30 ≤ 100 by norm_num)
  refine ⟨a'.lo, a'.hi, b'.lo, b'.hi, hA.pos, hB.pos, hR.trans (T_le (by norm_num)), ?_⟩
  rw [abs_mul]
  exact mul_T (n := 30) (m := 30) (hA.coef i hi) (hB.coef j hj) (abs_nonneg _) (by norm_num)

theorem gexp_nonneg : 0 ≤ gexp A B i j := by
  obtain ⟨a, b⟩ := alpha_in hA hB hi hj
  have := a.pos
  have := b.pos
  unfold gexp dist2
  positivity

include hF

theorem rho_rl : Rl 4 91 (F.fl (F.fl (A.alpha i * B.alpha j) / F.fl (A.alpha i + B.alpha j)))
    (A.alpha i * B.alpha j / (A.alpha i + B.alpha j)) := by
  obtain ⟨a, b⟩ := alpha_in hA hB hi hj
  have m := (Rl.of_exact a).flMul hF (Rl.of_exact b) (by norm_num) (by norm_num)
  have s := (Rl.of_exact (sum_in hA hB hi hj)).fl hF (by norm_num) (by norm_num)
  have := m.mul (s.inv (by norm_num))
  rw [mul_one_div, mul_one_div] at this
  exact (this.fl hF (by norm_num) (by norm_num)).mono (by norm_num) (by norm_num)

include hR in
theorem arg_near : |arg F A B i j + 2 * gexp A B i j| ≤ γ 12 * (2 * gexp A B i j + 1) ∧ arg F A B i j ≤ 0 := by
  have hκ := κ_pos
  have hκ1 : κ ≤ 1 := κS ▸ S_one 1022
  have h := pair_in hR hA hB hi hj
  have hr := rho_rl hF hA hB hi hj
  set rho' := F.fl (F.fl (A.alpha i * B.alpha j) / F.fl (A.alpha i + B.alpha j))
  set rho := A.alpha i * B.alpha j / (A.alpha i + B.alpha j) with hrho
  have two : Approx 0 (-2 : ℝ) (-2) 2 := ⟨by norm_num, by simp [γ_zero]⟩
  have r0 := hr.pos
  have rT : rho ≤ T 91 := hr.rng.hi
  have t1 := mul_near hF.toRounds two hr.approx (ov_T (by norm_num) (by linarith)
    (by linarith [T_twice (n := 91) rfl, T_le (show 92 ≤ 1000 by norm_num)]))
  have hd0 : 0 ≤ dist2 A.pos B.pos := by unfold dist2; positivity
  have s1 := S_one 917
  have s0 := S_pos 917
  have hdS : dist2 A.pos B.pos + S 917 ≤ T 205 := add_T h.dist_le (s1.trans (T_one _)) le_rfl
  have x1 : 2 * rho + κ ≤ T 93 := by linarith [T_twice (n := 91) rfl, T_twice (n := 92) rfl, T_one 92]
  have n1 : 0 ≤ (2 * rho + κ) * (dist2 A.pos B.pos + S 917) := mul_nonneg (by linarith) (by linarith)
  have x2 : (2 * rho + κ) * (dist2 A.pos B.pos + S 917) ≤ T 298 := mul_T x1 hdS (by linarith) le_rfl
  have t2 := mul_near hF.toRounds t1 (FlPrim.xab_near hF h) (ov_T (by norm_num) n1 (x2.trans (T_le (by norm_num))))
  have e : -2 * rho * dist2 A.pos B.pos = -(2 * gexp A B i j) := by
    rw [hrho]; unfold gexp; ring
  rw [e] at t2
  have y1 : rho * S 917 ≤ S 826 := by
    have h2 : T 91 * S 917 = S 826 := by
      unfold S T
      rw [show (917 : ℕ) = 91 + 826 by norm_num, pow_add]; field_simp
    rw [← h2]
    exact mul_le_mul_of_nonneg_right rT s0.le
  have y2 : κ * (dist2 A.pos B.pos + S 917) ≤ S 817 := by
    rw [← κT (show 205 + 817 = 1022 by norm_num)]
    exact mul_le_mul_of_nonneg_left hdS hκ.le
  have y3 : κ ≤ S 817 := by rw [κS]; exact S_le (by norm_num)
  have y4 : S 817 ≤ S 4 := S_le (by norm_num)
  have y5 : S 826 ≤ S 4 := S_le (by norm_num)
  have y6 : S 4 = 1 / 16 := by unfold S; norm_num
  have t3 := t2.mono (show _ ≤ 12 by norm_num) (show _ ≤ 2 * gexp A B i j + 1 by
    have e2 : gexp A B i j = rho * dist2 A.pos B.pos := by rw [hrho]; unfold gexp; ring
    have e3 : (2 * rho + κ) * (dist2 A.pos B.pos + S 917) =
      2 * (rho * dist2 A.pos B.pos) + 2 * (rho * S 917) + κ * (dist2 A.pos B.pos + S 917) := by ring
    rw [e3, e2]
    linarith)
  constructor
  · have := t3.err
    rw [sub_neg_eq_add] at this
    exact this
  · refine hF.nonpos _ (mul_nonpos_of_nonpos_of_nonneg (hF.nonpos _ ?_) (FlPrim.xab_nonneg hF))
    have := hr.pos' (by norm_num)
    linarith

variable (hpow : PowOK F)
include hpow

omit hR in
theorem pow_rl : Rl 23 98 (F.fl (F.fl sqrtTwoTimesPi52 * F.pow (F.fl (1 / F.fl (A.alpha i + B.alpha j))) (5 / 2)))
    (√2 * π ^ ((5 : ℝ) / 2) * (1 / (A.alpha i + B.alpha j)) ^ ((5 : ℝ) / 2)) := by
  have s := (Rl.of_exact (sum_in hA hB hi hj)).fl hF (by norm_num) (by norm_num)
  have o := s.flInv hF (by norm_num) (by norm_num)
  have p := pow_near hpow o (P := 3) (p := 5 / 2) (f := 31 * 3) (by norm_num) (by norm_num) (by norm_num) (by norm_num)
    (InR.rpow o.rng (by norm_num) (by norm_num))
  exact ((const_rl hF).flMul hF p (by norm_num) (by norm_num)).mono (by norm_num) (by norm_num)

include hR in
/-- `Gab` before the coefficients. -/
theorem gab_near : Approx 131096 (gab F A B i j)
    (√2 * π ^ ((5 : ℝ) / 2) * (1 / (A.alpha i + B.alpha j)) ^ ((5 : ℝ) / 2) * exp (-(2 * gexp A B i j)))
    (√2 * π ^ ((5 : ℝ) / 2) * (1 / (A.alpha i + B.alpha j)) ^ ((5 : ℝ) / 2) * exp (-(2 * gexp A B i j)) + S 900) := by
  have hκ := κ_pos
  have hκ1 : κ ≤ 1 := κS ▸ S_one 1022
  obtain ⟨a1, a2⟩ := arg_near hF hR hA hB hi hj
  have g0 := gexp_nonneg hA hB hi hj
  have en := exp_near hF.toRounds a2 (by linarith) a1
  have pr := pow_rl hF hA hB hi hj hpow
  have p0 := pr.pos
  have pT : _ ≤ T 98 := pr.rng.hi
  have E1 : exp (-(2 * gexp A B i j)) ≤ 1 := exp_le_one_iff.2 (by linarith)
  have E0 := exp_pos (-(2 * gexp A B i j))
  set K := √2 * π ^ ((5 : ℝ) / 2) * (1 / (A.alpha i + B.alpha j)) ^ ((5 : ℝ) / 2)
  set E := exp (-(2 * gexp A B i j))
  have x1 : K * (E + κ) ≤ T 99 := mul_T (m := 1) pT (by unfold T; linarith) (by linarith) le_rfl
  have t := mul_near hF.toRounds pr.approx en (ov_T (by norm_num) (by positivity) (x1.trans (T_le (by norm_num))))
  refine t.mono (by norm_num) ?_
  have y1 : K * κ ≤ S 924 := by
    rw [← κT (show 98 + 924 = 1022 by norm_num), mul_comm]
    exact mul_le_mul_of_nonneg_left pT hκ.le
  have y2 : κ ≤ S 924 := by rw [κS]; exact S_le (by norm_num)
  have y3 := S_twice (show 924 = 923 + 1 by norm_num)
  have y4 : S 923 ≤ S 900 := S_le (by norm_num)
  linarith

omit hpow in
theorem coefs_near : Approx 3 (coefs F A B i j) ((A.coef i * B.coef j) ^ 2) ((A.coef i * B.coef j) ^ 2 + S 900) := by
  have hκ := κ_pos
  have hκ1 : κ ≤ 1 := κS ▸ S_one 1022
  have ca : |A.coef i| ≤ T 30 := hA.coef i hi
  have cb : |B.coef j| ≤ T 30 := hB.coef j hj
  have a0 := abs_nonneg (A.coef i)
  have b0 := abs_nonneg (B.coef j)
  have q1 : |A.coef i| * |A.coef i| ≤ T 60 := mul_T ca ca a0 le_rfl
  have t1 := mul_near hF.toRounds (Approx.refl (A.coef i)) (Approx.refl (A.coef i))
    (ov_T (by norm_num) (by positivity) (q1.trans (T_le (by norm_num))))
  have q2 : (|A.coef i| * |A.coef i| + κ) * |B.coef j| ≤ T 91 :=
    mul_T (add_T q1 (hκ1.trans (T_one _)) le_rfl) cb b0 le_rfl
  have t2 := mul_near hF.toRounds t1 (Approx.refl (B.coef j))
    (ov_T (by norm_num) (by positivity) (q2.trans (T_le (by norm_num))))
  have q3 : ((|A.coef i| * |A.coef i| + κ) * |B.coef j| + κ) * |B.coef j| ≤ T 122 :=
    mul_T (add_T q2 (hκ1.trans (T_one _)) le_rfl) cb b0 le_rfl
  have t3 := mul_near hF.toRounds t2 (Approx.refl (B.coef j))
    (ov_T (by norm_num) (by positivity) (q3.trans (T_le (by norm_num))))
  have e : A.coef i * A.coef i * B.coef j * B.coef j = (A.coef i * B.coef j) ^ 2 := by ring
  rw [e] at t3
  refine t3.mono (by norm_num) ?_
  have e2 : ((|A.coef i| * |A.coef i| + κ) * |B.coef j| + κ) * |B.coef j| =
      (A.coef i * B.coef j) ^ 2 + κ * (|B.coef j| * |B.coef j|) + κ * |B.coef j| := by
    have h1 : |A.coef i| * |A.coef i| = A.coef i ^ 2 := by rw [abs_mul_abs_self]; ring
    have h2 : |B.coef j| * |B.coef j| = B.coef j ^ 2 := by rw [abs_mul_abs_self]; ring
    calc _ = (|A.coef i| * |A.coef i|) * (|B.coef j| * |B.coef j|) + κ * (|B.coef j| * |B.coef j|) + κ * |B.coef j| := by ring
      _ = _ := by rw [h1, h2]; ring
  rw [e2]
  have y1 : κ * (|B.coef j| * |B.coef j|) ≤ S 962 := by
    rw [← κT (show 60 + 962 = 1022 by norm_num)]
    exact mul_le_mul_of_nonneg_left (mul_T cb cb b0 le_rfl) hκ.le
  have y2 : κ * |B.coef j| ≤ S 962 := by
    rw [← κT (show 60 + 962 = 1022 by norm_num)]
    exact mul_le_mul_of_nonneg_left (cb.trans (T_le (by norm_num))) hκ.le
  have y3 : κ ≤ S 962 := by rw [κS]; exact S_le (by norm_num)
  have y4 := S_twice (show 962 = 961 + 1 by norm_num)
  have y5 := S_twice (show 961 = 960 + 1 by norm_num)
  have y6 : S 960 ≤ S 900 := S_le (by norm_num)
  linarith [S_pos 962]

end

theorem fastVal_eq (A B : Shell ℝ) (i j : ℕ) : fastVal A B i j =
    √2 * π ^ ((5 : ℝ) / 2) * (1 / (A.alpha i + B.alpha j)) ^ ((5 : ℝ) / 2) * exp (-(2 * gexp A B i j)) *
      (A.coef i * B.coef j) ^ 2 := by
  unfold fastVal gexp
  have e : (A.pos .x - B.pos .x) * (A.pos .x - B.pos .x) + (A.pos .y - B.pos .y) * (A.pos .y - B.pos .y) +
      (A.pos .z - B.pos .z) * (A.pos .z - B.pos .z) = dist2 A.pos B.pos := by unfold dist2; ring
  simp only
  rw [e]
  have e2 : -2 * (A.alpha i * B.alpha j / (A.alpha i + B.alpha j)) * dist2 A.pos B.pos =
      -(2 * (A.alpha i * B.alpha j / (A.alpha i + B.alpha j) * dist2 A.pos B.pos)) := by ring
  first
    | (rw [e2]; ring_nf)
    | ring_nf

section
variable {F : Arith} (hF : Sound F) (hpow : PowOK F) {A B : Shell ℝ} {R : ℝ} (hR : R ≤ 2 ^ 10) (hA : A.Moderate R)
  (hB : B.Moderate R) {i j : ℕ} (hi : i < A.nprim) (hj : j < B.nprim)
include hA hB hi hj

theorem parts_le : √2 * π ^ ((5 : ℝ) / 2) * (1 / (A.alpha i + B.alpha j)) ^ ((5 : ℝ) / 2) * exp (-(2 * gexp A B i j)) ≤
      T 98 ∧ (A.coef i * B.coef j) ^ 2 ≤ T 120 := by
  have g0 := gexp_nonneg hA hB hi hj
  have E1 : exp (-(2 * gexp A B i j)) ≤ 1 := exp_le_one_iff.2 (by linarith)
  have o := InR.rpow (sum_in hA hB hi hj).inv (p := 5 / 2) (n := 3) (by norm_num) (by norm_num)
  constructor
  · have h1 := (const_rng.mul o).hi
    have h2 := (const_rng.mul o).pos
    calc _ ≤ _ := mul_le_of_le_one_right h2.le E1
      _ ≤ T 98 := h1
  · rw [mul_pow, ← sq_abs (A.coef i), ← sq_abs (B.coef j), sq, sq]
    exact mul_T (mul_T (n := 30) (m := 30) (hA.coef i hi) (hA.coef i hi) (abs_nonneg _) (le_refl 60))
      (mul_T (n := 30) (m := 30) (hB.coef j hj) (hB.coef j hj) (abs_nonneg _) (le_refl 60)) (by positivity) le_rfl

theorem fastVal_le : 0 ≤ fastVal A B i j ∧ fastVal A B i j ≤ T 218 := by
  obtain ⟨p1, p2⟩ := parts_le hA hB hi hj
  have s := (sum_in hA hB hi hj).pos
  have := pi_pos
  have hp : 0 < 1 / (A.alpha i + B.alpha j) := by positivity
  have := rpow_pos_of_pos hp (5 / 2)
  rw [fastVal_eq]
  exact ⟨by positivity, mul_T p1 p2 (sq_nonneg _) le_rfl⟩

/-- Size of the product of the two parts. -/
theorem prod_le : (√2 * π ^ ((5 : ℝ) / 2) * (1 / (A.alpha i + B.alpha j)) ^ ((5 : ℝ) / 2) * exp (-(2 * gexp A B i j)) +
    S 900) * ((A.coef i * B.coef j) ^ 2 + S 900) + 3 * κ ≤ fastVal A B i j + S 700 := by
  obtain ⟨p1, p2⟩ := parts_le hA hB hi hj
  rw [fastVal_eq]
  set K := √2 * π ^ ((5 : ℝ) / 2) * (1 / (A.alpha i + B.alpha j)) ^ ((5 : ℝ) / 2) * exp (-(2 * gexp A B i j))
  set c := (A.coef i * B.coef j) ^ 2
  have s0 := S_pos 900
  have h2 : T 120 * S 900 = S 780 := by
    unfold S T
    rw [show (900 : ℕ) = 120 + 780 by norm_num, pow_add]; field_simp
  have y1 : K * S 900 ≤ S 780 := by
    rw [← h2]; exact mul_le_mul_of_nonneg_right (p1.trans (T_le (by norm_num))) s0.le
  have y2 : c * S 900 ≤ S 780 := by
    rw [← h2]; exact mul_le_mul_of_nonneg_right p2 s0.le
  have y3 : S 900 * S 900 ≤ S 780 := by
    calc S 900 * S 900 ≤ 1 * S 900 := mul_le_mul_of_nonneg_right (S_one _) s0.le
      _ ≤ S 780 := by rw [one_mul]; exact S_le (by norm_num)
  have y4 : κ ≤ S 780 := by rw [κS]; exact S_le (by norm_num)
  have z1 := S_twice (show 780 = 779 + 1 by norm_num)
  have z2 := S_twice (show 779 = 778 + 1 by norm_num)
  have z3 := S_twice (show 778 = 777 + 1 by norm_num)
  have z4 : S 777 ≤ S 700 := S_le (by norm_num)
  have := S_pos 780
  nlinarith

include hF hpow hR in
theorem value_near : Approx 131100 (value F A B i j) (fastVal A B i j) (fastVal A B i j + S 700) := by
  have pl := prod_le hA hB hi hj
  have fl := fastVal_le hA hB hi hj
  have hκ := κ_pos
  have g := gab_near hF hR hA hB hi hj hpow
  have c := coefs_near hF hA hB hi hj
  have t := mul_near hF.toRounds g c (ov_T (by norm_num) (mul_nonneg g.nonneg c.nonneg) (by
    have := S_one 700
    have := T_twice (n := 218) rfl
    have := T_one 218
    have := T_le (show 219 ≤ 1000 by norm_num)
    linarith))
  rw [← fastVal_eq] at t
  exact t.mono (by norm_num) (by linarith)

omit hA hB hi hj in
include hF in
theorem coefs_nonneg : 0 ≤ coefs F A B i j := by
  refine hF.nonneg _ ?_
  have h1 := hF.nonneg _ (mul_self_nonneg (A.coef i))
  rcases le_total 0 (B.coef j) with h | h
  · exact mul_nonneg (hF.nonneg _ (mul_nonneg h1 h)) h
  · exact mul_nonneg_of_nonpos_of_nonpos (hF.nonpos _ (mul_nonpos_of_nonneg_of_nonpos h1 h)) h

include hF hpow hR in
theorem value_nonneg (hexp : ∀ y, 0 ≤ F.exp y) : 0 ≤ value F A B i j := by
  refine hF.nonneg _ (mul_nonneg (hF.nonneg _ (mul_nonneg ?_ (hexp _))) (coefs_nonneg hF))
  exact ((pow_rl hF hA hB hi hj hpow).pos' (by norm_num)).le

end

end Simint.FlFast
