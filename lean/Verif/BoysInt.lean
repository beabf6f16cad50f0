import Verif.Spec.ERI
import Mathlib.Analysis.SpecialFunctions.Integrals.Basic
import Mathlib.MeasureTheory.Integral.Gamma
import Mathlib.MeasureTheory.Integral.IntegralEqImproper
import Mathlib.Analysis.SpecialFunctions.Gaussian.GaussianIntegral

/-!
# Facts about the Boys function

Downward recursion, bounds, Taylor expansion with remainder, and the difference to the integral over
`(0, ∞)`.
-/

set_option autoImplicit false

open MeasureTheory Set Real

namespace Simint

theorem boysF_interval (n : ℕ) (x : ℝ) :
    boysF n x = ∫ t in (0 : ℝ)..1, t ^ (2 * n) * exp (-x * t ^ 2) := by
  rw [intervalIntegral.integral_of_le zero_le_one, integral_Ioc_eq_integral_Ioo, boysF]

theorem boys_cont (n : ℕ) (x : ℝ) : Continuous fun t : ℝ => t ^ (2 * n) * exp (-x * t ^ 2) := by
  fun_prop

theorem boys_integrable (n : ℕ) (x : ℝ) :
    IntegrableOn (fun t : ℝ => t ^ (2 * n) * exp (-x * t ^ 2)) (Ioo 0 1) :=
  ((boys_cont n x).integrableOn_Icc (a := 0) (b := 1)).mono_set Ioo_subset_Icc_self

/-- Integration by parts. -/
theorem boysF_rec (n : ℕ) (x : ℝ) :
    (2 * n + 1) * boysF n x = 2 * x * boysF (n + 1) x + exp (-x) := by
  have hd : ∀ t : ℝ, HasDerivAt (fun t : ℝ => t ^ (2 * n + 1) * exp (-x * t ^ 2))
      ((2 * n + 1) * (t ^ (2 * n) * exp (-x * t ^ 2))
        - 2 * x * (t ^ (2 * (n + 1)) * exp (-x * t ^ 2))) t := by
    intro t
    have h1 := (hasDerivAt_pow (2 * n + 1) t).mul
      (((hasDerivAt_pow 2 t).const_mul (-x)).exp)
    refine h1.congr_deriv ?_
    push_cast
    ring
  have h := intervalIntegral.integral_eq_sub_of_hasDerivAt (a := 0) (b := 1) (fun t _ => hd t)
    (by apply Continuous.intervalIntegrable; fun_prop)
  rw [intervalIntegral.integral_sub, intervalIntegral.integral_const_mul,
    intervalIntegral.integral_const_mul, ← boysF_interval, ← boysF_interval] at h
  · simp only [one_pow, mul_one, one_mul] at h
    simp at h
    linarith
  · apply Continuous.intervalIntegrable; fun_prop
  · apply Continuous.intervalIntegrable; fun_prop

theorem boysF_mono {n m : ℕ} {x y c : ℝ}
    (h : ∀ t ∈ Ioo (0 : ℝ) 1, t ^ (2 * n) * exp (-x * t ^ 2) ≤ c * (t ^ (2 * m) * exp (-y * t ^ 2))) :
    boysF n x ≤ c * boysF m y := by
  unfold boysF
  rw [← integral_const_mul]
  exact setIntegral_mono_on (boys_integrable n x) ((boys_integrable m y).const_mul c) measurableSet_Ioo h

theorem boysF_nonneg (n : ℕ) (x : ℝ) : 0 ≤ boysF n x :=
  setIntegral_nonneg measurableSet_Ioo fun t ht => mul_nonneg (pow_nonneg ht.1.le _) (exp_nonneg _)

theorem boysF_succ_le (n : ℕ) (x : ℝ) : boysF (n + 1) x ≤ boysF n x := by
  rw [← one_mul (boysF n x)]
  refine boysF_mono fun t ht => ?_
  rw [one_mul]
  refine mul_le_mul_of_nonneg_right ?_ (exp_nonneg _)
  exact pow_le_pow_of_le_one ht.1.le ht.2.le (by omega)

theorem boysF_anti {n m : ℕ} (h : n ≤ m) (x : ℝ) : boysF m x ≤ boysF n x := by
  induction h with
  | refl => exact le_rfl
  | step _ ih => exact (boysF_succ_le _ x).trans ih

theorem boysF_le_one {n : ℕ} {x : ℝ} (hx : 0 ≤ x) : boysF n x ≤ 1 := by
  have : boysF n x ≤ 1 * boysF 0 0 := by
    refine boysF_mono fun t ht => ?_
    simp only [mul_zero, pow_zero, neg_zero, zero_mul, exp_zero, mul_one]
    refine mul_le_one₀ (pow_le_one₀ ht.1.le ht.2.le) (exp_nonneg _) ?_
    rw [exp_le_one_iff]
    nlinarith [sq_nonneg t]
  refine this.trans_eq ?_
  rw [boysF_interval]
  simp

theorem boysF_pos (n : ℕ) {x : ℝ} (hx : 0 ≤ x) : 0 < boysF n x := by
  have h := boysF_rec n x
  have h1 := boysF_nonneg (n + 1) x
  have h2 := exp_pos (-x)
  have h3 : 0 < (2 * n + 1) * boysF n x := by rw [h]; positivity
  exact pos_of_mul_pos_right h3 (by positivity)

/-- Values at two points. -/
theorem boysF_shift {x y d : ℝ} (h : x ≤ y + d) (hd : 0 ≤ d) (n : ℕ) :
    boysF n y ≤ exp d * boysF n x := by
  refine boysF_mono fun t ht => ?_
  rw [mul_left_comm, ← exp_add]
  refine mul_le_mul_of_nonneg_left ?_ (pow_nonneg ht.1.le _)
  rw [exp_le_exp]
  have : t ^ 2 ≤ 1 := pow_le_one₀ ht.1.le ht.2.le
  nlinarith [sq_nonneg t, mul_le_mul_of_nonneg_right h (sq_nonneg t)]

/-- Taylor expansion of order eight around `y`. -/
theorem boysF_taylor {x y : ℝ} (h : |y - x| ≤ 1) (n : ℕ) :
    |boysF n x - ∑ k ∈ Finset.range 8, (y - x) ^ k / k.factorial * boysF (n + k) y|
      ≤ |y - x| ^ 8 * (9 / 322560) * boysF (n + 8) y := by
  set d := y - x with hd
  have hint : ∀ k, IntegrableOn (fun t : ℝ => d ^ k / k.factorial *
      (t ^ (2 * (n + k)) * exp (-y * t ^ 2))) (Ioo 0 1) := fun k => (boys_integrable _ _).const_mul _
  have hsum : boysF n x - ∑ k ∈ Finset.range 8, d ^ k / k.factorial * boysF (n + k) y =
      ∫ t in Ioo (0 : ℝ) 1, (t ^ (2 * n) * exp (-x * t ^ 2)
        - ∑ k ∈ Finset.range 8, d ^ k / k.factorial * (t ^ (2 * (n + k)) * exp (-y * t ^ 2))) := by
    rw [integral_sub (boys_integrable n x) (integrable_finset_sum _ fun k _ => hint k),
      integral_finset_sum _ fun k _ => hint k]
    simp only [integral_const_mul, boysF]
  rw [hsum, boysF, ← integral_const_mul, ← Real.norm_eq_abs (∫ t in Ioo (0 : ℝ) 1, _)]
  refine norm_integral_le_of_norm_le (μ := volume.restrict (Ioo (0 : ℝ) 1))
    ((boys_integrable (n + 8) y).const_mul (|d| ^ 8 * (9 / 322560))) ?_
  refine (ae_restrict_iff' measurableSet_Ioo).2 (Filter.Eventually.of_forall fun t ht => ?_)
  have ht2 : t ^ 2 ≤ 1 := pow_le_one₀ ht.1.le ht.2.le
  have hu : |d * t ^ 2| ≤ 1 := by
    rw [abs_mul, abs_of_nonneg (sq_nonneg t)]
    exact mul_le_one₀ h (sq_nonneg t) ht2
  have hb := Real.exp_bound hu (n := 8) (by norm_num)
  have he : exp (-x * t ^ 2) = exp (-y * t ^ 2) * exp (d * t ^ 2) := by
    rw [← exp_add]; congr 1; rw [hd]; ring
  have hpos : 0 ≤ t ^ (2 * n) * exp (-y * t ^ 2) := mul_nonneg (pow_nonneg ht.1.le _) (exp_nonneg _)
  have hl : t ^ (2 * n) * exp (-x * t ^ 2)
        - ∑ k ∈ Finset.range 8, d ^ k / k.factorial * (t ^ (2 * (n + k)) * exp (-y * t ^ 2)) =
      t ^ (2 * n) * exp (-y * t ^ 2) *
        (exp (d * t ^ 2) - ∑ k ∈ Finset.range 8, (d * t ^ 2) ^ k / k.factorial) := by
    rw [he, mul_sub, Finset.mul_sum]
    congr 1
    · ring
    · refine Finset.sum_congr rfl fun k _ => ?_
      rw [mul_pow, ← pow_mul, Nat.mul_add, pow_add]
      ring
  rw [hl, norm_mul, Real.norm_eq_abs, Real.norm_eq_abs, abs_of_nonneg hpos]
  refine (mul_le_mul_of_nonneg_left hb hpos).trans_eq ?_
  rw [abs_mul, abs_of_nonneg (sq_nonneg t), mul_pow, ← pow_mul, Nat.mul_add, pow_add]
  have : (Nat.factorial 8 : ℝ) = 40320 := by norm_num [Nat.factorial]
  rw [this]
  push_cast
  ring

/-! ## Integral over `(0, ∞)` -/

/-- `(2n-1)!! √π / 2^(n+1) x^(-(n+1/2))`. -/
noncomputable def boysInf (n : ℕ) (x : ℝ) : ℝ := ∫ t in Ioi (0 : ℝ), t ^ (2 * n) * exp (-x * t ^ 2)

noncomputable def boysTail (n : ℕ) (x : ℝ) : ℝ := ∫ t in Ioi (1 : ℝ), t ^ (2 * n) * exp (-x * t ^ 2)

theorem boys_int_Ioi (n : ℕ) {x : ℝ} (hx : 0 < x) :
    IntegrableOn (fun t : ℝ => t ^ (2 * n) * exp (-x * t ^ 2)) (Ioi 0) := by
  have h := integrableOn_rpow_mul_exp_neg_mul_sq hx (s := ((2 * n : ℕ) : ℝ))
    (by have : (0 : ℝ) ≤ ((2 * n : ℕ) : ℝ) := Nat.cast_nonneg _; linarith)
  simpa only [rpow_natCast] using h

theorem boysInf_eq (n : ℕ) {x : ℝ} (hx : 0 < x) :
    boysInf n x = x ^ (-((n : ℝ) + 1 / 2)) * ((2 * n - 1 : ℕ).doubleFactorial * √π / 2 ^ (n + 1)) := by
  have h := integral_rpow_mul_exp_neg_mul_rpow (p := 2) (q := 2 * n) (b := x) (by norm_num)
    (by have : (0 : ℝ) ≤ (n : ℝ) := Nat.cast_nonneg _; linarith) hx
  have e : boysInf n x = ∫ t in Ioi (0 : ℝ), t ^ (2 * n : ℝ) * exp (-x * t ^ (2 : ℝ)) := by
    unfold boysInf
    refine setIntegral_congr_fun measurableSet_Ioi fun t _ => ?_
    norm_cast
  rw [e, h, show ((2 * n : ℝ) + 1) / 2 = n + 1 / 2 by ring, Real.Gamma_nat_add_half,
    show -((2 * n : ℝ) + 1) / 2 = -(n + 1 / 2) by ring, pow_succ]
  ring

theorem boys_int_Ioi_one (n : ℕ) {x : ℝ} (hx : 0 < x) :
    IntegrableOn (fun t : ℝ => t ^ (2 * n) * exp (-x * t ^ 2)) (Ioi 1) :=
  (boys_int_Ioi n hx).mono_set (Ioi_subset_Ioi zero_le_one)

theorem boysInf_split (n : ℕ) {x : ℝ} (hx : 0 < x) : boysInf n x = boysF n x + boysTail n x := by
  unfold boysInf boysTail
  rw [boysF, ← integral_Ioc_eq_integral_Ioo, ← Ioc_union_Ioi_eq_Ioi (zero_le_one (α := ℝ)),
    setIntegral_union Ioc_disjoint_Ioi_same measurableSet_Ioi]
  · exact (boys_int_Ioi n hx).mono_set Ioc_subset_Ioi_self
  · exact boys_int_Ioi_one n hx

theorem boysInf_rec (n : ℕ) {x : ℝ} (hx : 0 < x) :
    (2 * n + 1) * boysInf n x = 2 * x * boysInf (n + 1) x := by
  rw [boysInf_eq n hx, boysInf_eq (n + 1) hx]
  have h1 : (2 * (n + 1) - 1 : ℕ) = 2 * n + 1 := by omega
  have h2 : ((2 * n + 1 : ℕ).doubleFactorial : ℝ) = (2 * n + 1) * (2 * n - 1 : ℕ).doubleFactorial := by
    rcases n with _ | n
    · simp
    · rw [show 2 * (n + 1) + 1 = (2 * n + 1) + 2 by ring, Nat.doubleFactorial_add_two,
        show 2 * (n + 1) - 1 = 2 * n + 1 by omega]
      push_cast; ring
  have h3 : x ^ (-((n : ℝ) + 1 / 2)) = x * x ^ (-(((n + 1 : ℕ) : ℝ) + 1 / 2)) := by
    nth_rewrite 2 [← rpow_one x]
    rw [← rpow_add hx]
    congr 1
    push_cast; ring
  rw [h1, h2, h3, pow_succ 2 (n + 1)]
  field_simp

theorem boysTail_rec (n : ℕ) {x : ℝ} (hx : 0 < x) :
    2 * x * boysTail (n + 1) x = (2 * n + 1) * boysTail n x + exp (-x) := by
  have h1 := boysInf_rec n hx
  have h2 := boysF_rec n x
  rw [boysInf_split n hx, boysInf_split (n + 1) hx] at h1
  linarith

theorem boysTail_mono (n : ℕ) {x : ℝ} (hx : 0 < x) : boysTail n x ≤ boysTail (n + 1) x := by
  refine setIntegral_mono_on (boys_int_Ioi_one n hx) (boys_int_Ioi_one (n + 1) hx) measurableSet_Ioi
    fun t ht => ?_
  refine mul_le_mul_of_nonneg_right ?_ (exp_nonneg _)
  exact pow_le_pow_right₀ (le_of_lt ht) (by omega)

theorem boysTail_nonneg (n : ℕ) (x : ℝ) : 0 ≤ boysTail n x :=
  setIntegral_nonneg measurableSet_Ioi fun t ht =>
    mul_nonneg (pow_nonneg (zero_le_one.trans (le_of_lt ht)) _) (exp_nonneg _)

/-- Upper bound of the tail. -/
theorem boysTail_le {n : ℕ} {x : ℝ} (hn : 2 * (n : ℝ) + 1 < 2 * x) :
    boysTail n x ≤ exp (-x) / (2 * x - (2 * n + 1)) := by
  have hx : 0 < x := by
    have : (0 : ℝ) ≤ n := Nat.cast_nonneg n
    linarith
  rw [le_div_iff₀ (by linarith)]
  have h1 := boysTail_rec n hx
  have h2 := mul_le_mul_of_nonneg_left (boysTail_mono n hx) (by linarith : 0 ≤ 2 * x)
  linarith

/-- Lower bound of the tail. -/
theorem boysTail_ge {n : ℕ} {x : ℝ} (hx : 0 < x) : exp (-x) / (2 * x) ≤ boysTail (n + 1) x := by
  rw [div_le_iff₀ (by linarith)]
  have h1 := boysTail_rec n hx
  have h2 := mul_nonneg (show (0 : ℝ) ≤ 2 * n + 1 by positivity) (boysTail_nonneg n x)
  linarith

end Simint
