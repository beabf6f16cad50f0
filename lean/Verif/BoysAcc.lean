import Verif.BoysGrid
import Verif.BoysLemmas
import Mathlib.Analysis.Complex.ExponentialBounds

/-! Error bounds for the values stored by `boys_F_split` (exact arithmetic, tables of the source). -/

set_option autoImplicit false

open Real

namespace Simint

theorem exp_small : exp (1 / 20) ≤ 1.06 := by
  have h := Real.exp_bound' (x := 1 / 20) (by norm_num) (by norm_num) (n := 4) (by norm_num)
  refine h.trans ?_
  simp only [Finset.sum_range_succ, Finset.sum_range_zero, Nat.factorial]
  norm_num

/-- Short range: the Taylor series with the entries of the table. -/
theorem shortVal_err {m : ℕ} {x : ℝ} (hx : 0 ≤ x) (h : x < 36.5) (hm : m ≤ 24) :
    |shortVal m x - boysF m x| ≤ 12 / 10 ^ 16 * boysF m x := by
  set i := gridIdx x with hi
  have hi366 : i < 366 := gridIdx_lt h
  set y : ℝ := (i : ℝ) / 10 with hy
  have hd : |y - x| ≤ 1 / 20 := gridIdx_near hx
  set d := y - x with hdd
  have hT := boysF_taylor (x := x) (y := y) (hd.trans (by norm_num)) m
  have hFy : boysF m y ≤ 1.06 * boysF m x := by
    have h1 := boysF_shift (x := x) (y := y) (d := 1 / 20) (by have := (abs_le.1 hd).1; linarith)
      (by norm_num) m
    exact h1.trans (mul_le_mul_of_nonneg_right exp_small (boysF_nonneg m x))
  have hpow : ∀ k, |d| ^ k ≤ (1 / 20) ^ k := fun k => pow_le_pow_left₀ (abs_nonneg d) hd k
  -- error of the entries
  have hE : |shortVal m x - ∑ k ∈ Finset.range 8, d ^ k / k.factorial * boysF (m + k) y| ≤
      (∑ k ∈ Finset.range 8, (1 / 20 : ℝ) ^ k / k.factorial) * (boysF m y / (2 * 10 ^ 17)) := by
    unfold shortVal
    rw [← Finset.sum_sub_distrib, Finset.sum_mul]
    refine (Finset.abs_sum_le_sum_abs _ _).trans (Finset.sum_le_sum fun k hk => ?_)
    rw [Finset.mem_range] at hk
    have hg : EntryOK (boysGridN i (m + k)) (boysF (m + k) y) := grid_ok hi366 (by omega)
    have e : ((i / 10 : ℝ) - x) ^ k / k.factorial * ((boysGridN i (m + k) : ℝ) / 10 ^ 34)
        - d ^ k / k.factorial * boysF (m + k) y =
        d ^ k / k.factorial * ((boysGridN i (m + k) : ℝ) / 10 ^ 34 - boysF (m + k) y) := by
      rw [hdd, hy]; ring
    have hf : (0 : ℝ) < k.factorial := by exact_mod_cast Nat.factorial_pos k
    rw [← hi, e, abs_mul, abs_div, abs_pow, abs_of_pos hf]
    refine mul_le_mul (div_le_div_of_nonneg_right (hpow k) hf.le) (hg.trans ?_) (abs_nonneg _) (by positivity)
    exact div_le_div_of_nonneg_right (boysF_anti (by omega) y) (by norm_num)
  have hs : (∑ k ∈ Finset.range 8, (1 / 20 : ℝ) ^ k / k.factorial) ≤ 1.06 := by
    simp only [Finset.sum_range_succ, Finset.sum_range_zero, Nat.factorial]
    norm_num
  have h8 : boysF (m + 8) y ≤ boysF m y := boysF_anti (by omega) y
  have hR : |d| ^ 8 * (9 / 322560) * boysF (m + 8) y ≤ (1 / 20) ^ 8 * (9 / 322560) * boysF m y :=
    mul_le_mul (mul_le_mul_of_nonneg_right (hpow 8) (by norm_num)) h8 (boysF_nonneg _ _) (by norm_num)
  have hE' : |shortVal m x - ∑ k ∈ Finset.range 8, d ^ k / k.factorial * boysF (m + k) y| ≤
      1.06 * (boysF m y / (2 * 10 ^ 17)) :=
    hE.trans (mul_le_mul_of_nonneg_right hs (div_nonneg (boysF_nonneg _ _) (by norm_num)))
  have htri := abs_sub_le (shortVal m x)
    (∑ k ∈ Finset.range 8, d ^ k / k.factorial * boysF (m + k) y) (boysF m x)
  rw [abs_sub_comm (∑ k ∈ Finset.range 8, _) (boysF m x)] at htri
  rw [← hdd] at hT
  have hFx := boysF_nonneg m x
  norm_num at hE' hR hT htri hFy ⊢
  linarith

/-- The recursion keeps the relative error. -/
theorem downVal_rel {x δ : ℝ} (hx : 0 ≤ x) (hδ : 0 ≤ δ) : ∀ (k m : ℕ),
    |topVal (m + k) x - boysF (m + k) x| ≤ δ * boysF (m + k) x →
      |downVal m x k - boysF m x| ≤ δ * boysF m x := by
  intro k
  induction k with
  | zero => intro m h; exact h
  | succ k ih =>
    intro m h
    have h1 := ih (m + 1) (by rw [show m + 1 + k = m + (k + 1) by ring]; exact h)
    have hr := boysF_rec m x
    have hp : (0 : ℝ) < 2 * m + 1 := by positivity
    have e : boysF m x = (2 * x * boysF (m + 1) x + exp (-x)) / (2 * m + 1) := by
      rw [eq_div_iff hp.ne', mul_comm, hr]
    rw [downVal]
    have h2 : (2 * x * downVal (m + 1) x k + exp (-x)) / (2 * m + 1) - boysF m x =
        2 * x * (downVal (m + 1) x k - boysF (m + 1) x) / (2 * m + 1) := by rw [e]; ring
    rw [h2, abs_div, abs_of_pos hp, abs_mul, abs_of_nonneg (by positivity : 0 ≤ 2 * x), div_le_iff₀ hp]
    have h3 := mul_le_mul_of_nonneg_left h1 (by positivity : 0 ≤ 2 * x)
    have h4 := mul_nonneg hδ (exp_pos (-x)).le
    have h5 : δ * boysF m x * (2 * m + 1) = δ * (2 * x * boysF (m + 1) x + exp (-x)) := by
      rw [← hr]; ring
    rw [h5]
    nlinarith

/-- Product of the factors of `k` steps of the recursion. -/
noncomputable def ampl (m : ℕ) (x : ℝ) : ℕ → ℝ
  | 0 => 1
  | k + 1 => 2 * x / (2 * m + 1) * ampl (m + 1) x k

/-- The error of the recursion. -/
theorem downVal_err (x : ℝ) : ∀ (k m : ℕ),
    downVal m x k - boysF m x = ampl m x k * (topVal (m + k) x - boysF (m + k) x) := by
  intro k
  induction k with
  | zero => intro m; simp [downVal, ampl]
  | succ k ih =>
    intro m
    have hr := boysF_rec m x
    have hp : (0 : ℝ) < 2 * m + 1 := by positivity
    have e : boysF m x = (2 * x * boysF (m + 1) x + exp (-x)) / (2 * m + 1) := by
      rw [eq_div_iff hp.ne', mul_comm, hr]
    have h1 := ih (m + 1)
    rw [show m + 1 + k = m + (k + 1) by ring] at h1
    rw [downVal, ampl, mul_assoc (2 * x / (2 * (m : ℝ) + 1)), ← h1, e]
    ring

theorem ampl_inf {x : ℝ} (hx : 0 < x) : ∀ (k m : ℕ), ampl m x k * boysInf (m + k) x = boysInf m x := by
  intro k
  induction k with
  | zero => intro m; simp [ampl]
  | succ k ih =>
    intro m
    have h1 := ih (m + 1)
    rw [show m + 1 + k = m + (k + 1) by ring] at h1
    have hr := boysInf_rec m hx
    have hp : (0 : ℝ) < 2 * m + 1 := by positivity
    rw [ampl, mul_assoc, h1, div_mul_eq_mul_div, ← hr]
    field_simp

theorem ampl_pos {x : ℝ} (hx : 0 < x) : ∀ (k m : ℕ), 0 < ampl m x k := by
  intro k
  induction k with
  | zero => intro m; simp [ampl]
  | succ k ih => intro m; have := ih (m + 1); rw [ampl]; positivity

theorem boysInf_pos (n : ℕ) {x : ℝ} (hx : 0 < x) : 0 < boysInf n x := by
  rw [boysInf_split n hx]
  have := boysF_pos n hx.le
  have := boysTail_nonneg n x
  linarith

/-- The long range formula is the integral over `(0, ∞)`. -/
theorem longVal_inf {n : ℕ} {x : ℝ} (hx : 0 < x) (hn : n < 32) :
    |longVal n x - boysInf n x| ≤ boysInf n x / (2 * 10 ^ 17) := by
  have h := longfac_ok hn
  rw [boysInf_eq n hx]
  have hp : 0 < x ^ (-((n : ℝ) + 1 / 2)) := rpow_pos_of_pos hx _
  unfold longVal
  change |(_ : ℝ) * x ^ (-((n : ℝ) + 1 / 2)) - x ^ (-((n : ℝ) + 1 / 2)) * longfacExact n| ≤
    x ^ (-((n : ℝ) + 1 / 2)) * longfacExact n / _
  rw [mul_comm, ← mul_sub, abs_mul, abs_of_pos hp, mul_div_assoc]
  exact mul_le_mul_of_nonneg_left h hp.le

theorem longVal_err {n : ℕ} {x : ℝ} (hx : 0 < x) (hn : n < 32) :
    |longVal n x - (boysF n x + boysTail n x)| ≤ (boysF n x + boysTail n x) / (2 * 10 ^ 17) := by
  rw [← boysInf_split n hx]
  exact longVal_inf hx hn

/-- `e^-x x^a` decreases for `x ≥ a`. -/
theorem exp_rpow_le {a c x : ℝ} (hc : 0 < c) (ha : 0 ≤ a) (hac : a ≤ c) (hx : c ≤ x) :
    exp (-x) * x ^ a ≤ exp (-c) * c ^ a := by
  have hx0 : 0 < x := hc.trans_le hx
  have h1 : x / c ≤ exp (x / c - 1) := by
    have := add_one_le_exp (x / c - 1); linarith
  have h2 : (x / c) ^ a ≤ exp ((x / c - 1) * a) := by
    rw [exp_mul]
    exact rpow_le_rpow (by positivity) h1 ha
  have h3 : (x / c - 1) * a ≤ x - c := by
    have : (x / c - 1) * c = x - c := by field_simp
    rw [← this]
    refine mul_le_mul_of_nonneg_left hac ?_
    rw [sub_nonneg, le_div_iff₀ hc]; linarith
  have h4 : (x / c) ^ a ≤ exp (x - c) := h2.trans (exp_le_exp.2 h3)
  rw [div_rpow hx0.le hc.le, div_le_iff₀ (rpow_pos_of_pos hc a)] at h4
  calc exp (-x) * x ^ a ≤ exp (-x) * (exp (x - c) * c ^ a) :=
        mul_le_mul_of_nonneg_left h4 (exp_nonneg _)
    _ = exp (-c) * c ^ a := by rw [← mul_assoc, ← exp_add]; congr 2; ring

/-- Bound of the relative tail for `x ≥ 36.5`. -/
noncomputable def tailBound (n : ℕ) : ℝ := exp (-36.5) * 36.5 ^ ((n : ℝ) + 1 / 2) / (longfacExact n * (72 - 2 * n))

theorem longfacExact_pos (n : ℕ) : 0 < longfacExact n := by
  unfold longfacExact
  have : (0 : ℝ) < (2 * n - 1 : ℕ).doubleFactorial := by exact_mod_cast Nat.doubleFactorial_pos _
  positivity

theorem tail_rel {n : ℕ} {x : ℝ} (hx : 36.5 ≤ x) (hn : n ≤ 24) :
    boysTail n x ≤ tailBound n * boysInf n x := by
  have hn' : (n : ℝ) ≤ 24 := by exact_mod_cast hn
  have hx0 : 0 < x := lt_of_lt_of_le (by norm_num) hx
  have hx' : (73 : ℝ) ≤ 2 * x := by norm_num at hx; linarith
  have h1 := boysTail_le (n := n) (x := x) (by linarith)
  have h2 : exp (-x) / (2 * x - (2 * n + 1)) ≤ exp (-x) / (72 - 2 * n) :=
    div_le_div_of_nonneg_left (exp_nonneg _) (by linarith) (by linarith)
  refine (h1.trans h2).trans ?_
  rw [boysInf_eq n hx0]
  change _ ≤ _ * (x ^ (-((n : ℝ) + 1 / 2)) * longfacExact n)
  have hL := longfacExact_pos n
  have h3 := exp_rpow_le (a := (n : ℝ) + 1 / 2) (c := 36.5) (by norm_num) (by positivity)
    (by norm_num; linarith) hx
  have hp : 0 < x ^ ((n : ℝ) + 1 / 2) := rpow_pos_of_pos hx0 _
  have hq : (0 : ℝ) < 72 - 2 * n := by linarith
  rw [rpow_neg hx0.le]
  unfold tailBound
  rw [div_le_iff₀ hq]
  have e : exp (-36.5) * 36.5 ^ ((n : ℝ) + 1 / 2) / (longfacExact n * (72 - 2 * n)) *
      ((x ^ ((n : ℝ) + 1 / 2))⁻¹ * longfacExact n) * (72 - 2 * n) =
      exp (-36.5) * 36.5 ^ ((n : ℝ) + 1 / 2) / x ^ ((n : ℝ) + 1 / 2) := by
    have hq' := hq.ne'
    generalize (72 - 2 * n : ℝ) = q at *
    field_simp
  rw [e, le_div_iff₀ hp]
  exact h3

/-- Bounds of `exp (-36.5)`. -/
theorem exp_365 : 1.4e-16 ≤ exp (-36.5) ∧ exp (-36.5) ≤ 1.42e-16 := by
  have e : exp (-36.5) = (exp 1)⁻¹ ^ 36 * (exp (1 / 2))⁻¹ := by
    rw [inv_pow, ← mul_inv, ← exp_nat_mul, ← exp_add, ← exp_neg]
    congr 1
    norm_num
  have h1 := Real.exp_one_gt_d9
  have h2 := Real.exp_one_lt_d9
  have h3 : exp (1 / 2) ≤ 1.6488 := by
    have h := Real.exp_bound' (x := 1 / 2) (by norm_num) (by norm_num) (n := 6) (by norm_num)
    refine h.trans ?_
    simp only [Finset.sum_range_succ, Finset.sum_range_zero, Nat.factorial]
    norm_num
  have h4 : 1.648 ≤ exp (1 / 2) := by
    have h := Real.sum_le_exp_of_nonneg (x := 1 / 2) (by norm_num) 6
    refine le_trans ?_ h
    simp only [Finset.sum_range_succ, Finset.sum_range_zero, Nat.factorial]
    norm_num
  rw [e]
  constructor
  · have a1 : (2.7182818286 : ℝ)⁻¹ ≤ (exp 1)⁻¹ := inv_anti₀ (exp_pos 1) h2.le
    have a2 : (1.6488 : ℝ)⁻¹ ≤ (exp (1 / 2))⁻¹ := inv_anti₀ (exp_pos _) h3
    refine le_trans ?_ (mul_le_mul (pow_le_pow_left₀ (by norm_num) a1 36) a2 (by norm_num) (by positivity))
    norm_num
  · have a1 : (exp 1)⁻¹ ≤ (2.7182818283 : ℝ)⁻¹ := inv_anti₀ (by norm_num) h1.le
    have a2 : (exp (1 / 2))⁻¹ ≤ (1.648 : ℝ)⁻¹ := inv_anti₀ (by norm_num) h4
    refine le_trans (mul_le_mul (pow_le_pow_left₀ (by positivity) a1 36) a2 (by positivity) (by norm_num)) ?_
    norm_num

theorem sqrt_365 : 6.04 ≤ √36.5 ∧ √36.5 ≤ 6.05 := by
  constructor
  · rw [Real.le_sqrt' (by norm_num)]; norm_num
  · rw [Real.sqrt_le_left (by norm_num)]; norm_num

theorem pow_365 (n : ℕ) : (36.5 : ℝ) ^ ((n : ℝ) + 1 / 2) = 36.5 ^ n * √36.5 := by
  rw [rpow_add (by norm_num), rpow_natCast, Real.sqrt_eq_rpow]

end Simint
