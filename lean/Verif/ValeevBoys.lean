import Verif.ValeevLemmas
import Verif.BoysInt
import Mathlib.Analysis.Real.Pi.Bounds

/-! The Boys function of the reference program. -/

set_option autoImplicit false

open MeasureTheory Real Set

namespace Simint

/-- Terms of the series `F_n(x) = e^{-x} Σ_i (2x)^i (2n-1)!! / (2n+2i+1)!!`. -/
noncomputable def bT (n : ℕ) (x : ℝ) : ℕ → ℝ
  | 0 => 1 / (2 * n + 1)
  | i + 1 => bT n x i * (2 * x / (2 * n + 2 * i + 3))

theorem bT_eq (n : ℕ) (x : ℝ) (i : ℕ) : bT n x i =
    ((2 * n - 1).doubleFactorial : ℝ) * (2 * x) ^ i / ((2 * n + 2 * i + 1).doubleFactorial : ℝ) := by
  induction i with
  | zero =>
    have h : (2 * n + 1).doubleFactorial = (2 * n + 1) * (2 * n - 1).doubleFactorial := by
      cases n with
      | zero => rfl
      | succ n => rfl
    have hp : (((2 * n - 1).doubleFactorial : ℕ) : ℝ) ≠ 0 := Nat.cast_ne_zero.2 (Nat.doubleFactorial_pos _).ne'
    rw [bT]
    simp only [mul_zero, add_zero, pow_zero, mul_one, h]
    push_cast
    field_simp
  | succ i ih =>
    have h : (2 * n + 2 * (i + 1) + 1).doubleFactorial =
        (2 * n + 2 * i + 3) * (2 * n + 2 * i + 1).doubleFactorial := rfl
    have hp : (((2 * n + 2 * i + 1).doubleFactorial : ℕ) : ℝ) ≠ 0 := Nat.cast_ne_zero.2 (Nat.doubleFactorial_pos _).ne'
    rw [bT, ih, h]
    push_cast
    have h3 : (2 * (n : ℝ) + 2 * i + 3) ≠ 0 := by positivity
    rw [pow_succ]
    field_simp

theorem bT_nonneg {x : ℝ} (hx : 0 ≤ x) (n i : ℕ) : 0 ≤ bT n x i := by
  induction i with
  | zero => rw [bT]; positivity
  | succ i ih => rw [bT]; positivity

/-- Series with remainder. -/
theorem boys_series (n : ℕ) (x : ℝ) (N : ℕ) : boysF n x =
    exp (-x) * ∑ i ∈ Finset.range (N + 1), bT n x i + bT n x N * (2 * x) * boysF (n + N + 1) x := by
  have hr : ∀ m : ℕ, boysF m x = (2 * x * boysF (m + 1) x + exp (-x)) / (2 * m + 1) := fun m => by
    have h3 : (2 * (m : ℝ) + 1) ≠ 0 := by positivity
    have := boysF_rec m x
    field_simp
    linarith
  induction N with
  | zero =>
    rw [Finset.sum_range_one, bT, hr n]
    simp only [add_zero]
    ring
  | succ N ih =>
    rw [ih, Finset.sum_range_succ _ (N + 1), hr (n + N + 1), bT]
    push_cast
    have h3 : (2 * ((n : ℝ) + N + 1) + 1) ≠ 0 := by positivity
    have h4 : (2 * (n : ℝ) + 2 * N + 3) ≠ 0 := by positivity
    have e : n + (N + 1) + 1 = n + N + 1 + 1 := by omega
    rw [e]
    field_simp
    ring

theorem boysF_le_exp {k : ℕ} {x : ℝ} (hx : 0 ≤ x) (h : 2 * x < 2 * k + 1) :
    boysF k x ≤ exp (-x) / (2 * k + 1 - 2 * x) := by
  rw [le_div_iff₀ (by linarith)]
  have h1 := boysF_rec k x
  have h2 := mul_le_mul_of_nonneg_left (boysF_succ_le k x) (by linarith : 0 ≤ 2 * x)
  linarith

theorem bT_ge {n : ℕ} {x : ℝ} {N : ℕ} (h : (2 * (n : ℝ) + 2 * N + 3) < 4 * x) :
    (1 / 2) ^ N / (2 * (n : ℝ) + 1) ≤ bT n x N := by
  induction N with
  | zero => simp [bT]
  | succ N ih =>
    push_cast at h
    have := ih (by linarith)
    rw [bT, pow_succ, mul_div_right_comm]
    refine mul_le_mul this ?_ (by norm_num) ((div_nonneg (by positivity) (by positivity)).trans this)
    rw [le_div_iff₀ (by positivity)]
    linarith

/-- Once a term is at most `EPS`, the next ones are at most half as large. -/
theorem bT_ratio {n : ℕ} {x : ℝ} (hx : x ≤ 20) {N : ℕ} (h : bT n x N ≤ EPS) :
    4 * x ≤ 2 * n + 2 * N + 3 := by
  by_contra hc
  push Not at hc
  have h1 := bT_ge hc
  have h2 : (2 * (n : ℝ) + 2 * N + 3) < 80 := by linarith
  have h3 : 2 * n + 2 * N + 3 < 80 := by exact_mod_cast h2
  have h4 : (1 / 2 : ℝ) ^ 38 ≤ (1 / 2) ^ N := pow_le_pow_of_le_one (by norm_num) (by norm_num) (by omega)
  have h5 : (2 * (n : ℝ) + 1) ≤ 80 := by linarith [Nat.cast_nonneg (α := ℝ) N]
  have h6 : (1 / 2 : ℝ) ^ 38 / 80 ≤ (1 / 2) ^ N / (2 * (n : ℝ) + 1) :=
    div_le_div₀ (by positivity) h4 (by positivity) h5
  have h7 : EPS < (1 / 2 : ℝ) ^ 38 / 80 := by rw [EPS]; norm_num
  linarith

theorem bT_le {n : ℕ} {x : ℝ} (h0 : 0 ≤ x) (hx : x ≤ 20) (N : ℕ) : bT n x N ≤ bT 0 20 N := by
  induction N with
  | zero =>
    rw [bT, bT]
    refine one_div_le_one_div_of_le (by norm_num) ?_
    push_cast
    linarith [Nat.cast_nonneg (α := ℝ) n]
  | succ N ih =>
    rw [bT, bT]
    refine mul_le_mul ih ?_ (by positivity) (bT_nonneg (by norm_num) _ _)
    refine div_le_div₀ (by norm_num) (by linarith) (by positivity) ?_
    push_cast
    linarith [Nat.cast_nonneg (α := ℝ) n]

theorem bT_100 : bT 0 20 100 ≤ EPS := by
  rw [bT_eq, div_le_iff₀ (Nat.cast_pos.2 (Nat.doubleFactorial_pos _)), EPS]
  norm_num [Nat.doubleFactorial]

/-- The loop of the series. -/
theorem fSeries_eq {n : ℕ} (hn : n ≤ 98) {x : ℝ} (h0 : 0 ≤ x) (hx : x ≤ 20) (fuel : ℕ) : ∀ (i : ℕ) (sum : ℝ),
    i < 100 → 100 < i + fuel → sum = ∑ j ∈ Finset.range (i + 1), bT n x j →
    ∃ N, N ≤ 100 ∧ bT n x N ≤ EPS ∧
      fSeries (2 * x) (2 * n) fuel i (((2 * n - 1).doubleFactorial : ℝ) * (2 * x) ^ i) sum =
        some (∑ j ∈ Finset.range (N + 1), bT n x j) := by
  induction fuel with
  | zero => intro i sum h1 h2; omega
  | succ fuel ih =>
    intro i sum h1 h2 hs
    have hd : dfAt (((2 * n : ℕ) : ℤ) + 2 * ((i + 1 : ℕ) : ℤ) + 2) =
        some ((2 * n + 2 * (i + 1) + 1).doubleFactorial : ℝ) := by
      have e : (((2 * n : ℕ) : ℤ) + 2 * ((i + 1 : ℕ) : ℤ) + 2) = ((2 * n + 2 * (i + 1) + 2 : ℕ) : ℤ) := by
        push_cast; ring
      rw [e, dfAt_nat (by omega)]
      rfl
    have ht : ((2 * n - 1).doubleFactorial : ℝ) * (2 * x) ^ i * (2 * x) /
        ((2 * n + 2 * (i + 1) + 1).doubleFactorial : ℝ) = bT n x (i + 1) := by
      rw [bT_eq, pow_succ]; ring
    rw [fSeries, hd]
    simp only [Option.bind_eq_bind, Option.bind_some, Option.pure_def]
    rw [ht, abs_of_nonneg (bT_nonneg h0 _ _)]
    by_cases hc : bT n x (i + 1) ≤ EPS
    · refine ⟨i + 1, by omega, hc, ?_⟩
      rw [if_neg (by rintro ⟨h, -⟩; linarith), hs, Finset.sum_range_succ _ (i + 1)]
    · have hi : i + 1 < 100 := by
        by_contra hi
        have : i + 1 = 100 := by omega
        rw [this] at hc
        exact hc ((bT_le h0 hx 100).trans bT_100)
      obtain ⟨N, hN, hE, hF⟩ := ih (i + 1) (sum + bT n x (i + 1)) hi (by omega)
        (by rw [hs, Finset.sum_range_succ _ (i + 1)])
      refine ⟨N, hN, hE, ?_⟩
      rw [if_pos ⟨not_le.1 hc, by simp only [MAXFAC]; omega⟩, mul_assoc, ← pow_succ]
      exact hF

/-! ### Recursions -/

theorem fUp_eq {x : ℝ} (hx : 0 < x) (n : ℕ) : fUp (exp (-x)) (2 * x) (boysF 0 x) n =
    (List.range (n + 1)).map fun m => boysF m x := by
  induction n with
  | zero => rfl
  | succ n ih =>
    rw [fUp, ih, List.range_succ (n := n + 1), List.map_append, List.map_singleton]
    congr 2
    rw [List.getD_eq_getElem?_getD, List.getElem?_map, List.getElem?_range (by omega)]
    simp only [Option.map_some, Option.getD_some]
    have := boysF_rec n x
    field_simp
    linarith

/-- Value `F[m]` after downward recursion from `F[n] = f`. -/
theorem fDown_eq {x : ℝ} (n : ℕ) (e : ℝ) : fDown (exp (-x)) (2 * x) n (boysF n x - e) =
    (List.range (n + 1)).map fun m => boysF m x - e * ∏ k ∈ Finset.Ico m n, 2 * x / (2 * (k : ℝ) + 1) := by
  induction n generalizing e with
  | zero => simp [fDown]
  | succ n ih =>
    have h : (2 * x * (boysF (n + 1) x - e) + exp (-x)) / (2 * (n : ℝ) + 1) =
        boysF n x - e * (2 * x / (2 * (n : ℝ) + 1)) := by
      have h3 : (2 * (n : ℝ) + 1) ≠ 0 := by positivity
      have := boysF_rec n x
      field_simp
      linarith
    rw [fDown, h, ih, List.range_succ (n := n + 1), List.map_append, List.map_singleton]
    congr 1
    · refine List.map_congr_left fun m hm => ?_
      rw [List.mem_range] at hm
      rw [Finset.prod_Ico_succ_top (by omega)]
      ring
    · simp

/-- The factor of the downward recursion, in terms of the Boys function. -/
theorem prod_le_boys {x : ℝ} (hx : 0 ≤ x) (n : ℕ) : ∀ m ≤ n,
    exp (-x) * ∏ k ∈ Finset.Ico m n, 2 * x / (2 * (k : ℝ) + 1) ≤ (2 * n + 1) * boysF m x := by
  have hr : ∀ m : ℕ, boysF m x = (2 * x * boysF (m + 1) x + exp (-x)) / (2 * m + 1) := fun m => by
    have h3 : (2 * (m : ℝ) + 1) ≠ 0 := by positivity
    have := boysF_rec m x
    field_simp
    linarith
  intro m hm
  induction hm using Nat.decreasingInduction with
  | self =>
    rw [Finset.Ico_self, Finset.prod_empty, mul_one]
    have h := boysF_rec n x
    have := mul_nonneg hx (boysF_nonneg (n + 1) x)
    linarith
  | of_succ m hm ih =>
    rw [Finset.prod_eq_prod_Ico_succ_bot (by omega)]
    rw [hr m]
    have hm' : (0 : ℝ) < 2 * m + 1 := by positivity
    rw [mul_div_assoc', le_div_iff₀ hm']
    have e : exp (-x) * (2 * x / (2 * (m : ℝ) + 1) * ∏ k ∈ Finset.Ico (m + 1) n, 2 * x / (2 * (k : ℝ) + 1)) *
        (2 * m + 1) = 2 * x * (exp (-x) * ∏ k ∈ Finset.Ico (m + 1) n, 2 * x / (2 * (k : ℝ) + 1)) := by
      field_simp
    rw [e]
    have h1 := mul_le_mul_of_nonneg_left ih (by linarith : 0 ≤ 2 * x)
    have h2 : 0 ≤ (2 * (n : ℝ) + 1) * exp (-x) := by positivity
    nlinarith [h1, h2]

/-- `√π/2 erf(√x)/√x` is the Boys function of order 0. -/
theorem boysF_zero_erf {x : ℝ} (hx : 0 < x) : √π / 2 * erfR (√x) / √x = boysF 0 x := by
  have hs : 0 < √x := sqrt_pos.2 hx
  have h1 : boysF 0 x = ∫ t in (0 : ℝ)..1, exp (-(√x * t) ^ 2) := by
    rw [boysF_interval]
    refine intervalIntegral.integral_congr fun t _ => ?_
    simp only [mul_zero, pow_zero, one_mul, mul_pow, sq_sqrt hx.le, neg_mul]
  rw [h1, intervalIntegral.integral_comp_mul_left (fun t => exp (-t ^ 2)) hs.ne', erfR]
  simp only [mul_zero, mul_one, smul_eq_mul]
  have : √π ≠ 0 := (sqrt_pos.2 pi_pos).ne'
  field_simp

/-- Large arguments: the array is exact. -/
theorem valeevF_large (n : ℕ) {x : ℝ} (hx : 20 < x) :
    valeevF n x = some ((List.range (n + 1)).map fun m => boysF m x) := by
  rw [valeevF, if_pos hx, boysF_zero_erf (by linarith), fUp_eq (by linarith)]

/-- Small arguments: relative error. -/
theorem valeevF_small {n : ℕ} (hn : n ≤ 98) {x : ℝ} (h0 : 0 ≤ x) (hx : x ≤ 20) :
    ∃ φ : ℕ → ℝ, valeevF n x = some ((List.range (n + 1)).map φ) ∧
      ∀ m ≤ n, 0 ≤ boysF m x - φ m ∧ boysF m x - φ m ≤ EPS * (2 * n + 1) * boysF m x := by
  obtain ⟨N, hN, hE, hF⟩ := fSeries_eq hn h0 hx MAXFAC 0 (1 / (2 * n + 1)) (by norm_num) (by norm_num [MAXFAC])
    (by rw [Finset.sum_range_one, bT])
  have hr := bT_ratio hx hE
  set R := bT n x N * (2 * x) * boysF (n + N + 1) x with hR
  have hser := boys_series n x N
  have hR0 : 0 ≤ R := mul_nonneg (mul_nonneg (bT_nonneg h0 _ _) (by linarith)) (boysF_nonneg _ _)
  have hRle : R ≤ EPS * exp (-x) := by
    have h1 : boysF (n + N + 1) x ≤ exp (-x) / (2 * ((n + N + 1 : ℕ) : ℝ) + 1 - 2 * x) :=
      boysF_le_exp h0 (by push_cast; linarith [Nat.cast_nonneg (α := ℝ) n, Nat.cast_nonneg (α := ℝ) N])
    push_cast at h1
    have hpos : 0 < 2 * ((n : ℝ) + N + 1) + 1 - 2 * x := by
      linarith [Nat.cast_nonneg (α := ℝ) n, Nat.cast_nonneg (α := ℝ) N]
    have h2 : 2 * x * boysF (n + N + 1) x ≤ exp (-x) := by
      refine (mul_le_mul_of_nonneg_left h1 (by linarith)).trans ?_
      rw [mul_div_assoc', div_le_iff₀ hpos, mul_comm]
      refine mul_le_mul_of_nonneg_left ?_ (exp_pos _).le
      linarith
    rw [hR, mul_assoc]
    exact mul_le_mul hE h2 (mul_nonneg (by linarith) (boysF_nonneg _ _)) (by rw [EPS]; norm_num)
  refine ⟨fun m => boysF m x - R * ∏ k ∈ Finset.Ico m n, 2 * x / (2 * (k : ℝ) + 1), ?_, fun m hm => ?_⟩
  · rw [valeevF, if_neg (by linarith)]
    have e : (2 * (n : ℤ)) = ((2 * n : ℕ) : ℤ) := by push_cast; ring
    rw [e, dfAt_nat (by omega)]
    simp only [Option.bind_eq_bind, Option.bind_some, Option.pure_def]
    rw [pow_zero, mul_one] at hF
    rw [hF]
    simp only [Option.bind_some]
    have hs : boysF n x - R = (∑ i ∈ Finset.range (N + 1), bT n x i) * exp (-x) := by
      rw [hser, hR]; ring
    rw [← fDown_eq, hs]
  · have hp : 0 ≤ ∏ k ∈ Finset.Ico m n, 2 * x / (2 * (k : ℝ) + 1) :=
      Finset.prod_nonneg fun k _ => by positivity
    simp only [sub_sub_cancel]
    refine ⟨mul_nonneg hR0 hp, (mul_le_mul_of_nonneg_right hRle hp).trans ?_⟩
    have := mul_le_mul_of_nonneg_left (prod_le_boys h0 n m hm) (by rw [EPS]; norm_num : 0 ≤ EPS)
    linarith

/-! ### Degrees -/

open Polynomial in
theorem thoDir_degree (p q ρ PQ : ℝ) (f g : ℕ → ℝ) (n m : ℕ) : (thoDir p q ρ PQ f g n m).natDegree ≤ n + m := by
  unfold thoDir thoTerm
  refine natDegree_sum_le_of_forall_le _ _ fun lp hlp => natDegree_sum_le_of_forall_le _ _ fun lq hlq =>
    natDegree_sum_le_of_forall_le _ _ fun u1 _ => natDegree_sum_le_of_forall_le _ _ fun u2 _ =>
    natDegree_sum_le_of_forall_le _ _ fun t _ => ?_
  rw [Finset.mem_range] at hlp hlq
  exact (natDegree_C_mul_X_pow_le _ _).trans (by omega)

open Polynomial in
theorem subL_coeff {φ : ℕ → ℝ} {g : ℝ[X]} {N : ℕ} (h : g.natDegree ≤ N) :
    subL φ g = ∑ k ∈ Finset.range (N + 1), g.coeff k * φ k := by
  conv_lhs => rw [as_sum_range' g (N + 1) (by omega)]
  rw [map_sum]
  exact Finset.sum_congr rfl fun k _ => subL_monomial _ _ _

end Simint
