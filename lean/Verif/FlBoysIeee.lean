import Verif.FlBoysLemmas

/-! Rounding to nearest satisfies the assumptions; exact arithmetic gives the values of C50. -/

set_option autoImplicit false

open Real

namespace Simint.FlBoys

theorem rn_zero : rn 0 = 0 := by simp [rn]

theorem half_place {y : ℝ} (hy : y ≠ 0) : (2 : ℝ) ^ lastPlace y / 2 ≤ u * |y| + η := by
  have hu : 0 ≤ u * |y| := by unfold u; positivity
  have hη := η_pos
  unfold lastPlace
  rcases le_total (Int.log 2 |y| - 52) (-1074) with c | c
  · rw [max_eq_right c]
    have : (2 : ℝ) ^ (-1074 : ℤ) / 2 = η := by
      unfold η
      rw [zpow_neg, show (1074 : ℤ) = ((1074 : ℕ) : ℤ) by norm_num, zpow_natCast, pow_succ (2 : ℝ) 1074, one_div, mul_inv,
        div_eq_mul_inv]
    linarith
  · rw [max_eq_left c]
    have h1 := Int.zpow_log_le_self (b := 2) (r := |y|) (by norm_num) (abs_pos.2 hy)
    have h2 : (2 : ℝ) ^ (Int.log 2 |y| - 52) / 2 = u * 2 ^ Int.log 2 |y| := by
      unfold u
      rw [zpow_sub₀ (by norm_num), show (52 : ℤ) = ((52 : ℕ) : ℤ) by norm_num, zpow_natCast]
      ring
    have hu0 : 0 ≤ u := by unfold u; positivity
    have h3 := mul_le_mul_of_nonneg_left h1 hu0
    push_cast at h3
    linarith

theorem rn_err (y : ℝ) : |rn y - y| ≤ u * |y| + η := by
  rcases eq_or_ne y 0 with rfl | hy
  · rw [rn_zero]; simp [η_pos.le]
  · refine le_trans ?_ (half_place hy)
    unfold rn
    have hp : (0 : ℝ) < 2 ^ lastPlace y := by positivity
    set p := (2 : ℝ) ^ lastPlace y
    have h1 := abs_sub_round (y / p)
    have e : (round (y / p) : ℝ) * p - y = -((y / p - round (y / p)) * p) := by
      field_simp; ring
    rw [e, abs_neg, abs_mul, abs_of_pos hp]
    nlinarith

theorem rn_tiny {y : ℝ} (hy : |y| < η) : rn y = 0 := by
  rcases eq_or_ne y 0 with rfl | h0
  · exact rn_zero
  · have h1 := Int.zpow_log_le_self (b := 2) (r := |y|) (by norm_num) (abs_pos.2 h0)
    have h2 : ((2 : ℕ) : ℝ) ^ Int.log 2 |y| < 2 ^ (-1075 : ℤ) := by
      refine (h1.trans_lt hy).trans_eq ?_
      unfold η
      rw [zpow_neg, show (1075 : ℤ) = ((1075 : ℕ) : ℤ) by norm_num, zpow_natCast, one_div]
    push_cast at h2
    rw [zpow_lt_zpow_iff_right₀ (by norm_num)] at h2
    have hl : lastPlace y = -1074 := by
      unfold lastPlace
      exact max_eq_right (by omega)
    unfold rn
    rw [hl]
    have hr : round (y / (2 : ℝ) ^ (-1074 : ℤ)) = 0 := by
      have hp : (0 : ℝ) < 2 ^ (-1074 : ℤ) := by positivity
      have hη : η = 2 ^ (-1074 : ℤ) / 2 := by
        unfold η
        rw [zpow_neg, show (1074 : ℤ) = ((1074 : ℕ) : ℤ) by norm_num, zpow_natCast, pow_succ (2 : ℝ) 1074, one_div,
          mul_inv, div_eq_mul_inv]
      rw [round_eq_zero_iff, Set.mem_Ico, le_div_iff₀ hp, div_lt_iff₀ hp]
      rw [abs_lt, hη] at hy
      constructor
      · linarith [hy.1]
      · linarith [hy.2]
    rw [hr]
    simp

theorem u_nonneg : 0 ≤ u := by unfold u; positivity

theorem u_le : u ≤ 1 / 2 ^ 50 := by unfold u; norm_num

/-- Doubles satisfy the assumptions. -/
theorem rounds_ieee (fused : Bool) : Rounds (ieee fused) where
  fl := fun y _ => rn_err y
  mac := fun a b c => by
    cases fused
    · exact Or.inr rfl
    · exact Or.inl rfl
  dot := fun a b c d => by
    cases fused
    · exact Or.inl rfl
    · exact Or.inr (Or.inl rfl)
  exp := fun y _ => by
    have h := rn_err (Real.exp y)
    rw [abs_of_pos (Real.exp_pos y)] at h
    have := mul_le_mul_of_nonneg_right u_le (Real.exp_pos y).le
    show |rn (Real.exp y) - Real.exp y| ≤ _
    linarith
  pow := fun x p hx _ => by
    have hp : 0 < x ^ p := rpow_pos_of_pos (by linarith) p
    have h := rn_err (x ^ p)
    rw [abs_of_pos hp] at h
    have := mul_le_mul_of_nonneg_right u_le hp.le
    show |rn (x ^ p) - x ^ p| ≤ _
    linarith

/-! ## Underflow -/

theorem exp_tiny_neg {x : ℝ} (hx : 2000 ≤ x) : Real.exp (-x) < η := by
  have h1 : Real.exp (-x) ≤ Real.exp (-2000) := Real.exp_le_exp.2 (by linarith)
  refine h1.trans_lt ?_
  unfold η
  rw [Real.exp_neg, ← one_div]
  refine one_div_lt_one_div_of_lt (by positivity) ?_
  have h2 : Real.exp 2000 = Real.exp 1 ^ 2000 := by rw [← Real.exp_nat_mul]; norm_num
  rw [h2]
  have h3 : (2 : ℝ) ≤ Real.exp 1 := by have := Real.exp_one_gt_d9; linarith
  refine lt_of_lt_of_le ?_ (pow_le_pow_left₀ (by norm_num) h3 2000)
  exact pow_lt_pow_right₀ (by norm_num) (by norm_num)

theorem large_of_pow {x : ℝ} {n : ℕ} (hx : 1 ≤ x) (hn : n ≤ 24) (hp : 2 ^ 1076 ≤ x ^ (2 * n + 1)) : 2000 ≤ x := by
  by_contra hc
  push Not at hc
  have h1 : x ^ (2 * n + 1) ≤ x ^ 49 := pow_le_pow_right₀ hx (by omega)
  have h2 : x ^ 49 ≤ (2 ^ 11) ^ 49 := pow_le_pow_left₀ (by linarith) (by norm_num; linarith) 49
  rw [← pow_mul] at h2
  have h3 : (2 : ℝ) ^ (11 * 49) < 2 ^ 1076 := pow_lt_pow_right₀ (by norm_num) (by norm_num)
  linarith

theorem longSingle_zero (fused : Bool) {x : ℝ} {n : ℕ} (hx : 1 ≤ x) (hn : n ≤ 24)
    (hp : 2 ^ 1076 ≤ x ^ (2 * n + 1)) : longSingle (ieee fused) x n = some 0 := by
  have hx0 : 0 < x := by linarith
  have h1 : (ieee fused).pow x (-((2 * n + 1 : ℕ) : ℝ)) = 0 := by
    show rn _ = 0
    refine rn_tiny ?_
    rw [rpow_neg hx0.le, rpow_natCast, abs_of_pos (by positivity), ← one_div]
    refine (one_div_le_one_div_of_le (by positivity) hp).trans_lt ?_
    unfold η
    exact one_div_lt_one_div_of_lt (by positivity) (pow_lt_pow_right₀ (by norm_num) (by norm_num))
  obtain ⟨f, e, _⟩ := fac_rel (rounds_ieee fused) hn
  unfold longSingle
  rw [e, h1, Real.sqrt_zero, Option.map_some]
  show some (rn (f * rn 0)) = some 0
  rw [rn_zero, mul_zero, rn_zero]

theorem down_zero (fused : Bool) {x : ℝ} (hx : 2000 ≤ x) : ∀ (k m : ℕ), down (ieee fused) x 0 m k = 0 := by
  have he : (ieee fused).exp (-x) = 0 := by
    show rn (Real.exp (-x)) = 0
    exact rn_tiny (by rw [abs_of_pos (Real.exp_pos _)]; exact exp_tiny_neg hx)
  intro k
  induction k with
  | zero => intro m; rfl
  | succ k ih =>
    intro m
    have hm : ∀ a, (ieee fused).mac a 0 0 = 0 := fun a => by
      cases fused <;> simp [ieee, rn_zero]
    rw [down, ih, he, hm, mul_zero]
    exact rn_zero

/-! ## Exact arithmetic -/

theorem taylor_exact {x : ℝ} {m : ℕ} (hx : 0 ≤ x) (h : x < 36.5) (hm : m ≤ 24) :
    taylor exact x m = some (shortVal m x) := by
  rw [← taylorAt_some hx h hm]
  have hi : idx exact x = gridIdx x := lookupIdx_eq hx
  unfold taylor taylorAt delta
  rw [hi, lookupIdx_eq hx]
  unfold taylorSum Simint.taylorSum
  beta_reduce
  have hlt := gridIdx_lt h
  simp only [grid, gridGet_some hlt (show m + 0 < 32 by omega), gridGet_some hlt (show m + 1 < 32 by omega),
    gridGet_some hlt (show m + 2 < 32 by omega), gridGet_some hlt (show m + 3 < 32 by omega),
    gridGet_some hlt (show m + 4 < 32 by omega), gridGet_some hlt (show m + 5 < 32 by omega),
    gridGet_some hlt (show m + 6 < 32 by omega), gridGet_some hlt (show m + 7 < 32 by omega),
    Option.map_some, Option.bind_some, term, exact, id]
  congr 1
  ring

theorem longX2_exact {x : ℝ} (hx : 0 < x) : ∀ i : ℕ, longX2 exact x i = x ^ (-((i : ℝ) + 1 / 2)) := by
  intro i
  rw [← sqrt_mul_pow hx]
  induction i with
  | zero => simp [longX2, exact]
  | succ i ih => rw [longX2, ih, pow_succ]; simp only [exact, id]; ring

theorem down_exact {x : ℝ} : ∀ (k m : ℕ), down exact x (topVal (m + k) x) m k = downVal m x k := by
  intro k
  induction k with
  | zero => intro m; rfl
  | succ k ih =>
    intro m
    rw [down, downVal, ← ih (m + 1), show m + (k + 1) = m + 1 + k by ring]
    simp only [exact, id]
    ring

end Simint.FlBoys
