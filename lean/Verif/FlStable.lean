import Verif.Spec.FlSum

/-! Rounding to nearest does not change doubles. -/

set_option autoImplicit false

namespace Simint

open FlBoys (Arith ieee rn lastPlace)

theorem rn_zero : rn 0 = 0 := by unfold FlBoys.rn; simp

theorem rn_lt (n : ℤ) (p : ℤ) (hn : |n| < 2 ^ 53) (hp : -1074 ≤ p) :
    rn ((n : ℝ) * 2 ^ p) = (n : ℝ) * 2 ^ p := by
  rcases eq_or_ne n 0 with rfl | h0
  · simp [rn_zero]
  have h2 : (0 : ℝ) < 2 ^ p := by positivity
  have hpos : 0 < |(n : ℝ) * 2 ^ p| := abs_pos.2 (mul_ne_zero (by exact_mod_cast h0) h2.ne')
  have hlt : |(n : ℝ) * 2 ^ p| < 2 ^ (p + 53) := by
    rw [abs_mul, abs_of_pos h2, zpow_add₀ (by norm_num), mul_comm]
    refine mul_lt_mul_of_pos_left ?_ h2
    have : ((|n| : ℤ) : ℝ) < ((2 ^ 53 : ℤ) : ℝ) := by exact_mod_cast hn
    rw [Int.cast_abs] at this
    refine this.trans_le (le_of_eq ?_)
    norm_num
  have hlog : Int.log 2 |(n : ℝ) * 2 ^ p| < p + 53 :=
    (Int.lt_zpow_iff_log_lt (by norm_num) hpos).1 (by exact_mod_cast hlt)
  have hq : lastPlace ((n : ℝ) * 2 ^ p) ≤ p := max_le (by omega) hp
  unfold FlBoys.rn
  set q := lastPlace ((n : ℝ) * 2 ^ p) with hqd
  obtain ⟨k, hk⟩ := Int.le.dest hq
  have e1 : (n : ℝ) * 2 ^ p / 2 ^ q = ((n * 2 ^ k : ℤ) : ℝ) := by
    rw [← hk, zpow_add₀ (by norm_num), zpow_natCast]
    have : (2 : ℝ) ^ q ≠ 0 := by positivity
    push_cast
    field_simp
  rw [e1, round_intCast, ← e1, div_mul_cancel₀ _ (by positivity)]

theorem rn_int (n : ℤ) (p : ℤ) (hn : |n| ≤ 2 ^ 53) (hp : -1074 ≤ p) :
    rn ((n : ℝ) * 2 ^ p) = (n : ℝ) * 2 ^ p := by
  rcases lt_or_eq_of_le hn with h | h
  · exact rn_lt n p h hp
  · have key : ∀ s : ℤ, |s| = 1 → rn (((s * 2 ^ 53 : ℤ) : ℝ) * 2 ^ p) = ((s * 2 ^ 53 : ℤ) : ℝ) * 2 ^ p := by
      intro s hs
      have e : ((s * 2 ^ 53 : ℤ) : ℝ) * 2 ^ p = ((s * 2 ^ 52 : ℤ) : ℝ) * 2 ^ (p + 1) := by
        rw [zpow_add₀ (by norm_num)]
        push_cast
        ring
      rw [e]
      refine rn_lt _ _ ?_ (by omega)
      rw [abs_mul, hs]
      norm_num
    rcases (abs_eq (by norm_num)).1 h with rfl | rfl
    · simpa using key 1 (by norm_num)
    · simpa using key (-1) (by norm_num)

theorem rn_idem (y : ℝ) : rn (rn y) = rn y := by
  have hp : (-1074 : ℤ) ≤ lastPlace y := le_max_right _ _
  refine rn_int (round (y / 2 ^ lastPlace y)) _ ?_ hp
  have h2 : (0 : ℝ) < 2 ^ lastPlace y := by positivity
  have hy : |y| < 2 ^ (lastPlace y + 53) := by
    have h1 := Int.lt_zpow_succ_log_self (b := 2) (by norm_num) |y|
    push_cast at h1
    refine h1.trans_le (zpow_le_zpow_right₀ (by norm_num) ?_)
    have := le_max_left (Int.log 2 |y| - 52) (-1074)
    unfold FlBoys.lastPlace
    omega
  have hd : |y / 2 ^ lastPlace y| < 2 ^ 53 := by
    rw [abs_div, abs_of_pos h2, div_lt_iff₀ h2, ← zpow_natCast, ← zpow_add₀ (by norm_num)]
    rwa [add_comm]
  have hd2 := abs_lt.1 hd
  have h3 := abs_le.1 (abs_sub_round (y / 2 ^ lastPlace y))
  rw [abs_le]
  constructor
  · have : (-(2 ^ 53) - 1 : ℝ) < round (y / 2 ^ lastPlace y) := by linarith [hd2.1, h3.2]
    have : (-(2 ^ 53) - 1 : ℤ) < round (y / 2 ^ lastPlace y) := by exact_mod_cast this
    omega
  · have : (round (y / 2 ^ lastPlace y) : ℝ) < 2 ^ 53 + 1 := by linarith [hd2.2, h3.1]
    have : round (y / 2 ^ lastPlace y) < (2 ^ 53 + 1 : ℤ) := by exact_mod_cast this
    omega

theorem stable_ieee (fused : Bool) : Stable (ieee fused) := ⟨rn_idem, rn_zero⟩

end Simint
