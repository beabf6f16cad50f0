import Verif.FlNorm
import Verif.Spec.FlNorm
import Verif.NormLemmas
import Verif.FlOneElVal
import Verif.Props.FlPrim

/-!
# Lemmas on rounded normalisation
-/

set_option autoImplicit false

open Real

namespace Simint.FlNorm

open FlBoys (Arith Rounds u)
open FlPrim (T S T_def S_def T_pos S_pos T_one T_le S_le T_add T_mul T_twice S_twice S_one κT κS ov_T mul_T add_T)
open FlOneEl (T_S)

/-- Real powers of an inaccurate positive number. -/
theorem rpow_near {k e P f : ℕ} {x' x p : ℝ} (h : Rl k e x' x) (hk : k ≤ 2 ^ 20) (hp : 0 ≤ p) (hP : p ≤ P)
    (hr : InR f (x ^ p)) : Rl ((k + 1) * P) f (x' ^ p) (x ^ p) := by
  refine ⟨?_, hr⟩
  have hx := h.pos
  have hx' := h.pos' hk
  have hX : 0 < x ^ p := rpow_pos_of_pos hx p
  -- ratio bounds
  have h1 : x' ≤ (1 + u) ^ (k + 1) * x := by
    have := (abs_le.1 h.err).2
    have h2 : γ k ≤ γ (k + 1) := γ_mono (by omega)
    have h3 := mul_le_mul_of_nonneg_right h2 hx.le
    unfold γ at this h3
    linarith
  have h2 : x ≤ (1 + u) ^ (k + 1) * x' := by
    have h3 := (abs_le.1 (h.inv hk).err).2
    have h4 : 1 / x' ≤ (1 + u) ^ (k + 1) * (1 / x) := by unfold γ at h3; linarith
    rw [mul_one_div, div_le_div_iff₀ hx' hx] at h4
    linarith
  have hb : 1 ≤ (1 + u) ^ (k + 1) := one_le_uPow _
  have pw : ((1 + u) ^ (k + 1)) ^ p ≤ (1 + u) ^ ((k + 1) * P) := by
    calc ((1 + u) ^ (k + 1)) ^ p ≤ ((1 + u) ^ (k + 1)) ^ (P : ℝ) := rpow_le_rpow_of_exponent_le hb hP
      _ = _ := by rw [rpow_natCast, ← pow_mul]
  have g1 : x' ^ p ≤ (1 + u) ^ ((k + 1) * P) * x ^ p := by
    calc x' ^ p ≤ ((1 + u) ^ (k + 1) * x) ^ p := rpow_le_rpow hx'.le h1 hp
      _ = ((1 + u) ^ (k + 1)) ^ p * x ^ p := mul_rpow (by linarith) hx.le
      _ ≤ _ := mul_le_mul_of_nonneg_right pw hX.le
  have g2 : x ^ p ≤ (1 + u) ^ ((k + 1) * P) * x' ^ p := by
    calc x ^ p ≤ ((1 + u) ^ (k + 1) * x') ^ p := rpow_le_rpow hx.le h2 hp
      _ = ((1 + u) ^ (k + 1)) ^ p * x' ^ p := mul_rpow (by linarith) hx'.le
      _ ≤ _ := mul_le_mul_of_nonneg_right pw (rpow_nonneg hx'.le _)
  have hc := one_le_uPow ((k + 1) * P)
  unfold γ
  set c := (1 + u) ^ ((k + 1) * P)
  rw [abs_le]
  constructor
  · rcases le_total (x ^ p) (x' ^ p) with q | q
    · have := mul_nonneg (sub_nonneg.2 hc) hX.le
      linarith
    · nlinarith
  · linarith

/-- The library function on an inaccurate argument. -/
theorem pow_near {F : Arith} (hpow : PowOK F) {k e P f : ℕ} {x' x p : ℝ} (h : Rl k e x' x) (hp : 0 ≤ p)
    (hP : p ≤ P) (hk : (k + 1) * P + k ≤ 2 ^ 20) (hf : f ≤ 999) (hr : InR f (x ^ p)) :
    Rl ((k + 1) * P + 8) f (F.pow x' p) (x ^ p) := by
  have h1 := rpow_near h (by omega) hp hP hr
  have hx' := h.pos' (by omega)
  obtain ⟨b1, b2⟩ := h1.half (by omega)
  have lo : κ ≤ x' ^ p := by
    refine le_trans ?_ b1
    have := hr.lo
    have h3 : (1 : ℝ) / 2 ^ 999 ≤ 1 / 2 ^ f := one_div_le_one_div_of_le (by positivity)
      (pow_le_pow_right₀ (by norm_num) hf)
    have h4 : κ ≤ 1 / 2 ^ 999 / 2 := by
      rw [div_div]
      unfold κ
      refine one_div_le_one_div_of_le (by positivity) ?_
      calc (2 : ℝ) ^ 999 * 2 = 2 ^ 1000 := (pow_succ 2 999).symm
        _ ≤ 2 ^ 1022 := pow_le_pow_right₀ (by norm_num) (by norm_num)
    linarith
  have hi : x' ^ p ≤ 2 ^ 1000 := by
    refine b2.trans ?_
    have := hr.hi
    have h3 : (2 : ℝ) ^ f ≤ 2 ^ 999 := pow_le_pow_right₀ (by norm_num) hf
    calc 2 * x ^ p ≤ 2 ^ 999 * 2 := by linarith
      _ = 2 ^ 1000 := (pow_succ 2 999).symm
  have q := hpow x' p hx' lo hi
  refine ⟨?_, hr⟩
  have hX := hr.pos
  have g8 : (1 : ℝ) / 2 ^ 50 ≤ γ 8 := by
    unfold γ
    refine le_trans ?_ (FlPrim.γ_ge (k := 8) (e := 1 / 2 ^ 50) ?_)
    · exact le_rfl
    · norm_num
  have y0 : 0 < x' ^ p := rpow_pos_of_pos hx' p
  have y1 : x' ^ p ≤ (1 + γ ((k + 1) * P)) * x ^ p := by
    have := (abs_le.1 h1.err).2
    linarith
  have e : F.pow x' p - x ^ p = (F.pow x' p - x' ^ p) + (x' ^ p - x ^ p) := by ring
  rw [e, γ_add]
  refine (abs_add_le _ _).trans ?_
  have q1 : 1 / 2 ^ 50 * x' ^ p ≤ γ 8 * x' ^ p := mul_le_mul_of_nonneg_right g8 y0.le
  have q2 : γ 8 * x' ^ p ≤ γ 8 * ((1 + γ ((k + 1) * P)) * x ^ p) := mul_le_mul_of_nonneg_left y1 (γ_nonneg 8)
  have q3 := h1.err
  have : (γ ((k + 1) * P) + γ 8 + γ ((k + 1) * P) * γ 8) * x ^ p =
      γ 8 * ((1 + γ ((k + 1) * P)) * x ^ p) + γ ((k + 1) * P) * x ^ p := by ring
  rw [this]
  linarith

/-- Range of a real power. -/
theorem InR.rpow {a n : ℕ} {x p : ℝ} (h : InR a x) (hp : 0 ≤ p) (hP : p ≤ n) : InR (a * n) (x ^ p) := by
  have hx := h.pos
  have h1 : (1 : ℝ) ≤ 2 ^ a := one_le_pow₀ (by norm_num)
  have h2 : ((2 : ℝ) ^ a) ^ p ≤ 2 ^ (a * n) := by
    calc ((2 : ℝ) ^ a) ^ p ≤ ((2 : ℝ) ^ a) ^ (n : ℝ) := rpow_le_rpow_of_exponent_le h1 hP
      _ = _ := by rw [rpow_natCast, ← pow_mul]
  constructor
  · calc (1 : ℝ) / 2 ^ (a * n) ≤ 1 / ((2 : ℝ) ^ a) ^ p := one_div_le_one_div_of_le (by positivity) h2
      _ = (1 / 2 ^ a) ^ p := by rw [div_rpow (by norm_num) (by positivity), one_rpow]
      _ ≤ x ^ p := rpow_le_rpow (by positivity) h.lo hp
  · exact (rpow_le_rpow hx.le h.hi hp).trans h2

/-- A product never exceeds the square of a sum. -/
theorem ratio_le {a b m : ℝ} (ha : 0 < a) (hb : 0 < b) (hm : 0 ≤ m) : (a * b) ^ (1 / 2 * m) ≤ (a + b) ^ m := by
  have h : a * b ≤ (a + b) ^ 2 := by nlinarith [mul_pos ha hb]
  calc (a * b) ^ (1 / 2 * m) ≤ ((a + b) ^ 2) ^ (1 / 2 * m) :=
        rpow_le_rpow (mul_pos ha hb).le h (by positivity)
    _ = (a + b) ^ m := by
        rw [← rpow_natCast, ← rpow_mul (by positivity)]
        congr 1
        push_cast
        ring

end Simint.FlNorm
