import Verif.FlOneEl
import Verif.Spec.FlOneEl
import Verif.FlPrimLemmas
import Verif.OneElLoops

/-! Lemmas for the one-electron integrals on doubles. -/

set_option autoImplicit false

open Real

namespace Simint.FlOneEl

open FlBoys (Arith Rounds u)
open FlPrim (T S T_def S_def T_pos S_pos T_one T_le S_le T_add T_mul T_twice S_twice S_one κT κS ov_T mul_T add_T)
open VRRRound (mul_near fma_near)

/-! ## Moments -/

theorem moment_ovl (M : ℝ) {p : ℝ} (hp : 0 < p) (n : ℕ) :
    moment M (1 / (2 * p)) n = ovl1 (p / 2) (-M) (p / 2) M n 0 / ovl1 (p / 2) (-M) (p / 2) M 0 0 := by
  have e : ∀ n, ovl1 (p / 2) (-M) (p / 2) M n 0 =
      exp (-(p * M ^ 2)) * ∫ x : ℝ, (x + M) ^ n * exp (-x ^ 2 / (2 * (1 / (2 * p)))) := by
    intro n
    unfold ovl1 gauss1
    rw [← MeasureTheory.integral_const_mul]
    congr 1
    ext x
    rw [pow_zero, one_mul, sub_neg_eq_add]
    have : exp (-(p / 2) * (x + M) ^ 2) * exp (-(p / 2) * (x - M) ^ 2) =
        exp (-(p * M ^ 2)) * exp (-x ^ 2 / (2 * (1 / (2 * p)))) := by
      rw [← exp_add, ← exp_add]
      congr 1
      field_simp
      ring
    rw [mul_assoc, this]
    ring
  unfold moment
  rw [e, e]
  have h0 : exp (-(p * M ^ 2)) ≠ 0 := (exp_pos _).ne'
  rw [mul_div_mul_left _ _ h0]
  simp

theorem moment_zero (M : ℝ) {p : ℝ} (hp : 0 < p) : moment M (1 / (2 * p)) 0 = 1 := by
  rw [moment_ovl M hp]
  have hp2 : 0 < p / 2 := by linarith
  have h := ovl1_zero hp2 hp2 (-M) M
  have h0 : 0 < ovl1 (p / 2) (-M) (p / 2) M 0 0 := by
    rw [h]
    have := pi_pos
    positivity
  exact div_self h0.ne'

theorem moment_succ (M : ℝ) {p : ℝ} (hp : 0 < p) (n : ℕ) :
    moment M (1 / (2 * p)) (n + 1) = M * moment M (1 / (2 * p)) n +
      n * (1 / (2 * p)) * moment M (1 / (2 * p)) (n - 1) := by
  have hp2 : 0 < p / 2 := by linarith
  simp only [moment_ovl M hp]
  rw [ovl1_succ_left hp2 hp2 (-M) M]
  simp
  field_simp

section
variable {M p : ℝ} (hM : 0 ≤ M) (hp : 0 < p)
include hM hp

theorem moment_ge (n : ℕ) : M ^ n ≤ moment M (1 / (2 * p)) n := by
  have key : ∀ n, M ^ n ≤ moment M (1 / (2 * p)) n ∧ M ^ (n + 1) ≤ moment M (1 / (2 * p)) (n + 1) := by
    intro n
    induction n with
    | zero => exact ⟨by rw [moment_zero M hp]; simp, by rw [moment_succ M hp, moment_zero M hp]; simp⟩
    | succ n ih =>
      refine ⟨ih.2, ?_⟩
      rw [moment_succ M hp, pow_succ, mul_comm]
      have h1 := mul_le_mul_of_nonneg_left ih.2 hM
      have h2 : 0 ≤ moment M (1 / (2 * p)) n := (pow_nonneg hM n).trans ih.1
      have h3 : 0 ≤ ((n + 1 : ℕ) : ℝ) * (1 / (2 * p)) * moment M (1 / (2 * p)) (n + 1 - 1) := by
        rw [Nat.add_sub_cancel]; positivity
      linarith
  exact (key n).1

theorem moment_nonneg (n : ℕ) : 0 ≤ moment M (1 / (2 * p)) n := (pow_nonneg hM n).trans (moment_ge hM hp n)

theorem moment_le (hM1 : M ≤ T 17) (hh : 1 / (2 * p) ≤ T 19) (n : ℕ) (hn : n ≤ 37) :
    moment M (1 / (2 * p)) n ≤ T (18 * n) := by
  have key : ∀ n, n + 1 ≤ 38 → moment M (1 / (2 * p)) n ≤ T (18 * n) ∧
      (n + 1 ≤ 37 → moment M (1 / (2 * p)) (n + 1) ≤ T (18 * (n + 1))) := by
    intro n
    induction n with
    | zero =>
      intro _
      refine ⟨by rw [moment_zero M hp]; exact T_one _, fun _ => ?_⟩
      rw [moment_succ M hp, moment_zero M hp]
      simp only [CharP.cast_eq_zero, zero_mul, add_zero, mul_one]
      exact hM1.trans (T_le (by norm_num))
    | succ n ih =>
      intro hn
      have ih := ih (by omega)
      have i2 := ih.2 (by omega)
      refine ⟨i2, fun hn2 => ?_⟩
      rw [moment_succ M hp, Nat.add_sub_cancel]
      have m0 := moment_nonneg hM hp n
      have m1 := moment_nonneg hM hp (n + 1)
      have a1 : M * moment M (1 / (2 * p)) (n + 1) ≤ T (18 * n + 35) := mul_T hM1 i2 m1 (by omega)
      have c1 : ((n + 1 : ℕ) : ℝ) ≤ T 6 := by
        unfold FlPrim.T
        have : ((n + 1 : ℕ) : ℝ) ≤ ((64 : ℕ) : ℝ) := by exact_mod_cast (by omega : n + 1 ≤ 64)
        refine this.trans (by norm_num)
      have c2 : ((n + 1 : ℕ) : ℝ) * (1 / (2 * p)) ≤ T 25 := mul_T c1 hh (by positivity) (by norm_num)
      have a2 : ((n + 1 : ℕ) : ℝ) * (1 / (2 * p)) * moment M (1 / (2 * p)) n ≤ T (18 * n + 35) :=
        mul_T c2 ih.1 m0 (by omega)
      exact add_T a1 a2 (by omega)
  exact (key n (by omega)).1

end

/-! ## Variables before the loops -/

/-- Exponents and coordinates of a pair of primitives are of moderate size. -/
structure PrimIn (α β R : ℝ) : Prop where
  alo : 1 / 2 ^ 20 ≤ α
  ahi : α ≤ 2 ^ 40
  blo : 1 / 2 ^ 20 ≤ β
  bhi : β ≤ 2 ^ 40
  rlo : 0 ≤ R
  rhi : R ≤ 2 ^ 15

theorem pi_lit : |piLit - π| ≤ u * π := by
  have hlo := pi_gt_d20
  have hhi := pi_lt_d20
  have hu : 1 / 10 ^ 16 ≤ u := by unfold FlBoys.u; norm_num
  have h1 : 3.14159265358979323846 < piLit ∧ piLit < 3.14159265358979323847 := by
    unfold piLit; constructor <;> norm_num
  have h2 : 1 / 10 ^ 16 * 3 ≤ u * π := mul_le_mul hu pi_gt_three.le (by norm_num) u_pos.le
  norm_num at hlo hhi h1 h2
  rw [abs_le]
  constructor <;> linarith [h1.1, h1.2]

theorem pi_rl {F : Arith} (hF : Sound F) : Rl 2 2 (F.fl piLit) π :=
  (⟨by rw [γ_one]; exact pi_lit, ⟨by norm_num; linarith [pi_gt_three], by norm_num; exact pi_le_four⟩⟩ :
    Rl 1 2 piLit π).fl hF (by norm_num) (by norm_num)

theorem κ_le_S {n : ℕ} (h : n ≤ 1022) : κ ≤ S n := by rw [κS]; exact S_le h

/-- Size of the first element. -/
noncomputable def size0 (α A β B : ℝ) : ℝ :=
  √(π / (α + β)) * ((1 + gexp1 α A β B) * exp (-gexp1 α A β B)) + 1 / 2 ^ 200

section
variable {F : Arith} (hF : Sound F) {α β R : ℝ} (h : PrimIn α β R)

include h

theorem PrimIn.ar : InR 40 α := ⟨le_trans (by norm_num) h.alo, h.ahi⟩
theorem PrimIn.br : InR 40 β := ⟨le_trans (by norm_num) h.blo, h.bhi⟩
theorem PrimIn.sum_pos : 0 < α + β := add_pos h.ar.pos h.br.pos
theorem PrimIn.inv_le : 1 / (α + β) ≤ T 19 := by
  have h1 : 1 / 2 ^ 19 ≤ α + β := by
    have := h.alo
    have := h.blo
    norm_num at *
    linarith
  unfold FlPrim.T
  rw [div_le_iff₀ h.sum_pos]
  have : (2 : ℝ) ^ 19 * (1 / 2 ^ 19) ≤ 2 ^ 19 * (α + β) := mul_le_mul_of_nonneg_left h1 (by norm_num)
  norm_num at this ⊢
  linarith

include hF

theorem sum_rl : Rl 1 41 (F.fl (α + β)) (α + β) :=
  (Rl.of_exact h.ar).flAdd hF (Rl.of_exact h.br) (by norm_num) (by norm_num)

theorem oop_rl : Rl 3 41 (F.fl (1 / F.fl (α + β))) (1 / (α + β)) :=
  (sum_rl hF h).flInv hF (by norm_num) (by norm_num)

theorem half_rl : Rl 0 1 (1 / 2) ((1 / 2 : ℝ)) := Rl.of_exact ⟨by norm_num, by norm_num⟩

theorem oo2p_rl : Rl 4 42 (F.fl (1 / 2 * F.fl (1 / F.fl (α + β)))) (1 / 2 * (1 / (α + β))) :=
  ((half_rl hF h).flMul hF (oop_rl hF h) (by norm_num) (by norm_num)).mono (by norm_num) (by norm_num)

theorem mu_rl : Rl 5 121 (F.fl (F.fl (α * β) * F.fl (1 / F.fl (α + β)))) (α * β * (1 / (α + β))) :=
  (((Rl.of_exact h.ar).flMul hF (Rl.of_exact h.br) (by norm_num) (by norm_num)).flMul hF (oop_rl hF h)
    (by norm_num) (by norm_num)).mono (by norm_num) (by norm_num)

theorem diff_near {A B C : ℝ} (hA : |A| ≤ R) (hB : |B| ≤ R) (hC : |C| ≤ R) :
    Approx 7 (F.mac (F.dot α A β B) (F.fl (1 / F.fl (α + β))) (-C))
      ((α * A + β * B) * (1 / (α + β)) - C) (2 * R + S 900) := by
  have hκ := κ_pos
  have hκ1 : κ ≤ 1 := κS ▸ S_one 1022
  have hR := h.rlo
  have ha := h.ar.pos
  have hb := h.br.pos
  have hp := h.sum_pos
  have A0 : Approx 0 A A R := (Approx.refl _).mono le_rfl hA
  have B0 : Approx 0 B B R := (Approx.refl _).mono le_rfl hB
  have C0 : Approx 6 (-C) (-C) R := (Approx.refl _).mono (by norm_num) (by rwa [abs_neg])
  have aR : α * R ≤ T 55 := mul_T (n := 40) (m := 15) h.ahi h.rhi hR le_rfl
  have bR : β * R ≤ T 55 := mul_T (n := 40) (m := 15) h.bhi h.rhi hR le_rfl
  have R1 : R ≤ T 15 := h.rhi
  have w1 := T_twice (n := 55) rfl
  have w2 := T_twice (n := 56) rfl
  have w3 := T_one 55
  have w4 : T 58 ≤ T 1000 := T_le (by norm_num)
  have w5 := T_twice (n := 57) rfl
  have n1 : 0 ≤ α * R := by positivity
  have n2 : 0 ≤ β * R := by positivity
  have t1 := FlPrim.dot_near hF.toRounds (Rl.of_exact h.ar).approx A0 (Rl.of_exact h.br).approx B0 le_rfl
    (ov_T (by norm_num) (by linarith) (by linarith))
  have e1 : (α * R + β * R + 3 * κ) * (1 / (α + β)) + R + 2 * κ = 2 * R + 3 * κ * (1 / (α + β)) + 2 * κ := by
    field_simp; ring
  have inv := h.inv_le
  have k1 : 3 * κ * (1 / (α + β)) ≤ 3 * κ * T 19 := mul_le_mul_of_nonneg_left inv (by positivity)
  have k2 := κT (show 19 + 1003 = 1022 by norm_num)
  have k3 : S 1003 ≤ S 903 := S_le (by norm_num)
  have k4 : κ ≤ S 903 := κ_le_S (by norm_num)
  have k5 := S_twice (show 903 = 902 + 1 by norm_num)
  have k6 := S_twice (show 902 = 901 + 1 by norm_num)
  have k7 := S_twice (show 901 = 900 + 1 by norm_num)
  have sz : (α * R + β * R + 3 * κ) * (1 / (α + β)) + R + 2 * κ ≤ 2 * R + S 900 := by
    rw [e1]; linarith
  have s1 := S_one 900
  have w6 := T_twice (n := 15) rfl
  have w7 : T 17 ≤ T 1000 := T_le (by norm_num)
  have w8 := T_twice (n := 16) rfl
  have w9 := T_one 15
  have n3 : 0 ≤ (α * R + β * R + 3 * κ) * (1 / (α + β)) := by positivity
  have t2 := fma_near hF.toRounds t1 (oop_rl hF h).approx C0 (by norm_num)
    (ov_T (by norm_num) (by linarith) (sz.trans (by linarith)))
  rw [← sub_eq_add_neg] at t2
  exact t2.mono le_rfl sz

theorem start_near {A B : ℝ} (hA : |A| ≤ R) (hB : |B| ≤ R) :
    Approx 38 (F.fl (F.fl √(F.fl (F.fl piLit * F.fl (1 / F.fl (α + β)))) *
      F.exp (F.fl (-F.fl (F.fl (α * β) * F.fl (1 / F.fl (α + β))) *
        F.fl (F.fl (A - B) * F.fl (A - B))))))
      (ovl1 α A β B 0 0) (size0 α A β B) ∧ size0 α A β B ≤ T 12 := by
  have hκ := κ_pos
  have hκ1 : κ ≤ 1 := κS ▸ S_one 1022
  have ha := h.ar.pos
  have hb := h.br.pos
  have hp := h.sum_pos
  have inv := h.inv_le
  have inv0 : 0 < 1 / (α + β) := by positivity
  have R1 : R ≤ T 15 := h.rhi
  have hD : |A - B| ≤ T 16 := (abs_sub A B).trans (add_T (hA.trans R1) (hB.trans R1) le_rfl)
  have one := T_one 16
  have d1 : Approx 1 (F.fl (A - B)) (A - B) (|A - B| + κ) :=
    (Approx.refl _).fl hF.toRounds (ov_T (by norm_num) (abs_nonneg _) (hD.trans (T_le (by norm_num))))
  have D0 : 0 ≤ |A - B| + κ := by positivity
  have D1 : |A - B| + κ ≤ T 17 := add_T hD (hκ1.trans one) le_rfl
  have D2 : (|A - B| + κ) * (|A - B| + κ) ≤ T 34 := mul_T D1 D1 D0 le_rfl
  have d2 := mul_near hF.toRounds d1 d1 (ov_T (by norm_num) (mul_nonneg D0 D0) (D2.trans (T_le (by norm_num))))
  have D3 : (|A - B| + κ) * (|A - B| + κ) + κ ≤ (A - B) ^ 2 + S 1000 := by
    have h1 : |A - B| * |A - B| = (A - B) ^ 2 := by rw [← sq_abs]; ring
    have h2 := mul_le_mul_of_nonneg_left hD hκ.le
    have h3 : κ * κ ≤ κ * T 16 := mul_le_mul_of_nonneg_left (hκ1.trans one) hκ.le
    have h4 : κ ≤ κ * T 16 := le_mul_of_one_le_right hκ.le one
    have h5 := κT (show 16 + 1006 = 1022 by norm_num)
    have k5 := S_twice (show 1006 = 1005 + 1 by norm_num)
    have k6 := S_twice (show 1005 = 1004 + 1 by norm_num)
    have k7 := S_twice (show 1004 = 1003 + 1 by norm_num)
    have k8 : S 1003 ≤ S 1000 := S_le (by norm_num)
    nlinarith
  have D4 : 0 ≤ (|A - B| + κ) * (|A - B| + κ) + κ := by positivity
  have m0 : 0 < α * β * (1 / (α + β)) := by positivity
  have m1 : α * β * (1 / (α + β)) ≤ T 99 :=
    mul_T (n := 80) (m := 19) (mul_T (n := 40) (m := 40) h.ahi h.bhi hb.le le_rfl) inv inv0.le le_rfl
  have D5 : α * β * (1 / (α + β)) * ((|A - B| + κ) * (|A - B| + κ) + κ) ≤ T 134 :=
    mul_T m1 (add_T D2 (hκ1.trans (T_one 34)) le_rfl) D4 le_rfl
  have d3 := mul_near hF.toRounds (mu_rl hF h).approx.neg d2
    (ov_T (by norm_num) (mul_nonneg m0.le D4) (D5.trans (T_le (by norm_num))))
  have hg : α * β * (1 / (α + β)) * ((A - B) * (A - B)) = gexp1 α A β B := by unfold gexp1; ring
  have g0 : 0 ≤ gexp1 α A β B := by unfold gexp1; positivity
  have D6 : α * β * (1 / (α + β)) * ((|A - B| + κ) * (|A - B| + κ) + κ) + κ ≤ gexp1 α A β B + 1 := by
    have h1 := mul_le_mul_of_nonneg_left D3 m0.le
    have h2 : α * β * (1 / (α + β)) * S 1000 ≤ T 99 * S 1000 := mul_le_mul_of_nonneg_right m1 (S_pos _).le
    have h3 : T 99 * S 1000 = S 901 := by
      unfold FlPrim.T FlPrim.S
      rw [show (1000 : ℕ) = 99 + 901 by norm_num, pow_add]; field_simp
    have h4 : S 901 ≤ S 1 := S_le (by norm_num)
    have h5 : κ ≤ S 1 := κ_le_S (by norm_num)
    have h6 : S 1 = 1 / 2 := by unfold FlPrim.S; norm_num
    have h7 : α * β * (1 / (α + β)) * ((A - B) ^ 2 + S 1000) =
        gexp1 α A β B + α * β * (1 / (α + β)) * S 1000 := by rw [← hg]; ring
    linarith
  have d4 : |F.fl (-F.fl (F.fl (α * β) * F.fl (1 / F.fl (α + β))) * F.fl (F.fl (A - B) * F.fl (A - B))) +
      gexp1 α A β B| ≤ γ 10 * (gexp1 α A β B + 1) := by
    have := (d3.mono (show 5 + (1 + 1 + 1) + 1 ≤ 10 by norm_num) D6).err
    rw [show -(α * β * (1 / (α + β))) * ((A - B) * (A - B)) = -gexp1 α A β B by rw [neg_mul, hg],
      sub_neg_eq_add] at this
    exact this
  have neg : F.fl (-F.fl (F.fl (α * β) * F.fl (1 / F.fl (α + β))) * F.fl (F.fl (A - B) * F.fl (A - B))) ≤ 0 := by
    refine hF.nonpos _ ?_
    rw [neg_mul]
    exact neg_nonpos.2 (mul_nonneg ((mu_rl hF h).pos' (by norm_num)).le (hF.nonneg _ (mul_self_nonneg _)))
  have d5 := FlPrim.exp_near hF.toRounds neg g0 d4
  have q1 := ((pi_rl hF).flMul hF (oop_rl hF h) (by norm_num) (by norm_num)).flSqrt hF (by norm_num) (by norm_num)
  have E1 : (1 + gexp1 α A β B) * exp (-gexp1 α A β B) ≤ 1 := by
    rw [exp_neg, ← div_eq_mul_inv, div_le_one (exp_pos _), add_comm]
    exact add_one_le_exp _
  have E0 : 0 ≤ (1 + gexp1 α A β B) * exp (-gexp1 α A β B) := by positivity
  have Q1 : √(π * (1 / (α + β))) ≤ T 11 := by
    rw [Real.sqrt_le_left (T_pos 11).le]
    have : π * (1 / (α + β)) ≤ T 21 :=
      mul_T (n := 2) (m := 19) (by unfold FlPrim.T; norm_num; exact pi_le_four) inv inv0.le le_rfl
    refine this.trans ?_
    rw [sq, T_mul (show 11 + 11 = 22 by norm_num)]
    exact T_le (by norm_num)
  have Q0 : 0 ≤ √(π * (1 / (α + β))) := Real.sqrt_nonneg _
  have sz1 : √(π * (1 / (α + β))) * ((1 + gexp1 α A β B) * exp (-gexp1 α A β B)) ≤ T 11 := by
    have := mul_le_mul Q1 E1 E0 (T_pos 11).le
    linarith
  have sκ : √(π * (1 / (α + β))) * κ + κ ≤ S 200 := by
    have h1 := mul_le_mul_of_nonneg_right Q1 hκ.le
    have h2 := κT (show 11 + 1011 = 1022 by norm_num)
    have h3 : S 1011 ≤ S 201 := S_le (by norm_num)
    have h4 : κ ≤ S 201 := κ_le_S (by norm_num)
    have h5 := S_twice (show 201 = 200 + 1 by norm_num)
    linarith
  have sz2 : √(π * (1 / (α + β))) * ((1 + gexp1 α A β B) * exp (-gexp1 α A β B) + κ) ≤ T 12 := by
    have := T_twice (n := 11) rfl
    have := T_one 11
    have := S_one 200
    linarith
  have sz0 : size0 α A β B = √(π * (1 / (α + β))) * ((1 + gexp1 α A β B) * exp (-gexp1 α A β B)) + S 200 := by
    unfold size0; rw [S_def, mul_one_div]
  have d6 := mul_near hF.toRounds q1.approx d5 (ov_T (by norm_num) (by positivity) (sz2.trans (T_le (by norm_num))))
  refine ⟨?_, ?_⟩
  · rw [ovl1_zero h.ar.pos h.br.pos]
    rw [show -(α * β * (1 / (α + β))) * ((A - B) * (A - B)) = -gexp1 α A β B by rw [neg_mul, hg]]
    refine d6.mono (by norm_num) ?_
    rw [sz0]
    linarith
  · rw [sz0]
    have := T_twice (n := 11) rfl
    have := T_one 11
    have := S_one 200
    linarith

end

/-! ## Steps of the recursions -/

theorem κ16 : S 1018 = 16 * κ := by
  have h1 := S_twice (show 1022 = 1021 + 1 by norm_num)
  have h2 := S_twice (show 1021 = 1020 + 1 by norm_num)
  have h3 := S_twice (show 1020 = 1019 + 1 by norm_num)
  have h4 := S_twice (show 1019 = 1018 + 1 by norm_num)
  have h5 := κS
  linarith

section
variable {F : Arith} (hF : Rounds F) {K : ℕ} (hK : K ≤ 2 ^ 19) {V : ℝ} (hV : V ≤ T 1000)
  {x' x D c' c C d' d E e' e G s1' s1 σ1 s2' s2 σ2 s3' s3 σ3 s4' s4 σ4 s5' s5 σ5 : ℝ}
include hF hK hV

theorem step1 (hx : Approx 7 x' x D) (h1 : Approx K s1' s1 σ1) (hle : D * σ1 + S 1018 ≤ V) :
    Approx (K + 9) (F.fl (x' * s1')) (x * s1) V := by
  have hκ := κ_pos
  rw [κ16] at hle
  have n1 := mul_nonneg hx.nonneg h1.nonneg
  exact (mul_near hF hx h1 (ov_T (by norm_num at hK ⊢; omega) n1 (by linarith))).mono (by omega) (by linarith)

theorem step2 (hx : Approx 7 x' x D) (h1 : Approx K s1' s1 σ1) (hc : Approx 7 c' c C)
    (h2 : Approx K s2' s2 σ2) (hle : D * σ1 + C * σ2 + S 1018 ≤ V) :
    Approx (K + 9) (F.dot x' s1' c' s2') (x * s1 + c * s2) V := by
  have hκ := κ_pos
  rw [κ16] at hle
  have n1 := mul_nonneg hx.nonneg h1.nonneg
  have n2 := mul_nonneg hc.nonneg h2.nonneg
  exact (FlPrim.dot_near hF hx h1 hc h2 le_rfl (ov_T (by norm_num at hK ⊢; omega) (by linarith) (by linarith))).mono
    (by omega) (by linarith)

theorem step3 (hx : Approx 7 x' x D) (h1 : Approx K s1' s1 σ1) (hc : Approx 7 c' c C)
    (h2 : Approx K s2' s2 σ2) (hd : Approx 7 d' d E) (h3 : Approx K s3' s3 σ3)
    (hle : D * σ1 + C * σ2 + E * σ3 + S 1018 ≤ V) :
    Approx (K + 10) (F.mac d' s3' (F.dot x' s1' c' s2')) (x * s1 + c * s2 + d * s3) V := by
  have hκ := κ_pos
  rw [κ16] at hle
  have n1 := mul_nonneg hx.nonneg h1.nonneg
  have n2 := mul_nonneg hc.nonneg h2.nonneg
  have n3 := mul_nonneg hd.nonneg h3.nonneg
  have t := FlPrim.dot_near hF hx h1 hc h2 le_rfl (ov_T (by norm_num at hK ⊢; omega) (by linarith) (by linarith))
  rw [add_comm (x * s1 + c * s2)]
  exact (fma_near hF hd h3 t (by omega) (ov_T (by norm_num at hK ⊢; omega) (by linarith) (by linarith))).mono
    (by omega) (by linarith)

theorem step4 (hx : Approx 7 x' x D) (h1 : Approx K s1' s1 σ1) (hc : Approx 7 c' c C)
    (h2 : Approx K s2' s2 σ2) (hd : Approx 7 d' d E) (h3 : Approx K s3' s3 σ3) (he : Approx 7 e' e G)
    (h4 : Approx K s4' s4 σ4) (hle : D * σ1 + C * σ2 + E * σ3 + G * σ4 + S 1018 ≤ V) :
    Approx (K + 11) (F.fl (F.dot x' s1' c' s2' + F.dot d' s3' (-e') s4'))
      (x * s1 + c * s2 + (d * s3 - e * s4)) V := by
  have hκ := κ_pos
  rw [κ16] at hle
  have n1 := mul_nonneg hx.nonneg h1.nonneg
  have n2 := mul_nonneg hc.nonneg h2.nonneg
  have n3 := mul_nonneg hd.nonneg h3.nonneg
  have n4 := mul_nonneg he.nonneg h4.nonneg
  have t1 := FlPrim.dot_near hF hx h1 hc h2 le_rfl (ov_T (by norm_num at hK ⊢; omega) (by linarith) (by linarith))
  have t2 := FlPrim.dot_near hF hd h3 he.neg h4 le_rfl (ov_T (by norm_num at hK ⊢; omega) (by linarith) (by linarith))
  rw [show d * s3 - e * s4 = d * s3 + -e * s4 by ring]
  exact ((t1.add t2).fl hF (ov_T (by norm_num at hK ⊢; omega) (by linarith) (by linarith))).mono
    (by omega) (by linarith)

theorem step5 (hx : Approx 7 x' x D) (h1 : Approx K s1' s1 σ1) (hc : Approx 7 c' c C)
    (h2 : Approx K s2' s2 σ2) (hd : Approx 7 d' d E) (h3 : Approx K s3' s3 σ3) (he : Approx 7 e' e G)
    (h4 : Approx K s4' s4 σ4) {f' f H : ℝ} (hf : Approx 7 f' f H) (h5 : Approx K s5' s5 σ5)
    (hle : D * σ1 + C * σ2 + H * σ5 + E * σ3 + G * σ4 + S 1018 ≤ V) :
    Approx (K + 11) (F.fl (F.mac f' s5' (F.dot x' s1' c' s2') + F.dot d' s3' (-e') s4'))
      (x * s1 + c * s2 + f * s5 + (d * s3 - e * s4)) V := by
  have hκ := κ_pos
  rw [κ16] at hle
  have n1 := mul_nonneg hx.nonneg h1.nonneg
  have n2 := mul_nonneg hc.nonneg h2.nonneg
  have n3 := mul_nonneg hd.nonneg h3.nonneg
  have n4 := mul_nonneg he.nonneg h4.nonneg
  have n5 := mul_nonneg hf.nonneg h5.nonneg
  have t0 := FlPrim.dot_near hF hx h1 hc h2 le_rfl (ov_T (by norm_num at hK ⊢; omega) (by linarith) (by linarith))
  have t1 := fma_near hF hf h5 t0 (by omega) (ov_T (by norm_num at hK ⊢; omega) (by linarith) (by linarith))
  have t2 := FlPrim.dot_near hF hd h3 he.neg h4 le_rfl (ov_T (by norm_num at hK ⊢; omega) (by linarith) (by linarith))
  rw [show x * s1 + c * s2 + f * s5 + (d * s3 - e * s4) = f * s5 + (x * s1 + c * s2) + (d * s3 + -e * s4) by ring]
  exact ((t1.add (t2.mono (by omega) le_rfl)).fl hF (ov_T (by norm_num at hK ⊢; omega) (by linarith) (by linarith))).mono
    (by omega) (by linarith)

end

/-! ## Sizes -/

section
variable {F : Arith} (hF : Sound F) {α β R : ℝ} (h : PrimIn α β R) {A B : ℝ} (hA : |A| ≤ R) (hB : |B| ≤ R)

theorem ovlSize_eq (α A β B R : ℝ) (n : ℕ) :
    ovlSize α A β B R n = size0 α A β B * moment (reach R) (1 / (2 * (α + β))) n := rfl

include h

theorem reach_nonneg : 0 ≤ reach R := by
  have := h.rlo
  unfold reach
  positivity

theorem reach_eq : reach R = 2 * R + S 900 + (S 20 - S 900) := by unfold reach; rw [S_def]; ring

theorem reach_gap : S 21 ≤ S 20 - S 900 := by
  have h1 := S_twice (show 21 = 20 + 1 by norm_num)
  have h2 : S 900 ≤ S 21 := S_le (by norm_num)
  linarith

theorem reach_le : reach R ≤ T 17 := by
  have h1 := h.rhi
  have h2 : S 20 ≤ 1 := S_one 20
  unfold reach
  rw [S_def]
  unfold FlPrim.T
  norm_num at h1 ⊢
  linarith

theorem reach_ge : S 20 ≤ reach R := by
  have := h.rlo
  unfold reach
  rw [S_def]
  linarith

theorem hh_le : 1 / (2 * (α + β)) ≤ T 19 := by
  have h1 := h.inv_le
  have h2 : 1 / (2 * (α + β)) = 1 / 2 * (1 / (α + β)) := by
    have := h.sum_pos
    field_simp
  have h3 : 0 < 1 / (α + β) := by have := h.sum_pos; positivity
  rw [h2]
  linarith

theorem size0_ge : S 200 ≤ size0 α A β B := by
  have ha := h.ar.pos
  have hb := h.br.pos
  have g0 : 0 ≤ gexp1 α A β B := by unfold gexp1; positivity
  unfold size0
  rw [S_def]
  have : 0 ≤ √(π / (α + β)) * ((1 + gexp1 α A β B) * exp (-gexp1 α A β B)) := by positivity
  linarith

theorem S_pow (n : ℕ) : S 20 ^ n = S (20 * n) := by
  unfold FlPrim.S
  rw [div_pow, one_pow, ← pow_mul]

theorem S_mul (n m : ℕ) : S n * S m = S (n + m) := by
  unfold FlPrim.S
  rw [pow_add, div_mul_div_comm, one_mul]

theorem ovlSize_ge (n : ℕ) : S (200 + 20 * n) ≤ ovlSize α A β B R n := by
  rw [ovlSize_eq, ← S_mul h, ← S_pow h]
  have h1 := size0_ge h (A := A) (B := B)
  have h2 := moment_ge (reach_nonneg h) h.sum_pos n
  have h3 := pow_le_pow_left₀ (S_pos 20).le (reach_ge h) n
  exact mul_le_mul h1 (h3.trans h2) (pow_nonneg (S_pos 20).le n) ((S_pos 200).le.trans h1)

theorem ovlSize_nonneg (n : ℕ) : 0 ≤ ovlSize α A β B R n := (S_pos _).le.trans (ovlSize_ge h n)

theorem ovlSize_succ (n : ℕ) : ovlSize α A β B R (n + 1) = reach R * ovlSize α A β B R n +
    n * (1 / (2 * (α + β))) * ovlSize α A β B R (n - 1) := by
  simp only [ovlSize_eq]
  rw [moment_succ _ h.sum_pos]
  ring

theorem ovlSize_step (n : ℕ) (hn : n ≤ 37) : (2 * R + S 900) * ovlSize α A β B R n +
    n * (1 / (2 * (α + β))) * ovlSize α A β B R (n - 1) + S 990 ≤ ovlSize α A β B R (n + 1) := by
  rw [ovlSize_succ h, reach_eq h]
  have h1 := mul_le_mul (reach_gap h) (ovlSize_ge h (A := A) (B := B) n) (S_pos _).le
    ((S_pos 21).le.trans (reach_gap h))
  rw [S_mul h] at h1
  have h2 : S 990 ≤ S (21 + (200 + 20 * n)) := S_le (by omega)
  nlinarith

theorem kinScale_nonneg (n : ℕ) : α ≤ kinScale α β R n := by
  have ha := h.ar.pos
  have hb := h.br.pos
  unfold kinScale
  have : 0 ≤ 2 * α ^ 2 * (reach R ^ 2 + 1 / (2 * (α + β))) + n * (4 * (α + β)) := by positivity
  linarith

theorem kinScale_succ (n : ℕ) : kinScale α β R (n + 1) = kinScale α β R n + 4 * (α + β) := by
  unfold kinScale
  push_cast
  ring

theorem kinScale_mono (n : ℕ) : kinScale α β R (n - 1) ≤ kinScale α β R n := by
  cases n with
  | zero => exact le_rfl
  | succ n =>
    rw [Nat.add_sub_cancel, kinScale_succ h]
    linarith [h.sum_pos]

theorem kinScale_le (n : ℕ) (hn : n ≤ 38) : kinScale α β R n ≤ T 118 := by
  have ha := h.ar.pos
  have hb := h.br.pos
  have a1 : α ≤ T 116 := (show α ≤ T 40 from h.ahi).trans (T_le (by norm_num))
  have a2 : α ^ 2 ≤ T 80 := by rw [sq]; exact mul_T (n := 40) (m := 40) h.ahi h.ahi ha.le le_rfl
  have a3 : 2 * α ^ 2 ≤ T 81 := by have := T_twice (n := 80) rfl; linarith
  have r2 : reach R ^ 2 ≤ T 34 := by rw [sq]; exact mul_T (reach_le h) (reach_le h) (reach_nonneg h) le_rfl
  have r3 : reach R ^ 2 + 1 / (2 * (α + β)) ≤ T 35 := add_T r2 ((hh_le h).trans (T_le (by norm_num))) le_rfl
  have r4 : 2 * α ^ 2 * (reach R ^ 2 + 1 / (2 * (α + β))) ≤ T 116 := mul_T a3 r3 (by positivity) le_rfl
  have c1 : (n : ℝ) ≤ T 6 := by
    unfold FlPrim.T
    have : (n : ℝ) ≤ ((64 : ℕ) : ℝ) := by exact_mod_cast (by omega : n ≤ 64)
    refine this.trans (by norm_num)
  have c2 : α + β ≤ T 41 := add_T (n := 40) h.ahi h.bhi le_rfl
  have c3 : 4 * (α + β) ≤ T 43 := by
    have := T_twice (n := 41) rfl
    have := T_twice (n := 42) rfl
    linarith
  have c4 : (n : ℝ) * (4 * (α + β)) ≤ T 116 := mul_T c1 c3 (by positivity) (by norm_num)
  unfold kinScale
  have := T_twice (n := 116) rfl
  have := T_twice (n := 117) rfl
  linarith [T_pos 116]

theorem kin_step {a : ℝ} (ha : 0 ≤ a) (ha' : a ≤ α + β) (n : ℕ) (hn : n ≤ 37) :
    (2 * R + S 900) * (ovlSize α A β B R n * kinScale α β R n) +
      n * (1 / (2 * (α + β))) * (ovlSize α A β B R (n - 1) * kinScale α β R (n - 1)) +
      2 * (α * β * (1 / (α + β))) * ovlSize α A β B R (n + 1) +
      a * (1 / (α + β)) * n * ovlSize α A β B R (n - 1) + S 1010 ≤
    ovlSize α A β B R (n + 1) * kinScale α β R (n + 1) := by
  have hα := h.ar.pos
  have hβ := h.br.pos
  have hp := h.sum_pos
  have R0 := h.rlo
  have st := ovlSize_step h (A := A) (B := B) n hn
  have s0 := ovlSize_nonneg h (A := A) (B := B) n
  have s1 := ovlSize_nonneg h (A := A) (B := B) (n - 1)
  have s2 := ovlSize_nonneg h (A := A) (B := B) (n + 1)
  have w0 := kinScale_nonneg h n
  have wm := kinScale_mono h n
  rw [kinScale_succ h]
  set W := kinScale α β R n
  set σ := ovlSize α A β B R n
  set σ1 := ovlSize α A β B R (n - 1)
  set σ2 := ovlSize α A β B R (n + 1)
  have S0 := S_pos 900
  have q0 : 0 ≤ (n : ℝ) * (1 / (2 * (α + β))) * σ1 := by positivity
  have t1 : (n : ℝ) * (1 / (2 * (α + β))) * (σ1 * kinScale α β R (n - 1)) ≤ W * ((n : ℝ) * (1 / (2 * (α + β))) * σ1) := by
    rw [← mul_assoc, mul_comm W]
    exact mul_le_mul_of_nonneg_left wm q0
  have t2 := mul_le_mul_of_nonneg_left st (hα.le.trans w0)
  have t3 : 2 * (α * β * (1 / (α + β))) * σ2 ≤ 2 * (α + β) * σ2 := by
    refine mul_le_mul_of_nonneg_right ?_ s2
    have : α * β * (1 / (α + β)) ≤ α + β := by
      rw [mul_one_div, div_le_iff₀ hp]; nlinarith
    linarith
  have t4 : a * (1 / (α + β)) * n * σ1 ≤ 2 * (α + β) * σ2 := by
    have e : a * (1 / (α + β)) * n * σ1 = 2 * a * ((n : ℝ) * (1 / (2 * (α + β))) * σ1) := by field_simp
    rw [e]
    have q1 : (n : ℝ) * (1 / (2 * (α + β))) * σ1 ≤ σ2 := by
      have : 0 ≤ (2 * R + S 900) * σ := by positivity
      linarith [S_pos 990]
    exact mul_le_mul (by linarith) q1 q0 (by linarith)
  have t5 : S 1010 ≤ W * S 990 := by
    have h1 : S 20 ≤ W := (show S 20 ≤ α from h.alo).trans w0
    have h2 := mul_le_mul_of_nonneg_right h1 (S_pos 990).le
    rw [S_mul h] at h2
    exact h2
  nlinarith

end

end Simint.FlOneEl
