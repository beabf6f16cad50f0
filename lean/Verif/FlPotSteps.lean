import Verif.FlPotLoops
import Verif.FlOneElSum
import Verif.FlLoopLemmas
import Verif.Spec.FlPot
import Verif.Props.Potential

/-! Start values and steps of the potential integrals on doubles. -/

set_option autoImplicit false

open Real

namespace Simint.FlPot

open FlBoys (Arith Rounds u)
open FlPrim (T S T_def S_def T_pos S_pos T_one T_le S_le T_add T_mul T_twice S_twice S_one κT κS ov_T mul_T add_T
  boysF_near)
open VRRRound (mul_near fma_near)
open FlOneEl

/-- The exponential of an argument with a small relative error. -/
theorem exp_near {F : Arith} (hF : Rounds F) {y a : ℝ} (hy : y ≤ 0) (ha : 0 ≤ a) (h : |y + a| ≤ γ 11 * (a + 1)) :
    Approx 33 (F.exp y) (exp (-a)) ((1 + a) * exp (-a) + κ) := by
  have hκ := κ_pos
  have hu := u_pos
  have hE := exp_pos (-a)
  have r := hF.exp y hy
  rw [η_eq] at r
  have h50 : (1 : ℝ) / 2 ^ 50 = 8 * u := by unfold FlBoys.u; norm_num
  rw [h50] at r
  have g10 : 10 * u ≤ γ 11 := by
    unfold γ
    have := one_add_mul_le_pow (show (-2 : ℝ) ≤ u by linarith) 11
    push_cast at this
    linarith
  have g30 : γ 22 + γ 11 ≤ γ 33 := by
    rw [show 33 = 22 + 11 by norm_num, γ_add]
    have := mul_nonneg (γ_nonneg 22) (γ_nonneg 11)
    linarith
  have g20 : 2 * γ 11 ≤ γ 22 := by
    rw [show 22 = 11 + 11 by norm_num, γ_add]
    have := mul_nonneg (γ_nonneg 11) (γ_nonneg 11)
    linarith
  have gs : γ 11 ≤ 11 * (1 / 2 ^ 52) := by
    have := γ_le (k := 11) (by norm_num)
    push_cast at this
    exact this
  refine ⟨by rw [abs_of_pos hE]; nlinarith, ?_⟩
  rcases le_total a (2 ^ 40) with c | c
  · have hd : |y + a| ≤ 1 / 100 := by
      refine h.trans ((mul_le_mul gs (by linarith : a + 1 ≤ 2 ^ 40 + 1) (by linarith) (by norm_num)).trans ?_)
      norm_num
    have e1 : exp y = exp (-a) * exp (y + a) := by rw [← exp_add]; congr 1; ring
    have h1 := Real.abs_exp_sub_one_le (x := y + a) (by linarith)
    have h2 := (abs_le.1 h1).2
    have h3 : exp y ≤ exp (-a) * (1 + 2 / 100) := by
      rw [e1]; exact mul_le_mul_of_nonneg_left (by linarith) hE.le
    have h4 : |exp y - exp (-a)| ≤ exp (-a) * (γ 22 * (a + 1)) := by
      rw [e1, show exp (-a) * exp (y + a) - exp (-a) = exp (-a) * (exp (y + a) - 1) by ring, abs_mul,
        abs_of_pos hE]
      refine mul_le_mul_of_nonneg_left (h1.trans ?_) hE.le
      have := mul_le_mul_of_nonneg_right g20 (by linarith : 0 ≤ a + 1)
      linarith
    have h5 : |F.exp y - exp (-a)| ≤ |F.exp y - exp y| + |exp y - exp (-a)| := by
      have := abs_add_le (F.exp y - exp y) (exp y - exp (-a))
      simpa using this
    have h6 : 8 * u * exp y ≤ γ 11 * exp (-a) := by
      calc 8 * u * exp y ≤ 8 * u * (exp (-a) * (1 + 2 / 100)) := mul_le_mul_of_nonneg_left h3 (by linarith)
        _ ≤ 10 * u * exp (-a) := by nlinarith
        _ ≤ γ 11 * exp (-a) := mul_le_mul_of_nonneg_right g10 hE.le
    have h7 : u * κ ≤ γ 33 * κ := mul_le_mul_of_nonneg_right (by linarith [γ_nonneg 22]) hκ.le
    have h8 : γ 11 * exp (-a) ≤ γ 11 * ((1 + a) * exp (-a)) :=
      mul_le_mul_of_nonneg_left (by nlinarith) (γ_nonneg 11)
    have h9 := mul_le_mul_of_nonneg_right g30 (mul_nonneg (by linarith : 0 ≤ 1 + a) hE.le)
    linarith
  · have h1 := (abs_le.1 h).2
    have h2 : γ 11 * (a + 1) ≤ a / 2 := by
      refine (mul_le_mul_of_nonneg_right gs (by linarith)).trans ?_
      norm_num at c ⊢
      linarith
    have h3 : 2000 ≤ -y := by norm_num at c; linarith
    have h4 := FlBoys.exp_tiny_neg h3
    have h5 := FlBoys.exp_tiny_neg (show 2000 ≤ a by norm_num at c; linarith)
    rw [neg_neg, η_eq] at h4
    rw [η_eq] at h5
    have h6 : |F.exp y - exp (-a)| ≤ |F.exp y - exp y| + |exp y - exp (-a)| := by
      have := abs_add_le (F.exp y - exp y) (exp y - exp (-a))
      simpa using this
    have h7 : |exp y - exp (-a)| ≤ u * κ := by
      rw [abs_le]; constructor <;> linarith [exp_pos y]
    have h8 : 8 * u * exp y ≤ u * κ := by
      have h9 : 8 * u ≤ 1 := by unfold FlBoys.u; norm_num
      have := mul_le_mul_of_nonneg_right h9 (exp_pos y).le
      linarith
    have h9 : 3 * (u * κ) ≤ γ 33 * κ := by
      have : 3 * u ≤ γ 33 := by linarith [γ_nonneg 22]
      have := mul_le_mul_of_nonneg_right this hκ.le
      linarith
    have h10 : 0 ≤ γ 33 * ((1 + a) * exp (-a)) := mul_nonneg (γ_nonneg 33) (by positivity)
    linarith

/-! ## Variables before the recursion -/

theorem gexp3_nonneg {α β : ℝ} (ha : 0 < α) (hb : 0 < β) (A B : Dir → ℝ) : 0 ≤ gexp3 α A β B := by
  unfold gexp3 dist2; positivity

theorem E_le_one {g : ℝ} (g0 : 0 ≤ g) : 0 ≤ (1 + g) * exp (-g) ∧ (1 + g) * exp (-g) ≤ 1 := by
  refine ⟨by positivity, ?_⟩
  rw [exp_neg, ← div_eq_mul_inv, div_le_one (exp_pos _), add_comm]
  exact add_one_le_exp _

section
variable {F : Arith} (hF : Sound F) {α β R : ℝ} (h : PrimIn α β R) {A B C : Dir → ℝ}

include h

theorem D_bounds : 0 ≤ 2 * R + S 900 ∧ 2 * R + S 900 ≤ T 17 ∧ 2 * R + S 900 ≤ reach R := by
  have h1 := h.rlo
  have h2 : R ≤ T 15 := h.rhi
  have h3 := S_pos 900
  have h4 := S_one 900
  have h5 := T_twice (n := 15) rfl
  have h6 := T_twice (n := 16) rfl
  have h7 := T_one 16
  have h8 := reach_eq h
  have h9 := reach_gap h
  have h10 := S_pos 21
  refine ⟨?_, ?_, ?_⟩ <;> linarith

theorem p_le : α + β ≤ T 41 := add_T (n := 40) h.ahi h.bhi le_rfl

theorem X_bounds : 0 ≤ 3 * reach R ^ 2 * (α + β) ∧ 3 * reach R ^ 2 * (α + β) ≤ T 77 := by
  have h1 := reach_nonneg h
  have h2 := h.sum_pos
  refine ⟨by positivity, ?_⟩
  have h3 : reach R ^ 2 ≤ T 34 := by rw [sq]; exact mul_T (reach_le h) (reach_le h) h1 le_rfl
  have h4 : (3 : ℝ) ≤ T 2 := by unfold FlPrim.T; norm_num
  exact mul_T (n := 36) (m := 41) (mul_T h4 h3 (sq_nonneg _) le_rfl) (p_le h) h2.le le_rfl

theorem argOf_nonneg (A B C : Dir → ℝ) : 0 ≤ argOf α A β B C := by
  have := h.sum_pos
  unfold argOf dist2
  positivity

include hF

theorem PC_near (hA : ∀ d, |A d| ≤ R) (hB : ∀ d, |B d| ≤ R) (hC : ∀ d, |C d| ≤ R) (d : Dir) :
    Approx 7 (potPC F α A β B C d) ((α * A d + β * B d) * (1 / (α + β)) - C d) (2 * R + S 900) :=
  diff_near hF h (hA d) (hB d) (hC d)

/-- The argument of the Boys function. -/
theorem arg_near (hA : ∀ d, |A d| ≤ R) (hB : ∀ d, |B d| ≤ R) (hC : ∀ d, |C d| ≤ R) :
    0 ≤ potArg F α A β B C ∧
    Approx 19 (potArg F α A β B C) (argOf α A β B C) (3 * reach R ^ 2 * (α + β) + 1) := by
  have hκ := κ_pos
  obtain ⟨D0, D1, D2⟩ := D_bounds h
  have hp := h.sum_pos
  set D := 2 * R + S 900
  have P := PC_near hF h hA hB hC
  have DD : D * D ≤ T 34 := mul_T D1 D1 D0 le_rfl
  have DD0 := mul_nonneg D0 D0
  have hκ1 : κ ≤ 1 := κS ▸ S_one 1022
  have o34 := T_one 34
  have w1 := T_twice (n := 34) rfl
  have w2 := T_twice (n := 35) rfl
  have w3 := T_twice (n := 36) rfl
  have w4 : T 37 ≤ T 1000 := T_le (by norm_num)
  have t1 := FlPrim.dot_near hF.toRounds (P .x) (P .x) (P .y) (P .y) le_rfl
    (ov_T (by norm_num) (by linarith) (by linarith))
  have t2 := fma_near hF.toRounds (P .z) (P .z) t1 (by norm_num)
    (ov_T (by norm_num) (by linarith) (by linarith))
  have s2 : D * D + (D * D + D * D + 3 * κ) + 2 * κ ≤ T 37 := by linarith
  have s0 : 0 ≤ D * D + (D * D + D * D + 3 * κ) + 2 * κ := by linarith
  have t3 := mul_near hF.toRounds t2 (sum_rl hF h).approx
    (ov_T (by norm_num) (mul_nonneg s0 hp.le) ((mul_T s2 (p_le h) hp.le le_rfl).trans (T_le (by norm_num))))
  refine ⟨?_, ?_⟩
  · unfold potArg
    exact hF.nonneg _ (mul_nonneg (FlPrim.mac_sq_nonneg hF (FlPrim.dot_sq_nonneg hF _ _))
      ((sum_rl hF h).pos' (by norm_num)).le)
  · unfold potArg
    have e : argOf α A β B C = (((α * A .z + β * B .z) * (1 / (α + β)) - C .z) *
        ((α * A .z + β * B .z) * (1 / (α + β)) - C .z) +
        (((α * A .x + β * B .x) * (1 / (α + β)) - C .x) * ((α * A .x + β * B .x) * (1 / (α + β)) - C .x) +
        ((α * A .y + β * B .y) * (1 / (α + β)) - C .y) * ((α * A .y + β * B .y) * (1 / (α + β)) - C .y))) *
        (α + β) := by
      unfold argOf dist2
      simp only [mul_one_div]
      ring
    rw [e]
    refine t3.mono (by norm_num) ?_
    have k1 : κ * (α + β) ≤ S 981 := κ_size hF h (A := fun _ => 0) (B := fun _ => 0)
      (fun _ => by simpa using h.rlo) (fun _ => by simpa using h.rlo) (p_le h) (by norm_num)
    have k2 := S_twice (show 981 = 980 + 1 by norm_num)
    have k3 := S_twice (show 980 = 979 + 1 by norm_num)
    have k4 := S_twice (show 979 = 978 + 1 by norm_num)
    have k5 := S_twice (show 978 = 977 + 1 by norm_num)
    have k6 := S_one 977
    have k7 : κ ≤ S 981 := κ_le_S (by norm_num)
    have k8 : D * D ≤ reach R ^ 2 := by rw [sq]; exact mul_le_mul D2 D2 D0 (D0.trans D2)
    have k9 := mul_le_mul_of_nonneg_right k8 hp.le
    have k0 := S_pos 977
    nlinarith

/-- A computed value of the Boys function at the computed argument. -/
theorem boys_near (hA : ∀ d, |A d| ≤ R) (hB : ∀ d, |B d| ≤ R) (hC : ∀ d, |C d| ≤ R) {kb n : ℕ} {y : ℝ}
    (hy : |y - boysF n (potArg F α A β B C)| ≤ γ kb * boysF n (potArg F α A β B C)) :
    Approx (kb + 19) y (boysF n (argOf α A β B C)) (2 + 3 * reach R ^ 2 * (α + β)) := by
  obtain ⟨x0, hx⟩ := arg_near hF h hA hB hC
  have t0 := argOf_nonneg h A B C
  have h1 := boysF_near n x0 t0
  have h2 := hx.err
  have h3 := hx.nonneg
  have h4 : boysF n (potArg F α A β B C) ≤ 1 := boysF_le_one x0
  have h5 : boysF n (argOf α A β B C) ≤ 1 := boysF_le_one t0
  have h6 := boysF_nonneg n (argOf α A β B C)
  have g1 : γ kb ≤ γ (kb + 19) := γ_mono (by omega)
  have g2 : γ 19 ≤ γ (kb + 19) := γ_mono (by omega)
  have g0 := γ_nonneg kb
  have hX := (X_bounds h).1
  set X := 3 * reach R ^ 2 * (α + β)
  constructor
  · rw [abs_of_nonneg h6]; linarith
  · have e1 : γ kb * boysF n (potArg F α A β B C) ≤ γ kb * 1 := mul_le_mul_of_nonneg_left h4 g0
    have e2 : γ 19 * (X + 1) ≤ γ (kb + 19) * (X + 1) := mul_le_mul_of_nonneg_right g2 h3
    have e3 := abs_sub_le y (boysF n (potArg F α A β B C)) (boysF n (argOf α A β B C))
    calc |y - boysF n (argOf α A β B C)| ≤ γ (kb + 19) * 1 + γ (kb + 19) * (X + 1) := by linarith
      _ = γ (kb + 19) * (2 + X) := by ring

theorem AB_near (hA : ∀ d, |A d| ≤ R) (hB : ∀ d, |B d| ≤ R) (d : Dir) :
    ∃ D, Approx 1 (F.fl (A d - B d)) (A d - B d) D ∧ D ≤ T 17 ∧ D * D ≤ (A d - B d) ^ 2 + S 1003 := by
  have hκ := κ_pos
  have hκ1 : κ ≤ 1 := κS ▸ S_one 1022
  have R1 : R ≤ T 15 := h.rhi
  have hD : |A d - B d| ≤ T 16 := (abs_sub (A d) (B d)).trans (add_T ((hA d).trans R1) ((hB d).trans R1) le_rfl)
  have one := T_one 16
  refine ⟨|A d - B d| + κ, (Approx.refl _).fl hF.toRounds
    (ov_T (by norm_num) (abs_nonneg _) (hD.trans (T_le (by norm_num)))), add_T hD (hκ1.trans one) le_rfl, ?_⟩
  have h1 : |A d - B d| * |A d - B d| = (A d - B d) ^ 2 := by rw [← sq_abs]; ring
  have h2 := mul_le_mul_of_nonneg_left hD hκ.le
  have h3 : κ * κ ≤ κ * T 16 := mul_le_mul_of_nonneg_left (hκ1.trans one) hκ.le
  have h5 := κT (show 16 + 1006 = 1022 by norm_num)
  have k5 := S_twice (show 1006 = 1005 + 1 by norm_num)
  have k6 := S_twice (show 1005 = 1004 + 1 by norm_num)
  have k7 := S_twice (show 1004 = 1003 + 1 by norm_num)
  have k8 := S_pos 1003
  nlinarith

/-- The Gaussian factor. -/
theorem potExp_near (hA : ∀ d, |A d| ≤ R) (hB : ∀ d, |B d| ≤ R) :
    Approx 33 (potExp F α A β B) (exp (-gexp3 α A β B))
      ((1 + gexp3 α A β B) * exp (-gexp3 α A β B) + κ) := by
  have hκ := κ_pos
  have hκ1 : κ ≤ 1 := κS ▸ S_one 1022
  have ha := h.ar.pos
  have hb := h.br.pos
  have hp := h.sum_pos
  have inv := h.inv_le
  have inv0 : 0 < 1 / (α + β) := by positivity
  obtain ⟨Dx, ax, tx, sx⟩ := AB_near hF h hA hB .x
  obtain ⟨Dy, ay, ty, sy⟩ := AB_near hF h hA hB .y
  obtain ⟨Dz, az, tz, sz⟩ := AB_near hF h hA hB .z
  have xx : Dx * Dx ≤ T 34 := mul_T tx tx ax.nonneg le_rfl
  have yy : Dy * Dy ≤ T 34 := mul_T ty ty ay.nonneg le_rfl
  have zz : Dz * Dz ≤ T 34 := mul_T tz tz az.nonneg le_rfl
  have x0 := mul_nonneg ax.nonneg ax.nonneg
  have y0 := mul_nonneg ay.nonneg ay.nonneg
  have z0 := mul_nonneg az.nonneg az.nonneg
  have o34 := T_one 34
  have w1 := T_twice (n := 34) rfl
  have w2 := T_twice (n := 35) rfl
  have w3 := T_twice (n := 36) rfl
  have w4 : T 37 ≤ T 1000 := T_le (by norm_num)
  have t1 := FlPrim.dot_near hF.toRounds ax ax ay ay le_rfl (ov_T (by norm_num) (by linarith) (by linarith))
  have t2 := fma_near hF.toRounds az az t1 (by norm_num) (ov_T (by norm_num) (by linarith) (by linarith))
  have s2 : Dz * Dz + (Dx * Dx + Dy * Dy + 3 * κ) + 2 * κ ≤ T 37 := by linarith
  have s0 : 0 ≤ Dz * Dz + (Dx * Dx + Dy * Dy + 3 * κ) + 2 * κ := by linarith
  have m0 : 0 < α * β * (1 / (α + β)) := by positivity
  have m1 : α * β * (1 / (α + β)) ≤ T 99 :=
    mul_T (n := 80) (m := 19) (mul_T (n := 40) (m := 40) h.ahi h.bhi hb.le le_rfl) inv inv0.le le_rfl
  have t3 := mul_near hF.toRounds (mu_rl hF h).approx.neg t2
    (ov_T (by norm_num) (mul_nonneg m0.le s0) ((mul_T m1 s2 s0 le_rfl).trans (T_le (by norm_num))))
  have g0 := gexp3_nonneg ha hb A B
  have hg : α * β * (1 / (α + β)) * dist2 A B = gexp3 α A β B := by unfold gexp3; ring
  have e2 : (A .z - B .z) * (A .z - B .z) + ((A .x - B .x) * (A .x - B .x) + (A .y - B .y) * (A .y - B .y)) =
      dist2 A B := by unfold dist2; ring
  have D3 : Dz * Dz + (Dx * Dx + Dy * Dy + 3 * κ) + 2 * κ ≤ dist2 A B + S 1000 := by
    have k1 := S_twice (show 1003 = 1002 + 1 by norm_num)
    have k2 := S_twice (show 1002 = 1001 + 1 by norm_num)
    have k3 := S_twice (show 1001 = 1000 + 1 by norm_num)
    have k4 : S 1018 ≤ S 1003 := S_le (by norm_num)
    rw [κ16] at k4
    unfold dist2
    linarith
  have D6 : α * β * (1 / (α + β)) * (Dz * Dz + (Dx * Dx + Dy * Dy + 3 * κ) + 2 * κ) + κ ≤
      gexp3 α A β B + 1 := by
    have h1 := mul_le_mul_of_nonneg_left D3 m0.le
    have h2 : α * β * (1 / (α + β)) * S 1000 ≤ T 99 * S 1000 := mul_le_mul_of_nonneg_right m1 (S_pos _).le
    have h3 : T 99 * S 1000 = S 901 := by
      unfold FlPrim.T FlPrim.S
      rw [show (1000 : ℕ) = 99 + 901 by norm_num, pow_add]; field_simp
    have h4 : S 901 ≤ S 1 := S_le (by norm_num)
    have h5 : κ ≤ S 1 := κ_le_S (by norm_num)
    have h6 : S 1 = 1 / 2 := by unfold FlPrim.S; norm_num
    have h7 : α * β * (1 / (α + β)) * (dist2 A B + S 1000) =
        gexp3 α A β B + α * β * (1 / (α + β)) * S 1000 := by rw [← hg]; ring
    linarith
  have d4 := (t3.mono (show 5 + (1 + 1 + 1 + 1 + 1) + 1 ≤ 11 by norm_num) D6).err
  rw [e2, neg_mul (α * β * (1 / (α + β))), hg, sub_neg_eq_add] at d4
  have neg : F.fl (-F.fl (F.fl (α * β) * F.fl (1 / F.fl (α + β))) *
      F.mac (F.fl (A .z - B .z)) (F.fl (A .z - B .z)) (F.dot (F.fl (A .x - B .x)) (F.fl (A .x - B .x))
        (F.fl (A .y - B .y)) (F.fl (A .y - B .y)))) ≤ 0 := by
    refine hF.nonpos _ ?_
    rw [neg_mul]
    exact neg_nonpos.2 (mul_nonneg ((mu_rl hF h).pos' (by norm_num)).le
      (FlPrim.mac_sq_nonneg hF (FlPrim.dot_sq_nonneg hF _ _)))
  exact exp_near hF.toRounds neg g0 d4

omit hF in
theorem potStart_bounds : S 200 ≤ potStart α A β B R ∧ potStart α A β B R ≤ T 101 := by
  have ha := h.ar.pos
  have hb := h.br.pos
  have hp := h.sum_pos
  have inv := h.inv_le
  have inv0 : 0 < 1 / (α + β) := by positivity
  obtain ⟨E0, E1⟩ := E_le_one (gexp3_nonneg ha hb A B)
  obtain ⟨X0, X1⟩ := X_bounds h
  have Y1 : 2 + 3 * reach R ^ 2 * (α + β) ≤ T 78 := by
    refine add_T (n := 77) ?_ X1 le_rfl
    exact le_trans (by unfold FlPrim.T; norm_num) (T_le (show 1 ≤ 77 by norm_num))
  have hpi : π ≤ T 2 := by unfold FlPrim.T; norm_num; exact pi_le_four
  have q1 : 2 * π / (α + β) ≤ T 22 := by
    rw [← mul_one_div]
    exact mul_T (n := 3) (m := 19) (mul_T (n := 1) (m := 2) (by unfold FlPrim.T; norm_num) hpi pi_pos.le le_rfl)
      inv inv0.le le_rfl
  have q0 : 0 ≤ 2 * π / (α + β) := by positivity
  have z0 : 0 ≤ 2 * π / (α + β) * ((1 + gexp3 α A β B) * exp (-gexp3 α A β B)) := mul_nonneg q0 E0
  have z1 : 2 * π / (α + β) * ((1 + gexp3 α A β B) * exp (-gexp3 α A β B)) ≤ T 22 := by
    have := mul_le_mul q1 E1 E0 (T_pos 22).le
    linarith
  have s0 := S_pos 200
  have s1 := S_one 200
  have o22 := T_one 22
  unfold potStart
  rw [S_def]
  refine ⟨?_, mul_T Y1 (add_T z1 (s1.trans o22) le_rfl) (by linarith) le_rfl⟩
  have : 1 * S 200 ≤ (2 + 3 * reach R ^ 2 * (α + β)) *
      (2 * π / (α + β) * ((1 + gexp3 α A β B) * exp (-gexp3 α A β B)) + S 200) :=
    mul_le_mul (by linarith) (by linarith) s0.le (by linarith)
  linarith

omit hF in
theorem start_eq (n : ℕ) : nucV h.ar.pos h.br.pos A B C n ⟨0, 0, 0⟩ ⟨0, 0, 0⟩ =
    boysF n (argOf α A β B C) * 2 * π * (1 / (α + β)) * exp (-gexp3 α A β B) := by
  rw [nucV_start]
  have e1 : argOf α A β B C = (((α * A .x + β * B .x) * (1 / (α + β)) - C .x) *
          ((α * A .x + β * B .x) * (1 / (α + β)) - C .x) +
        ((α * A .y + β * B .y) * (1 / (α + β)) - C .y) *
          ((α * A .y + β * B .y) * (1 / (α + β)) - C .y) +
        ((α * A .z + β * B .z) * (1 / (α + β)) - C .z) *
          ((α * A .z + β * B .z) * (1 / (α + β)) - C .z)) * (α + β) := by
    unfold argOf dist2
    simp only [mul_one_div]
    ring
  have e2 : -gexp3 α A β B = -(α * β * (1 / (α + β))) * ((A .x - B .x) * (A .x - B .x) +
          (A .y - B .y) * (A .y - B .y) + (A .z - B .z) * (A .z - B .z)) := by
    unfold gexp3 dist2
    ring
  rw [e1, e2]
  rfl

/-- The start values. -/
theorem start_near (hA : ∀ d, |A d| ≤ R) (hB : ∀ d, |B d| ≤ R) (hC : ∀ d, |C d| ≤ R) {kb n : ℕ} (hk : kb ≤ 2 ^ 18)
    {y : ℝ} (hy : |y - boysF n (potArg F α A β B C)| ≤ γ kb * boysF n (potArg F α A β B C)) :
    Approx (kb + 61) (F.fl (F.fl (F.fl (F.fl (y * 2) * F.fl piLit) * (FlOneEl.oePar F α A β B).oop) * potExp F α A β B))
      (nucV h.ar.pos h.br.pos A B C n ⟨0, 0, 0⟩ ⟨0, 0, 0⟩) (potStart α A β B R) := by
  have hκ := κ_pos
  have hκ1 : κ ≤ 1 := κS ▸ S_one 1022
  have ha := h.ar.pos
  have hb := h.br.pos
  have hp := h.sum_pos
  have inv := h.inv_le
  have inv0 : 0 < 1 / (α + β) := by positivity
  have b := boys_near hF h hA hB hC hy
  obtain ⟨X0, X1⟩ := X_bounds h
  have Y1 : 2 + 3 * reach R ^ 2 * (α + β) ≤ T 78 := by
    refine add_T (n := 77) ?_ X1 le_rfl
    exact le_trans (by unfold FlPrim.T; norm_num) (T_le (show 1 ≤ 77 by norm_num))
  have Y0 : 1 ≤ 2 + 3 * reach R ^ 2 * (α + β) := by linarith
  have hpi : π ≤ T 2 := by unfold FlPrim.T; norm_num; exact pi_le_four
  have hpi0 := pi_pos
  have two : (2 : ℝ) ≤ T 1 := by unfold FlPrim.T; norm_num
  obtain ⟨E0, E1⟩ := E_le_one (gexp3_nonneg ha hb A B)
  have ex := potExp_near hF h hA hB
  have r2 : Rl 0 1 (2 : ℝ) 2 := Rl.of_exact ⟨by norm_num, by norm_num⟩
  have ps : potStart α A β B R = (2 + 3 * reach R ^ 2 * (α + β)) *
    (2 * π * (1 / (α + β)) * ((1 + gexp3 α A β B) * exp (-gexp3 α A β B)) + S 200) := by
    unfold potStart; rw [S_def, mul_one_div]
  set E := (1 + gexp3 α A β B) * exp (-gexp3 α A β B)
  set Y := 2 + 3 * reach R ^ 2 * (α + β)
  set q := 1 / (α + β)
  have v1 : Y * 2 ≤ T 79 := mul_T Y1 two (by norm_num) le_rfl
  have n1 : 0 ≤ Y * 2 := by linarith
  have t1 := mul_near hF.toRounds b r2.approx
    (ov_T (by norm_num at hk ⊢; omega) n1 (v1.trans (T_le (by norm_num))))
  have v1' : Y * 2 + κ ≤ T 80 := add_T v1 (hκ1.trans (T_one 79)) le_rfl
  have v2 : (Y * 2 + κ) * π ≤ T 82 := mul_T v1' hpi hpi0.le le_rfl
  have n2 : 0 ≤ (Y * 2 + κ) * π := mul_nonneg (by linarith) hpi0.le
  have t2 := mul_near hF.toRounds t1 (pi_rl hF).approx
    (ov_T (by norm_num at hk ⊢; omega) n2 (v2.trans (T_le (by norm_num))))
  have v2' : (Y * 2 + κ) * π + κ ≤ T 83 := add_T v2 (hκ1.trans (T_one 82)) le_rfl
  have v3 : ((Y * 2 + κ) * π + κ) * q ≤ T 102 := mul_T v2' inv inv0.le le_rfl
  have n3 : 0 ≤ ((Y * 2 + κ) * π + κ) * q := mul_nonneg (by linarith) inv0.le
  have t3 := mul_near hF.toRounds t2 (oop_rl hF h).approx
    (ov_T (by norm_num at hk ⊢; omega) n3 (v3.trans (T_le (by norm_num))))
  have v3' : ((Y * 2 + κ) * π + κ) * q + κ ≤ T 103 := add_T v3 (hκ1.trans (T_one 102)) le_rfl
  have vE : E + κ ≤ T 1 := add_T (n := 0) (by unfold FlPrim.T; simpa using E1) (by unfold FlPrim.T; simpa using hκ1) le_rfl
  have nE : 0 ≤ E + κ := by linarith
  have v4 : (((Y * 2 + κ) * π + κ) * q + κ) * (E + κ) ≤ T 104 := mul_T v3' vE nE le_rfl
  have n4 : 0 ≤ (((Y * 2 + κ) * π + κ) * q + κ) * (E + κ) := mul_nonneg (by linarith) nE
  have t4 := mul_near hF.toRounds t3 ex
    (ov_T (by norm_num at hk ⊢; omega) n4 (v4.trans (T_le (by norm_num))))
  rw [start_eq h]
  refine t4.mono (by omega) ?_
  rw [ps]
  -- what is smaller than the margin
  have c1 : κ * (2 * π * q) ≤ S 1000 := κ_size hF h hA hB
    (mul_T (n := 3) (m := 19) (mul_T (n := 1) (m := 2) two hpi hpi0.le le_rfl) inv inv0.le le_rfl) (by norm_num)
  have c2 : π * q + q + 1 ≤ T 23 := by
    have a1 : π * q ≤ T 21 := mul_T hpi inv inv0.le le_rfl
    have a2 : q ≤ T 21 := inv.trans (T_le (by norm_num))
    have a3 := T_one 22
    have a4 := T_twice (n := 22) rfl
    have a5 := T_twice (n := 21) rfl
    linarith
  have c3 : κ * ((π * q + q + 1) * (E + κ)) ≤ S 998 := κ_size hF h hA hB (mul_T c2 vE nE le_rfl) (by norm_num)
  have c4 : Y * (κ * (2 * π * q)) ≤ Y * S 1000 := mul_le_mul_of_nonneg_left c1 (by linarith)
  have c5 : S 998 ≤ Y * S 998 := le_mul_of_one_le_left (S_pos _).le Y0
  have c6 : S 1000 ≤ S 202 := S_le (by norm_num)
  have c7 : S 998 ≤ S 202 := S_le (by norm_num)
  have c8 : κ ≤ S 202 := κ_le_S (by norm_num)
  have c9 := S_twice (show 202 = 201 + 1 by norm_num)
  have c10 := S_twice (show 201 = 200 + 1 by norm_num)
  have c11 : S 202 ≤ Y * S 202 := le_mul_of_one_le_left (S_pos _).le Y0
  have c12 : Y * (S 1000 + S 998 + S 202) ≤ Y * S 200 :=
    mul_le_mul_of_nonneg_left (by linarith [S_pos 202]) (by linarith)
  have e : (((Y * 2 + κ) * π + κ) * q + κ) * (E + κ) + κ = Y * (2 * π * q * E) + Y * (κ * (2 * π * q)) +
      κ * ((π * q + q + 1) * (E + κ)) + κ := by ring
  rw [e]
  linarith

/-! ## Sizes -/

omit hF h in
theorem moment_le' {M p : ℝ} (hM : 0 ≤ M) (hp : 0 < p) (hM1 : M ≤ T 18) (hh : 1 / (2 * p) ≤ T 19) (n : ℕ)
    (hn : n ≤ 37) : moment M (1 / (2 * p)) n ≤ T (19 * n) := by
  have key : ∀ n, n + 1 ≤ 38 → moment M (1 / (2 * p)) n ≤ T (19 * n) ∧
      (n + 1 ≤ 37 → moment M (1 / (2 * p)) (n + 1) ≤ T (19 * (n + 1))) := by
    intro n
    induction n with
    | zero =>
      intro _
      refine ⟨by rw [moment_zero M hp]; exact T_one _, fun _ => ?_⟩
      rw [moment_succ M hp, moment_zero M hp]
      simp only [CharP.cast_eq_zero, zero_mul, add_zero, mul_one]
      exact hM1.trans (T_le (by norm_num))
    | succ n ih =>
      intro hn
      have ih := ih (by omega)
      have i2 := ih.2 (by omega)
      refine ⟨i2, fun hn2 => ?_⟩
      rw [moment_succ M hp, Nat.add_sub_cancel]
      have m0 := moment_nonneg hM hp n
      have m1 := moment_nonneg hM hp (n + 1)
      have a1 : M * moment M (1 / (2 * p)) (n + 1) ≤ T (19 * n + 37) := mul_T hM1 i2 m1 (by omega)
      have c1 : ((n + 1 : ℕ) : ℝ) ≤ T 6 := by
        unfold FlPrim.T
        have : ((n + 1 : ℕ) : ℝ) ≤ ((64 : ℕ) : ℝ) := by exact_mod_cast (by omega : n + 1 ≤ 64)
        refine this.trans (by norm_num)
      have c2 : ((n + 1 : ℕ) : ℝ) * (1 / (2 * p)) ≤ T 25 := mul_T c1 hh (by positivity) (by norm_num)
      have a2 : ((n + 1 : ℕ) : ℝ) * (1 / (2 * p)) * moment M (1 / (2 * p)) n ≤ T (19 * n + 37) :=
        mul_T c2 ih.1 m0 (by omega)
      exact add_T a1 a2 (by omega)
  exact (key n (by omega)).1

omit hF h in
theorem half_eq (p : ℝ) : 1 / p = 1 / (2 * (p / 2)) := by rw [mul_div_cancel₀ p two_ne_zero]

omit hF in
theorem potSize_ge (l : ℕ) : S (200 + 20 * l) ≤ potSize α A β B R l := by
  have hr := reach_nonneg h
  have hp := half_pos h.sum_pos
  unfold potSize
  rw [half_eq, ← S_mul h, ← S_pow h]
  have h1 := (potStart_bounds h (A := A) (B := B)).1
  have h2 := moment_ge (M := 2 * reach R) (by linarith) hp l
  have h3 := pow_le_pow_left₀ (S_pos 20).le (show S 20 ≤ 2 * reach R by linarith [reach_ge h]) l
  exact mul_le_mul h1 (h3.trans h2) (pow_nonneg (S_pos 20).le l) ((S_pos 200).le.trans h1)

omit hF in
theorem potSize_nonneg (l : ℕ) : 0 ≤ potSize α A β B R l := (S_pos _).le.trans (potSize_ge h l)

omit hF in
theorem potSize_zero : potSize α A β B R 0 = potStart α A β B R := by
  unfold potSize
  rw [half_eq, moment_zero _ (half_pos h.sum_pos), mul_one]

omit hF in
theorem potSize_le (l : ℕ) (hl : l ≤ 37) : potSize α A β B R l ≤ T (101 + 19 * l) := by
  have hr := reach_nonneg h
  have hp := half_pos h.sum_pos
  unfold potSize
  rw [half_eq]
  have two : (2 : ℝ) ≤ T 1 := by unfold FlPrim.T; norm_num
  refine mul_T (potStart_bounds h (A := A) (B := B)).2 (moment_le' (by linarith) hp
    (mul_T two (reach_le h) hr le_rfl) ?_ l hl) (moment_nonneg (by linarith) hp l) le_rfl
  rw [← half_eq]
  exact h.inv_le

omit hF in
theorem potSize_succ (l : ℕ) : potSize α A β B R (l + 1) = 2 * reach R * potSize α A β B R l +
    l * (1 / (α + β)) * potSize α A β B R (l - 1) := by
  unfold potSize
  rw [half_eq, moment_succ _ (half_pos h.sum_pos)]
  ring

omit hF in
theorem potSize_step {l n1 n2 : ℕ} (hl : l ≤ 36) (hn : n1 + n2 ≤ l) :
    (2 * R + S 900) * potSize α A β B R l + (2 * R + S 900) * potSize α A β B R l +
      n1 * (1 / (2 * (α + β))) * potSize α A β B R (l - 1) + n1 * (1 / (2 * (α + β))) * potSize α A β B R (l - 1) +
      n2 * (1 / (2 * (α + β))) * (potSize α A β B R (l - 1) + potSize α A β B R (l - 1) + κ) + S 1018 ≤
      potSize α A β B R (l + 1) := by
  have hp := h.sum_pos
  have inv := h.inv_le
  have inv0 : 0 < 1 / (α + β) := by positivity
  rw [potSize_succ h, reach_eq h]
  have eh : 1 / (2 * (α + β)) = 1 / 2 * (1 / (α + β)) := by field_simp
  rw [eh]
  have g := reach_gap h
  have h1 := mul_le_mul g (potSize_ge h (A := A) (B := B) l) (S_pos _).le ((S_pos 21).le.trans g)
  rw [S_mul h] at h1
  have h2 : S 989 ≤ S (21 + (200 + 20 * l)) := S_le (by omega)
  have p0 := potSize_nonneg h (A := A) (B := B) (R := R) (l - 1)
  set σ := potSize α A β B R l
  set σ' := potSize α A β B R (l - 1)
  set q := 1 / (α + β)
  have cn : (n1 : ℝ) + n2 ≤ l := by exact_mod_cast hn
  have n2' : (n2 : ℝ) ≤ T 6 := by
    unfold FlPrim.T
    have : (n2 : ℝ) ≤ ((64 : ℕ) : ℝ) := by exact_mod_cast (by omega : n2 ≤ 64)
    refine this.trans (by norm_num)
  have k1 : κ * ((n2 : ℝ) * q) ≤ S 997 := by
    rw [← κT (show 25 + 997 = 1022 by norm_num)]
    exact mul_le_mul_of_nonneg_left (mul_T n2' inv inv0.le le_rfl) κ_pos.le
  have k2 : S 997 ≤ S 990 := S_le (by norm_num)
  have k3 : S 1018 ≤ S 990 := S_le (by norm_num)
  have k4 := S_twice (show 990 = 989 + 1 by norm_num)
  have k5 : ((n1 : ℝ) + n2) * (q * σ') ≤ l * (q * σ') := mul_le_mul_of_nonneg_right cn (mul_nonneg inv0.le p0)
  have k6 := S_pos 990
  have k7 : 0 ≤ κ * ((n2 : ℝ) * q) := mul_nonneg κ_pos.le (mul_nonneg (Nat.cast_nonneg _) inv0.le)
  nlinarith

end

end Simint.FlPot
