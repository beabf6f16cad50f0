import Verif.FlPrim
import Verif.FlRel
import Verif.Spec.FlPrim
import Verif.VRRRoundLemmas
import Verif.BoysInt
import Mathlib.Analysis.Real.Pi.Bounds

/-! # Rounding errors of shell pairs and of the primitive loop -/

set_option autoImplicit false

open Real

namespace Simint.FlPrim

open FlBoys (Arith Rounds u η)
open VRRRound (mul_near fma_near)

/-! ## Numbers -/

theorem κ_pow {n m : ℕ} (h : n + m = 1022) : κ * 2 ^ n = 1 / 2 ^ m := by
  unfold κ
  rw [← h, pow_add]
  field_simp

/-- `2^n`, not to be evaluated. -/
noncomputable def T (n : ℕ) : ℝ := 2 ^ n

theorem T_def (n : ℕ) : (2 : ℝ) ^ n = T n := rfl

/-- `2^-n`, not to be evaluated. -/
noncomputable def S (n : ℕ) : ℝ := 1 / 2 ^ n

theorem S_def (n : ℕ) : (1 : ℝ) / 2 ^ n = S n := rfl

theorem T_pos (n : ℕ) : 0 < T n := by unfold T; positivity
theorem S_pos (n : ℕ) : 0 < S n := by unfold S; positivity
theorem T_one (n : ℕ) : 1 ≤ T n := by unfold T; exact one_le_pow₀ (by norm_num)
theorem T_le {n m : ℕ} (h : n ≤ m) : T n ≤ T m := pow_le_pow_right₀ (by norm_num) h
theorem S_le {n m : ℕ} (h : n ≤ m) : S m ≤ S n :=
  one_div_le_one_div_of_le (by positivity) (pow_le_pow_right₀ (by norm_num) h)
theorem T_add (n m : ℕ) : T (n + m) = T n * T m := pow_add _ _ _
theorem T_mul {n m l : ℕ} (h : n + m = l) : T n * T m = T l := by rw [← h, T_add]
theorem T_twice {n m : ℕ} (h : n + 1 = m) : 2 * T n = T m := by rw [← h, T_add]; unfold T; ring
theorem S_twice {n m : ℕ} (h : n = m + 1) : 2 * S n = S m := by
  rw [h]; unfold S; rw [pow_succ]; field_simp
theorem S_one (n : ℕ) : S n ≤ 1 := (div_le_one (by positivity)).2 (one_le_pow₀ (by norm_num))

theorem κT {n m : ℕ} (h : n + m = 1022) : κ * T n = S m := κ_pow h

theorem κS : κ = S 1022 := rfl

theorem ov_T {k : ℕ} {X : ℝ} (hk : k ≤ 2 ^ 20) (h0 : 0 ≤ X) (hX : X ≤ T 1000) : (1 + u) ^ k * X ≤ 2 ^ 1023 :=
  ov_of hk h0 hX

theorem mul_T {x y : ℝ} {n m l : ℕ} (hx : x ≤ T n) (hy : y ≤ T m) (h0 : 0 ≤ y) (h : n + m ≤ l) : x * y ≤ T l :=
  (mul_le_mul hx hy h0 (T_pos n).le).trans ((T_mul rfl).trans_le (T_le h))

theorem add_T {x y : ℝ} {n l : ℕ} (hx : x ≤ T n) (hy : y ≤ T n) (h : n + 1 ≤ l) : x + y ≤ T l := by
  have := T_twice (n := n) rfl
  have := T_le h
  linarith

/-- The literal has 60 correct digits; 18 are enough. -/
theorem const_lit : |sqrtTwoPi52 - √2 * π ^ ((5 : ℝ) / 4)| ≤ u * (√2 * π ^ ((5 : ℝ) / 4)) := by
  set C := √2 * π ^ ((5 : ℝ) / 4) with hC
  have hp : 0 < π := pi_pos
  have h0 : 0 < C := by positivity
  have h4 : C ^ 4 = 4 * π ^ 5 := by
    rw [hC, mul_pow]
    have e1 : √2 ^ 4 = 4 := by
      have : √2 ^ 2 = 2 := Real.sq_sqrt (by norm_num)
      calc √2 ^ 4 = (√2 ^ 2) ^ 2 := by ring
        _ = 4 := by rw [this]; norm_num
    have e2 : (π ^ ((5 : ℝ) / 4)) ^ 4 = π ^ 5 := by
      rw [← rpow_natCast (π ^ ((5 : ℝ) / 4)) 4, ← rpow_mul hp.le, ← rpow_natCast π 5]
      norm_num
    rw [e1, e2]
  have hlo := pi_gt_d20
  have hhi := pi_lt_d20
  have l5 : (3.14159265358979323846 : ℝ) ^ 5 ≤ π ^ 5 := pow_le_pow_left₀ (by norm_num) hlo.le 5
  have h5 : π ^ 5 ≤ (3.14159265358979323847 : ℝ) ^ 5 := pow_le_pow_left₀ hp.le hhi.le 5
  have lo : sqrtTwoPi52 * (1 - 1 / 10 ^ 17) ≤ C := by
    refine le_of_pow_le_pow_left₀ (n := 4) (by norm_num) h0.le ?_
    rw [h4]
    refine le_trans ?_ (mul_le_mul_of_nonneg_left l5 (by norm_num))
    unfold sqrtTwoPi52
    norm_num
  have hi : C ≤ sqrtTwoPi52 * (1 + 1 / 10 ^ 17) := by
    refine le_of_pow_le_pow_left₀ (n := 4) (by norm_num) (by unfold sqrtTwoPi52; norm_num) ?_
    rw [h4]
    refine le_trans (mul_le_mul_of_nonneg_left h5 (by norm_num)) ?_
    unfold sqrtTwoPi52
    norm_num
  have hs : 0 < sqrtTwoPi52 := by unfold sqrtTwoPi52; norm_num
  have hu : 2 / 10 ^ 17 ≤ u := by unfold FlBoys.u; norm_num
  rw [abs_le]
  constructor <;> nlinarith

theorem const_rng : InR 3 (√2 * π ^ ((5 : ℝ) / 4)) := by
  have h := abs_le.1 const_lit
  have hu : u ≤ 1 / 100 := by unfold FlBoys.u; norm_num
  have h0 : 0 < √2 * π ^ ((5 : ℝ) / 4) := by have := pi_pos; positivity
  set C := √2 * π ^ ((5 : ℝ) / 4)
  have h1 : 5.9 < sqrtTwoPi52 ∧ sqrtTwoPi52 < 6 := by unfold sqrtTwoPi52; constructor <;> norm_num
  have h2 : u * C ≤ 1 / 100 * C := mul_le_mul_of_nonneg_right hu h0.le
  constructor
  · norm_num at h1 ⊢; linarith
  · norm_num at h1 ⊢; linarith

theorem const_rl {F : Arith} (hF : Sound F) : Rl 2 3 (F.fl sqrtTwoPi52) (√2 * π ^ ((5 : ℝ) / 4)) :=
  (⟨by rw [γ_one]; exact const_lit, const_rng⟩ : Rl 1 3 sqrtTwoPi52 (√2 * π ^ ((5 : ℝ) / 4))).fl hF
    (by norm_num) (by norm_num)

/-! ## One pair of primitives -/

section
variable {F : Arith} (hF : Sound F) {A B : Shell ℝ} {a b : ℕ} {R : ℝ} (h : PairIn A B a b R)
include h

theorem PairIn.ar : InR 100 (A.alpha a) := ⟨h.alo, h.ahi⟩
theorem PairIn.br : InR 100 (B.alpha b) := ⟨h.blo, h.bhi⟩
theorem PairIn.R0 : 0 ≤ R := (abs_nonneg _).trans (h.apos .x)
theorem PairIn.sumR : InR 101 (A.alpha a + B.alpha b) := h.ar.add h.br

theorem PairIn.sum_ge : 1 / 2 ^ 100 ≤ A.alpha a + B.alpha b := by linarith [h.alo, h.br.pos]

theorem PairIn.inv_le : 1 / (A.alpha a + B.alpha b) ≤ 2 ^ 100 := by
  have h1 := h.sum_ge
  rw [div_le_iff₀ h.sumR.pos]
  rw [div_le_iff₀ (by positivity)] at h1
  linarith

include hF

theorem sum_rl : Rl 1 101 (F.fl (A.alpha a + B.alpha b)) (A.alpha a + B.alpha b) :=
  (Rl.of_exact h.ar).flAdd hF (Rl.of_exact h.br) (by norm_num) (by norm_num)

theorem mul_rl : Rl 1 200 (F.fl (A.alpha a * B.alpha b)) (A.alpha a * B.alpha b) :=
  (Rl.of_exact h.ar).flMul hF (Rl.of_exact h.br) (by norm_num) (by norm_num)

theorem pos_near (d : Dir) : Approx 5 (value F A B a b (.pos d)) (center A B a b d) (R + 1 / 2 ^ 900) := by
  rw [S_def]
  have hκ := κ_pos
  have hκ1 : κ ≤ T 200 := (κS ▸ S_one 1022).trans (T_one _)
  have hR := h.R0
  have ha := h.ar.pos
  have hb := h.br.pos
  have hp := h.sumR.pos
  have Ra : R * A.alpha a ≤ T 200 := mul_T (n := 100) (m := 100) h.rhi h.ahi ha.le (by norm_num)
  have Rb : B.alpha b * R ≤ T 200 := mul_T (n := 100) (m := 100) h.bhi h.rhi hR (by norm_num)
  have w1 := T_twice (n := 200) rfl
  have w2 := T_twice (n := 201) rfl
  have w3 := T_twice (n := 202) rfl
  have big : T 203 ≤ T 1000 := T_le (by norm_num)
  have A0 : Approx 0 (A.pos d) (A.pos d) R := (Approx.refl _).mono le_rfl (h.apos d)
  have B0 : Approx 0 (B.pos d) (B.pos d) R := (Approx.refl _).mono le_rfl (h.bpos d)
  have t1 : Approx 1 (F.fl (A.pos d * A.alpha a)) (A.pos d * A.alpha a) (R * A.alpha a + κ) :=
    mul_near hF.toRounds A0 (Rl.of_exact h.ar).approx
      (ov_T (by norm_num) (by positivity) (by linarith [T_pos 200]))
  have t2 := fma_near hF.toRounds (Rl.of_exact h.br).approx B0 t1 le_rfl
    (ov_T (by norm_num) (by positivity) (by linarith [T_pos 200]))
  have inv : 1 / (A.alpha a + B.alpha b) ≤ T 100 := h.inv_le
  have e1 : (B.alpha b * R + (R * A.alpha a + κ) + 2 * κ) / (A.alpha a + B.alpha b) =
      R + 3 * κ * (1 / (A.alpha a + B.alpha b)) := by field_simp; ring
  have k1 : 3 * κ * (1 / (A.alpha a + B.alpha b)) ≤ 3 * κ * T 100 :=
    mul_le_mul_of_nonneg_left inv (by positivity)
  have k2 : 3 * κ * T 100 + κ ≤ S 900 := by
    have := κT (show 100 + 922 = 1022 by norm_num)
    have e2 := S_twice (show 922 = 921 + 1 by norm_num)
    have e3 := S_twice (show 921 = 920 + 1 by norm_num)
    have e4 : S 920 ≤ S 900 := S_le (by norm_num)
    have e5 : κ ≤ S 922 := by rw [κS]; exact S_le (by norm_num)
    linarith
  have k3 := S_one 900
  have r1 : R ≤ T 200 := h.rhi.trans (T_le (by norm_num))
  have t3 := Approx.flDiv hF t2 (sum_rl hF h) (by norm_num) (by
    rw [e1, T_def]; linarith [T_one 200])
  rw [e1] at t3
  have ec : (B.alpha b * B.pos d + A.pos d * A.alpha a) / (A.alpha a + B.alpha b) = center A B a b d := by
    unfold center; ring
  rw [ec] at t3
  exact t3.mono (by norm_num) (by linarith)

theorem center_le (d : Dir) : |center A B a b d| ≤ R + 1 / 2 ^ 900 := (pos_near hF h d).le

/-- A difference of the center and a number of size at most `R`. -/
theorem diff_near {x' x : ℝ} (hx : Approx 5 x' x (R + S 900)) (d : Dir) :
    Approx 6 (F.fl (value F A B a b (.pos d) - x')) (center A B a b d - x) (diffMax R) := by
  have hR := h.R0
  have k3 := S_one 900
  have k0 := S_pos 900
  have kκ : κ ≤ S 900 := by rw [κS]; exact S_le (by norm_num)
  have r1 : R ≤ T 100 := h.rhi
  have w1 := T_twice (n := 100) rfl
  have w2 := T_twice (n := 101) rfl
  have w3 : T 102 ≤ T 1000 := T_le (by norm_num)
  have t0 := pos_near hF h d
  rw [S_def] at t0
  have t := (t0.sub hx).fl hF.toRounds (ov_T (by norm_num) (by linarith) (by linarith [T_one 100]))
  refine t.mono le_rfl ?_
  unfold diffMax
  rw [S_def]
  have e1 := S_twice (show 900 = 899 + 1 by norm_num)
  have e2 := S_twice (show 899 = 898 + 1 by norm_num)
  have e3 : S 898 ≤ S 800 := S_le (by norm_num)
  linarith

theorem PA_near (d : Dir) : Approx 6 (value F A B a b (.PA d)) (center A B a b d - A.pos d) (diffMax R) :=
  diff_near hF h ((Approx.refl _).mono (by norm_num) ((h.apos d).trans (by linarith [S_pos 900]))) d

theorem PB_near (d : Dir) : Approx 6 (value F A B a b (.PB d)) (center A B a b d - B.pos d) (diffMax R) :=
  diff_near hF h ((Approx.refl _).mono (by norm_num) ((h.bpos d).trans (by linarith [S_pos 900]))) d

end

/-! ## The prefactor -/

/-- `a*b + c*d`, products fused or not. -/
theorem dot_near {F : Arith} (hF : Rounds F) {k l m : ℕ} {a' a X b' b Y c' c Z d' d W : ℝ} (ha : Approx k a' a X)
    (hb : Approx l b' b Y) (hc : Approx k c' c Z) (hd : Approx l d' d W) (hm : k + l + 1 ≤ m)
    (ov : (1 + u) ^ (m + 1) * (X * Y + Z * W + 3 * κ) ≤ 2 ^ 1023) :
    Approx (m + 1) (F.dot a' b' c' d') (a * b + c * d) (X * Y + Z * W + 3 * κ) := by
  have hκ := κ_pos
  have h1 : 0 ≤ X * Y := mul_nonneg ha.nonneg hb.nonneg
  have h2 : 0 ≤ Z * W := mul_nonneg hc.nonneg hd.nonneg
  have h0 : 0 ≤ X * Y + Z * W + 3 * κ := by linarith
  have ov' : ∀ {j : ℕ} {V : ℝ}, j ≤ m + 1 → V ≤ X * Y + Z * W + 3 * κ → (1 + u) ^ j * V ≤ 2 ^ 1023 :=
    fun hj hV => VRRRound.ov_mono hj hV h0 ov
  have p1 := ha.mul hb
  have p2 := hc.mul hd
  have q1 := p1.fl hF (ov' (by omega) (by linarith))
  have q2 := p2.fl hF (ov' (by omega) (by linarith))
  rcases hF.dot a' b' c' d' with e | e | e <;> rw [e]
  · exact (((q1.mono hm le_rfl).add (q2.mono hm le_rfl)).fl hF (ov' (by omega) (by linarith))).mono le_rfl
      (by linarith)
  · exact (((p1.mono (by omega : k + l ≤ m) le_rfl).add (q2.mono hm le_rfl)).fl hF
      (ov' (by omega) (by linarith))).mono le_rfl (by linarith)
  · exact (((q1.mono hm le_rfl).add (p2.mono (by omega : k + l ≤ m) le_rfl)).fl hF
      (ov' (by omega) (by linarith))).mono le_rfl (by linarith)

theorem mac_sq_nonneg {F : Arith} (hF : Sound F) {x y : ℝ} (hy : 0 ≤ y) : 0 ≤ F.mac x x y := by
  rcases hF.mac x x y with e | e <;> rw [e]
  · exact hF.nonneg _ (add_nonneg (mul_self_nonneg x) hy)
  · exact hF.nonneg _ (add_nonneg (hF.nonneg _ (mul_self_nonneg x)) hy)

theorem dot_sq_nonneg {F : Arith} (hF : Sound F) (x y : ℝ) : 0 ≤ F.dot x x y y := by
  have hx := mul_self_nonneg x
  have hy := mul_self_nonneg y
  have hx' := hF.nonneg _ hx
  have hy' := hF.nonneg _ hy
  rcases hF.dot x x y y with e | e | e <;> rw [e]
  · exact hF.nonneg _ (add_nonneg hx' hy')
  · exact hF.nonneg _ (add_nonneg hx hy')
  · exact hF.nonneg _ (add_nonneg hx' hy)

/-- The exponential of an argument with a small relative error. -/
theorem exp_near {F : Arith} (hF : Rounds F) {y a : ℝ} (hy : y ≤ 0) (ha : 0 ≤ a) (h : |y + a| ≤ γ 10 * (a + 1)) :
    Approx 30 (F.exp y) (exp (-a)) ((1 + a) * exp (-a) + κ) := by
  have hκ := κ_pos
  have hu := u_pos
  have hE := exp_pos (-a)
  have r := hF.exp y hy
  rw [η_eq] at r
  have h50 : (1 : ℝ) / 2 ^ 50 = 8 * u := by unfold FlBoys.u; norm_num
  rw [h50] at r
  have g10 : 10 * u ≤ γ 10 := by
    unfold γ
    have := one_add_mul_le_pow (show (-2 : ℝ) ≤ u by linarith) 10
    push_cast at this
    linarith
  have g30 : γ 20 + γ 10 ≤ γ 30 := by
    rw [show 30 = 20 + 10 by norm_num, γ_add]
    have := mul_nonneg (γ_nonneg 20) (γ_nonneg 10)
    linarith
  have g20 : 2 * γ 10 ≤ γ 20 := by
    rw [show 20 = 10 + 10 by norm_num, γ_add]
    have := mul_nonneg (γ_nonneg 10) (γ_nonneg 10)
    linarith
  have gs : γ 10 ≤ 10 * (1 / 2 ^ 52) := by
    have := γ_le (k := 10) (by norm_num)
    push_cast at this
    exact this
  refine ⟨by rw [abs_of_pos hE]; nlinarith, ?_⟩
  rcases le_total a (2 ^ 40) with c | c
  · have hd : |y + a| ≤ 1 / 100 := by
      refine h.trans ((mul_le_mul gs (by linarith : a + 1 ≤ 2 ^ 40 + 1) (by linarith) (by norm_num)).trans ?_)
      norm_num
    have e1 : exp y = exp (-a) * exp (y + a) := by rw [← exp_add]; congr 1; ring
    have h1 := Real.abs_exp_sub_one_le (x := y + a) (by linarith)
    have h2 := (abs_le.1 h1).2
    have h3 : exp y ≤ exp (-a) * (1 + 2 / 100) := by
      rw [e1]; exact mul_le_mul_of_nonneg_left (by linarith) hE.le
    have h4 : |exp y - exp (-a)| ≤ exp (-a) * (γ 20 * (a + 1)) := by
      rw [e1, show exp (-a) * exp (y + a) - exp (-a) = exp (-a) * (exp (y + a) - 1) by ring, abs_mul,
        abs_of_pos hE]
      refine mul_le_mul_of_nonneg_left (h1.trans ?_) hE.le
      have := mul_le_mul_of_nonneg_right g20 (by linarith : 0 ≤ a + 1)
      linarith
    have h5 : |F.exp y - exp (-a)| ≤ |F.exp y - exp y| + |exp y - exp (-a)| := by
      have := abs_add_le (F.exp y - exp y) (exp y - exp (-a))
      simpa using this
    have h6 : 8 * u * exp y ≤ γ 10 * exp (-a) := by
      calc 8 * u * exp y ≤ 8 * u * (exp (-a) * (1 + 2 / 100)) := mul_le_mul_of_nonneg_left h3 (by linarith)
        _ ≤ 10 * u * exp (-a) := by nlinarith
        _ ≤ γ 10 * exp (-a) := mul_le_mul_of_nonneg_right g10 hE.le
    have h7 : u * κ ≤ γ 30 * κ := mul_le_mul_of_nonneg_right (by linarith [γ_nonneg 20]) hκ.le
    have h8 : γ 10 * exp (-a) ≤ γ 10 * ((1 + a) * exp (-a)) :=
      mul_le_mul_of_nonneg_left (by nlinarith) (γ_nonneg 10)
    have h9 := mul_le_mul_of_nonneg_right g30 (mul_nonneg (by linarith : 0 ≤ 1 + a) hE.le)
    linarith
  · have h1 := (abs_le.1 h).2
    have h2 : γ 10 * (a + 1) ≤ a / 2 := by
      refine (mul_le_mul_of_nonneg_right gs (by linarith)).trans ?_
      norm_num at c ⊢
      linarith
    have h3 : 2000 ≤ -y := by norm_num at c; linarith
    have h4 := FlBoys.exp_tiny_neg h3
    have h5 := FlBoys.exp_tiny_neg (show 2000 ≤ a by norm_num at c; linarith)
    rw [neg_neg, η_eq] at h4
    rw [η_eq] at h5
    have h6 : |F.exp y - exp (-a)| ≤ |F.exp y - exp y| + |exp y - exp (-a)| := by
      have := abs_add_le (F.exp y - exp y) (exp y - exp (-a))
      simpa using this
    have h7 : |exp y - exp (-a)| ≤ u * κ := by
      rw [abs_le]; constructor <;> linarith [exp_pos y]
    have h8 : 8 * u * exp y ≤ u * κ := by
      have h9 : 8 * u ≤ 1 := by unfold FlBoys.u; norm_num
      have := mul_le_mul_of_nonneg_right h9 (exp_pos y).le
      linarith
    have h9 : 3 * (u * κ) ≤ γ 30 * κ := by
      have : 3 * u ≤ γ 30 := by linarith [γ_nonneg 20]
      have := mul_le_mul_of_nonneg_right this hκ.le
      linarith
    have h10 : 0 ≤ γ 30 * ((1 + a) * exp (-a)) := mul_nonneg (γ_nonneg 30) (by positivity)
    linarith

section
variable {F : Arith} (hF : Sound F) {A B : Shell ℝ} {a b : ℕ} {R : ℝ} (h : PairIn A B a b R)

theorem xab_nonneg (hF : Sound F) : 0 ≤ xab F A B := mac_sq_nonneg hF (dot_sq_nonneg hF _ _)

include h

theorem PairIn.diff_le (d : Dir) : |A.pos d - B.pos d| ≤ T 101 := by
  refine (abs_sub _ _).trans ?_
  exact add_T (n := 100) ((h.apos d).trans h.rhi) ((h.bpos d).trans h.rhi) le_rfl

theorem PairIn.dist_le : dist2 A.pos B.pos ≤ T 204 := by
  have hd : ∀ d, (A.pos d - B.pos d) ^ 2 ≤ T 202 := by
    intro d
    rw [← sq_abs, sq]
    exact mul_T (h.diff_le d) (h.diff_le d) (abs_nonneg _) le_rfl
  have := hd .x
  have := hd .y
  have := hd .z
  have w1 := T_twice (n := 202) rfl
  have w2 := T_twice (n := 203) rfl
  unfold dist2
  linarith [T_pos 202]

include hF

theorem xab_near : Approx 5 (xab F A B) (dist2 A.pos B.pos) (dist2 A.pos B.pos + S 917) := by
  have hκ := κ_pos
  have hκ1 : κ ≤ 1 := κS ▸ S_one 1022
  have one := T_one 101
  have Xd : ∀ d, Approx 1 (F.fl (A.pos d - B.pos d)) (A.pos d - B.pos d) (|A.pos d - B.pos d| + κ) := by
    intro d
    exact (Approx.refl _).fl hF.toRounds (ov_T (by norm_num) (abs_nonneg _)
      ((h.diff_le d).trans (T_le (by norm_num))))
  have Xle : ∀ d, |A.pos d - B.pos d| + κ ≤ T 102 := fun d => add_T (h.diff_le d) (hκ1.trans one) le_rfl
  have X0 : ∀ d, 0 ≤ |A.pos d - B.pos d| + κ := fun d => by positivity
  have sq : ∀ d, (|A.pos d - B.pos d| + κ) * (|A.pos d - B.pos d| + κ) ≤ T 204 := fun d =>
    mul_T (Xle d) (Xle d) (X0 d) le_rfl
  have sq0 : ∀ d, 0 ≤ (|A.pos d - B.pos d| + κ) * (|A.pos d - B.pos d| + κ) := fun d => mul_nonneg (X0 d) (X0 d)
  have w1 := T_twice (n := 204) rfl
  have w2 := T_twice (n := 205) rfl
  have w3 := T_twice (n := 206) rfl
  have w4 : T 207 ≤ T 1000 := T_le (by norm_num)
  have w5 := T_one 204
  have s1 := sq .x
  have s2 := sq .y
  have s3 := sq .z
  have n1 := sq0 .x
  have n2 := sq0 .y
  have n3 := sq0 .z
  have t1 := dot_near hF.toRounds (Xd .x) (Xd .x) (Xd .y) (Xd .y) le_rfl (ov_T (by norm_num) (by linarith) (by linarith))
  have t2 := fma_near hF.toRounds (Xd .z) (Xd .z) t1 (by norm_num) (ov_T (by norm_num) (by linarith) (by linarith))
  have e : (A.pos .z - B.pos .z) * (A.pos .z - B.pos .z) + ((A.pos .x - B.pos .x) * (A.pos .x - B.pos .x) +
      (A.pos .y - B.pos .y) * (A.pos .y - B.pos .y)) = dist2 A.pos B.pos := by unfold dist2; ring
  rw [e] at t2
  refine t2.mono le_rfl ?_
  have ex : ∀ d, (|A.pos d - B.pos d| + κ) * (|A.pos d - B.pos d| + κ) ≤
      (A.pos d - B.pos d) ^ 2 + 3 * (κ * T 101) := by
    intro d
    have h1 : |A.pos d - B.pos d| * |A.pos d - B.pos d| = (A.pos d - B.pos d) ^ 2 := by rw [← sq_abs]; ring
    have h2 := mul_le_mul_of_nonneg_left (h.diff_le d) hκ.le
    have h3 : κ * κ ≤ κ * T 101 := mul_le_mul_of_nonneg_left (hκ1.trans one) hκ.le
    nlinarith
  have x1 := ex .x
  have x2 := ex .y
  have x3 := ex .z
  have k1 : κ ≤ κ * T 101 := le_mul_of_one_le_right hκ.le one
  have k2 := κT (show 101 + 921 = 1022 by norm_num)
  have k3 := S_twice (show 921 = 920 + 1 by norm_num)
  have k4 := S_twice (show 920 = 919 + 1 by norm_num)
  have k5 := S_twice (show 919 = 918 + 1 by norm_num)
  have k6 := S_twice (show 918 = 917 + 1 by norm_num)
  have k7 : dist2 A.pos B.pos = (A.pos .x - B.pos .x) ^ 2 + (A.pos .y - B.pos .y) ^ 2 + (A.pos .z - B.pos .z) ^ 2 := rfl
  linarith

/-- The argument of the exponential function. -/
theorem arg_near : Approx 10 (F.fl (F.fl (-xab F A B * F.fl (A.alpha a * B.alpha b)) / F.fl (A.alpha a + B.alpha b)))
    (-gexp A B a b) (gexp A B a b + 1) := by
  have hκ := κ_pos
  have hκ1 : κ ≤ 1 := κS ▸ S_one 1022
  have ha := h.ar.pos
  have hb := h.br.pos
  have hp := h.sumR.pos
  have hm : A.alpha a * B.alpha b ≤ T 200 := mul_T (n := 100) (m := 100) h.ahi h.bhi hb.le le_rfl
  have hm0 : 0 < A.alpha a * B.alpha b := mul_pos ha hb
  have hd0 : 0 ≤ dist2 A.pos B.pos := by unfold dist2; positivity
  have s1 := S_one 917
  have s0 := S_pos 917
  have hdS : dist2 A.pos B.pos + S 917 ≤ T 205 := add_T h.dist_le (s1.trans (T_one _)) le_rfl
  have x1 : (dist2 A.pos B.pos + S 917) * (A.alpha a * B.alpha b) ≤ T 405 := mul_T hdS hm hm0.le le_rfl
  have n1 : 0 ≤ (dist2 A.pos B.pos + S 917) * (A.alpha a * B.alpha b) := mul_nonneg (by linarith) hm0.le
  have t1 := mul_near hF.toRounds (xab_near hF h).neg (mul_rl hF h).approx
    (ov_T (by norm_num) n1 (x1.trans (T_le (by norm_num))))
  have inv : 1 / (A.alpha a + B.alpha b) ≤ T 100 := h.inv_le
  have inv0 : 0 < 1 / (A.alpha a + B.alpha b) := by positivity
  have x2 : ((dist2 A.pos B.pos + S 917) * (A.alpha a * B.alpha b) + κ) * (1 / (A.alpha a + B.alpha b)) ≤ T 506 :=
    mul_T (add_T x1 (hκ1.trans (T_one _)) le_rfl) inv inv0.le le_rfl
  have t2 := Approx.flDiv hF t1 (sum_rl hF h) (by norm_num) (by
    rw [div_eq_mul_one_div]; exact x2.trans (T_le (by norm_num)))
  have e : -dist2 A.pos B.pos * (A.alpha a * B.alpha b) / (A.alpha a + B.alpha b) = -gexp A B a b := by
    unfold gexp; ring
  rw [e] at t2
  refine t2.mono (by norm_num) ?_
  have e2 : ((dist2 A.pos B.pos + S 917) * (A.alpha a * B.alpha b) + κ) / (A.alpha a + B.alpha b) =
      gexp A B a b + (S 917 * (A.alpha a * B.alpha b)) * (1 / (A.alpha a + B.alpha b)) +
        κ * (1 / (A.alpha a + B.alpha b)) := by unfold gexp; field_simp
  rw [e2]
  have y1 : S 917 * (A.alpha a * B.alpha b) * (1 / (A.alpha a + B.alpha b)) ≤ S 617 := by
    have h1 : A.alpha a * B.alpha b * (1 / (A.alpha a + B.alpha b)) ≤ T 300 := mul_T hm inv inv0.le le_rfl
    have h2 : S 917 * T 300 = S 617 := by
      unfold S T
      rw [show (917 : ℕ) = 300 + 617 by norm_num, pow_add]; field_simp
    rw [← h2, mul_assoc]
    exact mul_le_mul_of_nonneg_left h1 s0.le
  have y2 : κ * (1 / (A.alpha a + B.alpha b)) ≤ S 922 := by
    rw [← κT (show 100 + 922 = 1022 by norm_num)]
    exact mul_le_mul_of_nonneg_left inv hκ.le
  have y3 : κ ≤ S 922 := by rw [κS]; exact S_le (by norm_num)
  have y4 : S 922 ≤ S 3 := S_le (by norm_num)
  have y5 : S 617 ≤ S 3 := S_le (by norm_num)
  have y6 : S 3 = 1 / 8 := by unfold S; norm_num
  linarith

theorem gauss_near : Approx 30
    (F.exp (F.fl (F.fl (-xab F A B * F.fl (A.alpha a * B.alpha b)) / F.fl (A.alpha a + B.alpha b))))
    (exp (-gexp A B a b)) ((1 + gexp A B a b) * exp (-gexp A B a b) + κ) := by
  have hm := (mul_rl hF h).pos' (by norm_num)
  have hs := (sum_rl hF h).pos' (by norm_num)
  have hx := xab_nonneg (A := A) (B := B) hF
  refine exp_near hF.toRounds ?_ ?_ ?_
  · refine hF.nonpos _ (div_nonpos_of_nonpos_of_nonneg (hF.nonpos _ ?_) hs.le)
    rw [neg_mul]
    exact neg_nonpos.2 (mul_nonneg hx hm.le)
  · have := h.ar.pos
    have := h.br.pos
    unfold gexp dist2
    positivity
  · have := (arg_near hF h).err
    rwa [sub_neg_eq_add] at this

theorem prefac_near : Approx 39 (value F A B a b .prefac) (factor A B a b) (factorMax A B a b) := by
  have hκ := κ_pos
  have hκ1 : κ ≤ 1 := κS ▸ S_one 1022
  have hp := h.sumR.pos
  have hg0 : 0 ≤ gexp A B a b := by
    have := h.ar.pos
    have := h.br.pos
    unfold gexp dist2
    positivity
  have hc : |A.coef a * B.coef b| ≤ T 100 := h.coef
  have hc0 := abs_nonneg (A.coef a * B.coef b)
  have hG0 : 0 ≤ (1 + gexp A B a b) * exp (-gexp A B a b) := by positivity
  have hG1 : (1 + gexp A B a b) * exp (-gexp A B a b) ≤ 1 := by
    rw [exp_neg, ← div_eq_mul_inv, div_le_one (exp_pos _)]
    linarith [add_one_le_exp (gexp A B a b)]
  have gn := gauss_near hF h
  have cr := const_rl hF
  have c3 : √2 * π ^ ((5 : ℝ) / 4) ≤ T 3 := const_rng.hi
  have c0 := const_rng.pos
  have inv : 1 / (A.alpha a + B.alpha b) ≤ T 100 := h.inv_le
  have inv0 : 0 < 1 / (A.alpha a + B.alpha b) := by positivity
  have sr := sum_rl hF h
  have T1 := T_one 100
  have k0 : κ * 1 ≤ κ * T 100 := mul_le_mul_of_nonneg_left T1 hκ.le
  have k1 : κ * (2 * T 100) = κ * T 101 := by rw [T_twice rfl]
  have k2 : κ * (2 * T 101) = κ * T 102 := by rw [T_twice rfl]
  have S102 : κ * T 102 ≤ 1 := by rw [κT (show 102 + 920 = 1022 by norm_num)]; exact S_one _
  set v := A.coef a * B.coef b with hv
  set G := (1 + gexp A B a b) * exp (-gexp A B a b) with hG
  set C := √2 * π ^ ((5 : ℝ) / 4) with hC
  set p := A.alpha a + B.alpha b with hpd
  have t1 : Approx 1 (F.fl v) v (|v| + κ) := (Approx.refl v).fl hF.toRounds
    (ov_T (by norm_num) hc0 (hc.trans (T_le (by norm_num))))
  have b2 : (|v| + κ) * (G + κ) ≤ |v| * G + κ * T 101 := by
    have h1 : κ * |v| ≤ κ * T 100 := mul_le_mul_of_nonneg_left hc hκ.le
    have h2 : κ * G ≤ κ * 1 := mul_le_mul_of_nonneg_left hG1 hκ.le
    have h3 : κ * κ ≤ κ * 1 := mul_le_mul_of_nonneg_left hκ1 hκ.le
    have h4 : κ * 4 ≤ κ * T 100 := mul_le_mul_of_nonneg_left
      (le_trans (by unfold T; norm_num) (T_le (show 2 ≤ 100 by norm_num))) hκ.le
    linarith
  have vG : |v| * G ≤ T 100 := by
    calc |v| * G ≤ |v| * 1 := mul_le_mul_of_nonneg_left hG1 hc0
      _ ≤ T 100 := by linarith
  have T101 := T_twice (n := 100) rfl
  have T102 := T_twice (n := 101) rfl
  have n2 : 0 ≤ (|v| + κ) * (G + κ) := by positivity
  have t2 := mul_near hF.toRounds t1 gn (ov_T (by norm_num) n2
    (le_trans (show _ ≤ T 101 by linarith) (T_le (by norm_num))))
  have b2' : (|v| + κ) * (G + κ) + κ ≤ |v| * G + κ * T 102 := by linarith
  have n2' : 0 ≤ (|v| + κ) * (G + κ) + κ := by linarith
  have l2 : (|v| + κ) * (G + κ) + κ ≤ T 101 := by linarith
  have l3 : ((|v| + κ) * (G + κ) + κ) * C ≤ T 104 := mul_T l2 c3 c0.le le_rfl
  have t3 := mul_near hF.toRounds t2 cr.approx (ov_T (by norm_num) (mul_nonneg n2' c0.le)
    (l3.trans (T_le (by norm_num))))
  have b3 : ((|v| + κ) * (G + κ) + κ) * C + κ ≤ |v| * G * C + κ * T 106 := by
    have h1 := mul_le_mul_of_nonneg_right b2' c0.le
    have h2 : κ * T 102 * C ≤ κ * T 105 := by
      rw [mul_assoc]; exact mul_le_mul_of_nonneg_left (mul_T le_rfl c3 c0.le le_rfl) hκ.le
    have h3 : κ * (2 * T 105) = κ * T 106 := by rw [T_twice rfl]
    have h4 : κ * 1 ≤ κ * T 105 := mul_le_mul_of_nonneg_left (T_one _) hκ.le
    linarith
  have n3 : 0 ≤ ((|v| + κ) * (G + κ) + κ) * C + κ := by positivity
  have l3' : ((|v| + κ) * (G + κ) + κ) * C + κ ≤ T 105 := add_T l3 (hκ1.trans (T_one _)) le_rfl
  have l4 : (((|v| + κ) * (G + κ) + κ) * C + κ) / p ≤ T 205 := by
    rw [div_eq_mul_one_div]; exact mul_T l3' inv inv0.le le_rfl
  have t4 := Approx.flDiv hF t3 sr (by norm_num) (l4.trans (T_le (by norm_num)))
  have b4 : (((|v| + κ) * (G + κ) + κ) * C + κ) / p + κ ≤ |v| * G * C / p + κ * T 207 := by
    rw [div_eq_mul_one_div, div_eq_mul_one_div (|v| * G * C)]
    have h1 := mul_le_mul_of_nonneg_right b3 inv0.le
    have h2 : κ * T 106 * (1 / p) ≤ κ * T 206 := by
      rw [mul_assoc]; exact mul_le_mul_of_nonneg_left (mul_T le_rfl inv inv0.le le_rfl) hκ.le
    have h3 : κ * (2 * T 206) = κ * T 207 := by rw [T_twice rfl]
    have h4 : κ * 1 ≤ κ * T 206 := mul_le_mul_of_nonneg_left (T_one _) hκ.le
    linarith
  have n4 : 0 ≤ (((|v| + κ) * (G + κ) + κ) * C + κ) / p + κ := by positivity
  have S800 : κ * T 209 ≤ S 800 := by
    rw [κT (show 209 + 813 = 1022 by norm_num)]; exact S_le (by norm_num)
  have k7 : κ * (2 * T 207) = κ * T 208 := by rw [T_twice rfl]
  have k8 : κ * (2 * T 208) = κ * T 209 := by rw [T_twice rfl]
  have k9 : κ * 1 ≤ κ * T 208 := mul_le_mul_of_nonneg_left (T_one _) hκ.le
  have k10 : 0 < κ * T 207 := mul_pos hκ (T_pos _)
  have key : value F A B a b .prefac =
      if sameShell A B && decide (a ≠ b) then
        F.fl (F.fl (F.fl (F.fl (F.fl v * F.exp (F.fl (F.fl (-xab F A B * F.fl (A.alpha a * B.alpha b)) / F.fl p))) *
          F.fl sqrtTwoPi52) / F.fl p) * 2)
      else F.fl (F.fl (F.fl (F.fl v * F.exp (F.fl (F.fl (-xab F A B * F.fl (A.alpha a * B.alpha b)) / F.fl p))) *
          F.fl sqrtTwoPi52) / F.fl p) := rfl
  rw [key]
  unfold factor factorMax mult
  rw [← hv, ← hG, ← hC, ← hpd, S_def]
  by_cases hf : (sameShell A B && decide (a ≠ b)) = true
  · rw [if_pos hf, if_pos hf]
    have two : Approx 0 (2 : ℝ) 2 2 := ⟨by norm_num, by simp [γ_zero]⟩
    have l5 : ((((|v| + κ) * (G + κ) + κ) * C + κ) / p + κ) * 2 ≤ T 207 := by
      have w1 := T_twice (n := 205) rfl
      have w2 := T_twice (n := 206) rfl
      linarith [T_one 205]
    have t5 := mul_near hF.toRounds t4 two (ov_T (by norm_num) (by linarith) (l5.trans (T_le (by norm_num))))
    have e : v * exp (-gexp A B a b) * C / p * 2 = 2 * (v * exp (-gexp A B a b) * C / p) := by ring
    rw [e] at t5
    exact t5.mono le_rfl (by linarith)
  · rw [if_neg hf, if_neg hf, one_mul, one_mul]
    exact t4.mono (by norm_num) (by linarith)

theorem factorMax_le : factorMax A B a b ≤ T 205 ∧ 0 < factorMax A B a b := by
  have hp := h.sumR.pos
  have hg0 : 0 ≤ gexp A B a b := by
    have := h.ar.pos
    have := h.br.pos
    unfold gexp dist2
    positivity
  have hc : |A.coef a * B.coef b| ≤ T 100 := h.coef
  have hc0 := abs_nonneg (A.coef a * B.coef b)
  have hG0 : 0 ≤ (1 + gexp A B a b) * exp (-gexp A B a b) := by positivity
  have hG1 : (1 + gexp A B a b) * exp (-gexp A B a b) ≤ 1 := by
    rw [exp_neg, ← div_eq_mul_inv, div_le_one (exp_pos _)]
    linarith [add_one_le_exp (gexp A B a b)]
  have c3 : √2 * π ^ ((5 : ℝ) / 4) ≤ T 3 := const_rng.hi
  have c0 := const_rng.pos
  have inv : 1 / (A.alpha a + B.alpha b) ≤ T 100 := h.inv_le
  have inv0 : 0 < 1 / (A.alpha a + B.alpha b) := by positivity
  have S1 := S_one 800
  have S0 := S_pos 800
  have m : 0 ≤ mult A B a b ∧ mult A B a b ≤ T 1 := by
    unfold mult T
    split_ifs <;> norm_num
  have x1 : |A.coef a * B.coef b| * ((1 + gexp A B a b) * exp (-gexp A B a b)) ≤ T 100 :=
    mul_T (n := 100) (m := 0) hc (by unfold T; simpa using hG1) hG0 le_rfl
  have x2 := mul_T x1 c3 c0.le (le_refl 103)
  have x3 := mul_T x2 inv inv0.le (le_refl 203)
  rw [← div_eq_mul_one_div] at x3
  have n3 : 0 ≤ |A.coef a * B.coef b| * ((1 + gexp A B a b) * exp (-gexp A B a b)) *
      (√2 * π ^ ((5 : ℝ) / 4)) / (A.alpha a + B.alpha b) := by positivity
  have x4 := mul_T m.2 x3 n3 (le_refl 204)
  have n4 := mul_nonneg m.1 n3
  unfold factorMax
  rw [S_def]
  exact ⟨add_T x4 (S1.trans (T_one _)) le_rfl, by linarith⟩

end

end Simint.FlPrim
