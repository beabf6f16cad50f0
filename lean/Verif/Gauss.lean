import Mathlib.Analysis.SpecialFunctions.Gaussian.GaussianIntegral
import Mathlib.Analysis.SpecialFunctions.Gaussian.PoissonSummation
import Mathlib.MeasureTheory.Integral.IntegralEqImproper
import Mathlib.MeasureTheory.Integral.Prod
import Mathlib.Analysis.Calculus.Deriv.Polynomial
import Mathlib.Algebra.Polynomial.Derivation

/-!
# Polynomials times Gaussians on the line (analysis lemmas)
-/

set_option autoImplicit false

open MeasureTheory Polynomial Real Set Filter Topology

namespace Simint

/-- One-dimensional Gaussian weight. -/
noncomputable def gw (b P x : ℝ) : ℝ := exp (-b * (x - P) ^ 2)

theorem gw_pos (b P x : ℝ) : 0 < gw b P x := exp_pos _

theorem gw_continuous (b P : ℝ) : Continuous (gw b P) := by unfold gw; fun_prop

theorem integrable_poly_gw0 {b : ℝ} (hb : 0 < b) (g : ℝ[X]) :
    Integrable fun x : ℝ => g.eval x * exp (-b * x ^ 2) := by
  induction g using Polynomial.induction_on' with
  | add p q hp hq =>
    simp only [eval_add, add_mul]
    exact hp.add hq
  | monomial n a =>
    have := (integrable_rpow_mul_exp_neg_mul_sq hb (s := n) (by
      have : (0 : ℝ) ≤ n := Nat.cast_nonneg n
      linarith)).const_mul a
    simpa [Real.rpow_natCast, mul_assoc] using this

theorem integrable_poly_gw {b : ℝ} (hb : 0 < b) (P : ℝ) (g : ℝ[X]) :
    Integrable fun x : ℝ => g.eval x * gw b P x := by
  have := (integrable_poly_gw0 hb (g.comp (X + C P))).comp_sub_right P
  simpa [gw, eval_comp] using this

theorem bounded_poly_gw0 {b : ℝ} (hb : 0 < b) (g : ℝ[X]) :
    ∃ K, ∀ x : ℝ, |g.eval x * exp (-b * x ^ 2)| ≤ K := by
  induction g using Polynomial.induction_on' with
  | add p q hp hq =>
    obtain ⟨K1, h1⟩ := hp
    obtain ⟨K2, h2⟩ := hq
    refine ⟨K1 + K2, fun x => ?_⟩
    rw [eval_add, add_mul]
    exact (abs_add_le _ _).trans (add_le_add (h1 x) (h2 x))
  | monomial n a =>
    have ht := tendsto_rpow_abs_mul_exp_neg_mul_sq_cocompact hb n
    have hev : ∀ᶠ x in cocompact ℝ, |x| ^ (n : ℝ) * exp (-b * x ^ 2) < 1 :=
      ht.eventually (gt_mem_nhds one_pos)
    obtain ⟨S, hS, hSc⟩ := mem_cocompact.1 hev
    have hc : Continuous fun x : ℝ => x ^ n * exp (-b * x ^ 2) := by fun_prop
    obtain ⟨K, hK⟩ := hS.exists_bound_of_continuousOn hc.continuousOn
    refine ⟨|a| * max K 1, fun x => ?_⟩
    have : |x ^ n * exp (-b * x ^ 2)| ≤ max K 1 := by
      by_cases hx : x ∈ S
      · exact (hK x hx).trans (le_max_left _ _)
      · have := hSc hx
        simp only [Set.mem_ofPred_eq, Real.rpow_natCast] at this
        rw [abs_mul, abs_pow, abs_of_pos (exp_pos _)]
        exact this.le.trans (le_max_right _ _)
    rw [eval_monomial, mul_assoc, abs_mul]
    exact mul_le_mul_of_nonneg_left this (abs_nonneg _)

theorem bounded_poly_gw {b : ℝ} (hb : 0 < b) (P : ℝ) (g : ℝ[X]) :
    ∃ K, ∀ x : ℝ, |g.eval x * gw b P x| ≤ K := by
  obtain ⟨K, hK⟩ := bounded_poly_gw0 hb (g.comp (X + C P))
  exact ⟨K, fun x => by simpa [gw, eval_comp] using hK (x - P)⟩

theorem gw_hasDerivAt (b P x : ℝ) : HasDerivAt (gw b P) (gw b P x * (-2 * b * (x - P))) x := by
  have h1 : HasDerivAt (fun x : ℝ => -b * (x - P) ^ 2) (-b * (2 * (x - P))) x := by
    have := (((hasDerivAt_id x).sub_const P).pow 2).const_mul (-b)
    simpa using this
  have h2 : HasDerivAt (gw b P) (gw b P x * (-b * (2 * (x - P)))) x := h1.exp
  have e : gw b P x * (-2 * b * (x - P)) = gw b P x * (-b * (2 * (x - P))) := by ring
  rw [e]; exact h2

theorem integral_gw (b P : ℝ) : ∫ x, gw b P x = √(π / b) := by
  rw [← integral_gaussian b]
  exact integral_sub_right_eq_self (fun x => exp (-b * x ^ 2)) P

/-! ## One-dimensional moments -/

/-- Integral of a polynomial with a Gaussian weight. -/
noncomputable def G1 (b P : ℝ) (g : ℝ[X]) : ℝ := ∫ x, g.eval x * gw b P x

section
variable {b : ℝ} (hb : 0 < b) (P : ℝ)
include hb

theorem G1_add (g h : ℝ[X]) : G1 b P (g + h) = G1 b P g + G1 b P h := by
  unfold G1
  rw [← integral_add (integrable_poly_gw hb P g) (integrable_poly_gw hb P h)]
  simp only [eval_add, add_mul]

omit hb in
theorem G1_C_mul (c : ℝ) (g : ℝ[X]) : G1 b P (C c * g) = c * G1 b P g := by
  unfold G1
  rw [← integral_const_mul]
  simp only [eval_mul, eval_C, mul_assoc]

theorem G1_sub (g h : ℝ[X]) : G1 b P (g - h) = G1 b P g - G1 b P h := by
  have : g - h = g + C (-1) * h := by rw [C_neg, C_1]; ring
  rw [this, G1_add hb, G1_C_mul]; ring

/-- Integration by parts. -/
theorem G1_deriv (g : ℝ[X]) : G1 b P (derivative g) = 2 * b * G1 b P ((X - C P) * g) := by
  have h := integral_eq_zero_of_hasDerivAt_of_integrable
    (f := fun x => g.eval x * gw b P x)
    (f' := fun x => (derivative g).eval x * gw b P x + g.eval x * (gw b P x * (-2 * b * (x - P))))
    (fun x => (g.hasDerivAt x).mul (gw_hasDerivAt b P x)) ?_ (integrable_poly_gw hb P g)
  · rw [integral_add (integrable_poly_gw hb P _) ?_] at h
    · have e : ∫ x, g.eval x * (gw b P x * (-2 * b * (x - P))) = -2 * b * G1 b P ((X - C P) * g) := by
        unfold G1
        rw [← integral_const_mul]
        congr 1; ext x
        simp only [eval_mul, eval_sub, eval_X, eval_C]; ring
      rw [e] at h
      unfold G1 at h ⊢
      linarith
    · have := (integrable_poly_gw hb P ((X - C P) * g)).const_mul (-2 * b)
      refine this.congr (Eventually.of_forall fun x => ?_)
      simp only [eval_mul, eval_sub, eval_X, eval_C]; ring
  · refine (integrable_poly_gw hb P (derivative g - C (2 * b) * ((X - C P) * g))).congr
      (Eventually.of_forall fun x => ?_)
    simp only [eval_mul, eval_sub, eval_X, eval_C]; ring

omit hb in
theorem G1_one : G1 b P 1 = √(π / b) := by
  unfold G1
  simp only [eval_one, one_mul]
  exact integral_gw b P

end

/-! ## Two electrons, one direction -/

/-- Weight of one direction: two Gaussian pairs coupled by `exp (-s (x-y)^2)`. -/
noncomputable def w2 (p q P Q s : ℝ) (z : ℝ × ℝ) : ℝ :=
  gw p P z.1 * gw q Q z.2 * exp (-s * (z.1 - z.2) ^ 2)

/-- Integral of `g(x) h(y)` with that weight. -/
noncomputable def G2 (p q P Q s : ℝ) (g h : ℝ[X]) : ℝ :=
  ∫ z : ℝ × ℝ, g.eval z.1 * h.eval z.2 * w2 p q P Q s z

theorem w2_continuous (p q P Q s : ℝ) : Continuous (w2 p q P Q s) := by
  unfold w2 gw; fun_prop

theorem exp_neg_mul_sq_le_one {s : ℝ} (hs : 0 ≤ s) (d : ℝ) : exp (-s * d ^ 2) ≤ 1 := by
  rw [exp_le_one_iff]
  have := mul_nonneg hs (sq_nonneg d)
  linarith

section
variable {p q : ℝ} (hp : 0 < p) (hq : 0 < q) (P Q : ℝ) {s : ℝ} (hs : 0 ≤ s)
include hp hq hs

theorem integrable2 (g h : ℝ[X]) :
    Integrable fun z : ℝ × ℝ => g.eval z.1 * h.eval z.2 * w2 p q P Q s z := by
  have h1 : Integrable fun z : ℝ × ℝ => (g.eval z.1 * gw p P z.1) * (h.eval z.2 * gw q Q z.2) :=
    (integrable_poly_gw hp P g).mul_prod (integrable_poly_gw hq Q h)
  have hc : Continuous fun z : ℝ × ℝ => g.eval z.1 * h.eval z.2 * w2 p q P Q s z :=
    ((g.continuous.comp continuous_fst).mul (h.continuous.comp continuous_snd)).mul
      (w2_continuous p q P Q s)
  refine h1.mono hc.aestronglyMeasurable (Eventually.of_forall fun z => ?_)
  have e : g.eval z.1 * h.eval z.2 * w2 p q P Q s z =
      (g.eval z.1 * gw p P z.1) * (h.eval z.2 * gw q Q z.2) * exp (-s * (z.1 - z.2) ^ 2) := by
    unfold w2; ring
  rw [e, norm_mul]
  refine mul_le_of_le_one_right (norm_nonneg _) ?_
  rw [Real.norm_eq_abs, abs_of_pos (exp_pos _)]
  exact exp_neg_mul_sq_le_one hs _

theorem integrable2_sum {ι : Type} (t : Finset ι) (c : ι → ℝ) (g h : ι → ℝ[X]) :
    Integrable fun z : ℝ × ℝ => (∑ i ∈ t, c i * ((g i).eval z.1 * (h i).eval z.2)) * w2 p q P Q s z := by
  have : Integrable fun z : ℝ × ℝ => ∑ i ∈ t, c i * ((g i).eval z.1 * (h i).eval z.2 * w2 p q P Q s z) :=
    integrable_finsetSum _ fun i _ => (integrable2 hp hq P Q hs (g i) (h i)).const_mul _
  refine this.congr (Eventually.of_forall fun z => ?_)
  simp only [Finset.sum_mul]
  exact Finset.sum_congr rfl fun i _ => by ring

theorem G2_add_left (g g' h : ℝ[X]) :
    G2 p q P Q s (g + g') h = G2 p q P Q s g h + G2 p q P Q s g' h := by
  unfold G2
  rw [← integral_add (integrable2 hp hq P Q hs g h) (integrable2 hp hq P Q hs g' h)]
  simp only [eval_add, add_mul]

theorem G2_add_right (g h h' : ℝ[X]) :
    G2 p q P Q s g (h + h') = G2 p q P Q s g h + G2 p q P Q s g h' := by
  unfold G2
  rw [← integral_add (integrable2 hp hq P Q hs g h) (integrable2 hp hq P Q hs g h')]
  simp only [eval_add, add_mul, mul_add]

omit hp hq hs in
theorem G2_C_left (c : ℝ) (g h : ℝ[X]) : G2 p q P Q s (C c * g) h = c * G2 p q P Q s g h := by
  unfold G2
  rw [← integral_const_mul]
  simp only [eval_mul, eval_C, mul_assoc]

omit hp hq hs in
theorem G2_C_right (c : ℝ) (g h : ℝ[X]) : G2 p q P Q s g (C c * h) = c * G2 p q P Q s g h := by
  unfold G2
  rw [← integral_const_mul]
  congr 1; ext z
  simp only [eval_mul, eval_C]; ring

omit hp hq hs in
/-- Exchange of the two electrons. -/
theorem G2_swap (g h : ℝ[X]) : G2 p q P Q s g h = G2 q p Q P s h g := by
  unfold G2
  have := integral_prod_swap (μ := (volume : Measure ℝ)) (ν := (volume : Measure ℝ))
    (fun z : ℝ × ℝ => h.eval z.1 * g.eval z.2 * w2 q p Q P s z)
  rw [Measure.volume_eq_prod, ← this]
  congr 1; ext z
  simp only [Prod.swap, w2]
  have : (z.2 - z.1) ^ 2 = (z.1 - z.2) ^ 2 := by ring
  rw [this]; ring

/-- Integration by parts in the first variable. -/
theorem G2_deriv_left (g h : ℝ[X]) :
    G2 p q P Q s (derivative g) h =
      2 * (p + s) * G2 p q P Q s ((X - C P) * g) h - 2 * s * G2 p q P Q s g ((X - C Q) * h)
        + 2 * s * (P - Q) * G2 p q P Q s g h := by
  -- the integrand whose integral must vanish
  set F : ℝ × ℝ → ℝ := fun z =>
    ((derivative g).eval z.1 * h.eval z.2 * w2 p q P Q s z)
      + (-2 * (p + s)) * (((X - C P) * g).eval z.1 * h.eval z.2 * w2 p q P Q s z)
      + (2 * s) * (g.eval z.1 * ((X - C Q) * h).eval z.2 * w2 p q P Q s z)
      + (-2 * s * (P - Q)) * (g.eval z.1 * h.eval z.2 * w2 p q P Q s z) with hF
  have i1 := integrable2 hp hq P Q hs (derivative g) h
  have i2 := (integrable2 hp hq P Q hs ((X - C P) * g) h).const_mul (-2 * (p + s))
  have i3 := (integrable2 hp hq P Q hs g ((X - C Q) * h)).const_mul (2 * s)
  have i4 := (integrable2 hp hq P Q hs g h).const_mul (-2 * s * (P - Q))
  have iF : Integrable F := ((i1.add i2).add i3).add i4
  have hz : ∫ z, F z = 0 := by
    rw [Measure.volume_eq_prod, integral_prod_symm F iF]
    refine integral_eq_zero_of_ae (Eventually.of_forall fun y => ?_)
    -- one-dimensional weight at fixed `y`
    have hw : ∀ x, w2 p q P Q s (x, y) = gw q Q y * exp (-(s * (p / (p + s)) * (P - y) ^ 2)) *
        gw (p + s) ((p * P + s * y) / (p + s)) x := by
      intro x
      have hps : p + s ≠ 0 := by positivity
      simp only [w2, gw]
      simp only [← exp_add]
      congr 1
      field_simp
      ring
    have hint : ∀ f : ℝ[X], Integrable fun x => f.eval x * w2 p q P Q s (x, y) := by
      intro f
      have := (integrable_poly_gw (b := p + s) (by positivity) ((p * P + s * y) / (p + s)) f).const_mul
        (gw q Q y * exp (-(s * (p / (p + s)) * (P - y) ^ 2)))
      refine this.congr (Eventually.of_forall fun x => ?_)
      simp only [hw]; ring
    have hd : ∀ x, HasDerivAt (fun x => w2 p q P Q s (x, y))
        (w2 p q P Q s (x, y) * (-2 * p * (x - P) - 2 * s * (x - y))) x := by
      intro x
      have h1 := gw_hasDerivAt p P x
      have h2 : HasDerivAt (fun x => exp (-s * (x - y) ^ 2))
          (exp (-s * (x - y) ^ 2) * (-2 * s * (x - y))) x := gw_hasDerivAt s y x
      have h3 := (h1.mul_const (gw q Q y)).mul h2
      have e : w2 p q P Q s (x, y) * (-2 * p * (x - P) - 2 * s * (x - y)) =
          gw p P x * (-2 * p * (x - P)) * gw q Q y * exp (-s * (x - y) ^ 2) +
            gw p P x * gw q Q y * (exp (-s * (x - y) ^ 2) * (-2 * s * (x - y))) := by
        simp only [w2]; ring
      rw [e]; exact h3
    have hFx : ∀ x, F (x, y) = h.eval y * ((derivative g).eval x * w2 p q P Q s (x, y) +
        g.eval x * (w2 p q P Q s (x, y) * (-2 * p * (x - P) - 2 * s * (x - y)))) := by
      intro x
      simp only [hF, eval_mul, eval_sub, eval_X, eval_C]
      ring
    have key := integral_eq_zero_of_hasDerivAt_of_integrable
      (f := fun x => g.eval x * w2 p q P Q s (x, y))
      (f' := fun x => (derivative g).eval x * w2 p q P Q s (x, y) +
        g.eval x * (w2 p q P Q s (x, y) * (-2 * p * (x - P) - 2 * s * (x - y))))
      (fun x => (g.hasDerivAt x).mul (hd x)) ?_ (hint g)
    · show ∫ x, F (x, y) = 0
      simp only [hFx]
      rw [integral_const_mul, key, mul_zero]
    · refine (hint (derivative g + g * (C (-2 * p) * (X - C P) - C (2 * s) * (X - C y)))).congr
        (Eventually.of_forall fun x => ?_)
      simp only [eval_mul, eval_sub, eval_add, eval_X, eval_C]; ring
  have hsum : ∫ z, F z = G2 p q P Q s (derivative g) h + (-2 * (p + s)) * G2 p q P Q s ((X - C P) * g) h
      + (2 * s) * G2 p q P Q s g ((X - C Q) * h) + (-2 * s * (P - Q)) * G2 p q P Q s g h := by
    have e1 := integral_add ((i1.add i2).add i3) i4
    have e2 := integral_add (i1.add i2) i3
    have e3 := integral_add i1 i2
    simp only [Pi.add_apply] at e1 e2 e3
    unfold G2
    rw [← integral_const_mul, ← integral_const_mul, ← integral_const_mul, ← e3, ← e2, ← e1]
  rw [hz] at hsum
  linarith

theorem G2_deriv_right (g h : ℝ[X]) :
    G2 p q P Q s g (derivative h) =
      2 * (q + s) * G2 p q P Q s g ((X - C Q) * h) - 2 * s * G2 p q P Q s ((X - C P) * g) h
        - 2 * s * (P - Q) * G2 p q P Q s g h := by
  rw [G2_swap, G2_deriv_left hq hp Q P hs, G2_swap (p := p), G2_swap (p := p), G2_swap (p := p)]
  ring

/-- The vertical relation for one direction at fixed coupling, first electron. -/
theorem G2_vertical_left (g h : ℝ[X]) :
    G2 p q P Q s ((X - C P) * g) h =
      (q + s) / (2 * (p * q + (p + q) * s)) * G2 p q P Q s (derivative g) h
      + s / (2 * (p * q + (p + q) * s)) * G2 p q P Q s g (derivative h)
      - q * s / (p * q + (p + q) * s) * (P - Q) * G2 p q P Q s g h := by
  have h1 := G2_deriv_left hp hq P Q hs g h
  have h2 := G2_deriv_right hp hq P Q hs g h
  have hd : p * q + (p + q) * s ≠ 0 := by positivity
  rw [h1, h2]
  field_simp
  ring

/-- Base value. -/
theorem G2_one : G2 p q P Q s 1 1 =
    π / √(p * q + (p + q) * s) * exp (-(p * q * s / (p * q + (p + q) * s)) * (P - Q) ^ 2) := by
  unfold G2
  have i := integrable2 hp hq P Q hs 1 1
  rw [Measure.volume_eq_prod] at i ⊢
  rw [integral_prod _ i]
  simp only [eval_one, one_mul]
  have hqs : q + s ≠ 0 := by positivity
  set k := q * s / (q + s) with hk
  have hk0 : 0 ≤ k := by positivity
  have hpk : p + k ≠ 0 := by positivity
  have h1 : ∀ x y, w2 p q P Q s (x, y) =
      (gw p P x * exp (-k * (x - Q) ^ 2)) * gw (q + s) ((q * Q + s * x) / (q + s)) y := by
    intro x y
    simp only [w2, gw]
    rw [mul_assoc, mul_assoc, ← exp_add, ← exp_add, ← exp_add, ← exp_add]
    congr 1
    rw [hk]
    field_simp
    ring
  have h2 : ∀ x, gw p P x * exp (-k * (x - Q) ^ 2) =
      exp (-(p * k / (p + k)) * (P - Q) ^ 2) * gw (p + k) ((p * P + k * Q) / (p + k)) x := by
    intro x
    simp only [gw]
    rw [← exp_add, ← exp_add]
    congr 1
    field_simp
    ring
  simp only [h1, integral_const_mul, integral_gw, integral_mul_const, h2]
  have e1 : p * k / (p + k) = p * q * s / (p * q + (p + q) * s) := by
    rw [hk]
    have : p * (q + s) + q * s ≠ 0 := by positivity
    have : p * q + (p + q) * s ≠ 0 := by positivity
    field_simp
    ring
  have e2 : √(π / (p + k)) * √(π / (q + s)) = π / √(p * q + (p + q) * s) := by
    rw [← Real.sqrt_mul (by positivity)]
    have : π / (p + k) * (π / (q + s)) = π ^ 2 / (p * q + (p + q) * s) := by
      rw [hk]
      have : p * (q + s) + q * s ≠ 0 := by positivity
      have : p * q + (p + q) * s ≠ 0 := by positivity
      field_simp
      ring
    rw [this, Real.sqrt_div (by positivity), Real.sqrt_sq pi_pos.le]
  rw [e1, mul_assoc, e2, mul_comm]

end

end Simint
