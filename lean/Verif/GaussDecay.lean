import Verif.Gauss
import Mathlib.Analysis.SpecialFunctions.ImproperIntegrals
import Mathlib.MeasureTheory.Function.JacobianOneDim

/-!
# Decay in the coupling and integrability over it (analysis lemmas)
-/

set_option autoImplicit false

open MeasureTheory Polynomial Real Set Filter Topology

namespace Simint

section
variable {p q : ℝ} (hp : 0 < p) (hq : 0 < q) (P Q : ℝ)
include hp hq

theorem G2_bound (g h : ℝ[X]) : ∃ K, 0 ≤ K ∧ ∀ s, 0 ≤ s → |G2 p q P Q s g h| ≤ K := by
  refine ⟨∫ z : ℝ × ℝ, ‖(g.eval z.1 * gw p P z.1) * (h.eval z.2 * gw q Q z.2)‖,
    integral_nonneg fun _ => norm_nonneg _, fun s hs => ?_⟩
  have h1 : Integrable fun z : ℝ × ℝ => (g.eval z.1 * gw p P z.1) * (h.eval z.2 * gw q Q z.2) :=
    (integrable_poly_gw hp P g).mul_prod (integrable_poly_gw hq Q h)
  unfold G2
  rw [← Real.norm_eq_abs]
  refine (norm_integral_le_integral_norm _).trans ?_
  refine integral_mono (integrable2 hp hq P Q hs g h).norm h1.norm fun z => ?_
  have e : g.eval z.1 * h.eval z.2 * w2 p q P Q s z =
      (g.eval z.1 * gw p P z.1) * (h.eval z.2 * gw q Q z.2) * exp (-s * (z.1 - z.2) ^ 2) := by
    unfold w2; ring
  simp only
  rw [e, norm_mul]
  refine mul_le_of_le_one_right (norm_nonneg _) ?_
  rw [Real.norm_eq_abs, abs_of_pos (exp_pos _)]
  exact exp_neg_mul_sq_le_one hs _

theorem G2_decay (g h : ℝ[X]) : ∃ K, 0 ≤ K ∧ ∀ u, 0 < u → |G2 p q P Q (u ^ 2) g h| * u ≤ K := by
  obtain ⟨Kh, hKh⟩ := bounded_poly_gw hq Q h
  have hKh0 : 0 ≤ Kh := (abs_nonneg _).trans (hKh 0)
  refine ⟨(∫ x, ‖g.eval x * gw p P x‖) * (Kh * √π), by positivity, fun u hu => ?_⟩
  have hs : 0 ≤ u ^ 2 := by positivity
  have i := integrable2 hp hq P Q hs g h
  have hle : |G2 p q P Q (u ^ 2) g h| ≤ (∫ x, ‖g.eval x * gw p P x‖) * (Kh * √(π / u ^ 2)) := by
    unfold G2
    rw [← Real.norm_eq_abs]
    refine (norm_integral_le_integral_norm _).trans ?_
    have i' := i.norm
    rw [Measure.volume_eq_prod] at i' ⊢
    rw [integral_prod _ i', ← integral_mul_const]
    refine integral_mono_of_nonneg (Eventually.of_forall fun x => integral_nonneg fun y => norm_nonneg _)
      ((integrable_poly_gw hp P g).norm.mul_const _) (Eventually.of_forall fun x => ?_)
    have hint : Integrable fun y => ‖g.eval x * gw p P x‖ * (Kh * gw (u ^ 2) x y) := by
      have := integrable_poly_gw (b := u ^ 2) (by positivity) x 1
      simp only [eval_one, one_mul] at this
      exact (this.const_mul Kh).const_mul _
    have := integral_mono_of_nonneg (μ := volume) (f := fun y => ‖g.eval x * h.eval y * w2 p q P Q (u ^ 2) (x, y)‖)
      (Eventually.of_forall fun y => norm_nonneg _) hint (Eventually.of_forall fun y => by
        have e : g.eval x * h.eval y * w2 p q P Q (u ^ 2) (x, y) =
            (g.eval x * gw p P x) * ((h.eval y * gw q Q y) * gw (u ^ 2) x y) := by
          simp only [w2, gw]
          rw [show (y - x) ^ 2 = (x - y) ^ 2 by ring]; ring
        simp only
        rw [e, norm_mul, norm_mul (h.eval y * gw q Q y)]
        refine mul_le_mul_of_nonneg_left ?_ (norm_nonneg _)
        rw [Real.norm_eq_abs (gw _ _ _), abs_of_pos (gw_pos _ _ _)]
        exact mul_le_mul_of_nonneg_right (hKh y) (gw_pos _ _ _).le)
    refine this.trans (le_of_eq ?_)
    rw [integral_const_mul, integral_const_mul, integral_gw]
  have hsq : √(π / u ^ 2) * u = √π := by
    rw [Real.sqrt_div pi_pos.le, Real.sqrt_sq hu.le]
    field_simp
  calc |G2 p q P Q (u ^ 2) g h| * u ≤ (∫ x, ‖g.eval x * gw p P x‖) * (Kh * √(π / u ^ 2)) * u :=
        mul_le_mul_of_nonneg_right hle hu.le
    _ = (∫ x, ‖g.eval x * gw p P x‖) * (Kh * (√(π / u ^ 2) * u)) := by ring
    _ = _ := by rw [hsq]

theorem G2_decay' (g h : ℝ[X]) :
    ∃ K, 0 ≤ K ∧ ∀ u, 0 < u → |G2 p q P Q (u ^ 2) g h| ≤ K / (1 + u) := by
  obtain ⟨K1, h10, h1⟩ := G2_bound hp hq P Q g h
  obtain ⟨K2, h20, h2⟩ := G2_decay hp hq P Q g h
  refine ⟨K1 + K2, by positivity, fun u hu => ?_⟩
  rw [le_div_iff₀ (by positivity), mul_add, mul_one]
  exact add_le_add (h1 _ (by positivity)) (h2 u hu)

omit hp hq in
theorem G2_measurable (g h : ℝ[X]) : StronglyMeasurable fun u : ℝ => G2 p q P Q (u ^ 2) g h := by
  unfold G2
  have hc : Continuous fun w : ℝ × (ℝ × ℝ) =>
      g.eval w.2.1 * h.eval w.2.2 * w2 p q P Q (w.1 ^ 2) w.2 := by
    unfold w2 gw
    have h1 : Continuous fun w : ℝ × (ℝ × ℝ) => g.eval w.2.1 := g.continuous.comp (by fun_prop)
    have h2 : Continuous fun w : ℝ × (ℝ × ℝ) => h.eval w.2.2 := h.continuous.comp (by fun_prop)
    exact (h1.mul h2).mul (by fun_prop)
  exact hc.stronglyMeasurable.integral_prod_right'

end

/-- The product of the three directions is integrable over the coupling. -/
theorem integrableOn_three {p q : ℝ} (hp : 0 < p) (hq : 0 < q) (P1 Q1 P2 Q2 P3 Q3 : ℝ)
    (g1 h1 g2 h2 g3 h3 : ℝ[X]) {φ : ℝ → ℝ} (hφ : StronglyMeasurable φ)
    (hφ1 : ∀ u, 0 < u → |φ u| ≤ 1) :
    IntegrableOn (fun u => φ u * (G2 p q P1 Q1 (u ^ 2) g1 h1 * G2 p q P2 Q2 (u ^ 2) g2 h2 *
      G2 p q P3 Q3 (u ^ 2) g3 h3)) (Ioi 0) := by
  obtain ⟨K1, k1, b1⟩ := G2_bound hp hq P1 Q1 g1 h1
  obtain ⟨K2, k2, b2⟩ := G2_decay' hp hq P2 Q2 g2 h2
  obtain ⟨K3, k3, b3⟩ := G2_decay' hp hq P3 Q3 g3 h3
  have hI : IntegrableOn (fun u : ℝ => K1 * K2 * K3 * (1 + u ^ 2)⁻¹) (Ioi 0) :=
    (integrable_inv_one_add_sq.const_mul _).integrableOn
  refine Integrable.mono' hI ?_ ?_
  · exact (hφ.mul (((G2_measurable P1 Q1 g1 h1).mul (G2_measurable P2 Q2 g2 h2)).mul
      (G2_measurable P3 Q3 g3 h3))).aestronglyMeasurable
  · filter_upwards [ae_restrict_mem measurableSet_Ioi] with u hu
    have hu : 0 < u := hu
    rw [Real.norm_eq_abs, abs_mul, abs_mul, abs_mul]
    have c1 := b1 (u ^ 2) (by positivity)
    have c2 := b2 u hu
    have c3 := b3 u hu
    have c0 := hφ1 u hu
    have hle : (1 + u)⁻¹ * (1 + u)⁻¹ ≤ (1 + u ^ 2)⁻¹ := by
      rw [← mul_inv]
      apply inv_anti₀ (by positivity)
      nlinarith
    calc |φ u| * (|G2 p q P1 Q1 (u ^ 2) g1 h1| * |G2 p q P2 Q2 (u ^ 2) g2 h2| *
          |G2 p q P3 Q3 (u ^ 2) g3 h3|)
        ≤ 1 * (K1 * (K2 / (1 + u)) * (K3 / (1 + u))) := by gcongr
      _ = K1 * K2 * K3 * ((1 + u)⁻¹ * (1 + u)⁻¹) := by rw [div_eq_mul_inv, div_eq_mul_inv]; ring
      _ ≤ _ := by gcongr

end Simint
