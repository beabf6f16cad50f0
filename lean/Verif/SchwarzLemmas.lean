import Verif.Props.RealIntegrals
import Mathlib.Algebra.QuadraticDiscriminant

/-!
# The Cauchy-Schwarz inequality for electron repulsion integrals (analysis lemmas)

In one direction, `exp (-c (x-y)²)` is an integral over `t` of products of a function of `x` and the
same function of `y`, so the integrals `G2` are integrals of products of two smeared functions. The
three directions are multiplied and the coupling is integrated with two further steps.
-/

set_option autoImplicit false

open MeasureTheory Polynomial Real Set Filter

namespace Simint

/-! ## Two general steps -/

/-- Cauchy-Schwarz for integrals, from non-negative quadratic forms. -/
theorem integral_schwarz {α : Type} [MeasurableSpace α] {μ : Measure α} {f g h : α → ℝ}
    (hf : Integrable f μ) (hg : Integrable g μ) (hh : Integrable h μ)
    (hpos : ∀ᵐ x ∂μ, ∀ t : ℝ, 0 ≤ f x * (t * t) + 2 * h x * t + g x) :
    (∫ x, h x ∂μ) ^ 2 ≤ (∫ x, f x ∂μ) * ∫ x, g x ∂μ := by
  have key : ∀ t : ℝ, 0 ≤ (∫ x, f x ∂μ) * (t * t) + (2 * ∫ x, h x ∂μ) * t + ∫ x, g x ∂μ := by
    intro t
    have e : (∫ x, f x ∂μ) * (t * t) + (2 * ∫ x, h x ∂μ) * t + ∫ x, g x ∂μ =
        ∫ x, (f x * (t * t) + 2 * h x * t + g x) ∂μ := by
      rw [integral_add, integral_add, integral_mul_const, integral_mul_const, integral_const_mul]
      · exact hf.mul_const _
      · exact (hh.const_mul 2).mul_const _
      · exact (hf.mul_const _).add ((hh.const_mul 2).mul_const _)
      · exact hg
    rw [e]
    exact integral_nonneg_of_ae (hpos.mono fun x hx => hx t)
  have := discrim_le_zero key
  unfold discrim at this
  nlinarith

theorem quad_nonneg {f g h : ℝ} (hf : 0 ≤ f) (hg : 0 ≤ g) (hh : h ^ 2 ≤ f * g) (t : ℝ) :
    0 ≤ f * (t * t) + 2 * h * t + g := by
  rcases hf.eq_or_lt with rfl | hf
  · have : h = 0 := by
      have : h ^ 2 = 0 := le_antisymm (by simpa using hh) (sq_nonneg _)
      exact pow_eq_zero_iff (two_ne_zero) |>.1 this
    subst this
    simpa using hg
  · have : 0 ≤ f * (f * (t * t) + 2 * h * t + g) := by nlinarith [sq_nonneg (f * t + h)]
    exact nonneg_of_mul_nonneg_right this hf

/-! ## One direction -/

/-- The function of one electron, smeared with a Gaussian at `t`. -/
noncomputable def smear (p P c : ℝ) (g : ℝ[X]) (t : ℝ) : ℝ := ∫ x, g.eval x * gw p P x * gw (2 * c) t x

noncomputable def kern (p q P Q c : ℝ) (g h : ℝ[X]) (z : ℝ × ℝ) (t : ℝ) : ℝ :=
  (g.eval z.1 * gw p P z.1 * gw (2 * c) t z.1) * (h.eval z.2 * gw q Q z.2 * gw (2 * c) t z.2)

theorem gw_mul_gw (c x y t : ℝ) :
    gw (2 * c) t x * gw (2 * c) t y = exp (-c * (x - y) ^ 2) * gw (4 * c) ((x + y) / 2) t := by
  unfold gw
  rw [← exp_add, ← exp_add]
  congr 1
  ring

theorem kern_eq (p q P Q c : ℝ) (g h : ℝ[X]) (z : ℝ × ℝ) (t : ℝ) :
    kern p q P Q c g h z t =
      g.eval z.1 * h.eval z.2 * w2 p q P Q c z * gw (4 * c) ((z.1 + z.2) / 2) t := by
  unfold kern
  have := gw_mul_gw c z.1 z.2 t
  calc _ = g.eval z.1 * h.eval z.2 * (gw p P z.1 * gw q Q z.2) * (gw (2 * c) t z.1 * gw (2 * c) t z.2) := by
        ring
    _ = _ := by rw [this]; unfold w2; ring

section
variable {p q c : ℝ} (hp : 0 < p) (hq : 0 < q) (hc : 0 < c) (P Q : ℝ)
include hp hq hc

theorem integrable_gw {b : ℝ} (hb : 0 < b) (m : ℝ) : Integrable (gw b m) := by
  have := integrable_poly_gw hb m 1
  simpa using this

theorem kern_integrable (g h : ℝ[X]) :
    Integrable (Function.uncurry (kern p q P Q c g h)) ((volume : Measure (ℝ × ℝ)).prod volume) := by
  have hcont : Continuous (Function.uncurry (kern p q P Q c g h)) := by
    unfold Function.uncurry kern gw
    fun_prop
  rw [integrable_prod_iff hcont.aestronglyMeasurable]
  have h4 : 0 < 4 * c := by linarith
  refine ⟨Eventually.of_forall fun z => ?_, ?_⟩
  · simp only [Function.uncurry_apply_pair, kern_eq]
    exact (integrable_gw hp hq hc h4 _).const_mul _
  · have e : (fun z : ℝ × ℝ => ∫ t, ‖Function.uncurry (kern p q P Q c g h) (z, t)‖) =
        fun z => ‖g.eval z.1 * h.eval z.2 * w2 p q P Q c z‖ * √(π / (4 * c)) := by
      funext z
      simp only [Function.uncurry_apply_pair, kern_eq, norm_mul _ (gw _ _ _)]
      rw [integral_const_mul]
      congr 1
      rw [← integral_gw (4 * c) ((z.1 + z.2) / 2)]
      congr 1
      funext t
      rw [Real.norm_eq_abs, abs_of_pos (gw_pos _ _ _)]
    rw [e]
    exact (integrable2 hp hq P Q hc.le g h).norm.mul_const _

theorem kern_inner (g h : ℝ[X]) (t : ℝ) :
    ∫ z, kern p q P Q c g h z t = smear p P c g t * smear q Q c h t := by
  unfold kern smear
  rw [Measure.volume_eq_prod]
  exact integral_prod_mul (fun x => g.eval x * gw p P x * gw (2 * c) t x)
    (fun y => h.eval y * gw q Q y * gw (2 * c) t y)

theorem smear_integrable (g h : ℝ[X]) : Integrable fun t => smear p P c g t * smear q Q c h t := by
  have := (kern_integrable hp hq hc P Q g h).integral_prod_right
  refine this.congr (Eventually.of_forall fun t => ?_)
  exact kern_inner hp hq hc P Q g h t

/-- The integral over both electrons as an integral of a product. -/
theorem G2_smear (g h : ℝ[X]) :
    G2 p q P Q c g h * √(π / (4 * c)) = ∫ t, smear p P c g t * smear q Q c h t := by
  have := integral_integral_swap (kern_integrable hp hq hc P Q g h)
  simp only [kern_inner hp hq hc P Q g h] at this
  rw [← this]
  unfold G2
  rw [← integral_mul_const]
  congr 1
  funext z
  simp only [kern_eq]
  rw [integral_const_mul, integral_gw]

end

theorem G2_nonneg {p c : ℝ} (hp : 0 < p) (hc : 0 < c) (P : ℝ) (g : ℝ[X]) : 0 ≤ G2 p p P P c g g := by
  have h := G2_smear hp hp hc P P g g
  have h0 : 0 ≤ ∫ t, smear p P c g t * smear p P c g t := integral_nonneg fun t => mul_self_nonneg _
  rw [← h] at h0
  exact nonneg_of_mul_nonneg_left h0 (by positivity)

theorem G2_schwarz {p q c : ℝ} (hp : 0 < p) (hq : 0 < q) (hc : 0 < c) (P Q : ℝ) (g h : ℝ[X]) :
    G2 p q P Q c g h ^ 2 ≤ G2 p p P P c g g * G2 q q Q Q c h h := by
  have hs : 0 < √(π / (4 * c)) := by positivity
  have key := integral_schwarz (smear_integrable hp hp hc P P g g) (smear_integrable hq hq hc Q Q h h)
    (smear_integrable hp hq hc P Q g h) (Eventually.of_forall fun t r => by
      nlinarith [sq_nonneg (smear p P c g t * r + smear q Q c h t)])
  rw [← G2_smear hp hq hc, ← G2_smear hp hp hc, ← G2_smear hq hq hc] at key
  have : (G2 p q P Q c g h ^ 2) * √(π / (4 * c)) ^ 2 ≤
      (G2 p p P P c g g * G2 q q Q Q c h h) * √(π / (4 * c)) ^ 2 := by
    calc _ = (G2 p q P Q c g h * √(π / (4 * c))) ^ 2 := by ring
      _ ≤ _ := key
      _ = _ := by ring
  exact le_of_mul_le_mul_right this (by positivity)

/-! ## Three directions and the integral over the coupling -/

section
variable {α β γ δ : ℝ} (hα : 0 < α) (hβ : 0 < β) (hγ : 0 < γ) (hδ : 0 < δ) (A B C D : Dir → ℝ)

theorem prod3_self_nonneg (a b : Exp) {u : ℝ} (hu : 0 < u) :
    0 ≤ (pairsOf hα hβ hα hβ A B A B).prod3 a b a b u := by
  have h2 : 0 < u ^ 2 := by positivity
  have hp : 0 < α + β := by positivity
  refine mul_nonneg (mul_nonneg ?_ ?_) ?_
  · exact G2_nonneg hp h2 _ _
  · exact G2_nonneg hp h2 _ _
  · exact G2_nonneg hp h2 _ _

theorem prod3_schwarz (a b c d : Exp) {u : ℝ} (hu : 0 < u) :
    (pairsOf hα hβ hγ hδ A B C D).prod3 a b c d u ^ 2 ≤
      (pairsOf hα hβ hα hβ A B A B).prod3 a b a b u *
        (pairsOf hγ hδ hγ hδ C D C D).prod3 c d c d u := by
  have h2 : 0 < u ^ 2 := by positivity
  have hp : 0 < α + β := by positivity
  have hq : 0 < γ + δ := by positivity
  have key : ∀ i : Dir, ∀ (k l m n : ℤ), (pairsOf hα hβ hγ hδ A B C D).d1 i k l m n u ^ 2 ≤
      (pairsOf hα hβ hα hβ A B A B).d1 i k l k l u * (pairsOf hγ hδ hγ hδ C D C D).d1 i m n m n u :=
    fun i k l m n => G2_schwarz hp hq h2 _ _ _ _
  unfold Pairs.prod3
  set X := (pairsOf hα hβ hγ hδ A B C D).d1 .x a.x b.x c.x d.x u
  set Y := (pairsOf hα hβ hγ hδ A B C D).d1 .y a.y b.y c.y d.y u
  set Z := (pairsOf hα hβ hγ hδ A B C D).d1 .z a.z b.z c.z d.z u
  calc (X * Y * Z) ^ 2 = X ^ 2 * Y ^ 2 * Z ^ 2 := by ring
    _ ≤ _ := mul_le_mul (mul_le_mul (key .x _ _ _ _) (key .y _ _ _ _) (sq_nonneg _)
        ((sq_nonneg _).trans (key .x _ _ _ _))) (key .z _ _ _ _) (sq_nonneg _)
        (mul_nonneg ((sq_nonneg _).trans (key .x _ _ _ _)) ((sq_nonneg _).trans (key .y _ _ _ _)))
    _ = _ := by ring

theorem int_prod3_schwarz (a b c d : Exp) :
    (∫ u in Ioi (0 : ℝ), (pairsOf hα hβ hγ hδ A B C D).prod3 a b c d u) ^ 2 ≤
      (∫ u in Ioi (0 : ℝ), (pairsOf hα hβ hα hβ A B A B).prod3 a b a b u) *
        ∫ u in Ioi (0 : ℝ), (pairsOf hγ hδ hγ hδ C D C D).prod3 c d c d u := by
  have hi : ∀ (G : Pairs) a b c d, IntegrableOn (G.prod3 a b c d) (Ioi 0) := fun G a b c d => by
    simpa using G.eri_integrable 0 a b c d
  refine integral_schwarz (hi _ _ _ _ _) (hi _ _ _ _ _) (hi _ _ _ _ _) ?_
  refine (ae_restrict_iff' measurableSet_Ioi).2 (Eventually.of_forall fun u hu t => ?_)
  exact quad_nonneg (prod3_self_nonneg hα hβ A B a b hu) (prod3_self_nonneg hγ hδ C D c d hu)
    (prod3_schwarz hα hβ hγ hδ A B C D a b c d hu) t

theorem coulomb_eq (a b c d : Exp) : coulomb α β γ δ A B C D a b c d =
    2 / √π * exp (-(α * β / (α + β)) * dist2 A B) * exp (-(γ * δ / (γ + δ)) * dist2 C D) *
      ∫ u in Ioi (0 : ℝ), (pairsOf hα hβ hγ hδ A B C D).prod3 a b c d u := by
  rw [← C20_coulomb hα hβ hγ hδ, Pairs.eri_eq]
  simp

include hα hβ hγ hδ in
theorem coulomb_schwarz (a b c d : Exp) :
    coulomb α β γ δ A B C D a b c d ^ 2 ≤
      coulomb α β α β A B A B a b a b * coulomb γ δ γ δ C D C D c d c d := by
  rw [coulomb_eq hα hβ hγ hδ, coulomb_eq hα hβ hα hβ, coulomb_eq hγ hδ hγ hδ]
  have h := int_prod3_schwarz hα hβ hγ hδ A B C D a b c d
  set K1 := exp (-(α * β / (α + β)) * dist2 A B)
  set K2 := exp (-(γ * δ / (γ + δ)) * dist2 C D)
  calc _ = (2 / √π * K1 * K2) ^ 2 *
        (∫ u in Ioi (0 : ℝ), (pairsOf hα hβ hγ hδ A B C D).prod3 a b c d u) ^ 2 := by ring
    _ ≤ _ := mul_le_mul_of_nonneg_left h (sq_nonneg _)
    _ = _ := by ring

include hα hβ in
theorem coulomb_self_nonneg (a b : Exp) : 0 ≤ coulomb α β α β A B A B a b a b := by
  rw [coulomb_eq hα hβ hα hβ]
  refine mul_nonneg (by positivity) (setIntegral_nonneg measurableSet_Ioi fun u hu => ?_)
  exact prod3_self_nonneg hα hβ A B a b hu

end

end Simint
