import Verif.OneElGauss

/-!
# Gaussian pairs and a point charge (analysis lemmas)

`N1` integrates a polynomial with a Gaussian pair and `exp (-s (x-C)^2)`; `1/|r-C|` is an integral of
such factors over `u` with `s = u^2`.
-/

set_option autoImplicit false

open MeasureTheory Polynomial Real Set Filter

namespace Simint

/-- One direction. -/
noncomputable def N1 (p P C s : ℝ) (g : ℝ[X]) : ℝ := ∫ x, g.eval x * (gw p P x * gw s C x)

section
variable {p : ℝ} (hp : 0 < p) (P C : ℝ) {s : ℝ} (hs : 0 ≤ s)
include hp hs

theorem gw_point (x : ℝ) : gw p P x * gw s C x =
    exp (-(p * s / (p + s)) * (P - C) ^ 2) * gw (p + s) ((p * P + s * C) / (p + s)) x := by
  have : p + s ≠ 0 := by positivity
  unfold gw
  rw [← exp_add, ← exp_add]
  congr 1
  field_simp
  ring

theorem N1_eq (g : ℝ[X]) : N1 p P C s g =
    exp (-(p * s / (p + s)) * (P - C) ^ 2) * G1 (p + s) ((p * P + s * C) / (p + s)) g := by
  unfold N1 G1
  rw [← integral_const_mul]
  congr 1; ext x
  rw [gw_point hp P C hs]; ring

theorem N1_integrable (g : ℝ[X]) : Integrable fun x => g.eval x * (gw p P x * gw s C x) := by
  refine ((integrable_poly_gw (b := p + s) (by positivity) ((p * P + s * C) / (p + s)) g).const_mul
    (exp (-(p * s / (p + s)) * (P - C) ^ 2))).congr (Eventually.of_forall fun x => ?_)
  simp only [gw_point hp P C hs]; ring

theorem N1_add (g h : ℝ[X]) : N1 p P C s (g + h) = N1 p P C s g + N1 p P C s h := by
  simp only [N1_eq hp P C hs, G1_add (show 0 < p + s by positivity)]; ring

theorem N1_C (c : ℝ) (g : ℝ[X]) : N1 p P C s (Polynomial.C c * g) = c * N1 p P C s g := by
  simp only [N1_eq hp P C hs, G1_C_mul]; ring

theorem N1_one : N1 p P C s 1 = √(π / (p + s)) * exp (-(p * s / (p + s)) * (P - C) ^ 2) := by
  rw [N1_eq hp P C hs, G1_one]; ring

theorem N1_center (D : ℝ) (g : ℝ[X]) : N1 p P C s ((X - Polynomial.C D) * g) =
    (P - D) * N1 p P C s g - (P - C) * (s / (p + s) * N1 p P C s g) +
      1 / 2 * (1 / p) * (N1 p P C s (derivative g) - s / (p + s) * N1 p P C s (derivative g)) := by
  have hps : 0 < p + s := by positivity
  simp only [N1_eq hp P C hs]
  set Q := (p * P + s * C) / (p + s) with hQ
  have e : (X - Polynomial.C D) * g = (X - Polynomial.C Q) * g + Polynomial.C (Q - D) * g := by
    rw [Polynomial.C_sub]; ring
  have hc : G1 (p + s) Q ((X - Polynomial.C Q) * g) = 1 / (2 * (p + s)) * G1 (p + s) Q (derivative g) := by
    rw [G1_deriv hps]; field_simp
  rw [e, G1_add hps, G1_C_mul, hc, hQ]
  field_simp
  ring

omit hs in
theorem N1_bound (g : ℝ[X]) : ∃ K, 0 ≤ K ∧ ∀ s, 0 ≤ s → |N1 p P C s g| ≤ K := by
  refine ⟨∫ x, ‖g.eval x * gw p P x‖, integral_nonneg fun _ => norm_nonneg _, fun s hs => ?_⟩
  unfold N1
  rw [← Real.norm_eq_abs]
  refine (norm_integral_le_integral_norm _).trans ?_
  refine integral_mono (N1_integrable hp P C hs g).norm (integrable_poly_gw hp P g).norm fun x => ?_
  simp only
  rw [← mul_assoc, norm_mul]
  refine mul_le_of_le_one_right (norm_nonneg _) ?_
  rw [Real.norm_eq_abs, abs_of_pos (gw_pos _ _ _)]
  exact exp_neg_mul_sq_le_one hs _

omit hs in
theorem N1_decay (g : ℝ[X]) : ∃ K, 0 ≤ K ∧ ∀ u, 0 < u → |N1 p P C (u ^ 2) g| * u ≤ K := by
  obtain ⟨K, hK⟩ := bounded_poly_gw hp P g
  have hK0 : 0 ≤ K := (abs_nonneg _).trans (hK 0)
  refine ⟨K * √π, by positivity, fun u hu => ?_⟩
  have hle : |N1 p P C (u ^ 2) g| ≤ K * √(π / u ^ 2) := by
    unfold N1
    rw [← Real.norm_eq_abs]
    refine (norm_integral_le_integral_norm _).trans ?_
    have hint : Integrable fun y => K * gw (u ^ 2) C y := by
      have := integrable_poly_gw (b := u ^ 2) (by positivity) C 1
      simp only [eval_one, one_mul] at this
      exact this.const_mul K
    refine (integral_mono (N1_integrable hp P C (by positivity) g).norm hint fun x => ?_).trans (le_of_eq ?_)
    · simp only
      rw [← mul_assoc, norm_mul, Real.norm_eq_abs (gw _ _ _), abs_of_pos (gw_pos _ _ _)]
      exact mul_le_mul_of_nonneg_right (hK x) (gw_pos _ _ _).le
    · rw [integral_const_mul, integral_gw]
  have hsq : √(π / u ^ 2) * u = √π := by
    rw [Real.sqrt_div pi_pos.le, Real.sqrt_sq hu.le]
    field_simp
  calc |N1 p P C (u ^ 2) g| * u ≤ K * √(π / u ^ 2) * u := mul_le_mul_of_nonneg_right hle hu.le
    _ = K * (√(π / u ^ 2) * u) := by ring
    _ = _ := by rw [hsq]

omit hs in
theorem N1_decay' (g : ℝ[X]) : ∃ K, 0 ≤ K ∧ ∀ u, 0 < u → |N1 p P C (u ^ 2) g| ≤ K / (1 + u) := by
  obtain ⟨K1, h10, h1⟩ := N1_bound hp P C g
  obtain ⟨K2, h20, h2⟩ := N1_decay hp P C g
  refine ⟨K1 + K2, by positivity, fun u hu => ?_⟩
  rw [le_div_iff₀ (by positivity), mul_add, mul_one]
  exact add_le_add (h1 _ (by positivity)) (h2 u hu)

omit hp hs in
theorem N1_measurable (g : ℝ[X]) : StronglyMeasurable fun u : ℝ => N1 p P C (u ^ 2) g := by
  unfold N1
  have hc : Continuous fun w : ℝ × ℝ => g.eval w.2 * (gw p P w.2 * gw (w.1 ^ 2) C w.2) := by
    unfold gw
    exact (g.continuous.comp continuous_snd).mul (by fun_prop)
  exact hc.stronglyMeasurable.integral_prod_right'

omit hs in
theorem N1_three (P2 C2 P3 C3 : ℝ) (g1 g2 g3 : ℝ[X]) {φ : ℝ → ℝ} (hφ : StronglyMeasurable φ)
    (hφ1 : ∀ u, 0 < u → |φ u| ≤ 1) :
    IntegrableOn (fun u => φ u * (N1 p P C (u ^ 2) g1 * N1 p P2 C2 (u ^ 2) g2 *
      N1 p P3 C3 (u ^ 2) g3)) (Ioi 0) := by
  obtain ⟨K1, k1, b1⟩ := N1_bound hp P C g1
  obtain ⟨K2, k2, b2⟩ := N1_decay' hp P2 C2 g2
  obtain ⟨K3, k3, b3⟩ := N1_decay' hp P3 C3 g3
  have hI : IntegrableOn (fun u : ℝ => K1 * K2 * K3 * (1 + u ^ 2)⁻¹) (Ioi 0) :=
    (integrable_inv_one_add_sq.const_mul _).integrableOn
  refine Integrable.mono' hI ?_ ?_
  · exact (hφ.mul (((N1_measurable P C g1).mul (N1_measurable P2 C2 g2)).mul
      (N1_measurable P3 C3 g3))).aestronglyMeasurable
  · filter_upwards [ae_restrict_mem measurableSet_Ioi] with u hu
    have hu : 0 < u := hu
    rw [Real.norm_eq_abs, abs_mul, abs_mul, abs_mul]
    have c1 := b1 (u ^ 2) (by positivity)
    have c2 := b2 u hu
    have c3 := b3 u hu
    have c0 := hφ1 u hu
    have hle : (1 + u)⁻¹ * (1 + u)⁻¹ ≤ (1 + u ^ 2)⁻¹ := by
      rw [← mul_inv]
      apply inv_anti₀ (by positivity)
      nlinarith
    calc |φ u| * (|N1 p P C (u ^ 2) g1| * |N1 p P2 C2 (u ^ 2) g2| * |N1 p P3 C3 (u ^ 2) g3|)
        ≤ 1 * (K1 * (K2 / (1 + u)) * (K3 / (1 + u))) := by gcongr
      _ = K1 * K2 * K3 * ((1 + u)⁻¹ * (1 + u)⁻¹) := by rw [div_eq_mul_inv, div_eq_mul_inv]; ring
      _ ≤ _ := by gcongr

end

/-! ## Auxiliary integrals of a pair and a point charge -/

/-- Exponent and centers of a pair, and the position of the charge. -/
structure NucPair where
  p : ℝ
  P : Dir → ℝ
  A : Dir → ℝ
  B : Dir → ℝ
  C : Dir → ℝ
  hp : 0 < p

namespace NucPair
variable (G : NucPair)

noncomputable def tau (u : ℝ) : ℝ := u ^ 2 / (G.p + u ^ 2)

theorem tau_le (u : ℝ) : |G.tau u| ≤ 1 := by
  have := G.hp
  unfold tau
  rw [abs_of_nonneg (by positivity), div_le_one (by positivity)]
  linarith

theorem tau_continuous : Continuous G.tau := by
  have := G.hp
  unfold tau
  exact (continuous_id.pow 2).div (continuous_const.add (continuous_id.pow 2)) fun u => by
    have : 0 < G.p + u ^ 2 := by positivity
    exact this.ne'

noncomputable def d1 (i : Dir) (a b : ℤ) (u : ℝ) : ℝ :=
  N1 G.p (G.P i) (G.C i) (u ^ 2) (pw (G.A i) (G.B i) a b)

noncomputable def prod3 (a b : Exp) (u : ℝ) : ℝ :=
  G.d1 .x a.x b.x u * G.d1 .y a.y b.y u * G.d1 .z a.z b.z u

/-- Auxiliary nuclear attraction integral of order `n`, times a factor. -/
noncomputable def nuc (K : ℝ) (n : ℕ) (a b : Exp) : ℝ :=
  K * ∫ u in Ioi 0, G.tau u ^ n * G.prod3 a b u

theorem nuc_integrable (n : ℕ) (a b : Exp) :
    IntegrableOn (fun u => G.tau u ^ n * G.prod3 a b u) (Ioi 0) := by
  refine N1_three G.hp _ _ _ _ _ _ _ _ _ (G.tau_continuous.pow n).stronglyMeasurable fun u _ => ?_
  rw [abs_pow]
  exact pow_le_one₀ (abs_nonneg _) (G.tau_le u)

theorem nuc_lin (K : ℝ) {k : ℕ} (co : Fin k → ℝ) (nn : Fin k → ℕ) (aa bb : Fin k → Exp) (n : ℕ)
    (a b : Exp) (h : ∀ u, G.tau u ^ n * G.prod3 a b u =
      ∑ j, co j * (G.tau u ^ nn j * G.prod3 (aa j) (bb j) u)) :
    G.nuc K n a b = ∑ j, co j * G.nuc K (nn j) (aa j) (bb j) := by
  simp only [nuc, h]
  rw [integral_finsetSum _ fun j _ => (G.nuc_integrable _ _ _).const_mul _, Finset.mul_sum]
  refine Finset.sum_congr rfl fun j _ => ?_
  rw [integral_const_mul]; ring

theorem d1_left (i : Dir) {a b : ℤ} (ha : 0 ≤ a) (hb : 0 ≤ b) (u : ℝ) :
    G.d1 i (a + 1) b u = (G.P i - G.A i) * G.d1 i a b u - (G.P i - G.C i) * (G.tau u * G.d1 i a b u)
      + 1 / 2 * (1 / G.p) * (a : ℝ) * (G.d1 i (a - 1) b u - G.tau u * G.d1 i (a - 1) b u)
      + 1 / 2 * (1 / G.p) * (b : ℝ) * (G.d1 i a (b - 1) u - G.tau u * G.d1 i a (b - 1) u) := by
  have hs : (0 : ℝ) ≤ u ^ 2 := by positivity
  unfold d1
  rw [pw_succ_left _ _ _ ha, N1_center G.hp _ _ hs, pw_deriv _ _ ha hb, N1_add G.hp _ _ hs,
    N1_C G.hp _ _ hs, N1_C G.hp _ _ hs]
  unfold tau
  ring

def swap : NucPair := { G with A := G.B, B := G.A }

theorem d1_swap (i : Dir) (a b : ℤ) (u : ℝ) : G.d1 i a b u = G.swap.d1 i b a u := by
  simp only [d1, swap, pw_comm (G.A i)]

theorem d1_right (i : Dir) {a b : ℤ} (ha : 0 ≤ a) (hb : 0 ≤ b) (u : ℝ) :
    G.d1 i a (b + 1) u = (G.P i - G.B i) * G.d1 i a b u - (G.P i - G.C i) * (G.tau u * G.d1 i a b u)
      + 1 / 2 * (1 / G.p) * (a : ℝ) * (G.d1 i (a - 1) b u - G.tau u * G.d1 i (a - 1) b u)
      + 1 / 2 * (1 / G.p) * (b : ℝ) * (G.d1 i a (b - 1) u - G.tau u * G.d1 i a (b - 1) u) := by
  have h := G.swap.d1_left i hb ha u
  simp only [← d1_swap] at h
  rw [h]
  simp only [tau, swap]
  ring

/-- Recurrence on the first center. -/
theorem nuc_left (K : ℝ) (n : ℕ) {a b : Exp} (i : Dir) (ha : a.Valid) (hb : b.Valid) :
    G.nuc K n (a.step i 1) b = (G.P i - G.A i) * G.nuc K n a b - (G.P i - G.C i) * G.nuc K (n + 1) a b
      + 1 / 2 * (1 / G.p) * (a.get i : ℝ) *
        (G.nuc K n (a.step i (-1)) b - G.nuc K (n + 1) (a.step i (-1)) b)
      + 1 / 2 * (1 / G.p) * (b.get i : ℝ) *
        (G.nuc K n a (b.step i (-1)) - G.nuc K (n + 1) a (b.step i (-1))) := by
  have := G.nuc_lin K
    ![G.P i - G.A i, -(G.P i - G.C i), 1 / 2 * (1 / G.p) * (a.get i : ℝ),
      -(1 / 2 * (1 / G.p) * (a.get i : ℝ)), 1 / 2 * (1 / G.p) * (b.get i : ℝ),
      -(1 / 2 * (1 / G.p) * (b.get i : ℝ))]
    ![n, n + 1, n, n + 1, n, n + 1] ![a, a, a.step i (-1), a.step i (-1), a, a]
    ![b, b, b, b, b.step i (-1), b.step i (-1)] n (a.step i 1) b (by
      intro u
      simp only [Fin.sum_univ_six, Matrix.cons_val, pow_succ]
      cases i <;>
      simp only [prod3, Exp.step, Exp.get, ← sub_eq_add_neg] <;>
      first
      | rw [G.d1_left .x ha.1 hb.1]; ring
      | rw [G.d1_left .y ha.2.1 hb.2.1]; ring
      | rw [G.d1_left .z ha.2.2 hb.2.2]; ring)
  simp only [Fin.sum_univ_six, Matrix.cons_val] at this
  rw [this]; ring

/-- Recurrence on the second center. -/
theorem nuc_right (K : ℝ) (n : ℕ) {a b : Exp} (i : Dir) (ha : a.Valid) (hb : b.Valid) :
    G.nuc K n a (b.step i 1) = (G.P i - G.B i) * G.nuc K n a b - (G.P i - G.C i) * G.nuc K (n + 1) a b
      + 1 / 2 * (1 / G.p) * (a.get i : ℝ) *
        (G.nuc K n (a.step i (-1)) b - G.nuc K (n + 1) (a.step i (-1)) b)
      + 1 / 2 * (1 / G.p) * (b.get i : ℝ) *
        (G.nuc K n a (b.step i (-1)) - G.nuc K (n + 1) a (b.step i (-1))) := by
  have := G.nuc_lin K
    ![G.P i - G.B i, -(G.P i - G.C i), 1 / 2 * (1 / G.p) * (a.get i : ℝ),
      -(1 / 2 * (1 / G.p) * (a.get i : ℝ)), 1 / 2 * (1 / G.p) * (b.get i : ℝ),
      -(1 / 2 * (1 / G.p) * (b.get i : ℝ))]
    ![n, n + 1, n, n + 1, n, n + 1] ![a, a, a.step i (-1), a.step i (-1), a, a]
    ![b, b, b, b, b.step i (-1), b.step i (-1)] n a (b.step i 1) (by
      intro u
      simp only [Fin.sum_univ_six, Matrix.cons_val, pow_succ]
      cases i <;>
      simp only [prod3, Exp.step, Exp.get, ← sub_eq_add_neg] <;>
      first
      | rw [G.d1_right .x ha.1 hb.1]; ring
      | rw [G.d1_right .y ha.2.1 hb.2.1]; ring
      | rw [G.d1_right .z ha.2.2 hb.2.2]; ring)
  simp only [Fin.sum_univ_six, Matrix.cons_val] at this
  rw [this]; ring

/-- Start values. -/
theorem nuc_start (K : ℝ) (n : ℕ) : G.nuc K n ⟨0, 0, 0⟩ ⟨0, 0, 0⟩ =
    K * (π * √π) / G.p * boysF n (dist2 G.P G.C * G.p) := by
  have hp := G.hp
  have e0 : ∀ A B : ℝ, pw A B 0 0 = 1 := fun A B => by simp [pw]
  have h1 : ∀ u, G.tau u ^ n * G.prod3 ⟨0, 0, 0⟩ ⟨0, 0, 0⟩ u = π * √π *
      ((u ^ 2 / (G.p + u ^ 2)) ^ n * (1 / ((G.p + u ^ 2) * √(G.p + u ^ 2)) *
        exp (-(dist2 G.P G.C * G.p) * (u ^ 2 / (G.p + u ^ 2))))) := by
    intro u
    have hs : (0 : ℝ) ≤ u ^ 2 := by positivity
    have hpu : 0 < G.p + u ^ 2 := by positivity
    simp only [prod3, d1, e0, N1_one hp _ _ hs]
    have e3 : exp (-(dist2 G.P G.C * G.p) * (u ^ 2 / (G.p + u ^ 2))) =
        exp (-(G.p * u ^ 2 / (G.p + u ^ 2)) * (G.P .x - G.C .x) ^ 2) *
        exp (-(G.p * u ^ 2 / (G.p + u ^ 2)) * (G.P .y - G.C .y) ^ 2) *
        exp (-(G.p * u ^ 2 / (G.p + u ^ 2)) * (G.P .z - G.C .z) ^ 2) := by
      rw [← exp_add, ← exp_add]
      congr 1
      unfold dist2
      ring
    rw [e3, Real.sqrt_div pi_pos.le]
    have e4 : √(G.p + u ^ 2) * √(G.p + u ^ 2) = G.p + u ^ 2 := Real.mul_self_sqrt hpu.le
    have e5 : √π * √π = π := Real.mul_self_sqrt pi_pos.le
    have e6 : √(G.p + u ^ 2) ≠ 0 := (Real.sqrt_pos.2 hpu).ne'
    have e7 : √π / √(G.p + u ^ 2) * (√π / √(G.p + u ^ 2)) = π / (G.p + u ^ 2) := by
      rw [div_mul_div_comm, e4, e5]
    unfold tau
    calc _ = (u ^ 2 / (G.p + u ^ 2)) ^ n * ((√π / √(G.p + u ^ 2) * (√π / √(G.p + u ^ 2))) *
          (√π / √(G.p + u ^ 2)) *
          (exp (-(G.p * u ^ 2 / (G.p + u ^ 2)) * (G.P .x - G.C .x) ^ 2) *
        exp (-(G.p * u ^ 2 / (G.p + u ^ 2)) * (G.P .y - G.C .y) ^ 2) *
        exp (-(G.p * u ^ 2 / (G.p + u ^ 2)) * (G.P .z - G.C .z) ^ 2))) := by ring
      _ = _ := by rw [e7]; field_simp
  unfold nuc
  simp only [h1]
  rw [integral_const_mul, integral_tau hp]
  ring

end NucPair

/-! ## The integral over space -/

/-- Integrand of three coordinates and the coupling. -/
noncomputable def nbig (p : ℝ) (P C : Dir → ℝ) (g : Dir → ℝ[X]) (r : R3) (u : ℝ) : ℝ :=
  ((g .x).eval r.1 * (gw p (P .x) r.1 * gw (u ^ 2) (C .x) r.1)) *
  (((g .y).eval r.2.1 * (gw p (P .y) r.2.1 * gw (u ^ 2) (C .y) r.2.1)) *
   ((g .z).eval r.2.2 * (gw p (P .z) r.2.2 * gw (u ^ 2) (C .z) r.2.2)))

section
variable {p : ℝ} (hp : 0 < p) (P C : Dir → ℝ)

theorem nbig_integral (g : Dir → ℝ[X]) (u : ℝ) : ∫ r, nbig p P C g r u =
    N1 p (P .x) (C .x) (u ^ 2) (g .x) * (N1 p (P .y) (C .y) (u ^ 2) (g .y) *
      N1 p (P .z) (C .z) (u ^ 2) (g .z)) := by
  unfold nbig N1
  rw [← integral_prod_mul, ← integral_prod_mul]
  rfl

include hp in
theorem nbig_integrable_r (g : Dir → ℝ[X]) (u : ℝ) : Integrable fun r => nbig p P C g r u := by
  have hs : (0 : ℝ) ≤ u ^ 2 := by positivity
  exact (N1_integrable hp (P .x) (C .x) hs (g .x)).mul_prod
    ((N1_integrable hp (P .y) (C .y) hs (g .y)).mul_prod (N1_integrable hp (P .z) (C .z) hs (g .z)))

theorem nbig_continuous (g : Dir → ℝ[X]) : Continuous fun x : R3 × ℝ => nbig p P C g x.1 x.2 := by
  unfold nbig gw
  have c1 : ∀ (f : ℝ[X]) (k : R3 × ℝ → ℝ), Continuous k → Continuous fun x => f.eval (k x) :=
    fun f k hk => f.continuous.comp hk
  exact ((c1 _ _ (by fun_prop)).mul (by fun_prop)).mul
    (((c1 _ _ (by fun_prop)).mul (by fun_prop)).mul ((c1 _ _ (by fun_prop)).mul (by fun_prop)))

include hp in
theorem nbig_integrable_nonneg (g : Dir → ℝ[X]) (hg : ∀ i x, 0 ≤ (g i).eval x) :
    Integrable (fun x : R3 × ℝ => nbig p P C g x.1 x.2)
      ((volume : Measure R3).prod (volume.restrict (Ioi (0 : ℝ)))) := by
  rw [integrable_prod_iff' (nbig_continuous P C g).aestronglyMeasurable]
  refine ⟨Eventually.of_forall fun u => nbig_integrable_r hp P C g u, ?_⟩
  have hn : ∀ w u, ‖nbig p P C g w u‖ = nbig p P C g w u := by
    intro w u
    rw [Real.norm_eq_abs, abs_of_nonneg]
    have hw : ∀ P C s x, 0 ≤ gw p P x * gw s C x := fun P C s x => by unfold gw; positivity
    unfold nbig
    exact mul_nonneg (mul_nonneg (hg _ _) (hw _ _ _ _))
      (mul_nonneg (mul_nonneg (hg _ _) (hw _ _ _ _)) (mul_nonneg (hg _ _) (hw _ _ _ _)))
  simp only [hn, nbig_integral]
  have := N1_three hp (P .x) (C .x) (P .y) (C .y) (P .z) (C .z) (g .x) (g .y) (g .z)
    (φ := fun _ => 1) stronglyMeasurable_const (by simp)
  simp only [one_mul, mul_assoc] at this
  exact this

include hp in
theorem nbig_integrable (g : Dir → ℝ[X]) :
    Integrable (fun x : R3 × ℝ => nbig p P C g x.1 x.2)
      ((volume : Measure R3).prod (volume.restrict (Ioi (0 : ℝ)))) := by
  have hpos : ∀ (f : ℝ[X]) (x : ℝ), 0 ≤ (1 + f * f).eval x := fun f x => by
    simp only [eval_add, eval_one, eval_mul]
    nlinarith [mul_self_nonneg (f.eval x)]
  have h1 := nbig_integrable_nonneg hp P C (fun i => 1 + g i * g i) (fun i x => hpos _ x)
  refine h1.mono' (nbig_continuous P C g).aestronglyMeasurable (Eventually.of_forall fun x => ?_)
  have hb : ∀ (f : ℝ[X]) (x : ℝ), |f.eval x| ≤ (1 + f * f).eval x := fun f x => by
    simp only [eval_add, eval_one, eval_mul]
    rw [abs_le]
    constructor <;> nlinarith [sq_nonneg (f.eval x - 1), sq_nonneg (f.eval x + 1)]
  have hw : ∀ P C s x, 0 ≤ gw p P x * gw s C x := fun P C s x => by unfold gw; positivity
  have f3 : ∀ (g : ℝ[X]) (x v : ℝ), 0 ≤ v → |g.eval x * v| ≤ (1 + g * g).eval x * v :=
    fun g x v hv => by
      rw [abs_mul, abs_of_nonneg hv]
      exact mul_le_mul_of_nonneg_right (hb _ _) hv
  simp only [nbig, Real.norm_eq_abs]
  rw [abs_mul, abs_mul ((g .y).eval _ * _)]
  refine mul_le_mul (f3 _ _ _ (hw _ _ _ _)) (mul_le_mul (f3 _ _ _ (hw _ _ _ _))
    (f3 _ _ _ (hw _ _ _ _)) (abs_nonneg _) ?_) (mul_nonneg (abs_nonneg _) (abs_nonneg _)) ?_
  · exact mul_nonneg (hpos _ _) (hw _ _ _ _)
  · exact mul_nonneg (hpos _ _) (hw _ _ _ _)

end

/-- The pair of two primitives and a charge. -/
noncomputable def nucOf {α β : ℝ} (hα : 0 < α) (hβ : 0 < β) (A B C : Dir → ℝ) : NucPair where
  p := α + β
  P := fun i => (α * A i + β * B i) / (α + β)
  A := A
  B := B
  C := C
  hp := by positivity

section
variable {α β : ℝ} (hα : 0 < α) (hβ : 0 < β) (A B C : Dir → ℝ) (a b : Exp)

include hα hβ in
theorem nuc_pointwise (r : R3) :
    2 / √π * exp (-(α * β / (α + β)) * dist2 A B) *
      ∫ u in Ioi (0 : ℝ), nbig (α + β) (fun i => (α * A i + β * B i) / (α + β)) C
        (fun i => pw (A i) (B i) (a.get i) (b.get i)) r u =
    primG α A a r.dir * primG β B b r.dir / √(dist2 r.dir C) := by
  set P : Dir → ℝ := fun i => (α * A i + β * B i) / (α + β)
  set g : Dir → ℝ[X] := fun i => pw (A i) (B i) (a.get i) (b.get i)
  set K := exp (-(α * β / (α + β)) * dist2 A B)
  have e : ∀ u, nbig (α + β) P C g r u =
      nbig (α + β) P C g r 0 * exp (-(dist2 r.dir C) * u ^ 2) := by
    intro u
    have : exp (-(dist2 r.dir C) * u ^ 2) = exp (-u ^ 2 * (r.1 - C .x) ^ 2) *
        exp (-u ^ 2 * (r.2.1 - C .y) ^ 2) * exp (-u ^ 2 * (r.2.2 - C .z) ^ 2) := by
      rw [← exp_add, ← exp_add]
      congr 1
      simp only [dist2, R3.dir]; ring
    rw [this]
    simp only [nbig, gw, ne_eq, OfNat.ofNat_ne_zero, not_false_eq_true, zero_pow, neg_zero, zero_mul,
      exp_zero, mul_one]
    ring
  have e3 : nbig (α + β) P C g r 0 =
      ((g .x).eval r.1 * gw (α + β) (P .x) r.1) * ((g .y).eval r.2.1 * gw (α + β) (P .y) r.2.1) *
        ((g .z).eval r.2.2 * gw (α + β) (P .z) r.2.2) := by
    have h0 : ∀ C x : ℝ, gw 0 C x = 1 := fun C x => by simp [gw]
    simp only [nbig, ne_eq, OfNat.ofNat_ne_zero, not_false_eq_true, zero_pow, h0, mul_one]
    ring
  rw [setIntegral_congr_fun measurableSet_Ioi fun u _ => e u, integral_const_mul,
    integral_gaussian_Ioi, Real.sqrt_div pi_pos.le, primG_product hα hβ, e3]
  show _ = K * (((g .x).eval r.1 * gw (α + β) (P .x) r.1) * ((g .y).eval r.2.1 * gw (α + β) (P .y) r.2.1) *
        ((g .z).eval r.2.2 * gw (α + β) (P .z) r.2.2)) / _
  have hpi : √π ≠ 0 := (Real.sqrt_pos.2 pi_pos).ne'
  have e2 : 2 / √π * (√π / 2) = 1 := by field_simp
  generalize ((g .x).eval r.1 * gw (α + β) (P .x) r.1) * ((g .y).eval r.2.1 * gw (α + β) (P .y) r.2.1) *
        ((g .z).eval r.2.2 * gw (α + β) (P .z) r.2.2) = E
  generalize √(dist2 r.dir C) = R
  linear_combination (K * E / R) * e2

include hα hβ in
theorem nuclear_integrable : Integrable fun r : R3 =>
    primG α A a r.dir * primG β B b r.dir / √(dist2 r.dir C) := by
  have hint := nbig_integrable (nucOf hα hβ A B C).hp (nucOf hα hβ A B C).P C
    (fun i => pw (A i) (B i) (a.get i) (b.get i))
  have h1 := hint.integral_prod_left.const_mul (2 / √π * exp (-(α * β / (α + β)) * dist2 A B))
  refine h1.congr (Eventually.of_forall fun r => ?_)
  exact nuc_pointwise hα hβ A B C a b r

/-- The auxiliary integral of order zero is the nuclear attraction integral. -/
theorem nuc_integral : (nucOf hα hβ A B C).nuc (2 / √π * exp (-(α * β / (α + β)) * dist2 A B)) 0 a b =
    ∫ r : R3, primG α A a r.dir * primG β B b r.dir / √(dist2 r.dir C) := by
  set G := nucOf hα hβ A B C with hG
  set K := exp (-(α * β / (α + β)) * dist2 A B)
  set g : Dir → ℝ[X] := fun i => pw (A i) (B i) (a.get i) (b.get i)
  have hsw := integral_integral_swap (f := nbig G.p G.P C g) (nbig_integrable G.hp G.P C g)
  have hl : G.nuc (2 / √π * K) 0 a b =
      2 / √π * K * ∫ u in Ioi (0 : ℝ), ∫ r, nbig G.p G.P C g r u := by
    unfold NucPair.nuc
    simp only [nbig_integral, pow_zero, one_mul, NucPair.prod3, NucPair.d1, mul_assoc]
    rfl
  rw [hl, ← hsw, ← integral_const_mul]
  congr 1
  ext r
  exact nuc_pointwise hα hβ A B C a b r

end

end Simint
