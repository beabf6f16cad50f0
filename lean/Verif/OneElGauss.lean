import Verif.Spec.OneEl
import Verif.Props.RealIntegrals

/-! Analysis lemmas for the one-electron integrals. -/

set_option autoImplicit false

open MeasureTheory Polynomial Real Set Filter

namespace Simint

/-- `(x - A)^i (x - B)^j`. -/
noncomputable def pn (A B : ℝ) (i j : ℕ) : ℝ[X] := (X - C A) ^ i * (X - C B) ^ j

theorem pn_succ_left (A B : ℝ) (i j : ℕ) : pn A B (i + 1) j = (X - C A) * pn A B i j := by
  unfold pn; ring

theorem pn_succ_right (A B : ℝ) (i j : ℕ) : pn A B i (j + 1) = (X - C B) * pn A B i j := by
  unfold pn; ring

theorem pn_deriv (A B : ℝ) (i j : ℕ) :
    derivative (pn A B i j) = C (i : ℝ) * pn A B (i - 1) j + C (j : ℝ) * pn A B i (j - 1) := by
  unfold pn
  rw [derivative_mul, derivative_X_sub_C_pow, derivative_X_sub_C_pow]
  simp only [map_natCast]
  ring

/-- Derivative of a polynomial times `exp (-α (x-A)^2)`, as polynomial. -/
noncomputable def dG (α A : ℝ) (g : ℝ[X]) : ℝ[X] := derivative g - C (2 * α) * ((X - C A) * g)

theorem dG_hasDerivAt (α A : ℝ) (g : ℝ[X]) (x : ℝ) :
    HasDerivAt (fun x => g.eval x * gw α A x) ((dG α A g).eval x * gw α A x) x := by
  refine ((g.hasDerivAt x).mul (gw_hasDerivAt α A x)).congr_deriv ?_
  simp only [dG, eval_sub, eval_mul, eval_C, eval_X]; ring

theorem dG_second (α A : ℝ) (g : ℝ[X]) (x : ℝ) :
    iteratedDeriv 2 (fun x => g.eval x * gw α A x) x = (dG α A (dG α A g)).eval x * gw α A x := by
  have h1 : deriv (fun x => g.eval x * gw α A x) = fun x => (dG α A g).eval x * gw α A x :=
    funext fun x => (dG_hasDerivAt α A g x).deriv
  rw [iteratedDeriv_succ, iteratedDeriv_one, h1, (dG_hasDerivAt α A _ x).deriv]

theorem gauss1_eq (α A : ℝ) (n : ℕ) : gauss1 α A n = fun x => ((X - C A) ^ n : ℝ[X]).eval x * gw α A x := by
  funext x; simp [gauss1, gw]

section
variable {α β : ℝ} (hα : 0 < α) (hβ : 0 < β) (A B : ℝ)

/-- Integral of two polynomials times the two Gaussians. -/
noncomputable def L2 (α β A B : ℝ) (g h : ℝ[X]) : ℝ := ∫ x, (g.eval x * gw α A x) * (h.eval x * gw β B x)

include hα hβ

theorem L2_eq (g h : ℝ[X]) : L2 α β A B g h =
    exp (-(α * β / (α + β)) * (A - B) ^ 2) * G1 (α + β) ((α * A + β * B) / (α + β)) (g * h) := by
  unfold L2 G1
  rw [← integral_const_mul]
  congr 1; ext x
  have := gauss_product hα hβ A B x
  rw [eval_mul]
  calc _ = g.eval x * h.eval x * (exp (-α * (x - A) ^ 2) * exp (-β * (x - B) ^ 2)) := by unfold gw; ring
    _ = _ := by rw [this]; ring

theorem L2_integrable (g h : ℝ[X]) :
    Integrable fun x => (g.eval x * gw α A x) * (h.eval x * gw β B x) := by
  refine ((integrable_poly_gw (b := α + β) (by positivity) ((α * A + β * B) / (α + β)) (g * h)).const_mul
    (exp (-(α * β / (α + β)) * (A - B) ^ 2))).congr (Eventually.of_forall fun x => ?_)
  have := gauss_product hα hβ A B x
  simp only [eval_mul]
  calc _ = g.eval x * h.eval x * (exp (-(α * β / (α + β)) * (A - B) ^ 2) *
        gw (α + β) ((α * A + β * B) / (α + β)) x) := by ring
    _ = _ := by rw [← this]; unfold gw; ring

theorem G1_center (P : ℝ) {p : ℝ} (hp : 0 < p) (g : ℝ[X]) :
    G1 p P ((X - C P) * g) = 1 / (2 * p) * G1 p P (derivative g) := by
  rw [G1_deriv hp]; field_simp

/-- Shift of a factor `x - A` or `x - B`. -/
theorem L2_center (D : ℝ) (g h : ℝ[X]) :
    L2 α β A B ((X - C D) * g) h = ((α * A + β * B) / (α + β) - D) * L2 α β A B g h +
      1 / (2 * (α + β)) * (L2 α β A B (derivative g) h + L2 α β A B g (derivative h)) := by
  have hp : 0 < α + β := by positivity
  simp only [L2_eq hα hβ]
  set P := (α * A + β * B) / (α + β)
  have e : (X - C D) * g * h = (X - C P) * (g * h) + C (P - D) * (g * h) := by
    rw [Polynomial.C_sub]; ring
  rw [e, G1_add hp, G1_center hα hβ P hp, G1_C_mul, derivative_mul, G1_add hp]
  ring

theorem L2_comm (g h : ℝ[X]) : L2 α β A B g h = L2 β α B A h g := by
  unfold L2; congr 1; ext x; ring

theorem L2_add (g g' h : ℝ[X]) : L2 α β A B (g + g') h = L2 α β A B g h + L2 α β A B g' h := by
  simp only [L2_eq hα hβ, add_mul, G1_add (show 0 < α + β by positivity)]; ring

theorem L2_C (c : ℝ) (g h : ℝ[X]) : L2 α β A B (C c * g) h = c * L2 α β A B g h := by
  simp only [L2_eq hα hβ, mul_assoc, G1_C_mul]; ring

theorem L2_sub (g g' h : ℝ[X]) : L2 α β A B (g - g') h = L2 α β A B g h - L2 α β A B g' h := by
  simp only [L2_eq hα hβ, sub_mul, G1_sub (show 0 < α + β by positivity)]; ring

theorem L2_move (g h k : ℝ[X]) : L2 α β A B (g * h) k = L2 α β A B g (h * k) := by
  simp only [L2_eq hα hβ, mul_assoc]

/-- Integration by parts. -/
theorem L2_parts (g h : ℝ[X]) : L2 α β A B (dG α A g) h = -L2 α β A B g (dG β B h) := by
  have h1 := integral_eq_zero_of_hasDerivAt_of_integrable
    (f := fun x => (g.eval x * gw α A x) * (h.eval x * gw β B x))
    (f' := fun x => ((dG α A g).eval x * gw α A x) * (h.eval x * gw β B x) +
      (g.eval x * gw α A x) * ((dG β B h).eval x * gw β B x))
    (fun x => (dG_hasDerivAt α A g x).mul (dG_hasDerivAt β B h x))
    ((L2_integrable hα hβ A B _ h).add (L2_integrable hα hβ A B g _)) (L2_integrable hα hβ A B g h)
  rw [integral_add (L2_integrable hα hβ A B _ h) (L2_integrable hα hβ A B g _)] at h1
  unfold L2
  linarith

end

/-! ## Overlap recurrences -/

section
variable {α β : ℝ} (hα : 0 < α) (hβ : 0 < β) (A B : ℝ)

theorem ovl1_L2 (i j : ℕ) : ovl1 α A β B i j = L2 α β A B ((X - C A) ^ i) ((X - C B) ^ j) := by
  unfold ovl1 L2
  rw [gauss1_eq, gauss1_eq]

theorem ovl1_comm (i j : ℕ) : ovl1 α A β B i j = ovl1 β B α A j i := by
  unfold ovl1; congr 1; ext x; ring

include hα hβ

theorem ovl1_zero : ovl1 α A β B 0 0 =
    √(π * (1 / (α + β))) * exp (-(α * β * (1 / (α + β))) * ((A - B) * (A - B))) := by
  rw [ovl1_L2, L2_eq hα hβ]
  simp only [pow_zero, mul_one]
  rw [G1_one]
  rw [mul_comm, mul_one_div, mul_one_div, sq]

theorem ovl1_succ_left (i j : ℕ) : ovl1 α A β B (i + 1) j =
    ((α * A + β * B) * (1 / (α + β)) - A) * ovl1 α A β B i j +
      1 / 2 * (1 / (α + β)) * ((i : ℝ) * ovl1 α A β B (i - 1) j + (j : ℝ) * ovl1 α A β B i (j - 1)) := by
  simp only [ovl1_L2]
  rw [pow_succ, mul_comm ((X - C A) ^ i), L2_center hα hβ]
  rw [derivative_X_sub_C_pow, derivative_X_sub_C_pow, L2_C hα hβ,
    L2_comm hα hβ A B _ (C (j : ℝ) * _), L2_C hβ hα, ← L2_comm hα hβ]
  field_simp

theorem ovl1_succ_right (i j : ℕ) : ovl1 α A β B i (j + 1) =
    ((α * A + β * B) * (1 / (α + β)) - B) * ovl1 α A β B i j +
      1 / 2 * (1 / (α + β)) * ((i : ℝ) * ovl1 α A β B (i - 1) j + (j : ℝ) * ovl1 α A β B i (j - 1)) := by
  rw [ovl1_comm, ovl1_succ_left hβ hα, ← ovl1_comm, ← ovl1_comm A B i (j - 1), ← ovl1_comm A B (i - 1) j]
  rw [add_comm β α, add_comm (β * B)]
  ring

/-! ## Kinetic recurrences -/

theorem kin1_L2 (i j : ℕ) : kin1 α A β B i j =
    -1 / 2 * L2 α β A B (dG α A (dG α A ((X - C A) ^ i))) ((X - C B) ^ j) := by
  rw [L2_parts hα hβ, L2_parts hα hβ, neg_neg]
  · unfold kin1 L2
    rw [← integral_const_mul]
    congr 1; ext x
    rw [gauss1_eq, gauss1_eq, dG_second]; ring

theorem kin1_comm (i j : ℕ) : kin1 α A β B i j = kin1 β B α A j i := by
  rw [kin1_L2 hα hβ, kin1_L2 hβ hα, L2_parts hα hβ, L2_parts hα hβ, neg_neg, L2_comm hα hβ]

theorem dG_mul_X (g : ℝ[X]) : dG α A ((X - C A) * g) = g + (X - C A) * dG α A g := by
  unfold dG
  rw [derivative_mul, derivative_sub, derivative_X, derivative_C]
  ring

theorem dG_add (g h : ℝ[X]) : dG α A (g + h) = dG α A g + dG α A h := by
  unfold dG
  rw [derivative_add]; ring

theorem dG_deriv (g : ℝ[X]) : derivative (dG α A g) = dG α A (derivative g) - C (2 * α) * g := by
  unfold dG
  rw [derivative_sub, derivative_mul, derivative_mul, derivative_C, derivative_sub, derivative_X,
    derivative_C]
  ring

theorem dG_C (c : ℝ) (g : ℝ[X]) : dG α A (C c * g) = C c * dG α A g := by
  unfold dG
  rw [derivative_mul, derivative_C]; ring

theorem dG_sub (g h : ℝ[X]) : dG α A (g - h) = dG α A g - dG α A h := by
  unfold dG
  rw [derivative_sub]; ring

theorem kin1_zero : kin1 α A β B 0 0 = ovl1 α A β B 0 0 * (α - 2 * α * α *
    (((α * A + β * B) * (1 / (α + β)) - A) * ((α * A + β * B) * (1 / (α + β)) - A) +
      1 / 2 * (1 / (α + β)))) := by
  rw [kin1_L2 hα hβ, ovl1_L2]
  simp only [pow_zero]
  have e : dG α A (dG α A 1) = C (4 * α ^ 2) * ((X - C A) * (X - C A)) - C (2 * α) * 1 := by
    unfold dG
    rw [derivative_one]
    simp only [derivative_mul, derivative_sub, derivative_X, derivative_C, derivative_zero,
      derivative_one, mul_one, zero_sub, sub_zero]
    simp only [derivative_neg, derivative_mul, derivative_sub, derivative_X, derivative_C]
    simp only [map_mul, map_pow, map_ofNat]
    ring
  rw [e, L2_sub hα hβ, L2_C hα hβ, L2_C hα hβ, L2_center hα hβ]
  have h1 := L2_center hα hβ A B A 1 1
  rw [mul_one, derivative_one] at h1
  have h0 : L2 α β A B 0 1 = 0 := by simp [L2]
  have h0' : L2 α β A B 1 0 = 0 := by simp [L2]
  have h0'' : L2 α β A B (X - C A) 0 = 0 := by simp [L2]
  rw [h0, h0'] at h1
  rw [h1, derivative_one, h0'', derivative_sub, derivative_X, derivative_C, sub_zero]
  field_simp
  ring

theorem kin1_succ_left (i j : ℕ) : kin1 α A β B (i + 1) j =
    ((α * A + β * B) * (1 / (α + β)) - A) * kin1 α A β B i j +
      1 / 2 * (1 / (α + β)) * ((i : ℝ) * kin1 α A β B (i - 1) j + (j : ℝ) * kin1 α A β B i (j - 1)) +
      (2 * (α * β * (1 / (α + β))) * ovl1 α A β B (i + 1) j -
        β * (1 / (α + β)) * (i : ℝ) * ovl1 α A β B (i - 1) j) := by
  simp only [kin1_L2 hα hβ, ovl1_L2]
  set g := (X - C A) ^ i with hg
  set h := (X - C B) ^ j with hh
  have hg1 : (X - C A) ^ (i + 1) = (X - C A) * g := by rw [hg, pow_succ, mul_comm]
  have hg' : derivative g = C (i : ℝ) * (X - C A) ^ (i - 1) := by
    rw [hg, derivative_X_sub_C_pow, map_natCast]
  have hh' : derivative h = C (j : ℝ) * (X - C B) ^ (j - 1) := by
    rw [hh, derivative_X_sub_C_pow, map_natCast]
  have e1 : dG α A (dG α A ((X - C A) * g)) = C 2 * dG α A g + (X - C A) * dG α A (dG α A g) := by
    rw [dG_mul_X hα hβ, dG_add hα hβ, dG_mul_X hα hβ]
    simp only [map_ofNat]; ring
  have e2 : derivative (dG α A (dG α A g)) =
      C (i : ℝ) * dG α A (dG α A ((X - C A) ^ (i - 1))) - C (4 * α) * dG α A g := by
    rw [dG_deriv hα hβ, dG_deriv hα hβ, dG_sub hα hβ, dG_C hα hβ, hg', dG_C hα hβ, dG_C hα hβ]
    have : (C (4 * α) : ℝ[X]) = C (2 * α) + C (2 * α) := by rw [← C_add]; congr 1; ring
    rw [this]; ring
  have e3 : L2 α β A B (dG α A g) h = (i : ℝ) * L2 α β A B ((X - C A) ^ (i - 1)) h -
      2 * α * L2 α β A B ((X - C A) * g) h := by
    have : dG α A g = C (i : ℝ) * (X - C A) ^ (i - 1) - C (2 * α) * ((X - C A) * g) := by
      rw [← hg']; rfl
    rw [this, L2_sub hα hβ, L2_C hα hβ, L2_C hα hβ]
  rw [hg1, e1, L2_add hα hβ, L2_C hα hβ, L2_center hα hβ, e2, L2_sub hα hβ, L2_C hα hβ, L2_C hα hβ, hh',
    L2_comm hα hβ A B _ (C (j : ℝ) * _), L2_C hβ hα, ← L2_comm hα hβ, e3]
  field_simp
  ring

theorem kin1_succ_right (i j : ℕ) : kin1 α A β B i (j + 1) =
    ((α * A + β * B) * (1 / (α + β)) - B) * kin1 α A β B i j +
      1 / 2 * (1 / (α + β)) * ((i : ℝ) * kin1 α A β B (i - 1) j + (j : ℝ) * kin1 α A β B i (j - 1)) +
      (2 * (α * β * (1 / (α + β))) * ovl1 α A β B i (j + 1) -
        α * (1 / (α + β)) * (j : ℝ) * ovl1 α A β B i (j - 1)) := by
  rw [kin1_comm hα hβ, kin1_succ_left hβ hα, ← kin1_comm hα hβ, ← kin1_comm hα hβ, ← kin1_comm hα hβ,
    ← ovl1_comm A B i (j + 1), ← ovl1_comm A B i (j - 1)]
  rw [add_comm β α, add_comm (β * B)]
  ring

end

end Simint
