import Verif.ThoDirection

/-! The electron repulsion integral as a sum of Boys functions. -/

set_option autoImplicit false

open MeasureTheory Polynomial Real Set

namespace Simint

/-- Replaces the powers `X^n` by the values `φ n`. -/
noncomputable def subL (φ : ℕ → ℝ) : ℝ[X] →ₗ[ℝ] ℝ := lsum fun n => LinearMap.mulRight ℝ (φ n)

theorem subL_monomial (φ : ℕ → ℝ) (n : ℕ) (c : ℝ) : subL φ (monomial n c) = c * φ n := by
  rw [subL, lsum_apply, sum_monomial_index]
  · rfl
  · simp

theorem subL_C_mul_pow (φ : ℕ → ℝ) (n : ℕ) (c : ℝ) : subL φ (C c * X ^ n) = c * φ n := by
  rw [C_mul_X_pow_eq_monomial, subL_monomial]

/-- Replaces powers of `τ` by Boys functions. -/
noncomputable abbrev boysL (T : ℝ) : ℝ[X] →ₗ[ℝ] ℝ := subL fun n => boysF n T

/-- The polynomial of the direction `i` for the pairs `G`. -/
noncomputable def Pairs.thoD (G : Pairs) (a b c d : Exp) (i : Dir) : ℝ[X] :=
  thoDir G.p G.q G.rho (G.P i - G.Q i)
    (fCoef (a.get i).toNat (b.get i).toNat (G.P i - G.A i) (G.P i - G.B i))
    (fCoef (c.get i).toNat (d.get i).toNat (G.Q i - G.C i) (G.Q i - G.D i))
    ((a.get i).toNat + (b.get i).toNat) ((c.get i).toNat + (d.get i).toNat)

theorem pw_toNat (A B : ℝ) (a b : ℤ) : pw A B a b = pw A B (a.toNat : ℤ) (b.toNat : ℤ) := by
  simp only [pw, Int.toNat_natCast]

theorem Pairs.d1_tho (G : Pairs) (a b c d : Exp) (i : Dir) (u : ℝ) :
    G.d1 i (a.get i) (b.get i) (c.get i) (d.get i) u =
      G.d1 i 0 0 0 0 u * (G.thoD a b c d i).eval (G.tau u) := by
  have h := direction_tho G.hp G.hq (G.P i) (G.Q i) (G.A i) (G.B i) (G.C i) (G.D i) (sq_nonneg u)
    (a.get i).toNat (b.get i).toNat (c.get i).toNat (d.get i).toNat
  have e : G.d1 i 0 0 0 0 u = G2 G.p G.q (G.P i) (G.Q i) (u ^ 2) 1 1 := by
    simp [Pairs.d1, pw]
  rw [e, Pairs.d1, pw_toNat, pw_toNat (G.C i)]
  exact h

/-- The integral of order zero is the polynomial with powers of `τ` replaced by Boys functions. -/
theorem Pairs.eri_tho (G : Pairs) (K : ℝ) (a b c d : Exp) :
    G.eri K 0 a b c d = K * π ^ 3 / (G.p * G.q) * √(1 / (G.p + G.q)) *
      boysL (G.R2 * (G.p * G.q * (1 / (G.p + G.q)))) (G.thoD a b c d .x * (G.thoD a b c d .y * G.thoD a b c d .z)) := by
  have key : ∀ D : ℝ[X], IntegrableOn (fun u => D.eval (G.tau u) * G.prod3 ⟨0, 0, 0⟩ ⟨0, 0, 0⟩ ⟨0, 0, 0⟩ ⟨0, 0, 0⟩ u)
      (Ioi 0) ∧ K * ∫ u in Ioi 0, D.eval (G.tau u) * G.prod3 ⟨0, 0, 0⟩ ⟨0, 0, 0⟩ ⟨0, 0, 0⟩ ⟨0, 0, 0⟩ u =
      K * π ^ 3 / (G.p * G.q) * √(1 / (G.p + G.q)) * boysL (G.R2 * (G.p * G.q * (1 / (G.p + G.q)))) D := by
    intro D
    induction D using Polynomial.induction_on' with
    | add f g hf hg =>
      simp only [eval_add, add_mul, map_add]
      refine ⟨hf.1.add hg.1, ?_⟩
      rw [integral_add hf.1 hg.1, mul_add, mul_add, hf.2, hg.2]
    | monomial n r =>
      have hi := (G.eri_integrable n ⟨0, 0, 0⟩ ⟨0, 0, 0⟩ ⟨0, 0, 0⟩ ⟨0, 0, 0⟩).const_mul r
      have hf : (fun u => (monomial n r).eval (G.tau u) * G.prod3 ⟨0, 0, 0⟩ ⟨0, 0, 0⟩ ⟨0, 0, 0⟩ ⟨0, 0, 0⟩ u) =
          fun u => r * (G.tau u ^ n * G.prod3 ⟨0, 0, 0⟩ ⟨0, 0, 0⟩ ⟨0, 0, 0⟩ ⟨0, 0, 0⟩ u) := by
        funext u; rw [eval_monomial]; ring
      rw [hf]
      refine ⟨hi, ?_⟩
      have h := C20_start G K n
      rw [G.eri_eq] at h
      rw [integral_const_mul, boysL, subL_monomial]
      linear_combination r * h
  rw [← (key _).2, G.eri_eq]
  congr 1
  refine integral_congr_ae (Filter.Eventually.of_forall fun u => ?_)
  simp only [pow_zero, one_mul]
  have hx := G.d1_tho a b c d .x u
  have hy := G.d1_tho a b c d .y u
  have hz := G.d1_tho a b c d .z u
  simp only [Exp.get] at hx hy hz
  rw [Pairs.prod3, Pairs.prod3, hx, hy, hz, eval_mul, eval_mul]
  ring

/-- The electron repulsion integral as a sum of Boys functions. -/
theorem coulomb_tho {α β γ δ : ℝ} (hα : 0 < α) (hβ : 0 < β) (hγ : 0 < γ) (hδ : 0 < δ)
    (A B C D : Dir → ℝ) (a b c d : Exp) :
    coulomb α β γ δ A B C D a b c d =
      2 * π ^ (5 / 2 : ℝ) * exp (-(α * β / (α + β)) * dist2 A B) * exp (-(γ * δ / (γ + δ)) * dist2 C D) /
        ((α + β) * (γ + δ) * √(α + β + (γ + δ))) *
      boysL ((pairsOf hα hβ hγ hδ A B C D).R2 * (pairsOf hα hβ hγ hδ A B C D).rho)
        ((pairsOf hα hβ hγ hδ A B C D).thoD a b c d .x * ((pairsOf hα hβ hγ hδ A B C D).thoD a b c d .y *
          (pairsOf hα hβ hγ hδ A B C D).thoD a b c d .z)) := by
  rw [← C20_coulomb hα hβ hγ hδ, Pairs.eri_tho]
  have e1 : (pairsOf hα hβ hγ hδ A B C D).p * (pairsOf hα hβ hγ hδ A B C D).q *
      (1 / ((pairsOf hα hβ hγ hδ A B C D).p + (pairsOf hα hβ hγ hδ A B C D).q)) =
      (pairsOf hα hβ hγ hδ A B C D).rho := by rw [Pairs.rho]; ring
  rw [e1]
  congr 1
  have e2 : π ^ (5 / 2 : ℝ) = π ^ 3 / √π := by
    have h1 : (5 / 2 : ℝ) = 3 - 1 / 2 := by norm_num
    rw [h1, rpow_sub pi_pos, ← sqrt_eq_rpow]
    congr 1
    exact rpow_natCast π 3
  have e3 : √(1 / ((pairsOf hα hβ hγ hδ A B C D).p + (pairsOf hα hβ hγ hδ A B C D).q)) =
      1 / √(α + β + (γ + δ)) := by
    rw [sqrt_div zero_le_one, sqrt_one]; rfl
  rw [e3, e2]
  have e4 : (pairsOf hα hβ hγ hδ A B C D).p = α + β := rfl
  have e5 : (pairsOf hα hβ hγ hδ A B C D).q = γ + δ := rfl
  rw [e4, e5]
  simp only [div_eq_mul_inv, mul_inv]
  ring

end Simint
