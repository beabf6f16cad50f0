import Verif.Props.RealIntegrals
import Mathlib.Analysis.Calculus.ParametricIntegral
import Mathlib.Algebra.Order.Ring.Pow
import Mathlib.Analysis.SpecialFunctions.ExpDeriv

/-!
# Derivatives of the Coulomb integral with respect to the centers (analysis lemmas)
-/

set_option autoImplicit false

open MeasureTheory Polynomial Real Set Filter Topology

namespace Simint

/-! ## One primitive -/

/-- One direction of a primitive Gaussian. -/
noncomputable def prim1 (α : ℝ) (n : ℕ) (y : ℝ) : ℝ := y ^ n * exp (-α * y ^ 2)

/-- The other two directions. -/
noncomputable def restG (α : ℝ) (A : Dir → ℝ) (e : Exp) (r : Dir → ℝ) : Dir → ℝ
  | .x => prim1 α e.y.toNat (r .y - A .y) * prim1 α e.z.toNat (r .z - A .z)
  | .y => prim1 α e.x.toNat (r .x - A .x) * prim1 α e.z.toNat (r .z - A .z)
  | .z => prim1 α e.x.toNat (r .x - A .x) * prim1 α e.y.toNat (r .y - A .y)

theorem primG_split (α : ℝ) (A : Dir → ℝ) (e : Exp) (r : Dir → ℝ) (d : Dir) :
    primG α A e r = prim1 α (e.get d).toNat (r d - A d) * restG α A e r d := by
  have h : exp (-α * dist2 r A) = exp (-α * (r .x - A .x) ^ 2) * exp (-α * (r .y - A .y) ^ 2) *
      exp (-α * (r .z - A .z) ^ 2) := by
    rw [← exp_add, ← exp_add]; congr 1; unfold dist2; ring
  cases d <;> simp only [primG, mono, restG, prim1, Exp.get, h] <;> ring

theorem restG_update (α : ℝ) (A : Dir → ℝ) (e : Exp) (r : Dir → ℝ) (d : Dir) (x : ℝ) :
    restG α (Function.update A d x) e r d = restG α A e r d := by
  cases d <;> simp [restG]

theorem restG_step (α : ℝ) (A : Dir → ℝ) (e : Exp) (r : Dir → ℝ) (d : Dir) (k : ℤ) :
    restG α A (e.step d k) r d = restG α A e r d := by
  cases d <;> simp [restG, Exp.step]

theorem prim1_abs_half {α : ℝ} (hα : 0 < α) (n : ℕ) (y : ℝ) : |prim1 α n y| ≤ |prim1 (α / 2) n y| := by
  unfold prim1
  rw [abs_mul, abs_mul, abs_of_pos (exp_pos _), abs_of_pos (exp_pos _)]
  refine mul_le_mul_of_nonneg_left (exp_le_exp.2 ?_) (abs_nonneg _)
  nlinarith [sq_nonneg y]

theorem restG_abs_half {α : ℝ} (hα : 0 < α) (A : Dir → ℝ) (e : Exp) (r : Dir → ℝ) (d : Dir) :
    |restG α A e r d| ≤ |restG (α / 2) A e r d| := by
  cases d <;> simp only [restG, abs_mul] <;>
  exact mul_le_mul (prim1_abs_half hα _ _) (prim1_abs_half hα _ _) (abs_nonneg _) (abs_nonneg _)

theorem prim1_hasDerivAt (α : ℝ) (n : ℕ) (r x : ℝ) :
    HasDerivAt (fun x => prim1 α n (r - x))
      (2 * α * prim1 α (n + 1) (r - x) - n * prim1 α (n - 1) (r - x)) x := by
  have h1 : HasDerivAt (fun x : ℝ => r - x) (-1) x := by simpa using (hasDerivAt_id x).const_sub r
  have h2 := h1.fun_pow n
  have h3 : HasDerivAt (fun x : ℝ => -α * (r - x) ^ 2) (2 * α * (r - x)) x :=
    ((h1.fun_pow 2).const_mul (-α)).congr_deriv (by push_cast; ring)
  have h4 := h2.fun_mul h3.exp
  unfold prim1
  refine h4.congr_deriv ?_
  rw [pow_succ]
  ring

/-- Bound of the derivative near a point. -/
theorem prim1_deriv_bound {α : ℝ} (hα : 0 < α) (n : ℕ) {r x0 x : ℝ} (hx : |x - x0| ≤ 1) :
    |2 * α * prim1 α (n + 1) (r - x) - n * prim1 α (n - 1) (r - x)| ≤
      (2 * α + n) * exp α * 2 ^ (n + 1) *
        (|prim1 (α / 2) (n + 1) (r - x0)| + |prim1 (α / 2) 0 (r - x0)|) := by
  set y := r - x0 with hy
  set t := x - x0 with ht
  have e0 : r - x = y - t := by rw [hy, ht]; ring
  rw [e0]
  have hle : |y - t| ≤ |y| + 1 := (abs_sub _ _).trans (by linarith)
  have h1 : (1 : ℝ) ≤ |y| + 1 := by linarith [abs_nonneg y]
  have hp : (|y| + 1) ^ (n + 1) ≤ 2 ^ (n + 1) * (|y| ^ (n + 1) + 1) := by
    have := add_pow_le (abs_nonneg y) zero_le_one (n + 1)
    rw [one_pow] at this
    refine this.trans (mul_le_mul_of_nonneg_right ?_ (by positivity))
    exact pow_le_pow_right₀ one_le_two (by omega)
  have hexp : exp (-α * (y - t) ^ 2) ≤ exp α * exp (-(α / 2) * y ^ 2) := by
    rw [← exp_add, exp_le_exp]
    have ht1 : t ^ 2 ≤ 1 := by
      rw [← sq_abs]; exact pow_le_one₀ (abs_nonneg _) hx
    nlinarith [sq_nonneg (y - 2 * t), mul_nonneg hα.le (sq_nonneg (y - 2 * t)),
      mul_le_mul_of_nonneg_left ht1 hα.le]
  have ha : |prim1 α (n + 1) (y - t)| ≤ (|y| + 1) ^ (n + 1) * exp (-α * (y - t) ^ 2) := by
    unfold prim1
    rw [abs_mul, abs_of_pos (exp_pos _), abs_pow]
    exact mul_le_mul_of_nonneg_right (pow_le_pow_left₀ (abs_nonneg _) hle _) (exp_pos _).le
  have hb : |prim1 α (n - 1) (y - t)| ≤ (|y| + 1) ^ (n + 1) * exp (-α * (y - t) ^ 2) := by
    unfold prim1
    rw [abs_mul, abs_of_pos (exp_pos _), abs_pow]
    refine mul_le_mul_of_nonneg_right ?_ (exp_pos _).le
    exact (pow_le_pow_left₀ (abs_nonneg _) hle _).trans (pow_le_pow_right₀ h1 (by omega))
  have hab : |2 * α * prim1 α (n + 1) (y - t) - n * prim1 α (n - 1) (y - t)| ≤
      (2 * α + n) * ((|y| + 1) ^ (n + 1) * exp (-α * (y - t) ^ 2)) := by
    refine (abs_sub _ _).trans ?_
    rw [abs_mul, abs_mul (n : ℝ), abs_of_pos (by positivity : 0 < 2 * α),
      abs_of_nonneg (Nat.cast_nonneg n : (0 : ℝ) ≤ n), add_mul]
    exact add_le_add (mul_le_mul_of_nonneg_left ha (by positivity))
      (mul_le_mul_of_nonneg_left hb (Nat.cast_nonneg _))
  refine hab.trans ?_
  have hc : (|y| + 1) ^ (n + 1) * exp (-α * (y - t) ^ 2) ≤
      (2 ^ (n + 1) * (|y| ^ (n + 1) + 1)) * (exp α * exp (-(α / 2) * y ^ 2)) :=
    mul_le_mul hp hexp (exp_pos _).le (by positivity)
  have hd : |prim1 (α / 2) (n + 1) y| + |prim1 (α / 2) 0 y| =
      (|y| ^ (n + 1) + 1) * exp (-(α / 2) * y ^ 2) := by
    unfold prim1
    rw [abs_mul, abs_mul, abs_of_pos (exp_pos _), abs_pow, pow_zero, abs_one]; ring
  rw [hd]
  calc _ ≤ (2 * α + n) * ((2 ^ (n + 1) * (|y| ^ (n + 1) + 1)) * (exp α * exp (-(α / 2) * y ^ 2))) :=
        mul_le_mul_of_nonneg_left hc (by positivity)
    _ = _ := by ring

/-! ## Under an integral -/

/-- Differentiation of an integral over a primitive with respect to its center. -/
theorem prim_hasDerivAt (r : R6 → Dir → ℝ) (R : R6 → ℝ)
    (hI : ∀ α, 0 < α → ∀ A e, Integrable fun w => primG α A e (r w) * R w)
    {α : ℝ} (hα : 0 < α) (A : Dir → ℝ) (e : Exp) (d : Dir) (hd : 0 ≤ e.get d) :
    HasDerivAt (fun x => ∫ w, primG α (Function.update A d x) e (r w) * R w)
      (2 * α * (∫ w, primG α A (e.step d 1) (r w) * R w) -
        (e.get d : ℝ) * ∫ w, primG α A (e.step d (-1)) (r w) * R w) (A d) := by
  obtain ⟨n, hn⟩ := Int.eq_ofNat_of_zero_le hd
  have hval : ∀ A' w, 2 * α * (primG α A' (e.step d 1) (r w) * R w) -
      (e.get d : ℝ) * (primG α A' (e.step d (-1)) (r w) * R w) =
      (2 * α * prim1 α (n + 1) (r w d - A' d) - n * prim1 α (n - 1) (r w d - A' d)) *
        restG α A' e (r w) d * R w := by
    intro A' w
    rw [primG_split α A' (e.step d 1) _ d, primG_split α A' (e.step d (-1)) _ d, restG_step, restG_step,
      Exp.get_step_self, Exp.get_step_self, hn]
    have t1 : ((n : ℤ) + 1).toNat = n + 1 := by omega
    have t2 : ((n : ℤ) + -1).toNat = n - 1 := by omega
    simp only [Int.ofNat_eq_natCast, t1, t2, Int.cast_natCast]
    ring
  have hfun : ∀ x w, primG α (Function.update A d x) e (r w) * R w =
      prim1 α n (r w d - x) * (restG α A e (r w) d * R w) := by
    intro x w
    rw [primG_split α _ e _ d, restG_update, Function.update_self, hn]
    simp only [Int.ofNat_eq_natCast, Int.toNat_natCast]
    ring
  have i1 := (hI α hα A (e.step d 1)).const_mul (2 * α)
  have i2 := (hI α hα A (e.step d (-1))).const_mul (e.get d : ℝ)
  have key := hasDerivAt_integral_of_dominated_loc_of_deriv_le
    (μ := (volume : Measure R6))
    (F := fun x w => primG α (Function.update A d x) e (r w) * R w)
    (F' := fun x w => (2 * α * prim1 α (n + 1) (r w d - x) - n * prim1 α (n - 1) (r w d - x)) *
      (restG α A e (r w) d * R w))
    (x₀ := A d) (s := Metric.ball (A d) 1)
    (bound := fun w => (2 * α + n) * exp α * 2 ^ (n + 1) *
      (|primG (α / 2) A (e.step d 1) (r w) * R w| +
        |primG (α / 2) A (e.step d (-(e.get d))) (r w) * R w|))
    (Metric.ball_mem_nhds _ one_pos)
    (Eventually.of_forall fun x => (hI α hα _ e).aestronglyMeasurable)
    (hI α hα _ e) ?_ ?_ ?_ ?_
  · refine key.2.congr_deriv (Eq.symm ?_)
    rw [← integral_const_mul, ← integral_const_mul, ← integral_sub i1 i2]
    congr 1; ext w
    rw [hval]; ring
  · refine (i1.sub i2).aestronglyMeasurable.congr (Eventually.of_forall fun w => ?_)
    simp only [Pi.sub_apply]
    rw [hval]; ring
  · refine Eventually.of_forall fun w x hx => ?_
    have hx' : |x - A d| ≤ 1 := by
      rw [Metric.mem_ball, Real.dist_eq] at hx; exact hx.le
    rw [Real.norm_eq_abs, abs_mul, abs_mul]
    have h1 := prim1_deriv_bound hα n (r := r w d) hx'
    have h2 := restG_abs_half hα A e (r w) d
    rw [primG_split (α / 2) A (e.step d 1) _ d, primG_split (α / 2) A (e.step d (-(e.get d))) _ d,
      restG_step, restG_step, Exp.get_step_self, Exp.get_step_self, hn]
    have t1 : ((n : ℤ) + 1).toNat = n + 1 := by omega
    have t2 : ((n : ℤ) + -(n : ℤ)).toNat = 0 := by omega
    simp only [Int.ofNat_eq_natCast, t1, t2, abs_mul]
    calc _ ≤ ((2 * α + n) * exp α * 2 ^ (n + 1) *
          (|prim1 (α / 2) (n + 1) (r w d - A d)| + |prim1 (α / 2) 0 (r w d - A d)|)) *
            (|restG (α / 2) A e (r w) d| * |R w|) :=
          mul_le_mul h1 (mul_le_mul_of_nonneg_right h2 (abs_nonneg _)) (by positivity) (by positivity)
      _ = _ := by ring
  · exact ((hI (α / 2) (by positivity) A _).abs.add (hI (α / 2) (by positivity) A _).abs).const_mul _
  · refine Eventually.of_forall fun w x _ => ?_
    simp only [hfun]
    exact (prim1_hasDerivAt α n (r w d) x).mul_const _

/-! ## The Coulomb integral -/

section
variable {α β γ δ : ℝ} (hα : 0 < α) (hβ : 0 < β) (hγ : 0 < γ) (hδ : 0 < δ)
  (A B C D : Dir → ℝ) (a b c d : Exp) (i : Dir)
include hα hβ hγ hδ

theorem coulomb_hasDerivAt_1 (h : 0 ≤ a.get i) :
    HasDerivAt (fun x => coulomb α β γ δ (Function.update A i x) B C D a b c d)
      (2 * α * coulomb α β γ δ A B C D (a.step i 1) b c d -
        (a.get i : ℝ) * coulomb α β γ δ A B C D (a.step i (-1)) b c d) (A i) := by
  have key := prim_hasDerivAt R6.fst (fun w => primG β B b w.fst *
    (primG γ C c w.snd * primG δ D d w.snd) / √(dist2 w.fst w.snd))
    (fun α' h' A' e' => (coulomb_integrable h' hβ hγ hδ A' B C D e' b c d).congr
      (Eventually.of_forall fun w => by ring)) hα A a i h
  unfold coulomb
  convert key using 1
  · ext x; congr 1; ext w; ring
  · congr 1 <;> congr 1 <;> congr 1 <;> ext w <;> ring

theorem coulomb_hasDerivAt_2 (h : 0 ≤ b.get i) :
    HasDerivAt (fun x => coulomb α β γ δ A (Function.update B i x) C D a b c d)
      (2 * β * coulomb α β γ δ A B C D a (b.step i 1) c d -
        (b.get i : ℝ) * coulomb α β γ δ A B C D a (b.step i (-1)) c d) (B i) := by
  have key := prim_hasDerivAt R6.fst (fun w => primG α A a w.fst *
    (primG γ C c w.snd * primG δ D d w.snd) / √(dist2 w.fst w.snd))
    (fun β' h' B' e' => (coulomb_integrable hα h' hγ hδ A B' C D a e' c d).congr
      (Eventually.of_forall fun w => by ring)) hβ B b i h
  unfold coulomb
  convert key using 1
  · ext x; congr 1; ext w; ring
  · congr 1 <;> congr 1 <;> congr 1 <;> ext w <;> ring

theorem coulomb_hasDerivAt_3 (h : 0 ≤ c.get i) :
    HasDerivAt (fun x => coulomb α β γ δ A B (Function.update C i x) D a b c d)
      (2 * γ * coulomb α β γ δ A B C D a b (c.step i 1) d -
        (c.get i : ℝ) * coulomb α β γ δ A B C D a b (c.step i (-1)) d) (C i) := by
  have key := prim_hasDerivAt R6.snd (fun w => primG α A a w.fst * primG β B b w.fst *
    primG δ D d w.snd / √(dist2 w.fst w.snd))
    (fun γ' h' C' e' => (coulomb_integrable hα hβ h' hδ A B C' D a b e' d).congr
      (Eventually.of_forall fun w => by ring)) hγ C c i h
  unfold coulomb
  convert key using 1
  · ext x; congr 1; ext w; ring
  · congr 1 <;> congr 1 <;> congr 1 <;> ext w <;> ring

theorem coulomb_hasDerivAt_4 (h : 0 ≤ d.get i) :
    HasDerivAt (fun x => coulomb α β γ δ A B C (Function.update D i x) a b c d)
      (2 * δ * coulomb α β γ δ A B C D a b c (d.step i 1) -
        (d.get i : ℝ) * coulomb α β γ δ A B C D a b c (d.step i (-1))) (D i) := by
  have key := prim_hasDerivAt R6.snd (fun w => primG α A a w.fst * primG β B b w.fst *
    primG γ C c w.snd / √(dist2 w.fst w.snd))
    (fun δ' h' D' e' => (coulomb_integrable hα hβ hγ h' A B C D' a b c e').congr
      (Eventually.of_forall fun w => by ring)) hδ D d i h
  unfold coulomb
  convert key using 1
  · ext x; congr 1; ext w; ring
  · congr 1 <;> congr 1 <;> congr 1 <;> ext w <;> ring

/-- Invariance under translation of one direction at fixed coupling. -/
theorem pairsOf_d1_trans {a b c d : ℤ} (ha : 0 ≤ a) (hb : 0 ≤ b) (hc : 0 ≤ c) (hd : 0 ≤ d) (u : ℝ) :
    (a : ℝ) * (pairsOf hα hβ hγ hδ A B C D).d1 i (a - 1) b c d u +
      (b : ℝ) * (pairsOf hα hβ hγ hδ A B C D).d1 i a (b - 1) c d u +
      (c : ℝ) * (pairsOf hα hβ hγ hδ A B C D).d1 i a b (c - 1) d u +
      (d : ℝ) * (pairsOf hα hβ hγ hδ A B C D).d1 i a b c (d - 1) u =
    2 * α * (pairsOf hα hβ hγ hδ A B C D).d1 i (a + 1) b c d u +
      2 * β * (pairsOf hα hβ hγ hδ A B C D).d1 i a (b + 1) c d u +
      2 * γ * (pairsOf hα hβ hγ hδ A B C D).d1 i a b (c + 1) d u +
      2 * δ * (pairsOf hα hβ hγ hδ A B C D).d1 i a b c (d + 1) u := by
  set G := pairsOf hα hβ hγ hδ A B C D
  have hp := G.hp; have hq := G.hq
  have hs : (0 : ℝ) ≤ u ^ 2 := by positivity
  have h1 := G2_deriv_left hp hq (G.P i) (G.Q i) hs (pw (G.A i) (G.B i) a b) (pw (G.C i) (G.D i) c d)
  have h2 := G2_deriv_right hp hq (G.P i) (G.Q i) hs (pw (G.A i) (G.B i) a b) (pw (G.C i) (G.D i) c d)
  rw [pw_deriv _ _ ha hb, G2_add_left hp hq _ _ hs, G2_C_left, G2_C_left] at h1
  rw [pw_deriv _ _ hc hd, G2_add_right hp hq _ _ hs, G2_C_right, G2_C_right] at h2
  have e1 : (X - Polynomial.C (G.P i)) * pw (G.A i) (G.B i) a b =
      Polynomial.C (α / (α + β)) * pw (G.A i) (G.B i) (a + 1) b +
        Polynomial.C (β / (α + β)) * pw (G.A i) (G.B i) a (b + 1) := by
    rw [pw_succ_left _ _ _ ha, pw_comm _ _ a (b + 1), pw_succ_left _ _ _ hb, pw_comm _ _ b a]
    have : Polynomial.C (G.P i) = Polynomial.C (α / (α + β)) * Polynomial.C (G.A i) +
        Polynomial.C (β / (α + β)) * Polynomial.C (G.B i) := by
      rw [← Polynomial.C_mul, ← Polynomial.C_mul, ← Polynomial.C_add]
      congr 1
      show (α * A i + β * B i) / (α + β) = α / (α + β) * A i + β / (α + β) * B i
      ring
    have one : (1 : ℝ[X]) = Polynomial.C (α / (α + β)) + Polynomial.C (β / (α + β)) := by
      rw [← Polynomial.C_add, ← Polynomial.C_1]; congr 1; field_simp
    rw [this]
    linear_combination (X * pw (G.A i) (G.B i) a b) * one
  have e2 : (X - Polynomial.C (G.Q i)) * pw (G.C i) (G.D i) c d =
      Polynomial.C (γ / (γ + δ)) * pw (G.C i) (G.D i) (c + 1) d +
        Polynomial.C (δ / (γ + δ)) * pw (G.C i) (G.D i) c (d + 1) := by
    rw [pw_succ_left _ _ _ hc, pw_comm _ _ c (d + 1), pw_succ_left _ _ _ hd, pw_comm _ _ d c]
    have : Polynomial.C (G.Q i) = Polynomial.C (γ / (γ + δ)) * Polynomial.C (G.C i) +
        Polynomial.C (δ / (γ + δ)) * Polynomial.C (G.D i) := by
      rw [← Polynomial.C_mul, ← Polynomial.C_mul, ← Polynomial.C_add]
      congr 1
      show (γ * C i + δ * D i) / (γ + δ) = γ / (γ + δ) * C i + δ / (γ + δ) * D i
      ring
    have one : (1 : ℝ[X]) = Polynomial.C (γ / (γ + δ)) + Polynomial.C (δ / (γ + δ)) := by
      rw [← Polynomial.C_add, ← Polynomial.C_1]; congr 1; field_simp
    rw [this]
    linear_combination (X * pw (G.C i) (G.D i) c d) * one
  rw [e1, e2, G2_add_left hp hq _ _ hs, G2_C_left, G2_C_left, G2_add_right hp hq _ _ hs, G2_C_right,
    G2_C_right] at h1 h2
  have hpe : G.p = α + β := rfl
  have hqe : G.q = γ + δ := rfl
  unfold Pairs.d1
  have n1 : α + β ≠ 0 := by positivity
  have n2 : γ + δ ≠ 0 := by positivity
  have k1 : 2 * (α + β) * (α / (α + β)) = 2 * α := by field_simp
  have k2 : 2 * (α + β) * (β / (α + β)) = 2 * β := by field_simp
  have k3 : 2 * (γ + δ) * (γ / (γ + δ)) = 2 * γ := by field_simp
  have k4 : 2 * (γ + δ) * (δ / (γ + δ)) = 2 * δ := by field_simp
  rw [hpe, hqe] at h1 h2 ⊢
  linear_combination h1 + h2 +
    G2 (α + β) (γ + δ) (G.P i) (G.Q i) (u ^ 2) (pw (G.A i) (G.B i) (a + 1) b) (pw (G.C i) (G.D i) c d) * k1 +
    G2 (α + β) (γ + δ) (G.P i) (G.Q i) (u ^ 2) (pw (G.A i) (G.B i) a (b + 1)) (pw (G.C i) (G.D i) c d) * k2 +
    G2 (α + β) (γ + δ) (G.P i) (G.Q i) (u ^ 2) (pw (G.A i) (G.B i) a b) (pw (G.C i) (G.D i) (c + 1) d) * k3 +
    G2 (α + β) (γ + δ) (G.P i) (G.Q i) (u ^ 2) (pw (G.A i) (G.B i) a b) (pw (G.C i) (G.D i) c (d + 1)) * k4

/-- The four derivatives along one direction add up to zero. -/
theorem coulomb_trans (ha : a.Valid) (hb : b.Valid) (hc : c.Valid) (hd : d.Valid) :
    (2 * α * coulomb α β γ δ A B C D (a.step i 1) b c d -
        (a.get i : ℝ) * coulomb α β γ δ A B C D (a.step i (-1)) b c d) +
    (2 * β * coulomb α β γ δ A B C D a (b.step i 1) c d -
        (b.get i : ℝ) * coulomb α β γ δ A B C D a (b.step i (-1)) c d) +
    (2 * γ * coulomb α β γ δ A B C D a b (c.step i 1) d -
        (c.get i : ℝ) * coulomb α β γ δ A B C D a b (c.step i (-1)) d) +
    (2 * δ * coulomb α β γ δ A B C D a b c (d.step i 1) -
        (d.get i : ℝ) * coulomb α β γ δ A B C D a b c (d.step i (-1))) = 0 := by
  simp only [← C20_coulomb hα hβ hγ hδ]
  set G := pairsOf hα hβ hγ hδ A B C D with hG
  generalize 2 / √π * exp (-(α * β / (α + β)) * dist2 A B) * exp (-(γ * δ / (γ + δ)) * dist2 C D) = K
  have := G.eri_lin K
    ![a.get i / (2 * α), b.get i / (2 * α), c.get i / (2 * α), d.get i / (2 * α),
      -β / α, -γ / α, -δ / α]
    ![0, 0, 0, 0, 0, 0, 0]
    ![a.step i (-1), a, a, a, a, a, a]
    ![b, b.step i (-1), b, b, b.step i 1, b, b]
    ![c, c, c.step i (-1), c, c, c.step i 1, c]
    ![d, d, d, d.step i (-1), d, d, d.step i 1] 0 (a.step i 1) b c d (by
      intro u
      simp only [Fin.sum_univ_seven, Matrix.cons_val, pow_zero, one_mul]
      have key : ∀ {a b c d : ℤ}, 0 ≤ a → 0 ≤ b → 0 ≤ c → 0 ≤ d → G.d1 i (a + 1) b c d u =
          a / (2 * α) * G.d1 i (a - 1) b c d u + b / (2 * α) * G.d1 i a (b - 1) c d u +
          c / (2 * α) * G.d1 i a b (c - 1) d u + d / (2 * α) * G.d1 i a b c (d - 1) u +
          -β / α * G.d1 i a (b + 1) c d u + -γ / α * G.d1 i a b (c + 1) d u +
          -δ / α * G.d1 i a b c (d + 1) u := by
        intro a b c d ha hb hc hd
        have := pairsOf_d1_trans hα hβ hγ hδ A B C D i ha hb hc hd u
        rw [← hG] at this
        field_simp
        linear_combination -this
      cases i <;>
      simp only [Pairs.prod3, Exp.step, Exp.get, ← sub_eq_add_neg] <;>
      first
      | rw [key ha.1 hb.1 hc.1 hd.1]; ring
      | rw [key ha.2.1 hb.2.1 hc.2.1 hd.2.1]; ring
      | rw [key ha.2.2 hb.2.2 hc.2.2 hd.2.2]; ring)
  simp only [Fin.sum_univ_seven, Matrix.cons_val] at this
  rw [this]
  field_simp
  ring

end

end Simint
