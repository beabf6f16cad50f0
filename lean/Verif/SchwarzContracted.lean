import Verif.SchwarzLemmas
import Verif.Spec.Function
import Mathlib.Algebra.BigOperators.Fin

/-!
# The Cauchy-Schwarz inequality for contracted integrals (analysis lemmas)
-/

set_option autoImplicit false

open MeasureTheory Polynomial Real Set Filter

namespace Simint

/-- Product of two primitive functions of one electron: exponent, center, polynomials. -/
structure PF where
  p : ℝ
  P : Dir → ℝ
  g : Dir → ℝ[X]
  hp : 0 < p

namespace PF

/-- The smeared function of all directions. -/
noncomputable def F (f : PF) (c : ℝ) (t : ℝ × ℝ × ℝ) : ℝ :=
  smear f.p (f.P .x) c (f.g .x) t.1 * (smear f.p (f.P .y) c (f.g .y) t.2.1 * smear f.p (f.P .z) c (f.g .z) t.2.2)

/-- The integrals of the three directions. -/
noncomputable def H (f h : PF) (u : ℝ) : ℝ :=
  G2 f.p h.p (f.P .x) (h.P .x) (u ^ 2) (f.g .x) (h.g .x) * G2 f.p h.p (f.P .y) (h.P .y) (u ^ 2) (f.g .y) (h.g .y) *
    G2 f.p h.p (f.P .z) (h.P .z) (u ^ 2) (f.g .z) (h.g .z)

theorem F_integrable (f h : PF) {c : ℝ} (hc : 0 < c) : Integrable fun t => f.F c t * h.F c t := by
  have h1 : ∀ i, Integrable fun t => smear f.p (f.P i) c (f.g i) t * smear h.p (h.P i) c (h.g i) t :=
    fun i => smear_integrable f.hp h.hp hc _ _ _ _
  have := (h1 .x).mul_prod ((h1 .y).mul_prod (h1 .z))
  refine this.congr (Eventually.of_forall fun t => ?_)
  simp only [F]
  ring

theorem F_integral (f h : PF) {u : ℝ} (hu : 0 < u) :
    f.H h u * √(π / (4 * u ^ 2)) ^ 3 = ∫ t, f.F (u ^ 2) t * h.F (u ^ 2) t := by
  have hc : 0 < u ^ 2 := by positivity
  let pr : Dir → ℝ → ℝ := fun i t =>
    smear f.p (f.P i) (u ^ 2) (f.g i) t * smear h.p (h.P i) (u ^ 2) (h.g i) t
  have e : (fun t => f.F (u ^ 2) t * h.F (u ^ 2) t) = fun t : ℝ × ℝ × ℝ =>
      pr .x t.1 * (fun t : ℝ × ℝ => pr .y t.1 * pr .z t.2) t.2 := by
    funext t
    simp only [F, pr]
    ring
  have e1 := integral_prod_mul (μ := (volume : Measure ℝ)) (ν := (volume : Measure (ℝ × ℝ))) (pr .x)
    fun t : ℝ × ℝ => pr .y t.1 * pr .z t.2
  have e2 := integral_prod_mul (μ := (volume : Measure ℝ)) (ν := (volume : Measure ℝ)) (pr .y) (pr .z)
  rw [e]
  refine Eq.trans ?_ e1.symm
  rw [← Measure.volume_eq_prod] at e2
  rw [e2]
  simp only [pr]
  rw [← G2_smear f.hp h.hp hc, ← G2_smear f.hp h.hp hc, ← G2_smear f.hp h.hp hc]
  unfold H
  ring

theorem H_integrable (f h : PF) : IntegrableOn (f.H h) (Ioi 0) := by
  have := integrableOn_three f.hp h.hp (f.P .x) (h.P .x) (f.P .y) (h.P .y) (f.P .z) (h.P .z) (f.g .x) (h.g .x)
    (f.g .y) (h.g .y) (f.g .z) (h.g .z) (φ := fun _ => 1) stronglyMeasurable_const (fun _ _ => by simp)
  simp only [one_mul] at this
  exact this

end PF

section
variable {ι κ : Type} [Fintype ι] [Fintype κ]

/-- The contracted integrand. -/
noncomputable def form (w : ι → ℝ) (f : ι → PF) (v : κ → ℝ) (h : κ → PF) (u : ℝ) : ℝ :=
  ∑ i, ∑ j, w i * v j * (f i).H (h j) u

theorem sum_F_mul (w : ι → ℝ) (f : ι → PF) (v : κ → ℝ) (h : κ → PF) (c : ℝ) (t : ℝ × ℝ × ℝ) :
    (∑ i, w i * (f i).F c t) * (∑ j, v j * (h j).F c t) =
      ∑ i, ∑ j, w i * v j * ((f i).F c t * (h j).F c t) := by
  rw [Finset.sum_mul_sum]
  refine Finset.sum_congr rfl fun i _ => Finset.sum_congr rfl fun j _ => ?_
  ring

theorem form_integrable (w : ι → ℝ) (f : ι → PF) (v : κ → ℝ) (h : κ → PF) {c : ℝ} (hc : 0 < c) :
    Integrable fun t => (∑ i, w i * (f i).F c t) * (∑ j, v j * (h j).F c t) := by
  simp only [sum_F_mul]
  exact integrable_finsetSum _ fun i _ => integrable_finsetSum _ fun j _ =>
    (PF.F_integrable _ _ hc).const_mul _

theorem form_integral (w : ι → ℝ) (f : ι → PF) (v : κ → ℝ) (h : κ → PF) {u : ℝ} (hu : 0 < u) :
    form w f v h u * √(π / (4 * u ^ 2)) ^ 3 =
      ∫ t, (∑ i, w i * (f i).F (u ^ 2) t) * (∑ j, v j * (h j).F (u ^ 2) t) := by
  have hc : 0 < u ^ 2 := by positivity
  simp only [sum_F_mul]
  rw [integral_finsetSum _ fun i _ => integrable_finsetSum _ fun j _ =>
    (PF.F_integrable _ _ hc).const_mul _]
  unfold form
  rw [Finset.sum_mul]
  refine Finset.sum_congr rfl fun i _ => ?_
  rw [integral_finsetSum _ fun j _ => (PF.F_integrable _ _ hc).const_mul _, Finset.sum_mul]
  refine Finset.sum_congr rfl fun j _ => ?_
  rw [integral_const_mul, ← PF.F_integral _ _ hu]
  ring

theorem form_nonneg (w : ι → ℝ) (f : ι → PF) {u : ℝ} (hu : 0 < u) : 0 ≤ form w f w f u := by
  have h0 : 0 ≤ ∫ t, (∑ i, w i * (f i).F (u ^ 2) t) * (∑ j, w j * (f j).F (u ^ 2) t) :=
    integral_nonneg fun t => mul_self_nonneg _
  rw [← form_integral w f w f hu] at h0
  exact nonneg_of_mul_nonneg_left h0 (by positivity)

theorem form_schwarz (w : ι → ℝ) (f : ι → PF) (v : κ → ℝ) (h : κ → PF) {u : ℝ} (hu : 0 < u) :
    form w f v h u ^ 2 ≤ form w f w f u * form v h v h u := by
  have hc : 0 < u ^ 2 := by positivity
  have key := integral_schwarz (form_integrable w f w f hc) (form_integrable v h v h hc)
    (form_integrable w f v h hc) (Eventually.of_forall fun t r => by
      nlinarith [sq_nonneg ((∑ i, w i * (f i).F (u ^ 2) t) * r + ∑ j, v j * (h j).F (u ^ 2) t)])
  rw [← form_integral _ _ _ _ hu, ← form_integral _ _ _ _ hu, ← form_integral _ _ _ _ hu] at key
  set r := √(π / (4 * u ^ 2)) ^ 3
  have hr : 0 < r := by positivity
  have : form w f v h u ^ 2 * r ^ 2 ≤ (form w f w f u * form v h v h u) * r ^ 2 := by
    calc _ = (form w f v h u * r) ^ 2 := by ring
      _ ≤ _ := key
      _ = _ := by ring
  exact le_of_mul_le_mul_right this (by positivity)

theorem form_intOn (w : ι → ℝ) (f : ι → PF) (v : κ → ℝ) (h : κ → PF) :
    IntegrableOn (form w f v h) (Ioi 0) := by
  unfold form
  exact integrable_finsetSum _ fun i _ => integrable_finsetSum _ fun j _ =>
    (PF.H_integrable _ _).const_mul _

theorem form_int (w : ι → ℝ) (f : ι → PF) (v : κ → ℝ) (h : κ → PF) :
    ∫ u in Ioi (0 : ℝ), form w f v h u = ∑ i, ∑ j, w i * v j * ∫ u in Ioi (0 : ℝ), (f i).H (h j) u := by
  unfold form
  rw [integral_finsetSum _ fun i _ => integrable_finsetSum _ fun j _ =>
    (PF.H_integrable (f i) (h j)).const_mul _]
  refine Finset.sum_congr rfl fun i _ => ?_
  rw [integral_finsetSum _ fun j _ => (PF.H_integrable (f i) (h j)).const_mul _]
  refine Finset.sum_congr rfl fun j _ => ?_
  rw [integral_const_mul]

theorem int_form_schwarz (w : ι → ℝ) (f : ι → PF) (v : κ → ℝ) (h : κ → PF) :
    (∫ u in Ioi (0 : ℝ), form w f v h u) ^ 2 ≤
      (∫ u in Ioi (0 : ℝ), form w f w f u) * ∫ u in Ioi (0 : ℝ), form v h v h u := by
  refine integral_schwarz (form_intOn _ _ _ _) (form_intOn _ _ _ _) (form_intOn _ _ _ _) ?_
  refine (ae_restrict_iff' measurableSet_Ioi).2 (Eventually.of_forall fun u hu t => ?_)
  exact quad_nonneg (form_nonneg w f hu) (form_nonneg v h hu) (form_schwarz w f v h hu) t

end

/-- The product of two primitive functions of a pair. -/
noncomputable def PrimPair.pf (x : PrimPair) (A B : Dir → ℝ) (a b : Exp) : PF where
  p := x.α + x.β
  P := fun i => (x.α * A i + x.β * B i) / (x.α + x.β)
  g := fun i => pw (A i) (B i) (a.get i) (b.get i)
  hp := add_pos x.hα x.hβ

noncomputable def PrimPair.weight (x : PrimPair) (A B : Dir → ℝ) : ℝ :=
  x.coef * exp (-(x.α * x.β / (x.α + x.β)) * dist2 A B)

theorem contracted_form (S T : ShellPair) (a b c d : Exp) :
    contractedERI S T a b c d = 2 / √π * ∫ u in Ioi (0 : ℝ),
      form (fun i : Fin S.prims.length => S.prims[i].weight S.A S.B) (fun i => S.prims[i].pf S.A S.B a b)
        (fun j : Fin T.prims.length => T.prims[j].weight T.A T.B) (fun j => T.prims[j].pf T.A T.B c d) u := by
  rw [form_int]
  unfold contractedERI
  rw [← Fin.sum_univ_fun_getElem, Finset.mul_sum]
  refine Finset.sum_congr rfl fun i _ => ?_
  rw [← Fin.sum_univ_fun_getElem, Finset.mul_sum]
  refine Finset.sum_congr rfl fun j _ => ?_
  rw [coulomb_eq (PrimPair.hα _) (PrimPair.hβ _) (PrimPair.hα _) (PrimPair.hβ _)]
  unfold PrimPair.weight
  have e : (pairsOf (S.prims[i]).hα (S.prims[i]).hβ (T.prims[j]).hα (T.prims[j]).hβ S.A S.B T.A T.B).prod3 a b c d =
      (S.prims[i].pf S.A S.B a b).H (T.prims[j].pf T.A T.B c d) := rfl
  simp only [Fin.getElem_fin] at e ⊢
  rw [e]
  ring

/-- **Schwarz inequality for contracted integrals.** -/
theorem contracted_schwarz (S T : ShellPair) (a b c d : Exp) :
    contractedERI S T a b c d ^ 2 ≤ contractedERI S S a b a b * contractedERI T T c d c d := by
  rw [contracted_form, contracted_form, contracted_form]
  have h := int_form_schwarz (fun i : Fin S.prims.length => S.prims[i].weight S.A S.B)
    (fun i => S.prims[i].pf S.A S.B a b) (fun j : Fin T.prims.length => T.prims[j].weight T.A T.B)
    (fun j => T.prims[j].pf T.A T.B c d)
  calc _ = (2 / √π) ^ 2 * _ ^ 2 := mul_pow _ _ _
    _ ≤ _ := mul_le_mul_of_nonneg_left h (sq_nonneg _)
    _ = _ := by ring

theorem contracted_self_nonneg (S : ShellPair) (a b : Exp) : 0 ≤ contractedERI S S a b a b := by
  rw [contracted_form]
  refine mul_nonneg (by positivity) (setIntegral_nonneg measurableSet_Ioi fun u hu => ?_)
  exact form_nonneg _ _ hu

end Simint
