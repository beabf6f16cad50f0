import Verif.NucGauss

/-! One-electron integrals over contracted Gaussians as sums over primitives. -/

set_option autoImplicit false

open MeasureTheory Polynomial Real Set Filter

namespace Simint

theorem primG_eq (α : ℝ) (A : Dir → ℝ) (e : Exp) (r : Dir → ℝ) : primG α A e r =
    gauss1 α (A .x) e.x.toNat (r .x) * gauss1 α (A .y) e.y.toNat (r .y) *
      gauss1 α (A .z) e.z.toNat (r .z) := by
  unfold primG mono gauss1 dist2
  rw [show -α * ((r .x - A .x) ^ 2 + (r .y - A .y) ^ 2 + (r .z - A .z) ^ 2) =
    -α * (r .x - A .x) ^ 2 + -α * (r .y - A .y) ^ 2 + -α * (r .z - A .z) ^ 2 by ring, exp_add, exp_add]
  ring

/-- Integral of a product of three functions of one coordinate. -/
theorem integral_three (f g h : ℝ → ℝ) :
    ∫ r : R3, f r.1 * g r.2.1 * h r.2.2 = (∫ x, f x) * (∫ x, g x) * ∫ x, h x := by
  have e : (fun r : R3 => f r.1 * g r.2.1 * h r.2.2) =
      fun r : ℝ × (ℝ × ℝ) => f r.1 * (fun s : ℝ × ℝ => g s.1 * h s.2) r.2 := by
    funext r; simp only; ring
  rw [e, Measure.volume_eq_prod]
  refine (integral_prod_mul f (fun s : ℝ × ℝ => g s.1 * h s.2)).trans ?_
  rw [Measure.volume_eq_prod ℝ ℝ]
  rw [integral_prod_mul g h]; ring

theorem integrable_three {f g h : ℝ → ℝ} (hf : Integrable f) (hg : Integrable g) (hh : Integrable h) :
    Integrable fun r : R3 => f r.1 * g r.2.1 * h r.2.2 := by
  have e : (fun r : R3 => f r.1 * g r.2.1 * h r.2.2) =
      fun r : ℝ × (ℝ × ℝ) => f r.1 * (fun s : ℝ × ℝ => g s.1 * h s.2) r.2 := by
    funext r; simp only; ring
  rw [e, Measure.volume_eq_prod]
  exact hf.mul_prod (hg.mul_prod hh)

/-- Second derivative of a factor of one direction. -/
noncomputable def gauss1dd (α A : ℝ) (n : ℕ) (x : ℝ) : ℝ := iteratedDeriv 2 (gauss1 α A n) x

section
variable {α β : ℝ} (hα : 0 < α) (hβ : 0 < β)
include hα hβ

theorem ovl1_integrable (A B : ℝ) (i j : ℕ) : Integrable fun x => gauss1 α A i x * gauss1 β B j x := by
  rw [gauss1_eq, gauss1_eq]; exact L2_integrable hα hβ A B _ _

theorem kin1_integrable (A B : ℝ) (i j : ℕ) :
    Integrable fun x => gauss1 α A i x * (-1 / 2 * gauss1dd β B j x) := by
  have := (L2_integrable hα hβ A B ((X - C A) ^ i) (dG β B (dG β B ((X - C B) ^ j)))).const_mul (-1 / 2)
  refine this.congr (Eventually.of_forall fun x => ?_)
  simp only [gauss1dd]
  rw [gauss1_eq, gauss1_eq, dG_second]; ring

variable (A B : Dir → ℝ) (a b : Exp)

theorem overlap_prim : ∫ r : R3, primG α A a r.dir * primG β B b r.dir =
    ovl1 α (A .x) β (B .x) a.x.toNat b.x.toNat * ovl1 α (A .y) β (B .y) a.y.toNat b.y.toNat *
      ovl1 α (A .z) β (B .z) a.z.toNat b.z.toNat := by
  unfold ovl1
  rw [← integral_three]
  congr 1; ext r
  rw [primG_eq, primG_eq]
  simp only [R3.dir]; ring

theorem overlap_prim_integrable : Integrable fun r : R3 => primG α A a r.dir * primG β B b r.dir := by
  refine (integrable_three (ovl1_integrable hα hβ (A .x) (B .x) a.x.toNat b.x.toNat)
    (ovl1_integrable hα hβ (A .y) (B .y) a.y.toNat b.y.toNat)
    (ovl1_integrable hα hβ (A .z) (B .z) a.z.toNat b.z.toNat)).congr (Eventually.of_forall fun r => ?_)
  simp only
  rw [primG_eq, primG_eq]
  simp only [R3.dir]; ring

omit hα hβ in
theorem gauss1_smooth (α A : ℝ) (n : ℕ) (x : ℝ) : ContDiffAt ℝ 2 (gauss1 α A n) x := by
  unfold gauss1; fun_prop

omit hα hβ in
theorem laplace_prim (r : Dir → ℝ) : laplace (primG β B b) r =
    gauss1dd β (B .x) b.x.toNat (r .x) * gauss1 β (B .y) b.y.toNat (r .y) *
      gauss1 β (B .z) b.z.toNat (r .z) +
    gauss1 β (B .x) b.x.toNat (r .x) * gauss1dd β (B .y) b.y.toNat (r .y) *
      gauss1 β (B .z) b.z.toNat (r .z) +
    gauss1 β (B .x) b.x.toNat (r .x) * gauss1 β (B .y) b.y.toNat (r .y) *
      gauss1dd β (B .z) b.z.toNat (r .z) := by
  unfold laplace
  have key : ∀ (c : ℝ) (B : ℝ) (n : ℕ) (x : ℝ),
      iteratedDeriv 2 (fun x => c * gauss1 β B n x) x = c * gauss1dd β B n x := fun c B n x =>
    iteratedDeriv_const_mul_field c _
  have ex : (fun x => primG β B b (Function.update r .x x)) = fun x =>
      (gauss1 β (B .y) b.y.toNat (r .y) * gauss1 β (B .z) b.z.toNat (r .z)) *
        gauss1 β (B .x) b.x.toNat x := by
    funext x; rw [primG_eq]; simp only [Function.update_self, Function.update_of_ne (by decide : Dir.y ≠ Dir.x),
      Function.update_of_ne (by decide : Dir.z ≠ Dir.x)]; ring
  have ey : (fun x => primG β B b (Function.update r .y x)) = fun x =>
      (gauss1 β (B .x) b.x.toNat (r .x) * gauss1 β (B .z) b.z.toNat (r .z)) *
        gauss1 β (B .y) b.y.toNat x := by
    funext x; rw [primG_eq]; simp only [Function.update_self, Function.update_of_ne (by decide : Dir.x ≠ Dir.y),
      Function.update_of_ne (by decide : Dir.z ≠ Dir.y)]; ring
  have ez : (fun x => primG β B b (Function.update r .z x)) = fun x =>
      (gauss1 β (B .x) b.x.toNat (r .x) * gauss1 β (B .y) b.y.toNat (r .y)) *
        gauss1 β (B .z) b.z.toNat x := by
    funext x; rw [primG_eq]; simp only [Function.update_self, Function.update_of_ne (by decide : Dir.x ≠ Dir.z),
      Function.update_of_ne (by decide : Dir.y ≠ Dir.z)]
  rw [ex, ey, ez, key, key, key]
  ring

omit hα hβ in
theorem primG_smooth (i : Dir) (r : Dir → ℝ) (x : ℝ) :
    ContDiffAt ℝ 2 (fun x => primG β B b (Function.update r i x)) x := by
  have : ∀ j : Dir, ContDiff ℝ 2 fun x => Function.update r i x j := fun j => by
    by_cases h : j = i
    · subst h; simp only [Function.update_self]; fun_prop
    · simp only [Function.update_of_ne h]; fun_prop
  have hx := this .x
  have hy := this .y
  have hz := this .z
  unfold primG mono dist2
  fun_prop

theorem kinetic_prim_integrable : Integrable fun r : R3 =>
    primG α A a r.dir * (-1 / 2 * laplace (primG β B b) r.dir) := by
  have o := fun i : Dir => ovl1_integrable hα hβ (A i) (B i)
  have k := fun i : Dir => kin1_integrable hα hβ (A i) (B i)
  refine (((integrable_three (k .x a.x.toNat b.x.toNat) (o .y a.y.toNat b.y.toNat)
    (o .z a.z.toNat b.z.toNat)).add (integrable_three (o .x a.x.toNat b.x.toNat)
    (k .y a.y.toNat b.y.toNat) (o .z a.z.toNat b.z.toNat))).add (integrable_three
    (o .x a.x.toNat b.x.toNat) (o .y a.y.toNat b.y.toNat) (k .z a.z.toNat b.z.toNat))).congr
    (Eventually.of_forall fun r => ?_)
  simp only [Pi.add_apply]
  rw [primG_eq, laplace_prim]
  simp only [R3.dir]; ring

theorem kinetic_prim : ∫ r : R3, primG α A a r.dir * (-1 / 2 * laplace (primG β B b) r.dir) =
    kin1 α (A .x) β (B .x) a.x.toNat b.x.toNat * ovl1 α (A .y) β (B .y) a.y.toNat b.y.toNat *
      ovl1 α (A .z) β (B .z) a.z.toNat b.z.toNat +
    ovl1 α (A .x) β (B .x) a.x.toNat b.x.toNat * kin1 α (A .y) β (B .y) a.y.toNat b.y.toNat *
      ovl1 α (A .z) β (B .z) a.z.toNat b.z.toNat +
    ovl1 α (A .x) β (B .x) a.x.toNat b.x.toNat * ovl1 α (A .y) β (B .y) a.y.toNat b.y.toNat *
      kin1 α (A .z) β (B .z) a.z.toNat b.z.toNat := by
  have o := fun i : Dir => ovl1_integrable hα hβ (A i) (B i)
  have k := fun i : Dir => kin1_integrable hα hβ (A i) (B i)
  have i1 := integrable_three (k .x a.x.toNat b.x.toNat) (o .y a.y.toNat b.y.toNat)
    (o .z a.z.toNat b.z.toNat)
  have i2 := integrable_three (o .x a.x.toNat b.x.toNat)
    (k .y a.y.toNat b.y.toNat) (o .z a.z.toNat b.z.toNat)
  have i3 := integrable_three
    (o .x a.x.toNat b.x.toNat) (o .y a.y.toNat b.y.toNat) (k .z a.z.toNat b.z.toNat)
  have e : ∀ r : R3, primG α A a r.dir * (-1 / 2 * laplace (primG β B b) r.dir) = _ + _ + _ := fun r => by
    rw [primG_eq, laplace_prim]
    simp only [R3.dir]
    show _ = (fun r : R3 => (gauss1 α (A .x) a.x.toNat r.1 * (-1 / 2 * gauss1dd β (B .x) b.x.toNat r.1)) *
        (gauss1 α (A .y) a.y.toNat r.2.1 * gauss1 β (B .y) b.y.toNat r.2.1) *
        (gauss1 α (A .z) a.z.toNat r.2.2 * gauss1 β (B .z) b.z.toNat r.2.2)) r +
      (fun r : R3 => (gauss1 α (A .x) a.x.toNat r.1 * gauss1 β (B .x) b.x.toNat r.1) *
        (gauss1 α (A .y) a.y.toNat r.2.1 * (-1 / 2 * gauss1dd β (B .y) b.y.toNat r.2.1)) *
        (gauss1 α (A .z) a.z.toNat r.2.2 * gauss1 β (B .z) b.z.toNat r.2.2)) r +
      (fun r : R3 => (gauss1 α (A .x) a.x.toNat r.1 * gauss1 β (B .x) b.x.toNat r.1) *
        (gauss1 α (A .y) a.y.toNat r.2.1 * gauss1 β (B .y) b.y.toNat r.2.1) *
        (gauss1 α (A .z) a.z.toNat r.2.2 * (-1 / 2 * gauss1dd β (B .z) b.z.toNat r.2.2))) r
    ring
  simp only [e]
  refine (integral_add (i1.add i2) i3).trans ?_
  refine (congrArg (· + _) (integral_add i1 i2)).trans ?_
  simp only [integral_three (fun x => gauss1 α (A .x) a.x.toNat x * (-1 / 2 * gauss1dd β (B .x) b.x.toNat x))
    (fun x => gauss1 α (A .y) a.y.toNat x * gauss1 β (B .y) b.y.toNat x)
    (fun x => gauss1 α (A .z) a.z.toNat x * gauss1 β (B .z) b.z.toNat x),
    integral_three (fun x => gauss1 α (A .x) a.x.toNat x * gauss1 β (B .x) b.x.toNat x)
    (fun x => gauss1 α (A .y) a.y.toNat x * (-1 / 2 * gauss1dd β (B .y) b.y.toNat x))
    (fun x => gauss1 α (A .z) a.z.toNat x * gauss1 β (B .z) b.z.toNat x),
    integral_three (fun x => gauss1 α (A .x) a.x.toNat x * gauss1 β (B .x) b.x.toNat x)
    (fun x => gauss1 α (A .y) a.y.toNat x * gauss1 β (B .y) b.y.toNat x)
    (fun x => gauss1 α (A .z) a.z.toNat x * (-1 / 2 * gauss1dd β (B .z) b.z.toNat x))]
  rfl

end

/-! ## Contracted Gaussians -/

section
variable (A B : Shell ℝ)

/-- The exponents of a shell are positive. -/
def Shell.Pos (sh : Shell ℝ) : Prop := ∀ i, i < sh.nprim → 0 < sh.alpha i

variable {A B} (hA : A.Pos) (hB : B.Pos) (a b : Exp)

theorem laplace_contr (r : Dir → ℝ) : laplace (contrG B b) r =
    ∑ j ∈ Finset.range B.nprim, B.coef j * laplace (primG (B.alpha j) B.pos b) r := by
  unfold laplace contrG
  have key : ∀ (i : Dir) (x : ℝ),
      iteratedDeriv 2 (fun x => ∑ j ∈ Finset.range B.nprim,
        B.coef j * primG (B.alpha j) B.pos b (Function.update r i x)) x =
      ∑ j ∈ Finset.range B.nprim, B.coef j *
        iteratedDeriv 2 (fun x => primG (B.alpha j) B.pos b (Function.update r i x)) x := by
    intro i x
    rw [iteratedDeriv_fun_sum fun j _ => contDiffAt_const.mul (primG_smooth B.pos b i r x)]
    refine Finset.sum_congr rfl fun j _ => ?_
    exact iteratedDeriv_const_mul_field (B.coef j) _
  rw [key, key, key, ← Finset.sum_add_distrib, ← Finset.sum_add_distrib]
  exact Finset.sum_congr rfl fun j _ => by ring

include hA hB

theorem overlapInt_eq : overlapInt A B a b = ∑ i ∈ Finset.range A.nprim, ∑ j ∈ Finset.range B.nprim,
    A.coef i * B.coef j * ∫ r : R3, primG (A.alpha i) A.pos a r.dir * primG (B.alpha j) B.pos b r.dir := by
  unfold overlapInt contrG
  simp only [Finset.sum_mul_sum]
  rw [integral_finsetSum]
  · refine Finset.sum_congr rfl fun i hi => ?_
    rw [integral_finsetSum]
    · refine Finset.sum_congr rfl fun j hj => ?_
      rw [← integral_const_mul]
      congr 1; ext r; ring
    · intro j hj
      refine ((overlap_prim_integrable (hA i (Finset.mem_range.1 hi)) (hB j (Finset.mem_range.1 hj))
        A.pos B.pos a b).const_mul (A.coef i * B.coef j)).congr (Eventually.of_forall fun r => ?_)
      simp only; ring
  · intro i hi
    refine integrable_finsetSum _ fun j hj => ?_
    refine ((overlap_prim_integrable (hA i (Finset.mem_range.1 hi)) (hB j (Finset.mem_range.1 hj))
      A.pos B.pos a b).const_mul (A.coef i * B.coef j)).congr (Eventually.of_forall fun r => ?_)
    simp only; ring

theorem kineticInt_eq : kineticInt A B a b = ∑ i ∈ Finset.range A.nprim, ∑ j ∈ Finset.range B.nprim,
    A.coef i * B.coef j * ∫ r : R3, primG (A.alpha i) A.pos a r.dir *
      (-1 / 2 * laplace (primG (B.alpha j) B.pos b) r.dir) := by
  unfold kineticInt
  simp only [laplace_contr, contrG, Finset.mul_sum (a := (-1 / 2 : ℝ)), Finset.sum_mul_sum]
  rw [integral_finsetSum]
  · refine Finset.sum_congr rfl fun i hi => ?_
    rw [integral_finsetSum]
    · refine Finset.sum_congr rfl fun j hj => ?_
      rw [← integral_const_mul]
      congr 1; ext r; ring
    · intro j hj
      refine ((kinetic_prim_integrable (hA i (Finset.mem_range.1 hi)) (hB j (Finset.mem_range.1 hj))
        A.pos B.pos a b).const_mul (A.coef i * B.coef j)).congr (Eventually.of_forall fun r => ?_)
      simp only; ring
  · intro i hi
    refine integrable_finsetSum _ fun j hj => ?_
    refine ((kinetic_prim_integrable (hA i (Finset.mem_range.1 hi)) (hB j (Finset.mem_range.1 hj))
      A.pos B.pos a b).const_mul (A.coef i * B.coef j)).congr (Eventually.of_forall fun r => ?_)
    simp only; ring

theorem potential_one_integrable (C : Dir → ℝ) : Integrable fun r : R3 =>
    contrG A a r.dir * contrG B b r.dir / √(dist2 r.dir C) := by
  simp only [contrG, Finset.sum_mul_sum, Finset.sum_div]
  refine integrable_finsetSum _ fun i hi => integrable_finsetSum _ fun j hj => ?_
  refine ((nuclear_integrable (hA i (Finset.mem_range.1 hi)) (hB j (Finset.mem_range.1 hj))
      A.pos B.pos C a b).const_mul (A.coef i * B.coef j)).congr (Eventually.of_forall fun r => ?_)
  simp only; ring

theorem potential_one (C : Dir → ℝ) : ∫ r : R3, contrG A a r.dir * contrG B b r.dir / √(dist2 r.dir C) =
    ∑ i ∈ Finset.range A.nprim, ∑ j ∈ Finset.range B.nprim, A.coef i * B.coef j *
      ∫ r : R3, primG (A.alpha i) A.pos a r.dir * primG (B.alpha j) B.pos b r.dir / √(dist2 r.dir C) := by
  simp only [contrG, Finset.sum_mul_sum, Finset.sum_div]
  rw [integral_finsetSum]
  · refine Finset.sum_congr rfl fun i hi => ?_
    rw [integral_finsetSum]
    · refine Finset.sum_congr rfl fun j hj => ?_
      rw [← integral_const_mul]
      congr 1; ext r; ring
    · intro j hj
      refine ((nuclear_integrable (hA i (Finset.mem_range.1 hi)) (hB j (Finset.mem_range.1 hj))
        A.pos B.pos C a b).const_mul (A.coef i * B.coef j)).congr (Eventually.of_forall fun r => ?_)
      simp only; ring
  · intro i hi
    refine integrable_finsetSum _ fun j hj => ?_
    refine ((nuclear_integrable (hA i (Finset.mem_range.1 hi)) (hB j (Finset.mem_range.1 hj))
      A.pos B.pos C a b).const_mul (A.coef i * B.coef j)).congr (Eventually.of_forall fun r => ?_)
    simp only; ring

theorem potentialInt_eq (centers : List (ℝ × (Dir → ℝ))) : potentialInt centers A B a b =
    (centers.map fun c => -c.1 * ∫ r : R3, contrG A a r.dir * contrG B b r.dir / √(dist2 r.dir c.2)).sum := by
  unfold potentialInt nuclearPotential
  have key : Integrable (fun r : R3 => contrG A a r.dir *
      (centers.map fun c => -c.1 / √(dist2 r.dir c.2)).sum * contrG B b r.dir) ∧
      ∫ r : R3, contrG A a r.dir * (centers.map fun c => -c.1 / √(dist2 r.dir c.2)).sum * contrG B b r.dir =
      (centers.map fun c => -c.1 * ∫ r : R3, contrG A a r.dir * contrG B b r.dir / √(dist2 r.dir c.2)).sum := by
    induction centers with
    | nil => simp
    | cons c cs ih =>
      have h1 := (potential_one_integrable hA hB a b c.2).const_mul (-c.1)
      have e : (fun r : R3 => contrG A a r.dir *
          ((c :: cs).map fun c => -c.1 / √(dist2 r.dir c.2)).sum * contrG B b r.dir) =
          fun r : R3 => (-c.1 * (contrG A a r.dir * contrG B b r.dir / √(dist2 r.dir c.2))) +
          contrG A a r.dir * (cs.map fun c => -c.1 / √(dist2 r.dir c.2)).sum * contrG B b r.dir := by
        funext r
        rw [List.map_cons, List.sum_cons]; ring
      rw [e]
      refine ⟨h1.add ih.1, ?_⟩
      rw [integral_add h1 ih.1, ih.2, integral_const_mul, List.map_cons, List.sum_cons]
  exact key.2

end

end Simint
