import Verif.ValeevBoys
import Verif.NormLemmas

/-!
# The reference program of the tests computes electron repulsion integrals (C72, C73)

The specification of the integral is `coulomb` (Spec/ERI.lean), of the Boys function `boysF`.
-/

set_option autoImplicit false

open MeasureTheory Polynomial Real Set

namespace Simint

/-- The powers as a Cartesian component. -/
def toExp (l : Dir → ℕ) : Exp := ⟨l .x, l .y, l .z⟩

/-- A normalised primitive has norm one. -/
noncomputable def UnitNorm (c α : ℝ) (e : Exp) : Prop :=
  0 < c ∧ ∀ A : Dir → ℝ, ∫ r : R3, (c * primG α A e r.dir) * (c * primG α A e r.dir) = 1

/-! ## C72: the integral -/

/-- The tables: factorials, odd double factorials shifted by one, binomial coefficients. -/
theorem C72_tables :
    (∀ i : ℕ, i < 200 → facAt i = some (i.factorial : ℝ)) ∧
    (∀ i : ℕ, i < 400 → dfAt i = some ((i - 1).doubleFactorial : ℝ)) ∧
    (∀ i j : ℕ, i < 200 → j ≤ i → bcAt i j = some (i.choose j : ℝ)) :=
  ⟨fun _ h => facAt_nat h, fun _ h => dfAt_nat h, fun _ _ h1 h2 => bcAt_eq h1 h2⟩

theorem normConst_eq {l : Dir → ℕ} (h : lTot l < 200) {α : ℝ} (hα : 0 < α) :
    ∃ c, normConst l α = some c ∧ UnitNorm c α (toExp l) := by
  have hl : ∀ i, l i < 200 := fun i => by cases i <;> (unfold lTot at h; omega)
  have e : ∀ i, dfAt (2 * (l i : ℤ)) = some (oddFac (l i) : ℝ) := fun i => by
    have e : (2 * (l i : ℤ)) = ((2 * l i : ℕ) : ℤ) := by push_cast; ring
    rw [e, dfAt_nat (by have := hl i; omega), oddFac]
  rw [normConst, e, e, e]
  refine ⟨_, rfl, ?_⟩
  have hx : (0 : ℝ) < oddFac (l .x) := Nat.cast_pos.2 (Nat.doubleFactorial_pos _)
  have hy : (0 : ℝ) < oddFac (l .y) := Nat.cast_pos.2 (Nat.doubleFactorial_pos _)
  have hz : (0 : ℝ) < oddFac (l .z) := Nat.cast_pos.2 (Nat.doubleFactorial_pos _)
  have hpi := pi_pos
  refine ⟨by positivity, fun A => ?_⟩
  set c := (2 * α / π) ^ (0.75 : ℝ) * (4 * α) ^ (0.5 * ((l .x : ℝ) + l .y + l .z)) /
    √((oddFac (l .x) : ℝ) * oddFac (l .y) * oddFac (l .z)) with hc
  have e1 : ∀ r : R3, c * primG α A (toExp l) r.dir * (c * primG α A (toExp l) r.dir) =
      c * c * (primG α A (toExp l) r.dir * primG α A (toExp l) r.dir) := fun r => by ring
  simp only [e1]
  rw [integral_const_mul, overlap_prim_self hα hα A (toExp l) (l := lTot l) (by simp [toExp, lTot])]
  have e2 : c * c = (2 * α / π) ^ (3 / 2 : ℝ) * (4 * α) ^ (lTot l : ℝ) /
      ((oddFac (l .x) : ℝ) * oddFac (l .y) * oddFac (l .z)) := by
    rw [hc, div_mul_div_comm, mul_self_sqrt (by positivity), mul_mul_mul_comm, ← rpow_add (by positivity),
      ← rpow_add (by positivity)]
    congr 3
    · norm_num
    · unfold lTot; push_cast; ring
  have e3 : (toExp l).x.toNat = l .x ∧ (toExp l).y.toNat = l .y ∧ (toExp l).z.toNat = l .z := by simp [toExp]
  rw [e2, e3.1, e3.2.1, e3.2.2]
  have e4 : (α + α : ℝ) ^ (-((lTot l : ℝ) + 3 / 2)) = ((2 * α) ^ (lTot l) * (2 * α) ^ (3 / 2 : ℝ))⁻¹ := by
    rw [← two_mul, rpow_neg (by positivity), rpow_add (by positivity), rpow_natCast]
  have e5 : (2 * α / π) ^ (3 / 2 : ℝ) = (2 * α) ^ (3 / 2 : ℝ) / (π * √π) := by
    rw [div_rpow (by positivity) (by positivity), show (3 / 2 : ℝ) = 1 + 1 / 2 by norm_num, rpow_add pi_pos, rpow_one,
      sqrt_eq_rpow]
  have e6 : (4 * α : ℝ) ^ (lTot l) = 2 ^ lTot l * (2 * α) ^ lTot l := by
    rw [← mul_pow]; congr 1; ring
  rw [e4, e5, rpow_natCast, e6]
  have h1 : (2 * α) ^ (3 / 2 : ℝ) ≠ 0 := (rpow_pos_of_pos (by positivity) _).ne'
  field_simp

theorem thoD_degree (G : Pairs) (l1 l2 l3 l4 : Dir → ℕ) :
    (G.thoD (toExp l1) (toExp l2) (toExp l3) (toExp l4) .x * (G.thoD (toExp l1) (toExp l2) (toExp l3) (toExp l4) .y *
      G.thoD (toExp l1) (toExp l2) (toExp l3) (toExp l4) .z)).natDegree ≤ lTot l1 + lTot l2 + lTot l3 + lTot l4 := by
  have h : ∀ i, (G.thoD (toExp l1) (toExp l2) (toExp l3) (toExp l4) i).natDegree ≤ l1 i + l2 i + (l3 i + l4 i) := by
    intro i
    unfold Pairs.thoD
    refine (thoDir_degree _ _ _ _ _ _ _ _).trans ?_
    cases i <;> simp [toExp, Exp.get]
  have h1 := h .x
  have h2 := h .y
  have h3 := h .z
  refine natDegree_mul_le.trans ((Nat.add_le_add h1 (natDegree_mul_le.trans (Nat.add_le_add h2 h3))).trans ?_)
  unfold lTot; omega

section
variable (bf : ℕ → ℝ → Option (List ℝ)) {l1 l2 l3 l4 : Dir → ℕ} {α β γ δ : ℝ} (hα : 0 < α) (hβ : 0 < β) (hγ : 0 < γ)
  (hδ : 0 < δ) (A B C D : Dir → ℝ) (hn : lTot l1 + lTot l2 + lTot l3 + lTot l4 < 200)

/-- Argument of the Boys function: `ρ |P - Q|²`. -/
noncomputable def boysArg (α β γ δ : ℝ) (A B C D : Dir → ℝ) : ℝ :=
  dist2 (fun i => (α * A i + β * B i) / (α + β)) (fun i => (γ * C i + δ * D i) / (γ + δ)) *
    ((α + β) * (γ + δ) / (α + β + (γ + δ)))

/-- Prefactor. -/
noncomputable def eriFac (α β γ δ : ℝ) (A B C D : Dir → ℝ) : ℝ :=
  2 * π ^ (5 / 2 : ℝ) * exp (-(α * β / (α + β)) * dist2 A B) * exp (-(γ * δ / (γ + δ)) * dist2 C D) /
    ((α + β) * (γ + δ) * √(α + β + (γ + δ)))

include hn in
/-- The program with any Boys routine. -/
theorem valeevEri_eq {φ : ℕ → ℝ}
    (hF : bf (lTot l1 + lTot l2 + lTot l3 + lTot l4) (boysArg α β γ δ A B C D) =
      some ((List.range (lTot l1 + lTot l2 + lTot l3 + lTot l4 + 1)).map φ)) (norm : Bool) {n1 n2 n3 n4 : ℝ}
    (h1 : normConst l1 α = some n1) (h2 : normConst l2 β = some n2) (h3 : normConst l3 γ = some n3)
    (h4 : normConst l4 δ = some n4) :
    valeevEri bf l1 α A l2 β B l3 γ C l4 δ D norm = some (subL φ
      ((pairsOf hα hβ hγ hδ A B C D).thoD (toExp l1) (toExp l2) (toExp l3) (toExp l4) .x *
        ((pairsOf hα hβ hγ hδ A B C D).thoD (toExp l1) (toExp l2) (toExp l3) (toExp l4) .y *
          (pairsOf hα hβ hγ hδ A B C D).thoD (toExp l1) (toExp l2) (toExp l3) (toExp l4) .z)) *
      (eriFac α β γ δ A B C D * (if norm then n1 * n2 * n3 * n4 else 1))) := by
  have hl : ∀ i, l1 i + l2 i + l3 i + l4 i < 200 := fun i => by
    unfold lTot at hn; cases i <;> omega
  have hsum : (fun i : Dir => l1 i + l2 i) .x + (fun i : Dir => l3 i + l4 i) .x +
      ((fun i : Dir => l1 i + l2 i) .y + (fun i : Dir => l3 i + l4 i) .y) +
      ((fun i : Dir => l1 i + l2 i) .z + (fun i : Dir => l3 i + l4 i) .z) ≤
      lTot l1 + lTot l2 + lTot l3 + lTot l4 := by
    simp only [lTot]; omega
  have harg : ((α * A .x + β * B .x) / (α + β) - (γ * C .x + δ * D .x) / (γ + δ)) *
        ((α * A .x + β * B .x) / (α + β) - (γ * C .x + δ * D .x) / (γ + δ)) +
      ((α * A .y + β * B .y) / (α + β) - (γ * C .y + δ * D .y) / (γ + δ)) *
        ((α * A .y + β * B .y) / (α + β) - (γ * C .y + δ * D .y) / (γ + δ)) +
      ((α * A .z + β * B .z) / (α + β) - (γ * C .z + δ * D .z) / (γ + δ)) *
        ((α * A .z + β * B .z) / (α + β) - (γ * C .z + δ * D .z) / (γ + δ)) =
      dist2 (fun i => (α * A i + β * B i) / (α + β)) (fun i => (γ * C i + δ * D i) / (γ + δ)) := by
    simp only [dist2]; ring
  have hK : ∀ (α β : ℝ) (A B : Dir → ℝ), -α * β * ((A .x - B .x) * (A .x - B .x) + (A .y - B .y) * (A .y - B .y) +
      (A .z - B .z) * (A .z - B .z)) / (α + β) = -(α * β / (α + β)) * dist2 A B := by
    intro α β A B
    simp only [dist2]; ring
  have hpf : normPfac norm (eriFac α β γ δ A B C D) l1 α l2 β l3 γ l4 δ =
      some (eriFac α β γ δ A B C D * (if norm then n1 * n2 * n3 * n4 else 1)) := by
    unfold normPfac
    rw [h1, h2, h3, h4]
    cases norm
    · simp
    · simp [mul_assoc]
  have h25 : (2.5 : ℝ) = 5 / 2 := by norm_num
  unfold valeevEri
  simp only []
  rw [harg, hK, hK, h25]
  have hb : ∀ {X : Type} (x : Option ℝ) (y : ℝ) (k : ℝ → Option X), x = some y → (x >>= k) = k y := by
    intro X x y k h; rw [h]; rfl
  have hb' : ∀ {X : Type} (x : Option (List ℝ)) (y : List ℝ) (k : List ℝ → Option X), x = some y →
      (x >>= k) = k y := by
    intro X x y k h; rw [h]; rfl
  refine (hb _ _ _ hpf).trans ?_
  refine (hb' _ _ _ hF).trans ?_
  have h' := hl .x
  have h'' := hl .y
  have h''' := hl .z
  refine (hb' _ _ _ (fArr_eq (by omega) (by omega) _ _)).trans ?_
  refine (hb' _ _ _ (fArr_eq (by omega) (by omega) _ _)).trans ?_
  refine (hb' _ _ _ (fArr_eq (by omega) (by omega) _ _)).trans ?_
  refine (hb' _ _ _ (fArr_eq (by omega) (by omega) _ _)).trans ?_
  refine (hb' _ _ _ (fArr_eq (by omega) (by omega) _ _)).trans ?_
  refine (hb' _ _ _ (fArr_eq (by omega) (by omega) _ _)).trans ?_
  set G := pairsOf hα hβ hγ hδ A B C D with hG
  refine (hb _ _ _ (valSum_eq φ _ _ (fun i => fCoef (l1 i) (l2 i) (G.P i - G.A i) (G.P i - G.B i))
    (fun i => fCoef (l3 i) (l4 i) (G.Q i - G.C i) (G.Q i - G.D i)) _ _ _ _ hsum hn _ _
    (fun i => by cases i <;> rfl) (fun i => by cases i <;> rfl))).trans ?_
  rfl

include hα hβ hγ hδ hn in
/-- With exact Boys functions the program returns the electron repulsion integral, times the four norms
if asked for; no table or array is read outside of its bounds. -/
theorem C72_eri (hF : bf (lTot l1 + lTot l2 + lTot l3 + lTot l4) (boysArg α β γ δ A B C D) =
      some ((List.range (lTot l1 + lTot l2 + lTot l3 + lTot l4 + 1)).map fun m =>
        boysF m (boysArg α β γ δ A B C D))) :
    valeevEri bf l1 α A l2 β B l3 γ C l4 δ D false =
      some (coulomb α β γ δ A B C D (toExp l1) (toExp l2) (toExp l3) (toExp l4)) ∧
    ∃ n1 n2 n3 n4, UnitNorm n1 α (toExp l1) ∧ UnitNorm n2 β (toExp l2) ∧ UnitNorm n3 γ (toExp l3) ∧
      UnitNorm n4 δ (toExp l4) ∧ valeevEri bf l1 α A l2 β B l3 γ C l4 δ D true =
        some (n1 * n2 * n3 * n4 * coulomb α β γ δ A B C D (toExp l1) (toExp l2) (toExp l3) (toExp l4)) := by
  obtain ⟨n1, h1, u1⟩ := normConst_eq (l := l1) (by omega) hα
  obtain ⟨n2, h2, u2⟩ := normConst_eq (l := l2) (by omega) hβ
  obtain ⟨n3, h3, u3⟩ := normConst_eq (l := l3) (by omega) hγ
  obtain ⟨n4, h4, u4⟩ := normConst_eq (l := l4) (by omega) hδ
  have hc := coulomb_tho hα hβ hγ hδ A B C D (toExp l1) (toExp l2) (toExp l3) (toExp l4)
  have hT : (pairsOf hα hβ hγ hδ A B C D).R2 * (pairsOf hα hβ hγ hδ A B C D).rho = boysArg α β γ δ A B C D := rfl
  rw [hT, ← eriFac] at hc
  refine ⟨?_, n1, n2, n3, n4, u1, u2, u3, u4, ?_⟩
  · rw [valeevEri_eq bf hα hβ hγ hδ A B C D hn hF false h1 h2 h3 h4, hc]
    refine congrArg some ?_
    simp only [Bool.false_eq_true, if_false, mul_one]
    exact mul_comm _ _
  · rw [valeevEri_eq bf hα hβ hγ hδ A B C D hn hF true h1 h2 h3 h4, hc]
    refine congrArg some ?_
    simp only [if_true]
    generalize n1 * n2 * n3 * n4 = u
    rw [mul_comm u, ← mul_assoc, mul_comm (eriFac _ _ _ _ _ _ _ _)]

/-! ## C73: the Boys function and the accuracy of the whole program -/

theorem boysArg_nonneg (hα : 0 < α) (hβ : 0 < β) (hγ : 0 < γ) (hδ : 0 < δ) : 0 ≤ boysArg α β γ δ A B C D := by
  unfold boysArg dist2; positivity

include hα hβ hγ hδ hn in
/-- Above 20 the program as written is exact. -/
theorem C73_far (hT : 20 < boysArg α β γ δ A B C D) :
    valeevEri valeevF l1 α A l2 β B l3 γ C l4 δ D false =
      some (coulomb α β γ δ A B C D (toExp l1) (toExp l2) (toExp l3) (toExp l4)) :=
  (C72_eri valeevF hα hβ hγ hδ A B C D hn (valeevF_large _ hT)).1

include hα hβ hγ hδ in
/-- The program as written, total angular momentum up to 98: the integral is a combination of Boys functions with
coefficients `c k`, and the error is at most `(2n+1) 10^-17` times the same combination of absolute values. -/
theorem C73_eri (hn : lTot l1 + lTot l2 + lTot l3 + lTot l4 ≤ 98) :
    ∃ (r : ℝ) (c : ℕ → ℝ), valeevEri valeevF l1 α A l2 β B l3 γ C l4 δ D false = some r ∧
      coulomb α β γ δ A B C D (toExp l1) (toExp l2) (toExp l3) (toExp l4) =
        ∑ k ∈ Finset.range (lTot l1 + lTot l2 + lTot l3 + lTot l4 + 1), c k * boysF k (boysArg α β γ δ A B C D) ∧
      |r - coulomb α β γ δ A B C D (toExp l1) (toExp l2) (toExp l3) (toExp l4)| ≤
        1e-17 * (2 * (lTot l1 + lTot l2 + lTot l3 + lTot l4 : ℕ) + 1) *
          ∑ k ∈ Finset.range (lTot l1 + lTot l2 + lTot l3 + lTot l4 + 1), |c k| * boysF k (boysArg α β γ δ A B C D) := by
  obtain ⟨n1, h1, -⟩ := normConst_eq (l := l1) (by omega) hα
  obtain ⟨n2, h2, -⟩ := normConst_eq (l := l2) (by omega) hβ
  obtain ⟨n3, h3, -⟩ := normConst_eq (l := l3) (by omega) hγ
  obtain ⟨n4, h4, -⟩ := normConst_eq (l := l4) (by omega) hδ
  have hc := coulomb_tho hα hβ hγ hδ A B C D (toExp l1) (toExp l2) (toExp l3) (toExp l4)
  have hT : (pairsOf hα hβ hγ hδ A B C D).R2 * (pairsOf hα hβ hγ hδ A B C D).rho = boysArg α β γ δ A B C D := rfl
  rw [hT, ← eriFac] at hc
  have hdeg := thoD_degree (pairsOf hα hβ hγ hδ A B C D) l1 l2 l3 l4
  set T := boysArg α β γ δ A B C D
  set N := lTot l1 + lTot l2 + lTot l3 + lTot l4
  set W := (pairsOf hα hβ hγ hδ A B C D).thoD (toExp l1) (toExp l2) (toExp l3) (toExp l4) .x *
        ((pairsOf hα hβ hγ hδ A B C D).thoD (toExp l1) (toExp l2) (toExp l3) (toExp l4) .y *
          (pairsOf hα hβ hγ hδ A B C D).thoD (toExp l1) (toExp l2) (toExp l3) (toExp l4) .z)
  set E := eriFac α β γ δ A B C D
  have hcc : coulomb α β γ δ A B C D (toExp l1) (toExp l2) (toExp l3) (toExp l4) =
      ∑ k ∈ Finset.range (N + 1), E * W.coeff k * boysF k T := by
    rw [hc, boysL, subL_coeff hdeg, Finset.mul_sum]
    exact Finset.sum_congr rfl fun k _ => by ring
  obtain ⟨φ, hφ, hacc⟩ : ∃ φ : ℕ → ℝ, valeevF N T = some ((List.range (N + 1)).map φ) ∧
      ∀ m ≤ N, 0 ≤ boysF m T - φ m ∧ boysF m T - φ m ≤ EPS * (2 * N + 1) * boysF m T := by
    rcases le_or_gt T 20 with h | h
    · exact valeevF_small hn (boysArg_nonneg A B C D hα hβ hγ hδ) h
    · refine ⟨fun m => boysF m T, valeevF_large N h, fun m _ => ?_⟩
      rw [sub_self]
      refine ⟨le_rfl, mul_nonneg ?_ (boysF_nonneg _ _)⟩
      rw [EPS]; positivity
  refine ⟨_, fun k => E * W.coeff k, valeevEri_eq valeevF hα hβ hγ hδ A B C D (by omega) hφ false h1 h2 h3 h4, hcc, ?_⟩
  rw [hcc, subL_coeff hdeg]
  simp only [Bool.false_eq_true, if_false, mul_one]
  rw [mul_comm, Finset.mul_sum, ← Finset.sum_sub_distrib, Finset.mul_sum]
  refine (Finset.abs_sum_le_sum_abs _ _).trans (Finset.sum_le_sum fun k hk => ?_)
  have hk' := hacc k (by rw [Finset.mem_range] at hk; omega)
  have e : E * (W.coeff k * φ k) - E * W.coeff k * boysF k T = -(E * W.coeff k * (boysF k T - φ k)) := by ring
  rw [e, abs_neg, abs_mul, abs_of_nonneg hk'.1]
  have := mul_le_mul_of_nonneg_left hk'.2 (abs_nonneg (E * W.coeff k))
  rw [EPS] at this
  linarith

end

/-- Every value of the Boys function is at most too small by the factor `(2n+1) 10^-17`; no access outside of `df`. -/
theorem C73_boys {n : ℕ} (hn : n ≤ 98) {x : ℝ} (hx : 0 ≤ x) :
    ∃ F : List ℝ, valeevF n x = some F ∧ F.length = n + 1 ∧ ∀ m ≤ n, ∃ v, F[m]? = some v ∧
      v ≤ boysF m x ∧ boysF m x - v ≤ 1e-17 * (2 * n + 1) * boysF m x := by
  rcases le_or_gt x 20 with h | h
  · obtain ⟨φ, hφ, hacc⟩ := valeevF_small hn hx h
    refine ⟨_, hφ, by simp, fun m hm => ⟨φ m, ?_, by linarith [(hacc m hm).1], ?_⟩⟩
    · rw [List.getElem?_map, List.getElem?_range (by omega)]; rfl
    · have := (hacc m hm).2
      rwa [EPS] at this
  · refine ⟨_, valeevF_large n h, by simp, fun m hm => ⟨boysF m x, ?_, le_rfl, ?_⟩⟩
    · rw [List.getElem?_map, List.getElem?_range (by omega)]; rfl
    · rw [sub_self]
      exact mul_nonneg (by positivity) (boysF_nonneg _ _)

/-- Above 20 the values are exact, for every order. -/
theorem C73_boys_exact (n : ℕ) {x : ℝ} (hx : 20 < x) :
    valeevF n x = some ((List.range (n + 1)).map fun m => boysF m x) := valeevF_large n hx

/-- From order 198 on the program reads past the end of `df` for arguments up to 20. -/
theorem C73_outside {n : ℕ} (hn : 198 ≤ n) {x : ℝ} (hx : x ≤ 20) : valeevF n x = none := by
  rw [valeevF, if_neg (by linarith)]
  have e : (((2 * n : ℕ) : ℤ) + 2 * ((0 + 1 : ℕ) : ℤ) + 2) = ((2 * n + 4 : ℕ) : ℤ) := by push_cast; ring
  have h2 : ∀ num sum, fSeries (2 * x) (2 * n) MAXFAC 0 num sum = none := by
    intro num sum
    rw [MAXFAC, fSeries, e, dfAt_out (by omega)]
    rfl
  cases dfAt (2 * (n : ℤ)) with
  | none => rfl
  | some v =>
    simp only [Option.bind_eq_bind, Option.bind_some, h2]
    rfl

/-- The literals `M_PI` (ValeevRef.cpp:41) and `K` (line 105, first 40 digits) are within `10^-19` of `π` and `√π / 2`. -/
theorem C73_constants : |3.14159265358979323846 - π| ≤ 1e-20 ∧
    |0.8862269254527580136490837416705725913987 - √π / 2| ≤ 1e-19 := by
  have h1 := pi_gt_d20
  have h2 := pi_lt_d20
  refine ⟨abs_le.2 ⟨by linarith, by linarith⟩, abs_le.2 ⟨?_, ?_⟩⟩
  · have : √π ≤ 2 * (0.8862269254527580136490837416705725913987 + 1e-19) := by
      rw [sqrt_le_left (by norm_num)]
      refine h2.le.trans ?_
      norm_num
    linarith
  · have : 2 * (0.8862269254527580136490837416705725913987 - 1e-19) ≤ √π := by
      refine le_sqrt_of_sq_le (le_trans ?_ h1.le)
      norm_num
    linarith

/-! ## Concrete cases -/

/-- `px`. -/
def demoPx : Dir → ℕ
  | .x => 1
  | _ => 0

/-- A center at distance 10. -/
def demoFar : Dir → ℝ
  | .x => 10
  | _ => 0

/-- A `p` function next to an `s` function, and an `s` pair at distance 10: the argument is 100. -/
example : valeevEri valeevF demoPx 1 (fun _ => 0) (fun _ => 0) 1 (fun _ => 0) (fun _ => 0) 1 demoFar (fun _ => 0) 1
    demoFar false = some (coulomb 1 1 1 1 (fun _ => 0) (fun _ => 0) demoFar demoFar ⟨1, 0, 0⟩ ⟨0, 0, 0⟩ ⟨0, 0, 0⟩ ⟨0, 0, 0⟩) :=
  C73_far one_pos one_pos one_pos one_pos _ _ _ _ (by simp [lTot, demoPx]) (by
    norm_num [boysArg, dist2, demoFar])

/-- Order 0 at argument 0: the series stops after one turn with the value 1. -/
theorem valeevF_zero : valeevF 0 0 = some [1] := by
  have h0 : dfAt 0 = some 1 := by simpa using dfAt_nat (i := 0) (by norm_num)
  have h4 : dfAt 4 = some 3 := by simpa [Nat.doubleFactorial] using dfAt_nat (i := 4) (by norm_num)
  have he : ¬ EPS < 0 := by rw [EPS]; norm_num
  simp [valeevF, h0, fSeries, MAXFAC, h4, he, fDown]

/-- Four `s` functions with exponent 1 at the origin: `π^(5/2) / 4`. -/
example : valeevEri valeevF (fun _ => 0) 1 (fun _ => 0) (fun _ => 0) 1 (fun _ => 0) (fun _ => 0) 1 (fun _ => 0)
    (fun _ => 0) 1 (fun _ => 0) false = some (π ^ (5 / 2 : ℝ) / 4) := by
  have h0 : facAt 0 = some 1 := by simpa using facAt_nat (i := 0) (by norm_num)
  have h25 : (2.5 : ℝ) = 5 / 2 := by norm_num
  have hs : √(1 + 1 + (1 + 1) : ℝ) = 2 := by
    rw [show (1 + 1 + (1 + 1) : ℝ) = 2 ^ 2 by norm_num]; exact sqrt_sq (by norm_num)
  have hf : ∀ PA PB : ℝ, fArr 0 0 PA PB = some [1] := fun PA PB => by
    rw [fArr_eq (by norm_num) (by norm_num)]; simp [fCoef]
  have hg : ∀ p q r : ℝ, gFac [1] [1] p q r 0 0 0 0 = some 1 := fun p q r => by
    simp [gFac, h0, rdAt]
  have ht : ∀ x y z r : ℝ, valTerm [1] 1 1 1 x y z r 0 0 0 0 0 0 0 0 0 0 0 0 0 0 0 = some 1 := fun x y z r => by
    simp [valTerm, h0, rdAt]
  have hsum : ∀ (p q r : ℝ) (PQ : Dir → ℝ) (f : Dir → List ℝ), (∀ i, f i = [1]) →
      valSum [1] (fun _ => 0) (fun _ => 0) f f p q r PQ = some 1 := fun p q r PQ f h => by
    simp [valSum, osum, h, hg, ht]
  have hd : ∀ i : Dir, (match i with | .x => ([1] : List ℝ) | .y => [1] | .z => [1]) = [1] := by
    intro i; cases i <;> rfl
  have hF : valeevF (lTot (fun _ => 0) + lTot (fun _ => 0) + lTot (fun _ => 0) + lTot fun _ => 0) 0 = some [1] := valeevF_zero
  simp only [valeevEri, normPfac, hf, Option.bind_eq_bind, Option.bind_some, hd, h25, hs, mul_zero, add_zero, zero_div,
    sub_zero, neg_zero, zero_mul, exp_zero, mul_one, hF, Bool.false_eq_true, if_false, Option.pure_def,
    one_mul]
  rw [hsum _ _ _ _ _ fun i => by cases i <;> rfl]
  simp only [Option.bind_some, Option.some.injEq]
  ring

end Simint
