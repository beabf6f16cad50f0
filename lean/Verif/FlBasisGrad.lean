import Verif.FlBasis
import Verif.ValeevGrad
import Verif.Spec.FlBasisGrad

/-!
# Errors of coefficients in derivatives of integrals
-/

set_option autoImplicit false

open Real

namespace Simint.FlBasisGrad

open FlBasis FlNorm

variable {A B C D : Shell ℝ} {x y z w : Exp}

theorem posExp (hA : A.Pos) (hB : B.Pos) (hC : C.Pos) (hD : D.Pos) : PosExp (four A B C D) := fun t => by
  cases t <;> assumption

theorem valid (hx : x.Valid) (hy : y.Valid) (hz : z.Valid) (hw : w.Valid) : ∀ t, (four x y z w t).Valid := fun t => by
  cases t <;> assumption

theorem center (t : RRType) (d : Dir) : (four A B C D t).pos d = shellCenter A B C D t d := by cases t <;> rfl

theorem grad (hA : A.Pos) (hB : B.Pos) (hC : C.Pos) (hD : D.Pos) (hx : x.Valid) (hy : y.Valid) (hz : z.Valid)
    (hw : w.Valid) (t : RRType) (d : Dir) :
    HasDerivAt (movedERI A B C D x y z w t d) (gradERI (four A B C D) (four x y z w) t d) (shellCenter A B C D t d) := by
  have h := gradERI_hasDerivAt (posExp hA hB hC hD) (valid hx hy hz hw) t d
  rw [center] at h
  exact h

/-- One term. -/
theorem grad_one (hA : A.Pos) (hB : B.Pos) (hC : C.Pos) (hD : D.Pos) (hx : x.Valid) (hy : y.Valid) (hz : z.Valid)
    (hw : w.Valid) (t : RRType) (d : Dir) {i j k l : ℕ} (hi : i < A.nprim) (hj : j < B.nprim) (hk : k < C.nprim)
    (hl : l < D.nprim) :
    deriv (movedERI (onePrim A i) (onePrim B j) (onePrim C k) (onePrim D l) x y z w t d) (shellCenter A B C D t d) =
      coefS (four A B C D) (four i j k l) * gradS (four A B C D) (four i j k l) (four x y z w) t d := by
  have e : shellCenter A B C D t d = shellCenter (onePrim A i) (onePrim B j) (onePrim C k) (onePrim D l) t d := by
    cases t <;> rfl
  rw [e, (grad (A := onePrim A i) (B := onePrim B j) (C := onePrim C k) (D := onePrim D l) (fun _ _ => hA i hi)
    (fun _ _ => hB j hj) (fun _ _ => hC k hk) (fun _ _ => hD l hl) hx hy hz hw t d).deriv]
  have n1 : ∀ s, (four (onePrim A i) (onePrim B j) (onePrim C k) (onePrim D l) s).nprim = 1 := fun s => by
    cases s <;> rfl
  unfold gradERI sumPrims
  rw [n1, n1, n1, n1]
  simp only [Finset.sum_range_one]
  unfold gradS
  cases t <;> rfl

/-- Errors of coefficients in derivatives of integrals. -/
theorem grad_near {a' b' c' d' : ℕ → ℝ} {ka kb kc kd : ℕ} (pA : A.Pos) (pB : B.Pos) (pC : C.Pos) (pD : D.Pos)
    (hA : ∀ i < A.nprim, |a' i - A.coef i| ≤ γ ka * |A.coef i|)
    (hB : ∀ i < B.nprim, |b' i - B.coef i| ≤ γ kb * |B.coef i|)
    (hC : ∀ i < C.nprim, |c' i - C.coef i| ≤ γ kc * |C.coef i|)
    (hD : ∀ i < D.nprim, |d' i - D.coef i| ≤ γ kd * |D.coef i|) (hx : x.Valid) (hy : y.Valid) (hz : z.Valid)
    (hw : w.Valid) (t : RRType) (d : Dir) :
    |gradERI (four (withCoef A a') (withCoef B b') (withCoef C c') (withCoef D d')) (four x y z w) t d -
        gradERI (four A B C D) (four x y z w) t d| ≤
      γ (ka + kb + (kc + kd)) * shellGradAbs A B C D x y z w t d := by
  refine Approx.err (x := gradERI (four A B C D) (four x y z w) t d) ?_
  unfold gradERI sumPrims shellGradAbs
  refine approx_sum fun i hi => approx_sum fun j hj => approx_sum fun k hk => approx_sum fun l hl => ?_
  change i ∈ Finset.range A.nprim at hi
  change j ∈ Finset.range B.nprim at hj
  change k ∈ Finset.range C.nprim at hk
  change l ∈ Finset.range D.nprim at hl
  rw [Finset.mem_range] at hi hj hk hl
  rw [grad_one pA pB pC pD hx hy hz hw t d hi hj hk hl]
  have e : gradS (four (withCoef A a') (withCoef B b') (withCoef C c') (withCoef D d')) (four i j k l) (four x y z w) t d =
      gradS (four A B C D) (four i j k l) (four x y z w) t d := by
    unfold gradS
    cases t <;> rfl
  beta_reduce
  rw [e]
  have h := ((((Approx.mk le_rfl (hA i hi)).mul (Approx.mk le_rfl (hB j hj))).mul
    (Approx.mk le_rfl (hC k hk))).mul (Approx.mk le_rfl (hD l hl))).mul
    (Approx.refl (gradS (four A B C D) (four i j k l) (four x y z w) t d))
  simp only [← abs_mul] at h
  have e2 : ka + kb + (kc + kd) = ka + kb + kc + kd + 0 := by omega
  rw [e2]
  exact h

/-- What errors are measured with hardly depends on errors of coefficients. -/
theorem gradSize_near {a' b' c' d' : ℕ → ℝ} (hpA : A.Pos) (hpB : B.Pos) (hpC : C.Pos) (hpD : D.Pos)
    (hA : ∀ i < A.nprim, |a' i| ≤ 9 / 8 * |A.coef i|) (hB : ∀ i < B.nprim, |b' i| ≤ 9 / 8 * |B.coef i|)
    (hC : ∀ i < C.nprim, |c' i| ≤ 9 / 8 * |C.coef i|) (hD : ∀ i < D.nprim, |d' i| ≤ 9 / 8 * |D.coef i|)
    {R : ℝ} (hR : 0 ≤ R) (n : ℕ) :
    shellGradSize (withCoef A a') (withCoef B b') (withCoef C c') (withCoef D d') R n ≤
      2 * shellGradSize A B C D R n := by
  unfold shellGradSize
  have s0 : (0 : ℝ) < 1 / 2 ^ 1000 := by positivity
  rw [mul_add]
  refine add_le_add (stored_near fun i hi j hj k hk l hl => ?_) (by linarith)
  have a0 := hpA i hi
  have b0 := hpB j hj
  have c0 := hpC k hk
  have d0 := hpD l hl
  have h := mul_le_mul_of_nonneg_left (growth_near hpA hpB hpC hpD hA hB hC hD hR n hi hj hk hl)
    (show 0 ≤ 1 + 2 * (A.alpha i + B.alpha j + C.alpha k + D.alpha l) by positivity)
  rw [mul_left_comm] at h
  exact h

end Simint.FlBasisGrad
