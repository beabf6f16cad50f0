import Verif.Spec.FlBasis
import Verif.Props.FlNorm
import Verif.Props.FlShells

/-!
# Normalised shells and their integrals
-/

set_option autoImplicit false

open Real MeasureTheory

namespace Simint.FlBasis

open FlBoys (Arith ieee)
open FlNorm

/-- The coefficients of C95 are those of the normalised shell. -/
theorem unit_coef {sh : Shell ℝ} (hp : sh.Pos) (j : ℕ) :
    (normedShell sh).coef j = scale sh * (primNorm sh).coef j := by
  have hp' : (primNorm sh).Pos := hp
  have e : overlapInt (primNorm sh) (primNorm sh) ⟨sh.am, 0, 0⟩ ⟨sh.am, 0, 0⟩ =
      normSq sh sh.coef * normFacExact sh.am := by
    rw [overlapInt_eq hp' hp']
    unfold normSq
    simp only [Finset.sum_mul]
    refine Finset.sum_congr rfl fun j hj => Finset.sum_congr rfl fun k hk => ?_
    have ha := hp j (Finset.mem_range.1 hj)
    have hb := hp k (Finset.mem_range.1 hk)
    have eI : ∫ r : R3, primG ((primNorm sh).alpha j) (primNorm sh).pos ⟨sh.am, 0, 0⟩ r.dir *
        primG ((primNorm sh).alpha k) (primNorm sh).pos ⟨sh.am, 0, 0⟩ r.dir = _ :=
      overlap_prim_self (l := sh.am) ha hb sh.pos ⟨sh.am, 0, 0⟩ (by simp)
    rw [eI]
    have : oddFac (0 : ℤ).toNat = 1 := rfl
    simp only [this, Int.toNat_natCast, primNorm, normFacExact, Nat.cast_one, mul_one]
    rw [mul_rpow ha.le hb.le, rpow_neg (by linarith), div_eq_mul_inv]
    ring
  change (primNorm sh).coef j / √_ = _
  rw [e, scale]
  ring

/-- The data of a shell other than its coefficients. -/
def withCoef (sh : Shell ℝ) (c : ℕ → ℝ) : Shell ℝ := { sh with coef := c }

/-- Errors of coefficients in integrals. -/
theorem eri_near {A B C D : Shell ℝ} {a' b' c' d' : ℕ → ℝ} {ka kb kc kd : ℕ}
    (hA : ∀ i < A.nprim, |a' i - A.coef i| ≤ γ ka * |A.coef i|)
    (hB : ∀ i < B.nprim, |b' i - B.coef i| ≤ γ kb * |B.coef i|)
    (hC : ∀ i < C.nprim, |c' i - C.coef i| ≤ γ kc * |C.coef i|)
    (hD : ∀ i < D.nprim, |d' i - D.coef i| ≤ γ kd * |D.coef i|) (x y z w : Exp) :
    |shellERI (withCoef A a') (withCoef B b') (withCoef C c') (withCoef D d') x y z w - shellERI A B C D x y z w| ≤
      γ (ka + kb + (kc + kd)) * shellERIAbs A B C D x y z w := by
  refine Approx.err (x := shellERI A B C D x y z w) ?_
  unfold shellERI shellERIAbs
  refine approx_sum fun i hi => approx_sum fun j hj => approx_sum fun k hk => approx_sum fun l hl => ?_
  rw [Finset.mem_range] at hi hj hk hl
  have h := (((Approx.mk le_rfl (hA i hi)).mul (Approx.mk le_rfl (hB j hj))).mul
    ((Approx.mk le_rfl (hC k hk)).mul (Approx.mk le_rfl (hD l hl)))).mul
    (Approx.refl (coulomb (A.alpha i) (B.alpha j) (C.alpha k) (D.alpha l) A.pos B.pos C.pos D.pos x y z w))
  simp only [← abs_mul] at h
  exact h

/-- A sum over stored primitives. -/
theorem stored_near {A B C D : Shell ℝ} {a' b' c' d' : ℕ → ℝ} {f f' : ℕ → ℕ → ℕ → ℕ → ℝ}
    (h : ∀ i < A.nprim, ∀ j < B.nprim, ∀ k < C.nprim, ∀ l < D.nprim, f' i j k l ≤ 2 * f i j k l) :
    overStored (withCoef A a') (withCoef B b') (withCoef C c') (withCoef D d') f' ≤ 2 * overStored A B C D f := by
  unfold overStored
  rw [Finset.mul_sum]
  refine Finset.sum_le_sum fun i hi => ?_
  rw [Finset.mul_sum]
  refine Finset.sum_le_sum fun j hj => ?_
  by_cases hs : StoredPrims A B i j
  · rw [if_pos (show StoredPrims (withCoef A a') (withCoef B b') i j from hs), if_pos hs, Finset.mul_sum]
    refine Finset.sum_le_sum fun k hk => ?_
    rw [Finset.mul_sum]
    refine Finset.sum_le_sum fun l hl => ?_
    by_cases ht : StoredPrims C D k l
    · rw [if_pos (show StoredPrims (withCoef C c') (withCoef D d') k l from ht), if_pos ht]
      rw [Finset.mem_range] at hi hj hk hl
      exact h i hi j hj k hk l hl
    · rw [if_neg (show ¬ StoredPrims (withCoef C c') (withCoef D d') k l from ht), if_neg ht, mul_zero]
  · rw [if_neg (show ¬ StoredPrims (withCoef A a') (withCoef B b') i j from hs), if_neg hs, mul_zero]

/-- What errors are measured with hardly depends on the errors of the coefficients. -/
theorem growth_near {A B C D : Shell ℝ} {a' b' c' d' : ℕ → ℝ} (hpA : A.Pos) (hpB : B.Pos) (hpC : C.Pos) (hpD : D.Pos)
    (hA : ∀ i < A.nprim, |a' i| ≤ 9 / 8 * |A.coef i|) (hB : ∀ i < B.nprim, |b' i| ≤ 9 / 8 * |B.coef i|)
    (hC : ∀ i < C.nprim, |c' i| ≤ 9 / 8 * |C.coef i|) (hD : ∀ i < D.nprim, |d' i| ≤ 9 / 8 * |D.coef i|)
    {R : ℝ} (hR : 0 ≤ R) (n : ℕ) {i j k l : ℕ} (hi : i < A.nprim) (hj : j < B.nprim) (hk : k < C.nprim)
    (hl : l < D.nprim) :
    VRRRound.growth (FlPrim.startMax (withCoef A a') (withCoef B b') (withCoef C c') (withCoef D d') i j k l R)
        (FlPrim.stepMax R) (FlPrim.lowMax (A.alpha i + B.alpha j) (C.alpha k + D.alpha l)) n ≤
      2 * VRRRound.growth (FlPrim.startMax A B C D i j k l R)
        (FlPrim.stepMax R) (FlPrim.lowMax (A.alpha i + B.alpha j) (C.alpha k + D.alpha l)) n := by
  have fac : ∀ {A B : Shell ℝ} {a' b' : ℕ → ℝ} {i j : ℕ}, 0 < A.alpha i → 0 < B.alpha j →
      |a' i| ≤ 9 / 8 * |A.coef i| → |b' j| ≤ 9 / 8 * |B.coef j| →
      0 ≤ FlPrim.factorMax (withCoef A a') (withCoef B b') i j ∧
      FlPrim.factorMax (withCoef A a') (withCoef B b') i j ≤ 81 / 64 * FlPrim.factorMax A B i j := by
    intro A B a' b' i j ha hb h1 h2
    unfold FlPrim.factorMax
    have m0 : 0 ≤ FlPrim.mult A B i j := by unfold FlPrim.mult; split_ifs <;> norm_num
    have e0 : 0 ≤ FlPrim.gexp A B i j := by unfold FlPrim.gexp; unfold dist2; positivity
    have s0 : (0 : ℝ) < 1 / 2 ^ 800 := by positivity
    have em : FlPrim.mult (withCoef A a') (withCoef B b') i j = FlPrim.mult A B i j := rfl
    have eg : FlPrim.gexp (withCoef A a') (withCoef B b') i j = FlPrim.gexp A B i j := rfl
    have ea : (withCoef A a').alpha i + (withCoef B b').alpha j = A.alpha i + B.alpha j := rfl
    have ec : (withCoef A a').coef i * (withCoef B b').coef j = a' i * b' j := rfl
    rw [em, eg, ea, ec]
    refine ⟨by positivity, ?_⟩
    have hc : |a' i * b' j| ≤ 81 / 64 * |A.coef i * B.coef j| := by
      rw [abs_mul, abs_mul]
      calc _ ≤ 9 / 8 * |A.coef i| * (9 / 8 * |B.coef j|) := mul_le_mul h1 h2 (abs_nonneg _) (by positivity)
        _ = _ := by ring
    have t0 : 0 ≤ FlPrim.mult A B i j * (((1 + FlPrim.gexp A B i j) * exp (-FlPrim.gexp A B i j)) *
        (√2 * π ^ ((5 : ℝ) / 4)) / (A.alpha i + B.alpha j)) := by positivity
    have := mul_le_mul_of_nonneg_right hc t0
    calc _ = |a' i * b' j| * (FlPrim.mult A B i j * (((1 + FlPrim.gexp A B i j) * exp (-FlPrim.gexp A B i j)) *
        (√2 * π ^ ((5 : ℝ) / 4)) / (A.alpha i + B.alpha j))) + 1 / 2 ^ 800 := by ring
      _ ≤ 81 / 64 * |A.coef i * B.coef j| * (FlPrim.mult A B i j * (((1 + FlPrim.gexp A B i j) *
        exp (-FlPrim.gexp A B i j)) * (√2 * π ^ ((5 : ℝ) / 4)) / (A.alpha i + B.alpha j))) +
        81 / 64 * (1 / 2 ^ 800) := by linarith
      _ = _ := by ring
  have d0 : 0 ≤ FlPrim.diffMax R := by unfold FlPrim.diffMax; positivity
  have w0 : 0 ≤ FlPrim.stepMax R := by
    have := κ_pos
    unfold FlPrim.stepMax
    linarith
  have start : ∀ i < A.nprim, ∀ j < B.nprim, ∀ k < C.nprim, ∀ l < D.nprim,
      FlPrim.startMax (withCoef A a') (withCoef B b') (withCoef C c') (withCoef D d') i j k l R ≤
        2 * FlPrim.startMax A B C D i j k l R := by
    intro i hi j hj k hk l hl
    obtain ⟨f0, f1⟩ := fac (hpA i hi) (hpB j hj) (hA i hi) (hB j hj)
    obtain ⟨g0, g1⟩ := fac (hpC k hk) (hpD l hl) (hC k hk) (hD l hl)
    have a0 := hpA i hi
    have b0 := hpB j hj
    have c0 := hpC k hk
    have e0 := hpD l hl
    have q0 : 0 ≤ √(1 / (A.alpha i + B.alpha j + (C.alpha k + D.alpha l))) := sqrt_nonneg _
    have r0 : 0 ≤ 2 + 3 * FlPrim.diffMax R ^ 2 * ((A.alpha i + B.alpha j) * (C.alpha k + D.alpha l) /
      (A.alpha i + B.alpha j + (C.alpha k + D.alpha l))) := by positivity
    have s0 : (0 : ℝ) < 1 / 2 ^ 800 := by positivity
    have F0 : 0 ≤ FlPrim.factorMax A B i j := by linarith
    have G0 : 0 ≤ FlPrim.factorMax C D k l := by linarith
    have p1 := mul_le_mul f1 g1 g0 (by positivity)
    have p2 : FlPrim.factorMax (withCoef A a') (withCoef B b') i j *
        FlPrim.factorMax (withCoef C c') (withCoef D d') k l ≤
        2 * (FlPrim.factorMax A B i j * FlPrim.factorMax C D k l) := by
      have := mul_nonneg F0 G0
      nlinarith
    have p3 := mul_le_mul_of_nonneg_right p2 q0
    have p4 := mul_le_mul_of_nonneg_left (add_le_add p3 (show (1 : ℝ) / 2 ^ 800 ≤ 2 * (1 / 2 ^ 800) by linarith)) r0
    refine (le_of_eq rfl).trans (p4.trans (le_of_eq ?_))
    simp only [FlPrim.startMax]
    ring
  have h := start i hi j hj k hk l hl
  have a0 := hpA i hi
  have b0 := hpB j hj
  unfold VRRRound.growth
  rw [← mul_assoc]
  refine mul_le_mul_of_nonneg_right h (Finset.prod_nonneg fun m _ => ?_)
  have v0 : 0 ≤ FlPrim.lowMax (A.alpha i + B.alpha j) (C.alpha k + D.alpha l) := by
    have := κ_pos
    have : 0 ≤ max (1 / 2 * (1 / (A.alpha i + B.alpha j))) (1 / 2 * (1 / (C.alpha k + D.alpha l))) :=
      le_max_of_le_left (by positivity)
    unfold FlPrim.lowMax
    linarith
  positivity

theorem size_near {A B C D : Shell ℝ} {a' b' c' d' : ℕ → ℝ} (hpA : A.Pos) (hpB : B.Pos) (hpC : C.Pos) (hpD : D.Pos)
    (hA : ∀ i < A.nprim, |a' i| ≤ 9 / 8 * |A.coef i|) (hB : ∀ i < B.nprim, |b' i| ≤ 9 / 8 * |B.coef i|)
    (hC : ∀ i < C.nprim, |c' i| ≤ 9 / 8 * |C.coef i|) (hD : ∀ i < D.nprim, |d' i| ≤ 9 / 8 * |D.coef i|)
    {R : ℝ} (hR : 0 ≤ R) (n : ℕ) :
    shellSize (withCoef A a') (withCoef B b') (withCoef C c') (withCoef D d') R n ≤
      2 * shellSize A B C D R n := by
  unfold shellSize
  have s0 : (0 : ℝ) < 1 / 2 ^ 1000 := by positivity
  rw [mul_add]
  refine add_le_add (stored_near fun i hi j hj k hk l hl => ?_) (by linarith)
  exact growth_near hpA hpB hpC hpD hA hB hC hD hR n hi hj hk hl

end Simint.FlBasis
