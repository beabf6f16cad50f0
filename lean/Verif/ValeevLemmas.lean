import Verif.Valeev
import Verif.ThoIntegral
import Mathlib.Data.Nat.Factorial.DoubleFactorial

/-! Lemmas on the model of the reference program. -/

set_option autoImplicit false

open MeasureTheory Polynomial Real Set

namespace Simint

theorem osum_eq {n : ℕ} {f : ℕ → Option ℝ} (g : ℕ → ℝ) (h : ∀ i < n, f i = some (g i)) :
    osum n f = some (∑ i ∈ Finset.range n, g i) := by
  induction n with
  | zero => simp [osum]
  | succ n ih =>
    rw [osum, ih fun i hi => h i (by omega), h n (by omega), Finset.sum_range_succ]
    rfl

theorem facTab_eq (n : ℕ) : facTab n = (List.range n).map fun i => (i.factorial : ℝ) := by
  induction n with
  | zero => rfl
  | succ n ih =>
    rw [facTab, ih, List.range_succ, List.map_append, List.map_singleton]
    congr 2
    cases n with
    | zero => simp
    | succ m =>
      rw [if_neg (by omega), List.getD_eq_getElem?_getD, List.getElem?_map, List.getElem?_range (by omega)]
      simp only [Nat.add_sub_cancel, Option.map_some, Option.getD_some, Nat.factorial_succ]
      push_cast; ring

theorem dfTab_eq (n : ℕ) : dfTab n = (List.range n).map fun i => ((i - 1).doubleFactorial : ℝ) := by
  induction n with
  | zero => rfl
  | succ n ih =>
    rw [dfTab, ih, List.range_succ, List.map_append, List.map_singleton]
    congr 2
    match n with
    | 0 => simp
    | 1 => simp
    | 2 => simp
    | m + 3 =>
      rw [if_neg (by omega), List.getD_eq_getElem?_getD, List.getElem?_map, List.getElem?_range (by omega)]
      have e1 : m + 3 - 2 - 1 = m := by omega
      have e2 : m + 3 - 1 = m + 2 := by omega
      simp only [Option.map_some, Option.getD_some, e1, e2, Nat.doubleFactorial_add_two]
      push_cast; ring

theorem rdAt_nat (l : List ℝ) (i : ℕ) : rdAt l (i : ℤ) = l[i]? := by
  simp [rdAt]

theorem rdAt_map_range (n : ℕ) (f : ℕ → ℝ) {i : ℕ} (h : i < n) :
    rdAt ((List.range n).map f) (i : ℤ) = some (f i) := by
  rw [rdAt_nat, List.getElem?_map, List.getElem?_range h]; rfl

theorem facAt_nat {i : ℕ} (h : i < 200) : facAt (i : ℤ) = some (i.factorial : ℝ) := by
  rw [facAt, facTab_eq, rdAt_map_range _ _ (by exact h)]

theorem facAt_int {z : ℤ} {i : ℕ} (hz : z = i) (h : i < 200) : facAt z = some (i.factorial : ℝ) := by
  rw [hz, facAt_nat h]

theorem dfAt_nat {i : ℕ} (h : i < 400) : dfAt (i : ℤ) = some ((i - 1).doubleFactorial : ℝ) := by
  rw [dfAt, dfTab_eq, rdAt_map_range _ _ (by exact h)]

theorem dfAt_out {i : ℕ} (h : 400 ≤ i) : dfAt (i : ℤ) = none := by
  rw [dfAt, dfTab_eq, rdAt_nat, List.getElem?_eq_none]
  simpa [MAXFAC] using h

theorem bcAt_eq {i j : ℕ} (hi : i < 200) (hj : j ≤ i) : bcAt i j = some (i.choose j : ℝ) := by
  rw [bcAt, if_pos ⟨hi, hj⟩, facAt_nat hi, facAt_int (i := i - j) (by omega) (by omega),
    facAt_nat (by omega : j < 200)]
  simp only [Option.bind_eq_bind, Option.bind_some, Option.pure_def]
  rw [Nat.cast_choose ℝ hj, mul_comm]

theorem mapM_map_some {α β : Type} {l : List α} {f : α → Option β} {g : α → β} (h : ∀ k ∈ l, f k = some (g k)) :
    l.mapM f = some (l.map g) := by
  induction l with
  | nil => rfl
  | cons a l ih =>
    rw [List.mapM_cons, h a (by simp), ih fun k hk => h k (by simp [hk])]
    rfl

theorem fArr_eq {l1 l2 : ℕ} (h1 : l1 < 200) (h2 : l2 < 200) (PA PB : ℝ) :
    fArr l1 l2 PA PB = some ((List.range (l1 + l2 + 1)).map (fCoef l1 l2 PA PB)) := by
  rw [fArr]
  refine mapM_map_some fun k _ => ?_
  refine osum_eq _ fun i hi => ?_
  simp only
  by_cases hj : k - i ≤ l2
  · rw [if_neg (by omega), if_pos hj, bcAt_eq h1 (by omega), bcAt_eq h2 hj]
    simp only [Option.bind_eq_bind, Option.bind_some, Option.pure_def]
    congr 1
    have ha : ∀ (n : ℕ) (x y : ℝ), (if n > 0 then x * y ^ n else x) = x * y ^ n := by
      intro n x y
      split_ifs with h
      · rfl
      · have : n = 0 := by omega
        simp [this]
    rw [ha, ha]
  · rw [if_pos (by omega), if_neg hj]

section
variable {p q ρ : ℝ} {f g : ℕ → ℝ}

theorem gFac_eq {n m : ℕ} (hnm : n + m < 200) {lp lq u1 u2 : ℕ} (hlp : lp < n + 1) (hlq : lq < m + 1)
    (hu1 : u1 < lp / 2 + 1) (hu2 : u2 < lq / 2 + 1) :
    gFac ((List.range (n + 1)).map f) ((List.range (m + 1)).map g) p q ρ lp lq u1 u2 =
      some (thoG p q ρ f g lp lq u1 u2) := by
  rw [gFac, rdAt_map_range _ _ hlp, rdAt_map_range _ _ hlq, facAt_nat (by omega), facAt_nat (by omega),
    facAt_int (i := lp + lq - 2 * u1 - 2 * u2) (by omega) (by omega), facAt_nat (by omega), facAt_nat (by omega),
    facAt_int (i := lp - 2 * u1) (by omega) (by omega), facAt_int (i := lq - 2 * u2) (by omega) (by omega)]
  simp only [Option.bind_eq_bind, Option.bind_some, Option.pure_def]
  congr 1
  have e1 : (u1 : ℤ) - lp = -((lp - u1 : ℕ) : ℤ) := by omega
  have e2 : (u2 : ℤ) - lq = -((lq - u2 : ℕ) : ℤ) := by omega
  have e3 : (lp : ℤ) + lq - 2 * u1 - 2 * u2 = ((lp + lq - 2 * u1 - 2 * u2 : ℕ) : ℤ) := by omega
  rw [e1, e2, e3, zpow_neg, zpow_neg, zpow_natCast, zpow_natCast, zpow_natCast, thoG]
  simp only [div_eq_mul_inv]

end

theorem valTerm_eq {N : ℕ} (φ : ℕ → ℝ) (Gx Gy Gz PQx PQy PQz ρ : ℝ)
    {lp lq u1 u2 mp mq v1 v2 np nq w1 w2 tx ty tz : ℕ}
    (hu1 : 2 * u1 ≤ lp) (hu2 : 2 * u2 ≤ lq) (hv1 : 2 * v1 ≤ mp) (hv2 : 2 * v2 ≤ mq) (hw1 : 2 * w1 ≤ np)
    (hw2 : 2 * w2 ≤ nq) (hx : 2 * tx ≤ lp + lq - 2 * u1 - 2 * u2) (hy : 2 * ty ≤ mp + mq - 2 * v1 - 2 * v2)
    (hz : 2 * tz ≤ np + nq - 2 * w1 - 2 * w2) (hN : lp + lq + mp + mq + np + nq ≤ N) (hN' : N < 200) :
    valTerm ((List.range (N + 1)).map φ) Gx Gy Gz PQx PQy PQz ρ lp lq u1 u2 mp mq v1 v2 np nq w1 w2 tx ty tz =
      some (Gx * thoT ρ PQx (lp + lq - 2 * u1 - 2 * u2) u1 u2 tx *
        (Gy * thoT ρ PQy (mp + mq - 2 * v1 - 2 * v2) v1 v2 ty) *
        (Gz * thoT ρ PQz (np + nq - 2 * w1 - 2 * w2) w1 w2 tz) *
        φ (lp + lq - 2 * u1 - 2 * u2 - tx + (mp + mq - 2 * v1 - 2 * v2 - ty) +
          (np + nq - 2 * w1 - 2 * w2 - tz))) := by
  have ez : (lp : ℤ) + lq + mp + mq + np + nq - 2 * u1 - 2 * u2 - 2 * v1 - 2 * v2 - 2 * w1 - 2 * w2 - tx - ty - tz =
      ((lp + lq - 2 * u1 - 2 * u2 - tx + (mp + mq - 2 * v1 - 2 * v2 - ty) +
          (np + nq - 2 * w1 - 2 * w2 - tz) : ℕ) : ℤ) := by omega
  have ex : (lp : ℤ) + lq - 2 * u1 - 2 * u2 - 2 * tx = ((lp + lq - 2 * u1 - 2 * u2 - 2 * tx : ℕ) : ℤ) := by omega
  have ey : (mp : ℤ) + mq - 2 * v1 - 2 * v2 - 2 * ty = ((mp + mq - 2 * v1 - 2 * v2 - 2 * ty : ℕ) : ℤ) := by omega
  have ew : (np : ℤ) + nq - 2 * w1 - 2 * w2 - 2 * tz = ((np + nq - 2 * w1 - 2 * w2 - 2 * tz : ℕ) : ℤ) := by omega
  rw [valTerm]
  rw [ez, rdAt_map_range _ _ (by omega), ex, ey, ew, facAt_nat (by omega), facAt_nat (by omega), facAt_nat (by omega),
    facAt_nat (by omega), facAt_nat (by omega), facAt_nat (by omega)]
  simp only [Option.bind_eq_bind, Option.bind_some, Option.pure_def, zpow_natCast]
  congr 1
  simp only [thoT, pow_add, div_eq_mul_inv, mul_inv]
  ring

/-- The loops give the polynomial of the three directions with powers replaced by the array `F`. -/
theorem valSum_eq {N : ℕ} (φ : ℕ → ℝ) (nb nk : Dir → ℕ) (f g : Dir → ℕ → ℝ) (p q ρ : ℝ) (PQ : Dir → ℝ)
    (hN : nb .x + nk .x + (nb .y + nk .y) + (nb .z + nk .z) ≤ N) (hN' : N < 200)
    (fb fk : Dir → List ℝ) (hfb : ∀ i, fb i = (List.range (nb i + 1)).map (f i))
    (hfk : ∀ i, fk i = (List.range (nk i + 1)).map (g i)) :
    valSum ((List.range (N + 1)).map φ) nb nk fb fk p q ρ PQ =
      some (subL φ (thoDir p q ρ (PQ .x) (f .x) (g .x) (nb .x) (nk .x) *
        (thoDir p q ρ (PQ .y) (f .y) (g .y) (nb .y) (nk .y) *
          thoDir p q ρ (PQ .z) (f .z) (g .z) (nb .z) (nk .z)))) := by
  rw [thoDir]
  simp only [Finset.sum_mul, map_sum]
  unfold valSum
  refine osum_eq _ fun lp hlp => osum_eq _ fun lq hlq => osum_eq _ fun u1 hu1 => osum_eq _ fun u2 hu2 => ?_
  rw [hfb, hfk, gFac_eq (by omega) hlp hlq hu1 hu2]
  simp only [Option.bind_eq_bind, Option.bind_some]
  rw [mul_left_comm, thoDir]
  simp only [Finset.sum_mul, map_sum]
  refine osum_eq _ fun mp hmp => osum_eq _ fun mq hmq => osum_eq _ fun v1 hv1 => osum_eq _ fun v2 hv2 => ?_
  rw [hfb, hfk, gFac_eq (by omega) hmp hmq hv1 hv2]
  simp only [Option.bind_some]
  rw [mul_comm (thoTerm _ _ _ _ _ _ _ _ _ _) (_ * _), mul_right_comm, mul_comm (_ * _) (thoDir _ _ _ _ _ _ _ _), thoDir]
  simp only [Finset.sum_mul, map_sum]
  refine osum_eq _ fun np hnp => osum_eq _ fun nq hnq => osum_eq _ fun w1 hw1 => osum_eq _ fun w2 hw2 => ?_
  rw [hfb, hfk, gFac_eq (by omega) hnp hnq hw1 hw2]
  simp only [Option.bind_some]
  rw [mul_comm (thoTerm p q ρ (PQ .z) (f .z) (g .z) np nq w1 w2)]
  simp only [thoTerm]
  rw [Finset.sum_mul_sum, Finset.sum_mul, map_sum]
  refine osum_eq _ fun tx htx => ?_
  rw [Finset.sum_mul, map_sum]
  refine osum_eq _ fun ty hty => ?_
  rw [Finset.mul_sum, map_sum]
  refine osum_eq _ fun tz htz => ?_
  rw [valTerm_eq φ _ _ _ _ _ _ _ (by omega) (by omega) (by omega) (by omega) (by omega) (by omega) (by omega)
    (by omega) (by omega) (by omega) hN']
  congr 1
  have : ∀ (a b c : ℝ) (l m n : ℕ), (C a * X ^ l * (C b * X ^ m) * (C c * X ^ n) : ℝ[X]) =
      C (a * b * c) * X ^ (l + m + n) := by
    intro a b c l m n
    rw [C_mul, C_mul, pow_add, pow_add]; ring
  rw [this, subL_C_mul_pow]

end Simint
