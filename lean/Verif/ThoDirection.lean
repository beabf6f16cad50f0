import Verif.ThoLemmas

/-! One direction of the closed form, and the integral over the coupling. -/

set_option autoImplicit false

open MeasureTheory Polynomial Real Set

namespace Simint

/-- Coefficient of `(x - P)^k` in `(x - A)^a (x - B)^b`, with `PA = P - A`, `PB = P - B`. -/
noncomputable def fCoef (a b : ℕ) (PA PB : ℝ) (k : ℕ) : ℝ :=
  ∑ i ∈ Finset.range (min k a + 1),
    if k - i ≤ b then (a.choose i : ℝ) * b.choose (k - i) * PA ^ (a - i) * PB ^ (b - (k - i)) else 0

theorem fCoef_coeff (a b : ℕ) (PA PB : ℝ) (k : ℕ) :
    ((X + C PA) ^ a * (X + C PB) ^ b : ℝ[X]).coeff k = fCoef a b PA PB k := by
  rw [coeff_mul, Finset.Nat.sum_antidiagonal_eq_sum_range_succ_mk, fCoef]
  have hsub : Finset.range (min k a + 1) ⊆ Finset.range (k + 1) := by
    intro i; simp only [Finset.mem_range]; omega
  rw [← Finset.sum_subset hsub]
  · refine Finset.sum_congr rfl fun i _ => ?_
    rw [coeff_X_add_C_pow, coeff_X_add_C_pow]
    by_cases h : k - i ≤ b
    · rw [if_pos h]; ring
    · rw [if_neg h, Nat.choose_eq_zero_of_lt (by omega : b < k - i)]; simp
  · intro i h1 h2
    simp only [Finset.mem_range] at h1 h2
    rw [coeff_X_add_C_pow, Nat.choose_eq_zero_of_lt (by omega : a < i)]; simp

theorem pw_expand (A B P : ℝ) (a b : ℕ) : pw A B a b =
    ∑ k ∈ Finset.range (a + b + 1), C (fCoef a b (P - A) (P - B) k) * (X - C P) ^ k := by
  have hd : ((X + C (P - A)) ^ a * (X + C (P - B)) ^ b : ℝ[X]).natDegree < a + b + 1 := by
    refine Nat.lt_succ_of_le ((natDegree_mul_le).trans ?_)
    have h1 := natDegree_pow_le (p := (X + C (P - A) : ℝ[X])) (n := a)
    have h2 := natDegree_pow_le (p := (X + C (P - B) : ℝ[X])) (n := b)
    rw [natDegree_X_add_C] at h1 h2
    omega
  have h := as_sum_range' _ _ hd
  have h3 := congrArg (fun g => g.comp (X - C P)) h
  have e : pw A B a b = ((X + C (P - A)) ^ a * (X + C (P - B)) ^ b : ℝ[X]).comp (X - C P) := by
    rw [mul_comp, pow_comp, pow_comp, add_comp, add_comp, X_comp, C_comp, C_comp, C_sub, C_sub, pw]
    simp only [Int.toNat_natCast]
    ring
  rw [e]
  refine h3.trans ?_
  rw [Polynomial.sum_comp]
  refine Finset.sum_congr rfl fun k _ => ?_
  rw [monomial_comp, fCoef_coeff]

/-! ## One direction -/

section
variable (p q ρ PQ : ℝ) (f g : ℕ → ℝ)

/-- Factor of the bra and ket powers `lp`, `lq` and of `u1`, `u2` (`Gx`, `Gy`, `Gz` of the code). -/
noncomputable def thoG (lp lq u1 u2 : ℕ) : ℝ :=
  (-1) ^ lp * f lp * g lq * (lp.factorial : ℝ) * (lq.factorial : ℝ) / p ^ (lp - u1) / q ^ (lq - u2) *
    ((lp + lq - 2 * u1 - 2 * u2).factorial : ℝ) * ρ ^ (lp + lq - 2 * u1 - 2 * u2) /
    ((u1.factorial : ℝ) * (u2.factorial : ℝ) * ((lp - 2 * u1).factorial : ℝ) * ((lq - 2 * u2).factorial : ℝ))

/-- Factor of `t`; `L = lp + lq - 2 u1 - 2 u2`. -/
noncomputable def thoT (L u1 u2 t : ℕ) : ℝ :=
  (-1) ^ t * PQ ^ (L - 2 * t) / (4 ^ (u1 + u2 + t) * ρ ^ t * ((L - 2 * t).factorial : ℝ) * (t.factorial : ℝ))

/-- Powers of `τ` for given `lp`, `lq`, `u1`, `u2`. -/
noncomputable def thoTerm (lp lq u1 u2 : ℕ) : ℝ[X] :=
  ∑ t ∈ Finset.range ((lp + lq - 2 * u1 - 2 * u2) / 2 + 1),
    C (thoG p q ρ f g lp lq u1 u2 * thoT ρ PQ (lp + lq - 2 * u1 - 2 * u2) u1 u2 t) *
      X ^ (lp + lq - 2 * u1 - 2 * u2 - t)

/-- The polynomial of one direction. -/
noncomputable def thoDir (n m : ℕ) : ℝ[X] :=
  ∑ lp ∈ Finset.range (n + 1), ∑ lq ∈ Finset.range (m + 1), ∑ u1 ∈ Finset.range (lp / 2 + 1),
    ∑ u2 ∈ Finset.range (lq / 2 + 1), thoTerm p q ρ PQ f g lp lq u1 u2

end

theorem coef_p {p : ℝ} (hp : 0 < p) {i u : ℕ} (h : 2 * u ≤ i) :
    hC i u * (1 / (4 * p)) ^ u * (-(1 / p)) ^ (i - 2 * u) =
      (-1) ^ i * (i.factorial : ℝ) / p ^ (i - u) / (4 ^ u * ((u.factorial : ℝ) * ((i - 2 * u).factorial : ℝ))) := by
  obtain ⟨m, rfl⟩ := Nat.exists_eq_add_of_le h
  have e1 : 2 * u + m - 2 * u = m := by omega
  have e2 : 2 * u + m - u = u + m := by omega
  rw [hC, if_pos h, e1, e2, pow_add, pow_mul, neg_one_sq, one_pow, one_mul, neg_pow, div_pow, div_pow, one_pow, one_pow,
    mul_pow, pow_add]
  field_simp

theorem coef_q {q : ℝ} (hq : 0 < q) {i u : ℕ} (h : 2 * u ≤ i) :
    hC i u * (1 / (4 * q)) ^ u * (1 / q) ^ (i - 2 * u) =
      (i.factorial : ℝ) / q ^ (i - u) / (4 ^ u * ((u.factorial : ℝ) * ((i - 2 * u).factorial : ℝ))) := by
  obtain ⟨m, rfl⟩ := Nat.exists_eq_add_of_le h
  have e1 : 2 * u + m - 2 * u = m := by omega
  have e2 : 2 * u + m - u = u + m := by omega
  rw [hC, if_pos h, e1, e2, div_pow, div_pow, one_pow, one_pow, mul_pow, pow_add]
  field_simp

theorem coef_t {ρ : ℝ} (hρ : 0 < ρ) (PQ τ : ℝ) {L t : ℕ} (h : 2 * t ≤ L) :
    hC L t * (-(ρ * τ / 4)) ^ t * (ρ * τ * PQ) ^ (L - 2 * t) =
      (L.factorial : ℝ) * ρ ^ L * ((-1) ^ t * PQ ^ (L - 2 * t) /
        (4 ^ t * ρ ^ t * ((L - 2 * t).factorial : ℝ) * (t.factorial : ℝ))) * τ ^ (L - t) := by
  obtain ⟨m, rfl⟩ := Nat.exists_eq_add_of_le h
  have e1 : 2 * t + m - 2 * t = m := by omega
  have e2 : 2 * t + m - t = t + m := by omega
  rw [hC, if_pos h, e1, e2, neg_pow, div_pow, mul_pow, mul_pow, mul_pow, pow_add, pow_add, two_mul, pow_add]
  field_simp

/-- The moments as powers of `τ`. -/
theorem moment_tho {p q ρ : ℝ} (hp : 0 < p) (hq : 0 < q) (hρ : 0 < ρ) (PQ τ : ℝ) (f g : ℕ → ℝ) (i j : ℕ) :
    f i * g j * hL (ρ * τ * PQ) (-(ρ * τ / 4)) (hA p i * hB q j) =
      ∑ u1 ∈ Finset.range (i / 2 + 1), ∑ u2 ∈ Finset.range (j / 2 + 1),
        (thoTerm p q ρ PQ f g i j u1 u2).eval τ := by
  have e1 : hL (ρ * τ * PQ) (-(ρ * τ / 4)) (hA p i * hB q j) =
      ∑ u1 ∈ Finset.range (i / 2 + 1), ∑ u2 ∈ Finset.range (j / 2 + 1),
        (hC i u1 * (1 / (4 * p)) ^ u1 * (-(1 / p)) ^ (i - 2 * u1)) *
        (hC j u2 * (1 / (4 * q)) ^ u2 * (1 / q) ^ (j - 2 * u2)) *
        hE (ρ * τ * PQ) (-(ρ * τ / 4)) (i - 2 * u1 + (j - 2 * u2)) := by
    rw [hA, hB, hE_poly, hE_poly, Finset.sum_mul_sum, map_sum]
    refine Finset.sum_congr rfl fun u1 _ => ?_
    rw [map_sum]
    refine Finset.sum_congr rfl fun u2 _ => ?_
    have : ∀ (a b : ℝ) (m n : ℕ), (C a * X ^ m * (C b * X ^ n) : ℝ[X]) = C (a * b) * X ^ (m + n) := by
      intro a b m n
      rw [C_mul, pow_add]; ring
    rw [this, hL_C_mul, hL_pow]
  rw [e1, Finset.mul_sum]
  refine Finset.sum_congr rfl fun u1 h1 => ?_
  rw [Finset.mul_sum]
  refine Finset.sum_congr rfl fun u2 h2 => ?_
  simp only [Finset.mem_range] at h1 h2
  have h1' : 2 * u1 ≤ i := by omega
  have h2' : 2 * u2 ≤ j := by omega
  have eL : i - 2 * u1 + (j - 2 * u2) = i + j - 2 * u1 - 2 * u2 := by omega
  rw [eL, coef_p hp h1', coef_q hq h2', hE_sum, thoTerm, eval_finsetSum, Finset.mul_sum, Finset.mul_sum]
  refine Finset.sum_congr rfl fun t ht => ?_
  simp only [Finset.mem_range] at ht
  have ht' : 2 * t ≤ i + j - 2 * u1 - 2 * u2 := by omega
  rw [coef_t hρ PQ τ ht', eval_mul, eval_C, eval_pow, eval_X, thoG, thoT, pow_add, pow_add]
  generalize i + j - 2 * u1 - 2 * u2 = L
  field_simp

/-- One direction at fixed coupling `s` as a polynomial in `τ = s / (ρ + s)`. -/
theorem direction_tho {p q : ℝ} (hp : 0 < p) (hq : 0 < q) (P Q A B C' D : ℝ) {s : ℝ} (hs : 0 ≤ s) (a b c d : ℕ) :
    G2 p q P Q s (pw A B a b) (pw C' D c d) = G2 p q P Q s 1 1 *
      (thoDir p q (p * q / (p + q)) (P - Q) (fCoef a b (P - A) (P - B)) (fCoef c d (Q - C') (Q - D)) (a + b)
        (c + d)).eval (s / (p * q / (p + q) + s)) := by
  have hρ : 0 < p * q / (p + q) := by positivity
  have hlin : ∀ (S : Finset ℕ) (α : ℕ → ℝ) (φ : ℕ → ℝ[X]) (h : ℝ[X]),
      G2 p q P Q s (∑ k ∈ S, C (α k) * φ k) h = ∑ k ∈ S, α k * G2 p q P Q s (φ k) h := by
    intro S α φ h
    induction S using Finset.induction_on with
    | empty => simp [G2]
    | insert k S hk ih => rw [Finset.sum_insert hk, Finset.sum_insert hk, G2_add_left hp hq _ _ hs, ih, G2_C_left]
  have hlin' : ∀ (S : Finset ℕ) (α : ℕ → ℝ) (φ : ℕ → ℝ[X]) (h : ℝ[X]),
      G2 p q P Q s h (∑ k ∈ S, C (α k) * φ k) = ∑ k ∈ S, α k * G2 p q P Q s h (φ k) := by
    intro S α φ h
    induction S using Finset.induction_on with
    | empty => simp [G2]
    | insert k S hk ih => rw [Finset.sum_insert hk, Finset.sum_insert hk, G2_add_right hp hq _ _ hs, ih, G2_C_right]
  have hv : p * q / (p + q) * (s / (p * q / (p + q) + s)) = p * q * s / (p * q + (p + q) * s) := by
    have h1 : p * q / (p + q) + s ≠ 0 := by positivity
    have h2 : p * q + (p + q) * s ≠ 0 := by positivity
    have h3 : p * q / (p + q) + s = (p * q + (p + q) * s) / (p + q) := by field_simp
    rw [h3]
    field_simp
  rw [pw_expand A B P, pw_expand C' D Q, hlin, thoDir, eval_finsetSum, Finset.mul_sum]
  refine Finset.sum_congr rfl fun lp _ => ?_
  rw [hlin', eval_finsetSum, Finset.mul_sum, Finset.mul_sum]
  refine Finset.sum_congr rfl fun lq _ => ?_
  rw [G2_moments hp hq P Q hs _ hv, eval_finsetSum]
  simp only [eval_finsetSum]
  rw [← moment_tho hp hq hρ]
  ring

end Simint
