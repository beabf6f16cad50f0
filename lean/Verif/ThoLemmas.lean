import Verif.Props.RealIntegrals

/-!
Lemmas about the closed form of electron repulsion integrals (Taketa, Huzinaga and O-ohata): one direction
at fixed coupling as a polynomial in `τ`.
-/

set_option autoImplicit false

open MeasureTheory Polynomial Real Set

namespace Simint

/-! ## Hermite-like sums -/

section
variable {R : Type} [CommRing R]

/-- `E_0 = 1`, `E_1 = x`, `E_{n+2} = x E_{n+1} + 2 b (n+1) E_n`. -/
def hE (x b : R) : ℕ → R
  | 0 => 1
  | 1 => x
  | n + 2 => x * hE x b (n + 1) + 2 * b * ((n : R) + 1) * hE x b n

theorem hE_succ (x b : R) (n : ℕ) : hE x b (n + 1) = x * hE x b n + 2 * b * (n : R) * hE x b (n - 1) := by
  cases n with
  | zero => simp [hE]
  | succ n => simp [hE]

theorem hE_map {S : Type} [CommRing S] (f : R →+* S) (x b : R) : ∀ n, f (hE x b n) = hE (f x) (f b) n
  | 0 => by simp [hE]
  | 1 => by simp [hE]
  | n + 2 => by
    rw [hE, hE, map_add, map_mul, hE_map f x b (n + 1), map_mul, hE_map f x b n, map_mul, map_mul, map_add, map_one,
      map_natCast, map_ofNat]

end

/-- Coefficient `n! / (u! (n-2u)!)`. -/
noncomputable def hC (n u : ℕ) : ℝ :=
  if 2 * u ≤ n then (n.factorial : ℝ) / ((u.factorial : ℝ) * ((n - 2 * u).factorial : ℝ)) else 0

theorem hC_zero (n : ℕ) : hC n 0 = 1 := by
  unfold hC
  rw [if_pos (by omega)]
  simp [Nat.factorial_ne_zero]

theorem hC_succ (n u : ℕ) : hC (n + 2) (u + 1) = hC (n + 1) (u + 1) + 2 * ((n : ℝ) + 1) * hC n u := by
  unfold hC
  by_cases h1 : 2 * u + 1 ≤ n
  · obtain ⟨k, rfl⟩ := Nat.exists_eq_add_of_le h1
    rw [if_pos (by omega), if_pos (by omega), if_pos (by omega)]
    have e1 : 2 * u + 1 + k + 2 - 2 * (u + 1) = k + 1 := by omega
    have e2 : 2 * u + 1 + k + 1 - 2 * (u + 1) = k := by omega
    have e3 : 2 * u + 1 + k - 2 * u = k + 1 := by omega
    rw [e1, e2, e3, Nat.factorial_succ (2 * u + 1 + k + 1), Nat.factorial_succ (2 * u + 1 + k),
      Nat.factorial_succ k, Nat.factorial_succ u]
    have f1 : ((2 * u + 1 + k).factorial : ℝ) ≠ 0 := by positivity
    have f2 : (k.factorial : ℝ) ≠ 0 := by positivity
    have f3 : (u.factorial : ℝ) ≠ 0 := by positivity
    have f4 : ((k : ℝ) + 1) ≠ 0 := by positivity
    have f5 : ((u : ℝ) + 1) ≠ 0 := by positivity
    push_cast
    field_simp
    ring
  · by_cases h2 : n = 2 * u
    · subst h2
      rw [if_pos (by omega), if_neg (by omega), if_pos (by omega)]
      have e1 : 2 * u + 2 - 2 * (u + 1) = 0 := by omega
      rw [e1, Nat.sub_self, Nat.factorial_succ (2 * u + 1), Nat.factorial_succ (2 * u), Nat.factorial_succ u]
      have f1 : ((2 * u).factorial : ℝ) ≠ 0 := by positivity
      have f3 : (u.factorial : ℝ) ≠ 0 := by positivity
      have f5 : ((u : ℝ) + 1) ≠ 0 := by positivity
      push_cast
      simp only [Nat.factorial_zero, Nat.cast_one]
      field_simp
      ring
    · rw [if_neg (by omega), if_neg (by omega), if_neg (by omega)]
      ring

/-- Explicit form, with zero terms. -/
theorem hE_long (x b : ℝ) (n : ℕ) : hE x b n = ∑ u ∈ Finset.range (n + 1), hC n u * b ^ u * x ^ (n - 2 * u) := by
  induction n using Nat.twoStepInduction with
  | zero => simp [hE, hC_zero]
  | one => simp [hE, hC_zero, Finset.sum_range_succ, hC]
  | more n ih1 ih2 =>
    have e1 : x * hE x b (n + 1) = ∑ u ∈ Finset.range (n + 3), hC (n + 1) u * b ^ u * x ^ (n + 2 - 2 * u) := by
      rw [ih2, Finset.mul_sum, Finset.sum_range_succ _ (n + 2)]
      have : hC (n + 1) (n + 2) = 0 := if_neg (by omega)
      rw [this, zero_mul, zero_mul, add_zero]
      refine Finset.sum_congr rfl fun u _ => ?_
      by_cases h : 2 * u ≤ n + 1
      · have : n + 2 - 2 * u = n + 1 - 2 * u + 1 := by omega
        rw [this, pow_succ]; ring
      · have : hC (n + 1) u = 0 := if_neg h
        rw [this]; ring
    rw [hE, e1, ih1, Finset.sum_range_succ' _ (n + 2), Finset.sum_range_succ' _ (n + 2), hC_zero, hC_zero]
    have e2 : ∀ u, hC (n + 2) (u + 1) * b ^ (u + 1) * x ^ (n + 2 - 2 * (u + 1)) =
        hC (n + 1) (u + 1) * b ^ (u + 1) * x ^ (n + 2 - 2 * (u + 1)) +
          2 * b * ((n : ℝ) + 1) * (hC n u * b ^ u * x ^ (n - 2 * u)) := by
      intro u
      have : n + 2 - 2 * (u + 1) = n - 2 * u := by omega
      rw [hC_succ, this]; ring
    rw [Finset.sum_congr rfl fun u _ => e2 u, Finset.sum_add_distrib, ← Finset.mul_sum,
      Finset.sum_range_succ _ (n + 1)]
    rw [Finset.sum_range_succ (fun u => hC n u * b ^ u * x ^ (n - 2 * u)) (n + 1)]
    have : hC n (n + 1) = 0 := if_neg (by omega)
    rw [this]
    ring

/-- Explicit form. -/
theorem hE_sum (x b : ℝ) (n : ℕ) :
    hE x b n = ∑ u ∈ Finset.range (n / 2 + 1), hC n u * b ^ u * x ^ (n - 2 * u) := by
  rw [hE_long]
  symm
  refine Finset.sum_subset (by intro u; simp only [Finset.mem_range]; omega) fun u _ h => ?_
  have : hC n u = 0 := if_neg (by simp only [Finset.mem_range] at h; omega)
  rw [this]; ring

/-- The sum as a polynomial. -/
theorem hE_poly (a b : ℝ) (n : ℕ) : hE (C a * X) (C b) n =
    ∑ u ∈ Finset.range (n / 2 + 1), C (hC n u * b ^ u * a ^ (n - 2 * u)) * X ^ (n - 2 * u) := by
  refine Polynomial.funext fun r => ?_
  have := hE_map (evalRingHom r) (C a * X) (C b) n
  simp only [coe_evalRingHom, eval_mul, eval_C, eval_X] at this
  rw [this, hE_sum, eval_finsetSum]
  refine Finset.sum_congr rfl fun u _ => ?_
  simp only [eval_mul, eval_C, eval_pow, eval_X, mul_pow]
  ring

theorem hE_deriv (a b : ℝ) (n : ℕ) :
    derivative (hE (C a * X) (C b) n) = C ((n : ℝ) * a) * hE (C a * X) (C b) (n - 1) := by
  induction n using Nat.twoStepInduction with
  | zero => simp [hE]
  | one => simp [hE]
  | more n ih1 ih2 =>
    have h1 : hE (C a * X) (C b) (n + 2) = C a * X * hE (C a * X) (C b) (n + 1) +
        C (2 * b * ((n : ℝ) + 1)) * hE (C a * X) (C b) n := by
      have : (C 2 : ℝ[X]) = 2 := map_ofNat C 2
      rw [hE, C_mul, C_mul, C_add, map_natCast, this, C_1]
    have h2 := hE_succ (C a * X) (C b) n
    rw [h1, derivative_add, derivative_mul, derivative_mul, derivative_C, derivative_X, derivative_mul, derivative_C,
      ih1, ih2]
    simp only [Nat.add_sub_cancel, zero_mul, zero_add, mul_one, Nat.add_succ_sub_one]
    rw [h2]
    simp only [C_mul, C_add, Nat.cast_add, Nat.cast_one, Nat.cast_ofNat, C_1, map_natCast]
    ring_nf
    simp only [map_ofNat]
    ring

/-! ## The functional `X ^ n ↦ H_n` -/

/-- `X ^ n ↦ H_n` with `H_n = E_n (x, b)`. -/
noncomputable def hL (x b : ℝ) : ℝ[X] →ₗ[ℝ] ℝ := lsum fun n => LinearMap.mulRight ℝ (hE x b n)

theorem hL_monomial (x b : ℝ) (n : ℕ) (c : ℝ) : hL x b (monomial n c) = c * hE x b n := by
  rw [hL, lsum_apply, sum_monomial_index]
  · rfl
  · simp

theorem hL_C_mul (x b c : ℝ) (g : ℝ[X]) : hL x b (C c * g) = c * hL x b g := by
  rw [← smul_eq_C_mul, map_smul, smul_eq_mul]

theorem hL_pow (x b : ℝ) (n : ℕ) : hL x b (X ^ n) = hE x b n := by
  rw [X_pow_eq_monomial, hL_monomial, one_mul]

theorem hL_X (x b : ℝ) (g : ℝ[X]) : hL x b (X * g) = x * hL x b g + 2 * b * hL x b (derivative g) := by
  induction g using Polynomial.induction_on' with
  | add f g hf hg => rw [mul_add, map_add, hf, hg, map_add, derivative_add, map_add]; ring
  | monomial n c =>
    rw [X_mul_monomial, derivative_monomial, hL_monomial, hL_monomial, hL_monomial, hE_succ]
    ring

/-! ## Moments -/

/-- The polynomial of `(x - P)^i`. -/
noncomputable def hA (p : ℝ) (i : ℕ) : ℝ[X] := hE (C (-(1 / p)) * X) (C (1 / (4 * p))) i

/-- The polynomial of `(y - Q)^j`. -/
noncomputable def hB (q : ℝ) (j : ℕ) : ℝ[X] := hE (C (1 / q) * X) (C (1 / (4 * q))) j

theorem deriv_pow_sub (A : ℝ) (i : ℕ) : derivative ((X - C A) ^ i : ℝ[X]) = C (i : ℝ) * (X - C A) ^ (i - 1) := by
  rw [derivative_X_sub_C_pow]

section
variable {p q : ℝ} (hp : 0 < p) (hq : 0 < q) (P Q : ℝ) {s : ℝ} (hs : 0 ≤ s)
include hp hq hs

/-- One direction at fixed coupling: moments about the two pair centers.  `v = ρ τ`. -/
theorem G2_moments (v : ℝ) (hv : v = p * q * s / (p * q + (p + q) * s)) (i j : ℕ) :
    G2 p q P Q s ((X - C P) ^ i) ((X - C Q) ^ j) =
      G2 p q P Q s 1 1 * hL (v * (P - Q)) (-(v / 4)) (hA p i * hB q j) := by
  have hd : p * q + (p + q) * s ≠ 0 := by positivity
  -- recursion of the right hand side in the first index
  have recL : ∀ i j : ℕ, hL (v * (P - Q)) (-(v / 4)) (hA p (i + 1) * hB q j) =
      (q + s) / (2 * (p * q + (p + q) * s)) * ((i : ℝ) * hL (v * (P - Q)) (-(v / 4)) (hA p (i - 1) * hB q j))
      + s / (2 * (p * q + (p + q) * s)) * ((j : ℝ) * hL (v * (P - Q)) (-(v / 4)) (hA p i * hB q (j - 1)))
      - q * s / (p * q + (p + q) * s) * (P - Q) * hL (v * (P - Q)) (-(v / 4)) (hA p i * hB q j) := by
    intro i j
    have e1 : hA p (i + 1) * hB q j = C (-(1 / p)) * (X * (hA p i * hB q j)) +
        C (2 * (1 / (4 * p)) * (i : ℝ)) * (hA p (i - 1) * hB q j) := by
      have h2 : (C 2 : ℝ[X]) = 2 := map_ofNat C 2
      rw [hA, hE_succ, C_mul, C_mul, h2, map_natCast]
      unfold hA
      ring
    have e2 : derivative (hA p i * hB q j) = C ((i : ℝ) * -(1 / p)) * (hA p (i - 1) * hB q j) +
        C ((j : ℝ) * (1 / q)) * (hA p i * hB q (j - 1)) := by
      rw [derivative_mul, hA, hB, hE_deriv, hE_deriv]
      unfold hA hB
      ring
    rw [e1, map_add, hL_C_mul, hL_C_mul, hL_X, e2, map_add, hL_C_mul, hL_C_mul, hv]
    field_simp
    ring
  have recR : ∀ j : ℕ, hL (v * (P - Q)) (-(v / 4)) (hA p 0 * hB q (j + 1)) =
      (p + s) / (2 * (p * q + (p + q) * s)) * ((j : ℝ) * hL (v * (P - Q)) (-(v / 4)) (hA p 0 * hB q (j - 1)))
      + p * s / (p * q + (p + q) * s) * (P - Q) * hL (v * (P - Q)) (-(v / 4)) (hA p 0 * hB q j) := by
    intro j
    have e1 : hA p 0 * hB q (j + 1) = C (1 / q) * (X * (hA p 0 * hB q j)) +
        C (2 * (1 / (4 * q)) * (j : ℝ)) * (hA p 0 * hB q (j - 1)) := by
      have h2 : (C 2 : ℝ[X]) = 2 := map_ofNat C 2
      rw [hB, hE_succ, C_mul, C_mul, h2, map_natCast]
      unfold hB
      ring
    have e2 : derivative (hA p 0 * hB q j) = C ((j : ℝ) * (1 / q)) * (hA p 0 * hB q (j - 1)) := by
      rw [derivative_mul, hA, hB, hE_deriv, hE_deriv]
      simp only [Nat.cast_zero, zero_mul, C_0, zero_add]
      unfold hB
      ring
    rw [e1, map_add, hL_C_mul, hL_C_mul, hL_X, e2, hL_C_mul, hv]
    field_simp
    ring
  have gL : ∀ i j : ℕ, G2 p q P Q s ((X - C P) ^ (i + 1)) ((X - C Q) ^ j) =
      (q + s) / (2 * (p * q + (p + q) * s)) * ((i : ℝ) * G2 p q P Q s ((X - C P) ^ (i - 1)) ((X - C Q) ^ j))
      + s / (2 * (p * q + (p + q) * s)) * ((j : ℝ) * G2 p q P Q s ((X - C P) ^ i) ((X - C Q) ^ (j - 1)))
      - q * s / (p * q + (p + q) * s) * (P - Q) * G2 p q P Q s ((X - C P) ^ i) ((X - C Q) ^ j) := by
    intro i j
    rw [pow_succ, mul_comm ((X - C P) ^ i), G2_vertical_left hp hq P Q hs, deriv_pow_sub, deriv_pow_sub, G2_C_left,
      G2_C_right]
  have gR : ∀ j : ℕ, G2 p q P Q s ((X - C P) ^ 0) ((X - C Q) ^ (j + 1)) =
      (p + s) / (2 * (p * q + (p + q) * s)) * ((j : ℝ) * G2 p q P Q s ((X - C P) ^ 0) ((X - C Q) ^ (j - 1)))
      + p * s / (p * q + (p + q) * s) * (P - Q) * G2 p q P Q s ((X - C P) ^ 0) ((X - C Q) ^ j) := by
    intro j
    rw [pow_succ, mul_comm ((X - C Q) ^ j), G2_swap, G2_vertical_left hq hp Q P hs, deriv_pow_sub, deriv_pow_sub,
      G2_C_left, G2_C_right, G2_swap (p := p), G2_swap (p := p)]
    simp only [Nat.cast_zero, zero_mul, mul_zero, mul_comm q p, add_comm q p]
    ring
  have h0 : ∀ j : ℕ, G2 p q P Q s ((X - C P) ^ 0) ((X - C Q) ^ j) =
      G2 p q P Q s 1 1 * hL (v * (P - Q)) (-(v / 4)) (hA p 0 * hB q j) := by
    intro j
    induction j using Nat.strong_induction_on with
    | _ j ih =>
      cases j with
      | zero =>
        have : hL (v * (P - Q)) (-(v / 4)) (hA p 0 * hB q 0) = 1 := by
          have h1 : hA p 0 * hB q 0 = X ^ 0 := by simp [hA, hB, hE]
          rw [h1, hL_pow, hE]
        rw [this, pow_zero, pow_zero, mul_one]
      | succ j =>
        rw [gR, recR, ih j (by omega), ih (j - 1) (by omega)]
        ring
  induction i using Nat.strong_induction_on generalizing j with
  | _ i ih =>
    cases i with
    | zero => exact h0 j
    | succ i =>
      rw [gL, recL, ih i (by omega), ih i (by omega), ih (i - 1) (by omega)]
      ring

end

end Simint
