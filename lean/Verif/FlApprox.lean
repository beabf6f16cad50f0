import Verif.FlBoysIeee

/-!
# Accounting for rounding errors

`Approx k x' x X`: the computed `x'` differs from the exact `x` by at most `k` relative roundings of
`X`, a bound of `|x|`.
-/

set_option autoImplicit false

namespace Simint

open FlBoys (Arith Rounds u η)

/-- Smallest normal double. -/
noncomputable def κ : ℝ := 1 / 2 ^ 1022

/-- Error of `k` roundings, relative. -/
noncomputable def γ (k : ℕ) : ℝ := (1 + u) ^ k - 1

/-- The computed `x'` is the exact `x` up to `k` roundings of quantities of size at most `X`. -/
structure Approx (k : ℕ) (x' x X : ℝ) : Prop where
  le : |x| ≤ X
  err : |x' - x| ≤ γ k * X

theorem u_pos : 0 < u := by unfold u; positivity

theorem u_le_one : u ≤ 1 := by unfold u; norm_num

theorem κ_pos : 0 < κ := by unfold κ; positivity

theorem η_eq : η = u * κ := by
  unfold η u κ
  rw [div_mul_div_comm, ← pow_add]; simp

theorem one_le_uPow (k : ℕ) : 1 ≤ (1 + u) ^ k := one_le_pow₀ (by linarith [u_pos])

theorem uPow_mono {k l : ℕ} (h : k ≤ l) : (1 + u) ^ k ≤ (1 + u) ^ l :=
  pow_le_pow_right₀ (by linarith [u_pos]) h

theorem γ_nonneg (k : ℕ) : 0 ≤ γ k := by unfold γ; linarith [one_le_uPow k]

theorem γ_mono {k l : ℕ} (h : k ≤ l) : γ k ≤ γ l := by
  unfold γ
  linarith [uPow_mono h]

theorem γ_zero : γ 0 = 0 := by simp [γ]

theorem γ_add (k l : ℕ) : γ (k + l) = γ k + γ l + γ k * γ l := by
  unfold γ; rw [pow_add]; ring

theorem γ_one : γ 1 = u := by simp [γ]

/-- A few thousand roundings cost about that many units. -/
theorem γ_le {k : ℕ} (h : k ≤ 2 ^ 52) : γ k ≤ k * (1 / 2 ^ 52) := by
  have h2 : ∀ j : ℕ, j ≤ 2 ^ 52 → (1 + u) ^ j ≤ 1 + j * (2 * u) := by
    intro j
    induction j with
    | zero => simp
    | succ j ih =>
      intro hj
      have ih := ih (by omega)
      have hj' : (j : ℝ) * u ≤ 1 / 2 := by
        have : (j : ℝ) ≤ 2 ^ 52 := by exact_mod_cast (by omega : j ≤ 2 ^ 52)
        unfold u
        calc (j : ℝ) * (1 / 2 ^ 53) ≤ 2 ^ 52 * (1 / 2 ^ 53) := by gcongr
          _ = 1 / 2 := by norm_num
      rw [pow_succ]
      push_cast
      have hu := u_pos
      nlinarith [mul_le_mul_of_nonneg_right ih (by linarith : 0 ≤ 1 + u)]
  have := h2 k h
  unfold γ
  have hu : 2 * u = 1 / 2 ^ 52 := by unfold u; norm_num
  rw [← hu]; linarith

namespace Approx

variable {k l : ℕ} {x' x X y' y Y : ℝ}

theorem nonneg (h : Approx k x' x X) : 0 ≤ X := (abs_nonneg _).trans h.le

theorem refl (x : ℝ) : Approx 0 x x |x| := ⟨le_rfl, by simp [γ_zero]⟩

theorem mono (h : Approx k x' x X) (hk : k ≤ l) (hX : X ≤ Y) : Approx l x' x Y :=
  ⟨h.le.trans hX, h.err.trans (mul_le_mul (γ_mono hk) hX h.nonneg (γ_nonneg l))⟩

theorem abs_le (h : Approx k x' x X) : |x'| ≤ (1 + u) ^ k * X := by
  have h1 := abs_sub_abs_le_abs_sub x' x
  have h2 := h.err
  have h3 := h.le
  unfold γ at h2
  linarith

theorem mul (h : Approx k x' x X) (h' : Approx l y' y Y) : Approx (k + l) (x' * y') (x * y) (X * Y) := by
  constructor
  · rw [abs_mul]; exact mul_le_mul h.le h'.le (abs_nonneg _) h.nonneg
  · have e : x' * y' - x * y = (x' - x) * (y' - y) + (x' - x) * y + x * (y' - y) := by ring
    rw [e]
    refine (abs_add_le _ _).trans ((add_le_add (abs_add_le _ _) le_rfl).trans ?_)
    rw [abs_mul, abs_mul, abs_mul, γ_add]
    have a1 := mul_le_mul h.err h'.err (abs_nonneg _) (mul_nonneg (γ_nonneg k) h.nonneg)
    have a2 := mul_le_mul h.err h'.le (abs_nonneg _) (mul_nonneg (γ_nonneg k) h.nonneg)
    have a3 := mul_le_mul h.le h'.err (abs_nonneg _) h.nonneg
    linarith

theorem add (h : Approx k x' x X) (h' : Approx k y' y Y) : Approx k (x' + y') (x + y) (X + Y) := by
  constructor
  · exact (abs_add_le _ _).trans (add_le_add h.le h'.le)
  · have e : x' + y' - (x + y) = (x' - x) + (y' - y) := by ring
    rw [e]
    refine (abs_add_le _ _).trans ?_
    have := h.err
    have := h'.err
    linarith

theorem neg (h : Approx k x' x X) : Approx k (-x') (-x) X := by
  refine ⟨by rw [abs_neg]; exact h.le, ?_⟩
  have : -x' - -x = -(x' - x) := by ring
  rw [this, abs_neg]; exact h.err

theorem sub (h : Approx k x' x X) (h' : Approx k y' y Y) : Approx k (x' - y') (x - y) (X + Y) := by
  rw [sub_eq_add_neg, sub_eq_add_neg]
  exact h.add h'.neg

theorem fl {F : Arith} (hF : Rounds F) (h : Approx k x' x X) (ov : (1 + u) ^ k * X ≤ 2 ^ 1023) :
    Approx (k + 1) (F.fl x') x (X + κ) := by
  have hx := h.abs_le
  have r := hF.fl x' (hx.trans ov)
  clear ov
  rw [η_eq] at r
  have hκ := κ_pos
  refine ⟨h.le.trans (by linarith), ?_⟩
  have e : F.fl x' - x = (F.fl x' - x') + (x' - x) := by ring
  rw [e]
  refine (abs_add_le _ _).trans ?_
  have h2 := h.err
  have h3 := mul_le_mul_of_nonneg_left hx u_pos.le
  have h4 : γ (k + 1) * X = γ k * X + u * ((1 + u) ^ k * X) := by
    rw [γ_add, γ_one]; unfold γ; ring
  have h5 : u * κ ≤ γ (k + 1) * κ := by
    rw [← γ_one]
    exact mul_le_mul_of_nonneg_right (γ_mono (by omega)) hκ.le
  linarith

end Approx

end Simint
