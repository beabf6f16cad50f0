import Verif.FlApprox

/-!
# Relative errors of positive quantities

`Rl k e x' x`: the computed `x'` is the positive number `x`, which lies between `2^-e` and `2^e`, up to
`k` roundings.
-/

set_option autoImplicit false

namespace Simint

open FlBoys (Arith Rounds u η ieee rn lastPlace)

/-- `Rounds`, and: results in the range of normal doubles have a relative error of at most `u`; rounding
keeps signs. -/
structure Sound (F : Arith) : Prop extends Rounds F where
  normal : ∀ y, κ ≤ |y| → |y| ≤ 2 ^ 1023 → |F.fl y - y| ≤ u * |y|
  nonneg : ∀ y, 0 ≤ y → 0 ≤ F.fl y
  nonpos : ∀ y, y ≤ 0 → F.fl y ≤ 0

theorem rn_normal {y : ℝ} (hy : κ ≤ |y|) : |rn y - y| ≤ u * |y| := by
  have h0 : 0 < |y| := κ_pos.trans_le hy
  have hl : -1022 ≤ Int.log 2 |y| := by
    rw [← Int.zpow_le_iff_le_log (by norm_num) h0]
    refine le_trans (le_of_eq ?_) hy
    unfold κ
    rw [zpow_neg, show (1022 : ℤ) = ((1022 : ℕ) : ℤ) by norm_num, zpow_natCast, one_div]
    simp
  have hp : lastPlace y = Int.log 2 |y| - 52 := max_eq_left (by omega)
  have h1 := Int.zpow_log_le_self (b := 2) (r := |y|) (by norm_num) h0
  have h2 : (2 : ℝ) ^ lastPlace y / 2 = u * 2 ^ Int.log 2 |y| := by
    rw [hp]
    unfold u
    rw [zpow_sub₀ (by norm_num), show (52 : ℤ) = ((52 : ℕ) : ℤ) by norm_num, zpow_natCast]
    ring
  have h3 := mul_le_mul_of_nonneg_left h1 u_pos.le
  push_cast at h3
  rw [← h2] at h3
  refine le_trans ?_ h3
  unfold FlBoys.rn
  have hp : (0 : ℝ) < 2 ^ lastPlace y := by positivity
  set p := (2 : ℝ) ^ lastPlace y
  have h1 := abs_sub_round (y / p)
  have e : (round (y / p) : ℝ) * p - y = -((y / p - round (y / p)) * p) := by
    field_simp; ring
  rw [e, abs_neg, abs_mul, abs_of_pos hp]
  nlinarith

theorem sound_ieee (fused : Bool) : Sound (ieee fused) where
  toRounds := FlBoys.rounds_ieee fused
  normal := fun y hy _ => rn_normal hy
  nonneg := fun y hy => by
    show 0 ≤ rn y
    unfold FlBoys.rn
    have : (0 : ℤ) ≤ round (y / 2 ^ lastPlace y) := by
      rw [round_eq]
      exact Int.floor_nonneg.2 (by positivity)
    have h2 : (0 : ℝ) ≤ round (y / 2 ^ lastPlace y) := by exact_mod_cast this
    positivity
  nonpos := fun y hy => by
    show rn y ≤ 0
    unfold FlBoys.rn
    have hp : (0 : ℝ) < 2 ^ lastPlace y := by positivity
    have : round (y / 2 ^ lastPlace y) ≤ (0 : ℤ) := by
      rw [round_eq]
      have h1 : y / 2 ^ lastPlace y ≤ 0 := div_nonpos_of_nonpos_of_nonneg hy hp.le
      have : ⌊y / 2 ^ lastPlace y + 1 / 2⌋ < 1 := Int.floor_lt.2 (by push_cast; linarith)
      omega
    have h2 : (round (y / 2 ^ lastPlace y) : ℝ) ≤ 0 := by exact_mod_cast this
    exact mul_nonpos_of_nonpos_of_nonneg h2 hp.le

/-- `x` lies between `2^-e` and `2^e`. -/
structure InR (e : ℕ) (x : ℝ) : Prop where
  lo : 1 / 2 ^ e ≤ x
  hi : x ≤ 2 ^ e

/-- The computed `x'` is `x`, between `2^-e` and `2^e`, up to `k` roundings. -/
structure Rl (k e : ℕ) (x' x : ℝ) : Prop where
  err : |x' - x| ≤ γ k * x
  rng : InR e x

/-- A million roundings cost less than 2^-32. -/
theorem γ_small {k : ℕ} (hk : k ≤ 2 ^ 20) : γ k ≤ 1 / 2 ^ 32 := by
  refine (γ_le (hk.trans (by norm_num))).trans ?_
  have : (k : ℝ) ≤ 2 ^ 20 := by exact_mod_cast hk
  calc (k : ℝ) * (1 / 2 ^ 52) ≤ 2 ^ 20 * (1 / 2 ^ 52) := by gcongr
    _ = 1 / 2 ^ 32 := by norm_num

theorem γ_lt_half {k : ℕ} (hk : k ≤ 2 ^ 20) : γ k ≤ 1 / 2 := (γ_small hk).trans (by norm_num)

theorem uPow_le_two {k : ℕ} (hk : k ≤ 2 ^ 20) : (1 + u) ^ k ≤ 2 := by
  have := γ_lt_half hk
  unfold γ at this
  linarith

/-- Overflow conditions. -/
theorem ov_of {k : ℕ} {X : ℝ} (hk : k ≤ 2 ^ 20) (h0 : 0 ≤ X) (hX : X ≤ 2 ^ 1000) : (1 + u) ^ k * X ≤ 2 ^ 1023 := by
  calc (1 + u) ^ k * X ≤ 2 * 2 ^ 1000 := mul_le_mul (uPow_le_two hk) hX h0 (by norm_num)
    _ = 2 ^ 1001 := by rw [← pow_succ']
    _ ≤ 2 ^ 1023 := pow_le_pow_right₀ (by norm_num) (by norm_num)

theorem InR.pos {e : ℕ} {x : ℝ} (h : InR e x) : 0 < x := lt_of_lt_of_le (by positivity) h.lo

theorem InR.mono {e f : ℕ} {x : ℝ} (h : InR e x) (hf : e ≤ f) : InR f x :=
  ⟨(one_div_le_one_div_of_le (by positivity) (pow_le_pow_right₀ (by norm_num) hf)).trans h.lo,
    h.hi.trans (pow_le_pow_right₀ (by norm_num) hf)⟩

theorem InR.mul {e f : ℕ} {x y : ℝ} (h : InR e x) (h' : InR f y) : InR (e + f) (x * y) := by
  constructor
  · have e1 : (1 : ℝ) / 2 ^ (e + f) = 1 / 2 ^ e * (1 / 2 ^ f) := by
      rw [pow_add, div_mul_div_comm, one_mul]
    rw [e1]
    exact mul_le_mul h.lo h'.lo (by positivity) h.pos.le
  · rw [pow_add]; exact mul_le_mul h.hi h'.hi h'.pos.le (by positivity)

theorem InR.inv {e : ℕ} {x : ℝ} (h : InR e x) : InR e (1 / x) := by
  constructor
  · exact one_div_le_one_div_of_le h.pos h.hi
  · rw [div_le_iff₀ h.pos]
    have := h.lo
    rw [div_le_iff₀ (by positivity)] at this
    linarith

theorem InR.add {e : ℕ} {x y : ℝ} (h : InR e x) (h' : InR e y) : InR (e + 1) (x + y) := by
  constructor
  · refine le_trans ?_ (h.lo.trans (by linarith [h'.pos]))
    exact one_div_le_one_div_of_le (by positivity) (pow_le_pow_right₀ (by norm_num) (by omega))
  · rw [pow_succ]; linarith [h.hi, h'.hi]

theorem InR.sqrt {e : ℕ} {x : ℝ} (h : InR e x) : InR e √x := by
  have h1 : (1 : ℝ) ≤ 2 ^ e := one_le_pow₀ (by norm_num)
  constructor
  · refine Real.le_sqrt_of_sq_le (le_trans ?_ h.lo)
    rw [div_pow, one_pow]
    refine one_div_le_one_div_of_le (by positivity) ?_
    nlinarith
  · rw [Real.sqrt_le_left (by positivity)]
    refine h.hi.trans ?_
    nlinarith

namespace Rl
variable {k l e f : ℕ} {x' x y' y : ℝ}

theorem of_exact (h : InR e x) : Rl 0 e x x := ⟨by simp [γ_zero], h⟩

theorem pos (h : Rl k e x' x) : 0 < x := h.rng.pos

theorem mono (h : Rl k e x' x) (hk : k ≤ l) (he : e ≤ f) : Rl l f x' x :=
  ⟨h.err.trans (mul_le_mul_of_nonneg_right (γ_mono hk) h.pos.le), h.rng.mono he⟩

theorem approx (h : Rl k e x' x) : Approx k x' x x := ⟨by rw [abs_of_pos h.pos], h.err⟩

theorem half (h : Rl k e x' x) (hk : k ≤ 2 ^ 20) : x / 2 ≤ x' ∧ x' ≤ 2 * x := by
  have h1 := abs_le.1 h.err
  have h2 := mul_le_mul_of_nonneg_right (γ_lt_half hk) h.pos.le
  constructor <;> linarith [h.pos]

theorem pos' (h : Rl k e x' x) (hk : k ≤ 2 ^ 20) : 0 < x' := lt_of_lt_of_le (half_pos h.pos) (h.half hk).1

theorem fl {F : Arith} (hF : Sound F) (h : Rl k e x' x) (hk : k ≤ 2 ^ 20) (he : e ≤ 1000) :
    Rl (k + 1) e (F.fl x') x := by
  obtain ⟨h1, h2⟩ := h.half hk
  have hp := h.pos' hk
  have lo : κ ≤ |x'| := by
    rw [abs_of_pos hp]
    refine le_trans ?_ h1
    have := (h.rng.mono he).lo
    have h3 : κ ≤ 1 / 2 ^ 1000 / 2 := by
      unfold κ
      rw [div_div, ← pow_succ]
      exact one_div_le_one_div_of_le (by positivity) (pow_le_pow_right₀ (by norm_num) (by norm_num))
    linarith
  have hi : |x'| ≤ 2 ^ 1023 := by
    rw [abs_of_pos hp]
    refine h2.trans ?_
    have := (h.rng.mono he).hi
    calc 2 * x ≤ 2 * 2 ^ 1000 := by gcongr
      _ = 2 ^ 1001 := by rw [← pow_succ']
      _ ≤ 2 ^ 1023 := pow_le_pow_right₀ (by norm_num) (by norm_num)
  have r := hF.normal x' lo hi
  clear lo hi
  refine ⟨?_, h.rng⟩
  have e : F.fl x' - x = (F.fl x' - x') + (x' - x) := by ring
  rw [e]
  refine (abs_add_le _ _).trans ?_
  rw [abs_of_pos hp] at r
  have h3 := (abs_le.1 h.err).2
  have h4 : u * x' ≤ u * ((1 + γ k) * x) := mul_le_mul_of_nonneg_left (by linarith) u_pos.le
  have h5 := h.err
  rw [γ_add, γ_one]
  linarith

theorem mul (h : Rl k e x' x) (h' : Rl l f y' y) : Rl (k + l) (e + f) (x' * y') (x * y) :=
  ⟨(h.approx.mul h'.approx).err, h.rng.mul h'.rng⟩

theorem add (h : Rl k e x' x) (h' : Rl k e y' y) : Rl k (e + 1) (x' + y') (x + y) :=
  ⟨(h.approx.add h'.approx).err, h.rng.add h'.rng⟩

theorem inv (h : Rl k e x' x) (hk : k ≤ 2 ^ 20) : Rl (k + 1) e (1 / x') (1 / x) := by
  refine ⟨?_, h.rng.inv⟩
  have hp := h.pos' hk
  have hx := h.pos
  have e : 1 / x' - 1 / x = (x - x') / (x' * x) := by field_simp
  rw [e, abs_div, abs_of_pos (mul_pos hp hx), abs_sub_comm, div_le_iff₀ (mul_pos hp hx)]
  have h1 := (abs_le.1 h.err).1
  have g0 := γ_nonneg k
  have g1 := γ_small hk
  have hu := u_pos
  have hu1 := u_le_one
  have e2 : γ (k + 1) * (1 / x) * (x' * x) = γ (k + 1) * x' := by field_simp
  rw [e2]
  refine h.err.trans ?_
  have h2 : (1 - γ k) * x ≤ x' := by linarith
  have h3 : γ k * x ≤ γ (k + 1) * ((1 - γ k) * x) := by
    have h4 : γ k ≤ γ (k + 1) * (1 - γ k) := by
      rw [γ_add, γ_one]
      have h5 : γ k * γ k ≤ u / 2 := by
        refine (mul_le_mul g1 g1 g0 (by norm_num)).trans ?_
        unfold FlBoys.u; norm_num
      have h6 : γ k * γ k * (1 + u) ≤ u := by nlinarith [mul_nonneg g0 g0]
      nlinarith
    have := mul_le_mul_of_nonneg_right h4 hx.le
    linarith
  exact h3.trans (mul_le_mul_of_nonneg_left h2 (γ_nonneg _))

theorem sqrt (h : Rl k e x' x) (hk : k ≤ 2 ^ 20) : Rl k e √x' √x := by
  refine ⟨?_, h.rng.sqrt⟩
  have hp := h.pos' hk
  have hx := h.pos
  have s1 := Real.sqrt_pos.2 hp
  have s2 := Real.sqrt_pos.2 hx
  have e : (√x' - √x) * (√x' + √x) = x' - x := by
    have := Real.mul_self_sqrt hp.le
    have := Real.mul_self_sqrt hx.le
    nlinarith
  have h1 : |√x' - √x| * (√x' + √x) = |x' - x| := by rw [← e, abs_mul, abs_of_pos (add_pos s1 s2)]
  have h2 : |√x' - √x| * √x ≤ γ k * √x * √x := by
    rw [mul_assoc, Real.mul_self_sqrt hx.le]
    refine le_trans ?_ h.err
    rw [← h1]
    exact mul_le_mul_of_nonneg_left (by linarith) (abs_nonneg _)
  exact le_of_mul_le_mul_right h2 s2

theorem flMul {F : Arith} (hF : Sound F) (h : Rl k e x' x) (h' : Rl l f y' y) (hk : k + l ≤ 2 ^ 20) (he : e + f ≤ 1000) :
    Rl (k + l + 1) (e + f) (F.fl (x' * y')) (x * y) := (h.mul h').fl hF hk he

theorem flAdd {F : Arith} (hF : Sound F) (h : Rl k e x' x) (h' : Rl k e y' y) (hk : k ≤ 2 ^ 20) (he : e + 1 ≤ 1000) :
    Rl (k + 1) (e + 1) (F.fl (x' + y')) (x + y) := (h.add h').fl hF hk he

theorem flInv {F : Arith} (hF : Sound F) (h : Rl k e x' x) (hk : k + 1 ≤ 2 ^ 20) (he : e ≤ 1000) :
    Rl (k + 2) e (F.fl (1 / x')) (1 / x) := (h.inv (by omega)).fl hF hk he

theorem flSqrt {F : Arith} (hF : Sound F) (h : Rl k e x' x) (hk : k ≤ 2 ^ 20) (he : e ≤ 1000) :
    Rl (k + 1) e (F.fl √x') √x := (h.sqrt hk).fl hF hk he

end Rl

/-- Division by a positive quantity. -/
theorem Approx.flDiv {F : Arith} (hF : Sound F) {k l e : ℕ} {x' x X y' y : ℝ} (h : Approx k x' x X)
    (h' : Rl l e y' y) (hk : k + l + 1 ≤ 2 ^ 20) (hX : X / y ≤ 2 ^ 1000) :
    Approx (k + l + 2) (F.fl (x' / y')) (x / y) (X / y + κ) := by
  have h1 := h.mul (h'.inv (by omega)).approx
  rw [mul_one_div, mul_one_div, mul_one_div] at h1
  exact Approx.fl hF.toRounds h1 (ov_of (by omega) h1.nonneg hX)

end Simint
