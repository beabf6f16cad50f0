import Verif.TableScripts
import Verif.BoysInt
import Verif.Props.FastScreen
import Mathlib.MeasureTheory.Function.JacobianOneDim

/-!
# Lemmas for the scripts that write tables
-/

set_option autoImplicit false

open Real MeasureTheory Set

namespace Simint.TableScripts

/-! ## The grid -/

/-- Grid points one after the other. -/
def gridPoint (rnd : ℚ → ℚ) (inc x : ℚ) (k : ℕ) : ℚ := (fun x => rnd (x + inc))^[k] x

theorem gridLoop_eq {rnd : ℚ → ℚ} {inc maxx : ℚ} {n : ℕ} : ∀ {x : ℚ} {fuel : ℕ}, n < fuel →
    (∀ k < n, gridPoint rnd inc x k < maxx) → maxx ≤ gridPoint rnd inc x n →
    gridLoop rnd inc maxx fuel x = some ((List.range n).map (gridPoint rnd inc x)) := by
  induction n with
  | zero =>
    intro x fuel hf h1 h2
    obtain ⟨f, rfl⟩ : ∃ f, fuel = f + 1 := ⟨fuel - 1, by omega⟩
    have : ¬ x < maxx := not_lt.2 h2
    simp [gridLoop, this]
  | succ n ih =>
    intro x fuel hf h1 h2
    obtain ⟨f, rfl⟩ : ∃ f, fuel = f + 1 := ⟨fuel - 1, by omega⟩
    have h0 : x < maxx := h1 0 (by omega)
    rw [gridLoop, if_pos h0, ih (by omega) (fun k hk => h1 (k + 1) (by omega)) h2, Option.map_some,
      List.range_succ_eq_map, List.map_cons, List.map_map]
    rfl

theorem gridPoint_id (inc : ℚ) (k : ℕ) : gridPoint id inc 0 k = k * inc := by
  induction k with
  | zero => simp [gridPoint]
  | succ k ih =>
    rw [gridPoint, Function.iterate_succ_apply', ← gridPoint, ih, id]
    push_cast
    ring

/-! ## Values -/

/-- The substitution `t = x s^2`. -/
theorem gammaInc_eq (i : ℕ) {x : ℝ} (hx : 0 < x) :
    gammaInc (i + 1 / 2) x = 2 * x ^ ((i : ℝ) + 1 / 2) * boysF i x := by
  have him : (fun s : ℝ => x * s ^ 2) '' Ioo 0 1 = Ioo 0 x := by
    ext t
    constructor
    · rintro ⟨s, ⟨h0, h1⟩, rfl⟩
      exact ⟨by positivity, by nlinarith [mul_lt_mul_of_pos_left (show s ^ 2 < 1 by nlinarith) hx]⟩
    · rintro ⟨h0, h1⟩
      refine ⟨√(t / x), ⟨sqrt_pos.2 (by positivity), ?_⟩, ?_⟩
      · rw [sqrt_lt' one_pos, one_pow, div_lt_one hx]
        exact h1
      · simp only
        rw [sq_sqrt (by positivity)]
        field_simp
  have hinj : InjOn (fun s : ℝ => x * s ^ 2) (Ioo 0 1) := by
    intro s hs t ht e
    have e' : s ^ 2 = t ^ 2 := mul_left_cancel₀ hx.ne' e
    exact (pow_left_inj₀ hs.1.le ht.1.le two_ne_zero).1 e'
  have hd : ∀ s ∈ Ioo (0 : ℝ) 1, HasDerivWithinAt (fun s : ℝ => x * s ^ 2) (x * (2 * s)) (Ioo 0 1) s := by
    intro s _
    have := ((hasDerivAt_pow 2 s).const_mul x).hasDerivWithinAt (s := Ioo 0 1)
    simpa using this
  have key := integral_image_eq_integral_abs_deriv_smul measurableSet_Ioo hd hinj
    (fun t => t ^ ((i : ℝ) + 1 / 2 - 1) * exp (-t))
  rw [him] at key
  unfold gammaInc
  rw [key, boysF, ← integral_const_mul]
  refine setIntegral_congr_fun measurableSet_Ioo fun s hs => ?_
  have s0 := hs.1
  simp only [smul_eq_mul]
  rw [abs_of_pos (by positivity), mul_rpow hx.le (by positivity), ← rpow_natCast s 2, ← rpow_mul s0.le]
  have e1 : x ^ ((i : ℝ) + 1 / 2) = x * x ^ ((i : ℝ) + 1 / 2 - 1) := by
    rw [rpow_sub_one hx.ne']
    field_simp
  have e2 : s ^ (2 * i) = s * s ^ (((2 : ℕ) : ℝ) * ((i : ℝ) + 1 / 2 - 1)) := by
    have : ((2 : ℕ) : ℝ) * ((i : ℝ) + 1 / 2 - 1) = ((2 * i : ℕ) : ℝ) - 1 := by push_cast; ring
    rw [this, rpow_sub_one s0.ne', rpow_natCast]
    field_simp
  rw [e1, e2, rpow_natCast, neg_mul]
  ring

theorem value_eq (i : ℕ) {x : ℝ} (hx : 0 < x) :
    gammaInc (i + 1 / 2) x * 1 / (2 * x ^ ((i : ℝ) + 1 / 2)) = boysF i x := by
  have : 0 < x ^ ((i : ℝ) + 1 / 2) := rpow_pos_of_pos hx _
  rw [gammaInc_eq i hx]
  field_simp

theorem asym_eq (i : ℕ) {x : ℝ} (hx : 0 < x) :
    √(π / x ^ (2 * i + 1)) * ((2 * i - 1 : ℕ).doubleFactorial / 2 ^ (i + 1)) = boysInf i x := by
  rw [boysInf_eq i hx, sqrt_div pi_pos.le]
  have : √(x ^ (2 * i + 1)) = x ^ ((i : ℝ) + 1 / 2) := by
    rw [sqrt_eq_rpow, ← rpow_natCast, ← rpow_mul hx.le]
    congr 1
    push_cast
    ring
  rw [this, rpow_neg hx.le]
  ring

theorem boysTail_anti (n : ℕ) {x y : ℝ} (hx : 0 < x) (h : x ≤ y) : boysTail n y ≤ boysTail n x := by
  refine setIntegral_mono_on (boys_int_Ioi_one n (hx.trans_le h)) (boys_int_Ioi_one n hx) measurableSet_Ioi
    fun t ht => ?_
  have : (1 : ℝ) < t := ht
  refine mul_le_mul_of_nonneg_left (exp_le_exp.2 ?_) (by positivity)
  nlinarith [sq_nonneg t]

theorem boysTail_up {i n : ℕ} (h : i ≤ n) {x : ℝ} (hx : 0 < x) : boysTail i x ≤ boysTail n x := by
  induction n, h using Nat.le_induction with
  | base => exact le_rfl
  | succ n _ ih => exact ih.trans (boysTail_mono n hx)

/-- The tail gets arbitrarily small. -/
theorem boysTail_small (n : ℕ) {inc eps : ℝ} (hi : 0 < inc) (he : 0 < eps) :
    ∃ k : ℕ, 0 < k ∧ boysTail n (k * inc) ≤ eps := by
  obtain ⟨k, hk⟩ := exists_nat_gt (((n : ℝ) + 1 + 1 / eps) / inc)
  rw [div_lt_iff₀ hi] at hk
  have e0 : 0 < 1 / eps := by positivity
  have n0 : (0 : ℝ) ≤ n := Nat.cast_nonneg n
  refine ⟨k, ?_, ?_⟩
  · rcases Nat.eq_zero_or_pos k with rfl | h
    · simp at hk
      linarith [inv_pos.2 he]
    · exact h
  · set x := (k : ℝ) * inc
    refine (boysTail_le (n := n) (x := x) (by linarith)).trans ?_
    have h1 : exp (-x) ≤ eps := by
      have h2 : x + 1 ≤ exp x := add_one_le_exp x
      have h3 : 1 / eps ≤ exp x := by linarith
      rw [exp_neg, inv_eq_one_div]
      rw [div_le_iff₀ he] at h3
      rw [div_le_iff₀ (exp_pos x)]
      linarith
    rw [div_le_iff₀ (by linarith)]
    nlinarith

/-! ## Lists -/

theorem pyGet_set {α : Type} (a : List (Option α)) {i j : ℕ} (v : α) (hi : i < a.length) :
    pyGet (a.set i (some v)) j = if j = i then some v else pyGet a j := by
  unfold pyGet
  rw [List.getElem?_set]
  by_cases h : j = i
  · subst h
    simp [hi]
  · rw [if_neg h, if_neg (Ne.symm h)]

/-- A loop that fills a list from element `lo` on, each element from the one before. -/
theorem fill_loop {val : ℕ → ℝ} {step : ℕ → ℝ → ℝ} {lo : ℕ} (h0 : 0 < lo)
    (hstep : ∀ n, lo ≤ n → step n (val (n - 1)) = val n) (m : ℕ) : ∀ {a : List (Option ℝ)},
    lo + m ≤ a.length → (∀ i < lo, pyGet a i = some (val i)) →
    ∃ b, (List.range' lo m).foldlM (fun a n => do
        let v ← pyGet a (n - 1)
        pySet a n (step n v)) a = some b ∧ b.length = a.length ∧ ∀ i < lo + m, pyGet b i = some (val i) := by
  induction m with
  | zero => intro a hl h; exact ⟨a, rfl, rfl, h⟩
  | succ m ih =>
    intro a hl h
    obtain ⟨b, e, hb, hv⟩ := ih (a := a) (by omega) h
    rw [List.range'_concat, List.foldlM_append, e]
    refine ⟨b.set (lo + m) (some (val (lo + m))), ?_, by simp [hb], fun i hi => ?_⟩
    · simp [hv (lo + m - 1) (by omega), pySet, hb, show lo + m < a.length by omega, hstep (lo + m) (by omega)]
    · rw [pyGet_set _ _ (by omega)]
      split_ifs with h1
      · rw [h1]
      · exact hv i (by omega)

end Simint.TableScripts
