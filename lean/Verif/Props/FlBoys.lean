import Verif.FlBoysIeee
import Verif.Props.Boys

/-!
# C83: rounding errors of the Boys function

`Rounds` states what is known of the operations on doubles; every theorem below is for any arithmetic
of that kind unless it names `ieee`.
-/

set_option autoImplicit false

open Real

namespace Simint.FlBoys

/-- The assumptions hold for rounding to nearest with gradual underflow, with fused operations or
without. -/
theorem C83_ieee (fused : Bool) : Rounds (ieee fused) := rounds_ieee fused

/-- Short range: the rounded index is that of a row of the table, at a distance of at most 0.05 (up to
rounding) from the argument. -/
theorem C83_index {A : Arith} (h : Rounds A) {x : ℝ} (hx : 0 ≤ x) (hx' : x < 36.5) :
    0 ≤ idx A x ∧ idx A x < 366 ∧ |(idx A x / 10 : ℝ) - x| ≤ 1 / 20 + 13 / 10 ^ 15 := by
  obtain ⟨i, hi, he, hn⟩ := idx_ok h hx hx'
  rw [he]
  exact ⟨by omega, by omega, by push_cast; exact hn⟩

theorem path_near {vec : Bool} {V : ℕ} {x : ℕ → ℝ} {v : ℕ} (hv : v < V) (hx : x v < 36.5) :
    path vec V x ≠ .far := by
  unfold path
  split_ifs with h1 h2
  · rw [Bool.and_eq_true, lt_real, maxX_real] at h1
    exact absurd ((laneMin_le V x v hv).trans_lt hx) (not_lt.2 h1.2.le)
  · simp
  · simp

theorem path_far {vec : Bool} {V : ℕ} {x : ℕ → ℝ} {v : ℕ} (hv : v < V) (hx : 36.5 ≤ x v) :
    path vec V x ≠ .near := by
  unfold path
  split_ifs with h1 h2
  · simp
  · rw [Bool.and_eq_true, lt_real, maxX_real] at h2
    exact absurd (h2.2.trans_le hx) (not_lt.2 (le_laneMax V x v hv))
  · simp

theorem lane_near {A : Arith} {p : Path} {x : ℝ} {n m : ℕ} (hp : p ≠ .far) (hx : x < 36.5) :
    lane A p x n m = if n < 4 then taylor A x m else (taylor A x n).map fun t => down A x t m (n - m) := by
  have hl : realBoys.lt x boysMaxX = true := by rw [lt_real, maxX_real]; exact hx
  cases p
  · exact absurd rfl hp
  · rfl
  · simp only [lane, top, hl, if_true]

/-- Arguments below 36.5, orders up to 24: the relative error of every stored value is at most 2.5e-14,
whatever the other lanes hold. -/
theorem C83_near {A : Arith} (h : Rounds A) (vec : Bool) {V : ℕ} {x : ℕ → ℝ} {n m v : ℕ} (hv : v < V)
    (h0 : 0 ≤ x v) (hx : x v < 36.5) (hn : n ≤ 24) (hm : m ≤ n) :
    ∃ y, split A vec V x n m v = some y ∧ |y - boysF m (x v)| ≤ 25 / 10 ^ 15 * boysF m (x v) := by
  unfold split
  rw [lane_near (path_near hv hx) hx]
  split_ifs with h4
  · obtain ⟨y, e, hy⟩ := taylor_ok h (m := m) h0 hx (by omega)
    exact ⟨y, e, hy.mono (by norm_num) (boysF_nonneg _ _)⟩
  · obtain ⟨t, e, ht⟩ := taylor_ok h (m := n) h0 hx hn
    rw [e]
    refine ⟨_, rfl, ?_⟩
    have hk : ((n - m : ℕ) : ℝ) ≤ 24 := by exact_mod_cast (show n - m ≤ 24 by omega)
    have hx2 : x v ≤ 2 ^ 30 := by norm_num at hx ⊢; linarith
    have := down_err h (G := fun m => boysF m (x v)) h0 hx2 hn (fun m _ => by
        rw [eq_div_iff (by positivity), mul_comm]; exact boysF_rec m (x v))
      (fun m hm => le_trans (by norm_num) (boysF_low h0 hx.le (by omega)))
      (fun m _ => (boysF_le_one h0).trans (by norm_num)) (by norm_num) (by norm_num) ht (n - m) m (by omega)
    exact this.mono (by linarith) (boysF_nonneg _ _)

theorem lane_far {A : Arith} (h : Rounds A) {p : Path} {x : ℝ} {n m : ℕ} (hp : p ≠ .near) (hx : 36.5 ≤ x)
    (hx' : x ≤ 10 ^ 8) (hn : n ≤ 24) (hm : m ≤ n) (hs : p = .scalar → 4 ≤ n → x ^ (2 * n + 1) ≤ 10 ^ 225) :
    ∃ y, lane A p x n m = some y ∧ Rel (25 / 10 ^ 15) y (laneVal n m x) := by
  have hx1 : 1 ≤ x := le_trans (by norm_num) hx
  have hl : ¬ realBoys.lt x boysMaxX = true := by rw [lt_real, maxX_real]; exact not_lt.2 hx
  have ht : ∀ m, topVal m x = longVal m x := fun m => by rw [topVal, if_neg (not_lt.2 hx)]
  unfold laneVal
  by_cases h4 : n < 4
  · obtain ⟨y, e, hy⟩ := long_ok h hx1 hx' (m := m) (by omega)
    refine ⟨y, ?_, ?_⟩
    · cases p
      · simp only [lane, h4, if_true]; exact e
      · exact absurd rfl hp
      · simp only [lane, h4, if_true, hl]; exact e
    · rw [if_pos h4, ht]
      exact hy.mono (by norm_num) (le_trans (by positivity) (longVal_bounds hx1 hx' (m := m) (by omega)).1)
  · have htop : ∃ t, top A p x n = some t ∧ Rel (13 / 10 ^ 16) t (longVal n x) := by
      cases p
      · exact longSingleVec_ok h hx1 hx' hn
      · exact absurd rfl hp
      · simp only [top, hl]
        exact longSingle_ok h hx1 hx' hn (hs rfl (by omega))
    obtain ⟨t, e, htr⟩ := htop
    refine ⟨down A x t m (n - m), by simp only [lane, if_neg h4, e, Option.map_some], ?_⟩
    rw [if_neg h4]
    have hk : ((n - m : ℕ) : ℝ) ≤ 24 := by exact_mod_cast (show n - m ≤ 24 by omega)
    have hlow : ∀ m ≤ n, 1 / 10 ^ 225 ≤ downVal m x (n - m) := fun m hm =>
      le_trans (by norm_num) (downVal_bounds hx hx' (n - m) m (by omega)).1
    have := down_err h (G := fun m => downVal m x (n - m)) (le_trans (by norm_num) hx) (hx'.trans (by norm_num)) hn
      (fun m hm => by
        show downVal m x (n - m) = (2 * x * downVal (m + 1) x (n - (m + 1)) + _) / _
        rw [show n - m = n - (m + 1) + 1 by omega, downVal])
      hlow (fun m hm => (downVal_bounds hx hx' (n - m) m (by omega)).2)
      (δ := 13 / 10 ^ 16) (by norm_num) (by norm_num)
      (by show Rel _ t (downVal n x (n - n)); rw [Nat.sub_self, downVal, ht]; exact htr) (n - m) m (by omega)
    exact this.mono (by linarith) (le_trans (by positivity) (hlow m hm))

/-- Arguments from 36.5 to 1e8, orders up to 24: rounding changes the stored value by at most a relative
2.5e-14, if the lane is not evaluated by `boys_F_long_single` or if `x^(2n+1)` does not get near the
end of the range of doubles.  (C65 says how far the value without rounding is from the Boys
function.) -/
theorem C83_far_partial {A : Arith} (h : Rounds A) (vec : Bool) {V : ℕ} {x : ℕ → ℝ} {n m v : ℕ} (hv : v < V)
    (hx : 36.5 ≤ x v) (hx' : x v ≤ 10 ^ 8) (hn : n ≤ 24) (hm : m ≤ n)
    (hs : path vec V x = .scalar → 4 ≤ n → x v ^ (2 * n + 1) ≤ 10 ^ 225) :
    ∃ y, split A vec V x n m v = some y ∧ |y - laneVal n m (x v)| ≤ 25 / 10 ^ 15 * laneVal n m (x v) :=
  lane_far h (path_far hv hx) hx hx' hn hm hs

/-- Orders up to 3: no condition, and the Boys function is approximated to 1.1e-12. -/
theorem C83_far_small {A : Arith} (h : Rounds A) (vec : Bool) {V : ℕ} {x : ℕ → ℝ} {n m v : ℕ} (hv : v < V)
    (hx : 36.5 ≤ x v) (hx' : x v ≤ 10 ^ 8) (hn : n < 4) (hm : m ≤ n) :
    ∃ y, split A vec V x n m v = some y ∧ |y - boysF m (x v)| ≤ 11 / 10 ^ 13 * boysF m (x v) := by
  obtain ⟨y, e, hy⟩ := C83_far_partial h vec hv hx hx' (n := n) (m := m) (by omega) hm (fun _ h4 => by omega)
  refine ⟨y, e, ?_⟩
  have h1 := C65_long_small_partial hx hn hm
  have hF := boysF_nonneg m (x v)
  have h2 := abs_sub_le y (laneVal n m (x v)) (boysF m (x v))
  have h3 := (abs_le.1 h1).2
  linarith

/-- The condition is needed: if `x^(2n+1)` is at least 2^1076, `pow(x, -(2n+1))` in `boys_F_long_single`
is zero although the value of the function is a double, and the recursion turns this into zero for
every order, also the lowest. -/
theorem C83_scalar_false (fused : Bool) {vec : Bool} {V : ℕ} {x : ℕ → ℝ} {n v : ℕ} (h4 : 4 ≤ n) (hn : n ≤ 24)
    (hp : path vec V x = .scalar) (hx : 36.5 ≤ x v) (hl : 2 ^ 1076 ≤ x v ^ (2 * n + 1)) :
    ∀ m ≤ n, split (ieee fused) vec V x n m v = some 0 ∧ 0 < boysF m (x v) := by
  intro m hm
  have hx1 : 1 ≤ x v := le_trans (by norm_num) hx
  refine ⟨?_, boysF_pos m (by linarith)⟩
  have hlt : ¬ realBoys.lt (x v) boysMaxX = true := by rw [lt_real, maxX_real]; exact not_lt.2 hx
  unfold split
  rw [hp, lane, if_neg (by omega)]
  simp only [top, hlt]
  rw [if_neg (by simp), longSingle_zero fused hx1 hn hl, Option.map_some,
    down_zero fused (large_of_pow hx1 hn hl)]

/-- Two lanes, the arguments 1 and 2^23, order 24. -/
noncomputable def mixed : ℕ → ℝ := fun v => if v = 0 then 1 else 2 ^ 23

theorem mixed_path (vec : Bool) : path vec 2 mixed = .scalar := by
  unfold path
  have h1 : laneMin realBoys 2 mixed = 1 := by
    simp [laneMin, mixed, realBoys]
    norm_num
  have h2 : laneMax realBoys 2 mixed = 2 ^ 23 := by
    simp [laneMax, mixed, realBoys]
    norm_num
  rw [h1, h2, if_neg, if_neg]
  · rw [Bool.and_eq_true, lt_real, maxX_real]; norm_num
  · rw [Bool.and_eq_true, lt_real, maxX_real]; norm_num

/-- The same argument gives zero beside a small one, and a value with 13 correct digits (of the value
without rounding) beside a large one. -/
theorem C83_lanes_differ (fused vec : Bool) :
    split (ieee fused) vec 2 mixed 24 0 1 = some 0 ∧
      ∃ y, split (ieee fused) true 2 (fun _ => 2 ^ 23) 24 0 1 = some y ∧
        |y - laneVal 24 0 (2 ^ 23)| ≤ 25 / 10 ^ 15 * laneVal 24 0 (2 ^ 23) ∧ 0 < y := by
  constructor
  · refine (C83_scalar_false fused (by norm_num) (by norm_num) (mixed_path vec) ?_ ?_ 0 (by norm_num)).1
    · simp only [mixed]; norm_num
    · simp only [mixed, if_neg (show (1 : ℕ) ≠ 0 by norm_num)]
      rw [← pow_mul]
      exact pow_le_pow_right₀ (by norm_num) (by norm_num)
  · have hp : path true 2 (fun _ => (2 : ℝ) ^ 23) ≠ .scalar := by
      unfold path
      rw [if_pos]
      · simp
      · rw [Bool.true_and, lt_real, maxX_real]
        simp only [laneMin, realBoys, List.range']
        norm_num
    obtain ⟨y, e, hy⟩ := C83_far_partial (rounds_ieee fused) true (V := 2) (x := fun _ => (2 : ℝ) ^ 23) (n := 24) (m := 0)
      (v := 1) (by norm_num) (by norm_num) (by norm_num) (by norm_num) (by norm_num) (fun h => absurd h hp)
    refine ⟨y, e, hy, ?_⟩
    have hlow := (downVal_bounds (x := 2 ^ 23) (by norm_num) (by norm_num) 24 0 (by norm_num)).1
    have h0 : 0 < laneVal 24 0 (2 ^ 23) := by
      rw [laneVal, if_neg (by norm_num)]
      exact lt_of_lt_of_le (by positivity) hlow
    have := (abs_le.1 hy).1
    generalize laneVal 24 0 (2 ^ 23) = w at *
    linarith

/-- Without rounding the values are those of C50. -/
theorem C83_exact (vec : Bool) {V : ℕ} {x : ℕ → ℝ} {n m v : ℕ} (hv : v < V) (h0 : 0 ≤ x v) (hn : n ≤ 24) (hm : m ≤ n) :
    split exact vec V x n m v = some (laneVal n m (x v)) := by
  unfold split laneVal
  rcases lt_or_ge (x v) 36.5 with hx | hx
  · rw [lane_near (path_near hv hx) hx]
    have ht : ∀ m, topVal m (x v) = shortVal m (x v) := fun m => by rw [topVal, if_pos hx]
    split_ifs with h4
    · rw [taylor_exact h0 hx (by omega), ht]
    · rw [taylor_exact h0 hx hn, Option.map_some, ← ht, ← down_exact (n - m) m, show m + (n - m) = n by omega]
  · have hx0 : 0 < x v := lt_of_lt_of_le (by norm_num) hx
    have hlt : ¬ realBoys.lt (x v) boysMaxX = true := by rw [lt_real, maxX_real]; exact not_lt.2 hx
    have ht : ∀ m, topVal m (x v) = longVal m (x v) := fun m => by rw [topVal, if_neg (not_lt.2 hx)]
    have hp := path_far (vec := vec) hv hx
    have hlong : ∀ m ≤ 24, long exact (x v) m = some (longVal m (x v)) := fun m hm => by
      unfold long longfac
      rw [longfacGet_some (by omega), longX2_exact hx0]
      rfl
    have htop : ∀ p ≠ Path.near, top exact p (x v) n = some (longVal n (x v)) := fun p hp => by
      cases p
      · simp only [top, longSingleVec, longfac, longfacGet_some (show n < 32 by omega)]; rfl
      · exact absurd rfl hp
      · simp only [top, hlt, longSingle, longfac, longfacGet_some (show n < 32 by omega), exact, Option.map_some, id]
        rw [sqrt_pow_odd hx0]; rfl
    generalize path vec V x = p at hp
    unfold lane
    split_ifs with h4
    · rw [ht]
      cases p
      · exact hlong m (by omega)
      · exact absurd rfl hp
      · simp only [hlt]; exact hlong m (by omega)
    · rw [htop p hp, Option.map_some, ← ht, ← down_exact (n - m) m, show m + (n - m) = n by omega]

/-- Four lanes with fused operations: order 20 of the lane at 17.3. -/
example : ∃ y, split (ieee true) true 4 (fun v => 17.3 * v) 24 20 1 = some y ∧
    |y - boysF 20 17.3| ≤ 25 / 10 ^ 15 * boysF 20 17.3 := by
  have := C83_near (rounds_ieee true) true (V := 4) (x := fun v => 17.3 * v) (n := 24) (m := 20) (v := 1) (by norm_num)
    (by norm_num) (by norm_num) (by norm_num) (by norm_num)
  simpa using this

end Simint.FlBoys
