import Verif.BoysAcc
import Verif.Function

/-!
# Boys function: C50, C51, C65

C50: accesses to the tables are inside exactly for orders up to 24 (arguments below 36.5) and up to 31
(other arguments).  C51: recursion and long range formulas.  C65: accuracy of the tables and of the
stored values, in exact arithmetic.
-/

set_option autoImplicit false

open Real

namespace Simint

/-! ## C50 -/

/-- Orders up to 24 (up to 31 if no argument is below 36.5): no access is outside a table or the
output, and each lane has the value `laneVal`, whatever the other lanes hold. -/
theorem C50_in_bounds_partial {V n : ℕ} {x : ℕ → ℝ} {Fd : CBuf ℝ} (vec : Bool) (h0 : ∀ v < V, 0 ≤ x v)
    (hn : n < 32) (ht : ∀ v < V, x v < 36.5 → n ≤ 24) (hsz : (n + 1) * V ≤ Fd.size) :
    ∃ out, boysSplit realBoys V vec x n Fd = some out ∧
      ∀ m ≤ n, ∀ v < V, out.val (m * V + v) = laneVal n m (x v) := by
  unfold boysSplit
  split_ifs with h4
  · obtain ⟨b, e, hb⟩ := splitSmall_ok vec h0 ⟨hn, ht⟩ (Nat.lt_succ_self n) hsz
    refine ⟨b, e, fun m hm v hv => ?_⟩
    rw [hb.2 m v (by omega) hv hm, laneVal, if_pos h4]
  · obtain ⟨b, e, hb⟩ := splitLarge_ok vec h0 ⟨hn, ht⟩ (Nat.lt_succ_self n) hsz
    refine ⟨b, e, fun m hm v hv => ?_⟩
    rw [hb.2 m v (by omega) hv hm, laneVal, if_neg h4]

/-- Orders above 24: an argument below 36.5 leads to an access outside the row of the table; orders
above 31: so does every argument. -/
theorem C50_outside {V n : ℕ} {x : ℕ → ℝ} (vec : Bool) (Fd : CBuf ℝ)
    (h : (25 ≤ n ∧ ∃ v < V, x v < 36.5) ∨ (32 ≤ n ∧ 0 < V)) : boysSplit realBoys V vec x n Fd = none := by
  have hn : 25 ≤ n := by omega
  unfold boysSplit splitLarge splitTop
  rw [if_neg (by omega)]
  simp only [Bool.and_eq_true, lt_real, maxX_real]
  rw [Option.bind_eq_none_iff.2]
  intro b hb
  exfalso
  revert hb
  rw [imp_false, ← ne_eq]
  have hT : ∀ v, taylorAt realBoys (x v) n = none := fun v => taylorAt_none (x v) hn
  rcases h with ⟨_, v, hv, hx⟩ | ⟨h32, hV⟩
  · split_ifs with c1 c2
    · exact absurd ((laneMin_le V x v hv).trans_lt hx) (not_lt.2 c1.2.le)
    · unfold boysTaylorSingleVec
      rw [forLoop_none (Nat.zero_le v) hv (fun s => by rw [hT v]; rfl)]
      simp
    · rw [forLoop_none (Nat.zero_le v) hv (fun s => by rw [if_pos hx, hT v]; rfl)]
      simp
  · split_ifs with c1 c2
    · unfold boysLongSingleVec
      rw [longfacGet_none h32]
      simp
    · unfold boysTaylorSingleVec
      rw [forLoop_none (Nat.zero_le 0) hV (fun s => by rw [hT 0]; rfl)]
      simp
    · rw [forLoop_none (Nat.zero_le 0) hV (fun s => by
        split_ifs
        · rw [hT 0]; rfl
        · unfold longSingle
          rw [longfacGet_none h32]; rfl)]
      simp

/-- Exactly these accesses are inside. -/
theorem C50_iff {V n : ℕ} {x : ℕ → ℝ} {Fd : CBuf ℝ} (vec : Bool) (hV : 0 < V) (h0 : ∀ v < V, 0 ≤ x v)
    (hsz : (n + 1) * V ≤ Fd.size) :
    (boysSplit realBoys V vec x n Fd).isSome ↔ n < 32 ∧ ∀ v < V, x v < 36.5 → n ≤ 24 := by
  constructor
  · intro h
    by_contra hc
    rw [C50_outside vec Fd] at h
    · simp at h
    · by_cases h32 : n < 32
      · left
        have : ¬ ∀ v < V, x v < 36.5 → n ≤ 24 := fun h' => hc ⟨h32, h'⟩
        push Not at this
        obtain ⟨v, hv, hx, h25⟩ := this
        exact ⟨h25, v, hv, hx⟩
      · exact Or.inr ⟨by omega, hV⟩
  · rintro ⟨h32, ht⟩
    obtain ⟨out, e, _⟩ := C50_in_bounds_partial vec h0 h32 ht hsz
    rw [e]; rfl

/-- Classes with angular momenta up to 6 request orders up to 24: all accesses are inside. -/
theorem C50_classes_partial {V : ℕ} {x : ℕ → ℝ} {Fd : CBuf ℝ} (vec : Bool) (h0 : ∀ v < V, 0 ≤ x v)
    (final : QAM) (h : final.a ≤ 6 ∧ final.b ≤ 6 ∧ final.c ≤ 6 ∧ final.d ≤ 6)
    (hsz : (totalL final + 1) * V ≤ Fd.size) :
    (boysSplit realBoys V vec x (totalL final) Fd).isSome := by
  have hL : totalL final ≤ 24 := by unfold totalL; omega
  obtain ⟨out, e, _⟩ := C50_in_bounds_partial vec h0 (by omega) (fun _ _ _ => hL) hsz
  rw [e]; rfl

/-- The property is false: class (7 7|7 7), covered by the table of functions of ostei_init.c
(lines 2451 ff.), requests order 28, and a derivative function of class (6 6|6 6) order 25
(OSTEIDeriv1_Writer.cpp:892). -/
theorem C50_false {V : ℕ} (hV : 0 < V) {x : ℕ → ℝ} (hx : x 0 < 36.5) (vec : Bool) (Fd : CBuf ℝ) :
    boysSplit realBoys V vec x (totalL ⟨7, 7, 7, 7, ""⟩) Fd = none ∧
      boysSplit realBoys V vec x (totalL ⟨6, 6, 6, 6, ""⟩ + 1) Fd = none :=
  ⟨C50_outside vec Fd (Or.inl ⟨by decide, 0, hV, hx⟩), C50_outside vec Fd (Or.inl ⟨by decide, 0, hV, hx⟩)⟩

/-- Four lanes, some of them in the long range: the request of order 24 succeeds, that of order 25
does not. -/
example : (boysSplit realBoys 4 true (fun v => 20 * v) 24 ⟨100, fun _ => 0⟩).isSome :=
  (C50_iff true (by norm_num) (fun v _ => by positivity) (by norm_num)).2 ⟨by norm_num, fun _ _ _ => le_rfl⟩

example : boysSplit realBoys 4 true (fun v => 20 * v) 25 ⟨104, fun _ => 0⟩ = none :=
  C50_outside _ _ (Or.inl ⟨le_rfl, 1, by norm_num, by norm_num⟩)

/-! ## C51 -/

/-- Downward recursion: if the vector of order `n` holds exact values, the loop leaves exact values
of all orders. -/
theorem C51_recursion {V n : ℕ} {x : ℕ → ℝ} {Fd : CBuf ℝ} (hsz : (n + 1) * V ≤ Fd.size)
    (htop : ∀ v < V, Fd.val (n * V + v) = boysF n (x v)) :
    ∃ out, forLoop 0 n (fun k Fd => recurDown realBoys V x (n - 1 - k) Fd) Fd = some out ∧
      ∀ m ≤ n, ∀ v < V, out.val (m * V + v) = boysF m (x v) := by
  have key := forLoop_then (lo := 0) (hi := n) (body := fun k Fd => recurDown realBoys V x (n - 1 - k) Fd)
    (s := Fd) (Q := fun out => ∀ m ≤ n, ∀ v < V, out.val (m * V + v) = boysF m (x v))
    (fun k => BFill (n + 1) V (fun m v => boysF m (x v)) fun m _ => n - k ≤ m ∧ m ≤ n) (Nat.zero_le n)
    ⟨hsz, fun m v _ hv w => by obtain rfl : m = n := by omega
                               exact htop v hv⟩ ?_ ?_
  · exact key
  · intro k b _ hk hb
    refine forLoop_then (I := fun j => BFill (n + 1) V (fun m v => boysF m (x v))
      fun m v => (n - k ≤ m ∧ m ≤ n) ∨ (m = n - 1 - k ∧ v < j)) (Nat.zero_le _) ?_ ?_ ?_
    · exact hb.mono fun m v _ _ w => by rcases w with w | w; exacts [w, absurd w.2 (by omega)]
    · intro j b _ hj hb
      rw [hb.get (m := n - 1 - k + 1) (by omega) hj (Or.inl ⟨by omega, by omega⟩), Option.bind_some]
      refine hb.store (by omega) hj ?_ _ fun m' v' _ _ w => ?_
      · have hr := boysF_rec (n - 1 - k) (x j)
        have hp : (0 : ℝ) < 2 * ((n - 1 - k : ℕ) : ℝ) + 1 := by positivity
        simp only [realBoys]
        rw [one_div, ← hr, inv_mul_cancel_left₀ hp.ne']
      · rcases w with w | ⟨w, w'⟩
        · exact Or.inl (Or.inl w)
        · by_cases e : v' = j
          · exact Or.inr ⟨w, e⟩
          · exact Or.inl (Or.inr ⟨w, by omega⟩)
    · intro b hb
      exact hb.mono fun m v _ hv w => by
        by_cases e : m = n - 1 - k
        · exact Or.inr ⟨e, hv⟩
        · exact Or.inl ⟨by omega, w.2⟩
  · intro b hb m hm v hv
    exact hb.2 m v (by omega) hv ⟨by omega, hm⟩

/-- The four long range functions store the same values: `boys_longfac[m] * x^(-(m+1/2))`. -/
theorem C51_long {V n : ℕ} {x : ℕ → ℝ} {Fd : CBuf ℝ} (hn : n < 32) (h0 : ∀ v < V, 0 < x v)
    (hsz : (n + 1) * V ≤ Fd.size) :
    (∃ out, boysLongVec realBoys V x n Fd = some out ∧
      ∀ m ≤ n, ∀ v < V, out.val (m * V + v) = longVal m (x v)) ∧
    (∀ v < V, ∃ out, boysLong realBoys V v (x v) n Fd = some out ∧
      ∀ m ≤ n, out.val (m * V + v) = longVal m (x v)) ∧
    (∃ out, boysLongSingleVec realBoys V x n Fd = some out ∧
      ∀ v < V, out.val (n * V + v) = longVal n (x v)) ∧
    ∀ v < V, longSingle realBoys (x v) n = some (longVal n (x v)) := by
  refine ⟨?_, fun v hv => ?_, ?_, fun v hv => longSingle_some (h0 v hv) hn⟩
  · obtain ⟨b, e, hb⟩ := boysLongVec_ok (S := fun m v => longVal m (x v)) (Nat.lt_succ_self n) hsz h0 hn
      fun _ _ _ _ => rfl
    exact ⟨b, e, fun m hm v hv => hb.2 m v (by omega) hv hm⟩
  · obtain ⟨b, e, hb⟩ := boysLong_ok (S := fun m v => longVal m (x v)) (W := fun _ _ => False)
      ⟨hsz, fun _ _ _ _ w => w.elim⟩ hv (Nat.lt_succ_self n) (h0 v hv) hn fun _ _ => rfl
    exact ⟨b, e, fun m hm => hb.2 m v (by omega) hv (Or.inr ⟨hm, rfl⟩)⟩
  · unfold boysLongSingleVec
    rw [longfacGet_some hn, Option.bind_some]
    obtain ⟨b, e, hb⟩ := storeVec_ok (S := fun m v => longVal m (x v)) (W := fun _ _ => False)
      (Fd := Fd) (N := n + 1) (V := V) ⟨hsz, fun _ _ _ _ w => w.elim⟩ (i := n) (Nat.lt_succ_self n)
      (y := fun v => (boysLongfacN.getD n 0 : ℝ) / 10 ^ 18 * realBoys.pow (x v) (-((n : ℝ) + 1 / 2)))
      (fun v _ => rfl)
    exact ⟨b, e, fun v hv => hb.2 n v (Nat.lt_succ_self n) hv (Or.inr rfl)⟩

example : ∃ out, forLoop 0 7 (fun k Fd => recurDown realBoys 2 (fun v => v + 1) (7 - 1 - k) Fd)
      ⟨16, fun i => boysF 7 ((i % 2 : ℕ) + 1)⟩ = some out ∧ out.val 1 = boysF 0 2 := by
  obtain ⟨out, e, h⟩ := C51_recursion (V := 2) (n := 7) (x := fun v => v + 1)
    (Fd := ⟨16, fun i => boysF 7 ((i % 2 : ℕ) + 1)⟩) (by norm_num) (fun v hv => by
      simp only [show (7 * 2 + v) % 2 = v by omega])
  exact ⟨out, e, (h 0 (by norm_num) 1 (by norm_num)).trans (by norm_num)⟩

/-! ## C65 -/

/-- Every entry of `boys_shortgrid` is the value of the Boys function, up to rounding to 18 digits. -/
theorem C65_table {i j : ℕ} (hi : i < 366) (hj : j < 32) :
    |(boysGridN i j : ℝ) / 10 ^ 34 - boysF j (i / 10)| ≤ boysF j (i / 10) / (2 * 10 ^ 17) :=
  grid_ok hi hj

/-- Every entry of `boys_longfac` is `√π (2n-1)!! / 2^(n+1)`, up to rounding to 18 digits. -/
theorem C65_longfac {n : ℕ} (hn : n < 32) :
    |(boysLongfacN.getD n 0 : ℝ) / 10 ^ 18 - (2 * n - 1 : ℕ).doubleFactorial * √π / 2 ^ (n + 1)| ≤
      (2 * n - 1 : ℕ).doubleFactorial * √π / 2 ^ (n + 1) / (2 * 10 ^ 17) :=
  longfac_ok hn

/-- Arguments below 36.5: all stored values have a relative error of at most 1.2e-15. -/
theorem C65_short_partial {n m : ℕ} {x : ℝ} (hx : 0 ≤ x) (h : x < 36.5) (hn : n ≤ 24) (hm : m ≤ n) :
    |laneVal n m x - boysF m x| ≤ 12 / 10 ^ 16 * boysF m x := by
  have ht : ∀ k ≤ 24, |topVal k x - boysF k x| ≤ 12 / 10 ^ 16 * boysF k x := by
    intro k hk
    rw [topVal, if_pos h]
    exact shortVal_err hx h hk
  unfold laneVal
  split_ifs with h4
  · exact ht m (by omega)
  · exact downVal_rel hx (by norm_num) (n - m) m (by
      rw [show m + (n - m) = n by omega]; exact ht n hn)

/-- Other arguments, order at most 3: relative error at most 1e-12. -/
theorem C65_long_small_partial {n m : ℕ} {x : ℝ} (h : 36.5 ≤ x) (hn : n < 4) (hm : m ≤ n) :
    |laneVal n m x - boysF m x| ≤ 1 / 10 ^ 12 * boysF m x := by
  have hx0 : 0 < x := lt_of_lt_of_le (by norm_num) h
  rw [laneVal, if_pos hn, topVal, if_neg (not_lt.2 h)]
  have h1 := longVal_err (n := m) hx0 (by omega)
  have h2 := tail_rel (n := m) h (by omega)
  rw [boysInf_split m hx0] at h2
  have h3 : tailBound m ≤ 9 / 10 ^ 13 := by
    obtain ⟨e1, e2⟩ := exp_365
    obtain ⟨s1, s2⟩ := sqrt_365
    obtain ⟨p1, p2⟩ := sqrt_pi_bounds
    have hm3 : m = 0 ∨ m = 1 ∨ m = 2 ∨ m = 3 := by omega
    unfold tailBound
    rw [pow_365]
    have hden : 0 < longfacExact m * (72 - 2 * (m : ℝ)) := by
      refine mul_pos (longfacExact_pos m) ?_
      have : (m : ℝ) ≤ 3 := by exact_mod_cast (show m ≤ 3 by omega)
      linarith
    rw [div_le_iff₀ hden]
    have hnum : exp (-36.5) * (36.5 ^ m * √36.5) ≤ 1.42e-16 * (36.5 ^ m * 6.05) :=
      mul_le_mul e2 (mul_le_mul_of_nonneg_left s2 (by positivity)) (by positivity) (by norm_num)
    refine hnum.trans ?_
    rcases hm3 with rfl | rfl | rfl | rfl <;>
      · unfold longfacExact
        norm_num [Nat.doubleFactorial] at p1 ⊢
        linarith
  have hF := boysF_nonneg m x
  have hT := boysTail_nonneg m x
  have h4 : boysTail m x ≤ 9 / 10 ^ 13 * (boysF m x + boysTail m x) :=
    h2.trans (mul_le_mul_of_nonneg_right h3 (by linarith))
  rw [abs_le] at h1 ⊢
  norm_num at h1 h4 ⊢
  constructor <;> linarith [h1.1, h1.2]

/-- Other arguments, order from 4 to 31: the error of the stored value.  The recursion starts with
the integral over `(0, ∞)` and adds `exp(-x)` in each step as if it had started with the Boys
function, so the tail of the top order is multiplied by `ampl`. -/
theorem C65_long_large_partial {n m : ℕ} {x : ℝ} (h : 36.5 ≤ x) (hn : 4 ≤ n) (hn' : n < 32) (hm : m ≤ n) :
    |laneVal n m x - (boysF m x + ampl m x (n - m) * boysTail n x)| ≤ boysInf m x / (2 * 10 ^ 17) := by
  have hx0 : 0 < x := lt_of_lt_of_le (by norm_num) h
  have h1 := downVal_err x (n - m) m
  rw [show m + (n - m) = n by omega] at h1
  have h2 := longVal_inf hx0 hn'
  have ha := ampl_pos hx0 (n - m) m
  have hi := ampl_inf hx0 (n - m) m
  rw [show m + (n - m) = n by omega] at hi
  rw [laneVal, if_neg (by omega)]
  have e : downVal m x (n - m) - (boysF m x + ampl m x (n - m) * boysTail n x) =
      ampl m x (n - m) * (longVal n x - boysInf n x) := by
    rw [topVal, if_neg (not_lt.2 h)] at h1
    rw [boysInf_split n hx0]
    linear_combination h1
  rw [e, abs_mul, abs_of_pos ha, ← hi, mul_div_assoc]
  exact mul_le_mul_of_nonneg_left h2 ha.le

/-- Upper bound of the relative error for arguments from 36.5 on. -/
theorem C65_long_bound_partial {n m : ℕ} {x : ℝ} (h : 36.5 ≤ x) (hn : 4 ≤ n) (hn' : n ≤ 24) (hm : m ≤ n) :
    |laneVal n m x - boysF m x| ≤ (tailBound n + 1 / (2 * 10 ^ 17)) * boysInf m x := by
  have hx0 : 0 < x := lt_of_lt_of_le (by norm_num) h
  have h1 := C65_long_large_partial h hn (by omega) hm
  have ha := ampl_pos hx0 (n - m) m
  have hi := ampl_inf hx0 (n - m) m
  rw [show m + (n - m) = n by omega] at hi
  have h2 : ampl m x (n - m) * boysTail n x ≤ tailBound n * boysInf m x := by
    rw [← hi]
    calc _ ≤ ampl m x (n - m) * (tailBound n * boysInf n x) :=
          mul_le_mul_of_nonneg_left (tail_rel h hn') ha.le
      _ = _ := by ring
  have h3 := mul_nonneg ha.le (boysTail_nonneg n x)
  rw [abs_le] at h1 ⊢
  have e : (tailBound n + 1 / (2 * 10 ^ 17)) * boysInf m x =
      tailBound n * boysInf m x + boysInf m x / (2 * 10 ^ 17) := by ring
  rw [e]
  constructor <;> linarith [h1.1, h1.2]

/-- Lower bound of the relative error at `x = 36.5`. -/
theorem long_lower {n : ℕ} {c : ℝ} (hn : 4 ≤ n) (hn' : n < 32) (hc : 0 ≤ c)
    (h : (c + 1 / (2 * 10 ^ 17)) * ((2 * n - 1 : ℕ).doubleFactorial * 1.78 / 2 ^ (n + 1)) * 73 ≤
      1.4e-16 * (36.5 ^ n * 6.04)) :
    (1 + c) * boysF 0 36.5 ≤ laneVal n 0 36.5 := by
  have hx0 : (0 : ℝ) < 36.5 := by norm_num
  have h1 := C65_long_large_partial (n := n) (m := 0) (x := 36.5) le_rfl hn hn' (Nat.zero_le n)
  rw [Nat.sub_zero] at h1
  have hi := ampl_inf hx0 n 0
  rw [Nat.zero_add] at hi
  have ha := ampl_pos hx0 n 0
  obtain ⟨k, rfl⟩ : ∃ k, n = k + 1 := ⟨n - 1, by omega⟩
  have hT := boysTail_ge (n := k) hx0
  obtain ⟨e1, e2⟩ := exp_365
  obtain ⟨s1, s2⟩ := sqrt_365
  obtain ⟨p1, p2⟩ := sqrt_pi_bounds
  have hinf : (c + 1 / (2 * 10 ^ 17)) * boysInf (k + 1) 36.5 ≤ boysTail (k + 1) 36.5 := by
    refine le_trans ?_ hT
    rw [boysInf_eq _ hx0, rpow_neg hx0.le, pow_365, le_div_iff₀ (by norm_num)]
    set D : ℝ := ((2 * (k + 1) - 1 : ℕ).doubleFactorial : ℝ)
    have hD : 0 ≤ D := Nat.cast_nonneg _
    have hp : (0 : ℝ) < 36.5 ^ (k + 1) * √36.5 := by positivity
    have hc' : 0 ≤ c + 1 / (2 * 10 ^ 17) := by positivity
    rw [show (c + 1 / (2 * 10 ^ 17)) * ((36.5 ^ (k + 1) * √36.5)⁻¹ * (D * √π / 2 ^ (k + 1 + 1))) * (2 * 36.5) =
      (36.5 ^ (k + 1) * √36.5)⁻¹ * ((c + 1 / (2 * 10 ^ 17)) * (D * √π / 2 ^ (k + 1 + 1) * (2 * 36.5))) by ring,
      inv_mul_le_iff₀ hp]
    have a1 : (c + 1 / (2 * 10 ^ 17)) * (D * √π / 2 ^ (k + 1 + 1) * (2 * 36.5)) ≤
        (c + 1 / (2 * 10 ^ 17)) * (D * 1.78 / 2 ^ (k + 1 + 1)) * 73 := by
      rw [mul_assoc]
      refine mul_le_mul_of_nonneg_left ?_ hc'
      refine mul_le_mul (div_le_div_of_nonneg_right (mul_le_mul_of_nonneg_left ?_ hD) (by positivity))
        (by norm_num) (by norm_num) (by positivity)
      exact p2.le.trans (by norm_num)
    have a2 : (1.4e-16 : ℝ) * (36.5 ^ (k + 1) * 6.04) ≤ 36.5 ^ (k + 1) * √36.5 * exp (-36.5) := by
      rw [mul_comm]
      exact mul_le_mul (mul_le_mul_of_nonneg_left s1 (by positivity)) e1 (by norm_num) hp.le
    exact (a1.trans h).trans a2
  have h2 := mul_le_mul_of_nonneg_left hinf ha.le
  have e : ampl 0 36.5 (k + 1) * ((c + 1 / (2 * 10 ^ 17)) * boysInf (k + 1) 36.5) =
      (c + 1 / (2 * 10 ^ 17)) * boysInf 0 36.5 := by rw [← hi]; ring
  rw [e] at h2
  have h3 : boysF 0 36.5 ≤ boysInf 0 36.5 := by
    rw [boysInf_split 0 hx0]; linarith [boysTail_nonneg 0 (36.5 : ℝ)]
  have h4 := mul_le_mul_of_nonneg_left h3 hc
  have h5 := (abs_le.1 h1).1
  have e2 : (c + 1 / (2 * 10 ^ 17)) * boysInf 0 36.5 =
      c * boysInf 0 36.5 + boysInf 0 36.5 / (2 * 10 ^ 17) := by ring
  rw [e2] at h2
  linarith

/-- The stored values are not accurate to 1e-10 in general.  At `x = 36.5`: if order 8 is requested
(a class of four d shells), the value of order 0 is too large by more than a factor of `1 + 10^-9`;
order 12 (four f shells): `1 + 10^-7`; order 24: `1 + 10^-3`. -/
theorem C65_long_false :
    (1 + 1 / 10 ^ 9) * boysF 0 36.5 ≤ laneVal 8 0 36.5 ∧ (1 + 1 / 10 ^ 7) * boysF 0 36.5 ≤ laneVal 12 0 36.5 ∧
      (1 + 1 / 10 ^ 3) * boysF 0 36.5 ≤ laneVal 24 0 36.5 := by
  refine ⟨long_lower (by norm_num) (by norm_num) (by norm_num) ?_,
    long_lower (by norm_num) (by norm_num) (by norm_num) ?_,
    long_lower (by norm_num) (by norm_num) (by norm_num) ?_⟩ <;>
  · norm_num [Nat.doubleFactorial]

example : |laneVal 8 0 36 - boysF 0 36| ≤ 12 / 10 ^ 16 * boysF 0 36 :=
  C65_short_partial (by norm_num) (by norm_num) (by norm_num) (by norm_num)

/-- Operations on fractions for evaluation; `exp` is a Taylor sum, `sqrt` and `pow` are not used. -/
def fracBoys : BoysOps ℚ where
  sqrt := id
  exp := fun x => (List.range 40).foldl (fun s k => s + x ^ k / (k.factorial : ℚ)) 0
  pow := fun x _ => x
  trunc := fun x => if 0 ≤ x then ⌊x⌋ else ⌈x⌉
  lt := fun a b => decide (a < b)

-- F_0(0.25) = 0.92256201282558…, F_0(1) = 0.746824132812427…
#guard ((boysSplit fracBoys 2 true (fun v => if v = 0 then 1 / 4 else 1) 5 ⟨12, fun _ => 0⟩).map fun b =>
  ((b.val 0 * 10 ^ 12).floor, (b.val 1 * 10 ^ 12).floor)) = some (922562012825, 746824132812)
#guard (boysSplit fracBoys 2 true (fun v => if v = 0 then 1 / 4 else 1) 25 ⟨52, fun _ => 0⟩).isNone

end Simint
