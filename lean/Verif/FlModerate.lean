import Verif.FlFunctionErr

/-! Sizes as they occur in calculations on molecules do not lead to overflow. -/

set_option autoImplicit false

open Real

namespace Simint

open FlBoys (Arith)
open FlPrim
open VRRRound (growth)

theorem S_small {n : ℕ} (h : 0 < n) : S n ≤ 1 / 2 := by
  have := S_le (n := 1) (m := n) h
  unfold S at this ⊢
  norm_num at this ⊢
  exact this

theorem PairMod.pairIn {A B : Shell ℝ} {a b : ℕ} {R : ℝ} (h : PairMod A B a b R) : PairIn A B a b R := by
  obtain ⟨h1, h2, h3, h4, h5, h6, h7, h8⟩ := h
  have t : ∀ n, n ≤ 100 → (2 : ℝ) ^ n ≤ 2 ^ 100 := fun n hn => pow_le_pow_right₀ (by norm_num) hn
  have s : (1 : ℝ) / 2 ^ 100 ≤ 1 / 2 ^ 10 := one_div_le_one_div_of_le (by positivity) (t 10 (by norm_num))
  exact ⟨s.trans h1, h2.trans (t 30 (by norm_num)), s.trans h3, h4.trans (t 30 (by norm_num)), h5, h6,
    h7.trans (t 10 (by norm_num)), h8.trans (t 60 (by norm_num))⟩

section
variable {A B C D : Shell ℝ} {a b c d : ℕ} {R : ℝ}

theorem PairMod.r0 (h : PairMod A B a b R) : 0 ≤ R := (abs_nonneg _).trans (h.apos .x)

theorem PairMod.sum (h : PairMod A B a b R) : 1 / 2 ^ 9 ≤ A.alpha a + B.alpha b ∧ A.alpha a + B.alpha b ≤ T 31 := by
  have h1 := h.alo
  have h2 := h.ahi
  have h3 := h.blo
  have h4 := h.bhi
  unfold T
  norm_num at h1 h2 h3 h4 ⊢
  constructor <;> linarith

theorem PairMod.inv (h : PairMod A B a b R) : 0 < 1 / (A.alpha a + B.alpha b) ∧ 1 / (A.alpha a + B.alpha b) ≤ T 9 := by
  have h1 := h.sum.1
  have h0 : (0 : ℝ) < 1 / 2 ^ 9 := by positivity
  have hp := h0.trans_le h1
  refine ⟨by positivity, ?_⟩
  have := one_div_le_one_div_of_le h0 h1
  rw [one_div_one_div] at this
  exact this

theorem PairMod.factor_le (h : PairMod A B a b R) : factorMax A B a b ≤ T 74 := by
  have hp : 0 < A.alpha a + B.alpha b := lt_of_lt_of_le (by positivity) h.sum.1
  have hg0 : 0 ≤ gexp A B a b := by
    have h1 : 0 < A.alpha a := lt_of_lt_of_le (by positivity) h.alo
    have h2 : 0 < B.alpha b := lt_of_lt_of_le (by positivity) h.blo
    unfold gexp dist2
    positivity
  have hc : |A.coef a * B.coef b| ≤ T 60 := h.coef
  have hG0 : 0 ≤ (1 + gexp A B a b) * exp (-gexp A B a b) := by positivity
  have hG1 : (1 + gexp A B a b) * exp (-gexp A B a b) ≤ 1 := by
    rw [exp_neg, ← div_eq_mul_inv, div_le_one (exp_pos _)]
    linarith [add_one_le_exp (gexp A B a b)]
  have c3 : √2 * π ^ ((5 : ℝ) / 4) ≤ T 3 := const_rng.hi
  have c0 := const_rng.pos
  obtain ⟨inv0, inv⟩ := h.inv
  have m : 0 ≤ mult A B a b ∧ mult A B a b ≤ T 1 := by
    unfold mult T
    split_ifs <;> norm_num
  have x1 : |A.coef a * B.coef b| * ((1 + gexp A B a b) * exp (-gexp A B a b)) ≤ T 60 :=
    mul_T (n := 60) (m := 0) hc (by unfold T; simpa using hG1) hG0 le_rfl
  have x2 := mul_T x1 c3 c0.le (le_refl 63)
  have x3 := mul_T x2 inv inv0.le (le_refl 72)
  rw [← div_eq_mul_one_div] at x3
  have n3 : 0 ≤ |A.coef a * B.coef b| * ((1 + gexp A B a b) * exp (-gexp A B a b)) *
      (√2 * π ^ ((5 : ℝ) / 4)) / (A.alpha a + B.alpha b) := by positivity
  have x4 := mul_T m.2 x3 n3 (le_refl 73)
  unfold factorMax
  rw [S_def]
  exact add_T x4 ((S_one 800).trans (T_one _)) le_rfl

theorem PairMod.diff_le (h : PairMod A B a b R) : 0 ≤ diffMax R ∧ diffMax R ≤ T 12 := by
  have hR := h.r0
  have h1 : R ≤ T 10 := h.rhi
  have s0 := S_pos 800
  have s1 := S_one 800
  have t1 := T_twice (n := 10) rfl
  have t2 := T_twice (n := 11) rfl
  have t3 := T_one 11
  unfold diffMax
  rw [S_def]
  constructor <;> linarith

theorem PairMod.start_le {F : Arith} (hF : Sound F) (hP : PairMod A B a b R) (hQ : PairMod C D c d R) :
    startMax A B C D a b c d R ≤ T 217 := by
  have P1 := hP.factor_le
  have Q1 := hQ.factor_le
  have Q0 := (factorMax_le hF hQ.pairIn).2
  have P0 := (factorMax_le hF hP.pairIn).2
  obtain ⟨D0, D1⟩ := hP.diff_le
  have h1 : 0 < A.alpha a + B.alpha b := lt_of_lt_of_le (by positivity) hP.sum.1
  have h2 : 0 < C.alpha c + D.alpha d := lt_of_lt_of_le (by positivity) hQ.sum.1
  have r0 : 0 < (A.alpha a + B.alpha b) * (C.alpha c + D.alpha d) /
        (A.alpha a + B.alpha b + (C.alpha c + D.alpha d)) := by positivity
  have rr : (A.alpha a + B.alpha b) * (C.alpha c + D.alpha d) /
        (A.alpha a + B.alpha b + (C.alpha c + D.alpha d)) ≤ T 31 := by
    rw [div_le_iff₀ (by positivity)]
    exact mul_le_mul hP.sum.2 (by linarith) h2.le (T_pos _).le
  have s1 : √(1 / (A.alpha a + B.alpha b + (C.alpha c + D.alpha d))) ≤ T 10 := by
    have hi : 1 / (A.alpha a + B.alpha b + (C.alpha c + D.alpha d)) ≤ T 9 :=
      (one_div_le_one_div_of_le h1 (by linarith)).trans hP.inv.2
    have hi' : 1 / (A.alpha a + B.alpha b + (C.alpha c + D.alpha d)) ≤ T 10 * T 10 :=
      hi.trans (by rw [T_mul (l := 20) rfl]; exact T_le (by norm_num))
    rw [Real.sqrt_le_left (T_pos _).le, sq]
    exact hi'
  have s0 : 0 ≤ √(1 / (A.alpha a + B.alpha b + (C.alpha c + D.alpha d))) := Real.sqrt_nonneg _
  have pq1 : factorMax A B a b * factorMax C D c d ≤ T 148 := mul_T P1 Q1 Q0.le le_rfl
  have l2 := mul_T pq1 s1 s0 (le_refl 158)
  have l3 := add_T l2 ((S_one 800).trans (T_one 158)) (le_refl 159)
  have n3 : 0 ≤ factorMax A B a b * factorMax C D c d *
    √(1 / (A.alpha a + B.alpha b + (C.alpha c + D.alpha d))) + S 800 := by
    have := S_pos 800
    positivity
  have b1 : 2 + 3 * diffMax R ^ 2 * ((A.alpha a + B.alpha b) * (C.alpha c + D.alpha d) /
        (A.alpha a + B.alpha b + (C.alpha c + D.alpha d))) ≤ T 58 := by
    have sq : diffMax R ^ 2 ≤ T 24 := by rw [sq]; exact mul_T D1 D1 D0 le_rfl
    have k0 := mul_T sq rr r0.le (le_refl 55)
    have k1 := T_twice (n := 55) rfl
    have k2 := T_twice (n := 56) rfl
    have k3 := T_twice (n := 57) rfl
    linarith [T_one 55]
  unfold startMax
  simp only
  rw [S_def]
  exact mul_T b1 l3 n3 le_rfl

theorem growth_le {M w v : ℝ} (hM : 0 ≤ M) (hw : 0 ≤ w) (hv : 0 ≤ v) {m n L : ℕ} (h1 : M ≤ T m)
    (h2 : ∀ j < L, 1 + w + (j : ℝ) * v ≤ T n) : growth M w v L ≤ T (m + n * L) := by
  unfold growth
  have h : ∏ j ∈ Finset.range L, (1 + w + (j : ℝ) * v) ≤ T (n * L) := by
    refine (Finset.prod_le_prod (g := fun _ => T n) (fun j _ => by positivity)
      fun j hj => h2 j (Finset.mem_range.1 hj)).trans (le_of_eq ?_)
    rw [Finset.prod_const, Finset.card_range]
    unfold T
    rw [pow_mul]
  exact mul_T h1 h (Finset.prod_nonneg fun j _ => by positivity) le_rfl

theorem PairMod.growth_le {F : Arith} (hF : Sound F) (hP : PairMod A B a b R) (hQ : PairMod C D c d R) {L : ℕ}
    (hL : L ≤ 24) :
    growth (startMax A B C D a b c d R) (stepMax R) (lowMax (A.alpha a + B.alpha b) (C.alpha c + D.alpha d)) L
      ≤ T 601 := by
  obtain ⟨D0, D1⟩ := hP.diff_le
  have hκ := κ_pos
  have hκ1 : κ ≤ 1 := κS ▸ S_one 1022
  obtain ⟨p0, p1⟩ := hP.inv
  obtain ⟨q0, q1⟩ := hQ.inv
  have hw : 0 ≤ stepMax R := by unfold stepMax; linarith
  have t12 := T_twice (n := 12) rfl
  have t13 := T_twice (n := 13) rfl
  have t9 := T_twice (n := 9) rfl
  have t10 := T_twice (n := 10) rfl
  have o9 := T_one 9
  have o12 := T_one 12
  have hw1 : stepMax R ≤ T 14 := by unfold stepMax; linarith
  have m1 : max (1 / 2 * (1 / (A.alpha a + B.alpha b))) (1 / 2 * (1 / (C.alpha c + D.alpha d))) ≤ T 9 / 2 :=
    max_le (by linarith) (by linarith)
  have m0 : 0 ≤ max (1 / 2 * (1 / (A.alpha a + B.alpha b))) (1 / 2 * (1 / (C.alpha c + D.alpha d))) :=
    le_max_of_le_left (by linarith)
  have hv : 0 ≤ lowMax (A.alpha a + B.alpha b) (C.alpha c + D.alpha d) := by unfold lowMax; linarith
  have e9 : T 9 = 512 := by unfold T; norm_num
  have hv1 : lowMax (A.alpha a + B.alpha b) (C.alpha c + D.alpha d) ≤ T 10 := by unfold lowMax; linarith
  have h0 := startMax_low hF hP.pairIn hQ.pairIn
  refine (Simint.growth_le (m := 217) (n := 16) ((by positivity : (0 : ℝ) ≤ 11 / 2 ^ 1022).trans h0) hw hv
    (hP.start_le hF hQ) fun j hj => ?_).trans (T_le (by omega))
  have hj' : (j : ℝ) ≤ 24 := by
    have : j ≤ 24 := by omega
    exact_mod_cast this
  have hjv : (j : ℝ) * lowMax (A.alpha a + B.alpha b) (C.alpha c + D.alpha d) ≤ 24 * T 10 :=
    mul_le_mul hj' hv1 hv (by norm_num)
  have e10 : T 10 = 1024 := by unfold T; norm_num
  have e14 : T 14 = 16384 := by unfold T; norm_num
  have e16 : T 16 = 65536 := by unfold T; norm_num
  rw [e10] at hjv
  rw [e14] at hw1
  rw [e16]
  linarith

end

/-- No overflow: the condition of `C88_function` is met. -/
theorem sizeMax_moderate {F : Arith} (hF : Sound F) {c : Call ℝ} {S' T' : ℕ → PairData} {R : ℝ} {ab cd : ℕ}
    (hR : 0 ≤ R) (hR' : R ≤ 2 ^ 10)
    (hP : ∀ k < c.P.nprim12 ab, PairMod (S' ab).A (S' ab).B ((S' ab).prim k).1 ((S' ab).prim k).2 R)
    (hQ : ∀ l < c.Q.nprim12 cd, PairMod (T' cd).A (T' cd).B ((T' cd).prim l).1 ((T' cd).prim l).2 R)
    (hn : c.P.nprim12 ab * c.Q.nprim12 cd ≤ 2 ^ 49) {L : ℕ} (hL : L ≤ 24) :
    4 * (sizeMax F c S' T' R ab cd L * (2 + 2 * R) ^ L) ≤ 2 ^ 1022 := by
  classical
  have h1 : overKept F c ab cd (primSize S' T' R ab cd L) ≤ T 650 := by
    have hle : overKept F c ab cd (primSize S' T' R ab cd L) ≤
        ∑ k ∈ Finset.range (c.P.nprim12 ab), ∑ l ∈ Finset.range (c.Q.nprim12 cd), T 601 := by
      refine Finset.sum_le_sum fun k hk => Finset.sum_le_sum fun l hl => ?_
      split_ifs
      · exact (hP k (Finset.mem_range.1 hk)).growth_le hF (hQ l (Finset.mem_range.1 hl)) hL
      · exact (T_pos _).le
    refine hle.trans ?_
    rw [Finset.sum_const, Finset.sum_const, Finset.card_range, Finset.card_range, smul_smul, nsmul_eq_mul]
    have : ((c.P.nprim12 ab * c.Q.nprim12 cd : ℕ) : ℝ) ≤ T 49 := by unfold T; exact_mod_cast hn
    exact mul_T this le_rfl (T_pos _).le (by norm_num)
  have h2 : sizeMax F c S' T' R ab cd L ≤ T 651 := by
    unfold sizeMax
    rw [S_def]
    exact add_T h1 ((S_one _).trans (T_one _)) le_rfl
  have h3 : (2 + 2 * R) ^ L ≤ T 288 := by
    have : 2 + 2 * R ≤ T 12 := by
      have : R ≤ 1024 := by norm_num at hR'; exact hR'
      unfold T
      norm_num
      linarith
    refine (pow_le_pow_left₀ (by linarith) this L).trans ?_
    unfold T
    rw [← pow_mul]
    exact pow_le_pow_right₀ (by norm_num) (by omega)
  have h4 := mul_T h2 h3 (by positivity) (le_refl 939)
  have h5 : (4 : ℝ) ≤ T 2 := by unfold T; norm_num
  rw [T_def]
  refine (mul_le_mul_of_nonneg_left h4 (by norm_num)).trans ?_
  exact mul_T h5 le_rfl (T_pos _).le (by norm_num)

end Simint
