import Verif.FlNormLemmas
import Verif.Props.Norm

/-!
# Errors of the sum and the norm
-/

set_option autoImplicit false

open Real

namespace Simint.FlNorm

open FlBoys (Arith Rounds u)
open FlPrim (T S T_def S_def T_pos S_pos T_one T_le S_le T_add T_mul T_twice S_twice S_one κT κS ov_T mul_T add_T)
open FlOneEl (T_S)

theorem γ_times (K k : ℕ) : K * γ k ≤ γ (K * k) := by
  have h := one_add_mul_le_pow (show (-2 : ℝ) ≤ γ k by linarith [γ_nonneg k]) K
  unfold γ at h ⊢
  rw [Nat.mul_comm, pow_mul]
  have e : (1 : ℝ) + ((1 + u) ^ k - 1) = (1 + u) ^ k := by ring
  rw [e] at h
  linarith

section
variable {F : Arith} (hF : Sound F) (hpow : PowOK F) {sh : Shell ℝ} {K : ℕ} (h : NormIn sh K)

/-- The exact term without the coefficients. -/
noncomputable def rat (sh : Shell ℝ) (j k : ℕ) : ℝ :=
  (sh.alpha j * sh.alpha k) ^ (1 / 2 * ((sh.am : ℝ) + 3 / 2)) / (sh.alpha j + sh.alpha k) ^ ((sh.am : ℝ) + 3 / 2)

include h

theorem NormIn.inR {j : ℕ} (hj : j < sh.nprim) : InR 40 (sh.alpha j) :=
  ⟨le_trans (one_div_le_one_div_of_le (by positivity) (pow_le_pow_right₀ (by norm_num) (by norm_num))) (h.lo j hj),
    h.hi j hj⟩

theorem NormIn.kpos : 1 ≤ K := by
  by_contra hK
  have h0 : K = 0 := by omega
  have := h.cond
  rw [h0, Nat.cast_zero, zero_mul] at this
  have h1 : 0 ≤ normSq sh (fun j => |sh.coef j|) := Finset.sum_nonneg fun j hj => Finset.sum_nonneg fun k hk => by
    have := (h.inR (Finset.mem_range.1 hj)).pos
    have := (h.inR (Finset.mem_range.1 hk)).pos
    positivity
  have h2 : (0 : ℝ) < 1 / 2 ^ 200 := by positivity
  linarith

theorem NormIn.m2 : 0 ≤ 1 / 2 * ((sh.am : ℝ) + 3 / 2) ∧ 1 / 2 * ((sh.am : ℝ) + 3 / 2) ≤ ((sh.am + 3) / 2 : ℕ) := by
  refine ⟨by positivity, ?_⟩
  have : (sh.am + 2) ≤ 2 * ((sh.am + 3) / 2) := by omega
  have h2 : ((sh.am : ℝ) + 2) ≤ 2 * ((sh.am + 3) / 2 : ℕ) := by exact_mod_cast this
  linarith

theorem rat_bounds {j k : ℕ} (hj : j < sh.nprim) (hk : k < sh.nprim) : 0 < rat sh j k ∧ rat sh j k ≤ 1 := by
  have ha := (h.inR hj).pos
  have hb := (h.inR hk).pos
  have hs : 0 < (sh.alpha j + sh.alpha k) ^ ((sh.am : ℝ) + 3 / 2) := rpow_pos_of_pos (by linarith) _
  refine ⟨div_pos (rpow_pos_of_pos (mul_pos ha hb) _) hs, ?_⟩
  rw [rat, div_le_one hs]
  exact ratio_le ha hb (by positivity)

include hF hpow

theorem term_near {j k : ℕ} (hj : j < sh.nprim) (hk : k < sh.nprim) :
    Approx (3 * sh.am + 27) (normTerm F sh j k) (sh.coef j * sh.coef k * rat sh j k)
      (|sh.coef j| * |sh.coef k| * rat sh j k + S 580) := by
  have hl := h.am
  have ha := h.inR hj
  have hb := h.inR hk
  obtain ⟨m0, m1⟩ := h.m2
  have A1 := (Rl.of_exact ha).flMul hF (Rl.of_exact hb) (by norm_num) (by norm_num)
  have A2 := (Rl.of_exact ha).flAdd hF (Rl.of_exact hb) (by norm_num) (by norm_num)
  have r1 := InR.rpow A1.rng m0 m1
  have m0' : 0 ≤ (sh.am : ℝ) + 3 / 2 := by positivity
  have m1' : (sh.am : ℝ) + 3 / 2 ≤ ((sh.am + 2 : ℕ) : ℝ) := by push_cast; linarith
  have r2 := InR.rpow A2.rng m0' m1'
  have p1 := pow_near hpow A1 m0 m1 (by norm_num; omega) (by omega) r1
  have p2 := pow_near hpow A2 m0' m1' (by norm_num; omega) (by omega) r2
  obtain ⟨q0, q1⟩ := rat_bounds h hj hk
  have y0 := p2.pos
  have ylo : 1 / (sh.alpha j + sh.alpha k) ^ ((sh.am : ℝ) + 3 / 2) ≤ T 440 := by
    have h1 : (1 : ℝ) / 2 ^ 20 ≤ sh.alpha j + sh.alpha k := by linarith [h.lo j hj, hb.pos]
    have h2 : ((1 : ℝ) / 2 ^ 20) ^ ((sh.am : ℝ) + 3 / 2) ≤ (sh.alpha j + sh.alpha k) ^ ((sh.am : ℝ) + 3 / 2) :=
      rpow_le_rpow (by positivity) h1 m0'
    have h3 := InR.rpow (a := 20) (n := 22) (x := 1 / 2 ^ 20) ⟨le_rfl, by norm_num⟩ m0'
      (m1'.trans (by exact_mod_cast (show sh.am + 2 ≤ 22 by omega)))
    have h4 := one_div_le_one_div_of_le (by positivity) (h3.lo.trans h2)
    rw [one_div_one_div] at h4
    exact h4
  have xhi : (sh.alpha j * sh.alpha k) ^ (1 / 2 * ((sh.am : ℝ) + 3 / 2)) ≤ T 880 :=
    r1.hi.trans (T_le (by omega))
  have x0 := p1.pos
  have erat : rat sh j k = (sh.alpha j * sh.alpha k) ^ (1 / 2 * ((sh.am : ℝ) + 3 / 2)) /
    (sh.alpha j + sh.alpha k) ^ ((sh.am : ℝ) + 3 / 2) := rfl
  unfold normTerm
  simp only
  generalize (sh.alpha j * sh.alpha k) ^ (1 / 2 * ((sh.am : ℝ) + 3 / 2)) = x at *
  generalize (sh.alpha j + sh.alpha k) ^ ((sh.am : ℝ) + 3 / 2) = y at *
  have cc : |sh.coef j| * |sh.coef k| ≤ T 100 := mul_T (h.chi j hj) (h.chi k hk) (abs_nonneg _) (by norm_num)
  have c0 := Approx.refl (sh.coef j * sh.coef k)
  rw [abs_mul] at c0
  have cc0 : 0 ≤ |sh.coef j| * |sh.coef k| := by positivity
  generalize |sh.coef j| * |sh.coef k| = C at *
  have c1 := c0.fl hF.toRounds (ov_T (by norm_num) cc0 (cc.trans (T_le (show 100 ≤ 1000 by norm_num))))
  have hκ := κ_pos
  have cκ : C + κ ≤ T 101 := add_T cc (κS.le.trans ((S_one _).trans (T_one 100))) le_rfl
  have t1 := c1.mul p1.approx
  have t1' : (C + κ) * x ≤ T 1000 := mul_T cκ xhi x0.le (by norm_num)
  have t2 := t1.fl hF.toRounds (ov_T (by omega) t1.nonneg t1')
  have esz : ((C + κ) * x + κ) / y = C * rat sh j k + κ * rat sh j k + κ * (1 / y) := by
    rw [erat]; field_simp
  have k1 : κ * (1 / y) ≤ S 582 := by
    have h1 := mul_le_mul_of_nonneg_left ylo hκ.le
    have h2 : κ * T 440 = S 582 := by
      rw [show κ = S 1022 from rfl, mul_comm, T_S (by norm_num)]
    linarith
  have k2 : κ * rat sh j k ≤ S 582 := by
    have h1 := mul_le_mul_of_nonneg_left q1 hκ.le
    have h2 : κ ≤ S 582 := by rw [κS]; exact S_le (by norm_num)
    linarith
  have Cr : C * rat sh j k ≤ C := by
    have := mul_le_mul_of_nonneg_left q1 cc0
    linarith
  have s1 : S 582 + S 582 = S 581 := by rw [← two_mul]; exact S_twice (by norm_num)
  have s2 : S 581 + S 581 = S 580 := by rw [← two_mul]; exact S_twice (by norm_num)
  have s3 : S 582 ≤ S 581 := S_le (by norm_num)
  have k3 : κ ≤ S 582 := by rw [κS]; exact S_le (by norm_num)
  have t3 := Approx.flDiv hF t2 p2 (by norm_num; omega) (by
    rw [esz]
    have : C + S 580 ≤ T 101 := add_T cc ((S_one _).trans (T_one 100)) le_rfl
    have h2 : T 101 ≤ (2 : ℝ) ^ 1000 := T_le (by norm_num)
    linarith)
  rw [mul_div_assoc, ← erat] at t3
  refine t3.mono (by omega) ?_
  rw [esz]
  linarith

/-- The inner loop. -/
theorem inner_near {j : ℕ} (hj : j < sh.nprim) {c : ℕ} {s' s X : ℝ} (hc : c + sh.nprim ≤ 2 ^ 19)
    (hs : Approx (3 * sh.am + 27 + c) s' s X)
    (hX : ∀ n ≤ sh.nprim, X + ∑ k ∈ Finset.range n, (|sh.coef j| * |sh.coef k| * rat sh j k + S 579) ≤ T 200) :
    ∀ n ≤ sh.nprim, Approx (3 * sh.am + 27 + c + n)
      ((List.range n).foldl (fun sum k => F.fl (sum + normTerm F sh j k)) s')
      (s + ∑ k ∈ Finset.range n, sh.coef j * sh.coef k * rat sh j k)
      (X + ∑ k ∈ Finset.range n, (|sh.coef j| * |sh.coef k| * rat sh j k + S 579)) := by
  intro n
  induction n with
  | zero => intro _; simpa using hs
  | succ n ih =>
    intro hn
    have ih := ih (by omega)
    have hl := h.am
    have t := (term_near hF hpow h hj (show n < sh.nprim by omega)).mono
      (show 3 * sh.am + 27 ≤ 3 * sh.am + 27 + c + n by omega) le_rfl
    have a := ih.add t
    have s1 : S 580 + S 580 = S 579 := by rw [← two_mul]; exact S_twice (by norm_num)
    have k1 : κ ≤ S 580 := by rw [κS]; exact S_le (by norm_num)
    have hx := hX (n + 1) hn
    rw [Finset.sum_range_succ] at hx
    have r := a.fl hF.toRounds (ov_T (by norm_num at hc ⊢; omega) a.nonneg
      (show _ ≤ T 1000 from le_trans (by linarith [(S_pos 580).le]) (hx.trans (T_le (by norm_num)))))
    rw [List.range_succ, List.foldl_append, List.foldl_cons, List.foldl_nil, Finset.sum_range_succ,
      Finset.sum_range_succ, ← add_assoc s, ← add_assoc X]
    refine r.mono (by omega) ?_
    linarith

omit hF hpow in
theorem size_le {j n : ℕ} (hj : j < sh.nprim) (hn : n ≤ sh.nprim) :
    ∑ k ∈ Finset.range n, (|sh.coef j| * |sh.coef k| * rat sh j k + S 579) ≤ n * T 101 := by
  calc _ ≤ ∑ k ∈ Finset.range n, T 101 := Finset.sum_le_sum fun k hk => by
        have hk' : k < sh.nprim := (Finset.mem_range.1 hk).trans_le hn
        obtain ⟨q0, q1⟩ := rat_bounds h hj hk'
        have cc : |sh.coef j| * |sh.coef k| ≤ T 100 := mul_T (h.chi j hj) (h.chi k hk') (abs_nonneg _) (by norm_num)
        have cc0 : 0 ≤ |sh.coef j| * |sh.coef k| := by positivity
        have := mul_le_mul_of_nonneg_left q1 cc0
        have t : |sh.coef j| * |sh.coef k| + S 579 ≤ T 101 := add_T cc ((S_one _).trans (T_one 100)) le_rfl
        linarith
    _ = n * T 101 := by simp

omit hF hpow in
theorem NormIn.n2 : sh.nprim * sh.nprim ≤ 2 ^ 18 := by
  have := h.count
  have hk := h.kpos
  have : 1 * (3 * sh.am + 40 + sh.nprim * sh.nprim) ≤ 2 ^ 18 := (Nat.mul_le_mul_right _ hk).trans this
  omega

omit hF hpow in
theorem NormIn.n1 : sh.nprim ≤ 2 ^ 9 := by
  have := h.n2
  by_contra hc
  have h1 : 2 ^ 9 + 1 ≤ sh.nprim := by omega
  have := Nat.mul_le_mul h1 h1
  omega

/-- The sum after the loops. -/
theorem sum_near : Approx (3 * sh.am + 27 + sh.nprim * sh.nprim) (normSum F sh) (normSq sh sh.coef)
    (normSq sh (fun j => |sh.coef j|) + 1 / 2 ^ 200) := by
  have n2 := h.n2
  have n1 := h.n1
  have key : ∀ n ≤ sh.nprim, Approx (3 * sh.am + 27 + n * sh.nprim)
      ((List.range n).foldl (fun sum j => (List.range sh.nprim).foldl (fun sum k => F.fl (sum + normTerm F sh j k)) sum) 0)
      (∑ j ∈ Finset.range n, ∑ k ∈ Finset.range sh.nprim, sh.coef j * sh.coef k * rat sh j k)
      (∑ j ∈ Finset.range n, ∑ k ∈ Finset.range sh.nprim, (|sh.coef j| * |sh.coef k| * rat sh j k + S 579)) := by
    intro n
    induction n with
    | zero => intro _; exact ⟨by simp, by simp⟩
    | succ n ih =>
      intro hn
      have ih := ih (by omega)
      have hm : n * sh.nprim + sh.nprim ≤ sh.nprim * sh.nprim := by
        rw [← Nat.succ_mul]; exact Nat.mul_le_mul_right _ hn
      have hb : ∑ j ∈ Finset.range n, ∑ k ∈ Finset.range sh.nprim, (|sh.coef j| * |sh.coef k| * rat sh j k + S 579) ≤
          n * (sh.nprim * T 101) := by
        calc _ ≤ ∑ j ∈ Finset.range n, sh.nprim * T 101 := Finset.sum_le_sum fun j hj =>
              size_le h ((Finset.mem_range.1 hj).trans_le (by omega)) le_rfl
          _ = _ := by simp
      have q := inner_near hF hpow h (show n < sh.nprim by omega) (c := n * sh.nprim)
        (by norm_num at n2 ⊢; omega) ih (by
          intro n' hn'
          have h1 := size_le h (show n < sh.nprim by omega) hn'
          have h2 : (n' : ℝ) ≤ T 9 := by unfold FlPrim.T; exact_mod_cast hn'.trans n1
          have h3 : (sh.nprim : ℝ) ≤ T 9 := by unfold FlPrim.T; exact_mod_cast n1
          have h4 : (n : ℝ) ≤ T 9 := by unfold FlPrim.T; exact_mod_cast (show n ≤ sh.nprim by omega).trans n1
          have h5 : (n' : ℝ) * T 101 ≤ T 110 := mul_T h2 le_rfl (T_pos _).le (by norm_num)
          have h6 : (sh.nprim : ℝ) * T 101 ≤ T 110 := mul_T h3 le_rfl (T_pos _).le (by norm_num)
          have h7 : (n : ℝ) * (sh.nprim * T 101) ≤ T 119 :=
            mul_T h4 h6 (mul_nonneg (Nat.cast_nonneg _) (T_pos _).le) (by norm_num)
          have h8 : T 119 + T 110 ≤ T 200 := add_T (n := 119) le_rfl (T_le (by norm_num)) (by norm_num)
          linarith) sh.nprim le_rfl
      rw [List.range_succ, List.foldl_append, List.foldl_cons, List.foldl_nil, Finset.sum_range_succ,
        Finset.sum_range_succ]
      have e : (n + 1) * sh.nprim = n * sh.nprim + sh.nprim := by ring
      refine q.mono (by omega) le_rfl
  have q := key sh.nprim le_rfl
  refine q.mono le_rfl ?_
  have e : ∑ j ∈ Finset.range sh.nprim, ∑ k ∈ Finset.range sh.nprim, (|sh.coef j| * |sh.coef k| * rat sh j k + S 579) =
      normSq sh (fun j => |sh.coef j|) + ((sh.nprim * sh.nprim : ℕ) : ℝ) * S 579 := by
    simp only [Finset.sum_add_distrib, Finset.sum_const, Finset.card_range, nsmul_eq_mul]
    push_cast
    rw [← mul_assoc]
    rfl
  rw [e]
  have h1 : ((sh.nprim * sh.nprim : ℕ) : ℝ) ≤ T 18 := by unfold FlPrim.T; exact_mod_cast n2
  have h2 := mul_le_mul_of_nonneg_right h1 (S_pos 579).le
  rw [T_S (by norm_num)] at h2
  have h3 : S (579 - 18) ≤ 1 / 2 ^ 200 := S_le (show 200 ≤ 561 by norm_num)
  linarith

/-- The sum is accurate relative to its value. -/
theorem sum_rl : Rl (K * (3 * sh.am + 27 + sh.nprim * sh.nprim)) 219 (normSum F sh) (normSq sh sh.coef) := by
  have q := sum_near hF hpow h
  have hc := h.cond
  have hk := h.kpos
  have hcnt := h.count
  have hK : (K : ℝ) ≤ 2 ^ 18 := by
    have : K * 1 ≤ 2 ^ 18 := (Nat.mul_le_mul_left K (by omega)).trans hcnt
    exact_mod_cast (by omega : K ≤ 2 ^ 18)
  have hK1 : (1 : ℝ) ≤ K := by exact_mod_cast hk
  have hA : 0 ≤ normSq sh (fun j => |sh.coef j|) := Finset.sum_nonneg fun j hj => Finset.sum_nonneg fun k hk => by
    have := (rat_bounds h (Finset.mem_range.1 hj) (Finset.mem_range.1 hk)).1
    exact mul_nonneg (mul_nonneg (abs_nonneg _) (abs_nonneg _)) this.le
  have h200 : (0 : ℝ) < 1 / 2 ^ 200 := by positivity
  have hS : 0 < normSq sh sh.coef := by
    by_contra hn
    have := mul_nonpos_of_nonneg_of_nonpos (by linarith : (0 : ℝ) ≤ K) (not_lt.1 hn)
    linarith
  refine ⟨?_, ?_, ?_⟩
  · calc |normSum F sh - normSq sh sh.coef| ≤ γ (3 * sh.am + 27 + sh.nprim * sh.nprim) * (K * normSq sh sh.coef) :=
          q.err.trans (mul_le_mul_of_nonneg_left hc (γ_nonneg _))
      _ = K * γ (3 * sh.am + 27 + sh.nprim * sh.nprim) * normSq sh sh.coef := by ring
      _ ≤ _ := mul_le_mul_of_nonneg_right (γ_times _ _) hS.le
  · have h1 : 1 / 2 ^ 200 ≤ 2 ^ 18 * normSq sh sh.coef :=
      le_trans (by linarith) (mul_le_mul_of_nonneg_right hK hS.le)
    have e : (1 : ℝ) / 2 ^ 219 = 1 / 2 ^ 200 * (1 / 2 ^ 19) := by norm_num
    rw [e]
    nlinarith
  · have h1 : normSq sh sh.coef ≤ ∑ j ∈ Finset.range sh.nprim, sh.nprim * T 101 := by
      refine Finset.sum_le_sum fun j hj => ?_
      refine le_trans (Finset.sum_le_sum fun k hk => ?_) (size_le h (Finset.mem_range.1 hj) le_rfl)
      have r0 := (rat_bounds h (Finset.mem_range.1 hj) (Finset.mem_range.1 hk)).1
      have a := le_abs_self (sh.coef j * sh.coef k)
      rw [abs_mul] at a
      have := mul_le_mul_of_nonneg_right a r0.le
      have s := (S_pos 579).le
      exact le_trans this (by linarith)
    rw [Finset.sum_const, Finset.card_range, nsmul_eq_mul] at h1
    have h3 : (sh.nprim : ℝ) ≤ T 9 := by unfold FlPrim.T; exact_mod_cast h.n1
    have h6 : (sh.nprim : ℝ) * T 101 ≤ T 110 := mul_T h3 le_rfl (T_pos _).le (by norm_num)
    have h7 : (sh.nprim : ℝ) * (sh.nprim * T 101) ≤ T 119 :=
      mul_T h3 h6 (mul_nonneg (Nat.cast_nonneg _) (T_pos _).le) (by norm_num)
    exact h1.trans (h7.trans (T_le (by norm_num)))

end

end Simint.FlNorm
