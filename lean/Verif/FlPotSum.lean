import Verif.FlPotNear

/-! Sums over the pairs of primitives and the charges, on doubles. -/

set_option autoImplicit false

namespace Simint.FlPot

open FlBoys (Arith Rounds u)
open FlPrim (T S T_def S_def T_pos S_pos T_one T_le S_le T_add T_mul T_twice S_twice S_one κT κS ov_T mul_T add_T)
open VRRRound (mul_near fma_near)
open FlOneEl

/-- Loops over pairs of primitives that add to an output with an error. -/
theorem pairLoop_add {F : Arith} {ω : Type} (hF : Rounds F) {n1 n2 N sz m : ℕ}
    {body : ℕ → ℕ → ω × CBuf ℝ → Option (ω × CBuf ℝ)} (f : ℕ → ℕ → ℕ → ℝ) (g : ℕ → ℕ → ℝ)
    (f0 : ℕ → ℝ) (g0 : ℝ) (hm : m + n1 * n2 ≤ 2 ^ 20) (hg : ∀ i j, i < n1 → j < n2 → 0 ≤ g i j)
    (hT : g0 + (∑ i ∈ Finset.range n1, ∑ j ∈ Finset.range n2, g i j) ≤ T 1000)
    (hb : ∀ i j w out, i < n1 → j < n2 → out.size = sz →
      ∃ w' out', body i j (w, out) = some (w', out') ∧ out'.size = sz ∧
        (∀ k, k < N → ∃ l l' c' c C v' v V, Approx l c' c C ∧ Approx l' v' v V ∧ l + l' + 1 ≤ m ∧
          c * v = f i j k ∧ C * V + 2 * κ ≤ g i j ∧ out'.val k = F.mac c' v' (out.val k)) ∧
        ∀ k, N ≤ k → out'.val k = out.val k)
    {w : ω} {out : CBuf ℝ} (ho : out.size = sz) (hz : ∀ k, k < N → Approx m (out.val k) (f0 k) g0) :
    ∃ w' out', forLoop 0 n1 (fun i st => forLoop 0 n2 (fun j st => body i j st) st) (w, out) =
        some (w', out') ∧ out'.size = sz ∧
      (∀ k, k < N → Approx (m + n1 * n2) (out'.val k)
        (f0 k + ∑ i ∈ Finset.range n1, ∑ j ∈ Finset.range n2, f i j k)
        (g0 + ∑ i ∈ Finset.range n1, ∑ j ∈ Finset.range n2, g i j)) ∧
      ∀ k, N ≤ k → out'.val k = out.val k := by
  have key := forLoop_ok (lo := 0) (hi := n1) (s := (w, out))
    (body := fun i st => forLoop 0 n2 (fun j st => body i j st) st)
    (I := fun i (st : ω × CBuf ℝ) => st.2.size = sz ∧
      (∀ k, k < N → Approx (m + i * n2) (st.2.val k)
        (f0 k + ∑ i ∈ Finset.range i, ∑ j ∈ Finset.range n2, f i j k)
        (g0 + ∑ i ∈ Finset.range i, ∑ j ∈ Finset.range n2, g i j)) ∧
      ∀ k, N ≤ k → st.2.val k = out.val k) (Nat.zero_le _)
    ⟨ho, fun k hk => by simpa using hz k hk, fun k _ => rfl⟩ ?_
  · obtain ⟨⟨w', out'⟩, e, h⟩ := key
    exact ⟨w', out', e, h.1, h.2.1, h.2.2⟩
  intro i st _ hi hI
  refine forLoop_then (I := fun j (st : ω × CBuf ℝ) => st.2.size = sz ∧
      (∀ k, k < N → Approx (m + i * n2 + j) (st.2.val k)
        (f0 k + (∑ i ∈ Finset.range i, ∑ j ∈ Finset.range n2, f i j k) + ∑ j ∈ Finset.range j, f i j k)
        (g0 + (∑ i ∈ Finset.range i, ∑ j ∈ Finset.range n2, g i j) + ∑ j ∈ Finset.range j, g i j)) ∧
      ∀ k, N ≤ k → st.2.val k = out.val k) (Nat.zero_le _)
    ⟨hI.1, fun k hk => by simpa using hI.2.1 k hk, hI.2.2⟩ ?_ fun st' h =>
      ⟨h.1, fun k hk => by
        have := h.2.1 k hk
        rw [Finset.sum_range_succ, Finset.sum_range_succ, show m + (i + 1) * n2 = m + i * n2 + n2 by ring,
          ← add_assoc, ← add_assoc]
        exact this, h.2.2⟩
  clear hI
  intro j st' _ hj hI
  obtain ⟨w', out', e, h2, h3, h4⟩ := hb i j st'.1 st'.2 hi hj hI.1
  refine ⟨(w', out'), e, h2, fun k hk => ?_, fun k hk => (h4 k hk).trans (hI.2.2 k hk)⟩
  obtain ⟨l, l', c', c, C, v', v, V, ac, av, hl, ef, eg, eo⟩ := h3 k hk
  have ao := hI.2.1 k hk
  set sf := f0 k + (∑ i ∈ Finset.range i, ∑ j ∈ Finset.range n2, f i j k) + ∑ j ∈ Finset.range j, f i j k with hsf
  set sg := g0 + (∑ i ∈ Finset.range i, ∑ j ∈ Finset.range n2, g i j) + ∑ j ∈ Finset.range j, g i j with hsg
  have hle : sg + g i j ≤ T 1000 := by
    refine le_trans ?_ hT
    have s1 : ∑ j ∈ Finset.range j, g i j + g i j ≤ ∑ j ∈ Finset.range n2, g i j := by
      rw [← Finset.sum_range_succ]
      exact Finset.sum_le_sum_of_subset_of_nonneg (Finset.range_mono (by omega)) fun j' hj' _ =>
        hg i j' hi (Finset.mem_range.1 hj')
    have s2 : ∑ i ∈ Finset.range i, ∑ j ∈ Finset.range n2, g i j + ∑ j ∈ Finset.range n2, g i j ≤
        ∑ i ∈ Finset.range n1, ∑ j ∈ Finset.range n2, g i j := by
      rw [← Finset.sum_range_succ]
      exact Finset.sum_le_sum_of_subset_of_nonneg (Finset.range_mono (by omega)) fun i' hi' _ =>
        Finset.sum_nonneg fun j' hj' => hg i' j' (Finset.mem_range.1 hi') (Finset.mem_range.1 hj')
    linarith
  have hκ := κ_pos
  have cv : 0 ≤ C * V := mul_nonneg ac.nonneg av.nonneg
  have hcnt : m + i * n2 + j + 1 ≤ 2 ^ 20 := by
    have : (i + 1) * n2 ≤ n1 * n2 := Nat.mul_le_mul_right _ hi
    rw [Nat.add_mul, Nat.one_mul] at this
    omega
  have r := fma_near hF ac av ao (by omega)
    (ov_T hcnt (by linarith [ao.nonneg]) (by linarith))
  simp only
  rw [eo, Finset.sum_range_succ, Finset.sum_range_succ, ← Nat.add_assoc (m + i * n2) j 1]
  have r' := r.mono le_rfl (show C * V + sg + 2 * κ ≤ sg + g i j by linarith)
  convert r' using 1
  · rw [ef, hsf]; ring
  · rw [hsg]; ring

section
variable {F : Arith} (hF : Sound F) {sh1 sh2 : Shell ℝ} (am1 : sh1.am ≤ 18) (am2 : sh2.am ≤ 18)
  {centers : List (ℝ × (Dir → ℝ))} {R : ℝ} (h : FieldIn sh1 sh2 centers R)

include h

theorem FieldIn.prim {i j : ℕ} (hi : i < sh1.nprim) (hj : j < sh2.nprim) :
    PrimIn (sh1.alpha i) (sh2.alpha j) R :=
  ⟨h.alo i hi, h.ahi i hi, h.blo j hj, h.bhi j hj, (abs_nonneg _).trans (h.apos .x), h.rhi⟩

theorem FieldIn.posA : sh1.Pos := fun i hi => lt_of_lt_of_le (by positivity) (h.alo i hi)
theorem FieldIn.posB : sh2.Pos := fun i hi => lt_of_lt_of_le (by positivity) (h.blo i hi)

/-- What the error of one term is measured with. -/
noncomputable def termSize (sh1 sh2 : Shell ℝ) (R : ℝ) (c : ℝ × (Dir → ℝ)) (i j : ℕ) : ℝ :=
  |c.1 * sh1.coef i * sh2.coef j| *
    potSize (sh1.alpha i) sh1.pos (sh2.alpha j) sh2.pos R (sh1.am + sh2.am)

include am1 am2 in
theorem termSize_bounds {c : ℝ × (Dir → ℝ)} (hc : c ∈ centers) {i j : ℕ} (hi : i < sh1.nprim) (hj : j < sh2.nprim) :
    0 ≤ termSize sh1 sh2 R c i j ∧ termSize sh1 sh2 R c i j ≤ T 905 := by
  have p := h.prim hi hj
  have p0 := potSize_nonneg p (A := sh1.pos) (B := sh2.pos) (sh1.am + sh2.am)
  have p1 := potSize_le p (A := sh1.pos) (B := sh2.pos) (sh1.am + sh2.am) (by omega)
  unfold termSize
  refine ⟨mul_nonneg (abs_nonneg _) p0, ?_⟩
  refine mul_T (n := 120) (m := 785) ?_ (p1.trans (T_le (by omega))) p0 le_rfl
  rw [abs_mul, abs_mul]
  exact mul_T (n := 70) (m := 50) (mul_T (n := 20) (m := 50) (h.charge c hc) (h.acoef i hi) (abs_nonneg _) le_rfl)
    (h.bcoef j hj) (abs_nonneg _) le_rfl

include hF am1 am2 in
/-- The factors of one term. -/
theorem term_near {c : ℝ × (Dir → ℝ)} (hc : c ∈ centers) {i j : ℕ} (hi : i < sh1.nprim) (hj : j < sh2.nprim)
    {l : ℕ} (hl : l ≤ 2 ^ 19) {v x : ℝ}
    (hv : Approx l v x (potSize (sh1.alpha i) sh1.pos (sh2.alpha j) sh2.pos R (sh1.am + sh2.am))) :
    ∃ C, Approx (l + 2) (-F.fl (F.fl (v * c.1) * sh1.coef i)) (-(x * c.1 * sh1.coef i)) C ∧
      C * |sh2.coef j| + 2 * κ ≤ termSize sh1 sh2 R c i j + S 900 := by
  have p := h.prim hi hj
  have p0 := hv.nonneg
  have p1 := potSize_le p (A := sh1.pos) (B := sh2.pos) (sh1.am + sh2.am) (by omega)
  have hκ := κ_pos
  have hκ1 : κ ≤ 1 := κS ▸ S_one 1022
  have a1 : |sh1.coef i| ≤ T 50 := h.acoef i hi
  have b1 : |sh2.coef j| ≤ T 50 := h.bcoef j hj
  have z1 : |c.1| ≤ T 20 := h.charge c hc
  have a0 := abs_nonneg (sh1.coef i)
  have b0 := abs_nonneg (sh2.coef j)
  have z0 := abs_nonneg c.1
  unfold termSize
  set σ := potSize (sh1.alpha i) sh1.pos (sh2.alpha j) sh2.pos R (sh1.am + sh2.am)
  have p2 : σ ≤ T 785 := p1.trans (T_le (by omega))
  have v1 : σ * |c.1| ≤ T 805 := mul_T p2 z1 z0 le_rfl
  have t1 := mul_near hF.toRounds hv (Approx.refl c.1)
    (ov_T (by norm_num at hl ⊢; omega) (mul_nonneg p0 z0) (v1.trans (T_le (by norm_num))))
  have v1' : σ * |c.1| + κ ≤ T 806 := add_T v1 (hκ1.trans (T_one _)) le_rfl
  have n1 : 0 ≤ σ * |c.1| + κ := add_nonneg (mul_nonneg p0 z0) hκ.le
  have t2 := mul_near hF.toRounds t1 (Approx.refl (sh1.coef i))
    (ov_T (by norm_num at hl ⊢; omega) (mul_nonneg n1 a0) ((mul_T v1' a1 a0 le_rfl).trans (T_le (by norm_num))))
  refine ⟨_, (t2.mono (show l + 0 + 1 + 0 + 1 ≤ l + 2 by omega) le_rfl).neg, ?_⟩
  rw [abs_mul, abs_mul]
  have k1 : κ * (|sh1.coef i| * |sh2.coef j|) ≤ S 922 := by
    rw [← κT (show 100 + 922 = 1022 by norm_num)]
    exact mul_le_mul_of_nonneg_left (mul_T a1 b1 b0 le_rfl) hκ.le
  have k2 : κ * |sh2.coef j| ≤ S 972 := by
    rw [← κT (show 50 + 972 = 1022 by norm_num)]
    exact mul_le_mul_of_nonneg_left b1 hκ.le
  have k3 : S 922 ≤ S 902 := S_le (by norm_num)
  have k4 : S 972 ≤ S 902 := S_le (by norm_num)
  have k5 : κ ≤ S 902 := κ_le_S (by norm_num)
  have k6 := S_twice (show 902 = 901 + 1 by norm_num)
  have k7 := S_twice (show 901 = 900 + 1 by norm_num)
  have e : ((σ * |c.1| + κ) * |sh1.coef i| + κ) * |sh2.coef j| + 2 * κ =
      |c.1| * |sh1.coef i| * |sh2.coef j| * σ + κ * (|sh1.coef i| * |sh2.coef j|) + κ * |sh2.coef j| + 2 * κ := by
    ring
  rw [e]
  linarith

end

end Simint.FlPot
