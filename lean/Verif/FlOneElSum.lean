import Verif.FlOneElLoops

/-! Products of the three directions and sums over pairs of primitives, on doubles. -/

set_option autoImplicit false

namespace Simint.FlOneEl

open FlBoys FlPrim VRRRound

section
variable {F : Arith}

/-- The first `n` elements have been incremented by products `c * w` where `w` satisfies `Q`. -/
def AddedR (F : Arith) (n : ℕ) (c : ℝ) (Q : ℕ → ℝ → Prop) (b b' : CBuf ℝ) : Prop :=
  b'.size = b.size ∧ (∀ k, k < n → ∃ w, Q k w ∧ b'.val k = F.mac c w (b.val k)) ∧
    ∀ k, n ≤ k → b'.val k = b.val k

theorem AddedR.step {n : ℕ} {c : ℝ} {Q : ℕ → ℝ → Prop} {b b' : CBuf ℝ} (h : AddedR F n c Q b b')
    (hn : n < b.size) {w : ℝ} (hw : Q n w) :
    ∃ o b'', b'.get n = some o ∧ b'.set n (F.mac c w o) = some b'' ∧ AddedR F (n + 1) c Q b b'' := by
  have hn' : n < b'.size := by rw [h.1]; exact hn
  refine ⟨_, _, CBuf.get_lt hn', CBuf.set_lt hn' _, h.1, fun k hk => ?_, fun k hk => ?_⟩
  · simp only
    by_cases e : k = n
    · subst e
      rw [if_pos rfl, h.2.2 k le_rfl]
      exact ⟨w, hw, rfl⟩
    · rw [if_neg e]
      exact h.2.1 k (by omega)
  · simp only
    rw [if_neg (by omega)]
    exact h.2.2 k (by omega)

theorem addComponents_near {am1 am2 : ℕ} (h1 : am1 ≤ 18) (h2 : am2 ≤ 18) (c : ℝ)
    (val : RecurInfo → RecurInfo → Option ℝ) (Q : Exp → Exp → ℝ → Prop)
    (hv : ∀ r1 r2, IsComp am1 r1.ijk → IsComp am2 r2.ijk → ∃ w, val r1 r2 = some w ∧ Q r1.ijk r2.ijk w)
    (out : CBuf ℝ) (hsz : nc am1 * nc am2 ≤ out.size) :
    ∃ out', addComponents F am1 am2 c val out = some out' ∧
      AddedR F (nc am1 * nc am2) c (fun k => Q (compAt am1 (k / nc am2)) (compAt am2 (k % nc am2)))
        out out' := by
  set q : ℕ → ℝ → Prop := fun k => Q (compAt am1 (k / nc am2)) (compAt am2 (k % nc am2)) with hq
  unfold addComponents
  refine forLoop_map (I := fun n (st : CBuf ℝ × ℕ) => st.2 = n * nc am2 ∧ AddedR F st.2 c q out st.1)
    (Nat.zero_le _) ⟨by simp, ⟨rfl, fun k hk => absurd hk (by simp), fun k _ => rfl⟩⟩ ?_ fun st h => h.1 ▸ h.2
  intro n st _ hn hI
  refine forLoop_then (I := fun m st => st.2 = n * nc am2 + m ∧ AddedR F st.2 c q out st.1) (Nat.zero_le _)
    ⟨by rw [hI.1]; simp, hI.2⟩ ?_ fun st' h => ⟨by rw [h.1]; ring, h.2⟩
  clear hI
  intro m st _ hm hI
  obtain ⟨r1, e1, i1, c1⟩ := recAt_comp h1 hn
  obtain ⟨r2, e2, i2, c2⟩ := recAt_comp h2 hm
  obtain ⟨w, ew, qw⟩ := hv r1 r2 (by rw [i1]; exact c1) (by rw [i2]; exact c2)
  rw [e1, e2, Option.bind_some, Option.bind_some, ew, Option.bind_some]
  have hlt : st.2 < out.size := by rw [hI.1]; exact (row_lt hn hm).trans_le hsz
  have hqe : q st.2 w := by
    rw [hq, hI.1]
    simp only
    have hp := nc_pos am2
    rw [Nat.mul_comm, Nat.mul_add_div hp, Nat.div_eq_of_lt hm, Nat.mul_add_mod, Nat.mod_eq_of_lt hm,
      Nat.add_zero, ← i1, ← i2]
    exact qw
  obtain ⟨o, b, g1, g2, g3⟩ := hI.2.step hlt hqe
  rw [g1, Option.bind_some, g2]
  exact ⟨_, rfl, by simp only; omega, g3⟩

/-- Loops over pairs of primitives: the errors of the contributions add up. -/
theorem pairLoop_near {ω : Type} (hF : Rounds F) {n1 n2 N sz m : ℕ}
    {body : ℕ → ℕ → ω × CBuf ℝ → Option (ω × CBuf ℝ)} (J : ω → Prop) (f g : ℕ → ℕ → ℕ → ℝ) {δ : ℝ}
    (δ0 : 0 ≤ δ) (hm : m + n1 * n2 ≤ 2 ^ 20) (hg : ∀ i j k, i < n1 → j < n2 → k < N → 0 ≤ g i j k)
    (hT : ∀ k, k < N → (∑ i ∈ Finset.range n1, ∑ j ∈ Finset.range n2, (g i j k + δ)) ≤ T 1000)
    (hb : ∀ i j w out, i < n1 → j < n2 → J w → out.size = sz →
      ∃ w' out', body i j (w, out) = some (w', out') ∧ J w' ∧ out'.size = sz ∧
        (∀ k, k < N → ∃ l c' c C v' v V, Approx 1 c' c C ∧ Approx l v' v V ∧ l + 2 ≤ m ∧ c * v = f i j k ∧
          C * V + 2 * κ ≤ g i j k + δ ∧ out'.val k = F.mac c' v' (out.val k)) ∧
        ∀ k, N ≤ k → out'.val k = out.val k)
    {w : ω} {out : CBuf ℝ} (hw : J w) (ho : out.size = sz) (hz : ∀ k, k < N → out.val k = 0) :
    ∃ w' out', forLoop 0 n1 (fun i st => forLoop 0 n2 (fun j st => body i j st) st) (w, out) =
        some (w', out') ∧ out'.size = sz ∧
      (∀ k, k < N → Approx (m + n1 * n2) (out'.val k)
        (∑ i ∈ Finset.range n1, ∑ j ∈ Finset.range n2, f i j k)
        (∑ i ∈ Finset.range n1, ∑ j ∈ Finset.range n2, (g i j k + δ))) ∧
      ∀ k, N ≤ k → out'.val k = out.val k := by
  have key := forLoop_ok (lo := 0) (hi := n1) (s := (w, out))
    (body := fun i st => forLoop 0 n2 (fun j st => body i j st) st)
    (I := fun i (st : ω × CBuf ℝ) => J st.1 ∧ st.2.size = sz ∧
      (∀ k, k < N → Approx (m + i * n2) (st.2.val k)
        (∑ i ∈ Finset.range i, ∑ j ∈ Finset.range n2, f i j k)
        (∑ i ∈ Finset.range i, ∑ j ∈ Finset.range n2, (g i j k + δ))) ∧
      ∀ k, N ≤ k → st.2.val k = out.val k) (Nat.zero_le _)
    ⟨hw, ho, fun k hk => by simp only; rw [hz k hk]; simp; exact ⟨by simp, by simp⟩, fun k _ => rfl⟩ ?_
  · obtain ⟨⟨w', out'⟩, e, h⟩ := key
    exact ⟨w', out', e, h.2.1, h.2.2.1, h.2.2.2⟩
  intro i st _ hi hI
  refine forLoop_then (I := fun j (st : ω × CBuf ℝ) => J st.1 ∧ st.2.size = sz ∧
      (∀ k, k < N → Approx (m + i * n2 + j) (st.2.val k)
        (∑ i ∈ Finset.range i, ∑ j ∈ Finset.range n2, f i j k + ∑ j ∈ Finset.range j, f i j k)
        (∑ i ∈ Finset.range i, ∑ j ∈ Finset.range n2, (g i j k + δ) +
          ∑ j ∈ Finset.range j, (g i j k + δ))) ∧
      ∀ k, N ≤ k → st.2.val k = out.val k) (Nat.zero_le _)
    ⟨hI.1, hI.2.1, fun k hk => by simpa using hI.2.2.1 k hk, hI.2.2.2⟩ ?_ fun st' h =>
      ⟨h.1, h.2.1, fun k hk => by
        have := h.2.2.1 k hk
        rw [Finset.sum_range_succ, Finset.sum_range_succ, show m + (i + 1) * n2 = m + i * n2 + n2 by ring]
        exact this, h.2.2.2⟩
  clear hI
  intro j st' _ hj hI
  obtain ⟨w', out', e, h1, h2, h3, h4⟩ := hb i j st'.1 st'.2 hi hj hI.1 hI.2.1
  refine ⟨(w', out'), e, h1, h2, fun k hk => ?_, fun k hk => (h4 k hk).trans (hI.2.2.2 k hk)⟩
  obtain ⟨l, c', c, C, v', v, V, ac, av, hl, ef, eg, eo⟩ := h3 k hk
  have ao := hI.2.2.1 k hk
  set sf := ∑ i ∈ Finset.range i, ∑ j ∈ Finset.range n2, f i j k + ∑ j ∈ Finset.range j, f i j k with hsf
  set sg := ∑ i ∈ Finset.range i, ∑ j ∈ Finset.range n2, (g i j k + δ) +
    ∑ j ∈ Finset.range j, (g i j k + δ) with hsg
  have n0 : ∀ i' < n1, ∀ j' < n2, 0 ≤ g i' j' k + δ := fun i' hi' j' hj' => add_nonneg (hg i' j' k hi' hj' hk) δ0
  have hle : sg + (g i j k + δ) ≤ T 1000 := by
    refine le_trans ?_ (hT k hk)
    have s1 : ∑ j ∈ Finset.range j, (g i j k + δ) + (g i j k + δ) ≤ ∑ j ∈ Finset.range n2, (g i j k + δ) := by
      rw [← Finset.sum_range_succ]
      exact Finset.sum_le_sum_of_subset_of_nonneg (Finset.range_mono (by omega)) fun j' hj' _ =>
        n0 i hi j' (Finset.mem_range.1 hj')
    have s2 : ∑ i ∈ Finset.range i, ∑ j ∈ Finset.range n2, (g i j k + δ) +
        ∑ j ∈ Finset.range n2, (g i j k + δ) ≤
        ∑ i ∈ Finset.range n1, ∑ j ∈ Finset.range n2, (g i j k + δ) := by
      rw [← Finset.sum_range_succ]
      exact Finset.sum_le_sum_of_subset_of_nonneg (Finset.range_mono (by omega)) fun i' hi' _ =>
        Finset.sum_nonneg fun j' hj' => n0 i' (Finset.mem_range.1 hi') j' (Finset.mem_range.1 hj')
    linarith
  have hκ := κ_pos
  have cv : 0 ≤ C * V := mul_nonneg ac.nonneg av.nonneg
  have hcnt : m + i * n2 + j + 1 ≤ 2 ^ 20 := by
    have : (i + 1) * n2 ≤ n1 * n2 := Nat.mul_le_mul_right _ hi
    rw [Nat.add_mul, Nat.one_mul] at this
    omega
  have r := fma_near hF ac av ao (by omega)
    (ov_T hcnt (by linarith [ao.nonneg]) (by linarith))
  simp only
  rw [eo, Finset.sum_range_succ, Finset.sum_range_succ, ← add_assoc, ← add_assoc]
  have r' := r.mono le_rfl (show C * V + sg + 2 * κ ≤ sg + (g i j k + δ) by linarith)
  convert r' using 1
  · rw [ef]; ring
  · ring

end

section
variable {F : Arith} (hF : Sound F) {α β R : ℝ} (h : PrimIn α β R) {A B : Dir → ℝ} (hA : ∀ d, |A d| ≤ R)
  (hB : ∀ d, |B d| ≤ R)
include hF h hA hB

theorem κ_size {x : ℝ} {n m : ℕ} (hx : x ≤ T n) (hm : n + m = 1022) : κ * x ≤ S m := by
  rw [← κT hm]
  exact mul_le_mul_of_nonneg_left hx κ_pos.le

/-- The product of the overlaps in three directions. -/
theorem ovl_prod {ax bx ay b_y az bz : ℕ} (hn : ax + bx + (ay + b_y) + (az + bz) ≤ 36) {wx wy wz : ℝ}
    (hx : OvlOK α A β B R .x ax bx wx) (hy : OvlOK α A β B R .y ay b_y wy) (hz : OvlOK α A β B R .z az bz wz) :
    Approx (116 + 11 * (ax + bx + (ay + b_y) + (az + bz))) (F.fl (F.fl (wx * wy) * wz))
      (ovl1 α (A .x) β (B .x) ax bx * ovl1 α (A .y) β (B .y) ay b_y * ovl1 α (A .z) β (B .z) az bz)
      (ovlSize α (A .x) β (B .x) R (ax + bx) * ovlSize α (A .y) β (B .y) R (ay + b_y) *
        ovlSize α (A .z) β (B .z) R (az + bz) + S 360) ∧
    ovlSize α (A .x) β (B .x) R (ax + bx) * ovlSize α (A .y) β (B .y) R (ay + b_y) *
        ovlSize α (A .z) β (B .z) R (az + bz) ≤ T 684 := by
  unfold OvlOK at hx hy hz
  have lx := ovlSize_le (d := .x) hF h hA hB (ax + bx) (by omega)
  have ly := ovlSize_le (d := .y) hF h hA hB (ay + b_y) (by omega)
  have lz := ovlSize_le (d := .z) hF h hA hB (az + bz) (by omega)
  have lz' : ovlSize α (A .z) β (B .z) R (az + bz) ≤ T 660 := lz.trans (T_le (by omega))
  set X := ovlSize α (A .x) β (B .x) R (ax + bx)
  set Y := ovlSize α (A .y) β (B .y) R (ay + b_y)
  set Z := ovlSize α (A .z) β (B .z) R (az + bz)
  have hκ := κ_pos
  have X0 : 0 ≤ X := hx.nonneg
  have Y0 : 0 ≤ Y := hy.nonneg
  have Z0 : 0 ≤ Z := hz.nonneg
  have XY := mul_nonneg X0 Y0
  have lxy : X * Y ≤ T (24 + 18 * (ax + bx + (ay + b_y))) := mul_T lx ly Y0 (by omega)
  have lxyz : X * Y * Z ≤ T 684 := mul_T lxy lz Z0 (by omega)
  have t1 := mul_near hF.toRounds hx hy (ov_T (by omega) XY (lxy.trans (T_le (by omega))))
  have kz : κ * Z ≤ S 362 := κ_size hF h hA hB lz' rfl
  have kz0 : 0 ≤ κ * Z := mul_nonneg hκ.le Z0
  have k1 : κ ≤ S 362 := κ_le_S (by norm_num)
  have s1 := S_twice (show 362 = 361 + 1 by norm_num)
  have s2 := S_twice (show 361 = 360 + 1 by norm_num)
  have s3 := S_one 360
  have s4 := T_one 684
  have s5 := T_twice (show 684 + 1 = 685 by norm_num)
  have t2 := mul_near hF.toRounds t1 hz (ov_T (by omega) (mul_nonneg (by linarith) Z0)
    ((show _ ≤ T 685 by rw [add_mul]; linarith [S_pos 361]).trans (T_le (by norm_num))))
  exact ⟨t2.mono (by omega) (by rw [add_mul]; linarith [S_pos 361]), lxyz⟩

/-- The kinetic energy of a pair of primitives. -/
theorem kin_prod {ax bx ay b_y az bz : ℕ} (hn : ax + bx + (ay + b_y) + (az + bz) ≤ 36) {sx sy sz tx ty tz : ℝ}
    (hx : OvlOK α A β B R .x ax bx sx) (hy : OvlOK α A β B R .y ay b_y sy) (hz : OvlOK α A β B R .z az bz sz)
    (kx : KinOK α A β B R .x ax bx tx) (ky : KinOK α A β B R .y ay b_y ty) (kz : KinOK α A β B R .z az bz tz) :
    Approx (150 + 11 * (ax + bx + (ay + b_y) + (az + bz)))
      (F.mac (F.fl (sx * sy)) tz (F.dot (F.fl (tx * sy)) sz (F.fl (sx * ty)) sz))
      (kin1 α (A .x) β (B .x) ax bx * ovl1 α (A .y) β (B .y) ay b_y * ovl1 α (A .z) β (B .z) az bz +
        ovl1 α (A .x) β (B .x) ax bx * kin1 α (A .y) β (B .y) ay b_y * ovl1 α (A .z) β (B .z) az bz +
        ovl1 α (A .x) β (B .x) ax bx * ovl1 α (A .y) β (B .y) ay b_y * kin1 α (A .z) β (B .z) az bz)
      (ovlSize α (A .x) β (B .x) R (ax + bx) * ovlSize α (A .y) β (B .y) R (ay + b_y) *
        ovlSize α (A .z) β (B .z) R (az + bz) * (kinScale α β R (ax + bx) + kinScale α β R (ay + b_y) +
          kinScale α β R (az + bz)) + S 240) ∧
    ovlSize α (A .x) β (B .x) R (ax + bx) * ovlSize α (A .y) β (B .y) R (ay + b_y) *
        ovlSize α (A .z) β (B .z) R (az + bz) * (kinScale α β R (ax + bx) + kinScale α β R (ay + b_y) +
          kinScale α β R (az + bz)) ≤ T 804 := by
  have P := (ovl_prod hF h hA hB hn hx hy hz).2
  unfold OvlOK at hx hy hz
  unfold KinOK at kx ky kz
  have lx := ovlSize_le (d := .x) hF h hA hB (ax + bx) (by omega)
  have ly := ovlSize_le (d := .y) hF h hA hB (ay + b_y) (by omega)
  have lz := ovlSize_le (d := .z) hF h hA hB (az + bz) (by omega)
  have lz' : ovlSize α (A .z) β (B .z) R (az + bz) ≤ T 660 := lz.trans (T_le (by omega))
  have wx := kinScale_le h (ax + bx) (by omega)
  have wy := kinScale_le h (ay + b_y) (by omega)
  have wz := kinScale_le h (az + bz) (by omega)
  have vx := h.ar.pos.le.trans (kinScale_nonneg h (ax + bx))
  have vy := h.ar.pos.le.trans (kinScale_nonneg h (ay + b_y))
  have vz := h.ar.pos.le.trans (kinScale_nonneg h (az + bz))
  set X := ovlSize α (A .x) β (B .x) R (ax + bx)
  set Y := ovlSize α (A .y) β (B .y) R (ay + b_y)
  set Z := ovlSize α (A .z) β (B .z) R (az + bz)
  set U := kinScale α β R (ax + bx)
  set V := kinScale α β R (ay + b_y)
  set W := kinScale α β R (az + bz)
  have hκ := κ_pos
  have X0 : 0 ≤ X := hx.nonneg
  have Y0 : 0 ≤ Y := hy.nonneg
  have Z0 : 0 ≤ Z := hz.nonneg
  have XY := mul_nonneg X0 Y0
  have lxy : X * Y ≤ T (24 + 18 * (ax + bx + (ay + b_y))) := mul_T lx ly Y0 (by omega)
  have lxy' : X * Y ≤ T 672 := lxy.trans (T_le (by omega))
  have f1 : X * U * Y ≤ T 790 := by
    rw [mul_right_comm]; exact mul_T lxy' wx vx (by norm_num)
  have f2 : X * (Y * V) ≤ T 790 := by
    rw [← mul_assoc]; exact mul_T lxy' wy vy (by norm_num)
  have f1' : 0 ≤ X * U * Y := by positivity
  have f2' : 0 ≤ X * (Y * V) := by positivity
  have w1 := T_twice (show 118 + 1 = 119 by norm_num)
  have w2 := T_twice (show 119 + 1 = 120 by norm_num)
  have tot : X * Y * Z * (U + V + W) ≤ T 804 :=
    mul_T P (show U + V + W ≤ T 120 by linarith [T_pos 118]) (by linarith) (by norm_num)
  have g1 := mul_near hF.toRounds kx hy (ov_T (by omega) f1' (f1.trans (T_le (by norm_num))))
  have g2 := mul_near hF.toRounds hx ky (ov_T (by omega) f2' (f2.trans (T_le (by norm_num))))
  have g3 := mul_near hF.toRounds hx hy (ov_T (by omega) XY (lxy'.trans (T_le (by norm_num))))
  have kZ : κ * Z ≤ S 362 := κ_size hF h hA hB lz' rfl
  have kZ0 : 0 ≤ κ * Z := mul_nonneg hκ.le Z0
  have zw : Z * W ≤ T 778 := mul_T lz' wz vz (by norm_num)
  have kZW : κ * (Z * W) ≤ S 244 := κ_size hF h hA hB zw rfl
  have kZW0 : 0 ≤ κ * (Z * W) := mul_nonneg hκ.le (mul_nonneg Z0 vz)
  have k1 : κ ≤ S 247 := κ_le_S (by norm_num)
  have k2 : S 362 ≤ S 244 := S_le (by norm_num)
  have k3 : S 247 ≤ S 244 := S_le (by norm_num)
  have s1 := S_twice (show 244 = 243 + 1 by norm_num)
  have s2 := S_twice (show 243 = 242 + 1 by norm_num)
  have s3 := S_twice (show 242 = 241 + 1 by norm_num)
  have s4 := S_twice (show 241 = 240 + 1 by norm_num)
  have s5 := S_one 240
  have s6 := T_one 804
  have s7 := T_twice (show 804 + 1 = 805 by norm_num)
  have e1 : 0 ≤ X * Y * Z * U := by positivity
  have e2 : 0 ≤ X * Y * Z * V := by positivity
  have e3 : 0 ≤ X * Y * Z * W := by positivity
  have sz1 : (X * U * Y + κ) * Z + (X * (Y * V) + κ) * Z + 3 * κ ≤ T 805 := by
    nlinarith
  have sz1' : 0 ≤ (X * U * Y + κ) * Z + (X * (Y * V) + κ) * Z + 3 * κ := by
    have : 0 ≤ (X * U * Y + κ) * Z := mul_nonneg (by linarith) Z0
    have : 0 ≤ (X * (Y * V) + κ) * Z := mul_nonneg (by linarith) Z0
    linarith
  have d1 := dot_near (m := 148 + 11 * (ax + bx + (ay + b_y) + (az + bz))) hF.toRounds
    (g1.mono (show _ ≤ 109 + 11 * (ax + bx + (ay + b_y)) by omega) le_rfl) hz
    (g2.mono (show _ ≤ 109 + 11 * (ax + bx + (ay + b_y)) by omega) le_rfl) hz (by omega)
    (ov_T (by omega) sz1' (sz1.trans (T_le (by norm_num))))
  have fin : (X * Y + κ) * (Z * W) + ((X * U * Y + κ) * Z + (X * (Y * V) + κ) * Z + 3 * κ) + 2 * κ ≤
      X * Y * Z * (U + V + W) + S 240 := by
    nlinarith
  have fin0 : 0 ≤ (X * Y + κ) * (Z * W) :=
    mul_nonneg (by linarith) (mul_nonneg Z0 vz)
  have d2 := fma_near hF.toRounds g3 kz d1 (by omega)
    (ov_T (by omega) (by linarith) (fin.trans ((show _ ≤ T 805 by linarith).trans (T_le (by norm_num)))))
  refine ⟨?_, tot⟩
  convert d2.mono (show _ ≤ 150 + 11 * (ax + bx + (ay + b_y) + (az + bz)) by omega) fin using 1
  ring

end

end Simint.FlOneEl
