import Verif.FlOneElVal
import Verif.Props.OneEl

/-!
# Overlap and kinetic energy integrals on doubles (C92)

Each operation of `simint_compute_osoei_overlap` and `simint_compute_osoei_ke` rounds; the results are
compared with the integrals over the contracted shells.
-/

set_option autoImplicit false

open MeasureTheory

namespace Simint.FlOneEl

open FlBoys FlPrim

/-- C92: the overlap integrals computed on doubles are those of the contracted shells up to a few
hundred roundings, plus one for every pair of primitives, of quantities of the size `overlapMax`; nothing
overflows, nothing else is written and no access is outside an array. -/
theorem C92_overlap {F : Arith} (hF : Sound F) {sh1 sh2 : Shell ℝ} (am1 : sh1.am ≤ 18) (am2 : sh2.am ≤ 18)
    {R : ℝ} (h : ShellsIn sh1 sh2 R) (work0 : ℕ → ℝ) (integrals : CBuf ℝ)
    (hsz : nc sh1.am * nc sh2.am ≤ integrals.size) :
    ∃ out, osoeiOverlap F sh1 sh2 work0 integrals = some out ∧ out.size = integrals.size ∧
      (∀ n m e1 e2, (psi4List sh1.am)[n]? = some e1 → (psi4List sh2.am)[m]? = some e2 →
        |out.val (n * nc sh2.am + m) - overlapInt sh1 sh2 e1 e2| ≤
          (118 + 11 * (sh1.am + sh2.am) + sh1.nprim * sh2.nprim : ℕ) * (1 / 2 ^ 52) *
            overlapMax sh1 sh2 R e1 e2) ∧
      ∀ k, nc sh1.am * nc sh2.am ≤ k → out.val k = integrals.val k := by
  have hp := h.prims
  unfold osoeiOverlap
  simp only
  obtain ⟨z, e0, z1, z2, z3⟩ := zeroBuf_ok hsz
  rw [e0, Option.bind_some]
  have cmp : ∀ k, k < nc sh1.am * nc sh2.am → IsComp sh1.am (compAt sh1.am (k / nc sh2.am)) ∧
      IsComp sh2.am (compAt sh2.am (k % nc sh2.am)) := by
    intro k hk
    obtain ⟨_, _, _, c1⟩ := recAt_comp am1 (n := k / nc sh2.am) (Nat.div_lt_of_lt_mul (by rwa [Nat.mul_comm]))
    obtain ⟨_, _, _, c2⟩ := recAt_comp am2 (n := k % nc sh2.am) (Nat.mod_lt _ (nc_pos _))
    exact ⟨c1, c2⟩
  set G : ℕ → ℕ → ℕ → ℝ := fun i j k =>
    ovlPair sh1 sh2 R (compAt sh1.am (k / nc sh2.am)) (compAt sh2.am (k % nc sh2.am)) i j with hG
  have GB : ∀ i j k, i < sh1.nprim → j < sh2.nprim → k < nc sh1.am * nc sh2.am → 0 ≤ G i j k ∧ G i j k ≤ T 684 :=
    fun i j k hi hj hk => ovlPair_bounds hF h hi hj (cmp k hk).1 (cmp k hk).2 am1 am2
  have PS := fun k hk => pair_sum h (V := fun i j => G i j k) (δ := 2 * S 258) (M := S 200) (e := 684)
    (fun i j hi hj => (GB i j k hi hj hk).2) (fun i j hi hj => (GB i j k hi hj hk).1) (by norm_num)
    (by have := S_pos 258; linarith)
    (by rw [S_twice (show 258 = 257 + 1 by norm_num)]; exact S_one 257)
    (by
      rw [S_twice (show 258 = 257 + 1 by norm_num), T_S (by norm_num)]
      exact S_le (by norm_num))
  obtain ⟨w', out', e1, o1, o2, o3⟩ := pairLoop_near hF.toRounds (n1 := sh1.nprim) (n2 := sh2.nprim)
    (N := nc sh1.am * nc sh2.am) (sz := integrals.size) (m := 118 + 11 * (sh1.am + sh2.am))
    (body := fun i j st =>
      (overlapTerms F (sh1.alpha i) sh1.pos (sh2.alpha j) sh2.pos (sh1.am + 1) (sh2.am + 1) st.1).bind
      fun work =>
      (addComponents F sh1.am sh2.am (F.fl (sh1.coef i * sh2.coef j)) (fun r1 r2 =>
        (workAt (sh2.am + 1) ((sh1.am + 1) * (sh2.am + 1)) work 0 r1.ijk.x r2.ijk.x).bind fun wx =>
        (workAt (sh2.am + 1) ((sh1.am + 1) * (sh2.am + 1)) work 1 r1.ijk.y r2.ijk.y).bind fun wy =>
        (workAt (sh2.am + 1) ((sh1.am + 1) * (sh2.am + 1)) work 2 r1.ijk.z r2.ijk.z).map fun wz =>
          F.fl (F.fl (wx * wy) * wz)) st.2).map fun out => (work, out))
    (J := fun w => w.size = 3 * (sh1.am + 1) * (sh2.am + 1))
    (fun i j k => sh1.coef i * sh2.coef j *
      ∫ r : R3, primG (sh1.alpha i) sh1.pos (compAt sh1.am (k / nc sh2.am)) r.dir *
        primG (sh2.alpha j) sh2.pos (compAt sh2.am (k % nc sh2.am)) r.dir)
    (fun i j k => |sh1.coef i * sh2.coef j| * G i j k) (δ := 2 * S 258)
    (by have := S_pos 258; linarith) (by omega)
    (fun i j k hi hj hk => mul_nonneg (abs_nonneg _) (GB i j k hi hj hk).1)
    (fun k hk => (PS k hk).1)
    (by
      intro i j w out hi hj hw hout
      obtain ⟨work, e, f⟩ := overlapTerms_near hF (h.prim hi hj) h.apos h.bpos
        (Nat.succ_pos sh1.am) (Nat.succ_pos sh2.am) (by omega) (by omega) w hw
      obtain ⟨o, e2, f2⟩ := addComponents_near (F := F) am1 am2 (F.fl (sh1.coef i * sh2.coef j)) _
        (fun a b w => Approx (116 + 11 * (sh1.am + sh2.am)) w
          (∫ r : R3, primG (sh1.alpha i) sh1.pos a r.dir * primG (sh2.alpha j) sh2.pos b r.dir)
          (ovlPair sh1 sh2 R a b i j + S 360) ∧ ovlPair sh1 sh2 R a b i j ≤ T 684)
        (fun r1 r2 c1 c2 => overlap_val hF h hi hj am1 am2 f c1 c2) out (by rw [hout]; exact hsz)
      refine ⟨work, o, ?_, f.1, f2.1.trans hout, fun k hk => ?_, f2.2.2⟩
      · simp only at e ⊢
        rw [e, Option.bind_some, e2]; rfl
      · obtain ⟨v, q, ev⟩ := f2.2.1 k hk
        obtain ⟨c1, c2⟩ := coef_near (σ := S 258) (e := 684) hF h hi hj q.1 q.2 (GB i j k hi hj hk).1
          (by norm_num) (by norm_num) (S_le (by norm_num)) (S_le (by norm_num))
        exact ⟨_, _, _, _, _, _, _, c1, q.1, by omega, rfl, c2, ev⟩)
    (w := ⟨3 * ((sh1.am + 1) * (sh2.am + 1)), work0⟩) (by simp only; ring) z1 z2
  rw [e1]
  refine ⟨out', rfl, o1, fun n m e1 e2 l1 l2 => ?_, fun k hk => (o3 k hk).trans (z3 k hk)⟩
  obtain ⟨l1, i1⟩ := List.getElem?_eq_some_iff.1 l1
  obtain ⟨l2, i2⟩ := List.getElem?_eq_some_iff.1 l2
  have l2' := l2
  have l1' := l1
  rw [psi4_length] at l1' l2'
  have hlt := row_lt l1' l2'
  have A1 := o2 _ hlt
  have A2 := (PS _ hlt).2
  have hd : (n * nc sh2.am + m) / nc sh2.am = n := by
    rw [Nat.mul_comm, Nat.mul_add_div (nc_pos _), Nat.div_eq_of_lt l2', Nat.add_zero]
  have hr : (n * nc sh2.am + m) % nc sh2.am = m := by
    rw [Nat.mul_comm, Nat.mul_add_mod, Nat.mod_eq_of_lt l2']
  rw [hG] at A1 A2
  simp only [hd, hr, compAt_get l1, compAt_get l2, i1, i2] at A1 A2
  rw [overlapInt_eq h.posA h.posB]
  refine A1.err.trans (mul_le_mul (γ_le (by omega)) A2 A1.nonneg (by positivity))

/-- C92: the same for kinetic energy integrals. -/
theorem C92_kinetic {F : Arith} (hF : Sound F) {sh1 sh2 : Shell ℝ} (am1 : sh1.am ≤ 18) (am2 : sh2.am ≤ 18)
    {R : ℝ} (h : ShellsIn sh1 sh2 R) (work0 : ℕ → ℝ) (integrals : CBuf ℝ)
    (hsz : nc sh1.am * nc sh2.am ≤ integrals.size) :
    ∃ out, osoeiKe F sh1 sh2 work0 integrals = some out ∧ out.size = integrals.size ∧
      (∀ n m e1 e2, (psi4List sh1.am)[n]? = some e1 → (psi4List sh2.am)[m]? = some e2 →
        |out.val (n * nc sh2.am + m) - kineticInt sh1 sh2 e1 e2| ≤
          (152 + 11 * (sh1.am + sh2.am) + sh1.nprim * sh2.nprim : ℕ) * (1 / 2 ^ 52) *
            kineticMax sh1 sh2 R e1 e2) ∧
      ∀ k, nc sh1.am * nc sh2.am ≤ k → out.val k = integrals.val k := by
  have hp := h.prims
  unfold osoeiKe
  simp only
  obtain ⟨z, e0, z1, z2, z3⟩ := zeroBuf_ok hsz
  rw [e0, Option.bind_some]
  have cmp : ∀ k, k < nc sh1.am * nc sh2.am → IsComp sh1.am (compAt sh1.am (k / nc sh2.am)) ∧
      IsComp sh2.am (compAt sh2.am (k % nc sh2.am)) := by
    intro k hk
    obtain ⟨_, _, _, c1⟩ := recAt_comp am1 (n := k / nc sh2.am) (Nat.div_lt_of_lt_mul (by rwa [Nat.mul_comm]))
    obtain ⟨_, _, _, c2⟩ := recAt_comp am2 (n := k % nc sh2.am) (Nat.mod_lt _ (nc_pos _))
    exact ⟨c1, c2⟩
  set G : ℕ → ℕ → ℕ → ℝ := fun i j k =>
    kinPair sh1 sh2 R (compAt sh1.am (k / nc sh2.am)) (compAt sh2.am (k % nc sh2.am)) i j with hG
  have GB : ∀ i j k, i < sh1.nprim → j < sh2.nprim → k < nc sh1.am * nc sh2.am → 0 ≤ G i j k ∧ G i j k ≤ T 804 :=
    fun i j k hi hj hk => kinPair_bounds hF h hi hj (cmp k hk).1 (cmp k hk).2 am1 am2
  have PS := fun k hk => pair_sum h (V := fun i j => G i j k) (δ := 2 * S 138) (M := S 100) (e := 804)
    (fun i j hi hj => (GB i j k hi hj hk).2) (fun i j hi hj => (GB i j k hi hj hk).1) (by norm_num)
    (by have := S_pos 138; linarith)
    (by rw [S_twice (show 138 = 137 + 1 by norm_num)]; exact S_one 137)
    (by
      rw [S_twice (show 138 = 137 + 1 by norm_num), T_S (by norm_num)]
      exact S_le (by norm_num))
  obtain ⟨w', out', e1, o1, o2, o3⟩ := pairLoop_near hF.toRounds (n1 := sh1.nprim) (n2 := sh2.nprim)
    (N := nc sh1.am * nc sh2.am) (sz := integrals.size) (m := 152 + 11 * (sh1.am + sh2.am))
    (body := fun i j st =>
      (keTerms F (sh1.alpha i) sh1.pos (sh2.alpha j) sh2.pos (sh1.am + 1) (sh2.am + 1) st.1).bind
      fun work =>
      (addComponents F sh1.am sh2.am (F.fl (sh1.coef i * sh2.coef j)) (fun r1 r2 =>
        (workAt (sh2.am + 1) ((sh1.am + 1) * (sh2.am + 1)) work 0 r1.ijk.x r2.ijk.x).bind fun sx =>
        (workAt (sh2.am + 1) ((sh1.am + 1) * (sh2.am + 1)) work 1 r1.ijk.y r2.ijk.y).bind fun sy =>
        (workAt (sh2.am + 1) ((sh1.am + 1) * (sh2.am + 1)) work 2 r1.ijk.z r2.ijk.z).bind fun sz =>
        (workAt (sh2.am + 1) ((sh1.am + 1) * (sh2.am + 1)) work 3 r1.ijk.x r2.ijk.x).bind fun tx =>
        (workAt (sh2.am + 1) ((sh1.am + 1) * (sh2.am + 1)) work 4 r1.ijk.y r2.ijk.y).bind fun ty =>
        (workAt (sh2.am + 1) ((sh1.am + 1) * (sh2.am + 1)) work 5 r1.ijk.z r2.ijk.z).map fun tz =>
          F.mac (F.fl (sx * sy)) tz (F.dot (F.fl (tx * sy)) sz (F.fl (sx * ty)) sz)) st.2).map
      fun out => (work, out))
    (J := fun w => w.size = 6 * (sh1.am + 1) * (sh2.am + 1))
    (fun i j k => sh1.coef i * sh2.coef j *
      ∫ r : R3, primG (sh1.alpha i) sh1.pos (compAt sh1.am (k / nc sh2.am)) r.dir *
        (-1 / 2 * laplace (primG (sh2.alpha j) sh2.pos (compAt sh2.am (k % nc sh2.am))) r.dir))
    (fun i j k => |sh1.coef i * sh2.coef j| * G i j k) (δ := 2 * S 138)
    (by have := S_pos 138; linarith) (by omega)
    (fun i j k hi hj hk => mul_nonneg (abs_nonneg _) (GB i j k hi hj hk).1)
    (fun k hk => (PS k hk).1)
    (by
      intro i j w out hi hj hw hout
      obtain ⟨work, e, f⟩ := keTerms_near hF (h.prim hi hj) h.apos h.bpos
        (Nat.succ_pos sh1.am) (Nat.succ_pos sh2.am) (by omega) (by omega) w hw
      obtain ⟨o, e2, f2⟩ := addComponents_near (F := F) am1 am2 (F.fl (sh1.coef i * sh2.coef j)) _
        (fun a b w => Approx (150 + 11 * (sh1.am + sh2.am)) w
          (∫ r : R3, primG (sh1.alpha i) sh1.pos a r.dir *
            (-1 / 2 * laplace (primG (sh2.alpha j) sh2.pos b) r.dir))
          (kinPair sh1 sh2 R a b i j + S 240) ∧ kinPair sh1 sh2 R a b i j ≤ T 804)
        (fun r1 r2 c1 c2 => kinetic_val hF h hi hj am1 am2 f c1 c2) out (by rw [hout]; exact hsz)
      refine ⟨work, o, ?_, f.1, f2.1.trans hout, fun k hk => ?_, f2.2.2⟩
      · simp only at e ⊢
        rw [e, Option.bind_some, e2]; rfl
      · obtain ⟨v, q, ev⟩ := f2.2.1 k hk
        obtain ⟨c1, c2⟩ := coef_near (σ := S 138) (e := 804) hF h hi hj q.1 q.2 (GB i j k hi hj hk).1
          (by norm_num) (by norm_num) (S_le (by norm_num)) (S_le (by norm_num))
        exact ⟨_, _, _, _, _, _, _, c1, q.1, by omega, rfl, c2, ev⟩)
    (w := ⟨6 * ((sh1.am + 1) * (sh2.am + 1)), work0⟩) (by simp only; ring) z1 z2
  rw [e1]
  refine ⟨out', rfl, o1, fun n m e1 e2 l1 l2 => ?_, fun k hk => (o3 k hk).trans (z3 k hk)⟩
  obtain ⟨l1, i1⟩ := List.getElem?_eq_some_iff.1 l1
  obtain ⟨l2, i2⟩ := List.getElem?_eq_some_iff.1 l2
  have l2' := l2
  have l1' := l1
  rw [psi4_length] at l1' l2'
  have hlt := row_lt l1' l2'
  have A1 := o2 _ hlt
  have A2 := (PS _ hlt).2
  have hd : (n * nc sh2.am + m) / nc sh2.am = n := by
    rw [Nat.mul_comm, Nat.mul_add_div (nc_pos _), Nat.div_eq_of_lt l2', Nat.add_zero]
  have hr : (n * nc sh2.am + m) % nc sh2.am = m := by
    rw [Nat.mul_comm, Nat.mul_add_mod, Nat.mod_eq_of_lt l2']
  rw [hG] at A1 A2
  simp only [hd, hr, compAt_get l1, compAt_get l2, i1, i2] at A1 A2
  rw [kineticInt_eq h.posA h.posB]
  refine A1.err.trans (mul_le_mul (γ_le (by omega)) (A2.trans (le_of_eq ?_)) A1.nonneg (by positivity))
  unfold kineticMax kinPair ovlPair
  simp only [mul_assoc]
  rfl

/-! ## Concrete cases -/

/-- The contracted p shell and the d shell of C48 are of moderate size. -/
theorem demo_in : ShellsIn demoP demoD 2 where
  prims := by simp [demoP, demoD]
  alo := fun i _ => by simp only [demoP]; split_ifs <;> norm_num
  ahi := fun i _ => by simp only [demoP]; split_ifs <;> norm_num
  blo := fun i _ => by simp only [demoD]; norm_num
  bhi := fun i _ => by simp only [demoD]; norm_num
  apos := fun d => by simp [demoP]
  bpos := fun d => by cases d <;> simp [demoD]
  rhi := by norm_num
  coef := fun i _ j _ => by simp only [demoP, demoD]; split_ifs <;> norm_num

/-- Doubles, with or without fused multiply and add: 153 roundings. -/
example (fused : Bool) (work0 : ℕ → ℝ) :
    ∃ out, osoeiOverlap (ieee fused) demoP demoD work0 ⟨18, fun _ => 7⟩ = some out ∧
      |out.val (1 * 6 + 4) - overlapInt demoP demoD ⟨0, 1, 0⟩ ⟨0, 1, 1⟩| ≤
        153 * (1 / 2 ^ 52) * overlapMax demoP demoD 2 ⟨0, 1, 0⟩ ⟨0, 1, 1⟩ := by
  obtain ⟨out, e, -, h, -⟩ := C92_overlap (sound_ieee fused) (by decide) (by decide) demo_in work0
    ⟨18, fun _ => 7⟩ (by decide)
  have b := h 1 4 ⟨0, 1, 0⟩ ⟨0, 1, 1⟩ (by decide) (by decide)
  rw [show ((118 + 11 * (demoP.am + demoD.am) + demoP.nprim * demoD.nprim : ℕ) : ℝ) = 153 by
    norm_num [demoP, demoD]] at b
  exact ⟨out, e, b⟩

example (fused : Bool) (work0 : ℕ → ℝ) :
    ∃ out, osoeiKe (ieee fused) demoP demoD work0 ⟨18, fun _ => 7⟩ = some out ∧
      |out.val (1 * 6 + 4) - kineticInt demoP demoD ⟨0, 1, 0⟩ ⟨0, 1, 1⟩| ≤
        187 * (1 / 2 ^ 52) * kineticMax demoP demoD 2 ⟨0, 1, 0⟩ ⟨0, 1, 1⟩ := by
  obtain ⟨out, e, -, h, -⟩ := C92_kinetic (sound_ieee fused) (by decide) (by decide) demo_in work0
    ⟨18, fun _ => 7⟩ (by decide)
  have b := h 1 4 ⟨0, 1, 0⟩ ⟨0, 1, 1⟩ (by decide) (by decide)
  rw [show ((152 + 11 * (demoP.am + demoD.am) + demoP.nprim * demoD.nprim : ℕ) : ℝ) = 187 by
    norm_num [demoP, demoD]] at b
  exact ⟨out, e, b⟩

end Simint.FlOneEl
