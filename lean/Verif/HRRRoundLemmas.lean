import Verif.HRRRound
import Verif.Spec.HRRRound
import Verif.HRRExecLemmas
import Mathlib.Algebra.BigOperators.Intervals
import Mathlib.Data.Nat.Choose.Sum

/-! Rounding errors of the horizontal stage. -/

set_option autoImplicit false

namespace Simint.HRRRound

open FlBoys (Arith Rounds u η)

/-- One statement. -/
theorem flOp_err {F : Arith} (hF : Rounds F) (fuse : HStmt → Bool) {h : Dir → ℝ} {s : HStmt}
    {h' x y X Y x' y' B : ℝ} {k : ℕ} (hh : |h s.xyz - h'| ≤ u * |h'|)
    (hx : Approx k x' x X) (hy : Approx k y' y Y)
    (hB : X + |h'| * Y + 2 * κ ≤ B) (hov : (1 + u) ^ (k + 3) * B ≤ 2 ^ 1023) :
    Approx (k + 3) (flOp F fuse h s x' y') (if s.minus then x - h' * y else x + h' * y) B := by
  have hκ := κ_pos
  have hX0 := hx.nonneg
  have hY0 := hy.nonneg
  have a0 : Approx 1 (h s.xyz) h' |h'| := ⟨le_rfl, by rw [γ_one]; exact hh⟩
  have a1 : Approx (k + 1) (h s.xyz * y') (h' * y) (|h'| * Y) := by
    rw [add_comm]; exact a0.mul hy
  have z0 := a1.nonneg
  have ov : ∀ j ≤ k + 3, ∀ Z ≤ B, 0 ≤ Z → (1 + u) ^ j * Z ≤ 2 ^ 1023 := by
    intro j hj Z hZ hZ0
    exact le_trans (mul_le_mul (uPow_mono hj) hZ hZ0 (by linarith [one_le_uPow (k + 3)])) hov
  have a2 : Approx (k + 2) (if fuse s then h s.xyz * y' else F.fl (h s.xyz * y')) (h' * y)
      (|h'| * Y + κ) := by
    cases fuse s
    · exact a1.fl hF (ov (k + 1) (by omega) _ (by linarith) z0)
    · exact a1.mono (by omega) (by linarith)
  have b1 : ∀ p q, Approx (k + 2) p q (X + (|h'| * Y + κ)) → Approx (k + 3) (F.fl p) q B := by
    intro p q hp
    exact (hp.fl hF (ov (k + 2) (by omega) _ (by linarith) (by linarith))).mono le_rfl (by linarith)
  have hx2 : Approx (k + 2) x' x X := hx.mono (by omega) le_rfl
  unfold flOp
  cases s.minus
  · exact b1 _ _ (hx2.add a2)
  · exact b1 _ _ (hx2.sub a2)

/-- Number of horizontal steps behind an element. -/
def depth (bt kt : RRType) (b k : Dbl) : ℕ := ((b.stepped bt).am + (k.stepped kt).am).toNat

/-- The stored value is as good as can be expected. -/
def Near (bt kt : RRType) (θ Θ : String → Fam ℝ) (k0 : ℕ) (t : String) (b k : Dbl) (v : ℝ) : Prop :=
  Approx (k0 + 3 * depth bt kt b k) v (θ t b.left b.right k.left k.right)
    (Θ t b.left b.right k.left k.right)

/-- No bound is too large for a double. -/
def NoOverflow (bt kt : RRType) (A : HRRAlgo) (Θ : String → Fam ℝ) (k0 : ℕ) : Prop :=
  ∀ q ∈ A.order, ∀ b k : Dbl, b.Valid → k.Valid → b.am2 = q.bra → k.am2 = q.ket →
    (1 + u) ^ (k0 + 3 * depth bt kt b k) * Θ q.tag b.left b.right k.left k.right ≤ 2 ^ 1023

variable {A : HRRAlgo} {F : Arith} {fuse : HStmt → Bool} {AB CD h : Dir → ℝ}
  {θ Θ : String → Fam ℝ} {k0 : ℕ}

/-- Relation of the majorant for one step. -/
theorem majorant_step {AB : Dir → ℝ} {M : Exp → Exp → ℝ} {ty : RRType}
    (hM : ∀ a b i, a.Valid → b.Valid →
      if ty.isLeft then M a (b.step i 1) + |AB i| * M a b + 2 * κ ≤ M (a.step i 1) b
      else M (a.step i 1) b + |AB i| * M a b + 2 * κ ≤ M a (b.step i 1))
    {d : Dbl} (hv : d.Valid) (hp : 0 < (d.stepped ty).am) {s : HRRStep}
    (hs : doubletStep ty d = some s) :
    M s.src0.left s.src0.right + |AB s.xyz| * M s.src1.left s.src1.right + 2 * κ ≤ M d.left d.right ∧
      (s.src0.stepped ty).am + 1 = (d.stepped ty).am ∧
      (s.src1.stepped ty).am + 1 = (d.stepped ty).am := by
  obtain ⟨s', h1, h2, h3, h4, h5⟩ := doubletStep_spec hv hp
  rw [hs, Option.some.injEq] at h1
  subst h1
  cases hty : ty.isLeft
  · obtain ⟨e0, e1⟩ := h5 hty
    have hv1 := h2.v1
    have := hM d.left (d.right.step s.xyz (-1)) s.xyz hv.1 (by rw [e1] at hv1; exact hv1.2)
    simp only [hty, Exp.step_step, Int.reduceNeg, neg_add_cancel, Exp.step_zero] at this
    rw [e0, e1]
    refine ⟨by simpa using this, ?_, ?_⟩ <;> simp [Dbl.stepped, hty]
  · obtain ⟨e0, e1⟩ := h4 hty
    have hv1 := h2.v1
    have := hM (d.left.step s.xyz (-1)) d.right s.xyz (by rw [e1] at hv1; exact hv1.1) hv.2
    simp only [hty, Exp.step_step, Int.reduceNeg, neg_add_cancel, Exp.step_zero] at this
    rw [e0, e1]
    refine ⟨by simpa using this, ?_, ?_⟩ <;> simp [Dbl.stepped, hty]

theorem stepped_valid {ty : RRType} {d : Dbl} (h : d.Valid) : 0 ≤ (d.stepped ty).am := by
  unfold Dbl.stepped
  split
  · exact h.1.am_nonneg
  · exact h.2.am_nonneg

theorem near_bra (hF : Rounds F) (hh : ∀ i, |h i - AB i| ≤ u * |AB i|)
    (hθ : ∀ t, HRRFam AB CD (θ t))
    (hΘ : ∀ t, Majorant A.bra.type.isLeft A.ket.type.isLeft AB CD (Θ t))
    (hov : NoOverflow A.bra.type A.ket.type A Θ k0) :
    BraClosed (Near A.bra.type A.ket.type θ Θ k0) A (flOp F fuse h) := by
  intro q hq s k hv hp hk hb hka hs st ex em v0 v1 n0 n1
  obtain ⟨m1, d0, d1⟩ := majorant_step (M := fun a b => Θ q.tag a b k.left k.right)
    (fun a b i ha hb => (hΘ q.tag).bra a b _ _ i ha hb hk.1 hk.2) hv hp hs
  have hid := step_identity_left (AB := AB) (F := fun a b => θ q.tag a b k.left k.right)
    (fun a b i ha hb => (hθ q.tag).bra a b _ _ i ha hb hk.1 hk.2) hv hp hs
  unfold Near at n0 n1
  have hkn := stepped_valid (ty := A.ket.type) hk
  have e0 : depth A.bra.type A.ket.type s.target k = depth A.bra.type A.ket.type s.src0 k + 1 := by
    unfold depth; omega
  have e1 : depth A.bra.type A.ket.type s.src1 k = depth A.bra.type A.ket.type s.src0 k := by
    unfold depth; omega
  have ov := hov q hq s.target k hv hk hb hka
  rw [e1] at n1
  unfold Near
  rw [e0] at ov ⊢
  have kk : k0 + 3 * (depth A.bra.type A.ket.type s.src0 k + 1) =
    k0 + 3 * depth A.bra.type A.ket.type s.src0 k + 3 := by ring
  rw [kk] at ov ⊢
  have hst : |h st.xyz - AB s.xyz| ≤ u * |AB s.xyz| := by rw [ex]; exact hh _
  have key := flOp_err hF fuse hst n0 n1 m1 ov
  rw [em] at key
  rw [← hid] at key
  exact key

theorem near_ket (hF : Rounds F) (hh : ∀ i, |h i - CD i| ≤ u * |CD i|)
    (hθ : ∀ t, HRRFam AB CD (θ t))
    (hΘ : ∀ t, Majorant A.bra.type.isLeft A.ket.type.isLeft AB CD (Θ t))
    (hov : NoOverflow A.bra.type A.ket.type A Θ k0) :
    KetClosed (Near A.bra.type A.ket.type θ Θ k0) A (flOp F fuse h) := by
  intro q hq s b hv hp hb hba hka hs st ex em v0 v1 n0 n1
  obtain ⟨m1, d0, d1⟩ := majorant_step (AB := CD) (M := fun c d => Θ q.tag b.left b.right c d)
    (fun c d i hc hd => (hΘ q.tag).ket _ _ c d i hb.1 hb.2 hc hd) hv hp hs
  have hid := step_identity_left (AB := CD) (F := fun c d => θ q.tag b.left b.right c d)
    (fun c d i hc hd => (hθ q.tag).ket _ _ c d i hb.1 hb.2 hc hd) hv hp hs
  unfold Near at n0 n1
  have hkn := stepped_valid (ty := A.bra.type) hb
  have e0 : depth A.bra.type A.ket.type b s.target = depth A.bra.type A.ket.type b s.src0 + 1 := by
    unfold depth; omega
  have e1 : depth A.bra.type A.ket.type b s.src1 = depth A.bra.type A.ket.type b s.src0 := by
    unfold depth; omega
  have ov := hov q hq b s.target hb hv hba hka
  rw [e1] at n1
  unfold Near
  rw [e0] at ov ⊢
  have kk : k0 + 3 * (depth A.bra.type A.ket.type b s.src0 + 1) =
    k0 + 3 * depth A.bra.type A.ket.type b s.src0 + 3 := by ring
  rw [kk] at ov ⊢
  have hst : |h st.xyz - CD s.xyz| ≤ u * |CD s.xyz| := by rw [ex]; exact hh _
  have key := flOp_err hF fuse hst n0 n1 m1 ov
  rw [em] at key
  rw [← hid] at key
  exact key

/-! ## The closed form -/

theorem binSum_zero (h : ℝ) (f : ℕ → ℝ) : binSum h 0 f = f 0 := by simp [binSum]

theorem binSum_succ (h : ℝ) (n : ℕ) (f : ℕ → ℝ) :
    binSum h (n + 1) f = binSum h n (fun k => f (k + 1)) + h * binSum h n f := by
  unfold binSum
  rw [Finset.sum_range_succ' _ (n + 1), Finset.mul_sum]
  have e1 : ∀ k ∈ Finset.range (n + 1), ((n + 1).choose (k + 1) : ℝ) * h ^ (n + 1 - (k + 1)) * f (k + 1) =
      (n.choose k : ℝ) * h ^ (n - k) * f (k + 1) +
      (n.choose (k + 1) : ℝ) * h ^ (n - k) * f (k + 1) := by
    intro k _
    rw [Nat.choose_succ_succ, Nat.add_sub_add_right]
    push_cast; ring
  rw [Finset.sum_congr rfl e1, Finset.sum_add_distrib, add_assoc]
  congr 1
  rw [Finset.sum_range_succ' (fun k => h * ((n.choose k : ℝ) * h ^ (n - k) * f k)),
    Finset.sum_range_succ (fun k => (n.choose (k + 1) : ℝ) * h ^ (n - k) * f (k + 1))]
  have e2 : ∀ k ∈ Finset.range n, (n.choose (k + 1) : ℝ) * h ^ (n - k) * f (k + 1) =
      h * ((n.choose (k + 1) : ℝ) * h ^ (n - (k + 1)) * f (k + 1)) := by
    intro k hk
    have hk := Finset.mem_range.1 hk
    have : n - k = (n - (k + 1)) + 1 := by omega
    rw [this, pow_succ]; ring
  rw [Finset.sum_congr rfl e2]
  simp [pow_succ]; ring

theorem binSum_add (h : ℝ) (n : ℕ) (f g : ℕ → ℝ) :
    binSum h n (fun k => f k + g k) = binSum h n f + binSum h n g := by
  unfold binSum
  rw [← Finset.sum_add_distrib]
  exact Finset.sum_congr rfl fun _ _ => by ring

theorem binSum_mul (h c : ℝ) (n : ℕ) (f : ℕ → ℝ) :
    binSum h n (fun k => c * f k) = c * binSum h n f := by
  unfold binSum
  rw [Finset.mul_sum]
  exact Finset.sum_congr rfl fun _ _ => by ring

theorem binSum_nonneg {h : ℝ} (hh : 0 ≤ h) (n : ℕ) {f : ℕ → ℝ} (hf : ∀ k, 0 ≤ f k) :
    0 ≤ binSum h n f :=
  Finset.sum_nonneg fun k _ => mul_nonneg (mul_nonneg (by positivity) (by positivity)) (hf k)

theorem binSum3_step (h : Dir → ℝ) {b : Exp} (hb : b.Valid) (f : Exp → ℝ) (a : Exp) (i : Dir) :
    binSum3 h (b.step i 1) f a = binSum3 h b f (a.step i 1) + |h i| * binSum3 h b f a := by
  obtain ⟨h1, h2, h3⟩ := hb
  cases i
  · have e : (b.x + 1).toNat = b.x.toNat + 1 := by omega
    simp only [binSum3, Exp.step, e, binSum_succ]
    congr 2
    funext k
    have : a.x + ((k + 1 : ℕ) : ℤ) = a.x + 1 + k := by push_cast; ring
    rw [this]
  · have e : (b.y + 1).toNat = b.y.toNat + 1 := by omega
    simp only [binSum3, Exp.step, e, binSum_succ, binSum_add, binSum_mul]
    congr 2
    funext k
    congr 1
    funext l
    have : a.y + ((l + 1 : ℕ) : ℤ) = a.y + 1 + l := by push_cast; ring
    rw [this]
  · have e : (b.z + 1).toNat = b.z.toNat + 1 := by omega
    simp only [binSum3, Exp.step, e, binSum_succ, binSum_add, binSum_mul]
    congr 2
    funext k
    congr 1
    funext l
    congr 1
    funext o
    have : a.z + ((o + 1 : ℕ) : ℤ) = a.z + 1 + o := by push_cast; ring
    rw [this]

theorem binSum3_add (h : Dir → ℝ) (b : Exp) (f g : Exp → ℝ) (a : Exp) :
    binSum3 h b (fun e => f e + g e) a = binSum3 h b f a + binSum3 h b g a := by
  simp only [binSum3, binSum_add]

theorem binSum3_mul (h : Dir → ℝ) (c : ℝ) (b : Exp) (f : Exp → ℝ) (a : Exp) :
    binSum3 h b (fun e => c * f e) a = c * binSum3 h b f a := by
  simp only [binSum3, binSum_mul]

theorem binSum3_nonneg (h : Dir → ℝ) (b : Exp) {f : Exp → ℝ} (hf : ∀ e, 0 ≤ f e) (a : Exp) :
    0 ≤ binSum3 h b f a :=
  binSum_nonneg (abs_nonneg _) _ fun _ => binSum_nonneg (abs_nonneg _) _ fun _ =>
    binSum_nonneg (abs_nonneg _) _ fun _ => hf _

theorem binSum3_zero (h : Dir → ℝ) (f : Exp → ℝ) (a : Exp) : binSum3 h ⟨0, 0, 0⟩ f a = f a := by
  simp [binSum3, binSum_zero]

/-- Closed form: the terms of the binomial theorem with absolute values, and a term for underflow. -/
noncomputable def closed (lb lk : Bool) (AB CD : Dir → ℝ) (w : ℝ) (θ : Fam ℝ) : Fam ℝ :=
  fun a b c d => absSum lb lk AB CD (topAbs lb lk θ) a b c d +
    κ * (3 + w) ^ ((if lb then a else b).am + (if lk then c else d).am).toNat

theorem closed_slack {w x y z W : ℝ} {n : ℕ} (hw : 0 ≤ w) (hz : z ≤ w) (hW : 0 ≤ W)
    (e : W = (3 + w) ^ n) :
    x + κ * W + z * (y + κ * W) + 2 * κ ≤ x + z * y + κ * (3 + w) ^ (n + 1) := by
  have h1 : 1 ≤ W := by rw [e]; exact one_le_pow₀ (by linarith)
  have hk := κ_pos
  rw [pow_succ, ← e]
  have : z * (κ * W) ≤ w * (κ * W) := mul_le_mul_of_nonneg_right hz (by positivity)
  nlinarith [mul_le_mul_of_nonneg_left h1 hk.le]

theorem closed_majorant {lb lk : Bool} {AB CD : Dir → ℝ} {w : ℝ} (hw : 0 ≤ w) (hAB : ∀ i, |AB i| ≤ w)
    (hCD : ∀ i, |CD i| ≤ w) (θ : Fam ℝ) : Majorant lb lk AB CD (closed lb lk AB CD w θ) := by
  have kk : ∀ x y : ℤ, 0 ≤ x → 0 ≤ y → (x + 1 + y).toNat = (x + y).toNat + 1 := by
    intro x y _ _; omega
  have kk' : ∀ x y : ℤ, 0 ≤ x → 0 ≤ y → (x + (y + 1)).toNat = (x + y).toNat + 1 := by
    intro x y _ _; omega
  constructor
  · intro a b c d i ha hb hc hd
    have := ha.am_nonneg
    have := hb.am_nonneg
    have := hc.am_nonneg
    have := hd.am_nonneg
    have hx : 0 ≤ (if lk then c else d).am := by split <;> assumption
    cases lb
    · simp only [closed, absSum, Bool.false_eq_true, if_false, Exp.am_step]
      rw [kk _ _ ‹0 ≤ b.am› hx, binSum3_step AB hb]
      exact closed_slack hw (hAB i) (by positivity) rfl
    · simp only [closed, absSum, if_true, Exp.am_step]
      rw [kk _ _ ‹0 ≤ a.am› hx, binSum3_step AB ha]
      exact closed_slack hw (hAB i) (by positivity) rfl
  · intro a b c d i ha hb hc hd
    have := ha.am_nonneg
    have := hb.am_nonneg
    have := hc.am_nonneg
    have := hd.am_nonneg
    have hx : 0 ≤ (if lb then a else b).am := by split <;> assumption
    cases lk
    · simp only [closed, absSum, Bool.false_eq_true, if_false, Exp.am_step]
      rw [kk' _ _ hx ‹0 ≤ d.am›]
      simp only [binSum3_step CD hd, binSum3_add, binSum3_mul]
      exact closed_slack hw (hCD i) (by positivity) rfl
    · simp only [closed, absSum, if_true, Exp.am_step]
      rw [kk' _ _ hx ‹0 ≤ c.am›]
      simp only [binSum3_step CD hc, binSum3_add, binSum3_mul]
      exact closed_slack hw (hCD i) (by positivity) rfl

theorem exp_zero {e : Exp} (h : e.Valid) (h0 : e.am = 0) : e = ⟨0, 0, 0⟩ := by
  obtain ⟨h1, h2, h3⟩ := h
  unfold Exp.am at h0
  ext <;> simp <;> omega

/-- Without angular momentum on the stepped centers the closed form is the absolute value. -/
theorem closed_top {lb lk : Bool} {AB CD : Dir → ℝ} {w : ℝ} (hw : 0 ≤ w) {θ : Fam ℝ} {a b c d : Exp}
    (hb : (if lb then a else b) = ⟨0, 0, 0⟩) (hk : (if lk then c else d) = ⟨0, 0, 0⟩) :
    |θ a b c d| ≤ closed lb lk AB CD w θ a b c d := by
  have h0 : 0 ≤ κ * (3 + w) ^ ((if lb then a else b).am + (if lk then c else d).am).toNat := by
    have := κ_pos
    positivity
  unfold closed absSum
  rw [hb, hk, binSum3_zero, binSum3_zero]
  rw [hb, hk] at h0
  have : topAbs lb lk θ (if lb then b else a) (if lk then d else c) = |θ a b c d| := by
    unfold topAbs
    cases lb <;> cases lk <;> simp_all
  rw [this]
  linarith

/-! ## Rounding to nearest -/

open FlBoys (rn lastPlace)

theorem rn_place {y : ℝ} {e : ℤ} (h1 : (2 : ℝ) ^ e ≤ |y|) (h2 : |y| < 2 ^ (e + 1)) (he : -1022 ≤ e) :
    lastPlace y = e - 52 := by
  have hl : Int.log 2 |y| = e := by
    apply le_antisymm
    · have : |y| < ((2 : ℕ) : ℝ) ^ (e + 1) := by simpa using h2
      have := (Int.lt_zpow_iff_log_lt (b := 2) (r := |y|) (by norm_num)
        (lt_of_lt_of_le (by positivity) h1)).1 this
      omega
    · exact (Int.zpow_le_iff_le_log (b := 2) (r := |y|) (by norm_num)
        (lt_of_lt_of_le (by positivity) h1)).1 (by simpa using h1)
  unfold FlBoys.lastPlace
  rw [hl, max_eq_left (by omega)]

theorem rn_rel {y : ℝ} {n : ℤ} (h : y = n * 2 ^ (-1074 : ℤ)) : |rn y - y| ≤ u * |y| := by
  rcases eq_or_ne y 0 with h0 | h0
  · rw [h0, FlBoys.rn_zero]; simp
  rcases le_total (Int.log 2 |y| - 52) (-1074) with c | c
  · have hl : lastPlace y = -1074 := by unfold FlBoys.lastPlace; exact max_eq_right c
    have : rn y = y := by
      unfold FlBoys.rn
      rw [hl, h, mul_div_assoc, div_self (by positivity), mul_one, round_intCast]
    rw [this, sub_self, abs_zero]
    have := u_pos
    positivity
  · have hl : lastPlace y = Int.log 2 |y| - 52 := by unfold FlBoys.lastPlace; exact max_eq_left c
    have h1 := Int.zpow_log_le_self (b := 2) (r := |y|) (by norm_num) (abs_pos.2 h0)
    have h2 : (2 : ℝ) ^ (Int.log 2 |y| - 52) / 2 = u * 2 ^ Int.log 2 |y| := by
      unfold FlBoys.u
      rw [zpow_sub₀ (by norm_num), show (52 : ℤ) = ((52 : ℕ) : ℤ) by norm_num, zpow_natCast]
      ring
    have h3 := mul_le_mul_of_nonneg_left h1 u_pos.le
    push_cast at h3
    unfold FlBoys.rn
    rw [hl]
    have hp : (0 : ℝ) < 2 ^ (Int.log 2 |y| - 52) := by positivity
    set p := (2 : ℝ) ^ (Int.log 2 |y| - 52)
    have h4 := abs_sub_round (y / p)
    have e : (round (y / p) : ℝ) * p - y = -((y / p - round (y / p)) * p) := by
      field_simp; ring
    rw [e, abs_neg, abs_mul, abs_of_pos hp]
    nlinarith

end Simint.HRRRound
