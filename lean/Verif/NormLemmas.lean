import Verif.Norm
import Verif.Spec.Norm
import Verif.BoysAcc
import Verif.OneElInt

/-! Self-overlap of the components of a shell. -/

set_option autoImplicit false

open MeasureTheory Real

namespace Simint

theorem even_integral (n : ℕ) {p : ℝ} (hp : 0 < p) :
    ∫ t : ℝ, t ^ (2 * n) * exp (-p * t ^ 2) = oddFac n * √π / 2 ^ n * p ^ (-((n : ℝ) + 1 / 2)) := by
  have h := integral_comp_abs (f := fun t : ℝ => t ^ (2 * n) * exp (-p * t ^ 2))
  have e : ∀ t : ℝ, |t| ^ (2 * n) * exp (-p * |t| ^ 2) = t ^ (2 * n) * exp (-p * t ^ 2) := by
    intro t; rw [pow_mul, sq_abs, ← pow_mul]
  simp only [e] at h
  rw [h]
  change 2 * boysInf n p = _
  rw [boysInf_eq n hp, oddFac, pow_succ]
  field_simp

theorem ovl1_self {α β : ℝ} (hα : 0 < α) (hβ : 0 < β) (A : ℝ) (n : ℕ) :
    ovl1 α A β A n n = oddFac n * √π / 2 ^ n * (α + β) ^ (-((n : ℝ) + 1 / 2)) := by
  rw [← even_integral n (add_pos hα hβ)]
  unfold ovl1 gauss1
  rw [← integral_sub_right_eq_self (fun t : ℝ => t ^ (2 * n) * exp (-(α + β) * t ^ 2)) A]
  congr 1; ext x
  rw [mul_mul_mul_comm, ← exp_add, ← pow_add, two_mul]
  congr 2; ring

/-- `pi**(3/2) * (2l-1)!! / 2**l`, shell_constants.c:11. -/
noncomputable def normFacExact (l : ℕ) : ℝ := π * √π * oddFac l / 2 ^ l

theorem overlap_prim_self {α β : ℝ} (hα : 0 < α) (hβ : 0 < β) (A : Dir → ℝ) (e : Exp) {l : ℕ}
    (hl : e.x.toNat + e.y.toNat + e.z.toNat = l) :
    ∫ r : R3, primG α A e r.dir * primG β A e r.dir =
      π * √π / 2 ^ l * (oddFac e.x.toNat * oddFac e.y.toNat * oddFac e.z.toNat) *
        (α + β) ^ (-((l : ℝ) + 3 / 2)) := by
  have hp := add_pos hα hβ
  rw [overlap_prim hα hβ, ovl1_self hα hβ, ovl1_self hα hβ, ovl1_self hα hβ]
  subst hl
  rw [show (-(((e.x.toNat + e.y.toNat + e.z.toNat : ℕ) : ℝ) + 3 / 2)) =
    -((e.x.toNat : ℝ) + 1 / 2) + -((e.y.toNat : ℝ) + 1 / 2) + -((e.z.toNat : ℝ) + 1 / 2) by
      push_cast; ring, rpow_add hp, rpow_add hp, pow_add, pow_add]
  have hs : √π * √π * √π = π * √π := by rw [mul_self_sqrt pi_pos.le]
  rw [← hs]
  field_simp

theorem foldl_add_range (f : ℕ → ℝ) (n : ℕ) (s : ℝ) :
    (List.range n).foldl (fun s j => s + f j) s = s + ∑ j ∈ Finset.range n, f j := by
  induction n generalizing s with
  | zero => simp
  | succ n ih => rw [List.range_succ, List.foldl_append, ih, Finset.sum_range_succ]; simp [add_assoc]

theorem normSum_eq (sh : Shell ℝ) : normSum realBoys sh =
    ∑ j ∈ Finset.range sh.nprim, ∑ k ∈ Finset.range sh.nprim,
      sh.coef j * sh.coef k * (sh.alpha j * sh.alpha k) ^ (1 / 2 * ((sh.am : ℝ) + 3 / 2)) /
        (sh.alpha j + sh.alpha k) ^ ((sh.am : ℝ) + 3 / 2) := by
  unfold normSum
  simp only [foldl_add_range, realBoys, zero_add]

theorem primNorm_overlap {sh : Shell ℝ} (hp : sh.Pos) {e : Exp}
    (hl : e.x.toNat + e.y.toNat + e.z.toNat = sh.am) :
    overlapInt (primNorm sh) (primNorm sh) e e =
      π * √π / 2 ^ sh.am * (oddFac e.x.toNat * oddFac e.y.toNat * oddFac e.z.toNat) *
        normSum realBoys sh := by
  have hp' : (primNorm sh).Pos := hp
  rw [overlapInt_eq hp' hp', normSum_eq, Finset.mul_sum]
  refine Finset.sum_congr rfl fun j hj => ?_
  rw [Finset.mul_sum]
  refine Finset.sum_congr rfl fun k hk => ?_
  have hj' := hp j (Finset.mem_range.1 hj)
  have hk' := hp k (Finset.mem_range.1 hk)
  simp only [primNorm]
  rw [overlap_prim_self hj' hk' sh.pos e hl, mul_rpow hj'.le hk'.le, rpow_neg (add_pos hj' hk').le]
  ring

theorem contrG_cont (sh : Shell ℝ) (e : Exp) : Continuous fun r : R3 => contrG sh e r.dir := by
  unfold contrG
  simp only [primG_eq]
  unfold gauss1 R3.dir
  fun_prop

theorem overlap_pos {sh : Shell ℝ} (hp : sh.Pos) {e : Exp} {r : R3} (h : contrG sh e r.dir ≠ 0) :
    0 < overlapInt sh sh e e := by
  unfold overlapInt
  have hi : Integrable fun r : R3 => contrG sh e r.dir * contrG sh e r.dir := by
    unfold contrG
    simp only [Finset.sum_mul_sum]
    refine integrable_finset_sum _ fun i hi => integrable_finset_sum _ fun j hj => ?_
    refine ((overlap_prim_integrable (hp i (Finset.mem_range.1 hi)) (hp j (Finset.mem_range.1 hj))
      sh.pos sh.pos e e).const_mul (sh.coef i * sh.coef j)).congr (Filter.Eventually.of_forall fun r => ?_)
    simp only
    ring
  rw [integral_pos_iff_support_of_nonneg (fun r => mul_self_nonneg _) hi]
  have hc := contrG_cont sh e
  have ho : IsOpen (Function.support fun r : R3 => contrG sh e r.dir * contrG sh e r.dir) :=
    (hc.mul hc).isOpen_support
  exact ho.measure_pos volume ⟨r, by simpa using h⟩

/-! ## Table -/

def chkNorm (l : ℕ) : Bool :=
  let N := normFacN.getD l 0 * 2 ^ l * 10 ^ 23
  let lo := oddFac l * (314159265358979323846 * 177245385090551602729)
  let hi := oddFac l * (314159265358979323847 * 177245385090551602731)
  Nat.ble N (lo + lo / (2 * 10 ^ 17)) && Nat.ble hi (N + lo / (2 * 10 ^ 17))

theorem norms_checked : ∀ l < 21, chkNorm l = true := by decide +kernel

theorem normFac_ok {l : ℕ} (hl : l < 21) :
    |(normFacN.getD l 0 : ℝ) / 10 ^ 17 - normFacExact l| ≤ normFacExact l / (2 * 10 ^ 17) := by
  have h := norms_checked l hl
  simp only [chkNorm, Bool.and_eq_true, Nat.ble_eq] at h
  obtain ⟨h1, h2⟩ := h
  generalize normFacN.getD l 0 = N at *
  unfold normFacExact
  generalize oddFac l = D at *
  have h1' : ((N * 2 ^ l * 10 ^ 23 : ℕ) : ℝ) ≤ _ := Nat.cast_le.2 h1
  have h2' := Nat.cast_le (α := ℝ).2 h2
  rw [Nat.cast_add] at h1' h2'
  have hd : ((D * (314159265358979323846 * 177245385090551602729) / (2 * 10 ^ 17) : ℕ) : ℝ) ≤
      D * (314159265358979323846 * 177245385090551602729) / (2 * 10 ^ 17) :=
    (Nat.cast_div_le (α := ℝ)).trans_eq (by push_cast; ring)
  generalize ((D * (314159265358979323846 * 177245385090551602729) / (2 * 10 ^ 17) : ℕ) : ℝ) = q at *
  push_cast at h1' h2'
  obtain ⟨b1, b2⟩ := sqrt_pi_bounds
  have c1 : (3.14159265358979323846 : ℝ) * 1.77245385090551602729 ≤ π * √π :=
    mul_le_mul pi_gt_d20.le b1.le (by norm_num) pi_pos.le
  have c2 : π * √π ≤ (3.14159265358979323847 : ℝ) * 1.77245385090551602731 :=
    mul_le_mul pi_lt_d20.le b2.le (sqrt_nonneg _) (by norm_num)
  have hD : (0 : ℝ) ≤ D := Nat.cast_nonneg D
  have d1 := mul_le_mul_of_nonneg_left c1 hD
  have d2 := mul_le_mul_of_nonneg_left c2 hD
  rw [mul_comm (π * √π) (D : ℝ)]
  generalize (D : ℝ) * (π * √π) = E at *
  have hp : (0 : ℝ) < 2 ^ l := by positivity
  have e : (N : ℝ) / 10 ^ 17 = N * 2 ^ l * 10 ^ 23 / 10 ^ 40 / 2 ^ l := by
    field_simp
  rw [e, ← sub_div, abs_div, abs_of_pos hp, div_right_comm]
  refine div_le_div_of_nonneg_right ?_ hp.le
  rw [abs_le]
  constructor <;> linarith

/-! ## Gaussians with different exponents are independent -/

/-- `t ↦ exp(-a t)` for `t ≥ 0`. -/
noncomputable def expHom (a : ℝ) : Multiplicative NNReal →* ℝ where
  toFun t := exp (-a * (t.toAdd : ℝ))
  map_one' := by simp
  map_mul' s t := by simp [mul_add, exp_add]

theorem expHom_inj : Function.Injective expHom := by
  intro a b h
  have := congrArg (fun f : Multiplicative NNReal →* ℝ => f (Multiplicative.ofAdd 1)) h
  simpa [expHom] using this

theorem gauss_indep {n : ℕ} {a c : ℕ → ℝ} (hinj : ∀ i < n, ∀ j < n, a i = a j → i = j)
    (h : ∀ t : ℝ, 0 ≤ t → ∑ i ∈ Finset.range n, c i * exp (-a i * t) = 0) : ∀ i < n, c i = 0 := by
  have hi : Function.Injective fun i : Fin n => expHom (a i) := fun i j h =>
    Fin.ext (hinj i i.2 j j.2 (expHom_inj h))
  have := (linearIndependent_monoidHom (Multiplicative NNReal) ℝ).comp _ hi
  rw [Fintype.linearIndependent_iff] at this
  intro i hin
  refine this (fun i => c i) ?_ ⟨i, hin⟩
  funext t
  have := h (t.toAdd : ℝ) t.toAdd.2
  rw [Finset.sum_range] at this
  simpa [expHom] using this

theorem contr_ne_zero {sh : Shell ℝ} (hd : ∀ i < sh.nprim, ∀ j < sh.nprim, sh.alpha i = sh.alpha j → i = j)
    (hc : ∃ i < sh.nprim, sh.coef i ≠ 0) (e : Exp) : ∃ r : R3, contrG sh e r.dir ≠ 0 := by
  by_contra hn
  push Not at hn
  obtain ⟨i, hi, hci⟩ := hc
  refine hci ?_
  have := gauss_indep (c := fun i => sh.coef i * exp (-sh.alpha i)) hd ?_ i hi
  · simpa using this
  intro t ht
  have h := hn (sh.pos .x + √((t + 1) / 3), sh.pos .y + √((t + 1) / 3), sh.pos .z + √((t + 1) / 3))
  have hs : √((t + 1) / 3) ^ 2 = (t + 1) / 3 := sq_sqrt (by positivity)
  have hs0 : √((t + 1) / 3) ≠ 0 := (sqrt_pos.2 (by positivity)).ne'
  generalize √((t + 1) / 3) = s at *
  have key : ∀ α : ℝ, primG α sh.pos e (R3.dir (sh.pos .x + s, sh.pos .y + s, sh.pos .z + s)) =
      s ^ (e.x.toNat + e.y.toNat + e.z.toNat) * (exp (-α) * exp (-α * t)) := by
    intro α
    rw [primG_eq]
    simp only [gauss1, R3.dir, add_sub_cancel_left, hs]
    rw [← exp_add, show -α + -α * t = -α * ((t + 1) / 3) + -α * ((t + 1) / 3) + -α * ((t + 1) / 3) by ring,
      exp_add, exp_add, pow_add, pow_add]
    ring
  simp only [contrG, key] at h
  have h' : s ^ (e.x.toNat + e.y.toNat + e.z.toNat) *
      ∑ i ∈ Finset.range sh.nprim, sh.coef i * exp (-sh.alpha i) * exp (-sh.alpha i * t) = 0 := by
    rw [← h, Finset.mul_sum]
    exact Finset.sum_congr rfl fun _ _ => by ring
  exact (mul_eq_zero.1 h').resolve_left (pow_ne_zero _ hs0)

end Simint
