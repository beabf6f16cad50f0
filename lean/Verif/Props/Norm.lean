import Verif.NormLemmas

/-!
# C63: normalisation of shells
-/

set_option autoImplicit false

open MeasureTheory Real

namespace Simint

/-- Every entry of `norm_fac` is `π^(3/2) (2l-1)!! / 2^l` up to half a unit of the 17th digit. -/
theorem C63_table {l : ℕ} (hl : l ≤ 20) : ∃ v : ℝ, normFacGet l = some v ∧
    |v - π * √π * oddFac l / 2 ^ l| ≤ π * √π * oddFac l / 2 ^ l / (2 * 10 ^ 17) :=
  ⟨_, by rw [normFacGet, if_pos (by omega)], normFac_ok (by omega)⟩

/-- The shell after multiplication by `N` and the norms of the primitives. -/
noncomputable def scaled (sh : Shell ℝ) (N : ℝ) : Shell ℝ :=
  { sh with
    coef := fun j =>
      if j < sh.nprim then sh.coef j * (N * sh.alpha j ^ (1 / 2 * ((sh.am : ℝ) + 3 / 2))) else sh.coef j }

theorem scaled_contr (sh : Shell ℝ) (N : ℝ) (e : Exp) (r : Dir → ℝ) :
    contrG (scaled sh N) e r = N * contrG (primNorm sh) e r := by
  unfold contrG
  rw [Finset.mul_sum]
  refine Finset.sum_congr rfl fun j hj => ?_
  have hj' : j < sh.nprim := Finset.mem_range.1 hj
  simp only [scaled, if_pos hj', primNorm]
  ring

theorem normalize_of_pos {sh : Shell ℝ} (hp : sh.Pos) (hl : sh.am ≤ 20) {e0 : Exp}
    (he0 : e0.x.toNat + e0.y.toNat + e0.z.toNat = sh.am)
    (hne : ∃ r : R3, contrG (primNorm sh) e0 r.dir ≠ 0) :
    ∃ sh', normalizeShell realBoys sh = some sh' ∧ sh'.am = sh.am ∧ sh'.nprim = sh.nprim ∧
      sh'.pos = sh.pos ∧ sh'.alpha = sh.alpha ∧
      (∃ N : ℝ, 0 < N ∧ ∀ j < sh.nprim, sh'.coef j = N * (primNorm sh).coef j) ∧
      ∀ e : Exp, e.x.toNat + e.y.toNat + e.z.toNat = sh.am →
        |overlapInt sh' sh' e e - compRatio sh.am e| ≤ compRatio sh.am e / 10 ^ 17 := by
  obtain ⟨r, hr⟩ := hne
  have hp' : (primNorm sh).Pos := hp
  have hpos := overlap_pos hp' hr
  rw [primNorm_overlap hp he0] at hpos
  have hsum : 0 < normSum realBoys sh := by
    refine pos_of_mul_pos_right hpos ?_
    positivity
  obtain ⟨v, hv, hacc⟩ := C63_table hl
  have hX : 0 < normFacExact sh.am := by
    have : 0 < oddFac sh.am := Nat.doubleFactorial_pos _
    unfold normFacExact
    positivity
  change |v - normFacExact sh.am| ≤ normFacExact sh.am / (2 * 10 ^ 17) at hacc
  have hacc' := abs_le.1 hacc
  have hvpos : 0 < v := by
    have : normFacExact sh.am / (2 * 10 ^ 17) < normFacExact sh.am := div_lt_self hX (by norm_num)
    linarith [hacc'.1]
  have hsh : normalizeShell realBoys sh = some (scaled sh (1 / √(normSum realBoys sh * v))) := by
    rw [normalizeShell, hv]
    rfl
  refine ⟨_, hsh, rfl, rfl, rfl, rfl,
    ⟨1 / √(normSum realBoys sh * v), by positivity, fun j hj => ?_⟩, fun e he => ?_⟩
  · simp only [scaled, if_pos hj, primNorm]
    ring
  · set N := 1 / √(normSum realBoys sh * v) with hN
    have hN2 : N * N = 1 / (normSum realBoys sh * v) := by
      rw [hN, div_mul_div_comm, mul_self_sqrt (by positivity), one_mul]
    have hov : overlapInt (scaled sh N) (scaled sh N) e e =
        compRatio sh.am e * (normFacExact sh.am / v) := by
      have : ∀ r : R3, N * contrG (primNorm sh) e r.dir * (N * contrG (primNorm sh) e r.dir) =
          N * N * (contrG (primNorm sh) e r.dir * contrG (primNorm sh) e r.dir) := fun r => by ring
      rw [overlapInt]
      simp only [scaled_contr, this]
      rw [integral_const_mul, ← overlapInt, primNorm_overlap hp he, hN2, compRatio, normFacExact]
      have : (oddFac sh.am : ℝ) ≠ 0 := Nat.cast_ne_zero.2 (Nat.doubleFactorial_pos _).ne'
      push_cast
      field_simp
    rw [hov]
    have hR : 0 ≤ compRatio sh.am e := by unfold compRatio; positivity
    rw [show compRatio sh.am e * (normFacExact sh.am / v) - compRatio sh.am e =
      compRatio sh.am e * ((normFacExact sh.am - v) / v) by field_simp, abs_mul, abs_of_nonneg hR,
      div_eq_mul_one_div (compRatio sh.am e)]
    refine mul_le_mul_of_nonneg_left ?_ hR
    rw [abs_div, abs_of_pos hvpos, div_le_iff₀ hvpos, abs_sub_comm]
    refine hacc.trans ?_
    linarith [hacc'.1]

/-- A shell with distinct exponents and some coefficient that is not zero, of angular momentum up to
20, is multiplied by one positive factor on top of the norms of its primitives, and its components have the
norms of a normalised shell.  Other fields do not change. -/
theorem C63_normalized {sh : Shell ℝ} (hp : sh.Pos) (hl : sh.am ≤ 20) (hi : sh.Indep) :
    ∃ sh', normalizeShell realBoys sh = some sh' ∧ sh'.am = sh.am ∧ sh'.nprim = sh.nprim ∧
      sh'.pos = sh.pos ∧ sh'.alpha = sh.alpha ∧
      (∃ N : ℝ, 0 < N ∧ ∀ j < sh.nprim, sh'.coef j = N * (primNorm sh).coef j) ∧
      ∀ e : Exp, e.x.toNat + e.y.toNat + e.z.toNat = sh.am →
        |overlapInt sh' sh' e e - compRatio sh.am e| ≤ compRatio sh.am e / 10 ^ 17 := by
  refine normalize_of_pos hp hl (e0 := ⟨sh.am, 0, 0⟩) (by simp) (contr_ne_zero (sh := primNorm sh) hi.1 ?_ _)
  obtain ⟨i, h, hc⟩ := hi.2
  exact ⟨i, h, mul_ne_zero hc (rpow_pos_of_pos (hp i h) _).ne'⟩

/-- The norm of the first component is 1. -/
theorem C63_unit {sh : Shell ℝ} (hp : sh.Pos) (hl : sh.am ≤ 20) (hi : sh.Indep) :
    ∃ sh', normalizeShell realBoys sh = some sh' ∧
      |overlapInt sh' sh' ⟨sh.am, 0, 0⟩ ⟨sh.am, 0, 0⟩ - 1| ≤ 1 / 10 ^ 17 := by
  obtain ⟨sh', h, -, -, -, -, -, ho⟩ := C63_normalized hp hl hi
  have := ho ⟨sh.am, 0, 0⟩ (by simp)
  have hr : compRatio sh.am ⟨sh.am, 0, 0⟩ = 1 := by
    have : (oddFac sh.am : ℝ) ≠ 0 := Nat.cast_ne_zero.2 (Nat.doubleFactorial_pos _).ne'
    have h0 : oddFac 0 = 1 := rfl
    simp only [compRatio, Int.toNat_natCast, Int.toNat_zero, h0, mul_one]
    exact div_self this
  rw [hr] at this
  exact ⟨sh', h, this⟩

/-- A shell of angular momentum 21 or more makes the function read past the end of `norm_fac`. -/
theorem C63_outside {sh : Shell ℝ} (hl : 20 < sh.am) : normalizeShell realBoys sh = none := by
  rw [normalizeShell, normFacGet, if_neg (by omega)]
  rfl

/-- Every shell of the array is handled by itself. -/
theorem C63_array {F : Type} [Field F] (ops : BoysOps F) (G : List (Shell F)) (G' : List (Shell F)) :
    normalizeShells ops G = some G' ↔ List.Forall₂ (fun s s' => normalizeShell ops s = some s') G G' := by
  unfold normalizeShells
  induction G generalizing G' with
  | nil => cases G' <;> simp
  | cons s G ih =>
    cases G' with
    | nil => simp [List.mapM_cons, Option.bind_eq_some_iff]
    | cons s' G' =>
      rw [List.forall₂_cons, ← ih G']
      simp [List.mapM_cons, Option.bind_eq_some_iff]

/-! ## Cases -/

/-- Two primitives with coefficients of opposite sign, angular momentum 2. -/
noncomputable def demoNorm : Shell ℝ where
  ptr := 1
  am := 2
  nprim := 2
  pos := fun _ => 3
  alpha := fun i => if i = 0 then 5 else 1 / 2
  coef := fun i => if i = 0 then -1 else 2

theorem demoNorm_indep : demoNorm.Indep := by
  refine ⟨?_, 0, by decide, by simp [demoNorm]⟩
  intro i hi j hj h
  simp only [demoNorm] at hi hj h
  split_ifs at h with h1 h2 h2
  · omega
  · norm_num at h
  · norm_num at h
  · omega

theorem demoNorm_pos : demoNorm.Pos := fun i _ => by simp only [demoNorm]; split_ifs <;> norm_num

/-- The component `xy` has square norm 1/3 of that of `xx`. -/
example : ∃ sh', normalizeShell realBoys demoNorm = some sh' ∧
    |overlapInt sh' sh' ⟨1, 1, 0⟩ ⟨1, 1, 0⟩ - 1 / 3| ≤ 1 / 3 / 10 ^ 17 := by
  obtain ⟨sh', h, -, -, -, -, -, ho⟩ := C63_normalized demoNorm_pos (by decide) demoNorm_indep
  have := ho ⟨1, 1, 0⟩ (by decide)
  have hr : compRatio demoNorm.am ⟨1, 1, 0⟩ = 1 / 3 := by
    simp [compRatio, oddFac, demoNorm, Nat.doubleFactorial]
  rw [hr] at this
  exact ⟨sh', h, this⟩

/-- Stand-in operations over the rationals: square root of rational squares 1 and 4, integer powers. -/
def opsNorm : BoysOps ℚ where
  sqrt := fun x => if x = 4 then 2 else 1
  exp := fun _ => 1
  pow := fun x y => x ^ (2 * y).num.toNat
  trunc := fun _ => 0
  lt := fun a b => decide (a < b)

#guard (normalizeShell opsNorm (⟨1, 1, 2, fun _ => 0, fun j => j + 1, fun _ => 1⟩ : Shell ℚ)).isSome
#guard (normalizeShells opsNorm ([⟨1, 20, 1, fun _ => 0, fun _ => 1, fun _ => 1⟩,
  ⟨2, 21, 1, fun _ => 0, fun _ => 1, fun _ => 1⟩] : List (Shell ℚ))).isSome = false
#guard normSum opsNorm (⟨1, 0, 1, fun _ => 0, fun _ => 1, fun _ => 4⟩ : Shell ℚ) = 2

end Simint
