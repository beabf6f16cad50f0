import Verif.Props.Screen

/-!
# C70: the fast screening values

`simint_primscreen_fastschwarz` uses the integral `(ss|ss)` of the exponents and centers for every class.
The comment in shell_screen.h:49-54 says that this is at least as large as the integrals over functions of
higher AM.
-/

set_option autoImplicit false

open Real MeasureTheory Set

namespace Simint

theorem boysF_zero (n : ℕ) : boysF n 0 = 1 / (2 * n + 1) := by
  unfold boysF
  have h : ∀ t : ℝ, t ^ (2 * n) * exp (-0 * t ^ 2) = t ^ (2 * n) := fun t => by simp
  simp only [h]
  rw [← integral_Ioc_eq_integral_Ioo, ← intervalIntegral.integral_of_le zero_le_one, integral_pow]
  simp

theorem rpow_52 {x : ℝ} (hx : 0 < x) : x ^ ((5 : ℝ) / 2) = x ^ 2 * √x := by
  rw [Real.sqrt_eq_rpow, ← Real.rpow_natCast, ← Real.rpow_add hx]
  norm_num

/-- Common factor of the integrals over two pairs with the same exponents and centers. -/
theorem self_factor {p : ℝ} (hp : 0 < p) (e : ℝ) : 2 / √π * e * e * π ^ 3 / (p * p) * √(1 / (p + p)) =
    √2 * π ^ ((5 : ℝ) / 2) * (1 / p) ^ ((5 : ℝ) / 2) * (e * e) := by
  rw [rpow_52 pi_pos, rpow_52 (by positivity : 0 < 1 / p)]
  have h1 : √(1 / (p + p)) = √(1 / p) / √2 := by
    rw [← Real.sqrt_div (by positivity)]
    congr 1
    field_simp
    norm_num
  have h2 : √2 * √2 = 2 := Real.mul_self_sqrt (by norm_num)
  have h3 : √π * √π = π := Real.mul_self_sqrt pi_pos.le
  have h4 : 0 < √π := Real.sqrt_pos.2 pi_pos
  have h5 : 0 < √(2 : ℝ) := Real.sqrt_pos.2 (by norm_num)
  rw [h1]
  field_simp
  have e1 : √2 ^ 2 = 2 := by rw [sq, h2]
  have e2 : √π ^ 2 = π := by rw [sq, h3]
  rw [e1, e2]
  ring

section
variable {α β : ℝ} (hα : 0 < α) (hβ : 0 < β) (A B : Dir → ℝ)
include hα hβ

theorem self_R2 : (pairsOf hα hβ hα hβ A B A B).R2 = 0 := by
  simp [Pairs.R2, pairsOf]

/-- `(ss|ss)` of a pair with itself. -/
theorem self_s : coulomb α β α β A B A B ⟨0, 0, 0⟩ ⟨0, 0, 0⟩ ⟨0, 0, 0⟩ ⟨0, 0, 0⟩ =
    √2 * π ^ ((5 : ℝ) / 2) * (1 / (α + β)) ^ ((5 : ℝ) / 2) *
      exp (-2 * (α * β / (α + β)) * dist2 A B) := by
  rw [← C20_coulomb hα hβ hα hβ, C20_start, self_R2, zero_mul, boysF_zero]
  have hp : 0 < α + β := by positivity
  have h := self_factor hp (exp (-(α * β / (α + β)) * dist2 A B))
  rw [← Real.exp_add] at h
  show _ / ((α + β) * (α + β)) * √(1 / (α + β + (α + β))) * _ = _
  rw [h]
  norm_num
  left
  ring

/-- `(xs|xs)` on one center is `(ss|ss) / (12 p)`. -/
theorem self_p : coulomb α β α β A A A A ⟨1, 0, 0⟩ ⟨0, 0, 0⟩ ⟨1, 0, 0⟩ ⟨0, 0, 0⟩ =
    coulomb α β α β A A A A ⟨0, 0, 0⟩ ⟨0, 0, 0⟩ ⟨0, 0, 0⟩ ⟨0, 0, 0⟩ / (12 * (α + β)) := by
  have hp : 0 < α + β := by positivity
  rw [← C20_coulomb hα hβ hα hβ, ← C20_coulomb hα hβ hα hβ]
  set K := 2 / √π * exp (-(α * β / (α + β)) * dist2 A A) * exp (-(α * β / (α + β)) * dist2 A A)
  have hv := (C20_vertical (pairsOf hα hβ hα hβ A A A A) K).I 0 ⟨0, 0, 0⟩ ⟨0, 0, 0⟩ ⟨1, 0, 0⟩ ⟨0, 0, 0⟩ .x
    (by decide) (by decide) (by decide) (by decide)
  have hPA : (pairsOf hα hβ hα hβ A A A A).par.PA .x = 0 := by
    simp only [Pairs.par, pairsOf]
    field_simp
    ring
  have hPQ : (pairsOf hα hβ hα hβ A A A A).par.aopPQ .x = 0 := by
    simp [Pairs.par, pairsOf]
  have ho : (pairsOf hα hβ hα hβ A A A A).par.o2pq = 1 / (4 * (α + β)) := by
    simp only [Pairs.par, pairsOf]
    field_simp
    norm_num
  rw [hPA, hPQ, ho] at hv
  simp only [Exp.step, Exp.get, zero_mul, Int.cast_zero, add_zero, zero_add, Int.cast_one, one_mul] at hv
  have e0 : (⟨1 + -1, 0, 0⟩ : Exp) = ⟨0, 0, 0⟩ := by decide
  rw [hv, e0, C20_start, C20_start, self_R2, zero_mul, boysF_zero, boysF_zero]
  field_simp
  norm_num
  ring

end

/-- **C70, value.** The fast value is the integral `(ss|ss)` over the primitives, whatever the AM. -/
theorem C70_value {A B : Shell ℝ} (hA : A.OK) (hB : B.OK) {i j : ℕ} (hi : i < A.nprim) (hj : j < B.nprim) :
    fastVal A B i j = (A.coef i * B.coef j) ^ 2 *
      coulomb (A.alpha i) (B.alpha j) (A.alpha i) (B.alpha j) A.pos B.pos A.pos B.pos ⟨0, 0, 0⟩ ⟨0, 0, 0⟩
        ⟨0, 0, 0⟩ ⟨0, 0, 0⟩ := by
  rw [self_s (hA.2 i hi) (hB.2 j hj)]
  unfold fastVal
  have e : (A.pos .x - B.pos .x) * (A.pos .x - B.pos .x) + (A.pos .y - B.pos .y) * (A.pos .y - B.pos .y) +
      (A.pos .z - B.pos .z) * (A.pos .z - B.pos .z) = dist2 A.pos B.pos := by unfold dist2; ring
  simp only
  rw [e]
  ring

theorem fastVal_pos {A B : Shell ℝ} (hA : A.OK) (hB : B.OK) {i j : ℕ} (hi : i < A.nprim) (hj : j < B.nprim)
    (ha : A.coef i ≠ 0) (hb : B.coef j ≠ 0) : 0 < fastVal A B i j := by
  have h1 := hA.2 i hi
  have h2 := hB.2 j hj
  rw [C70_value hA hB hi hj, self_s h1 h2]
  have : 0 < (A.coef i * B.coef j) ^ 2 := by positivity
  have hp : 0 < 1 / (A.alpha i + B.alpha j) := by positivity
  have := Real.rpow_pos_of_pos hp (5 / 2)
  have := Real.rpow_pos_of_pos pi_pos (5 / 2)
  positivity

/-- **C70, exact condition for `(ps|ps)` on one center.** The fast value bounds the integral exactly if the
sum of the exponents is at least 1/12. -/
theorem C70_iff {A B : Shell ℝ} (hA : A.OK) (hB : B.OK) (hpos : A.pos = B.pos) {i j : ℕ} (hi : i < A.nprim)
    (hj : j < B.nprim) (ha : A.coef i ≠ 0) (hb : B.coef j ≠ 0) :
    (A.coef i * B.coef j) ^ 2 * coulomb (A.alpha i) (B.alpha j) (A.alpha i) (B.alpha j) A.pos B.pos A.pos B.pos
      ⟨1, 0, 0⟩ ⟨0, 0, 0⟩ ⟨1, 0, 0⟩ ⟨0, 0, 0⟩ ≤ fastVal A B i j ↔ 1 / 12 ≤ A.alpha i + B.alpha j := by
  have h1 := hA.2 i hi
  have h2 := hB.2 j hj
  have hf := fastVal_pos hA hB hi hj ha hb
  have hv := C70_value hA hB hi hj
  rw [← hpos] at hv ⊢
  rw [self_p h1 h2, ← mul_div_assoc, ← hv, div_le_iff₀ (by positivity)]
  constructor
  · intro h
    have : 1 ≤ 12 * (A.alpha i + B.alpha j) := by
      by_contra h'
      push_neg at h'
      nlinarith
    linarith
  · intro h
    nlinarith

/-- One primitive with exponent `a` and coefficient `c` at the origin. -/
noncomputable def unitShell (ptr am : ℕ) (a c : ℝ) : Shell ℝ := ⟨ptr, am, 1, fun _ => 0, fun _ => a, fun _ => c⟩

theorem unitShell_ok (ptr am : ℕ) {a : ℝ} (h : 0 < a) (c : ℝ) : (unitShell ptr am a c).OK :=
  ⟨Nat.one_pos, fun _ _ => h⟩

theorem unitShell_faithful {p q : ℕ} (h : p ≠ q) (am am' : ℕ) (a b c d : ℝ) :
    Faithful (unitShell p am a c) (unitShell q am' b d) := by
  intro hs
  simp [sameShell, unitShell, h] at hs

/-- **C70, the documented inequality is false.** For every factor there are exponents for which the
integral `(xs|xs)` over a p shell and an s shell on one center exceeds the fast value by that factor,
whatever the coefficients. -/
theorem C70_not_bound (M : ℝ) : ∃ a : ℝ, 0 < a ∧ ∀ c : ℝ, c ≠ 0 →
    M * fastVal (unitShell 1 1 a c) (unitShell 2 0 a 1) 0 0 <
      shellERI (unitShell 1 1 a c) (unitShell 2 0 a 1) (unitShell 1 1 a c) (unitShell 2 0 a 1)
        ⟨1, 0, 0⟩ ⟨0, 0, 0⟩ ⟨1, 0, 0⟩ ⟨0, 0, 0⟩ := by
  set a : ℝ := 1 / (24 * (|M| + 1)) with ha'
  have ha : 0 < a := by positivity
  refine ⟨a, ha, fun c hc => ?_⟩
  have hA := unitShell_ok 1 1 ha c
  have hB := unitShell_ok 2 0 ha 1
  have hf := fastVal_pos hA hB (i := 0) (j := 0) Nat.one_pos Nat.one_pos hc one_ne_zero
  have hv := C70_value hA hB (i := 0) (j := 0) Nat.one_pos Nat.one_pos
  have e : shellERI (unitShell 1 1 a c) (unitShell 2 0 a 1) (unitShell 1 1 a c) (unitShell 2 0 a 1)
        ⟨1, 0, 0⟩ ⟨0, 0, 0⟩ ⟨1, 0, 0⟩ ⟨0, 0, 0⟩ =
      fastVal (unitShell 1 1 a c) (unitShell 2 0 a 1) 0 0 / (24 * a) := by
    rw [hv]
    unfold shellERI unitShell
    simp only [Finset.sum_range_one]
    rw [self_p ha ha]
    field_simp
    norm_num
    ring
  rw [e, lt_div_iff₀ (by positivity)]
  have h24 : 24 * a = 1 / (|M| + 1) := by rw [ha']; field_simp
  have hM := le_abs_self M
  have h1 : M * (24 * a) < 1 := by
    rw [h24, mul_one_div, div_lt_one (by positivity)]
    linarith
  nlinarith

/-- **C70, s shells.** Between s shells the fast values satisfy the bound that C68 proves for the other
method. -/
theorem C70_s_bounding {A B : Shell ℝ} (hA : A.OK) (hB : B.OK) :
    Bounding fastVal A B ⟨0, 0, 0⟩ ⟨0, 0, 0⟩ :=
  fun _ hi _ hj => (C70_value hA hB hi hj).ge

/-- **C70, error for s shells.** The statement of `C68_error_partial` for four s shells and the fast
values, without the condition on the stores. -/
theorem C70_error_partial (L : LibCfg) (hL : L.OK) (sh : ShCfg) (hl : 0 < sh.len) (hsc : sh.screening = true)
    (big : ℝ) (psP psQ : List (Shell ℝ × Shell ℝ)) (hP : PairsOK psP) (hQ : PairsOK psQ)
    (nP : 0 < psP.length) (nQ : 0 < psQ.length)
    (hbra : BatchesFull sh.len psP) (memP memQ : ℕ → ℝ) (tol : ℝ) (htol : 0 < tol) (outSize : ℕ)
    (hout : psP.length * psQ.length ≤ outSize) (junk : VPar ℝ)
    (scratch : ℕ → ℕ → ℕ → VMem ℝ) (junkAB : Dir → ℕ → ℝ) (hmem : HMem ℝ) (out : ℕ → ℝ) :
    ∃ P Q r, completeList sh realShOps (fastSchwarz fastVal) big psP memP = some P ∧
      completeList sh realShOps (fastSchwarz fastVal) big psQ memQ = some Q ∧
      L.computeOstei realOps ⟨0, 0, 0, 0, ""⟩ ⟨⟨sh.len, P.1, Q.1, tol, outSize, junk, scratch⟩, psP.length,
        psQ.length, junkAB⟩ hmem out = some r ∧
      (r.ret = -1 ∧ r.out = out ∧
        (∀ ab (hab : ab < psP.length) cd (hcd : cd < psQ.length),
          |shellERI psP[ab].1 psP[ab].2 psQ[cd].1 psQ[cd].2 ⟨0, 0, 0⟩ ⟨0, 0, 0⟩ ⟨0, 0, 0⟩ ⟨0, 0, 0⟩| ≤
            (psP[ab].1.nprim * psP[ab].2.nprim) * (psQ[cd].1.nprim * psQ[cd].2.nprim) * tol) ∨
      r.ret = psP.length * psQ.length ∧
        (∀ ab (hab : ab < psP.length) cd (hcd : cd < psQ.length),
          |r.out (ab * psQ.length + cd) -
            shellERI psP[ab].1 psP[ab].2 psQ[cd].1 psQ[cd].2 ⟨0, 0, 0⟩ ⟨0, 0, 0⟩ ⟨0, 0, 0⟩ ⟨0, 0, 0⟩| ≤
            (psP[ab].1.nprim * psP[ab].2.nprim) * (psQ[cd].1.nprim * psQ[cd].2.nprim) * tol) ∧
        ∀ k, psP.length * psQ.length ≤ k → r.out k = out k) := by
  have hz : ∀ x : Exp, x.Valid → x.am = 0 → x = ⟨0, 0, 0⟩ := by
    rintro ⟨x, y, z⟩ ⟨h1, h2, h3⟩ h
    simp only [Exp.am] at h1 h2 h3 h
    simp only [Exp.mk.injEq]
    omega
  have hn : ncartQ ⟨0, 0, 0, 0, ""⟩ = 1 := by decide
  have hi : Qrt.index psi4List ⟨⟨⟨0, 0, 0⟩, ⟨0, 0, 0⟩⟩, ⟨⟨0, 0, 0⟩, ⟨0, 0, 0⟩⟩, 0⟩ = 0 := by decide
  have hb : ∀ ps : List (Shell ℝ × Shell ℝ), PairsOK ps → ∀ p ∈ ps, ∀ x y : Exp, x.Valid → y.Valid →
      x.am = 0 → y.am = 0 → Bounding fastVal p.1 p.2 x y := by
    intro ps hps p hp x y vx vy ex ey
    rw [hz x vx ex, hz y vy ey]
    exact C70_s_bounding (hps p hp).1 (hps p hp).2.1
  obtain ⟨P, Q, r, h1, h2, h3, h4⟩ := screened_error L hL (am := ⟨0, 0, 0, 0, ""⟩)
    ⟨rfl, by unfold QAM.Valid; decide, by simp, by simp, by simp, by simp⟩ (by decide) sh hl hsc fastVal
    (fun A B i j hA hB hi hj => by
      rw [C70_value hA hB hi hj]
      exact mul_nonneg (sq_nonneg _) (coulomb_self_nonneg (hA.2 i hi) (hB.2 j hj) _ _ _ _)) big psP psQ hP hQ
    (hb psP hP) (hb psQ hQ) nP nQ hbra memP memQ tol htol outSize (by rw [hn, mul_one]; exact hout) junk scratch
    junkAB hmem out
  rw [hn] at h4
  refine ⟨P, Q, r, h1, h2, h3, ?_⟩
  rcases h4 with ⟨a, b, c⟩ | ⟨a, b, c⟩
  · exact Or.inl ⟨a, b, fun ab hab cd hcd => c ab hab cd hcd _ _ _ _ (by decide) (by decide) (by decide) (by decide)
      rfl rfl rfl rfl⟩
  · refine Or.inr ⟨a, fun ab hab cd hcd => ?_, fun k hk => c k (by omega)⟩
    have := b ab hab cd hcd ⟨0, 0, 0⟩ ⟨0, 0, 0⟩ ⟨0, 0, 0⟩ ⟨0, 0, 0⟩ (by decide) (by decide) (by decide) (by decide)
      rfl rfl rfl rfl
    rwa [hi, mul_one, add_zero] at this

/-- `n` equal primitives. -/
noncomputable def equalShell (ptr n : ℕ) : Shell ℝ := ⟨ptr, 0, n, fun _ => 0, fun _ => 1, fun _ => 1⟩

theorem foldl_add_const {α : Type} (l : List α) (f : α → ℝ) (s : ℝ) :
    l.foldl (fun v p => v + f p) s = s + (l.map f).sum := by
  induction l generalizing s with
  | nil => simp
  | cons a l ih => simp [ih, add_assoc]

/-- **C69, the fast method.** `simint_shellscreen_fastschwarz` leaves out the products of different
primitives: for a shell of `n` equal primitives and a shell of one, its value is `n (ss|ss)`, while the
integral is `n² (ss|ss)`. -/
theorem C69_fast (n : ℕ) (hn : 0 < n) :
    0 < fastVal (equalShell 1 n) (equalShell 2 1) 0 0 ∧
    fastShell (equalShell 1 n) (equalShell 2 1) = n * fastVal (equalShell 1 n) (equalShell 2 1) 0 0 ∧
    shellERI (equalShell 1 n) (equalShell 2 1) (equalShell 1 n) (equalShell 2 1) ⟨0, 0, 0⟩ ⟨0, 0, 0⟩ ⟨0, 0, 0⟩
      ⟨0, 0, 0⟩ = n ^ 2 * fastVal (equalShell 1 n) (equalShell 2 1) 0 0 := by
  have hA : (equalShell 1 n).OK := ⟨hn, fun _ _ => one_pos⟩
  have hB : (equalShell 2 1).OK := ⟨Nat.one_pos, fun _ _ => one_pos⟩
  refine ⟨fastVal_pos hA hB hn Nat.one_pos one_ne_zero one_ne_zero, ?_, ?_⟩
  · unfold fastShell
    rw [foldl_add_const (primOrder _ _) (fun p => fastVal (equalShell 1 n) (equalShell 2 1) p.1 p.2), zero_add,
      primOrder_sum _ _ (fun i j => fastVal (equalShell 1 n) (equalShell 2 1) i j)]
    have hs : sameShell (equalShell 1 n) (equalShell 2 1) = false := by simp [sameShell, equalShell]
    rw [hs]
    simp only [Bool.false_eq_true, if_false]
    show ∑ i ∈ Finset.range n, ∑ j ∈ Finset.range 1, fastVal (equalShell 1 n) (equalShell 2 1) i j = _
    simp only [Finset.sum_range_one]
    have : ∀ i, fastVal (equalShell 1 n) (equalShell 2 1) i 0 = fastVal (equalShell 1 n) (equalShell 2 1) 0 0 :=
      fun i => rfl
    simp only [this, Finset.sum_const, Finset.card_range, nsmul_eq_mul]
  · rw [C70_value hA hB hn Nat.one_pos]
    unfold shellERI equalShell
    simp only [Finset.sum_range_one, Finset.sum_const, Finset.card_range, nsmul_eq_mul]
    ring

/-- The bound of the fast method for shells is false already for s shells: two equal primitives. -/
theorem C69_fast_not_bound : ∃ A B : Shell ℝ, A.OK ∧ B.OK ∧ Faithful A B ∧ A.am = 0 ∧ B.am = 0 ∧
    fastShell A B * fastShell A B <
      shellERI A B A B ⟨0, 0, 0⟩ ⟨0, 0, 0⟩ ⟨0, 0, 0⟩ ⟨0, 0, 0⟩ ^ 2 := by
  obtain ⟨h0, h1, h2⟩ := C69_fast 2 (by norm_num)
  refine ⟨equalShell 1 2, equalShell 2 1, ⟨by decide, fun _ _ => one_pos⟩, ⟨by decide, fun _ _ => one_pos⟩, ?_,
    rfl, rfl, ?_⟩
  · intro hs
    simp [sameShell, equalShell] at hs
  · rw [h1, h2]
    push_cast
    nlinarith

/-- **C69, the fast method, partial.** With one primitive in each shell and s shells the value is the
integral. -/
theorem C69_fast_partial {A B : Shell ℝ} (hA : A.OK) (hB : B.OK) (n1 : A.nprim = 1) (n2 : B.nprim = 1) :
    fastShell A B = shellERI A B A B ⟨0, 0, 0⟩ ⟨0, 0, 0⟩ ⟨0, 0, 0⟩ ⟨0, 0, 0⟩ := by
  unfold fastShell
  rw [foldl_add_const (primOrder _ _) (fun p => fastVal A B p.1 p.2), zero_add,
    primOrder_sum _ _ (fun i j => fastVal A B i j), n1, n2]
  have : (if sameShell A B = true then 0 + 1 else 1) = 1 := by split <;> rfl
  simp only [Finset.sum_range_one, this]
  rw [C70_value hA hB (by omega) (by omega)]
  unfold shellERI
  simp only [n1, n2, Finset.sum_range_one]
  ring

/-- **C70, consequence.** Lists filled with the fast values: for every factor there are a p shell and an s
shell, and a tolerance, for which `simint_compute_ostei` returns normally, stores zero for `(xs|xs)`, and
the integral exceeds the tolerance by that factor. -/
theorem C70_lost (L : LibCfg) (hL : L.OK) (hu : 1 ≤ L.use) (M : ℝ) {big : ℝ} (hbig : 0 < big) (memP memQ : ℕ → ℝ) (junk : VPar ℝ)
    (scratch : ℕ → ℕ → ℕ → VMem ℝ) (junkAB : Dir → ℕ → ℝ) (hmem : HMem ℝ) (out : ℕ → ℝ) :
    ∃ a c tol : ℝ, 0 < a ∧ 0 < tol ∧ tol ≤ big ∧ ∃ P Q r,
      completeList ⟨1, true, false⟩ realShOps (fastSchwarz fastVal) big [(unitShell 1 1 a c, unitShell 2 0 a 1)]
        memP = some P ∧
      completeList ⟨1, true, false⟩ realShOps (fastSchwarz fastVal) big [(unitShell 1 1 a c, unitShell 2 0 a 1)]
        memQ = some Q ∧
      L.computeOstei realOps ⟨1, 0, 1, 0, ""⟩ ⟨⟨1, P.1, Q.1, tol, 9, junk, scratch⟩, 1, 1, junkAB⟩ hmem out =
        some r ∧ r.ret = 1 ∧ r.out 0 = 0 ∧
      M * tol < shellERI (unitShell 1 1 a c) (unitShell 2 0 a 1) (unitShell 1 1 a c) (unitShell 2 0 a 1)
        ⟨1, 0, 0⟩ ⟨0, 0, 0⟩ ⟨1, 0, 0⟩ ⟨0, 0, 0⟩ := by
  obtain ⟨a, ha, h⟩ := C70_not_bound (2 * M)
  obtain ⟨c, hc, hle⟩ : ∃ c : ℝ, c ≠ 0 ∧ 2 * fastVal (unitShell 1 1 a c) (unitShell 2 0 a 1) 0 0 ≤ big := by
    set g := fastVal (unitShell 1 1 a 1) (unitShell 2 0 a 1) 0 0
    have hg : 0 < g := fastVal_pos (unitShell_ok 1 1 ha 1) (unitShell_ok 2 0 ha 1) (i := 0) (j := 0) Nat.one_pos
      Nat.one_pos one_ne_zero one_ne_zero
    refine ⟨√(big / (2 * g)), (Real.sqrt_pos.2 (by positivity)).ne', le_of_eq ?_⟩
    have e : fastVal (unitShell 1 1 a √(big / (2 * g))) (unitShell 2 0 a 1) 0 0 =
        √(big / (2 * g)) * √(big / (2 * g)) * g := by
      simp only [g, fastVal, unitShell]
      ring
    rw [e, Real.mul_self_sqrt (by positivity)]
    field_simp
  have h := h c hc
  set A := unitShell 1 1 a c
  set B := unitShell 2 0 a 1
  have hA : A.OK := unitShell_ok 1 1 ha c
  have hB : B.OK := unitShell_ok 2 0 ha 1
  have hf := fastVal_pos hA hB (i := 0) (j := 0) Nat.one_pos Nat.one_pos hc one_ne_zero
  set v := fastVal A B 0 0
  have hps : PairsOK [(A, B)] := by
    intro p hp
    rw [List.mem_singleton] at hp
    subst hp
    exact ⟨hA, hB, unitShell_faithful (by decide) 1 0 a a c 1⟩
  obtain ⟨P, eP, ⟨p1, -, p4, p5, p6, p7⟩, sP, mP⟩ := complete_listScr ⟨1, true, false⟩ Nat.one_pos rfl
    (fastSchwarz fastVal) fastVal (fastSchwarz_exact _) big [(A, B)] hps memP
  obtain ⟨Q, eQ, ⟨q1, -, q4, q5, q6, q7⟩, sQ, mQ⟩ := complete_listScr ⟨1, true, false⟩ Nat.one_pos rfl
    (fastSchwarz fastVal) fastVal (fastSchwarz_exact _) big [(A, B)] hps memQ
  obtain ⟨o, hS, oP⟩ := sP.has p1
  obtain ⟨o', hT, oQ⟩ := sQ.has q1
  have oP := oP 0 (by simp)
  have oQ := oQ 0 (by simp)
  have hord : primOrder A B = [(0, 0)] := rfl
  have o1 : o 0 = [(0, 0)] := List.perm_singleton.1 (hord ▸ oP.perm)
  have o2 : o' 0 = [(0, 0)] := List.perm_singleton.1 (hord ▸ oQ.perm)
  refine ⟨a, c, 2 * v, ha, by linarith, hle, P, Q, ?_⟩
  have hmax := (C45_upper_bound ⟨1, true, false⟩ Nat.one_pos rfl realShOps (fastSchwarz fastVal)
    (fastSchwarz_max _) big hbig.le [(A, B)]).1
  set call : PermCall ℝ := ⟨⟨1, P.1, Q.1, 2 * v, 9, junk, scratch⟩, 1, 1, junkAB⟩ with hcdef
  have hn : ¬ call.toCall.Negligible := by
    rintro ⟨-, h2⟩
    have h2 : P.1.screenMax * Q.1.screenMax < 2 * v * (2 * v) := h2
    rw [mP, mQ] at h2
    nlinarith
  have hco : CallOK ⟨1, 0, 1, 0, ""⟩ call.toCall :=
    ⟨Nat.one_pos, q4, p5, q6, p7, q7, by simp only [hcdef]; rw [p1, q1, List.length_singleton]; decide⟩
  have hst := C25_bra_small (len := 1) Nat.one_pos P.1.nprim12 P.1.nclip (by rw [p1, List.length_singleton]; decide)
  have hS' : Holds P.1 (tightStart P.1.nprim12) (pairIn [(A, B)] o) := by
    refine ⟨hS.count, hS.AB, fun s hs k hk => ?_⟩
    rw [hst s hs]
    exact hS.prims s hs k hk
  obtain ⟨scr, r, h0, hr, hscr, -, -, h1, -⟩ := C64_calls_partial L hL (am := ⟨1, 0, 1, 0, ""⟩)
    ⟨rfl, by unfold QAM.Valid; decide, by simp only; omega, by simp only; omega, by simp only; omega, by simp only; omega⟩
    (by decide) (c := call) hco hS' hT ⟨Nat.one_pos, p1.le⟩ ⟨Nat.one_pos, q1.le⟩ hn hmem out
  refine ⟨r, eP, eQ, h0, ?_, ?_, ?_⟩
  · simp only [hcdef, p1, q1] at hr
    simpa using hr
  · have := h1 0 (by simp only [hcdef]; rw [p1]; simp) 0 (by simp only [hcdef]; rw [q1]; simp) ⟨1, 0, 0⟩ ⟨0, 0, 0⟩
      ⟨1, 0, 0⟩ ⟨0, 0, 0⟩ (by decide) (by decide) (by decide) (by decide) rfl rfl rfl rfl
    have e0 : Qrt.index psi4List ⟨⟨⟨1, 0, 0⟩, ⟨0, 0, 0⟩⟩, ⟨⟨1, 0, 0⟩, ⟨0, 0, 0⟩⟩, 0⟩ = 0 := by decide
    rw [e0] at this
    simp only [zero_mul, add_zero] at this
    rw [this]
    unfold screenedERI
    refine Finset.sum_eq_zero fun k _ => Finset.sum_eq_zero fun l _ => if_neg ?_
    have hk : (k : ℕ) = 0 := by have := k.2; simp [pairIn, o1] at this; exact this
    have hl : (l : ℕ) = 0 := by have := l.2; simp [pairIn, o2] at this; exact this
    rw [hk, hl]
    intro hkept
    refine hkept.2 ⟨by show 0 < 2 * v * (2 * v); nlinarith, ?_⟩
    have s1 := oP.screen 0 (by simp [o1])
    have s2 := oQ.screen 0 (by simp [o2])
    simp only [o1, o2, List.getElem_cons_zero] at s1 s2
    have s3 := hscr 0 (by simp only [hcdef]; rw [q1]; simp) 0 (q4 0 (by rw [q1]; simp))
    have e1 : ∀ f : ℕ → ℝ, vectorMax 1 f = f 0 := fun f => rfl
    show vectorMax 1 (fun n => P.1.screen (tightStart P.1.nprim12 0 + 0) *
      scr ((paddedStart 1 Q.1.nprim12 0 + 0) / 1 * 1 + n)) < 2 * v * (2 * v)
    rw [e1, Nat.div_one, mul_one, add_zero (paddedStart 1 Q.1.nprim12 0 + 0)]
    have s3 : scr (paddedStart 1 Q.1.nprim12 0 + 0) = Q.1.screen (paddedStart 1 Q.1.nprim12 0 + 0) := s3
    rw [s3, hst 0 (by rw [p1]; simp)]
    rw [s1, s2]
    show v * v < _
    nlinarith
  · calc M * (2 * v) = 2 * M * v := by ring
      _ < _ := h

/-- Two diffuse shells with exponents 3/100 and 2/100: the fast value is too small; with exponents 1 it is
not. -/
example : ¬ (((unitShell 1 1 (3 / 100) 1).coef 0 * (unitShell 2 0 (2 / 100) 1).coef 0) ^ 2 *
      coulomb (3 / 100) (2 / 100) (3 / 100) (2 / 100) (fun _ => 0) (fun _ => 0) (fun _ => 0) (fun _ => 0)
        ⟨1, 0, 0⟩ ⟨0, 0, 0⟩ ⟨1, 0, 0⟩ ⟨0, 0, 0⟩ ≤
    fastVal (unitShell 1 1 (3 / 100) 1) (unitShell 2 0 (2 / 100) 1) 0 0) := by
  refine fun h => absurd ((C70_iff (unitShell_ok 1 1 (by norm_num) 1) (unitShell_ok 2 0 (by norm_num) 1) rfl
    Nat.one_pos Nat.one_pos one_ne_zero one_ne_zero).1 h) ?_
  simp only [unitShell]
  norm_num

example : ((unitShell 1 1 1 1).coef 0 * (unitShell 2 0 1 1).coef 0) ^ 2 *
      coulomb 1 1 1 1 (fun _ => 0) (fun _ => 0) (fun _ => 0) (fun _ => 0)
        ⟨1, 0, 0⟩ ⟨0, 0, 0⟩ ⟨1, 0, 0⟩ ⟨0, 0, 0⟩ ≤
    fastVal (unitShell 1 1 1 1) (unitShell 2 0 1 1) 0 0 := by
  refine (C70_iff (unitShell_ok 1 1 (by norm_num) 1) (unitShell_ok 2 0 (by norm_num) 1) rfl
    Nat.one_pos Nat.one_pos one_ne_zero one_ne_zero).2 ?_
  simp only [unitShell]
  norm_num

end Simint
