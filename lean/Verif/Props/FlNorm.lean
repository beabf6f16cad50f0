import Verif.FlNormNear
import Verif.FlRel

/-!
# Rounding errors of normalised shells (C95)
-/

set_option autoImplicit false

open Real MeasureTheory

namespace Simint.FlNorm

open FlBoys (Arith Rounds u ieee rn)

/-- The library function of `ieee`, which rounds correctly, is accurate enough. -/
theorem powOK_ieee (fused : Bool) : PowOK (ieee fused) := by
  intro x p hx lo hi
  have h0 : 0 < x ^ p := rpow_pos_of_pos hx p
  have h := rn_normal (y := x ^ p) (by rwa [abs_of_pos h0])
  rw [abs_of_pos h0] at h
  refine h.trans (mul_le_mul_of_nonneg_right ?_ h0.le)
  unfold u
  norm_num

/-- Exact factor of all coefficients. -/
noncomputable def scale (sh : Shell ℝ) : ℝ := 1 / √(normSq sh sh.coef * normFacExact sh.am)

theorem normFac_range : ∀ l < 21, 2 * 10 ^ 17 ≤ normFacN.getD l 0 ∧ normFacN.getD l 0 ≤ 2 ^ 61 * 10 ^ 17 := by
  decide +kernel

theorem fac_rl {F : Arith} (hF : Sound F) {l : ℕ} (hl : l ≤ 20) : ∃ v, normFacGet l = some v ∧
    Rl 2 62 (F.fl v) (normFacExact l) := by
  obtain ⟨v, hv, hacc⟩ := C63_table hl
  refine ⟨v, hv, ?_⟩
  have hv' : v = (normFacN.getD l 0 : ℝ) / 10 ^ 17 := by
    rw [normFacGet, if_pos (by omega)] at hv
    exact (Option.some.inj hv).symm
  obtain ⟨r1, r2⟩ := normFac_range l (by omega)
  have v1 : 2 ≤ v := by
    rw [hv', le_div_iff₀ (by positivity)]
    exact_mod_cast r1
  have v2 : v ≤ 2 ^ 61 := by
    rw [hv', div_le_iff₀ (by positivity)]
    exact_mod_cast r2
  change |v - normFacExact l| ≤ normFacExact l / (2 * 10 ^ 17) at hacc
  obtain ⟨a1, a2⟩ := abs_le.1 hacc
  have X0 : 0 < normFacExact l := by
    by_contra hn
    have : normFacExact l / (2 * 10 ^ 17) ≤ 0 := div_nonpos_of_nonpos_of_nonneg (not_lt.1 hn) (by norm_num)
    linarith
  have X1 : normFacExact l / (2 * 10 ^ 17) ≤ 1 / 2 * normFacExact l := by
    rw [div_eq_mul_one_div, mul_comm]
    exact mul_le_mul_of_nonneg_right (by norm_num) X0.le
  have hr : Rl 1 62 v (normFacExact l) := by
    refine ⟨hacc.trans ?_, ?_, ?_⟩
    · rw [γ_one, div_eq_mul_one_div, mul_comm]
      refine mul_le_mul_of_nonneg_right ?_ X0.le
      unfold u
      norm_num
    · have : (1 : ℝ) / 2 ^ 61 ≤ 1 := by norm_num
      linarith
    · have : (2 : ℝ) ^ 62 = 2 * 2 ^ 61 := by norm_num
      linarith
  exact hr.fl hF (by norm_num) (by norm_num)

theorem half_range {n : ℕ} {x y : ℝ} (h : InR n x) (h1 : x / 2 ≤ y) (h2 : y ≤ 2 * x) : InR (n + 1) y := by
  have := h.lo
  have := h.hi
  refine ⟨?_, by rw [pow_succ]; linarith⟩
  rw [pow_succ, ← div_div]
  linarith

theorem approx_sum {k n : ℕ} {x' x X : ℕ → ℝ} (h : ∀ j ∈ Finset.range n, Approx k (x' j) (x j) (X j)) :
    Approx k (∑ j ∈ Finset.range n, x' j) (∑ j ∈ Finset.range n, x j) (∑ j ∈ Finset.range n, X j) := by
  induction n with
  | zero => exact ⟨by simp, by simp⟩
  | succ n ih =>
    rw [Finset.sum_range_succ, Finset.sum_range_succ, Finset.sum_range_succ]
    exact (ih fun j hj => h j (by rw [Finset.mem_range] at hj ⊢; omega)).add (h n (by simp))

/-- The shell after the loop over the coefficients. -/
noncomputable def result (F : Arith) (sh : Shell ℝ) (v : ℝ) : Shell ℝ :=
  { sh with
    coef := fun j =>
      if j < sh.nprim then F.fl (sh.coef j * F.fl (norm F sh (F.fl v) * F.pow (sh.alpha j)
        (1 / 2 * ((sh.am : ℝ) + 3 / 2))))
      else sh.coef j }

theorem normalize_eq {F : Arith} {sh : Shell ℝ} {v : ℝ} (hv : normFacGet sh.am = some v) :
    normalizeShell F sh = some (result F sh v) := by
  rw [normalizeShell, hv]
  rfl

section
variable {F : Arith} (hF : Sound F) (hpow : PowOK F) {sh : Shell ℝ} {K : ℕ} (h : NormIn sh K)
include hF hpow h

/-- The factor is accurate. -/
theorem norm_near : ∃ v, normFacGet sh.am = some v ∧
    Rl (K * (3 * sh.am + 27 + sh.nprim * sh.nprim) + 6) 281 (norm F sh (F.fl v)) (scale sh) := by
  obtain ⟨v, hv, r⟩ := fac_rl hF h.am
  have hc := h.count
  have hm : K * (3 * sh.am + 27 + sh.nprim * sh.nprim) ≤ 2 ^ 18 := (Nat.mul_le_mul_left K (by omega)).trans hc
  norm_num at hm
  have s := sum_rl hF hpow h
  have p := (s.flMul hF r (by norm_num; omega) (by norm_num)).flSqrt hF (by norm_num; omega) (by norm_num)
  exact ⟨v, hv, (p.flInv hF (by norm_num; omega) (by norm_num)).mono (by omega) (by norm_num)⟩

/-- One coefficient, relative to the computed factor. -/
theorem coef_step {j : ℕ} (hj : j < sh.nprim) {N : ℝ} (hN : InR 282 N) :
    |F.fl (sh.coef j * F.fl (N * F.pow (sh.alpha j) (1 / 2 * ((sh.am : ℝ) + 3 / 2)))) - N * (primNorm sh).coef j| ≤
      γ 10 * |N * (primNorm sh).coef j| := by
  have hl := h.am
  have ha := h.inR hj
  obtain ⟨m0, m1⟩ := h.m2
  have r1 := InR.rpow ha m0 m1
  have x0 := r1.pos
  have p8 : Rl 8 440 (F.pow (sh.alpha j) (1 / 2 * ((sh.am : ℝ) + 3 / 2)))
      (sh.alpha j ^ (1 / 2 * ((sh.am : ℝ) + 3 / 2))) := by
    have lo : 1 / 2 ^ 440 ≤ sh.alpha j ^ (1 / 2 * ((sh.am : ℝ) + 3 / 2)) :=
      le_trans (one_div_le_one_div_of_le (by positivity) (pow_le_pow_right₀ (by norm_num) (by omega))) r1.lo
    have hi : sh.alpha j ^ (1 / 2 * ((sh.am : ℝ) + 3 / 2)) ≤ 2 ^ 440 :=
      r1.hi.trans (pow_le_pow_right₀ (by norm_num) (by omega))
    refine ⟨(hpow _ _ ha.pos (le_trans ?_ lo) (hi.trans (pow_le_pow_right₀ (by norm_num) (by norm_num)))).trans
      (mul_le_mul_of_nonneg_right ?_ x0.le), lo, hi⟩
    · exact one_div_le_one_div_of_le (by positivity) (pow_le_pow_right₀ (by norm_num) (by norm_num))
    · exact FlPrim.γ_ge (k := 8) (by norm_num)
  have q := (Rl.of_exact hN).flMul hF p8 (by norm_num) (by norm_num)
  have eC : N * (primNorm sh).coef j =
      sh.coef j * (N * sh.alpha j ^ (1 / 2 * ((sh.am : ℝ) + 3 / 2))) := by
    unfold primNorm; ring
  rw [eC]
  generalize F.fl (N * F.pow (sh.alpha j) (1 / 2 * ((sh.am : ℝ) + 3 / 2))) = y' at *
  generalize N * sh.alpha j ^ (1 / 2 * ((sh.am : ℝ) + 3 / 2)) = y at *
  rcases h.clo j hj with c0 | c0
  · rw [c0, zero_mul, zero_mul, le_antisymm (hF.nonpos 0 le_rfl) (hF.nonneg 0 le_rfl)]
    simp
  · have hc : InR 50 |sh.coef j| := ⟨c0, h.chi j hj⟩
    have w := (Rl.of_exact hc).mul q
    obtain ⟨b1, b2⟩ := w.half (by norm_num)
    have wr := w.rng
    have ab : |sh.coef j * y'| = |sh.coef j| * y' := by rw [abs_mul, abs_of_pos (q.pos' (by norm_num))]
    have lo : κ ≤ |sh.coef j * y'| := by
      rw [ab]
      refine le_trans ?_ b1
      have e : κ ≤ 1 / 2 ^ (50 + (282 + 440)) / 2 := by
        rw [div_div, ← pow_succ]
        exact one_div_le_one_div_of_le (by positivity) (pow_le_pow_right₀ (by norm_num) (by norm_num))
      linarith [wr.lo]
    have hi : |sh.coef j * y'| ≤ 2 ^ 1023 := by
      rw [ab]
      refine b2.trans ?_
      have e : (2 : ℝ) * 2 ^ (50 + (282 + 440)) ≤ 2 ^ 1023 := by
        rw [mul_comm, ← pow_succ]
        exact pow_le_pow_right₀ (by norm_num) (by norm_num)
      linarith [wr.hi]
    have n := hF.normal _ lo hi
    have e1 := q.err
    have y0 := q.pos
    have e : F.fl (sh.coef j * y') - sh.coef j * y = (F.fl (sh.coef j * y') - sh.coef j * y') +
      sh.coef j * (y' - y) := by ring
    have cp := abs_nonneg (sh.coef j)
    rw [e, abs_mul (sh.coef j) y, abs_of_pos y0]
    refine (abs_add_le _ _).trans ?_
    rw [ab] at n
    rw [abs_mul]
    have i1 := mul_le_mul_of_nonneg_left e1 cp
    have i2 : y' ≤ y + γ (0 + 8 + 1) * y := by
      have := (abs_le.1 e1).2
      linarith
    have i3 := mul_le_mul_of_nonneg_left (mul_le_mul_of_nonneg_left i2 cp) u_pos.le
    have i4 : γ 10 = γ (0 + 8 + 1) + u + γ (0 + 8 + 1) * u := by
      rw [show (10 : ℕ) = 0 + 8 + 1 + 1 from rfl, γ_add (0 + 8 + 1) 1, γ_one]
    rw [i4]
    nlinarith

/-- The coefficients are accurate. -/
theorem coef_near : ∃ v, normFacGet sh.am = some v ∧
    ∀ j < sh.nprim, |(result F sh v).coef j - scale sh * (primNorm sh).coef j| ≤
      γ (K * (3 * sh.am + 27 + sh.nprim * sh.nprim) + 16) * |scale sh * (primNorm sh).coef j| := by
  obtain ⟨v, hv, r⟩ := norm_near hF hpow h
  have hc := h.count
  have hm : K * (3 * sh.am + 27 + sh.nprim * sh.nprim) ≤ 2 ^ 18 := (Nat.mul_le_mul_left K (by omega)).trans hc
  norm_num at hm
  have hb := r.half (by norm_num; omega)
  have hN : InR 282 (norm F sh (F.fl v)) := half_range r.rng hb.1 hb.2
  refine ⟨v, hv, fun j hj => ?_⟩
  simp only [result, if_pos hj]
  have st := coef_step hF hpow h hj hN
  generalize F.fl (sh.coef j * _) = c' at *
  have hr := r.err
  have s0 := r.pos
  generalize norm F sh (F.fl v) = N at *
  set k := K * (3 * sh.am + 27 + sh.nprim * sh.nprim) + 6 with hk
  have p := abs_nonneg ((primNorm sh).coef j)
  have e : c' - scale sh * (primNorm sh).coef j = (c' - N * (primNorm sh).coef j) +
    (N - scale sh) * (primNorm sh).coef j := by ring
  have hn : 0 < N := hN.pos
  rw [abs_mul, abs_of_pos hn] at st
  have i1 : N ≤ scale sh + γ k * scale sh := by have := (abs_le.1 hr).2; linarith
  have i2 := mul_le_mul_of_nonneg_left (mul_le_mul_of_nonneg_right i1 p) (γ_nonneg 10)
  have i3 := mul_le_mul_of_nonneg_right hr p
  rw [show K * (3 * sh.am + 27 + sh.nprim * sh.nprim) + 16 = k + 10 by omega, e, abs_mul (scale sh), abs_of_pos s0]
  refine (abs_add_le _ _).trans ?_
  rw [abs_mul, γ_add]
  nlinarith

/-- C95: the routine reads `norm_fac` inside its bounds, changes coefficients only, and the coefficients
are those of the normalised shell (C63) up to `K (3 l + 27 + n^2) + 16` roundings. -/
theorem C95_coef : ∃ sh', normalizeShell F sh = some sh' ∧ sh'.ptr = sh.ptr ∧ sh'.am = sh.am ∧ sh'.nprim = sh.nprim ∧
    sh'.pos = sh.pos ∧ sh'.alpha = sh.alpha ∧ (∀ j, sh.nprim ≤ j → sh'.coef j = sh.coef j) ∧
    ∀ j < sh.nprim, |sh'.coef j - scale sh * (primNorm sh).coef j| ≤
      (K * (3 * sh.am + 27 + sh.nprim * sh.nprim) + 16 : ℕ) * (1 / 2 ^ 52) * |scale sh * (primNorm sh).coef j| := by
  obtain ⟨v, hv, r⟩ := coef_near hF hpow h
  have hc := h.count
  have hm : K * (3 * sh.am + 27 + sh.nprim * sh.nprim) ≤ 2 ^ 18 := (Nat.mul_le_mul_left K (by omega)).trans hc
  norm_num at hm
  refine ⟨_, normalize_eq hv, rfl, rfl, rfl, rfl, rfl, fun j hj => if_neg (by omega), fun j hj => ?_⟩
  exact (r j hj).trans (mul_le_mul_of_nonneg_right (γ_le (by norm_num; omega)) (abs_nonneg _))

/-- C95: the components of the shell have the norms of a normalised shell up to
`K (6 l + 74 + 2 n^2) + 12` roundings. -/
theorem C95_norm : ∃ sh', normalizeShell F sh = some sh' ∧
    ∀ e : Exp, e.x.toNat + e.y.toNat + e.z.toNat = sh.am →
      |overlapInt sh' sh' e e - compRatio sh.am e| ≤
        (K * (6 * sh.am + 74 + 2 * (sh.nprim * sh.nprim)) + 12 : ℕ) * (1 / 2 ^ 52) * compRatio sh.am e := by
  obtain ⟨v, hv, r⟩ := norm_near hF hpow h
  have hc := h.count
  have hm : K * (3 * sh.am + 27 + sh.nprim * sh.nprim) ≤ 2 ^ 18 := (Nat.mul_le_mul_left K (by omega)).trans hc
  have hK : K * 20 ≤ 2 ^ 18 := (Nat.mul_le_mul_left K (by omega)).trans hc
  norm_num at hm hK
  have hb := r.half (by norm_num; omega)
  have hN : InR 282 (norm F sh (F.fl v)) := half_range r.rng hb.1 hb.2
  refine ⟨_, normalize_eq hv, fun e he => ?_⟩
  have hpos : sh.Pos := fun j hj => (h.inR hj).pos
  set sh' : Shell ℝ := result F sh v with hsh'
  have hpos' : sh'.Pos := hpos
  rw [overlapInt_eq hpos' hpos']
  have ap : ∀ j < sh.nprim, Approx 10 (sh'.coef j) (norm F sh (F.fl v) * (primNorm sh).coef j)
      |norm F sh (F.fl v) * (primNorm sh).coef j| := by
    intro j hj
    refine ⟨le_rfl, ?_⟩
    rw [hsh']
    simp only [result, if_pos hj]
    exact coef_step hF hpow h hj hN
  have hr := r.approx
  have s0 := r.pos
  generalize norm F sh (F.fl v) = N at *
  have hn : 0 < N := hN.pos
  set cst : ℝ := π * √π / 2 ^ sh.am * (oddFac e.x.toNat * oddFac e.y.toNat * oddFac e.z.toNat) with hcst
  have c0 : 0 ≤ cst := by positivity
  have X0 : 0 < normFacExact sh.am := by
    have : 0 < oddFac sh.am := Nat.doubleFactorial_pos _
    unfold normFacExact
    positivity
  have R0 : 0 ≤ compRatio sh.am e := by unfold compRatio; positivity
  have ecst : cst = compRatio sh.am e * normFacExact sh.am := by
    have : (oddFac sh.am : ℝ) ≠ 0 := Nat.cast_ne_zero.2 (Nat.doubleFactorial_pos _).ne'
    rw [hcst, compRatio, normFacExact]
    push_cast
    field_simp
  have sQ : Rl _ _ _ (normSq sh sh.coef) := sum_rl hF hpow h
  have S0 := sQ.pos
  have eN : scale sh * scale sh * (cst * normSq sh sh.coef) = compRatio sh.am e := by
    rw [scale, div_mul_div_comm, mul_self_sqrt (by positivity), ecst]
    field_simp
  -- the integral as a sum
  have each : ∀ j ∈ Finset.range sh.nprim, ∀ k ∈ Finset.range sh.nprim,
      Approx 20 (sh'.coef j * sh'.coef k * ∫ r : R3, primG (sh'.alpha j) sh'.pos e r.dir *
        primG (sh'.alpha k) sh'.pos e r.dir)
      (N * N * (cst * (sh.coef j * sh.coef k * rat sh j k)))
      (N * N * (cst * (|sh.coef j| * |sh.coef k| * rat sh j k))) := by
    intro j hj k hk
    rw [Finset.mem_range] at hj hk
    have ha := hpos j hj
    have hb := hpos k hk
    have m := (ap j hj).mul (ap k hk)
    have eI : ∫ r : R3, primG (sh'.alpha j) sh'.pos e r.dir * primG (sh'.alpha k) sh'.pos e r.dir =
      cst * (sh.alpha j + sh.alpha k) ^ (-((sh.am : ℝ) + 3 / 2)) := overlap_prim_self ha hb sh.pos e he
    have i0 : 0 ≤ cst * (sh.alpha j + sh.alpha k) ^ (-((sh.am : ℝ) + 3 / 2)) :=
      mul_nonneg c0 (rpow_nonneg (by linarith) _)
    rw [eI]
    have m2 := m.mul (Approx.refl (cst * (sh.alpha j + sh.alpha k) ^ (-((sh.am : ℝ) + 3 / 2))))
    have er : rat sh j k = sh.alpha j ^ (1 / 2 * ((sh.am : ℝ) + 3 / 2)) *
        sh.alpha k ^ (1 / 2 * ((sh.am : ℝ) + 3 / 2)) * (sh.alpha j + sh.alpha k) ^ (-((sh.am : ℝ) + 3 / 2)) := by
      rw [rat, mul_rpow ha.le hb.le, rpow_neg (by linarith), div_eq_mul_inv]
    have pj : 0 < sh.alpha j ^ (1 / 2 * ((sh.am : ℝ) + 3 / 2)) := rpow_pos_of_pos ha _
    have pk : 0 < sh.alpha k ^ (1 / 2 * ((sh.am : ℝ) + 3 / 2)) := rpow_pos_of_pos hb _
    rw [abs_of_nonneg i0] at m2
    convert m2 using 1
    · rw [er]; unfold primNorm; ring
    · rw [er]
      unfold primNorm
      simp only [abs_mul, abs_of_pos hn, abs_of_pos pj, abs_of_pos pk]
      ring
  have tot : Approx 20 (∑ j ∈ Finset.range sh.nprim, ∑ k ∈ Finset.range sh.nprim, sh'.coef j * sh'.coef k *
      ∫ r : R3, primG (sh'.alpha j) sh'.pos e r.dir * primG (sh'.alpha k) sh'.pos e r.dir)
      (N * N * (cst * normSq sh sh.coef)) (N * N * (cst * normSq sh fun j => |sh.coef j|)) := by
    unfold normSq
    simp only [Finset.mul_sum]
    refine approx_sum fun j hj => approx_sum fun k hk => ?_
    exact each j hj k hk
  change |(∑ j ∈ Finset.range sh.nprim, ∑ k ∈ Finset.range sh.nprim, _) - _| ≤ _
  generalize ∑ j ∈ Finset.range sh.nprim, ∑ k ∈ Finset.range sh.nprim, sh'.coef j * sh'.coef k *
      ∫ r : R3, primG (sh'.alpha j) sh'.pos e r.dir * primG (sh'.alpha k) sh'.pos e r.dir = O at *
  set kN := K * (3 * sh.am + 27 + sh.nprim * sh.nprim) + 6 with hkN
  -- the square of the factor
  have sq := hr.mul hr
  set W := cst * normSq sh sh.coef with hW
  have W0 : 0 ≤ W := mul_nonneg c0 S0.le
  have cond : cst * (normSq sh fun j => |sh.coef j|) ≤ K * W := by
    have : (normSq sh fun j => |sh.coef j|) ≤ K * normSq sh sh.coef := by
      have := h.cond
      have h2 : (0 : ℝ) < 1 / 2 ^ 200 := by positivity
      linarith
    calc _ ≤ cst * (K * normSq sh sh.coef) := mul_le_mul_of_nonneg_left this c0
      _ = K * W := by rw [hW]; ring
  have d1 : |O - N * N * W| ≤ γ (K * 20) * (N * N * W) := by
    refine tot.err.trans ?_
    have a1 : N * N * (cst * normSq sh fun j => |sh.coef j|) ≤ N * N * (K * W) :=
      mul_le_mul_of_nonneg_left cond (mul_pos hn hn).le
    calc _ ≤ γ 20 * (N * N * (K * W)) := mul_le_mul_of_nonneg_left a1 (γ_nonneg _)
      _ = K * γ 20 * (N * N * W) := by ring
      _ ≤ _ := mul_le_mul_of_nonneg_right (γ_times _ _) (mul_nonneg (mul_pos hn hn).le W0)
  have d2 : |N * N * W - compRatio sh.am e| ≤ γ (kN + kN) * compRatio sh.am e := by
    rw [← eN, ← sub_mul, abs_mul, abs_of_nonneg W0]
    exact (mul_le_mul_of_nonneg_right sq.err W0).trans (le_of_eq (by ring))
  have d3 : N * N * W ≤ (1 + γ (kN + kN)) * compRatio sh.am e := by
    have := (abs_le.1 d2).2
    linarith
  have d4 : γ (K * 20 + (kN + kN)) ≤ ((K * 20 + (kN + kN) : ℕ) : ℝ) * (1 / 2 ^ 52) := γ_le (by norm_num; omega)
  have eq : K * (6 * sh.am + 74 + 2 * (sh.nprim * sh.nprim)) + 12 = K * 20 + (kN + kN) := by
    rw [hkN]; ring
  rw [eq]
  refine le_trans ?_ (mul_le_mul_of_nonneg_right d4 R0)
  have e1 : O - compRatio sh.am e = (O - N * N * W) + (N * N * W - compRatio sh.am e) := by ring
  rw [e1, γ_add]
  refine (abs_add_le _ _).trans ?_
  have d5 := mul_le_mul_of_nonneg_left d3 (γ_nonneg (K * 20))
  nlinarith

end

/-- C95: every shell of the array is handled by itself; an angular momentum above 20 makes the routine
read past the end of `norm_fac`. -/
theorem C95_array {F : Arith} (G G' : List (Shell ℝ)) :
    (normalizeShells F G = some G' ↔ List.Forall₂ (fun s s' => normalizeShell F s = some s') G G') ∧
    ((∃ s ∈ G, 20 < s.am) → normalizeShells F G = none) := by
  have h : ∀ G', normalizeShells F G = some G' ↔ List.Forall₂ (fun s s' => normalizeShell F s = some s') G G' := by
    unfold normalizeShells
    induction G with
    | nil => intro G'; cases G' <;> simp
    | cons s G ih =>
      intro G'
      cases G' with
      | nil => simp [List.mapM_cons, Option.bind_eq_some_iff]
      | cons s' G' =>
        rw [List.forall₂_cons, ← ih G']
        simp [List.mapM_cons, Option.bind_eq_some_iff]
  refine ⟨h G', ?_⟩
  rintro ⟨s, hs, hl⟩
  rcases e : normalizeShells F G with _ | G''
  · rfl
  · exfalso
    have f := (h G'').1 e
    clear e h
    induction f with
    | nil => simp at hs
    | cons hd tl ih =>
      rcases List.mem_cons.1 hs with rfl | hs
      · rw [normalizeShell, normFacGet, if_neg (by omega)] at hd
        simp at hd
      · exact ih hs

/-- Coefficients that are not negative do not cancel: `K = 2`. -/
theorem normIn_nonneg {sh : Shell ℝ} (am : sh.am ≤ 20) (lo : ∀ j < sh.nprim, 1 / 2 ^ 20 ≤ sh.alpha j)
    (hi : ∀ j < sh.nprim, sh.alpha j ≤ 2 ^ 40) (c0 : ∀ j < sh.nprim, 0 ≤ sh.coef j)
    (clo : ∀ j < sh.nprim, sh.coef j = 0 ∨ 1 / 2 ^ 50 ≤ sh.coef j) (chi : ∀ j < sh.nprim, sh.coef j ≤ 2 ^ 50)
    (some : ∃ j < sh.nprim, sh.coef j ≠ 0) (count : sh.nprim * sh.nprim ≤ 2 ^ 16) : NormIn sh 2 := by
  have ab : ∀ j < sh.nprim, |sh.coef j| = sh.coef j := fun j hj => abs_of_nonneg (c0 j hj)
  refine ⟨am, lo, hi, fun j hj => by rw [ab j hj]; exact clo j hj, fun j hj => by rw [ab j hj]; exact chi j hj, ?_,
    by omega⟩
  have e : normSq sh (fun j => |sh.coef j|) = normSq sh sh.coef := by
    unfold normSq
    refine Finset.sum_congr rfl fun j hj => Finset.sum_congr rfl fun k hk => ?_
    simp only [ab j (Finset.mem_range.1 hj), ab k (Finset.mem_range.1 hk)]
  have apos : ∀ j < sh.nprim, 0 < sh.alpha j := fun j hj => lt_of_lt_of_le (by positivity) (lo j hj)
  have t0 : ∀ j < sh.nprim, ∀ k < sh.nprim, 0 ≤ sh.coef j * sh.coef k *
      ((sh.alpha j * sh.alpha k) ^ (1 / 2 * ((sh.am : ℝ) + 3 / 2)) /
        (sh.alpha j + sh.alpha k) ^ ((sh.am : ℝ) + 3 / 2)) := fun j hj k hk => by
    have := apos j hj
    have := apos k hk
    have := c0 j hj
    have := c0 k hk
    positivity
  obtain ⟨i, hi', hne⟩ := some
  have ci : 1 / 2 ^ 50 ≤ sh.coef i := (clo i hi').resolve_left hne
  -- one term is large enough
  have ti : sh.coef i * sh.coef i * ((sh.alpha i * sh.alpha i) ^ (1 / 2 * ((sh.am : ℝ) + 3 / 2)) /
        (sh.alpha i + sh.alpha i) ^ ((sh.am : ℝ) + 3 / 2)) ≤ normSq sh sh.coef := by
    unfold normSq
    refine le_trans ?_ (Finset.single_le_sum (f := fun j => ∑ k ∈ Finset.range sh.nprim, sh.coef j * sh.coef k *
      ((sh.alpha j * sh.alpha k) ^ (1 / 2 * ((sh.am : ℝ) + 3 / 2)) /
        (sh.alpha j + sh.alpha k) ^ ((sh.am : ℝ) + 3 / 2))) (fun j hj => Finset.sum_nonneg fun k hk =>
        t0 j (Finset.mem_range.1 hj) k (Finset.mem_range.1 hk)) (Finset.mem_range.2 hi'))
    exact Finset.single_le_sum (f := fun k => sh.coef i * sh.coef k *
      ((sh.alpha i * sh.alpha k) ^ (1 / 2 * ((sh.am : ℝ) + 3 / 2)) /
        (sh.alpha i + sh.alpha k) ^ ((sh.am : ℝ) + 3 / 2))) (fun k hk => t0 i hi' k (Finset.mem_range.1 hk))
        (Finset.mem_range.2 hi')
  have hr : (sh.alpha i * sh.alpha i) ^ (1 / 2 * ((sh.am : ℝ) + 3 / 2)) /
        (sh.alpha i + sh.alpha i) ^ ((sh.am : ℝ) + 3 / 2) = 1 / 2 ^ ((sh.am : ℝ) + 3 / 2) := by
    have a0 := apos i hi'
    have p0 : 0 < sh.alpha i ^ ((sh.am : ℝ) + 3 / 2) := rpow_pos_of_pos a0 _
    rw [← two_mul, mul_rpow (x := 2) (by norm_num) a0.le, mul_rpow a0.le a0.le, ← rpow_add a0]
    have : 1 / 2 * ((sh.am : ℝ) + 3 / 2) + 1 / 2 * ((sh.am : ℝ) + 3 / 2) = (sh.am : ℝ) + 3 / 2 := by ring
    rw [this]
    field_simp
  rw [hr] at ti
  have h22 : (2 : ℝ) ^ ((sh.am : ℝ) + 3 / 2) ≤ 2 ^ 22 := by
    rw [← rpow_natCast]
    refine rpow_le_rpow_of_exponent_le (by norm_num) ?_
    have : (sh.am : ℝ) ≤ 20 := by exact_mod_cast am
    push_cast
    linarith
  have h1 : (1 : ℝ) / 2 ^ 22 ≤ 1 / 2 ^ ((sh.am : ℝ) + 3 / 2) :=
    one_div_le_one_div_of_le (rpow_pos_of_pos (by norm_num) _) h22
  have h2 : (1 : ℝ) / 2 ^ 50 * (1 / 2 ^ 50) ≤ sh.coef i * sh.coef i :=
    mul_le_mul ci ci (by positivity) (c0 i hi')
  have h3 := mul_le_mul h2 h1 (by positivity) (mul_nonneg (c0 i hi') (c0 i hi'))
  have h4 : (1 : ℝ) / 2 ^ 200 ≤ 1 / 2 ^ 50 * (1 / 2 ^ 50) * (1 / 2 ^ 22) := by norm_num
  rw [e]
  push_cast
  linarith

/-! ## Concrete cases -/

/-- Three primitives, angular momentum 3. -/
noncomputable def demo : Shell ℝ where
  ptr := 1
  am := 3
  nprim := 3
  pos := fun _ => 1
  alpha := fun i => 1 / 4 + i
  coef := fun i => i

theorem demo_in : NormIn demo 2 := by
  refine normIn_nonneg (by simp [demo]) (fun j _ => ?_) (fun j hj => ?_) (fun j _ => ?_) (fun j _ => ?_) (fun j hj => ?_)
    ⟨1, by simp [demo], by simp [demo]⟩ (by simp [demo])
  · have : (0 : ℝ) ≤ j := Nat.cast_nonneg j
    simp only [demo]
    norm_num
    linarith
  · have : (j : ℝ) ≤ 3 := by exact_mod_cast (show j < 3 from hj).le
    simp only [demo]
    norm_num
    linarith
  · exact Nat.cast_nonneg j
  · rcases Nat.eq_zero_or_pos j with rfl | h
    · left; simp [demo]
    · right
      have : (1 : ℝ) ≤ j := by exact_mod_cast h
      simp only [demo]
      have : (1 : ℝ) / 2 ^ 50 ≤ 1 := by norm_num
      linarith
  · have : (j : ℝ) ≤ 3 := by exact_mod_cast (show j < 3 from hj).le
    exact this.trans (by norm_num)

/-- Doubles, with or without fused multiply and add: the norm of the first component is 1 up to 232
roundings. -/
example (fused : Bool) : ∃ sh', normalizeShell (ieee fused) demo = some sh' ∧
    |overlapInt sh' sh' ⟨3, 0, 0⟩ ⟨3, 0, 0⟩ - 1| ≤ 232 * (1 / 2 ^ 52) := by
  obtain ⟨sh', e, hn⟩ := C95_norm (sound_ieee fused) (powOK_ieee fused) demo_in
  have b := hn ⟨3, 0, 0⟩ rfl
  have hc : compRatio demo.am ⟨3, 0, 0⟩ = 1 := by
    simp only [compRatio, demo, show Int.toNat 3 = 3 from rfl, show Int.toNat 0 = 0 from rfl]
    norm_num [oddFac, Nat.doubleFactorial]
  rw [hc, mul_one] at b
  refine ⟨sh', e, b.trans (le_of_eq ?_)⟩
  norm_num [demo]

end Simint.FlNorm
