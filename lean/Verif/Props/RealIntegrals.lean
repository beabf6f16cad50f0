import Verif.Spec.ERI

/-!
# Property C20: the recurrences hold for real Gaussian integrals
-/

set_option autoImplicit false

open MeasureTheory Polynomial Real Set Filter

namespace Simint

theorem pw_succ_left (A B : ℝ) {a : ℤ} (b : ℤ) (ha : 0 ≤ a) :
    pw A B (a + 1) b = (X - C A) * pw A B a b := by
  unfold pw
  rw [Int.toNat_add ha zero_le_one, Int.toNat_one, pow_succ]; ring

theorem pw_comm (A B : ℝ) (a b : ℤ) : pw A B a b = pw B A b a := by
  unfold pw; ring

theorem pow_deriv (A : ℝ) {a : ℤ} (ha : 0 ≤ a) :
    derivative ((X - C A) ^ a.toNat) = C (a : ℝ) * (X - C A) ^ (a - 1).toNat := by
  obtain ⟨n, rfl⟩ := Int.eq_ofNat_of_zero_le ha
  rw [derivative_pow]
  have : ((n : ℤ) - 1).toNat = n - 1 := by omega
  simp [this]

theorem pw_deriv (A B : ℝ) {a b : ℤ} (ha : 0 ≤ a) (hb : 0 ≤ b) :
    derivative (pw A B a b) = C (a : ℝ) * pw A B (a - 1) b + C (b : ℝ) * pw A B a (b - 1) := by
  unfold pw
  rw [derivative_mul, pow_deriv A ha, pow_deriv B hb]
  ring

namespace Pairs
variable (G : Pairs)

theorem rho_pos : 0 < G.rho := by
  have := G.hp; have := G.hq
  unfold rho; positivity

theorem tau_le (u : ℝ) : |G.tau u| ≤ 1 := by
  have := G.rho_pos
  unfold tau
  rw [abs_of_nonneg (by positivity), div_le_one (by positivity)]
  linarith

theorem tau_continuous : Continuous G.tau := by
  have := G.rho_pos
  unfold tau
  exact (continuous_id.pow 2).div (continuous_const.add (continuous_id.pow 2)) fun u => by
    have : 0 < G.rho + u ^ 2 := by positivity
    exact this.ne'

/-- One direction at given exponents. -/
noncomputable def d1 (i : Dir) (a b c d : ℤ) (u : ℝ) : ℝ :=
  G2 G.p G.q (G.P i) (G.Q i) (u ^ 2) (pw (G.A i) (G.B i) a b) (pw (G.C i) (G.D i) c d)

/-- Vertical relation of one direction, stepping the first function of the first electron. -/
theorem d1_I (i : Dir) {a b c d : ℤ} (ha : 0 ≤ a) (hb : 0 ≤ b) (hc : 0 ≤ c) (hd : 0 ≤ d) (u : ℝ) :
    G.d1 i (a + 1) b c d u = G.par.PA i * G.d1 i a b c d u + G.par.aopPQ i * (G.tau u * G.d1 i a b c d u)
      + (a : ℝ) * G.par.o2p * (G.d1 i (a - 1) b c d u + G.par.aop * (G.tau u * G.d1 i (a - 1) b c d u))
      + (b : ℝ) * G.par.o2p * (G.d1 i a (b - 1) c d u + G.par.aop * (G.tau u * G.d1 i a (b - 1) c d u))
      + (c : ℝ) * G.par.o2pq * (G.tau u * G.d1 i a b (c - 1) d u)
      + (d : ℝ) * G.par.o2pq * (G.tau u * G.d1 i a b c (d - 1) u) := by
  have hp := G.hp; have hq := G.hq
  have hs : (0 : ℝ) ≤ u ^ 2 := by positivity
  have h := G2_vertical_left hp hq (G.P i) (G.Q i) hs (pw (G.A i) (G.B i) a b) (pw (G.C i) (G.D i) c d)
  rw [pw_deriv _ _ ha hb, pw_deriv _ _ hc hd, G2_add_left hp hq _ _ hs, G2_add_right hp hq _ _ hs,
    G2_C_left, G2_C_left, G2_C_right, G2_C_right] at h
  have h0 : (X - Polynomial.C (G.A i)) * pw (G.A i) (G.B i) a b =
      (X - Polynomial.C (G.P i)) * pw (G.A i) (G.B i) a b +
        Polynomial.C (G.P i - G.A i) * pw (G.A i) (G.B i) a b := by
    rw [Polynomial.C_sub]; ring
  unfold d1
  rw [pw_succ_left _ _ _ ha, h0, G2_add_left hp hq _ _ hs, G2_C_left, h]
  simp only [par, tau, rho]
  have e1 : G.p * G.q / (G.p + G.q) + u ^ 2 ≠ 0 := by positivity
  have e2 : G.p * G.q + (G.p + G.q) * u ^ 2 ≠ 0 := by positivity
  have e3 : G.p + G.q ≠ 0 := by positivity
  have e4 : u ^ 2 / (G.p * G.q / (G.p + G.q) + u ^ 2) =
      (G.p + G.q) * u ^ 2 / (G.p * G.q + (G.p + G.q) * u ^ 2) := by
    field_simp
  rw [e4]
  field_simp
  ring

/-- The pairs with the two centers of the bra exchanged. -/
def swapBra : Pairs := { G with A := G.B, B := G.A }

/-- The pairs with bra and ket exchanged. -/
def swapBK : Pairs :=
  { p := G.q, q := G.p, P := G.Q, Q := G.P, A := G.C, B := G.D, C := G.A, D := G.B, hp := G.hq, hq := G.hp }

theorem d1_swapBra (i : Dir) (a b c d : ℤ) (u : ℝ) : G.d1 i a b c d u = G.swapBra.d1 i b a c d u := by
  simp only [d1, swapBra, pw_comm (G.A i)]

theorem d1_swapBK (i : Dir) (a b c d : ℤ) (u : ℝ) : G.d1 i a b c d u = G.swapBK.d1 i c d a b u := by
  simp only [d1, swapBK]
  exact G2_swap _ _ _ _

theorem d1_J (i : Dir) {a b c d : ℤ} (ha : 0 ≤ a) (hb : 0 ≤ b) (hc : 0 ≤ c) (hd : 0 ≤ d) (u : ℝ) :
    G.d1 i a (b + 1) c d u = G.par.PB i * G.d1 i a b c d u + G.par.aopPQ i * (G.tau u * G.d1 i a b c d u)
      + (a : ℝ) * G.par.o2p * (G.d1 i (a - 1) b c d u + G.par.aop * (G.tau u * G.d1 i (a - 1) b c d u))
      + (b : ℝ) * G.par.o2p * (G.d1 i a (b - 1) c d u + G.par.aop * (G.tau u * G.d1 i a (b - 1) c d u))
      + (c : ℝ) * G.par.o2pq * (G.tau u * G.d1 i a b (c - 1) d u)
      + (d : ℝ) * G.par.o2pq * (G.tau u * G.d1 i a b c (d - 1) u) := by
  have h := G.swapBra.d1_I i hb ha hc hd u
  simp only [← d1_swapBra] at h
  rw [h]
  simp only [par, tau, rho, swapBra]
  ring

theorem d1_K (i : Dir) {a b c d : ℤ} (ha : 0 ≤ a) (hb : 0 ≤ b) (hc : 0 ≤ c) (hd : 0 ≤ d) (u : ℝ) :
    G.d1 i a b (c + 1) d u = G.par.QA i * G.d1 i a b c d u + G.par.aoqPQ i * (G.tau u * G.d1 i a b c d u)
      + (c : ℝ) * G.par.o2q * (G.d1 i a b (c - 1) d u + G.par.aoq * (G.tau u * G.d1 i a b (c - 1) d u))
      + (d : ℝ) * G.par.o2q * (G.d1 i a b c (d - 1) u + G.par.aoq * (G.tau u * G.d1 i a b c (d - 1) u))
      + (a : ℝ) * G.par.o2pq * (G.tau u * G.d1 i (a - 1) b c d u)
      + (b : ℝ) * G.par.o2pq * (G.tau u * G.d1 i a (b - 1) c d u) := by
  have h := G.swapBK.d1_I i hc hd ha hb u
  simp only [← d1_swapBK] at h
  rw [h]
  simp only [par, tau, rho, swapBK, add_comm G.q, mul_comm G.q G.p]
  ring

theorem d1_L (i : Dir) {a b c d : ℤ} (ha : 0 ≤ a) (hb : 0 ≤ b) (hc : 0 ≤ c) (hd : 0 ≤ d) (u : ℝ) :
    G.d1 i a b c (d + 1) u = G.par.QB i * G.d1 i a b c d u + G.par.aoqPQ i * (G.tau u * G.d1 i a b c d u)
      + (c : ℝ) * G.par.o2q * (G.d1 i a b (c - 1) d u + G.par.aoq * (G.tau u * G.d1 i a b (c - 1) d u))
      + (d : ℝ) * G.par.o2q * (G.d1 i a b c (d - 1) u + G.par.aoq * (G.tau u * G.d1 i a b c (d - 1) u))
      + (a : ℝ) * G.par.o2pq * (G.tau u * G.d1 i (a - 1) b c d u)
      + (b : ℝ) * G.par.o2pq * (G.tau u * G.d1 i a (b - 1) c d u) := by
  have h := G.swapBK.d1_J i hc hd ha hb u
  simp only [← d1_swapBK] at h
  rw [h]
  simp only [par, tau, rho, swapBK, add_comm G.q, mul_comm G.q G.p]
  ring

/-- Product of the three directions. -/
noncomputable def prod3 (a b c d : Exp) (u : ℝ) : ℝ :=
  G.d1 .x a.x b.x c.x d.x u * G.d1 .y a.y b.y c.y d.y u * G.d1 .z a.z b.z c.z d.z u

theorem eri_eq (K : ℝ) (n : ℕ) (a b c d : Exp) :
    G.eri K n a b c d = K * ∫ u in Ioi 0, G.tau u ^ n * G.prod3 a b c d u := rfl

theorem eri_integrable (n : ℕ) (a b c d : Exp) :
    IntegrableOn (fun u => G.tau u ^ n * G.prod3 a b c d u) (Ioi 0) := by
  refine integrableOn_three G.hp G.hq _ _ _ _ _ _ _ _ _ _ _ _
    (G.tau_continuous.pow n).stronglyMeasurable fun u _ => ?_
  rw [abs_pow]
  exact pow_le_one₀ (abs_nonneg _) (G.tau_le u)

theorem eri_lin (K : ℝ) {k : ℕ} (co : Fin k → ℝ) (nn : Fin k → ℕ) (aa bb cc dd : Fin k → Exp) (n : ℕ)
    (a b c d : Exp) (h : ∀ u, G.tau u ^ n * G.prod3 a b c d u =
      ∑ j, co j * (G.tau u ^ nn j * G.prod3 (aa j) (bb j) (cc j) (dd j) u)) :
    G.eri K n a b c d = ∑ j, co j * G.eri K (nn j) (aa j) (bb j) (cc j) (dd j) := by
  simp only [eri_eq, h]
  rw [integral_finsetSum _ fun j _ => (G.eri_integrable _ _ _ _ _).const_mul _, Finset.mul_sum]
  refine Finset.sum_congr rfl fun j _ => ?_
  rw [integral_const_mul]; ring

end Pairs

/-- **Vertical recurrence.** The auxiliary integrals over any two Gaussian pairs satisfy the
eight-term recurrence on all four centers, with the variables the generated code computes. -/
theorem C20_vertical (G : Pairs) (K : ℝ) : VRRFam G.par (G.eri K) := by
  constructor
  · intro n a b c d i ha hb hc hd
    have := G.eri_lin K
      ![G.par.PA i, G.par.aopPQ i, a.get i * G.par.o2p, a.get i * G.par.o2p * G.par.aop,
        b.get i * G.par.o2p, b.get i * G.par.o2p * G.par.aop, c.get i * G.par.o2pq, d.get i * G.par.o2pq]
      ![n, n + 1, n, n + 1, n, n + 1, n + 1, n + 1]
      ![a, a, a.step i (-1), a.step i (-1), a, a, a, a]
      ![b, b, b, b, b.step i (-1), b.step i (-1), b, b]
      ![c, c, c, c, c, c, c.step i (-1), c]
      ![d, d, d, d, d, d, d, d.step i (-1)] n (a.step i 1) b c d (by
        intro u
        simp only [Fin.sum_univ_eight, Matrix.cons_val, pow_succ]
        cases i <;>
        simp only [Pairs.prod3, Exp.step, Exp.get, ← sub_eq_add_neg] <;>
        first
        | rw [G.d1_I .x ha.1 hb.1 hc.1 hd.1]; ring
        | rw [G.d1_I .y ha.2.1 hb.2.1 hc.2.1 hd.2.1]; ring
        | rw [G.d1_I .z ha.2.2 hb.2.2 hc.2.2 hd.2.2]; ring)
    simp only [Fin.sum_univ_eight, Matrix.cons_val] at this
    rw [this]; ring
  · intro n a b c d i ha hb hc hd
    have := G.eri_lin K
      ![G.par.PB i, G.par.aopPQ i, a.get i * G.par.o2p, a.get i * G.par.o2p * G.par.aop,
        b.get i * G.par.o2p, b.get i * G.par.o2p * G.par.aop, c.get i * G.par.o2pq, d.get i * G.par.o2pq]
      ![n, n + 1, n, n + 1, n, n + 1, n + 1, n + 1]
      ![a, a, a.step i (-1), a.step i (-1), a, a, a, a]
      ![b, b, b, b, b.step i (-1), b.step i (-1), b, b]
      ![c, c, c, c, c, c, c.step i (-1), c]
      ![d, d, d, d, d, d, d, d.step i (-1)] n a (b.step i 1) c d (by
        intro u
        simp only [Fin.sum_univ_eight, Matrix.cons_val, pow_succ]
        cases i <;>
        simp only [Pairs.prod3, Exp.step, Exp.get, ← sub_eq_add_neg] <;>
        first
        | rw [G.d1_J .x ha.1 hb.1 hc.1 hd.1]; ring
        | rw [G.d1_J .y ha.2.1 hb.2.1 hc.2.1 hd.2.1]; ring
        | rw [G.d1_J .z ha.2.2 hb.2.2 hc.2.2 hd.2.2]; ring)
    simp only [Fin.sum_univ_eight, Matrix.cons_val] at this
    rw [this]; ring
  · intro n a b c d i ha hb hc hd
    have := G.eri_lin K
      ![G.par.QA i, G.par.aoqPQ i, c.get i * G.par.o2q, c.get i * G.par.o2q * G.par.aoq,
        d.get i * G.par.o2q, d.get i * G.par.o2q * G.par.aoq, a.get i * G.par.o2pq, b.get i * G.par.o2pq]
      ![n, n + 1, n, n + 1, n, n + 1, n + 1, n + 1]
      ![a, a, a, a, a, a, a.step i (-1), a]
      ![b, b, b, b, b, b, b, b.step i (-1)]
      ![c, c, c.step i (-1), c.step i (-1), c, c, c, c]
      ![d, d, d, d, d.step i (-1), d.step i (-1), d, d] n a b (c.step i 1) d (by
        intro u
        simp only [Fin.sum_univ_eight, Matrix.cons_val, pow_succ]
        cases i <;>
        simp only [Pairs.prod3, Exp.step, Exp.get, ← sub_eq_add_neg] <;>
        first
        | rw [G.d1_K .x ha.1 hb.1 hc.1 hd.1]; ring
        | rw [G.d1_K .y ha.2.1 hb.2.1 hc.2.1 hd.2.1]; ring
        | rw [G.d1_K .z ha.2.2 hb.2.2 hc.2.2 hd.2.2]; ring)
    simp only [Fin.sum_univ_eight, Matrix.cons_val] at this
    rw [this]; ring
  · intro n a b c d i ha hb hc hd
    have := G.eri_lin K
      ![G.par.QB i, G.par.aoqPQ i, c.get i * G.par.o2q, c.get i * G.par.o2q * G.par.aoq,
        d.get i * G.par.o2q, d.get i * G.par.o2q * G.par.aoq, a.get i * G.par.o2pq, b.get i * G.par.o2pq]
      ![n, n + 1, n, n + 1, n, n + 1, n + 1, n + 1]
      ![a, a, a, a, a, a, a.step i (-1), a]
      ![b, b, b, b, b, b, b, b.step i (-1)]
      ![c, c, c.step i (-1), c.step i (-1), c, c, c, c]
      ![d, d, d, d, d.step i (-1), d.step i (-1), d, d] n a b c (d.step i 1) (by
        intro u
        simp only [Fin.sum_univ_eight, Matrix.cons_val, pow_succ]
        cases i <;>
        simp only [Pairs.prod3, Exp.step, Exp.get, ← sub_eq_add_neg] <;>
        first
        | rw [G.d1_L .x ha.1 hb.1 hc.1 hd.1]; ring
        | rw [G.d1_L .y ha.2.1 hb.2.1 hc.2.1 hd.2.1]; ring
        | rw [G.d1_L .z ha.2.2 hb.2.2 hc.2.2 hd.2.2]; ring)
    simp only [Fin.sum_univ_eight, Matrix.cons_val] at this
    rw [this]; ring


theorem pw_succ_shift (A B : ℝ) {a b : ℤ} (ha : 0 ≤ a) (hb : 0 ≤ b) :
    pw A B a (b + 1) = pw A B (a + 1) b + C (A - B) * pw A B a b := by
  rw [pw_comm, pw_succ_left _ _ _ hb, pw_succ_left _ _ _ ha, pw_comm B A, Polynomial.C_sub]
  ring

theorem Pairs.d1_bra (G : Pairs) (i : Dir) {a b : ℤ} (c d : ℤ) (ha : 0 ≤ a) (hb : 0 ≤ b) (u : ℝ) :
    G.d1 i a (b + 1) c d u = G.d1 i (a + 1) b c d u + (G.A i - G.B i) * G.d1 i a b c d u := by
  unfold Pairs.d1
  rw [pw_succ_shift _ _ ha hb, G2_add_left G.hp G.hq _ _ (by positivity), G2_C_left]

theorem Pairs.d1_ket (G : Pairs) (i : Dir) (a b : ℤ) {c d : ℤ} (hc : 0 ≤ c) (hd : 0 ≤ d) (u : ℝ) :
    G.d1 i a b c (d + 1) u = G.d1 i a b (c + 1) d u + (G.C i - G.D i) * G.d1 i a b c d u := by
  unfold Pairs.d1
  rw [pw_succ_shift _ _ hc hd, G2_add_right G.hp G.hq _ _ (by positivity), G2_C_right]

theorem Pairs.eri_hrr (G : Pairs) (K : ℝ) (n : ℕ) :
    HRRFam (fun i => G.A i - G.B i) (fun i => G.C i - G.D i) (G.eri K n) := by
  constructor
  · intro a b c d i ha hb hc hd
    have := G.eri_lin K ![1, G.A i - G.B i] ![n, n] ![a.step i 1, a] ![b, b] ![c, c] ![d, d]
      n a (b.step i 1) c d (by
        intro u
        simp only [Fin.sum_univ_two, Matrix.cons_val]
        cases i <;>
        simp only [Pairs.prod3, Exp.step] <;>
        first
        | rw [G.d1_bra .x _ _ ha.1 hb.1]; ring
        | rw [G.d1_bra .y _ _ ha.2.1 hb.2.1]; ring
        | rw [G.d1_bra .z _ _ ha.2.2 hb.2.2]; ring)
    simp only [Fin.sum_univ_two, Matrix.cons_val] at this
    rw [this]; ring
  · intro a b c d i ha hb hc hd
    have := G.eri_lin K ![1, G.C i - G.D i] ![n, n] ![a, a] ![b, b] ![c.step i 1, c] ![d, d]
      n a b c (d.step i 1) (by
        intro u
        simp only [Fin.sum_univ_two, Matrix.cons_val]
        cases i <;>
        simp only [Pairs.prod3, Exp.step] <;>
        first
        | rw [G.d1_ket .x _ _ hc.1 hd.1]; ring
        | rw [G.d1_ket .y _ _ hc.2.1 hd.2.1]; ring
        | rw [G.d1_ket .z _ _ hc.2.2 hd.2.2]; ring)
    simp only [Fin.sum_univ_two, Matrix.cons_val] at this
    rw [this]; ring

/-- **Horizontal recurrence.** Contracted integrals (finite sums of primitive ones with common
centers and arbitrary factors) satisfy the horizontal recurrences with `AB = A - B`,
`CD = C - D`. -/
theorem C20_horizontal {A B C D : Dir → ℝ} (prims : List (ℝ × Pairs))
    (h : ∀ x ∈ prims, x.2.A = A ∧ x.2.B = B ∧ x.2.C = C ∧ x.2.D = D) :
    HRRFam (fun i => A i - B i) (fun i => C i - D i)
      (fun a b c d => (prims.map fun x => x.2.eri x.1 0 a b c d).sum) := by
  induction prims with
  | nil => constructor <;> intros <;> simp
  | cons x l ih =>
    obtain ⟨hA, hB, hC, hD⟩ := h x (by simp)
    have h1 := x.2.eri_hrr x.1 0
    have h2 := ih fun y hy => h y (by simp [hy])
    rw [hA, hB, hC, hD] at h1
    constructor
    · intro a b c d i ha hb hc hd
      simp only [List.map_cons, List.sum_cons]
      rw [h1.bra a b c d i ha hb hc hd, h2.bra a b c d i ha hb hc hd]; ring
    · intro a b c d i ha hb hc hd
      simp only [List.map_cons, List.sum_cons]
      rw [h1.ket a b c d i ha hb hc hd, h2.ket a b c d i ha hb hc hd]; ring

/-! ## Start values -/

theorem image_boys {r : ℝ} (hr : 0 < r) : (fun u : ℝ => u / √(r + u ^ 2)) '' Ioi 0 = Ioo 0 1 := by
  ext t
  constructor
  · rintro ⟨u, hu, rfl⟩
    have hu : 0 < u := hu
    refine ⟨by positivity, ?_⟩
    rw [div_lt_one (by positivity)]
    exact Real.lt_sqrt_of_sq_lt (by linarith)
  · rintro ⟨h0, h1⟩
    have ht : 0 < 1 - t ^ 2 := by nlinarith
    refine ⟨√r * t / √(1 - t ^ 2), by have : 0 < √r := Real.sqrt_pos.2 hr; simp only [mem_Ioi]; positivity, ?_⟩
    have e : r + (√r * t / √(1 - t ^ 2)) ^ 2 = r / (1 - t ^ 2) := by
      rw [div_pow, mul_pow, Real.sq_sqrt hr.le, Real.sq_sqrt ht.le]
      field_simp
      ring
    simp only
    rw [e, Real.sqrt_div hr.le]
    have h2 : √(1 - t ^ 2) ≠ 0 := (Real.sqrt_pos.2 ht).ne'
    have h3 : √r ≠ 0 := (Real.sqrt_pos.2 hr).ne'
    field_simp

theorem deriv_boys {r : ℝ} (hr : 0 < r) (u : ℝ) :
    HasDerivAt (fun u : ℝ => u / √(r + u ^ 2)) (r / ((r + u ^ 2) * √(r + u ^ 2))) u := by
  have hpos : 0 < r + u ^ 2 := by positivity
  have h1 : HasDerivAt (fun u : ℝ => r + u ^ 2) (2 * u) u := by
    simpa using (hasDerivAt_pow 2 u).const_add r
  have h2 := h1.sqrt hpos.ne'
  have h3 : HasDerivAt (fun u : ℝ => u / √(r + u ^ 2))
      ((1 * √(r + u ^ 2) - u * (2 * u / (2 * √(r + u ^ 2)))) / √(r + u ^ 2) ^ 2) u :=
    (hasDerivAt_id u).div h2 (Real.sqrt_pos.2 hpos).ne'
  have e : r / ((r + u ^ 2) * √(r + u ^ 2)) =
      (1 * √(r + u ^ 2) - u * (2 * u / (2 * √(r + u ^ 2)))) / √(r + u ^ 2) ^ 2 := ?_
  · rw [e]; exact h3
  have hs : √(r + u ^ 2) ≠ 0 := (Real.sqrt_pos.2 hpos).ne'
  have hsq : √(r + u ^ 2) ^ 2 = r + u ^ 2 := Real.sq_sqrt hpos.le
  field_simp
  rw [hsq]
  ring

theorem injOn_boys {r : ℝ} (hr : 0 < r) : InjOn (fun u : ℝ => u / √(r + u ^ 2)) (Ioi 0) := by
  have : StrictMono fun u : ℝ => u / √(r + u ^ 2) :=
    strictMono_of_hasDerivAt_pos (fun u => deriv_boys hr u) fun u => by positivity
  exact this.injective.injOn

/-- Change of variables to the Boys function. -/
theorem integral_tau {r : ℝ} (hr : 0 < r) (T : ℝ) (n : ℕ) :
    ∫ u in Ioi (0 : ℝ), (u ^ 2 / (r + u ^ 2)) ^ n * ((1 / ((r + u ^ 2) * √(r + u ^ 2))) *
      exp (-T * (u ^ 2 / (r + u ^ 2)))) = boysF n T / r := by
  unfold boysF
  rw [← image_boys hr, integral_image_eq_integral_abs_deriv_smul measurableSet_Ioi
    (fun u _ => (deriv_boys hr u).hasDerivWithinAt) (injOn_boys hr), div_eq_mul_inv, ← integral_mul_const]
  refine setIntegral_congr_fun measurableSet_Ioi fun u hu => ?_
  have hpos : 0 < r + u ^ 2 := by positivity
  have hsq : (u / √(r + u ^ 2)) ^ 2 = u ^ 2 / (r + u ^ 2) := by
    rw [div_pow, Real.sq_sqrt hpos.le]
  simp only [smul_eq_mul]
  rw [pow_mul, hsq, abs_of_pos (by positivity)]
  field_simp

/-- Squared distance of the two pair centers. -/
noncomputable def Pairs.R2 (G : Pairs) : ℝ :=
  (G.P .x - G.Q .x) ^ 2 + (G.P .y - G.Q .y) ^ 2 + (G.P .z - G.Q .z) ^ 2

/-- **Start values.** The `(ss|ss)` integrals of all orders are Boys functions of
`ρ |P - Q|^2` times `sqrt (1 / (p + q))` and a factor for each pair, which is what the generated
code stores before the vertical stage. -/
theorem C20_start (G : Pairs) (K : ℝ) (n : ℕ) :
    G.eri K n ⟨0, 0, 0⟩ ⟨0, 0, 0⟩ ⟨0, 0, 0⟩ ⟨0, 0, 0⟩ =
      K * π ^ 3 / (G.p * G.q) * √(1 / (G.p + G.q)) *
        boysF n (G.R2 * (G.p * G.q * (1 / (G.p + G.q)))) := by
  have hp := G.hp; have hq := G.hq; have hr := G.rho_pos
  have h1 : ∀ u, G.prod3 ⟨0, 0, 0⟩ ⟨0, 0, 0⟩ ⟨0, 0, 0⟩ ⟨0, 0, 0⟩ u =
      π ^ 3 / ((G.p + G.q) * √(G.p + G.q)) * (1 / ((G.rho + u ^ 2) * √(G.rho + u ^ 2)) *
        exp (-(G.R2 * G.rho) * (u ^ 2 / (G.rho + u ^ 2)))) := by
    intro u
    have hs : (0 : ℝ) ≤ u ^ 2 := by positivity
    have e0 : ∀ A B : ℝ, pw A B 0 0 = 1 := fun A B => by simp [pw]
    have e1 : G.p * G.q + (G.p + G.q) * u ^ 2 = (G.p + G.q) * (G.rho + u ^ 2) := by
      unfold Pairs.rho; field_simp
    have e2 : G.p * G.q * u ^ 2 / ((G.p + G.q) * (G.rho + u ^ 2)) =
        G.rho * (u ^ 2 / (G.rho + u ^ 2)) := by
      have : G.p * G.q = G.rho * (G.p + G.q) := by unfold Pairs.rho; field_simp
      rw [this]
      field_simp
    simp only [Pairs.prod3, Pairs.d1, e0, G2_one hp hq _ _ hs, e1, e2]
    rw [Real.sqrt_mul (by positivity)]
    set v := u ^ 2 / (G.rho + u ^ 2)
    have e3 : exp (-(G.R2 * G.rho) * v) = exp (-(G.rho * v) * (G.P .x - G.Q .x) ^ 2) *
        exp (-(G.rho * v) * (G.P .y - G.Q .y) ^ 2) * exp (-(G.rho * v) * (G.P .z - G.Q .z) ^ 2) := by
      rw [← exp_add, ← exp_add]
      congr 1
      unfold Pairs.R2
      ring
    rw [e3]
    have e4 : √(G.p + G.q) ^ 2 = G.p + G.q := Real.sq_sqrt (by positivity)
    have e5 : √(G.rho + u ^ 2) ^ 2 = G.rho + u ^ 2 := Real.sq_sqrt (by positivity)
    conv_rhs => rw [← e5, ← e4]
    have e6 : √(√(G.p + G.q) ^ 2) = √(G.p + G.q) := by rw [e4]
    have e7 : √(√(G.rho + u ^ 2) ^ 2) = √(G.rho + u ^ 2) := by rw [e5]
    rw [e6, e7]
    field_simp
  rw [Pairs.eri_eq]
  simp only [h1]
  have h2 := integral_tau hr (G.R2 * G.rho) n
  have h3 : ∀ u, G.tau u ^ n * (π ^ 3 / ((G.p + G.q) * √(G.p + G.q)) *
      (1 / ((G.rho + u ^ 2) * √(G.rho + u ^ 2)) * exp (-(G.R2 * G.rho) * (u ^ 2 / (G.rho + u ^ 2))))) =
      π ^ 3 / ((G.p + G.q) * √(G.p + G.q)) * ((u ^ 2 / (G.rho + u ^ 2)) ^ n *
        (1 / ((G.rho + u ^ 2) * √(G.rho + u ^ 2)) * exp (-(G.R2 * G.rho) * (u ^ 2 / (G.rho + u ^ 2))))) := by
    intro u
    unfold Pairs.tau; ring
  simp only [h3]
  rw [integral_const_mul, h2]
  have e8 : G.p * G.q * (1 / (G.p + G.q)) = G.rho := by unfold Pairs.rho; ring
  rw [e8, Real.sqrt_div zero_le_one, Real.sqrt_one]
  unfold Pairs.rho
  field_simp


/-! ## The integral of order zero is the Coulomb integral -/

section
variable {p q : ℝ} (hp : 0 < p) (hq : 0 < q) (P Q : Dir → ℝ)

/-- Integrand of six coordinates and the coupling. -/
noncomputable def big (p q : ℝ) (P Q : Dir → ℝ) (g h : Dir → ℝ[X]) (w : R6) (u : ℝ) : ℝ :=
  ((g .x).eval w.1.1 * (h .x).eval w.1.2 * w2 p q (P .x) (Q .x) (u ^ 2) w.1) *
  (((g .y).eval w.2.1.1 * (h .y).eval w.2.1.2 * w2 p q (P .y) (Q .y) (u ^ 2) w.2.1) *
   ((g .z).eval w.2.2.1 * (h .z).eval w.2.2.2 * w2 p q (P .z) (Q .z) (u ^ 2) w.2.2))

theorem big_integral (g h : Dir → ℝ[X]) (u : ℝ) :
    ∫ w, big p q P Q g h w u = G2 p q (P .x) (Q .x) (u ^ 2) (g .x) (h .x) *
      (G2 p q (P .y) (Q .y) (u ^ 2) (g .y) (h .y) * G2 p q (P .z) (Q .z) (u ^ 2) (g .z) (h .z)) := by
  unfold big G2
  rw [← integral_prod_mul, ← integral_prod_mul]
  rfl

include hp hq in
theorem big_integrable_w (g h : Dir → ℝ[X]) (u : ℝ) : Integrable fun w => big p q P Q g h w u := by
  have hs : (0 : ℝ) ≤ u ^ 2 := by positivity
  exact (integrable2 hp hq (P .x) (Q .x) hs (g .x) (h .x)).mul_prod
    ((integrable2 hp hq (P .y) (Q .y) hs (g .y) (h .y)).mul_prod
      (integrable2 hp hq (P .z) (Q .z) hs (g .z) (h .z)))

theorem big_continuous (g h : Dir → ℝ[X]) : Continuous fun x : R6 × ℝ => big p q P Q g h x.1 x.2 := by
  unfold big w2 gw
  have c1 : ∀ (f : ℝ[X]) (k : R6 × ℝ → ℝ), Continuous k → Continuous fun x => f.eval (k x) :=
    fun f k hk => f.continuous.comp hk
  refine (((c1 _ _ (by fun_prop)).mul (c1 _ _ (by fun_prop))).mul (by fun_prop)).mul
    ((((c1 _ _ (by fun_prop)).mul (c1 _ _ (by fun_prop))).mul (by fun_prop)).mul
      (((c1 _ _ (by fun_prop)).mul (c1 _ _ (by fun_prop))).mul (by fun_prop)))

include hp hq in
theorem big_integrable_nonneg (g h : Dir → ℝ[X]) (hg : ∀ i x, 0 ≤ (g i).eval x)
    (hh : ∀ i x, 0 ≤ (h i).eval x) :
    Integrable (fun x : R6 × ℝ => big p q P Q g h x.1 x.2)
      ((volume : Measure R6).prod (volume.restrict (Ioi (0 : ℝ)))) := by
  rw [integrable_prod_iff' (big_continuous P Q g h).aestronglyMeasurable]
  refine ⟨Eventually.of_forall fun u => big_integrable_w hp hq P Q g h u, ?_⟩
  have hn : ∀ w u, ‖big p q P Q g h w u‖ = big p q P Q g h w u := by
    intro w u
    rw [Real.norm_eq_abs, abs_of_nonneg]
    have hw : ∀ P Q s z, 0 ≤ w2 p q P Q s z := fun P Q s z => by unfold w2 gw; positivity
    unfold big
    exact mul_nonneg (mul_nonneg (mul_nonneg (hg _ _) (hh _ _)) (hw _ _ _ _))
      (mul_nonneg (mul_nonneg (mul_nonneg (hg _ _) (hh _ _)) (hw _ _ _ _))
        (mul_nonneg (mul_nonneg (hg _ _) (hh _ _)) (hw _ _ _ _)))
  simp only [hn, big_integral]
  have := integrableOn_three hp hq (P .x) (Q .x) (P .y) (Q .y) (P .z) (Q .z) (g .x) (h .x) (g .y) (h .y)
    (g .z) (h .z) (φ := fun _ => 1) stronglyMeasurable_const (by simp)
  simp only [one_mul, mul_assoc] at this
  exact this

include hp hq in
theorem big_integrable (g h : Dir → ℝ[X]) :
    Integrable (fun x : R6 × ℝ => big p q P Q g h x.1 x.2)
      ((volume : Measure R6).prod (volume.restrict (Ioi (0 : ℝ)))) := by
  have hpos : ∀ (f : ℝ[X]) (x : ℝ), 0 ≤ (1 + f * f).eval x := fun f x => by
    simp only [eval_add, eval_one, eval_mul]
    nlinarith [mul_self_nonneg (f.eval x)]
  have h1 := big_integrable_nonneg hp hq P Q (fun i => 1 + g i * g i) (fun i => 1 + h i * h i)
    (fun i x => hpos _ x) (fun i x => hpos _ x)
  refine h1.mono' (big_continuous P Q g h).aestronglyMeasurable (Eventually.of_forall fun x => ?_)
  have hb : ∀ (f : ℝ[X]) (x : ℝ), |f.eval x| ≤ (1 + f * f).eval x := fun f x => by
    simp only [eval_add, eval_one, eval_mul]
    rw [abs_le]
    constructor <;> nlinarith [sq_nonneg (f.eval x - 1), sq_nonneg (f.eval x + 1)]
  have hw : ∀ P Q s z, 0 ≤ w2 p q P Q s z := fun P Q s z => by unfold w2 gw; positivity
  simp only [big, Real.norm_eq_abs, abs_mul, abs_of_nonneg (hw _ _ _ _)]
  have f3 : ∀ (g h : ℝ[X]) (x y v : ℝ), 0 ≤ v →
      |g.eval x| * |h.eval y| * v ≤ (1 + g * g).eval x * (1 + h * h).eval y * v := fun g h x y v hv =>
    mul_le_mul_of_nonneg_right (mul_le_mul (hb _ _) (hb _ _) (abs_nonneg _) (hpos _ _)) hv
  refine mul_le_mul (f3 _ _ _ _ _ (hw _ _ _ _)) (mul_le_mul (f3 _ _ _ _ _ (hw _ _ _ _))
    (f3 _ _ _ _ _ (hw _ _ _ _)) ?_ ?_) ?_ ?_
  · exact mul_nonneg (by positivity) (hw _ _ _ _)
  · exact mul_nonneg (mul_nonneg (hpos _ _) (hpos _ _)) (hw _ _ _ _)
  · exact mul_nonneg (mul_nonneg (by positivity) (hw _ _ _ _)) (mul_nonneg (by positivity) (hw _ _ _ _))
  · exact mul_nonneg (mul_nonneg (hpos _ _) (hpos _ _)) (hw _ _ _ _)

end

/-- The pairs of four primitives: exponents add, the pair center is the weighted mean. -/
noncomputable def pairsOf {α β γ δ : ℝ} (hα : 0 < α) (hβ : 0 < β) (hγ : 0 < γ) (hδ : 0 < δ)
    (A B C D : Dir → ℝ) : Pairs where
  p := α + β
  q := γ + δ
  P := fun i => (α * A i + β * B i) / (α + β)
  Q := fun i => (γ * C i + δ * D i) / (γ + δ)
  A := A
  B := B
  C := C
  D := D
  hp := by positivity
  hq := by positivity

theorem gauss_product {α β : ℝ} (hα : 0 < α) (hβ : 0 < β) (A B x : ℝ) :
    exp (-α * (x - A) ^ 2) * exp (-β * (x - B) ^ 2) =
      exp (-(α * β / (α + β)) * (A - B) ^ 2) * gw (α + β) ((α * A + β * B) / (α + β)) x := by
  unfold gw
  rw [← exp_add, ← exp_add]
  congr 1
  field_simp
  ring

theorem primG_product {α β : ℝ} (hα : 0 < α) (hβ : 0 < β) (A B : Dir → ℝ) (a b : Exp) (r : Dir → ℝ) :
    primG α A a r * primG β B b r = exp (-(α * β / (α + β)) * dist2 A B) *
      (((pw (A .x) (B .x) a.x b.x).eval (r .x) * gw (α + β) ((α * A .x + β * B .x) / (α + β)) (r .x)) *
       ((pw (A .y) (B .y) a.y b.y).eval (r .y) * gw (α + β) ((α * A .y + β * B .y) / (α + β)) (r .y)) *
       ((pw (A .z) (B .z) a.z b.z).eval (r .z) * gw (α + β) ((α * A .z + β * B .z) / (α + β)) (r .z))) := by
  have hx := gauss_product hα hβ (A .x) (B .x) (r .x)
  have hy := gauss_product hα hβ (A .y) (B .y) (r .y)
  have hz := gauss_product hα hβ (A .z) (B .z) (r .z)
  have e1 : ∀ κ : ℝ, ∀ s t : Dir → ℝ, exp (-κ * dist2 s t) = exp (-κ * (s .x - t .x) ^ 2) *
      exp (-κ * (s .y - t .y) ^ 2) * exp (-κ * (s .z - t .z) ^ 2) := by
    intro κ s t
    rw [← exp_add, ← exp_add]
    congr 1
    unfold dist2; ring
  simp only [primG, mono, pw, e1, eval_mul, eval_pow, eval_sub, eval_X, eval_C]
  calc _ = ((r .x - A .x) ^ a.x.toNat * (r .x - B .x) ^ b.x.toNat) *
        ((r .y - A .y) ^ a.y.toNat * (r .y - B .y) ^ b.y.toNat) *
        ((r .z - A .z) ^ a.z.toNat * (r .z - B .z) ^ b.z.toNat) *
        ((exp (-α * (r .x - A .x) ^ 2) * exp (-β * (r .x - B .x) ^ 2)) *
         (exp (-α * (r .y - A .y) ^ 2) * exp (-β * (r .y - B .y) ^ 2)) *
         (exp (-α * (r .z - A .z) ^ 2) * exp (-β * (r .z - B .z) ^ 2))) := by ring
    _ = _ := by rw [hx, hy, hz]; ring

/-- The integrand of the Coulomb integral, written as an integral over the coupling. -/
theorem coulomb_pointwise {α β γ δ : ℝ} (hα : 0 < α) (hβ : 0 < β) (hγ : 0 < γ) (hδ : 0 < δ)
    (A B C D : Dir → ℝ) (a b c d : Exp) (w : R6) :
    2 / √π * exp (-(α * β / (α + β)) * dist2 A B) * exp (-(γ * δ / (γ + δ)) * dist2 C D) *
      ∫ u in Ioi (0 : ℝ), big (α + β) (γ + δ) (fun i => (α * A i + β * B i) / (α + β))
        (fun i => (γ * C i + δ * D i) / (γ + δ)) (fun i => pw (A i) (B i) (a.get i) (b.get i))
        (fun i => pw (C i) (D i) (c.get i) (d.get i)) w u =
    primG α A a w.fst * primG β B b w.fst * (primG γ C c w.snd * primG δ D d w.snd) /
      √(dist2 w.fst w.snd) := by
  set G := pairsOf hα hβ hγ hδ A B C D with hG
  set K1 := exp (-(α * β / (α + β)) * dist2 A B)
  set K2 := exp (-(γ * δ / (γ + δ)) * dist2 C D)
  set g : Dir → ℝ[X] := fun i => pw (A i) (B i) (a.get i) (b.get i)
  set h : Dir → ℝ[X] := fun i => pw (C i) (D i) (c.get i) (d.get i)
  have hu : ∀ w : R6, ∫ u in Ioi (0 : ℝ), big G.p G.q G.P G.Q g h w u =
      big G.p G.q G.P G.Q g h w 0 * (√π / 2 / √(dist2 w.fst w.snd)) := by
    intro w
    have e : ∀ u, big G.p G.q G.P G.Q g h w u =
        big G.p G.q G.P G.Q g h w 0 * exp (-(dist2 w.fst w.snd) * u ^ 2) := by
      intro u
      have : exp (-(dist2 w.fst w.snd) * u ^ 2) = exp (-u ^ 2 * (w.1.1 - w.1.2) ^ 2) *
          exp (-u ^ 2 * (w.2.1.1 - w.2.1.2) ^ 2) * exp (-u ^ 2 * (w.2.2.1 - w.2.2.2) ^ 2) := by
        rw [← exp_add, ← exp_add]
        congr 1
        simp only [dist2, R6.fst, R6.snd]; ring
      rw [this]
      simp only [big, w2, ne_eq, OfNat.ofNat_ne_zero, not_false_eq_true, zero_pow, neg_zero, zero_mul,
        exp_zero, mul_one]
      ring
    rw [setIntegral_congr_fun measurableSet_Ioi fun u _ => e u, integral_const_mul,
      integral_gaussian_Ioi, Real.sqrt_div pi_pos.le]
    ring
  have hu' := hu w
  have hbig : big (α + β) (γ + δ) (fun i => (α * A i + β * B i) / (α + β))
        (fun i => (γ * C i + δ * D i) / (γ + δ)) g h w = big G.p G.q G.P G.Q g h w := rfl
  rw [hbig, hu w]
  rw [primG_product hα hβ, primG_product hγ hδ]
  have hpi : √π ≠ 0 := (Real.sqrt_pos.2 pi_pos).ne'
  have e2 : 2 / √π * (√π / 2) = 1 := by field_simp
  have e3 : big G.p G.q G.P G.Q g h w 0 =
      (((g .x).eval w.1.1 * gw G.p (G.P .x) w.1.1) * ((g .y).eval w.2.1.1 * gw G.p (G.P .y) w.2.1.1) *
        ((g .z).eval w.2.2.1 * gw G.p (G.P .z) w.2.2.1)) *
      (((h .x).eval w.1.2 * gw G.q (G.Q .x) w.1.2) * ((h .y).eval w.2.1.2 * gw G.q (G.Q .y) w.2.1.2) *
        ((h .z).eval w.2.2.2 * gw G.q (G.Q .z) w.2.2.2)) := by
    simp only [big, w2, ne_eq, OfNat.ofNat_ne_zero, not_false_eq_true, zero_pow, neg_zero, zero_mul,
      exp_zero, mul_one]
    ring
  rw [e3]
  show _ = K1 * ((((g .x).eval w.1.1 * gw G.p (G.P .x) w.1.1) * ((g .y).eval w.2.1.1 * gw G.p (G.P .y) w.2.1.1) *
        ((g .z).eval w.2.2.1 * gw G.p (G.P .z) w.2.2.1))) *
      (K2 * (((h .x).eval w.1.2 * gw G.q (G.Q .x) w.1.2) * ((h .y).eval w.2.1.2 * gw G.q (G.Q .y) w.2.1.2) *
        ((h .z).eval w.2.2.2 * gw G.q (G.Q .z) w.2.2.2))) / _
  generalize ((g .x).eval w.1.1 * gw G.p (G.P .x) w.1.1) * ((g .y).eval w.2.1.1 * gw G.p (G.P .y) w.2.1.1) *
        ((g .z).eval w.2.2.1 * gw G.p (G.P .z) w.2.2.1) = E1
  generalize ((h .x).eval w.1.2 * gw G.q (G.Q .x) w.1.2) * ((h .y).eval w.2.1.2 * gw G.q (G.Q .y) w.2.1.2) *
        ((h .z).eval w.2.2.2 * gw G.q (G.Q .z) w.2.2.2) = E2
  generalize √(dist2 w.fst w.snd) = R
  linear_combination (K1 * K2 * E1 * E2 / R) * e2

/-- The integrand of the Coulomb integral is integrable. -/
theorem coulomb_integrable {α β γ δ : ℝ} (hα : 0 < α) (hβ : 0 < β) (hγ : 0 < γ) (hδ : 0 < δ)
    (A B C D : Dir → ℝ) (a b c d : Exp) :
    Integrable fun w : R6 => primG α A a w.fst * primG β B b w.fst *
      (primG γ C c w.snd * primG δ D d w.snd) / √(dist2 w.fst w.snd) := by
  have hint := big_integrable (pairsOf hα hβ hγ hδ A B C D).hp (pairsOf hα hβ hγ hδ A B C D).hq
    (pairsOf hα hβ hγ hδ A B C D).P (pairsOf hα hβ hγ hδ A B C D).Q
    (fun i => pw (A i) (B i) (a.get i) (b.get i)) (fun i => pw (C i) (D i) (c.get i) (d.get i))
  have h1 := hint.integral_prod_left.const_mul
    (2 / √π * exp (-(α * β / (α + β)) * dist2 A B) * exp (-(γ * δ / (γ + δ)) * dist2 C D))
  refine h1.congr (Eventually.of_forall fun w => ?_)
  exact coulomb_pointwise hα hβ hγ hδ A B C D a b c d w

/-- **Coulomb integral.** The auxiliary integral of order zero of the pairs formed from four
primitive Gaussians, with the Gaussian prefactors, is the electron repulsion integral. -/
theorem C20_coulomb {α β γ δ : ℝ} (hα : 0 < α) (hβ : 0 < β) (hγ : 0 < γ) (hδ : 0 < δ)
    (A B C D : Dir → ℝ) (a b c d : Exp) :
    (pairsOf hα hβ hγ hδ A B C D).eri (2 / √π * exp (-(α * β / (α + β)) * dist2 A B) *
      exp (-(γ * δ / (γ + δ)) * dist2 C D)) 0 a b c d = coulomb α β γ δ A B C D a b c d := by
  set G := pairsOf hα hβ hγ hδ A B C D with hG
  set K1 := exp (-(α * β / (α + β)) * dist2 A B)
  set K2 := exp (-(γ * δ / (γ + δ)) * dist2 C D)
  set g : Dir → ℝ[X] := fun i => pw (A i) (B i) (a.get i) (b.get i)
  set h : Dir → ℝ[X] := fun i => pw (C i) (D i) (c.get i) (d.get i)
  have hint := big_integrable G.hp G.hq G.P G.Q g h
  have hsw := integral_integral_swap (f := big G.p G.q G.P G.Q g h) hint
  have hl : G.eri (2 / √π * K1 * K2) 0 a b c d =
      2 / √π * K1 * K2 * ∫ u in Ioi (0 : ℝ), ∫ w, big G.p G.q G.P G.Q g h w u := by
    rw [Pairs.eri_eq]
    simp only [big_integral, pow_zero, one_mul, Pairs.prod3, Pairs.d1, mul_assoc]
    rfl
  rw [hl, ← hsw]
  unfold coulomb
  rw [← integral_const_mul]
  congr 1
  ext w
  exact coulomb_pointwise hα hβ hγ hδ A B C D a b c d w

end Simint
