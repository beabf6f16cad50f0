import Verif.FlPrimLemmas
import Verif.Props.RealIntegrals
import Verif.Spec.VRRRound
import Verif.Props.VRRRound

/-! Rounding errors of the variables of the primitive loop and of its start values. -/

set_option autoImplicit false

open Real

namespace Simint.FlPrim

open FlBoys (Arith Rounds u)
open VRRRound (mul_near fma_near ParNear)

/-- The Boys function has slope at most one. -/
theorem boysF_near (n : ℕ) {x y : ℝ} (hx : 0 ≤ x) (hy : 0 ≤ y) : |boysF n x - boysF n y| ≤ |x - y| := by
  have main : ∀ {x y : ℝ}, 0 ≤ x → x ≤ y → |boysF n x - boysF n y| ≤ y - x := by
    intro x y hx h
    have h1 : boysF n y ≤ boysF n x := by
      have := boysF_shift (x := x) (y := y) (d := 0) (by linarith) le_rfl n
      simpa using this
    have h2 := boysF_shift (x := y) (y := x) (d := y - x) (by linarith) (by linarith) n
    have h3 : boysF n x ≤ 1 := boysF_le_one hx
    have h0 := boysF_nonneg n x
    rw [abs_of_nonneg (by linarith)]
    have h4 : exp (-(y - x)) * boysF n x ≤ boysF n y := by
      have := mul_le_mul_of_nonneg_left h2 (exp_nonneg (-(y - x)))
      rwa [← mul_assoc, ← exp_add, neg_add_cancel, exp_zero, one_mul] at this
    have h5 := add_one_le_exp (-(y - x))
    have h6 : (1 - exp (-(y - x))) * boysF n x ≤ (y - x) * boysF n x :=
      mul_le_mul_of_nonneg_right (by linarith) h0
    have h7 : (y - x) * boysF n x ≤ (y - x) * 1 := mul_le_mul_of_nonneg_left h3 (by linarith)
    linarith
  rcases le_total x y with h | h
  · rw [abs_sub_comm x y, abs_of_nonneg (sub_nonneg.2 h)]; exact main hx h
  · rw [abs_sub_comm (boysF n x), abs_of_nonneg (sub_nonneg.2 h)]; exact main hy h

section
variable {F : Arith} (hF : Sound F) {A B C D : Shell ℝ} {a b c d : ℕ} {R : ℝ} (hP : PairIn A B a b R)
  (hQ : PairIn C D c d R) {P Q : MSP ℝ} {i j : ℕ} (eP : Elem P i (value F A B a b))
  (eQ : Elem Q j (value F C D c d))

include hF hP eP in
theorem alpha_rl : Rl 1 101 (P.alpha i) (A.alpha a + B.alpha b) := by
  rw [eP.alpha]; exact sum_rl hF hP

include hF hP eP in
theorem inv_rl : Rl 3 101 (F.fl (1 / P.alpha i)) (1 / (A.alpha a + B.alpha b)) :=
  (alpha_rl hF hP eP).flInv hF (by norm_num) (by norm_num)

include hF hP hQ eP eQ in
theorem ooSum_rl : Rl 4 102 (ooSum F (P.alpha i) (Q.alpha j))
    (1 / (A.alpha a + B.alpha b + (C.alpha c + D.alpha d))) :=
  ((alpha_rl hF hP eP).flAdd hF (alpha_rl hF hQ eQ) (by norm_num) (by norm_num)).flInv hF (by norm_num) (by norm_num)

include hF hP hQ eP eQ in
theorem red_rl : Rl 8 304 (red F (P.alpha i) (Q.alpha j)) ((A.alpha a + B.alpha b) * (C.alpha c + D.alpha d) *
    (1 / (A.alpha a + B.alpha b + (C.alpha c + D.alpha d)))) :=
  ((alpha_rl hF hP eP).flMul hF (alpha_rl hF hQ eQ) (by norm_num) (by norm_num)).flMul hF
    (ooSum_rl hF hP hQ eP eQ) (by norm_num) (by norm_num)

include hF hP in
theorem diffMax_le : diffMax R ≤ T 102 ∧ 0 < diffMax R := by
  have h := hP.R0
  have h1 : R ≤ T 100 := hP.rhi
  have h2 := S_one 800
  have h3 := S_pos 800
  have h4 := T_twice (n := 100) rfl
  have h5 := T_twice (n := 101) rfl
  have h6 := T_one 100
  unfold diffMax
  rw [S_def]
  constructor <;> linarith

include hF hP hQ eP eQ in
theorem pq_near (d' : Dir) : Approx 6 (pq F P Q i j d') (center A B a b d' - center C D c d d') (diffMax R) := by
  unfold pq
  rw [eP.pos, eQ.pos]
  exact diff_near hF hP (pos_near hF hQ d') d'

/-- The quotient of exponents that multiplies the distance. -/
theorem frac_le {x y : ℝ} (hx : InR 101 x) (hy : InR 101 y) : x * y * (1 / (x + y)) * (1 / x) + κ ≤ 1 ∧
    0 < x * y * (1 / (x + y)) * (1 / x) := by
  have h1 := hx.pos
  have h2 := hy.pos
  have e : x * y * (1 / (x + y)) * (1 / x) = 1 - x * (1 / (x + y)) := by field_simp; ring
  have h3 : κ ≤ x * (1 / (x + y)) := by
    have := (hx.mul (hx.add hy).inv).lo
    refine le_trans ?_ this
    rw [κS, S_def]
    exact S_le (by norm_num)
  exact ⟨by rw [e]; linarith, by positivity⟩

include hF hP hQ eP eQ in
/-- The variables of the loop. -/
theorem vars_near : ParNear 19 (allVars F P Q i j)
    (pairsOf hP.ar.pos hP.br.pos hQ.ar.pos hQ.br.pos A.pos B.pos C.pos D.pos).par
    (parMax R (A.alpha a + B.alpha b) (C.alpha c + D.alpha d)) := by
  have hκ := κ_pos
  have hκ1 : κ ≤ 1 := κS ▸ S_one 1022
  have rl := red_rl hF hP hQ eP eQ
  have oo := ooSum_rl hF hP hQ eP eQ
  have ip := inv_rl hF hP eP
  have iq := inv_rl hF hQ eQ
  obtain ⟨D1, D0⟩ := diffMax_le hF hP
  have half : Rl 0 1 ((1 : ℝ) / 2) (1 / 2) := Rl.of_exact ⟨by norm_num, by norm_num⟩
  have fp := frac_le hP.sumR hQ.sumR
  have fq : (A.alpha a + B.alpha b) * (C.alpha c + D.alpha d) *
      (1 / (A.alpha a + B.alpha b + (C.alpha c + D.alpha d))) * (1 / (C.alpha c + D.alpha d)) + κ ≤ 1 ∧
      0 < (A.alpha a + B.alpha b) * (C.alpha c + D.alpha d) *
      (1 / (A.alpha a + B.alpha b + (C.alpha c + D.alpha d))) * (1 / (C.alpha c + D.alpha d)) := by
    have := frac_le hQ.sumR hP.sumR
    rwa [mul_comm (C.alpha c + D.alpha d) (A.alpha a + B.alpha b),
      add_comm (C.alpha c + D.alpha d) (A.alpha a + B.alpha b)] at this
  have aop : Approx 12 (F.fl (-red F (P.alpha i) (Q.alpha j) * F.fl (1 / P.alpha i)))
      (-((A.alpha a + B.alpha b) * (C.alpha c + D.alpha d) *
        (1 / (A.alpha a + B.alpha b + (C.alpha c + D.alpha d)))) * (1 / (A.alpha a + B.alpha b))) 1 := by
    have h := (rl.approx.mul ip.approx).neg
    rw [← neg_mul, ← neg_mul] at h
    refine (h.fl hF.toRounds (ov_T (by norm_num) fp.2.le ?_)).mono (by norm_num) fp.1
    exact le_trans (by linarith) (T_one _)
  have aoq : Approx 12 (over F (red F (P.alpha i) (Q.alpha j)) (Q.alpha j))
      ((A.alpha a + B.alpha b) * (C.alpha c + D.alpha d) *
        (1 / (A.alpha a + B.alpha b + (C.alpha c + D.alpha d))) * (1 / (C.alpha c + D.alpha d))) 1 :=
    (rl.flMul hF iq (by norm_num) (by norm_num)).approx.mono (by norm_num) (by linarith)
  have l1 : (1 : ℝ) * diffMax R ≤ T 1000 := by rw [one_mul]; exact D1.trans (T_le (by norm_num))
  constructor
  · intro e
    show Approx 19 (P.PA e i) _ _
    rw [eP.PA]
    exact (PA_near hF hP e).mono (by norm_num) le_rfl
  · intro e
    show Approx 19 (P.PB e i) _ _
    rw [eP.PB]
    exact (PB_near hF hP e).mono (by norm_num) le_rfl
  · intro e
    show Approx 19 (Q.PA e j) _ _
    rw [eQ.PA]
    exact (PA_near hF hQ e).mono (by norm_num) le_rfl
  · intro e
    show Approx 19 (Q.PB e j) _ _
    rw [eQ.PB]
    exact (PB_near hF hQ e).mono (by norm_num) le_rfl
  · intro e
    exact (mul_near hF.toRounds aop (pq_near hF hP hQ eP eQ e) (ov_T (by norm_num) (by linarith) l1)).mono
      (by norm_num) (by rw [one_mul]; exact le_rfl)
  · intro e
    exact (mul_near hF.toRounds aoq (pq_near hF hP hQ eP eQ e) (ov_T (by norm_num) (by linarith) l1)).mono
      (by norm_num) (by rw [one_mul]; exact le_rfl)
  · exact aop.mono (by norm_num) le_rfl
  · exact aoq.neg.mono (by norm_num) le_rfl
  · exact (half.flMul hF ip (by norm_num) (by norm_num)).approx.mono (by norm_num) le_rfl
  · exact (half.flMul hF iq (by norm_num) (by norm_num)).approx.mono (by norm_num) le_rfl
  · exact (half.flMul hF oo (by norm_num) (by norm_num)).approx.mono (by norm_num) le_rfl

include hF in
theorem r2_nonneg : 0 ≤ r2 F P Q i j :=
  mac_sq_nonneg hF (mac_sq_nonneg hF (hF.nonneg _ (mul_self_nonneg _)))

include hF hP hQ eP eQ in
theorem r2_near : Approx 15 (r2 F P Q i j) (dist2 (center A B a b) (center C D c d))
    (3 * diffMax R ^ 2 + 5 * κ) := by
  obtain ⟨D1, D0⟩ := diffMax_le hF hP
  have hκ := κ_pos
  have hκ1 : κ ≤ 1 := κS ▸ S_one 1022
  have t1 := T_one 204
  have sq : diffMax R * diffMax R ≤ T 204 := mul_T D1 D1 D0.le le_rfl
  have s0 : 0 < diffMax R * diffMax R := mul_pos D0 D0
  have k1 := T_twice (n := 204) rfl
  have k2 := T_twice (n := 205) rfl
  have k3 := T_twice (n := 206) rfl
  have k4 := T_twice (n := 207) rfl
  have n := fun e => pq_near hF hP hQ eP eQ e
  have x := mul_near hF.toRounds (n .x) (n .x) (ov_T (by norm_num) s0.le (sq.trans (T_le (by norm_num))))
  have y := fma_near hF.toRounds (n .y) (n .y) x le_rfl (ov_T (by norm_num) (by linarith)
    (le_trans (show _ ≤ T 208 by linarith) (T_le (by norm_num))))
  have z := fma_near hF.toRounds (n .z) (n .z) y (by norm_num) (ov_T (by norm_num) (by linarith)
    (le_trans (show _ ≤ T 208 by linarith) (T_le (by norm_num))))
  have e : (center A B a b .z - center C D c d .z) * (center A B a b .z - center C D c d .z) +
      ((center A B a b .y - center C D c d .y) * (center A B a b .y - center C D c d .y) +
        (center A B a b .x - center C D c d .x) * (center A B a b .x - center C D c d .x)) =
      dist2 (center A B a b) (center C D c d) := by unfold dist2; ring
  rw [e] at z
  exact z.mono (by norm_num) (le_of_eq (by ring))

/-- The argument of the Boys function. -/
noncomputable def argT (A B C D : Shell ℝ) (a b c d : ℕ) : ℝ :=
  dist2 (center A B a b) (center C D c d) * ((A.alpha a + B.alpha b) * (C.alpha c + D.alpha d) *
    (1 / (A.alpha a + B.alpha b + (C.alpha c + D.alpha d))))

include hP hQ in
theorem argT_nonneg : 0 ≤ argT A B C D a b c d := by
  have h1 := hP.sumR.pos
  have h2 := hQ.sumR.pos
  unfold argT dist2
  positivity

include hP hQ in
theorem rho_le : (A.alpha a + B.alpha b) * (C.alpha c + D.alpha d) *
    (1 / (A.alpha a + B.alpha b + (C.alpha c + D.alpha d))) ≤ T 101 := by
  have h1 := hP.sumR.pos
  have h2 := hQ.sumR.pos
  have h3 : A.alpha a + B.alpha b ≤ T 101 := hP.sumR.hi
  rw [mul_one_div, div_le_iff₀ (by positivity)]
  exact mul_le_mul h3 (by linarith) h2.le (T_pos _).le

include hF hP hQ eP eQ in
theorem fx_near : 0 ≤ fx F P Q i j ∧ Approx 24 (fx F P Q i j) (argT A B C D a b c d)
    (3 * diffMax R ^ 2 * ((A.alpha a + B.alpha b) * (C.alpha c + D.alpha d) *
    (1 / (A.alpha a + B.alpha b + (C.alpha c + D.alpha d)))) + 1) := by
  have rl := red_rl hF hP hQ eP eQ
  have r0 := rl.pos' (by norm_num)
  have rr := rho_le hP hQ
  have rp := rl.pos
  obtain ⟨D1, D0⟩ := diffMax_le hF hP
  have hκ := κ_pos
  have hκ1 : κ ≤ 1 := κS ▸ S_one 1022
  refine ⟨hF.nonneg _ (mul_nonneg (r2_nonneg hF) r0.le), ?_⟩
  have t1 := T_one 204
  have sq : diffMax R ^ 2 ≤ T 204 := by rw [sq]; exact mul_T D1 D1 D0.le le_rfl
  have s0 : 0 < diffMax R ^ 2 := pow_pos D0 2
  have k1 := T_twice (n := 204) rfl
  have k2 := T_twice (n := 205) rfl
  have k3 := T_twice (n := 206) rfl
  have l1 : 3 * diffMax R ^ 2 + 5 * κ ≤ T 207 := by linarith
  have n1 : 0 ≤ 3 * diffMax R ^ 2 + 5 * κ := by linarith
  have m := mul_near hF.toRounds (r2_near hF hP hQ eP eQ) rl.approx (ov_T (by norm_num) (mul_nonneg n1 rp.le)
    ((mul_T l1 rr rp.le le_rfl).trans (T_le (by norm_num))))
  refine m.mono le_rfl ?_
  have l2 : κ * (8 * T 101) ≤ 1 := by
    have e : 8 * T 101 = T 104 := by
      have k1 := T_twice (n := 101) rfl
      have k2 := T_twice (n := 102) rfl
      have k3 := T_twice (n := 103) rfl
      linarith
    rw [e, κT (show 104 + 918 = 1022 by norm_num)]
    exact S_one _
  have l3 : κ * ((A.alpha a + B.alpha b) * (C.alpha c + D.alpha d) *
    (1 / (A.alpha a + B.alpha b + (C.alpha c + D.alpha d)))) ≤ κ * T 101 := mul_le_mul_of_nonneg_left rr hκ.le
  have l4 : κ * 1 ≤ κ * T 101 := mul_le_mul_of_nonneg_left (T_one _) hκ.le
  generalize (A.alpha a + B.alpha b) * (C.alpha c + D.alpha d) *
    (1 / (A.alpha a + B.alpha b + (C.alpha c + D.alpha d))) = r at l3 ⊢
  rw [add_mul]
  linarith

include hF hP hQ eP eQ in
/-- A computed value of the Boys function at the computed argument. -/
theorem boys_near {kb n : ℕ} {y : ℝ} (hy : |y - boysF n (fx F P Q i j)| ≤ γ kb * boysF n (fx F P Q i j)) :
    Approx (kb + 24) y (boysF n (argT A B C D a b c d))
      (2 + 3 * diffMax R ^ 2 * ((A.alpha a + B.alpha b) * (C.alpha c + D.alpha d) /
        (A.alpha a + B.alpha b + (C.alpha c + D.alpha d)))) := by
  obtain ⟨x0, hx⟩ := fx_near hF hP hQ eP eQ
  have t0 := argT_nonneg hP hQ
  rw [mul_one_div] at hx
  have h1 := boysF_near n x0 t0
  have h2 := hx.err
  have h3 := hx.nonneg
  have h4 : boysF n (fx F P Q i j) ≤ 1 := boysF_le_one x0
  have h5 : boysF n (argT A B C D a b c d) ≤ 1 := boysF_le_one t0
  have h6 := boysF_nonneg n (argT A B C D a b c d)
  have g1 : γ kb ≤ γ (kb + 24) := γ_mono (by omega)
  have g2 : γ 24 ≤ γ (kb + 24) := γ_mono (by omega)
  have g0 := γ_nonneg kb
  set X := 3 * diffMax R ^ 2 * ((A.alpha a + B.alpha b) * (C.alpha c + D.alpha d) /
        (A.alpha a + B.alpha b + (C.alpha c + D.alpha d)))
  have hX : 0 ≤ X := by
    have := hP.sumR.pos
    have := hQ.sumR.pos
    positivity
  constructor
  · rw [abs_of_nonneg h6]; linarith
  · have e1 : γ kb * boysF n (fx F P Q i j) ≤ γ kb * 1 := mul_le_mul_of_nonneg_left h4 g0
    have e2 : γ 24 * (X + 1) ≤ γ (kb + 24) * (X + 1) := mul_le_mul_of_nonneg_right g2 h3
    have e3 := abs_sub_le y (boysF n (fx F P Q i j)) (boysF n (argT A B C D a b c d))
    calc |y - boysF n (argT A B C D a b c d)| ≤ γ (kb + 24) * 1 + γ (kb + 24) * (X + 1) := by linarith
      _ = γ (kb + 24) * (2 + X) := by ring

include hF hP hQ eP eQ in
theorem start_near {kb n : ℕ} {y : ℝ} (hk : kb ≤ 2 ^ 19)
    (hy : |y - boysF n (fx F P Q i j)| ≤ γ kb * boysF n (fx F P Q i j)) :
    Approx (kb + 110) (F.fl (y * prefac F P Q i j (Q.prefac j)))
      (boysF n (argT A B C D a b c d) * (factor A B a b * factor C D c d *
        √(1 / (A.alpha a + B.alpha b + (C.alpha c + D.alpha d))))) (startMax A B C D a b c d R) := by
  have hκ := κ_pos
  have hκ1 : κ ≤ 1 := κS ▸ S_one 1022
  obtain ⟨P1, P0⟩ := factorMax_le hF hP
  obtain ⟨Q1, Q0⟩ := factorMax_le hF hQ
  obtain ⟨D1, D0⟩ := diffMax_le hF hP
  have fp := prefac_near hF hP
  have fq := prefac_near hF hQ
  have s := (ooSum_rl hF hP hQ eP eQ).flSqrt hF (by norm_num) (by norm_num)
  have s1 : √(1 / (A.alpha a + B.alpha b + (C.alpha c + D.alpha d))) ≤ T 102 := s.rng.hi
  have s0 := s.pos
  have hb := boys_near hF hP hQ eP eQ hy
  have rr := rho_le hP hQ
  rw [mul_one_div] at rr
  have r0 : 0 < (A.alpha a + B.alpha b) * (C.alpha c + D.alpha d) /
        (A.alpha a + B.alpha b + (C.alpha c + D.alpha d)) := by
    have := hP.sumR.pos
    have := hQ.sumR.pos
    positivity
  unfold prefac startMax
  simp only
  rw [eP.prefac, eQ.prefac, S_def]
  set r := (A.alpha a + B.alpha b) * (C.alpha c + D.alpha d) /
        (A.alpha a + B.alpha b + (C.alpha c + D.alpha d))
  set w := √(1 / (A.alpha a + B.alpha b + (C.alpha c + D.alpha d)))
  have b1 : 2 + 3 * diffMax R ^ 2 * r ≤ T 308 := by
    have sq : diffMax R ^ 2 ≤ T 204 := by rw [sq]; exact mul_T D1 D1 D0.le le_rfl
    have k0 := mul_T sq rr r0.le (le_refl 305)
    have k1 := T_twice (n := 305) rfl
    have k2 := T_twice (n := 306) rfl
    have k3 := T_twice (n := 307) rfl
    linarith [T_one 305]
  have b0 : 2 ≤ 2 + 3 * diffMax R ^ 2 * r := by
    have : 0 ≤ 3 * diffMax R ^ 2 * r := by positivity
    linarith
  set V := 2 + 3 * diffMax R ^ 2 * r
  have pq1 : factorMax A B a b * factorMax C D c d ≤ T 410 := mul_T P1 Q1 Q0.le le_rfl
  have pq0 := mul_pos P0 Q0
  have m1 := mul_near hF.toRounds fp fq (ov_T (by norm_num) pq0.le (pq1.trans (T_le (by norm_num))))
  have pq2 : factorMax A B a b * factorMax C D c d + κ ≤ T 411 := add_T pq1 (hκ1.trans (T_one _)) le_rfl
  have l2 : (factorMax A B a b * factorMax C D c d + κ) * w ≤ T 513 := mul_T pq2 s1 s0.le le_rfl
  have n2 : 0 ≤ (factorMax A B a b * factorMax C D c d + κ) * w := mul_nonneg (by linarith) s0.le
  have m2 := mul_near hF.toRounds m1 s.approx (ov_T (by norm_num) n2 (l2.trans (T_le (by norm_num))))
  have l3 : (factorMax A B a b * factorMax C D c d + κ) * w + κ ≤ T 514 := add_T l2 (hκ1.trans (T_one _)) le_rfl
  have n3 : 0 ≤ (factorMax A B a b * factorMax C D c d + κ) * w + κ := by linarith
  have m3 := mul_near hF.toRounds hb m2 (ov_T (by omega) (mul_nonneg (by linarith) n3)
    ((mul_T b1 l3 n3 le_rfl).trans (T_le (by norm_num))))
  refine m3.mono (by omega) ?_
  have h1 : κ * w ≤ κ * T 102 := mul_le_mul_of_nonneg_left s1 hκ.le
  have h2 : κ * 1 ≤ κ * T 102 := mul_le_mul_of_nonneg_left (T_one _) hκ.le
  have h3 : κ * (2 * T 102) = κ * T 103 := by rw [T_twice rfl]
  have h4 : κ * (2 * T 103) = κ * T 104 := by rw [T_twice rfl]
  have h5 : κ * T 104 ≤ S 800 := by
    rw [κT (show 104 + 918 = 1022 by norm_num)]; exact S_le (by norm_num)
  have h6 : κ ≤ V * κ := by
    have := mul_le_mul_of_nonneg_right (show 1 ≤ V by linarith) hκ.le
    linarith
  calc V * ((factorMax A B a b * factorMax C D c d + κ) * w + κ) + κ
      ≤ V * ((factorMax A B a b * factorMax C D c d + κ) * w + κ) + V * κ := by linarith
    _ = V * (factorMax A B a b * factorMax C D c d * w + (κ * w + κ + κ)) := by ring
    _ ≤ V * (factorMax A B a b * factorMax C D c d * w + S 800) := by
        refine mul_le_mul_of_nonneg_left ?_ (by linarith)
        linarith

/-- The constant in front of the integrals over the product Gaussians. -/
noncomputable def scale (A B C D : Shell ℝ) (a b c d : ℕ) : ℝ :=
  coefs A B C D a b c d * (2 / √π * exp (-(A.alpha a * B.alpha b / (A.alpha a + B.alpha b)) * dist2 A.pos B.pos) *
    exp (-(C.alpha c * D.alpha d / (C.alpha c + D.alpha d)) * dist2 C.pos D.pos))

theorem const_sq : √2 * π ^ ((5 : ℝ) / 4) * (√2 * π ^ ((5 : ℝ) / 4)) = 2 / √π * π ^ 3 := by
  have hp := pi_pos
  have h2 : √2 * √2 = (2 : ℝ) := mul_self_sqrt (by norm_num)
  have h3 : π ^ ((5 : ℝ) / 4) * π ^ ((5 : ℝ) / 4) * √π = π ^ 3 := by
    rw [sqrt_eq_rpow, ← rpow_add hp, ← rpow_add hp, ← rpow_natCast]
    norm_num
  have h4 : 0 < √π := sqrt_pos.2 hp
  field_simp
  rw [sq, h2, ← h3]
  ring

include hP hQ in
theorem eri_start (n : ℕ) : (pairsOf hP.ar.pos hP.br.pos hQ.ar.pos hQ.br.pos A.pos B.pos C.pos D.pos).eri
      (scale A B C D a b c d) n ⟨0, 0, 0⟩ ⟨0, 0, 0⟩ ⟨0, 0, 0⟩ ⟨0, 0, 0⟩ =
    boysF n (argT A B C D a b c d) * (factor A B a b * factor C D c d *
        √(1 / (A.alpha a + B.alpha b + (C.alpha c + D.alpha d)))) := by
  rw [C20_start]
  have h1 := hP.sumR.pos.ne'
  have h2 := hQ.sumR.pos.ne'
  have e1 : scale A B C D a b c d * π ^ 3 / ((A.alpha a + B.alpha b) * (C.alpha c + D.alpha d)) =
      factor A B a b * factor C D c d := by
    unfold scale factor coefs gexp
    rw [neg_mul, neg_mul]
    generalize exp (-(A.alpha a * B.alpha b / (A.alpha a + B.alpha b) * dist2 A.pos B.pos)) = x
    generalize exp (-(C.alpha c * D.alpha d / (C.alpha c + D.alpha d) * dist2 C.pos D.pos)) = y
    have e := const_sq
    generalize √2 * π ^ ((5 : ℝ) / 4) = z at e
    have e' : mult A B a b * (A.coef a * B.coef b) * (mult C D c d * (C.coef c * D.coef d)) *
        (2 / √π * x * y) * π ^ 3 = mult A B a b * (A.coef a * B.coef b) * (mult C D c d * (C.coef c * D.coef d)) *
        (x * y) * (z * z) := by rw [e]; ring
    rw [e']
    field_simp
  show scale A B C D a b c d * π ^ 3 / ((A.alpha a + B.alpha b) * (C.alpha c + D.alpha d)) * _ *
    boysF n (argT A B C D a b c d) = _
  rw [e1]
  exact mul_comm _ _

include hP hQ in
theorem eri_zero (e f g h : Exp) : (pairsOf hP.ar.pos hP.br.pos hQ.ar.pos hQ.br.pos A.pos B.pos C.pos D.pos).eri
      (scale A B C D a b c d) 0 e f g h = coefs A B C D a b c d *
    coulomb (A.alpha a) (B.alpha b) (C.alpha c) (D.alpha d) A.pos B.pos C.pos D.pos e f g h := by
  rw [← C20_coulomb hP.ar.pos hP.br.pos hQ.ar.pos hQ.br.pos]
  unfold Pairs.eri scale
  ring

end

end Simint.FlPrim
