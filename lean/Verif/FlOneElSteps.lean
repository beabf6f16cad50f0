import Verif.FlOneElLemmas

/-! Steps of the recursions of one-electron integrals on doubles. -/

set_option autoImplicit false

open Real

namespace Simint.FlOneEl

open FlBoys (Arith Rounds u)
open FlPrim (T S T_def S_def T_pos S_pos T_one T_le S_le T_add T_mul T_twice S_twice S_one κT κS ov_T mul_T add_T)
open VRRRound (mul_near fma_near)

/-- `v` is the overlap of one direction up to rounding. -/
def OvlOK (α : ℝ) (A : Dir → ℝ) (β : ℝ) (B : Dir → ℝ) (R : ℝ) (d : Dir) (i j : ℕ) (v : ℝ) : Prop :=
  Approx (38 + 11 * (i + j)) v (ovl1 α (A d) β (B d) i j) (ovlSize α (A d) β (B d) R (i + j))

/-- `v` is the kinetic energy of one direction up to rounding. -/
def KinOK (α : ℝ) (A : Dir → ℝ) (β : ℝ) (B : Dir → ℝ) (R : ℝ) (d : Dir) (i j : ℕ) (v : ℝ) : Prop :=
  Approx (70 + 11 * (i + j)) v (kin1 α (A d) β (B d) i j)
    (ovlSize α (A d) β (B d) R (i + j) * kinScale α β R (i + j))

theorem nat_rl {n : ℕ} (h1 : 1 ≤ n) (h2 : n ≤ 64) : Rl 0 6 (n : ℝ) (n : ℝ) := by
  have a : (1 : ℝ) ≤ n := by exact_mod_cast h1
  have b : (n : ℝ) ≤ 64 := by exact_mod_cast h2
  exact Rl.of_exact ⟨by norm_num; linarith, by norm_num; linarith⟩

section
variable {F : Arith} (hF : Sound F) {α β R : ℝ} (h : PrimIn α β R) {A B : Dir → ℝ} (hA : ∀ d, |A d| ≤ R)
  (hB : ∀ d, |B d| ≤ R) {d : Dir}

include hF h

theorem PA_near (hA : ∀ d, |A d| ≤ R) (hB : ∀ d, |B d| ≤ R) : Approx 7 ((oePar F α A β B).PA d)
    ((α * A d + β * B d) * (1 / (α + β)) - A d) (2 * R + S 900) := diff_near hF h (hA d) (hB d) (hA d)

theorem PB_near (hA : ∀ d, |A d| ≤ R) (hB : ∀ d, |B d| ≤ R) : Approx 7 ((oePar F α A β B).PB d)
    ((α * A d + β * B d) * (1 / (α + β)) - B d) (2 * R + S 900) := diff_near hF h (hA d) (hB d) (hB d)

theorem low_near {n : ℕ} (h1 : 1 ≤ n) (h2 : n ≤ 64) : Approx 7 (F.fl ((n : ℝ) * (oePar F α A β B).oo2p))
    (n * (1 / 2 * (1 / (α + β)))) (n * (1 / (2 * (α + β)))) := by
  have := ((nat_rl h1 h2).flMul hF (oo2p_rl hF h) (by norm_num) (by norm_num)).approx
  refine this.mono (by norm_num) (le_of_eq ?_)
  have := h.sum_pos
  field_simp

theorem low_near' {n : ℕ} (h1 : 1 ≤ n) (h2 : n ≤ 64) : Approx 7 (F.fl ((oePar F α A β B).oo2p * (n : ℝ)))
    (n * (1 / 2 * (1 / (α + β)))) (n * (1 / (2 * (α + β)))) := by
  rw [mul_comm]
  exact low_near hF h h1 h2

theorem mu2_near : Approx 7 (F.fl (2 * (oePar F α A β B).mu)) (2 * (α * β * (1 / (α + β))))
    (2 * (α * β * (1 / (α + β)))) := by
  have h2 : Rl 0 1 (2 : ℝ) 2 := Rl.of_exact ⟨by norm_num, by norm_num⟩
  exact ((h2.flMul hF (mu_rl hF h) (by norm_num) (by norm_num)).approx).mono (by norm_num) le_rfl

theorem ratio_near {a : ℝ} (ha : InR 40 a) {n : ℕ} (h1 : 1 ≤ n) (h2 : n ≤ 64) :
    Approx 7 (F.fl (F.fl (a * (oePar F α A β B).oop) * (n : ℝ))) (a * (1 / (α + β)) * n)
      (a * (1 / (α + β)) * n) :=
  ((((Rl.of_exact ha).flMul hF (oop_rl hF h) (by norm_num) (by norm_num)).flMul hF (nat_rl h1 h2)
    (by norm_num) (by norm_num)).approx).mono (by norm_num) le_rfl

theorem ovl_first (hA : ∀ d, |A d| ≤ R) (hB : ∀ d, |B d| ≤ R) :
    OvlOK α A β B R d 0 0 (start F (oePar F α A β B) (A d) (B d)) := by
  unfold OvlOK
  rw [ovlSize_eq, moment_zero _ h.sum_pos, mul_one]
  exact (start_near hF h (hA d) (hB d)).1

theorem ovlSize_le (hA : ∀ d, |A d| ≤ R) (hB : ∀ d, |B d| ≤ R) (n : ℕ) (hn : n ≤ 37) :
    ovlSize α (A d) β (B d) R n ≤ T (12 + 18 * n) := by
  rw [ovlSize_eq]
  exact mul_T (start_near hF h (hA d) (hB d)).2 (moment_le (reach_nonneg h) h.sum_pos (reach_le h) (hh_le h) n hn)
    (moment_nonneg (reach_nonneg h) h.sum_pos n) le_rfl

theorem ovlSize_T (hA : ∀ d, |A d| ≤ R) (hB : ∀ d, |B d| ≤ R) (n : ℕ) (hn : n ≤ 37) :
    ovlSize α (A d) β (B d) R n ≤ T 1000 := (ovlSize_le hF h hA hB n hn).trans (T_le (by omega))

theorem kinSize_T (hA : ∀ d, |A d| ≤ R) (hB : ∀ d, |B d| ≤ R) (n : ℕ) (hn : n ≤ 37) :
    ovlSize α (A d) β (B d) R n * kinScale α β R n ≤ T 1000 :=
  mul_T (ovlSize_le hF h hA hB n hn) (kinScale_le h n (by omega)) (h.ar.pos.le.trans (kinScale_nonneg h n))
    (by omega)

theorem ovl_col1 (hA : ∀ d, |A d| ≤ R) (hB : ∀ d, |B d| ≤ R) {s : ℝ} (hs : OvlOK α A β B R d 0 0 s) :
    OvlOK α A β B R d 1 0 (F.fl ((oePar F α A β B).PA d * s)) := by
  have st := ovlSize_step h (A := A d) (B := B d) 0 (by norm_num)
  have k : S 1018 ≤ S 990 := S_le (by norm_num)
  have r := step1 hF.toRounds (by norm_num) (ovlSize_T hF h hA hB 1 (by norm_num)) (PA_near (d := d) hF h hA hB) hs
    (by simp at st ⊢; linarith)
  unfold OvlOK
  rw [ovl1_succ_left h.ar.pos h.br.pos]
  simpa using r.mono (by norm_num) le_rfl

theorem ovl_row1 (hA : ∀ d, |A d| ≤ R) (hB : ∀ d, |B d| ≤ R) {s : ℝ} (hs : OvlOK α A β B R d 0 0 s) :
    OvlOK α A β B R d 0 1 (F.fl ((oePar F α A β B).PB d * s)) := by
  have st := ovlSize_step h (A := A d) (B := B d) 0 (by norm_num)
  have k : S 1018 ≤ S 990 := S_le (by norm_num)
  have r := step1 hF.toRounds (by norm_num) (ovlSize_T hF h hA hB 1 (by norm_num)) (PB_near (d := d) hF h hA hB) hs
    (by simp at st ⊢; linarith)
  unfold OvlOK
  rw [ovl1_succ_right h.ar.pos h.br.pos]
  simpa using r.mono (by norm_num) le_rfl

theorem ovl_col (hA : ∀ d, |A d| ≤ R) (hB : ∀ d, |B d| ≤ R) {i : ℕ} (hi : i ≤ 16) {s1 s2 : ℝ}
    (h1 : OvlOK α A β B R d (i + 1) 0 s1) (h2 : OvlOK α A β B R d i 0 s2) :
    OvlOK α A β B R d (i + 2) 0 (F.dot ((oePar F α A β B).PA d) s1
      (F.fl (((i + 1 : ℕ) : ℝ) * (oePar F α A β B).oo2p)) s2) := by
  have st := ovlSize_step h (A := A d) (B := B d) (i + 1) (by omega)
  have k : S 1018 ≤ S 990 := S_le (by norm_num)
  have r := step2 hF.toRounds (by norm_num; omega) (ovlSize_T hF h hA hB (i + 2) (by omega)) (PA_near (d := d) hF h hA hB) h1
    (low_near (A := A) (B := B) hF h (n := i + 1) (by omega) (by omega)) (h2.mono (by omega) le_rfl)
    (by simp only [Nat.add_sub_cancel, Nat.add_zero] at st ⊢; exact (add_le_add_right k _).trans st)
  unfold OvlOK
  rw [show i + 2 = i + 1 + 1 by rfl, ovl1_succ_left h.ar.pos h.br.pos]
  convert r.mono (show _ ≤ 38 + 11 * (i + 1 + 1 + 0) by omega) le_rfl using 1
  · simp; ring

theorem ovl_row (hA : ∀ d, |A d| ≤ R) (hB : ∀ d, |B d| ≤ R) {i : ℕ} (hi : i ≤ 16) {s1 s2 : ℝ}
    (h1 : OvlOK α A β B R d 0 (i + 1) s1) (h2 : OvlOK α A β B R d 0 i s2) :
    OvlOK α A β B R d 0 (i + 2) (F.dot ((oePar F α A β B).PB d) s1
      (F.fl (((i + 1 : ℕ) : ℝ) * (oePar F α A β B).oo2p)) s2) := by
  have st := ovlSize_step h (A := A d) (B := B d) (i + 1) (by omega)
  have k : S 1018 ≤ S 990 := S_le (by norm_num)
  have r := step2 hF.toRounds (by norm_num; omega) (ovlSize_T hF h hA hB (i + 2) (by omega)) (PB_near (d := d) hF h hA hB) h1
    (low_near (A := A) (B := B) hF h (n := i + 1) (by omega) (by omega)) (h2.mono (by omega) le_rfl)
    (by simp only [Nat.add_sub_cancel, Nat.zero_add] at st ⊢; exact (add_le_add_right k _).trans st)
  unfold OvlOK
  rw [show i + 2 = i + 1 + 1 by rfl, ovl1_succ_right h.ar.pos h.br.pos]
  rw [Nat.zero_add]
  convert r.mono (show _ ≤ 38 + 11 * (i + 1 + 1) by omega) le_rfl using 1
  · simp; ring

theorem ovl_rest1 (hA : ∀ d, |A d| ≤ R) (hB : ∀ d, |B d| ≤ R) {i : ℕ} (hi : i ≤ 17) {s1 s3 : ℝ}
    (h1 : OvlOK α A β B R d (i + 1) 0 s1) (h3 : OvlOK α A β B R d i 0 s3) :
    OvlOK α A β B R d (i + 1) 1 (F.dot ((oePar F α A β B).PB d) s1
      (F.fl ((oePar F α A β B).oo2p * ((i + 1 : ℕ) : ℝ))) s3) := by
  have st := ovlSize_step h (A := A d) (B := B d) (i + 1) (by omega)
  have k : S 1018 ≤ S 990 := S_le (by norm_num)
  have r := step2 hF.toRounds (by norm_num; omega) (ovlSize_T hF h hA hB (i + 2) (by omega)) (PB_near (d := d) hF h hA hB) h1
    (low_near' (A := A) (B := B) hF h (n := i + 1) (by omega) (by omega)) (h3.mono (by omega) le_rfl)
    (by simp only [Nat.add_sub_cancel, Nat.add_zero] at st ⊢; exact (add_le_add_right k _).trans st)
  unfold OvlOK
  rw [show (1 : ℕ) = 0 + 1 by rfl, ovl1_succ_right h.ar.pos h.br.pos]
  convert r.mono (show _ ≤ 38 + 11 * (i + 1 + (0 + 1)) by omega) le_rfl using 1
  · simp; ring

theorem ovl_rest (hA : ∀ d, |A d| ≤ R) (hB : ∀ d, |B d| ≤ R) {i j : ℕ} (hi : i ≤ 17) (hj : j ≤ 16)
    {s1 s2 s3 : ℝ} (h1 : OvlOK α A β B R d (i + 1) (j + 1) s1) (h3 : OvlOK α A β B R d i (j + 1) s3)
    (h2 : OvlOK α A β B R d (i + 1) j s2) :
    OvlOK α A β B R d (i + 1) (j + 2) (F.mac (F.fl ((oePar F α A β B).oo2p * ((j + 1 : ℕ) : ℝ))) s2
      (F.dot ((oePar F α A β B).PB d) s1 (F.fl ((oePar F α A β B).oo2p * ((i + 1 : ℕ) : ℝ))) s3)) := by
  have st := ovlSize_step h (A := A d) (B := B d) (i + j + 2) (by omega)
  have k : S 1018 ≤ S 990 := S_le (by norm_num)
  have r := step3 hF.toRounds (by norm_num; omega) (ovlSize_T hF h hA hB (i + j + 3) (by omega)) (PB_near (d := d) hF h hA hB) h1
    (low_near' (A := A) (B := B) hF h (n := i + 1) (by omega) (by omega)) (h3.mono (by omega) le_rfl)
    (low_near' (A := A) (B := B) hF h (n := j + 1) (by omega) (by omega)) (h2.mono (by omega) le_rfl)
    (by
      rw [show i + 1 + (j + 1) = i + j + 2 by omega, show i + (j + 1) = i + j + 2 - 1 by omega,
        show i + 1 + j = i + j + 2 - 1 by omega]
      push_cast at st ⊢
      linarith)
  unfold OvlOK
  rw [show j + 2 = j + 1 + 1 by rfl, ovl1_succ_right h.ar.pos h.br.pos]
  rw [show i + 1 + (j + 1 + 1) = i + j + 3 by omega]
  convert r.mono (show _ ≤ 38 + 11 * (i + j + 3) by omega) le_rfl using 1
  · simp only [Nat.add_sub_cancel]; push_cast; ring

theorem kin_first (hA : ∀ d, |A d| ≤ R) (hB : ∀ d, |B d| ≤ R) {s : ℝ} (hs : OvlOK α A β B R d 0 0 s) :
    KinOK α A β B R d 0 0 (F.fl (s * F.mac (-F.fl (F.fl (2 * α) * α))
      (F.mac ((oePar F α A β B).PA d) ((oePar F α A β B).PA d) (oePar F α A β B).oo2p) α)) := by
  have hκ := κ_pos
  have hα := h.ar.pos
  have hp := h.sum_pos
  have R0 := h.rlo
  have S0 := S_pos 900
  have pa := PA_near (d := d) hF h hA hB
  set D := 2 * R + S 900 with hD
  have D0 : 0 ≤ D := by linarith
  have hh : 1 / 2 * (1 / (α + β)) = 1 / (2 * (α + β)) := by field_simp
  have h0 : 0 < 1 / (2 * (α + β)) := by positivity
  have rD : D ≤ reach R := by rw [reach_eq h]; linarith [reach_gap h, S_pos 21]
  have D2 : D * D ≤ T 34 := mul_T (rD.trans (reach_le h)) (rD.trans (reach_le h)) D0 le_rfl
  have hk1 : κ ≤ 1 := κS ▸ S_one 1022
  have w1 := T_twice (n := 34) rfl
  have w2 := T_twice (n := 35) rfl
  have w3 := T_one 34
  have hl : 1 / (2 * (α + β)) ≤ T 34 := (hh_le h).trans (T_le (by norm_num))
  have n1 : 0 ≤ D * D := mul_nonneg D0 D0
  have sz1 : D * D + 1 / (2 * (α + β)) + 2 * κ ≤ T 36 := by linarith
  have op : Approx 15 (oePar F α A β B).oo2p (1 / 2 * (1 / (α + β))) (1 / 2 * (1 / (α + β))) :=
    ((oo2p_rl hF h).approx).mono (show 4 ≤ 15 by norm_num) le_rfl
  rw [hh] at op
  have t1 := fma_near hF.toRounds pa pa op (by norm_num)
    (ov_T (by norm_num) (by linarith) (sz1.trans (T_le (by norm_num))))
  have h2 : Rl 0 1 (2 : ℝ) 2 := Rl.of_exact ⟨by norm_num, by norm_num⟩
  have sq := (h2.flMul hF (Rl.of_exact h.ar) (by norm_num) (by norm_num)).flMul hF (Rl.of_exact h.ar)
    (by norm_num) (by norm_num)
  have a2 : 2 * α * α ≤ T 81 := mul_T (n := 41) (m := 40)
    (by have := h.ahi; have := T_twice (n := 40) rfl; unfold FlPrim.T at *; linarith) h.ahi hα.le le_rfl
  have sz2 : 2 * α * α * (D * D + 1 / (2 * (α + β)) + 2 * κ) ≤ T 117 :=
    mul_T a2 sz1 (by linarith) le_rfl
  have n2 : 0 ≤ 2 * α * α * (D * D + 1 / (2 * (α + β)) + 2 * κ) :=
    mul_nonneg (by positivity) (by linarith)
  have sa : α ≤ T 117 := (show α ≤ T 40 from h.ahi).trans (T_le (by norm_num))
  have w4 := T_twice (n := 117) rfl
  have w5 := T_twice (n := 118) rfl
  have w6 := T_one 117
  have a0 : Approx 19 α α α := ((Rl.of_exact h.ar).approx).mono (by norm_num) le_rfl
  have t2 := fma_near hF.toRounds sq.approx.neg t1 a0 (by norm_num)
    (ov_T (by norm_num) (by linarith) ((show _ ≤ T 119 by linarith).trans (T_le (by norm_num))))
  have key : 2 * α * α * (D * D + 1 / (2 * (α + β)) + 2 * κ) + α + 2 * κ + S 400 ≤ kinScale α β R 0 := by
    have e : reach R = D + (S 20 - S 900) := reach_eq h
    have g := reach_gap h
    have g1 : D * D + S 21 * S 21 ≤ reach R ^ 2 := by rw [e]; nlinarith [S_pos 21]
    rw [S_mul h] at g1
    have al : S 20 ≤ α := h.alo
    have al2 : S 40 ≤ α * α := by
      have := mul_le_mul al al (S_pos 20).le hα.le
      rwa [S_mul h] at this
    have g2 : 2 * κ ≤ S 43 := by
      have := S_twice (show 1022 = 1021 + 1 by norm_num)
      rw [κS]
      have : S 1021 ≤ S 43 := S_le (by norm_num)
      linarith
    have g3 := S_twice (show 43 = 42 + 1 by norm_num)
    have g4 : S 40 * S 43 ≤ α * α * S 43 := mul_le_mul_of_nonneg_right al2 (S_pos 43).le
    rw [S_mul h] at g4
    have g5 : 2 * κ ≤ S (40 + 43) := by
      have := S_twice (show 1022 = 1021 + 1 by norm_num)
      rw [κS]
      have : S 1021 ≤ S (40 + 43) := S_le (by norm_num)
      linarith
    have g6 : S 400 ≤ S (40 + 43) := S_le (by norm_num)
    unfold kinScale
    simp only [CharP.cast_eq_zero, zero_mul, add_zero]
    have g7 : D * D + 2 * κ + S 43 ≤ reach R ^ 2 := by linarith
    have g8 := mul_le_mul_of_nonneg_left g7 (show 0 ≤ 2 * (α * α) by positivity)
    nlinarith
  have sz0 := size0_ge h (A := A d) (B := B d)
  have hs' := hs
  unfold OvlOK at hs'
  have o0 : ovlSize α (A d) β (B d) R (0 + 0) = size0 α (A d) β (B d) := by
    rw [ovlSize_eq, moment_zero _ h.sum_pos, mul_one]
  rw [o0] at hs'
  have st := (start_near hF h (hA d) (hB d)).2
  have sz3 : 2 * α * α * (D * D + 1 / (2 * (α + β)) + 2 * κ) + α + 2 * κ ≤ T 118 := by
    have := kinScale_le h 0 (by norm_num)
    linarith [S_pos 400]
  have n3 : 0 ≤ 2 * α * α * (D * D + 1 / (2 * (α + β)) + 2 * κ) + α + 2 * κ := by linarith
  have sz4 : size0 α (A d) β (B d) * (2 * α * α * (D * D + 1 / (2 * (α + β)) + 2 * κ) + α + 2 * κ) ≤ T 130 :=
    mul_T st sz3 n3 le_rfl
  have n4 : 0 ≤ size0 α (A d) β (B d) := (S_pos 200).le.trans sz0
  have t3 := mul_near hF.toRounds hs' t2 (ov_T (by norm_num) (mul_nonneg n4 n3) (sz4.trans (T_le (by norm_num))))
  unfold KinOK
  rw [kin1_zero h.ar.pos h.br.pos, o0]
  have fin : size0 α (A d) β (B d) * (2 * α * α * (D * D + 1 / (2 * (α + β)) + 2 * κ) + α + 2 * κ) + κ ≤
      size0 α (A d) β (B d) * kinScale α β R (0 + 0) := by
    have g1 := mul_le_mul_of_nonneg_left key n4
    have g2 := mul_le_mul_of_nonneg_right sz0 (S_pos 400).le
    rw [S_mul h] at g2
    have g3 : κ ≤ S (200 + 400) := κ_le_S (by norm_num)
    rw [mul_add] at g1
    simp only [Nat.add_zero]
    linarith
  have fin' := t3.mono (show _ ≤ 70 + 11 * (0 + 0) by norm_num) fin
  rw [hh]
  convert fin' using 1
  ring

theorem kin_le1 {n : ℕ} (hn : n ≤ 37) {V : ℝ}
    (hV : V = ovlSize α (A d) β (B d) R (n + 1) * kinScale α β R (n + 1)) {a : ℝ} (ha : 0 ≤ a) (ha' : a ≤ α + β) :
    (2 * R + S 900) * (ovlSize α (A d) β (B d) R n * kinScale α β R n) +
      n * (1 / (2 * (α + β))) * (ovlSize α (A d) β (B d) R (n - 1) * kinScale α β R (n - 1)) +
      2 * (α * β * (1 / (α + β))) * ovlSize α (A d) β (B d) R (n + 1) +
      a * (1 / (α + β)) * n * ovlSize α (A d) β (B d) R (n - 1) + S 1018 ≤ V := by
  have k : S 1018 ≤ S 1010 := S_le (by norm_num)
  rw [hV]
  exact (add_le_add_right k _).trans (kin_step h ha ha' n hn)

theorem kin_col1 (hA : ∀ d, |A d| ≤ R) (hB : ∀ d, |B d| ≤ R) {t s : ℝ} (ht : KinOK α A β B R d 0 0 t)
    (hs : OvlOK α A β B R d 1 0 s) :
    KinOK α A β B R d 1 0 (F.dot ((oePar F α A β B).PA d) t (F.fl (2 * (oePar F α A β B).mu)) s) := by
  have st := kin_le1 hF h (A := A) (B := B) (d := d) (n := 0) (by norm_num) rfl le_rfl h.sum_pos.le
  have r := step2 hF.toRounds (by norm_num) (kinSize_T hF h hA hB 1 (by norm_num)) (PA_near (d := d) hF h hA hB) ht
    (mu2_near (A := A) (B := B) hF h) (hs.mono (by norm_num) le_rfl) (by simp at st ⊢; linarith)
  unfold KinOK
  rw [kin1_succ_left h.ar.pos h.br.pos]
  convert r.mono (show _ ≤ 70 + 11 * (0 + 1 + 0) by norm_num) le_rfl using 1
  simp

theorem kin_row1 (hA : ∀ d, |A d| ≤ R) (hB : ∀ d, |B d| ≤ R) {t s : ℝ} (ht : KinOK α A β B R d 0 0 t)
    (hs : OvlOK α A β B R d 0 1 s) :
    KinOK α A β B R d 0 1 (F.dot ((oePar F α A β B).PB d) t (F.fl (2 * (oePar F α A β B).mu)) s) := by
  have st := kin_le1 hF h (A := A) (B := B) (d := d) (n := 0) (by norm_num) rfl le_rfl h.sum_pos.le
  have r := step2 hF.toRounds (by norm_num) (kinSize_T hF h hA hB 1 (by norm_num)) (PB_near (d := d) hF h hA hB) ht
    (mu2_near (A := A) (B := B) hF h) (hs.mono (by norm_num) le_rfl) (by simp at st ⊢; linarith)
  unfold KinOK
  rw [kin1_succ_right h.ar.pos h.br.pos]
  convert r.mono (show _ ≤ 70 + 11 * (0 + (0 + 1)) by norm_num) le_rfl using 1
  simp

theorem kin_col (hA : ∀ d, |A d| ≤ R) (hB : ∀ d, |B d| ≤ R) {i : ℕ} (hi : i ≤ 16) {t1 s0 t2 s2 : ℝ}
    (ht1 : KinOK α A β B R d (i + 1) 0 t1) (hs0 : OvlOK α A β B R d (i + 2) 0 s0)
    (ht2 : KinOK α A β B R d i 0 t2) (hs2 : OvlOK α A β B R d i 0 s2) :
    KinOK α A β B R d (i + 2) 0 (F.fl (F.dot ((oePar F α A β B).PA d) t1 (F.fl (2 * (oePar F α A β B).mu)) s0 +
      F.dot (F.fl (((i + 1 : ℕ) : ℝ) * (oePar F α A β B).oo2p)) t2
        (-F.fl (F.fl (β * (oePar F α A β B).oop) * ((i + 1 : ℕ) : ℝ))) s2)) := by
  have st := kin_le1 hF h (A := A) (B := B) (d := d) (n := i + 1) (by omega) rfl h.br.pos.le
    (show β ≤ α + β by linarith [h.ar.pos])
  have r := step4 hF.toRounds (by norm_num; omega) (kinSize_T hF h hA hB (i + 2) (by omega))
    (PA_near (d := d) hF h hA hB) ht1 (mu2_near (A := A) (B := B) hF h) (hs0.mono (by omega) le_rfl)
    (low_near (A := A) (B := B) hF h (n := i + 1) (by omega) (by omega)) (ht2.mono (by omega) le_rfl)
    (ratio_near (A := A) (B := B) hF h h.br (n := i + 1) (by omega) (by omega)) (hs2.mono (by omega) le_rfl)
    (by simp only [Nat.add_sub_cancel, Nat.add_zero] at st ⊢; rw [show i + 2 = i + 1 + 1 by rfl]; linarith)
  unfold KinOK
  rw [show i + 2 = i + 1 + 1 by rfl, kin1_succ_left h.ar.pos h.br.pos]
  convert r.mono (show _ ≤ 70 + 11 * (i + 1 + 1 + 0) by omega) le_rfl using 1
  simp
  ring

theorem kin_row (hA : ∀ d, |A d| ≤ R) (hB : ∀ d, |B d| ≤ R) {i : ℕ} (hi : i ≤ 16) {t1 s0 t2 s2 : ℝ}
    (ht1 : KinOK α A β B R d 0 (i + 1) t1) (hs0 : OvlOK α A β B R d 0 (i + 2) s0)
    (ht2 : KinOK α A β B R d 0 i t2) (hs2 : OvlOK α A β B R d 0 i s2) :
    KinOK α A β B R d 0 (i + 2) (F.fl (F.dot ((oePar F α A β B).PB d) t1 (F.fl (2 * (oePar F α A β B).mu)) s0 +
      F.dot (F.fl (((i + 1 : ℕ) : ℝ) * (oePar F α A β B).oo2p)) t2
        (-F.fl (F.fl (α * (oePar F α A β B).oop) * ((i + 1 : ℕ) : ℝ))) s2)) := by
  have st := kin_le1 hF h (A := A) (B := B) (d := d) (n := i + 1) (by omega) rfl h.ar.pos.le
    (show α ≤ α + β by linarith [h.br.pos])
  have r := step4 hF.toRounds (by norm_num; omega) (kinSize_T hF h hA hB (i + 2) (by omega))
    (PB_near (d := d) hF h hA hB) ht1 (mu2_near (A := A) (B := B) hF h) (hs0.mono (by omega) le_rfl)
    (low_near (A := A) (B := B) hF h (n := i + 1) (by omega) (by omega)) (ht2.mono (by omega) le_rfl)
    (ratio_near (A := A) (B := B) hF h h.ar (n := i + 1) (by omega) (by omega)) (hs2.mono (by omega) le_rfl)
    (by simp only [Nat.add_sub_cancel, Nat.zero_add] at st ⊢; rw [show i + 2 = i + 1 + 1 by rfl]; linarith)
  unfold KinOK
  rw [show i + 2 = i + 1 + 1 by rfl, kin1_succ_right h.ar.pos h.br.pos, Nat.zero_add]
  convert r.mono (show _ ≤ 70 + 11 * (i + 1 + 1) by omega) le_rfl using 1
  simp
  ring

theorem kin_rest1 (hA : ∀ d, |A d| ≤ R) (hB : ∀ d, |B d| ≤ R) {i : ℕ} (hi : i ≤ 17) {t1 t3 s0 : ℝ}
    (ht1 : KinOK α A β B R d (i + 1) 0 t1) (ht3 : KinOK α A β B R d i 0 t3)
    (hs0 : OvlOK α A β B R d (i + 1) 1 s0) :
    KinOK α A β B R d (i + 1) 1 (F.mac (F.fl (2 * (oePar F α A β B).mu)) s0 (F.dot ((oePar F α A β B).PB d) t1
      (F.fl ((oePar F α A β B).oo2p * ((i + 1 : ℕ) : ℝ))) t3)) := by
  have st := kin_le1 hF h (A := A) (B := B) (d := d) (n := i + 1) (by omega) rfl le_rfl h.sum_pos.le
  have r := step3 hF.toRounds (by norm_num; omega) (kinSize_T hF h hA hB (i + 2) (by omega))
    (PB_near (d := d) hF h hA hB) ht1 (low_near' (A := A) (B := B) hF h (n := i + 1) (by omega) (by omega))
    (ht3.mono (by omega) le_rfl) (mu2_near (A := A) (B := B) hF h) (hs0.mono (by omega) le_rfl)
    (by simp only [Nat.add_sub_cancel, Nat.add_zero, zero_mul] at st ⊢; rw [show i + 2 = i + 1 + 1 by rfl]; linarith)
  unfold KinOK
  rw [show kin1 α (A d) β (B d) (i + 1) 1 = kin1 α (A d) β (B d) (i + 1) (0 + 1) by rfl,
    kin1_succ_right h.ar.pos h.br.pos]
  convert r.mono (show _ ≤ 70 + 11 * (i + 1 + 1) by omega) le_rfl using 1
  simp
  ring

theorem kin_rest (hA : ∀ d, |A d| ≤ R) (hB : ∀ d, |B d| ≤ R) {i j : ℕ} (hi : i ≤ 17) (hj : j ≤ 16)
    {t1 t3 s0 t2 s2 : ℝ} (ht1 : KinOK α A β B R d (i + 1) (j + 1) t1) (ht3 : KinOK α A β B R d i (j + 1) t3)
    (hs0 : OvlOK α A β B R d (i + 1) (j + 2) s0) (ht2 : KinOK α A β B R d (i + 1) j t2)
    (hs2 : OvlOK α A β B R d (i + 1) j s2) :
    KinOK α A β B R d (i + 1) (j + 2) (F.fl (F.mac (F.fl (2 * (oePar F α A β B).mu)) s0
        (F.dot ((oePar F α A β B).PB d) t1 (F.fl ((oePar F α A β B).oo2p * ((i + 1 : ℕ) : ℝ))) t3) +
      F.dot (F.fl ((oePar F α A β B).oo2p * ((j + 1 : ℕ) : ℝ))) t2
        (-F.fl (F.fl (α * (oePar F α A β B).oop) * ((j + 1 : ℕ) : ℝ))) s2)) := by
  have st := kin_le1 hF h (A := A) (B := B) (d := d) (n := i + j + 2) (by omega) rfl h.ar.pos.le
    (show α ≤ α + β by linarith [h.br.pos])
  have hs1 := ovlSize_nonneg h (A := A d) (B := B d) (i + j + 1)
  have hr0 : 0 ≤ α * (1 / (α + β)) := by have := h.ar.pos; have := h.br.pos; positivity
  have r := step5 hF.toRounds (by norm_num; omega) (kinSize_T hF h hA hB (i + j + 3) (by omega))
    (PB_near (d := d) hF h hA hB) ht1 (low_near' (A := A) (B := B) hF h (n := i + 1) (by omega) (by omega))
    (ht3.mono (by omega) le_rfl)
    (low_near' (A := A) (B := B) hF h (n := j + 1) (by omega) (by omega)) (ht2.mono (by omega) le_rfl)
    (ratio_near (A := A) (B := B) hF h h.ar (n := j + 1) (by omega) (by omega)) (hs2.mono (by omega) le_rfl)
    (mu2_near (A := A) (B := B) hF h) (hs0.mono (by omega) le_rfl)
    (by
      rw [show i + 1 + (j + 1) = i + j + 2 by omega, show i + (j + 1) = i + j + 1 by omega,
        show i + 1 + j = i + j + 1 by omega, show i + 1 + (j + 2) = i + j + 2 + 1 by omega]
      rw [show i + j + 2 - 1 = i + j + 1 by omega] at st
      have e : α * (1 / (α + β)) * ((j + 1 : ℕ) : ℝ) * ovlSize α (A d) β (B d) R (i + j + 1) ≤
          α * (1 / (α + β)) * ((i + j + 2 : ℕ) : ℝ) * ovlSize α (A d) β (B d) R (i + j + 1) := by
        refine mul_le_mul_of_nonneg_right (mul_le_mul_of_nonneg_left ?_ hr0) hs1
        exact_mod_cast (by omega : j + 1 ≤ i + j + 2)
      push_cast at st e ⊢
      linarith)
  unfold KinOK
  rw [show j + 2 = j + 1 + 1 by rfl, kin1_succ_right h.ar.pos h.br.pos]
  rw [show i + 1 + (j + 1 + 1) = i + j + 3 by omega]
  convert r.mono (show _ ≤ 70 + 11 * (i + j + 3) by omega) le_rfl using 1
  simp only [Nat.add_sub_cancel]
  push_cast
  ring

end

end Simint.FlOneEl
