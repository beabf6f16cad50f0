import Verif.FlPotSteps

/-! The recursion of the potential integrals on doubles. -/

set_option autoImplicit false

open Real

namespace Simint.FlPot

open FlBoys (Arith Rounds u)
open FlPrim (T S T_def S_def T_pos S_pos T_one T_le S_le T_add T_mul T_twice S_twice S_one κT κS ov_T mul_T add_T)
open VRRRound (mul_near fma_near)
open FlOneEl

section
variable {F : Arith} (hF : Rounds F) {K : ℕ} (hK : K ≤ 2 ^ 19) {V : ℝ} (hV : V ≤ T 1000)
  {x' x D c' c C d' d E f' f H s1' s1 σ1 s2' s2 σ2 s3' s3 σ3 s4' s4 σ4 s5' s5 σ5 : ℝ}
include hF hK hV

/-- Terms 1, 2, 4 and 5 of the step on the second center. -/
theorem step6 (hx : Approx 7 x' x D) (h1 : Approx K s1' s1 σ1) (hc : Approx 7 c' c C)
    (h2 : Approx K s2' s2 σ2) (hd : Approx 7 d' d E) (h3 : Approx K s3' s3 σ3)
    (h4 : Approx K s4' s4 σ4) (hle : D * σ1 + C * σ2 + E * σ3 + E * σ4 + S 1018 ≤ V) :
    Approx (K + 10) (F.fl (F.dot x' s1' c' s2' + F.dot d' s3' (-d') s4'))
      (x * s1 + c * s2 + d * (s3 - s4)) V := by
  have hκ := κ_pos
  rw [κ16] at hle
  have n1 := mul_nonneg hx.nonneg h1.nonneg
  have n2 := mul_nonneg hc.nonneg h2.nonneg
  have n3 := mul_nonneg hd.nonneg h3.nonneg
  have n4 := mul_nonneg hd.nonneg h4.nonneg
  have t1 := FlPrim.dot_near hF hx h1 hc h2 le_rfl (ov_T (by norm_num at hK ⊢; omega) (by linarith) (by linarith))
  have t2 := FlPrim.dot_near hF hd h3 hd.neg h4 le_rfl (ov_T (by norm_num at hK ⊢; omega) (by linarith) (by linarith))
  rw [show d * (s3 - s4) = d * s3 + -d * s4 by ring]
  exact ((t1.add t2).fl hF (ov_T (by norm_num at hK ⊢; omega) (by linarith) (by linarith))).mono
    (by omega) (by linarith)

/-- All terms of the step on the second center. -/
theorem step7 (hx : Approx 7 x' x D) (h1 : Approx K s1' s1 σ1) (hc : Approx 7 c' c C)
    (h2 : Approx K s2' s2 σ2) (hd : Approx 7 d' d E) (h3 : Approx K s3' s3 σ3)
    (h4 : Approx K s4' s4 σ4) (hf : Approx 7 f' f H) (h5 : Approx K s5' s5 σ5)
    (hle : D * σ1 + C * σ2 + E * σ3 + E * σ4 + H * σ5 + S 1018 ≤ V) :
    Approx (K + 11) (F.mac f' s5' (F.fl (F.dot x' s1' c' s2' + F.dot d' s3' (-d') s4')))
      (x * s1 + c * s2 + d * (s3 - s4) + f * s5) V := by
  have hκ := κ_pos
  rw [κ16] at hle
  have n1 := mul_nonneg hx.nonneg h1.nonneg
  have n2 := mul_nonneg hc.nonneg h2.nonneg
  have n3 := mul_nonneg hd.nonneg h3.nonneg
  have n4 := mul_nonneg hd.nonneg h4.nonneg
  have n5 := mul_nonneg hf.nonneg h5.nonneg
  have t1 := FlPrim.dot_near hF hx h1 hc h2 le_rfl (ov_T (by norm_num at hK ⊢; omega) (by linarith) (by linarith))
  have t2 := FlPrim.dot_near hF hd h3 hd.neg h4 le_rfl (ov_T (by norm_num at hK ⊢; omega) (by linarith) (by linarith))
  have t3 := (t1.add t2).fl hF (ov_T (by norm_num at hK ⊢; omega) (by linarith) (by linarith))
  have t4 := fma_near hF hf h5 t3 (by omega) (ov_T (by norm_num at hK ⊢; omega) (by linarith) (by linarith))
  rw [show x * s1 + c * s2 + d * (s3 - s4) + f * s5 = f * s5 + (x * s1 + c * s2 + (d * s3 + -d * s4)) by ring]
  exact t4.mono (by omega) (by linarith)

end

/-- `v` is the auxiliary integral up to rounding. -/
def PotOK {α β R : ℝ} (h : PrimIn α β R) (A B C : Dir → ℝ) (k0 i j m : ℕ) (a b : Exp) (v : ℝ) : Prop :=
  Approx (k0 + 11 * (i + j)) v (nucV h.ar.pos h.br.pos A B C m a b) (potSize α A β B R (i + j))

section
variable {F : Arith} (hF : Sound F) {α β R : ℝ} (h : PrimIn α β R) {A B C : Dir → ℝ}
  (hA : ∀ d, |A d| ≤ R) (hB : ∀ d, |B d| ≤ R) (hC : ∀ d, |C d| ≤ R) {k0 : ℕ} (hk : k0 ≤ 2 ^ 18 + 100)
include hF h hA hB hC hk

/-- The difference of two orders. -/
theorem sub_near {i j m : ℕ} {a b : Exp} {v v' : ℝ} (hl : i + j ≤ 36) (h1 : PotOK h A B C k0 i j m a b v)
    (h2 : PotOK h A B C k0 i j (m + 1) a b v') :
    Approx (k0 + 11 * (i + j + 1)) (F.fl (v - v'))
      (nucV h.ar.pos h.br.pos A B C m a b - nucV h.ar.pos h.br.pos A B C (m + 1) a b)
      (potSize α A β B R (i + j) + potSize α A β B R (i + j) + κ) := by
  have b1 := potSize_le h (A := A) (B := B) (i + j) (by omega)
  have b0 := potSize_nonneg h (A := A) (B := B) (i + j)
  exact ((Approx.sub h1 h2).fl hF.toRounds (ov_T (by norm_num at hk ⊢; omega) (by linarith)
    ((add_T b1 b1 le_rfl).trans (T_le (by omega))))).mono (by omega) le_rfl

theorem bra_step {g : AmDim} (g1 : g.am1 ≤ 18) :
    BraStep F g (FlOneEl.oePar F α A β B) (potPC F α A β B C) (PotOK h A B C k0) := by
  intro i m c d v1 v4 hi hi1 hc hd q1 q4
  obtain ⟨l, rfl⟩ : ∃ l, i = l + 1 := ⟨i - 1, by omega⟩
  have hval := (Exp.valid_step_iff _ d (-1) hc.valid).2 (by omega)
  have hrec := nucV_bra h.ar.pos h.br.pos A B C m (c.step d (-1)) d hval
  rw [Exp.step_back, Exp.get_step_self, Exp.step_two] at hrec
  have hle := hc.valid.get_le_am d
  rw [hc.am_eq] at hle
  have PA := PA_near (d := d) hF h hA hB
  have PC := (PC_near hF h hA hB hC d).neg
  rw [Nat.add_sub_cancel] at q1 q4
  have TV : potSize α A β B R (l + 1) ≤ T 1000 := (potSize_le h (l + 1) (by omega)).trans (T_le (by omega))
  refine ⟨fun e => ?_, fun e v2 v5 q2 q5 => ?_⟩
  · have st := potSize_step h (A := A) (B := B) (l := l) (n1 := 0) (n2 := 0) (by omega) (by omega)
    have r := step2 hF.toRounds (by norm_num at hk ⊢; omega) TV PA q1 PC q4
      (by simp only [Nat.cast_zero, zero_mul, add_zero] at st ⊢; exact st)
    unfold PotOK
    rw [hrec, e]
    convert r.mono (show _ ≤ k0 + 11 * (l + 1 + 0) by omega) le_rfl using 1
    simp only [oePar]
    push_cast; ring
  · obtain ⟨n, hn⟩ : ∃ n : ℕ, c.get d = n + 1 := ⟨(c.get d - 1).toNat, by omega⟩
    obtain ⟨l', rfl⟩ : ∃ l', l = l' + 1 := ⟨l - 1, by omega⟩
    rw [show l' + 1 + 1 - 2 = l' by omega] at q2 q5
    have st := potSize_step h (A := A) (B := B) (l := l' + 1) (n1 := 0) (n2 := n) (by omega) (by omega)
    have sub := sub_near hF h hA hB hC hk (by omega) q2 q5
    have low := low_near' (A := A) (B := B) hF h (n := n) (by omega) (by omega)
    have r := step3 hF.toRounds (by norm_num at hk ⊢; omega) TV PA q1 PC q4 low (sub.mono (by omega) le_rfl)
      (by simp only [Nat.cast_zero, zero_mul, add_zero, Nat.add_sub_cancel] at st ⊢; exact st)
    unfold PotOK
    rw [hrec, show c.get d - 1 = (n : ℤ) by omega, show c.get d + -1 = (n : ℤ) by omega, Int.cast_natCast]
    convert r.mono (show _ ≤ k0 + 11 * (l' + 1 + 1 + 0) by omega) le_rfl using 1
    simp only [Simint.oePar]
    ring

theorem ket_step {g : AmDim} (g1 : g.am1 ≤ 18) (g2 : g.am2 ≤ 18) :
    KetStep F g (FlOneEl.oePar F α A β B) (potPC F α A β B C) (PotOK h A B C k0) := by
  intro i j m a c d v1 v4 x hi hj hj1 ha hc hd q1 q4 part
  obtain ⟨l, rfl⟩ : ∃ l, j = l + 1 := ⟨j - 1, by omega⟩
  have hval := (Exp.valid_step_iff _ d (-1) hc.valid).2 (by omega)
  have hrec := nucV_ket h.ar.pos h.br.pos A B C m a (c.step d (-1)) d ha.valid hval
  rw [Exp.step_back, Exp.get_step_self, Exp.step_two] at hrec
  have hle := hc.valid.get_le_am d
  rw [hc.am_eq] at hle
  have hle1 := ha.valid.get_le_am d
  rw [ha.am_eq] at hle1
  have PB := PB_near (d := d) hF h hA hB
  have PC := (PC_near hF h hA hB hC d).neg
  rw [Nat.add_sub_cancel] at q1 q4
  have TV : potSize α A β B R (i + l + 1) ≤ T 1000 := (potSize_le h _ (by omega)).trans (T_le (by omega))
  have e0 : i + (l + 1) = i + l + 1 := by omega
  rcases part with ⟨ea, rfl⟩ | ⟨ea, v2, v5, q2, q5, rfl⟩
  · refine ⟨fun e => ?_, fun e v3 v6 q3 q6 => ?_⟩
    · have st := potSize_step h (A := A) (B := B) (l := i + l) (n1 := 0) (n2 := 0) (by omega) (by omega)
      have r := step2 hF.toRounds (by norm_num at hk ⊢; omega) TV PB q1 PC q4
        (by simp only [Nat.cast_zero, zero_mul, add_zero] at st ⊢; exact st)
      unfold PotOK
      rw [hrec, e, ea, e0]
      convert r.mono (show _ ≤ k0 + 11 * (i + l + 1) by omega) le_rfl using 1
      simp only [Simint.oePar]
      push_cast; ring
    · obtain ⟨n, hn⟩ : ∃ n : ℕ, c.get d = n + 1 := ⟨(c.get d - 1).toNat, by omega⟩
      obtain ⟨l', rfl⟩ : ∃ l', l = l' + 1 := ⟨l - 1, by omega⟩
      rw [show l' + 1 + 1 - 2 = l' by omega] at q3 q6
      have st := potSize_step h (A := A) (B := B) (l := i + (l' + 1)) (n1 := 0) (n2 := n) (by omega) (by omega)
      rw [show i + (l' + 1) - 1 = i + l' by omega] at st
      have sub := sub_near hF h hA hB hC hk (by omega) q3 q6
      have low := low_near' (A := A) (B := B) hF h (n := n) (by omega) (by omega)
      have r := step3 hF.toRounds (by norm_num at hk ⊢; omega) TV PB q1 PC q4 low (sub.mono (by omega) le_rfl)
        (by simp only [Nat.cast_zero, zero_mul, add_zero] at st ⊢; exact st)
      unfold PotOK
      rw [hrec, ea, e0, show c.get d - 1 = (n : ℤ) by omega, show c.get d + -1 = (n : ℤ) by omega,
        Int.cast_natCast]
      convert r.mono (show _ ≤ k0 + 11 * (i + (l' + 1) + 1) by omega) le_rfl using 1
      simp only [Simint.oePar]
      push_cast; ring
  · obtain ⟨n1, hn1⟩ : ∃ n : ℕ, a.get d = n := ⟨(a.get d).toNat, by omega⟩
    obtain ⟨i', rfl⟩ : ∃ i', i = i' + 1 := ⟨i - 1, by omega⟩
    rw [Nat.add_sub_cancel, Nat.add_sub_cancel] at q2 q5
    have low1 := low_near' (A := A) (B := B) hF h (n := n1) (by omega) (by omega)
    have c2 : k0 + 11 * (i' + l) ≤ k0 + 11 * (i' + 1 + l) := by omega
    refine ⟨fun e => ?_, fun e v3 v6 q3 q6 => ?_⟩
    · have st := potSize_step h (A := A) (B := B) (l := i' + 1 + l) (n1 := n1) (n2 := 0) (by omega) (by omega)
      rw [show i' + 1 + l - 1 = i' + l by omega] at st
      have r := step6 hF.toRounds (by norm_num at hk ⊢; omega) TV PB q1 PC q4 low1 (q2.mono c2 le_rfl)
        (q5.mono c2 le_rfl) (by simp only [Nat.cast_zero, zero_mul, add_zero] at st ⊢; exact st)
      unfold PotOK
      rw [hrec, e, hn1, e0, Int.cast_natCast]
      convert r.mono (show _ ≤ k0 + 11 * (i' + 1 + l + 1) by omega) le_rfl using 1
      simp only [Simint.oePar]
      push_cast; ring
    · obtain ⟨n, hn⟩ : ∃ n : ℕ, c.get d = n + 1 := ⟨(c.get d - 1).toNat, by omega⟩
      obtain ⟨l', rfl⟩ : ∃ l', l = l' + 1 := ⟨l - 1, by omega⟩
      rw [show l' + 1 + 1 - 2 = l' by omega] at q3 q6
      have st := potSize_step h (A := A) (B := B) (l := i' + 1 + (l' + 1)) (n1 := n1) (n2 := n) (by omega) (by omega)
      rw [show i' + 1 + (l' + 1) - 1 = i' + (l' + 1) by omega] at st
      have sub := sub_near hF h hA hB hC hk (by omega) q3 q6
      rw [show i' + 1 + l' = i' + (l' + 1) by omega] at sub
      have low := low_near' (A := A) (B := B) hF h (n := n) (by omega) (by omega)
      have r := step7 hF.toRounds (by norm_num at hk ⊢; omega) TV PB q1 PC q4 low1 (q2.mono c2 le_rfl)
        (q5.mono c2 le_rfl) low (sub.mono (by omega) le_rfl) st
      unfold PotOK
      rw [hrec, hn1, e0, show c.get d - 1 = (n : ℤ) by omega, show c.get d + -1 = (n : ℤ) by omega,
        Int.cast_natCast, Int.cast_natCast]
      convert r.mono (show _ ≤ k0 + 11 * (i' + 1 + (l' + 1) + 1) by omega) le_rfl using 1
      simp only [Simint.oePar]
      ring

end

/-- One center and one pair of primitives. -/
theorem prim_near {F : Arith} (hF : Sound F) {α β R : ℝ} (h : PrimIn α β R) {A B C : Dir → ℝ}
    (hA : ∀ d, |A d| ≤ R) (hB : ∀ d, |B d| ≤ R) (hC : ∀ d, |C d| ≤ R) {vec : Bool} {V kb : ℕ} (hk : kb ≤ 2 ^ 18)
    {g : AmDim} (g1 : g.am1 ≤ 18) (g2 : g.am2 ≤ 18)
    (hboys : ∀ n ≤ g.am1 + g.am2, ∃ y,
      FlBoys.split F vec V (fun _ => potArg F α A β B C) (g.am1 + g.am2) n 0 = some y ∧
      |y - boysF n (potArg F α A β B C)| ≤ ((1 + u) ^ kb - 1) * boysF n (potArg F α A β B C)) (w : AmWork ℝ) :
    ∃ w', potPrim F vec V g α A β B C w = some w' ∧
      ∀ n o, n < nc g.am1 → o < nc g.am2 →
        Approx (kb + 61 + 11 * (g.am1 + g.am2)) (w' g.am1 g.am2 (n * nc g.am2 + o))
          (∫ r : R3, primG α A (compAt g.am1 n) r.dir * primG β B (compAt g.am2 o) r.dir / √(dist2 r.dir C))
          (potSize α A β B R (g.am1 + g.am2)) := by
  have hk' : kb + 61 ≤ 2 ^ 18 + 100 := by omega
  obtain ⟨w', e, f⟩ := potPrim_near (Q := PotOK h A B C (kb + 61)) g1 g2 (bra_step hF h hA hB hC hk' g1)
    (ket_step hF h hA hB hC hk' g1 g2) (fun n hn => by
      obtain ⟨y, e, q⟩ := hboys n hn
      refine ⟨y, e, ?_⟩
      unfold PotOK
      show Approx (kb + 61) _ _ (potSize α A β B R 0)
      rw [potSize_zero h]
      exact start_near hF h hA hB hC hk q) w
  refine ⟨w', e, fun n o hn ho => ?_⟩
  have := f n o hn ho
  unfold PotOK nucV at this
  rw [nuc_integral] at this
  exact this

end Simint.FlPot
