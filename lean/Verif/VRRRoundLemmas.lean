import Verif.VRRRound
import Verif.Spec.VRRRound
import Verif.VRRExecLemmas

/-!
# Rounding errors of the vertical stage
-/

set_option autoImplicit false

namespace Simint.VRRRound

open FlBoys (Arith Rounds u η)

theorem ov_mono {k l : ℕ} {X B : ℝ} (hk : k ≤ l) (hX : X ≤ B) (hB : 0 ≤ B)
    (h : (1 + u) ^ l * B ≤ 2 ^ 1023) : (1 + u) ^ k * X ≤ 2 ^ 1023 := by
  refine le_trans ?_ h
  have h1 := uPow_mono hk
  have h0 : 0 ≤ (1 + u) ^ k := by have := u_pos; positivity
  exact (mul_le_mul_of_nonneg_left hX h0).trans (mul_le_mul_of_nonneg_right h1 hB)

section
variable {F : Arith} {k l m : ℕ} {a' a A b' b B c' c C : ℝ}

/-- A product. -/
theorem mul_near (hF : Rounds F) (ha : Approx k a' a A) (hb : Approx l b' b B)
    (ov : (1 + u) ^ (k + l) * (A * B) ≤ 2 ^ 1023) :
    Approx (k + l + 1) (F.fl (a' * b')) (a * b) (A * B + κ) := (ha.mul hb).fl hF ov

/-- `SIMINT_FMADD`, fused or not. -/
theorem fma_near (hF : Rounds F) (ha : Approx k a' a A) (hb : Approx l b' b B) (hc : Approx m c' c C)
    (hm : k + l + 1 ≤ m) (ov : (1 + u) ^ (m + 1) * (A * B + C + 2 * κ) ≤ 2 ^ 1023) :
    Approx (m + 1) (F.mac a' b' c') (a * b + c) (A * B + C + 2 * κ) := by
  have hκ := κ_pos
  have hA := ha.nonneg
  have hB := hb.nonneg
  have hC := hc.nonneg
  have hAB : 0 ≤ A * B := mul_nonneg hA hB
  have h0 : 0 ≤ A * B + C + 2 * κ := by linarith
  have hab := ha.mul hb
  rcases hF.mac a' b' c' with e | e <;> rw [e]
  · have := ((hab.mono (by omega : k + l ≤ m) le_rfl).add hc).fl hF
      (ov_mono (by omega) (by linarith) h0 ov)
    exact this.mono le_rfl (by linarith)
  · have h1 := hab.fl hF (ov_mono (by omega) (by linarith) h0 ov)
    have := ((h1.mono hm le_rfl).add hc).fl hF (ov_mono (by omega) (by linarith) h0 ov)
    exact this.mono le_rfl (by linarith)

end

theorem int_near (i : ℤ) (hi : 0 ≤ i) : Approx 0 (i : ℝ) i i := by
  refine ⟨le_of_eq (abs_of_nonneg (by exact_mod_cast hi)), ?_⟩
  simp [γ_zero]

section
variable {F : Arith} {kp : ℕ} {x' x X : ℝ} {i : ℤ} {N : ℕ}

/-- The constants `i/2p`, rounded. -/
theorem const_near (hF : Rounds F) (hx : Approx kp x' x X) (hi : 0 < i) (hN : i ≤ N)
    (ov : (1 + u) ^ kp * (N * X) ≤ 2 ^ 1023) :
    Approx (kp + 1) (F.fl ((i : ℝ) * x')) (i * x) (i * (X + κ)) := by
  have h := mul_near hF (int_near i hi.le) hx (ov_mono (l := kp) (by omega)
    (mul_le_mul_of_nonneg_right (by exact_mod_cast hN : (i : ℝ) ≤ N) hx.nonneg)
    (mul_nonneg (by positivity) hx.nonneg) ov)
  refine h.mono (by omega) ?_
  have h1 : (1 : ℝ) ≤ i := by exact_mod_cast hi
  have := mul_le_mul_of_nonneg_right h1 κ_pos.le
  linarith

theorem vfac_near (hF : Rounds F) (one : Bool) (hx : Approx kp x' x X) (hi : 0 < i) (hN : i ≤ N)
    (ov : (1 + u) ^ kp * (N * X) ≤ 2 ^ 1023) :
    Approx (kp + 1) (@vfac ℝ (flOps F) one i x') (i * x) (i * (X + κ)) := by
  unfold vfac
  split
  · rename_i h
    rw [h.2]
    have h1 := hx.mono (by omega : kp ≤ kp + 1) (by linarith [κ_pos] : X ≤ X + κ)
    simpa using h1
  · exact const_near hF hx hi hN ov

theorem const_near' (hF : Rounds F) (hx : Approx kp x' x X) (hi : 0 < i) (hN : i ≤ N)
    (ov : (1 + u) ^ kp * (N * X) ≤ 2 ^ 1023) :
    Approx (kp + 1) (F.fl (x' * (i : ℝ))) (i * x) (i * (X + κ)) := by
  rw [mul_comm x']
  exact const_near hF hx hi hN ov

end

section
variable {F : Arith} {kp k m : ℕ} {i : ℤ} {c' c C v' v V t' t T : ℝ}

theorem one_near (hF : Rounds F) (hi : 0 ≤ i)
    (hc : 0 < i → Approx (kp + 1) c' (i * c) (i * (C + κ)))
    (hv : 0 < i → Approx k v' v V) (ht : Approx m t' t T) (hm : kp + k + 2 ≤ m)
    (ov : (1 + u) ^ (m + 1) * (T + i * (C + κ) * V + 2 * κ) ≤ 2 ^ 1023) :
    Approx (m + 1) (@vOne ℝ (flOps F) i c' v' t') (t + i * c * v) (T + i * (C + κ) * V + 2 * κ) := by
  unfold vOne
  have hκ := κ_pos
  split
  · rename_i h
    have e1 : T + i * (C + κ) * V + 2 * κ = i * (C + κ) * V + T + 2 * κ := by ring
    rw [e1] at ov ⊢
    rw [add_comm t]
    exact fma_near hF (hc h) (hv h) ht (by omega) ov
  · rename_i h
    have h0 : i = 0 := by omega
    subst h0
    simp only [Int.cast_zero, zero_mul, add_zero]
    exact ht.mono (by omega) (by linarith)

variable {a' a A w' w W : ℝ}

theorem two_near (hF : Rounds F) (hi : 0 ≤ i)
    (hc : 0 < i → Approx (kp + 1) c' (i * c) (i * (C + κ))) (ha : Approx kp a' a A)
    (hv : 0 < i → Approx k v' v V) (hw : 0 < i → Approx k w' w W) (ht : Approx m t' t T)
    (hm : 2 * kp + k + 4 ≤ m)
    (ov' : 0 < i → (1 + u) ^ (kp + k + 2) * (V + A * W + 2 * κ) ≤ 2 ^ 1023)
    (ov : (1 + u) ^ (m + 1) * (T + i * (C + κ) * (V + A * W + 2 * κ) + 2 * κ) ≤ 2 ^ 1023) :
    Approx (m + 1) (@vTwo ℝ (flOps F) i c' a' v' w' t') (t + i * c * (v + a * w))
      (T + i * (C + κ) * (V + A * W + 2 * κ) + 2 * κ) ∧
    Approx (m + 1) (@vTwoG ℝ (flOps F) i c' a' v' w' t') (t + i * c * (v + a * w))
      (T + i * (C + κ) * (V + A * W + 2 * κ) + 2 * κ) := by
  unfold vTwo vTwoG
  have hκ := κ_pos
  by_cases h : 0 < i
  · rw [if_pos h, if_pos h]
    have e1 : T + i * (C + κ) * (V + A * W + 2 * κ) + 2 * κ =
      i * (C + κ) * (V + A * W + 2 * κ) + T + 2 * κ := by ring
    have e2 : V + A * W + 2 * κ = A * W + V + 2 * κ := by ring
    have hin : Approx (kp + k + 2) (F.mac a' w' v') (a * w + v) (A * W + V + 2 * κ) := by
      have := fma_near (m := kp + k + 1) hF ha (hw h) ((hv h).mono (by omega) le_rfl) le_rfl
        (by rw [← e2]; exact ov' h)
      exact this
    rw [e1] at ov ⊢
    rw [e2] at ov ⊢
    rw [add_comm t, add_comm v]
    refine ⟨fma_near hF (hc h) hin ht (by omega) ov, ?_⟩
    have h2 := fma_near hF hin (hc h) ht (by omega) (by rw [mul_comm (A * W + V + 2 * κ)]; exact ov)
    rw [mul_comm (A * W + V + 2 * κ), mul_comm (a * w + v)] at h2
    exact h2
  · rw [if_neg h, if_neg h]
    have h0 : i = 0 := by omega
    subst h0
    simp only [Int.cast_zero, zero_mul, add_zero]
    exact ⟨ht.mono (by omega) (by linarith), ht.mono (by omega) (by linarith)⟩

end

/-! ## One step -/

/-- Uniform form of the majorant. -/
noncomputable def mrhs (Pm : VPar ℝ) (t : RRType) (d : Dir) (q : Qrt) (Θ : VFam ℝ) (n : ℕ) : ℝ :=
  Pm.pa t d * Θ.at n (q.low t d 1) + Pm.apq t d * Θ.at (n + 1) (q.low t d 1) + 3 * κ
  + (vnum t q d t.s1 : ℝ) * (Pm.o2 t + κ) *
    (Θ.at n (vlo t q d t.s1) + Pm.ao t * Θ.at (n + 1) (vlo t q d t.s1) + 2 * κ) + 2 * κ
  + (vnum t q d t.s2 : ℝ) * (Pm.o2 t + κ) *
    (Θ.at n (vlo t q d t.s2) + Pm.ao t * Θ.at (n + 1) (vlo t q d t.s2) + 2 * κ) + 2 * κ
  + (vnum t q d t.o1 : ℝ) * (Pm.o2pq + κ) * Θ.at (n + 1) (vlo t q d t.o1) + 2 * κ
  + (vnum t q d t.o2 : ℝ) * (Pm.o2pq + κ) * Θ.at (n + 1) (vlo t q d t.o2) + 2 * κ

theorem Majorant.rhs {Pm : VPar ℝ} {Θ : VFam ℝ} (h : Majorant Pm Θ) {t : RRType} {d : Dir} {q : Qrt}
    (hv : q.Valid) (hd : 0 < (q.cen t).get d) (n : ℕ) : mrhs Pm t d q Θ n ≤ Θ.at n q := by
  have hv' := ((Qrt.valid_iff q).1 hv).1
  have hI := hv' .I; have hJ := hv' .J; have hK := hv' .K; have hL := hv' .L
  have key : ∀ e : Exp, e.Valid → 0 < e.get d → (e.step d (-1)).Valid := fun e he h => by
    rw [Exp.valid_step_iff _ _ _ he]; omega
  cases t
  · have := h.I n (q.bra.left.step d (-1)) _ _ _ d (key _ hI hd) hJ hK hL
    simp only [Exp.step_step, Exp.get_step_self] at this
    simp only [Int.reduceNeg, neg_add_cancel, Exp.step_zero, Int.reduceAdd] at this
    simp only [mrhs, VFam.at, vnum, vlo, RRType.s1, RRType.s2, RRType.o1, RRType.o2, RRType.isBra,
      VPar.pa, VPar.apq, VPar.ao, VPar.o2, ↓reduceIte, Qrt.cen, Qrt.low, reduceCtorEq, if_false] at this ⊢
    refine le_trans (le_of_eq ?_) this
    push_cast; ring
  · have := h.J n _ (q.bra.right.step d (-1)) _ _ d hI (key _ hJ hd) hK hL
    simp only [Exp.step_step, Exp.get_step_self] at this
    simp only [Int.reduceNeg, neg_add_cancel, Exp.step_zero, Int.reduceAdd] at this
    simp only [mrhs, VFam.at, vnum, vlo, RRType.s1, RRType.s2, RRType.o1, RRType.o2, RRType.isBra,
      VPar.pa, VPar.apq, VPar.ao, VPar.o2, ↓reduceIte, Qrt.cen, Qrt.low, reduceCtorEq, if_false] at this ⊢
    refine le_trans (le_of_eq ?_) this
    push_cast; ring
  · have := h.K n _ _ (q.ket.left.step d (-1)) _ d hI hJ (key _ hK hd) hL
    simp only [Exp.step_step, Exp.get_step_self] at this
    simp only [Int.reduceNeg, neg_add_cancel, Exp.step_zero, Int.reduceAdd] at this
    simp only [mrhs, VFam.at, vnum, vlo, RRType.s1, RRType.s2, RRType.o1, RRType.o2, RRType.isBra,
      VPar.pa, VPar.apq, VPar.ao, VPar.o2, ↓reduceIte, Qrt.cen, Qrt.low, reduceCtorEq, if_false,
      Bool.false_eq_true] at this ⊢
    refine le_trans (le_of_eq ?_) this
    push_cast; ring
  · have := h.L n _ _ _ (q.ket.right.step d (-1)) d hI hJ hK (key _ hL hd)
    simp only [Exp.step_step, Exp.get_step_self] at this
    simp only [Int.reduceNeg, neg_add_cancel, Exp.step_zero, Int.reduceAdd] at this
    simp only [mrhs, VFam.at, vnum, vlo, RRType.s1, RRType.s2, RRType.o1, RRType.o2, RRType.isBra,
      VPar.pa, VPar.apq, VPar.ao, VPar.o2, ↓reduceIte, Qrt.cen, Qrt.low, reduceCtorEq, if_false,
      Bool.false_eq_true] at this ⊢
    refine le_trans (le_of_eq ?_) this
    push_cast; ring

theorem ParNear.pa {k : ℕ} {P' P Pm : VPar ℝ} (h : ParNear k P' P Pm) (t : RRType) (d : Dir) :
    Approx k (P'.pa t d) (P.pa t d) (Pm.pa t d) := by
  cases t
  · exact h.PA d
  · exact h.PB d
  · exact h.QA d
  · exact h.QB d

theorem ParNear.apq {k : ℕ} {P' P Pm : VPar ℝ} (h : ParNear k P' P Pm) (t : RRType) (d : Dir) :
    Approx k (P'.apq t d) (P.apq t d) (Pm.apq t d) := by
  cases t
  · exact h.aopPQ d
  · exact h.aopPQ d
  · exact h.aoqPQ d
  · exact h.aoqPQ d

theorem ParNear.ao {k : ℕ} {P' P Pm : VPar ℝ} (h : ParNear k P' P Pm) (t : RRType) :
    Approx k (P'.ao t) (P.ao t) (Pm.ao t) := by
  cases t
  · exact h.aop
  · exact h.aop
  · exact h.aoq
  · exact h.aoq

theorem ParNear.o2 {k : ℕ} {P' P Pm : VPar ℝ} (h : ParNear k P' P Pm) (t : RRType) :
    Approx k (P'.o2 t) (P.o2 t) (Pm.o2 t) := by
  cases t
  · exact h.o2p
  · exact h.o2p
  · exact h.o2q
  · exact h.o2q

section
variable {F : Arith} {kp k : ℕ} {N : ℕ}
  {p' p Pm a' a A e' e E o' o O r' r R : ℝ} {i1 i2 i3 i4 : ℤ}
  {x0' x0 X0 y0' y0 Y0 x1' x1 X1 y1' y1 Y1 x2' x2 X2 y2' y2 Y2 y3' y3 Y3 y4' y4 Y4 : ℝ}

/-- The chain of a block, once the first two terms are there. -/
theorem chain_near (hF : Rounds F) (h1 : 0 ≤ i1) (h2 : 0 ≤ i2) (h3 : 0 ≤ i3) (h4 : 0 ≤ i4)
    (he : Approx kp e' e E)
    {c1' c2' c3' c4' : ℝ}
    (hc1 : 0 < i1 → Approx (kp + 1) c1' (i1 * o) (i1 * (O + κ)))
    (hc2 : 0 < i2 → Approx (kp + 1) c2' (i2 * o) (i2 * (O + κ)))
    (hc3 : 0 < i3 → Approx (kp + 1) c3' (i3 * r) (i3 * (R + κ)))
    (hc4 : 0 < i4 → Approx (kp + 1) c4' (i4 * r) (i4 * (R + κ)))
    (hx1 : 0 < i1 → Approx k x1' x1 X1) (hy1 : 0 < i1 → Approx k y1' y1 Y1)
    (hx2 : 0 < i2 → Approx k x2' x2 X2) (hy2 : 0 < i2 → Approx k y2' y2 Y2)
    (hy3 : 0 < i3 → Approx k y3' y3 Y3) (hy4 : 0 < i4 → Approx k y4' y4 Y4)
    (hO : 0 ≤ O) (hR : 0 ≤ R)
    (ov1 : 0 < i1 → (1 + u) ^ (kp + k + 2) * (X1 + E * Y1 + 2 * κ) ≤ 2 ^ 1023)
    (ov2 : 0 < i2 → (1 + u) ^ (kp + k + 2) * (X2 + E * Y2 + 2 * κ) ≤ 2 ^ 1023)
    {t' t T : ℝ} (ht : Approx (kp + k + 2) t' t T)
    (ov : (1 + u) ^ (k + (2 * kp + 8)) *
      (T + i1 * (O + κ) * (X1 + E * Y1 + 2 * κ) + 2 * κ + i2 * (O + κ) * (X2 + E * Y2 + 2 * κ) + 2 * κ
        + i3 * (R + κ) * Y3 + 2 * κ + i4 * (R + κ) * Y4 + 2 * κ) ≤ 2 ^ 1023) :
    Approx (k + (2 * kp + 8))
      (@vOne ℝ (flOps F) i4 c4' y4' (@vOne ℝ (flOps F) i3 c3' y3'
        (@vTwo ℝ (flOps F) i2 c2' e' x2' y2' (@vTwo ℝ (flOps F) i1 c1' e' x1' y1' t'))))
      (t + i1 * o * (x1 + e * y1) + i2 * o * (x2 + e * y2) + i3 * r * y3 + i4 * r * y4)
      (T + i1 * (O + κ) * (X1 + E * Y1 + 2 * κ) + 2 * κ + i2 * (O + κ) * (X2 + E * Y2 + 2 * κ) + 2 * κ
        + i3 * (R + κ) * Y3 + 2 * κ + i4 * (R + κ) * Y4 + 2 * κ) ∧
    Approx (k + (2 * kp + 8))
      (@vOne ℝ (flOps F) i4 c4' y4' (@vOne ℝ (flOps F) i3 c3' y3'
        (@vTwoG ℝ (flOps F) i2 c2' e' x2' y2' (@vTwoG ℝ (flOps F) i1 c1' e' x1' y1' t'))))
      (t + i1 * o * (x1 + e * y1) + i2 * o * (x2 + e * y2) + i3 * r * y3 + i4 * r * y4)
      (T + i1 * (O + κ) * (X1 + E * Y1 + 2 * κ) + 2 * κ + i2 * (O + κ) * (X2 + E * Y2 + 2 * κ) + 2 * κ
        + i3 * (R + κ) * Y3 + 2 * κ + i4 * (R + κ) * Y4 + 2 * κ) := by
  have hκ := κ_pos
  have hE := he.nonneg
  have hT := ht.nonneg
  have z2 : ∀ {i : ℤ} {X' x X Y' y Y : ℝ}, 0 ≤ i → (0 < i → Approx k X' x X) →
      (0 < i → Approx k Y' y Y) → 0 ≤ (i : ℝ) * (O + κ) * (X + E * Y + 2 * κ) := by
    intro i X' x X Y' y Y hi h h'
    rcases hi.lt_or_eq with hi | hi
    · have := (h hi).nonneg
      have := (h' hi).nonneg
      have : (0 : ℝ) < i := by exact_mod_cast hi
      positivity
    · rw [← hi]; simp
  have z1 : ∀ {i : ℤ} {Y' y Y : ℝ}, 0 ≤ i →
      (0 < i → Approx k Y' y Y) → 0 ≤ (i : ℝ) * (R + κ) * Y := by
    intro i Y' y Y hi h'
    rcases hi.lt_or_eq with hi | hi
    · have := (h' hi).nonneg
      have : (0 : ℝ) < i := by exact_mod_cast hi
      positivity
    · rw [← hi]; simp
  have a1 := z2 h1 hx1 hy1
  have a2 := z2 h2 hx2 hy2
  have a3 := z1 h3 hy3
  have a4 := z1 h4 hy4
  clear z1 z2
  generalize hS1 : (i1 : ℝ) * (O + κ) * (X1 + E * Y1 + 2 * κ) = S1 at *
  generalize hS2 : (i2 : ℝ) * (O + κ) * (X2 + E * Y2 + 2 * κ) = S2 at *
  generalize hS3 : (i3 : ℝ) * (R + κ) * Y3 = S3 at *
  generalize hS4 : (i4 : ℝ) * (R + κ) * Y4 = S4 at *
  have hB : 0 ≤ T + S1 + 2 * κ + S2 + 2 * κ + S3 + 2 * κ + S4 + 2 * κ := by linarith
  have ht' : Approx (2 * kp + k + 4) t' t T := ht.mono (by omega) le_rfl
  have s1 := two_near hF h1 hc1 he hx1 hy1 ht' le_rfl ov1
    (ov_mono (by omega) (by rw [hS1]; linarith) hB ov)
  rw [hS1] at s1
  have s2 := fun {w : ℝ} (hw : Approx (2 * kp + k + 4 + 1) w (t + i1 * o * (x1 + e * y1)) (T + S1 + 2 * κ)) =>
    two_near hF h2 hc2 he hx2 hy2 hw (by omega) ov2
    (ov_mono (l := k + (2 * kp + 8)) (by omega) (by rw [hS2]; linarith) hB ov)
  rw [hS2] at s2
  have s3 := fun {w : ℝ} (hw : Approx (2 * kp + k + 4 + 1 + 1) w _ _) =>
    one_near hF h3 hc3 hy3 (t := t + i1 * o * (x1 + e * y1) + i2 * o * (x2 + e * y2))
    (T := T + S1 + 2 * κ + S2 + 2 * κ) (t' := w) hw (by omega)
    (ov_mono (l := k + (2 * kp + 8)) (by omega) (by rw [hS3]; linarith) hB ov)
  rw [hS3] at s3
  have s4 := fun {w : ℝ} (hw : Approx (2 * kp + k + 4 + 1 + 1 + 1) w _ _) =>
    one_near hF h4 hc4 hy4
    (t := t + i1 * o * (x1 + e * y1) + i2 * o * (x2 + e * y2) + i3 * r * y3)
    (T := T + S1 + 2 * κ + S2 + 2 * κ + S3 + 2 * κ) (t' := w) hw (by omega)
    (ov_mono (l := k + (2 * kp + 8)) (by omega) (by rw [hS4]) hB ov)
  rw [hS4] at s4
  exact ⟨(s4 (s3 (s2 s1.1).1)).mono (by omega) le_rfl, (s4 (s3 (s2 s1.2).2)).mono (by omega) le_rfl⟩

/-- The first two terms, in either order. -/
theorem start_near (hF : Rounds F) (hp : Approx kp p' p Pm) (ha : Approx kp a' a A)
    (hx : Approx k x0' x0 X0) (hy : Approx k y0' y0 Y0)
    (ov : (1 + u) ^ (kp + k + 2) * (Pm * X0 + A * Y0 + 3 * κ) ≤ 2 ^ 1023) :
    Approx (kp + k + 2) (F.mac a' y0' (F.fl (p' * x0'))) (p * x0 + a * y0) (Pm * X0 + A * Y0 + 3 * κ) ∧
    Approx (kp + k + 2) (F.mac p' x0' (F.fl (a' * y0'))) (p * x0 + a * y0) (Pm * X0 + A * Y0 + 3 * κ) := by
  have hκ := κ_pos
  have b1 := mul_nonneg hp.nonneg hx.nonneg
  have b2 := mul_nonneg ha.nonneg hy.nonneg
  have hB : 0 ≤ Pm * X0 + A * Y0 + 3 * κ := by linarith
  constructor
  · have h1 := mul_near hF hp hx (ov_mono (by omega) (by linarith) hB ov)
    have h2 := fma_near hF ha hy h1 le_rfl (ov_mono (by omega) (by linarith) hB ov)
    rw [add_comm (p * x0)]
    exact h2.mono le_rfl (by linarith)
  · have h1 := mul_near hF ha hy (ov_mono (by omega) (by linarith) hB ov)
    have h2 := fma_near hF hp hx h1 le_rfl (ov_mono (by omega) (by linarith) hB ov)
    exact h2.mono le_rfl (by linarith)

end

/-- Error of the value of an integral, up to order plus angular momentum `N`. -/
def Near (N k0 kp : ℕ) (θ Θ : VFam ℝ) (n : ℕ) (q : Qrt) (v : ℝ) : Prop :=
  (n : ℤ) + q.am ≤ N → Approx (rounds k0 kp q.am) v (θ.at n q) (Θ.at n q)

theorem vlo_am (t : RRType) (q : Qrt) (d : Dir) (w : RRType) : (vlo t q d w).am = q.am - 2 := by
  unfold vlo
  cases t <;> cases w <;> simp [Qrt.low, Qrt.am] <;> ring

theorem vnum_le {t : RRType} {q : Qrt} (hv : q.Valid) (d : Dir) (w : RRType) :
    vnum t q d w ≤ q.am := by
  have hv' := ((Qrt.valid_iff q).1 hv).1
  have h : ∀ e : Exp, e.Valid → e.get d ≤ e.am ∧ 0 ≤ e.am := by
    rintro ⟨x, y, z⟩ ⟨h1, h2, h3⟩
    cases d <;> simp only [Exp.get, Exp.am] at * <;> omega
  have e := Qrt.am_cen q
  have h1 := h _ (hv' .I); have h2 := h _ (hv' .J); have h3 := h _ (hv' .K); have h4 := h _ (hv' .L)
  unfold vnum
  split <;> cases w <;> omega

theorem rounds_mono {k0 kp : ℕ} {l m : ℤ} (h : l ≤ m) : rounds k0 kp l ≤ rounds k0 kp m := by
  unfold rounds
  have : l.toNat ≤ m.toNat := by omega
  exact Nat.add_le_add_left (Nat.mul_le_mul_left _ this) _

theorem rounds_succ {k0 kp : ℕ} {l : ℤ} (h : 0 < l) :
    rounds k0 kp l = rounds k0 kp (l - 1) + (2 * kp + 8) := by
  unfold rounds
  have : l.toNat = (l - 1).toNat + 1 := by omega
  rw [this]; ring

theorem NoOverflow.o2 {N k0 kp : ℕ} {Pm : VPar ℝ} {Θ : VFam ℝ} (h : NoOverflow N k0 kp Pm Θ) (t : RRType) :
    (1 + u) ^ kp * (N * Pm.o2 t) ≤ 2 ^ 1023 := by
  cases t
  · exact h.o2p
  · exact h.o2p
  · exact h.o2q
  · exact h.o2q

theorem NoOverflow.sum {N k0 kp : ℕ} {Pm : VPar ℝ} {Θ : VFam ℝ} (h : NoOverflow N k0 kp Pm Θ)
    (t : RRType) {q : Qrt} (hv : ∀ w, (q.cen w).Valid) {n : ℕ} (hN : (n : ℤ) + q.am < N) :
    (1 + u) ^ rounds k0 kp (q.am + 2) * (Θ.at n q + Pm.ao t * Θ.at (n + 1) q + 2 * κ) ≤ 2 ^ 1023 := by
  have e : q.am = (q.cen .I).am + (q.cen .J).am + (q.cen .K).am + (q.cen .L).am := by
    rw [Qrt.am_cen]; ring
  rw [e] at hN ⊢
  have h1 := h.bra n _ _ _ _ (hv .I) (hv .J) (hv .K) (hv .L) hN
  have h2 := h.ket n _ _ _ _ (hv .I) (hv .J) (hv .K) (hv .L) hN
  cases t
  · exact h1
  · exact h1
  · exact h2
  · exact h2

/-- A step keeps the bound. -/
theorem near_closed {F : Arith} (hF : Rounds F) {N k0 kp : ℕ} {P' P Pm : VPar ℝ}
    (hP : ParNear kp P' P Pm) {θ Θ : VFam ℝ} (hθ : VRRFam P θ) (hΘ : Majorant Pm Θ)
    (hov : NoOverflow N k0 kp Pm Θ) : @VClosed ℝ (flOps F) P' (Near N k0 kp θ Θ) := by
  intro f t d q n rd hv hm hd h hN
  have hv' := ((Qrt.valid_iff q).1 hv).1
  obtain ⟨e1, e2, e3, e4⟩ := vslot_vlo t q d
  have hval : ∀ j : Fin 5, (∀ w, ((vslot t q d j).cen w).Valid) → (vslot t q d j).Valid := fun j hj => by
    rw [Qrt.valid_iff]; exact ⟨hj, by rw [vslot_m, hm]⟩
  have get : ∀ j : Fin 5, (∀ w, ((vslot t q d j).cen w).Valid) → ∀ n', n ≤ n' → n' ≤ n + 1 →
      Approx (rounds k0 kp (q.am - 1)) (rd n' (vslot t q d j)) (θ.at n' (vslot t q d j))
        (Θ.at n' (vslot t q d j)) := by
    intro j hj n' h1 h2
    have hl := vslot_am_lt t q d j
    exact (h j (hval j hj) n' h1 h2 (by omega)).mono (rounds_mono (by omega)) le_rfl
  have v0 : ∀ w, ((vslot t q d 0).cen w).Valid := by
    intro w
    rw [vslot_zero, Qrt.cen_low]
    split
    · rw [Exp.valid_step_iff _ _ _ (hv' t)]; omega
    · exact hv' w
  have hlo := fun w => vlo_valid hv hd w
  have hpos : 0 < q.am := by
    have h1 := vslot_am_lt t q d 0
    have h2 : 0 ≤ (vslot t q d 0).am := by
      rw [Qrt.am_cen]
      have := (v0 .I).am_nonneg; have := (v0 .J).am_nonneg
      have := (v0 .K).am_nonneg; have := (v0 .L).am_nonneg
      omega
    omega
  have g0 := get 0 v0 n le_rfl (by omega)
  have g0' := get 0 v0 (n + 1) (by omega) le_rfl
  rw [vslot_zero] at g0 g0'
  have g1 := fun hh => get 1 (by rw [e1]; exact (hlo _).2 hh) n le_rfl (by omega)
  have g1' := fun hh => get 1 (by rw [e1]; exact (hlo _).2 hh) (n + 1) (by omega) le_rfl
  have g2 := fun hh => get 2 (by rw [e2]; exact (hlo _).2 hh) n le_rfl (by omega)
  have g2' := fun hh => get 2 (by rw [e2]; exact (hlo _).2 hh) (n + 1) (by omega) le_rfl
  have g3 := fun hh => get 3 (by rw [e3]; exact (hlo _).2 hh) (n + 1) (by omega) le_rfl
  have g4 := fun hh => get 4 (by rw [e4]; exact (hlo _).2 hh) (n + 1) (by omega) le_rfl
  rw [e1] at g1 g1'
  rw [e2] at g2 g2'
  rw [e3] at g3
  rw [e4] at g4
  have nn := vnum_nonneg hv hd
  have nN : ∀ w, vnum t q d w ≤ N := fun w => (vnum_le hv d w).trans (by omega)
  have hmaj := hΘ.rhs hv hd n
  have hB : (1 + u) ^ (rounds k0 kp (q.am - 1) + (2 * kp + 8)) * Θ.at n q ≤ 2 ^ 1023 := by
    rw [← rounds_succ hpos]
    have e : q.am = (q.cen .I).am + (q.cen .J).am + (q.cen .K).am + (q.cen .L).am := by
      rw [Qrt.am_cen]; ring
    rw [e] at hN ⊢
    exact hov.val n _ _ _ _ (hv' .I) (hv' .J) (hv' .K) (hv' .L) hN
  have nv : ∀ w, 0 < vnum t q d w → ∀ n', n ≤ n' → n' ≤ n + 1 → 0 ≤ Θ.at n' (vlo t q d w) := by
    intro w hw n' h3 h4
    have hj : ∃ j : Fin 5, vslot t q d j = vlo t q d w := by
      cases t <;> cases w
      exacts [⟨1, e1⟩, ⟨2, e2⟩, ⟨3, e3⟩, ⟨4, e4⟩, ⟨1, e1⟩, ⟨2, e2⟩, ⟨3, e3⟩, ⟨4, e4⟩,
        ⟨3, e3⟩, ⟨4, e4⟩, ⟨1, e1⟩, ⟨2, e2⟩, ⟨3, e3⟩, ⟨4, e4⟩, ⟨1, e1⟩, ⟨2, e2⟩]
    obtain ⟨j, hj⟩ := hj
    have := (get j (by rw [hj]; exact (hlo w).2 hw) n' h3 h4).nonneg
    rwa [hj] at this
  have osum : ∀ w, 0 < vnum t q d w → (1 + u) ^ (kp + rounds k0 kp (q.am - 1) + 2) *
      (Θ.at n (vlo t q d w) + Pm.ao t * Θ.at (n + 1) (vlo t q d w) + 2 * κ) ≤ 2 ^ 1023 := by
    intro w hw
    have hv2 := (hlo w).2 hw
    have h1 := hov.sum t hv2 (n := n) (by rw [vlo_am]; omega)
    rw [vlo_am, sub_add_cancel, rounds_succ hpos] at h1
    have h2 := hP.ao t
    refine ov_mono (by omega) le_rfl ?_ h1
    have := nv w hw n le_rfl (by omega)
    have := nv w hw (n + 1) (by omega) le_rfl
    have := κ_pos
    have := h2.nonneg
    positivity
  have hθ' := hθ.rhs hv hd n
  rw [rounds_succ hpos, hθ']
  have hκ := κ_pos
  have hrange : 0 ≤ mrhs Pm t d q Θ n ∧
      Pm.pa t d * Θ.at n (q.low t d 1) + Pm.apq t d * Θ.at (n + 1) (q.low t d 1) + 3 * κ ≤
        mrhs Pm t d q Θ n := by
    have z2 : ∀ w, 0 ≤ (vnum t q d w : ℝ) * (Pm.o2 t + κ) *
        (Θ.at n (vlo t q d w) + Pm.ao t * Θ.at (n + 1) (vlo t q d w) + 2 * κ) := by
      intro w
      rcases (nn w).lt_or_eq with hi | hi
      · have := nv w hi n le_rfl (by omega)
        have := nv w hi (n + 1) (by omega) le_rfl
        have := (hP.o2 t).nonneg
        have := (hP.ao t).nonneg
        have : (0 : ℝ) < vnum t q d w := by exact_mod_cast hi
        positivity
      · rw [← hi]; simp
    have z1 : ∀ w, 0 ≤ (vnum t q d w : ℝ) * (Pm.o2pq + κ) * Θ.at (n + 1) (vlo t q d w) := by
      intro w
      rcases (nn w).lt_or_eq with hi | hi
      · have := nv w hi (n + 1) (by omega) le_rfl
        have := hP.o2pq.nonneg
        have : (0 : ℝ) < vnum t q d w := by exact_mod_cast hi
        positivity
      · rw [← hi]; simp
    have b1 := mul_nonneg (hP.pa t d).nonneg g0.nonneg
    have b2 := mul_nonneg (hP.apq t d).nonneg g0'.nonneg
    have := z2 t.s1; have := z2 t.s2; have := z1 t.o1; have := z1 t.o2
    unfold mrhs
    constructor <;> linarith
  have hBm := ov_mono le_rfl hmaj (hrange.1.trans hmaj) hB
  have st := start_near hF (hP.pa t d) (hP.apq t d) g0 g0'
    (ov_mono (by omega) hrange.2 hrange.1 hBm)
  have hc := fun one (w : RRType) (hh : 0 < vnum t q d w) =>
    vfac_near hF one (hP.o2 t) hh (nN w) (hov.o2 t)
  have hr := fun one (w : RRType) (hh : 0 < vnum t q d w) =>
    vfac_near hF one hP.o2pq hh (nN w) hov.o2pq
  have hc' := fun (w : RRType) (hh : 0 < vnum t q d w) =>
    const_near hF (hP.o2 t) hh (nN w) (hov.o2 t)
  have hr' := fun (w : RRType) (hh : 0 < vnum t q d w) =>
    const_near' hF hP.o2pq hh (nN w) hov.o2pq
  cases f with
  | seq one =>
    exact ((chain_near hF (nn t.s1) (nn t.s2) (nn t.o1) (nn t.o2) (hP.ao t) (hc one t.s1) (hc one t.s2)
      (hr one t.o1) (hr one t.o2) g1 g1' g2 g2' g3 g4 (hP.o2 t).nonneg hP.o2pq.nonneg (osum t.s1)
      (osum t.s2) st.1 hBm).1).mono le_rfl hmaj
  | gen =>
    exact ((chain_near hF (nn t.s1) (nn t.s2) (nn t.o1) (nn t.o2) (hP.ao t) (hc' t.s1) (hc' t.s2)
      (hr' t.o1) (hr' t.o2) g1 g1' g2 g2' g3 g4 (hP.o2 t).nonneg hP.o2pq.nonneg (osum t.s1)
      (osum t.s2) st.2 hBm).2).mono le_rfl hmaj

/-! ## A majorant in closed form -/

theorem growth_succ (M w v : ℝ) (l : ℕ) : growth M w v (l + 1) = growth M w v l * (1 + w + l * v) := by
  unfold growth
  rw [Finset.prod_range_succ, mul_assoc]

theorem growth_pos {M w v : ℝ} (hM : 0 < M) (hw : 0 ≤ w) (hv : 0 ≤ v) (l : ℕ) : 0 < growth M w v l := by
  unfold growth
  exact mul_pos hM (Finset.prod_pos fun j _ => by positivity)

theorem growth_mono {M w v : ℝ} (hM : 0 < M) (hw : 0 ≤ w) (hv : 0 ≤ v) : Monotone (growth M w v) := by
  refine monotone_nat_of_le_succ fun l => ?_
  rw [growth_succ]
  have := growth_pos hM hw hv l
  have h2 : 0 ≤ (l : ℝ) * v := by positivity
  nlinarith

/-- The closed form as a family. -/
noncomputable def growthFam (M w v : ℝ) : VFam ℝ := fun _ a b c d =>
  growth M w v (a.am + b.am + c.am + d.am).toNat

theorem get_le_am {e : Exp} (h : e.Valid) (i : Dir) : 0 ≤ e.get i ∧ e.get i ≤ e.am := by
  obtain ⟨x, y, z⟩ := e
  obtain ⟨h1, h2, h3⟩ := h
  cases i <;> simp only [Exp.get, Exp.am] at * <;> omega

theorem growth_step {M w v pa apq o ao r : ℝ} (hM : 11 * κ ≤ M) (hpa : 0 ≤ pa) (hapq : 0 ≤ apq)
    (hw : pa + apq ≤ w) (ho : 0 ≤ o) (hao : 0 ≤ ao) (hv : (o + κ) * (2 + ao) ≤ v) (hr : 0 ≤ r)
    (hr' : r + κ ≤ v) {l : ℕ} {a b c d : ℤ} (ha : 0 ≤ a) (hb : 0 ≤ b) (hc : 0 ≤ c) (hd : 0 ≤ d)
    (hl : a + b + c + d ≤ l) {x1 x2 x3 x4 : ℕ} (h1 : x1 ≤ l) (h2 : x2 ≤ l) (h3 : x3 ≤ l) (h4 : x4 ≤ l) :
    pa * growth M w v l + apq * growth M w v l
      + (a : ℝ) * (o + κ) * (growth M w v x1 + ao * growth M w v x1 + 2 * κ)
      + (b : ℝ) * (o + κ) * (growth M w v x2 + ao * growth M w v x2 + 2 * κ)
      + (c : ℝ) * (r + κ) * growth M w v x3
      + (d : ℝ) * (r + κ) * growth M w v x4 + 11 * κ ≤ growth M w v (l + 1) := by
  have hκ := κ_pos
  have hM0 : 0 < M := by linarith
  have hw0 : 0 ≤ w := by linarith
  have hv0 : 0 ≤ v := by linarith
  rw [growth_succ]
  have hmono := growth_mono hM0 hw0 hv0
  have hM1 : M ≤ growth M w v l := by
    have := hmono (Nat.zero_le l)
    simpa [growth] using this
  have m1 := hmono h1; have m2 := hmono h2; have m3 := hmono h3; have m4 := hmono h4
  have p1 := growth_pos hM0 hw0 hv0 x1; have p2 := growth_pos hM0 hw0 hv0 x2
  have p3 := growth_pos hM0 hw0 hv0 x3; have p4 := growth_pos hM0 hw0 hv0 x4
  generalize growth M w v l = T at *
  generalize growth M w v x1 = T1 at *
  generalize growth M w v x2 = T2 at *
  generalize growth M w v x3 = T3 at *
  generalize growth M w v x4 = T4 at *
  have hT : 0 < T := by linarith
  have ha' : (0 : ℝ) ≤ a := by exact_mod_cast ha
  have hb' : (0 : ℝ) ≤ b := by exact_mod_cast hb
  have hc' : (0 : ℝ) ≤ c := by exact_mod_cast hc
  have hd' : (0 : ℝ) ≤ d := by exact_mod_cast hd
  have hl' : (a : ℝ) + b + c + d ≤ l := by exact_mod_cast hl
  have two : ∀ (i X : ℝ), 0 ≤ i → 0 < X → X ≤ T → i * (o + κ) * (X + ao * X + 2 * κ) ≤ i * (v * T) := by
    intro i X hi hX hXT
    have q1 : X + ao * X + 2 * κ ≤ (2 + ao) * T := by
      have := mul_le_mul_of_nonneg_left hXT hao
      linarith
    have q2 : (o + κ) * (X + ao * X + 2 * κ) ≤ (o + κ) * ((2 + ao) * T) :=
      mul_le_mul_of_nonneg_left q1 (by linarith)
    have q3 : (o + κ) * ((2 + ao) * T) ≤ v * T := by
      rw [← mul_assoc]; exact mul_le_mul_of_nonneg_right hv hT.le
    rw [mul_assoc]
    exact mul_le_mul_of_nonneg_left (q2.trans q3) hi
  have one : ∀ (i X : ℝ), 0 ≤ i → 0 < X → X ≤ T → i * (r + κ) * X ≤ i * (v * T) := by
    intro i X hi hX hXT
    rw [mul_assoc]
    exact mul_le_mul_of_nonneg_left (mul_le_mul hr' hXT hX.le hv0) hi
  have s1 := two _ _ ha' p1 m1
  have s2 := two _ _ hb' p2 m2
  have s3 := one _ _ hc' p3 m3
  have s4 := one _ _ hd' p4 m4
  have s0 : (pa + apq) * T ≤ w * T := mul_le_mul_of_nonneg_right hw hT.le
  have s5 : ((a : ℝ) + b + c + d) * (v * T) ≤ l * (v * T) :=
    mul_le_mul_of_nonneg_right hl' (mul_nonneg hv0 hT.le)
  have s6 : 11 * κ ≤ T := hM.trans hM1
  have e : T * (1 + w + l * v) = T + w * T + l * (v * T) := by ring
  rw [e]
  linarith

theorem growth_majorant {Pm : VPar ℝ} {M w v : ℝ} (hM : 11 * κ ≤ M) (h : ParBound Pm w v) :
    Majorant Pm (growthFam M w v) := by
  have tn : ∀ (x y z s : ℤ), 0 ≤ x → 0 ≤ y → 0 ≤ z → 0 ≤ s →
      (x + 1 + y + z + s).toNat = (x + y + z + s).toNat + 1 ∧
      (x + (y + 1) + z + s).toNat = (x + y + z + s).toNat + 1 ∧
      (x + y + (z + 1) + s).toNat = (x + y + z + s).toNat + 1 ∧
      (x + y + z + (s + 1)).toNat = (x + y + z + s).toNat + 1 := by
    intro x y z s _ _ _ _; omega
  have ams : ∀ (e : Exp) (i : Dir) (k : ℤ), (e.step i k).am = e.am + k := by
    intro e i k; simp
  constructor
  all_goals
    intro n a b c d i ha hb hc hd
    obtain ⟨t1, t2, t3, t4⟩ := tn _ _ _ _ ha.am_nonneg hb.am_nonneg hc.am_nonneg hd.am_nonneg
    have a1 := get_le_am ha i; have b1 := get_le_am hb i
    have c1 := get_le_am hc i; have d1 := get_le_am hd i
    simp only [growthFam, ams]
  · rw [t1]
    exact growth_step hM (h.I i).1 (h.I i).2.1 (h.I i).2.2 h.p.1 h.p.2.1 h.p.2.2 h.pq.1 h.pq.2
      a1.1 b1.1 c1.1 d1.1 (by omega) (by omega) (by omega) (by omega) (by omega)
  · rw [t2]
    exact growth_step hM (h.J i).1 (h.I i).2.1 (h.J i).2 h.p.1 h.p.2.1 h.p.2.2 h.pq.1 h.pq.2
      a1.1 b1.1 c1.1 d1.1 (by omega) (by omega) (by omega) (by omega) (by omega)
  · rw [t3]
    exact growth_step hM (h.K i).1 (h.K i).2.1 (h.K i).2.2 h.q.1 h.q.2.1 h.q.2.2 h.pq.1 h.pq.2
      c1.1 d1.1 a1.1 b1.1 (by omega) (by omega) (by omega) (by omega) (by omega)
  · rw [t4]
    exact growth_step hM (h.L i).1 (h.K i).2.1 (h.L i).2 h.q.1 h.q.2.1 h.q.2.2 h.pq.1 h.pq.2
      c1.1 d1.1 a1.1 b1.1 (by omega) (by omega) (by omega) (by omega) (by omega)

end Simint.VRRRound
