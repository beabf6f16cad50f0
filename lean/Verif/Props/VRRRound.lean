import Verif.VRRRoundLemmas
import Verif.Props.VRR
import Verif.Props.HRRRound
import Verif.Props.RealIntegrals

/-!
# C85: rounding errors of the vertical stage

Statements: `Verif/Spec/VRRRound.lean` (parameters, majorants, overflow), `Verif/Spec/VRR.lean`
(recurrence).
-/

set_option autoImplicit false

namespace Simint.VRRRound

open FlBoys (Arith Rounds u η ieee rn lastPlace)

/-- The vertical stage on doubles: inline code, external functions and generic routines, any Cartesian
order, fused operations or not.  `θ` are the auxiliary integrals, `P` the exact parameters, `P'` the
parameters as computed, `Θ` any majorant of the recurrence.  If the `(ss|ss)` values have errors of at
most `((1+u)^k0 - 1) Θ`, then integrals of total angular momentum `l` have errors of at most
`((1+u)^(k0 + (2 kp + 8) l) - 1) Θ`; nothing overflows if the bounds themselves do not. -/
theorem C85_bound {ord : ℕ → List Exp} (ho : OrdOK ord) (hs : OrdStart ord)
    {enum : List Qrt → List Qrt} (he : EnumOK enum) {ams : List QAM}
    (hv : ∀ a ∈ ams, a.valid = true ∧ a.tag = "") {se sg : ℤ}
    (hmode : ModesOK ord se sg (classTargets ord ams)) :
    ∃ A M, vrrCreate enum (vrrDirections (classTargets ord ams)) (classTargets ord ams) = some A ∧
      A.mreq ssss = some M ∧
      ∀ F : Arith, Rounds F → ∀ (kp : ℕ) (P' P Pm : VPar ℝ), ParNear kp P' P Pm →
      ∀ θ Θ : VFam ℝ, VRRFam P θ → Majorant Pm Θ → ∀ N k0 : ℕ, NoOverflow N k0 kp Pm Θ →
      ∀ m : VMem ℝ, (∀ n : ℕ, (n : ℤ) ≤ M → n ≤ N →
        |θ n ⟨0, 0, 0⟩ ⟨0, 0, 0⟩ ⟨0, 0, 0⟩ ⟨0, 0, 0⟩| ≤ Θ n ⟨0, 0, 0⟩ ⟨0, 0, 0⟩ ⟨0, 0, 0⟩ ⟨0, 0, 0⟩ ∧
        |m ssss n - θ n ⟨0, 0, 0⟩ ⟨0, 0, 0⟩ ⟨0, 0, 0⟩ ⟨0, 0, 0⟩| ≤
          ((1 + u) ^ k0 - 1) * Θ n ⟨0, 0, 0⟩ ⟨0, 0, 0⟩ ⟨0, 0, 0⟩ ⟨0, 0, 0⟩) →
      ∃ m', run F ord enum se sg A P' A.order m = some m' ∧
        ∀ q : Qrt, q.Valid → q.am4 ∈ ams →
          ∃ Mq, A.mreq q.am4 = some Mq ∧ 0 ≤ Mq ∧ ∀ n : ℕ, (n : ℤ) ≤ Mq → (n : ℤ) + q.am ≤ N →
            |θ n (q.cen .I) (q.cen .J) (q.cen .K) (q.cen .L)| ≤
              Θ n (q.cen .I) (q.cen .J) (q.cen .K) (q.cen .L) ∧
            |m' q.am4 (n * q.ncart + q.index ord) - θ n (q.cen .I) (q.cen .J) (q.cen .K) (q.cen .L)| ≤
              ((1 + u) ^ (k0 + (2 * kp + 8) * q.am.toNat) - 1) *
                Θ n (q.cen .I) (q.cen .J) (q.cen .K) (q.cen .L) := by
  obtain ⟨A, M, e, hM, -⟩ := vertical_closed (F := ℝ) (P := ⟨0, 0, 0, 0, 0, 0, 0, 0, 0, 0, 0⟩)
    (G := fun _ _ _ => True) ho hs he hv hmode (fun _ _ _ _ _ _ _ _ _ _ => trivial)
  refine ⟨A, M, e, hM, ?_⟩
  intro F hF kp P' P Pm hP θ Θ hθ hΘ N k0 hov m hm
  obtain ⟨A', M', e', hM', h⟩ := @vertical_closed ℝ (flOps F) ord ho hs enum he ams hv se sg hmode P' _
    (near_closed hF hP hθ hΘ hov)
  rw [e, Option.some.injEq] at e'
  subst e'
  rw [hM, Option.some.injEq] at hM'
  subst hM'
  obtain ⟨m', r, g⟩ := h m (by
    intro n hn hN
    have hN' : n ≤ N := by
      have : (⟨⟨⟨0, 0, 0⟩, ⟨0, 0, 0⟩⟩, ⟨⟨0, 0, 0⟩, ⟨0, 0, 0⟩⟩, 0⟩ : Qrt).am = 0 := rfl
      omega
    obtain ⟨h1, h2⟩ := hm n hn hN'
    exact ⟨h1, h2⟩)
  refine ⟨m', r, ?_⟩
  intro q hq hqa
  obtain ⟨Mq, g1, g2, g3⟩ := g q hq hqa
  exact ⟨Mq, g1, g2, fun n hn hN => ⟨(g3 n hn hN).le, (g3 n hn hN).err⟩⟩

/-- The growth bound satisfies the conditions on overflow. -/
theorem growth_noOverflow {N k0 kp : ℕ} {Pm : VPar ℝ} {M w v : ℝ} (hM : 11 / 2 ^ 1022 ≤ M)
    (h : ParBound Pm w v) (hk : k0 + (2 * kp + 8) * (N + 1) ≤ 2 ^ 52)
    (hp : (2 + Pm.aop) * growth M w v N ≤ 2 ^ 1022) (hq : (2 + Pm.aoq) * growth M w v N ≤ 2 ^ 1022)
    (hN : N * v ≤ 2 ^ 1022) : NoOverflow N k0 kp Pm (growthFam M w v) := by
  have hκ := κ_pos
  have hM' : 11 * κ ≤ M := by
    refine le_trans (le_of_eq ?_) hM
    unfold κ; ring
  have hM0 : 0 < M := by linarith
  have hw0 : 0 ≤ w := by have := h.I .x; linarith [this.1, this.2.1, this.2.2]
  have hv0 : 0 ≤ v := by have := h.pq; linarith [this.1, this.2]
  have hmono := growth_mono hM0 hw0 hv0
  have e2 : (2 : ℝ) ^ 1023 = 2 * 2 ^ 1022 := by rw [← pow_succ']
  have two : ∀ k : ℕ, k ≤ 2 ^ 52 → (1 + u) ^ k ≤ 2 := by
    intro k hk
    have hg := γ_le hk
    unfold γ at hg
    have h1 : (k : ℝ) ≤ 2 ^ 52 := by exact_mod_cast hk
    have : (k : ℝ) * (1 / 2 ^ 52) ≤ 2 ^ 52 * (1 / 2 ^ 52) := by gcongr
    norm_num at this hg ⊢
    linarith
  have pair : ∀ (k : ℕ) (X : ℝ), k ≤ 2 ^ 52 → 0 ≤ X → X ≤ 2 ^ 1022 → (1 + u) ^ k * X ≤ 2 ^ 1023 := by
    intro k X hk h0 hX
    rw [e2]
    exact mul_le_mul (two k hk) hX h0 (by norm_num)
  have rk : ∀ l : ℤ, l ≤ N + 1 → rounds k0 kp l ≤ 2 ^ 52 := by
    intro l hl
    refine le_trans ?_ hk
    unfold rounds
    have : l.toNat ≤ N + 1 := by omega
    exact Nat.add_le_add_left (Nat.mul_le_mul_left _ this) _
  have gp := fun l => growth_pos hM0 hw0 hv0 l
  have mg : ∀ l, M ≤ growth M w v l := by
    intro l
    have := hmono (Nat.zero_le l)
    simpa [growth] using this
  have s : ∀ (ao : ℝ), 0 ≤ ao → (2 + ao) * growth M w v N ≤ 2 ^ 1022 → ∀ l : ℕ, l ≤ N →
      growth M w v l + ao * growth M w v l + 2 * κ ≤ 2 ^ 1022 := by
    intro ao hao hb l hl
    refine le_trans ?_ hb
    have h1 := hmono hl
    have h2 := mg N
    have h3 := mul_le_mul_of_nonneg_left h1 hao
    linarith
  have val : ∀ l : ℕ, l ≤ N → growth M w v l ≤ 2 ^ 1022 := by
    intro l hl
    have h1 := s _ h.p.2.1 hp l hl
    have h2 := mul_nonneg h.p.2.1 (gp l).le
    linarith
  have nonneg : ∀ {a b c d : Exp}, a.Valid → b.Valid → c.Valid → d.Valid →
      0 ≤ a.am + b.am + c.am + d.am := by
    intro a b c d ha hb hc hd
    have := ha.am_nonneg; have := hb.am_nonneg; have := hc.am_nonneg; have := hd.am_nonneg
    omega
  have o2 : ∀ x : ℝ, 0 ≤ x → x ≤ v → (1 + u) ^ kp * (N * x) ≤ 2 ^ 1023 := by
    intro x h0 hx
    refine pair kp _ ?_ (by positivity) ?_
    · have : kp ≤ (2 * kp + 8) * (N + 1) := by nlinarith
      omega
    · exact (mul_le_mul_of_nonneg_left hx (by positivity)).trans hN
  have vle : ∀ o ao : ℝ, 0 ≤ o → 0 ≤ ao → (o + κ) * (2 + ao) ≤ v → o ≤ v := by
    intro o ao h1 h2 h3
    have : 0 ≤ (o + κ) * (1 + ao) := by positivity
    nlinarith
  refine ⟨?_, ?_, ?_, o2 _ h.p.1 (vle _ _ h.p.1 h.p.2.1 h.p.2.2), o2 _ h.q.1 (vle _ _ h.q.1 h.q.2.1 h.q.2.2),
    o2 _ h.pq.1 (by linarith [h.pq.2])⟩
  · intro n a b c d ha hb hc hd hl
    have := nonneg ha hb hc hd
    exact pair _ _ (rk _ (by omega)) (gp _).le (val _ (by omega))
  · intro n a b c d ha hb hc hd hl
    have := nonneg ha hb hc hd
    have hp0 := mul_nonneg h.p.2.1 (gp (a.am + b.am + c.am + d.am).toNat).le
    have := (gp (a.am + b.am + c.am + d.am).toNat).le
    exact pair _ _ (rk _ (by omega)) (by simp only [growthFam]; linarith) (s _ h.p.2.1 hp _ (by omega))
  · intro n a b c d ha hb hc hd hl
    have := nonneg ha hb hc hd
    have hp0 := mul_nonneg h.q.2.1 (gp (a.am + b.am + c.am + d.am).toNat).le
    have := (gp (a.am + b.am + c.am + d.am).toNat).le
    exact pair _ _ (rk _ (by omega)) (by simp only [growthFam]; linarith) (s _ h.q.2.1 hq _ (by omega))

/-- The same with a majorant in closed form, for the electron repulsion integrals over two Gaussian
pairs: if the `(ss|ss)` integrals are at most `B`, the integrals of total angular momentum `l` have
errors of at most `(k0 + (2 kp + 8) l) 2^-52 B ∏ (1 + w + j v)`, `j < l`, where `w` bounds
`|PA| + |aop PQ|` and `v` the factors of lower integrals. -/
theorem C85_closed {ord : ℕ → List Exp} (ho : OrdOK ord) (hs : OrdStart ord)
    {enum : List Qrt → List Qrt} (he : EnumOK enum) {ams : List QAM}
    (hv : ∀ a ∈ ams, a.valid = true ∧ a.tag = "") {se sg : ℤ}
    (hmode : ModesOK ord se sg (classTargets ord ams)) :
    ∃ A M, vrrCreate enum (vrrDirections (classTargets ord ams)) (classTargets ord ams) = some A ∧
      A.mreq ssss = some M ∧
      ∀ F : Arith, Rounds F → ∀ (G : Pairs) (K : ℝ) (kp : ℕ) (P' Pm : VPar ℝ),
      ParNear kp P' G.par Pm → ∀ w v B : ℝ, ParBound Pm w v → 11 / 2 ^ 1022 ≤ B →
      ∀ N k0 : ℕ, k0 + (2 * kp + 8) * (N + 1) ≤ 2 ^ 52 →
      (2 + Pm.aop) * growth B w v N ≤ 2 ^ 1022 → (2 + Pm.aoq) * growth B w v N ≤ 2 ^ 1022 →
      N * v ≤ 2 ^ 1022 →
      ∀ m : VMem ℝ, (∀ n : ℕ, (n : ℤ) ≤ M → n ≤ N →
        |G.eri K n ⟨0, 0, 0⟩ ⟨0, 0, 0⟩ ⟨0, 0, 0⟩ ⟨0, 0, 0⟩| ≤ B ∧
        |m ssss n - G.eri K n ⟨0, 0, 0⟩ ⟨0, 0, 0⟩ ⟨0, 0, 0⟩ ⟨0, 0, 0⟩| ≤ ((1 + u) ^ k0 - 1) * B) →
      ∃ m', run F ord enum se sg A P' A.order m = some m' ∧
        ∀ q : Qrt, q.Valid → q.am4 ∈ ams →
          ∃ Mq, A.mreq q.am4 = some Mq ∧ 0 ≤ Mq ∧ ∀ n : ℕ, (n : ℤ) ≤ Mq → (n : ℤ) + q.am ≤ N →
            |G.eri K n (q.cen .I) (q.cen .J) (q.cen .K) (q.cen .L)| ≤ growth B w v q.am.toNat ∧
            |m' q.am4 (n * q.ncart + q.index ord) -
                G.eri K n (q.cen .I) (q.cen .J) (q.cen .K) (q.cen .L)| ≤
              (k0 + (2 * kp + 8) * q.am.toNat : ℕ) * (1 / 2 ^ 52) * growth B w v q.am.toNat := by
  obtain ⟨A, M, e, hM, main⟩ := C85_bound ho hs he hv hmode
  refine ⟨A, M, e, hM, ?_⟩
  intro F hF G K kp P' Pm hP w v B hb hB N k0 hk hp hq hN m hm
  have hκ := κ_pos
  have hB' : 11 * κ ≤ B := by
    refine le_trans (le_of_eq ?_) hB
    unfold κ; ring
  have hB0 : 0 < B := by linarith
  have hw0 : 0 ≤ w := by have := hb.I .x; linarith [this.1, this.2.1, this.2.2]
  have hv0 : 0 ≤ v := by have := hb.pq; linarith [this.1, this.2]
  obtain ⟨m', r, g⟩ := main F hF kp P' G.par Pm hP (G.eri K) (growthFam B w v) (C20_vertical G K)
    (growth_majorant hB' hb) N k0 (growth_noOverflow hB hb hk hp hq hN) m (by
      intro n hn hN
      have e0 : growthFam B w v n ⟨0, 0, 0⟩ ⟨0, 0, 0⟩ ⟨0, 0, 0⟩ ⟨0, 0, 0⟩ = B := by
        simp [growthFam, growth, Exp.am]
      rw [e0]
      exact hm n hn hN)
  refine ⟨m', r, ?_⟩
  intro q hq' hqa
  obtain ⟨Mq, g1, g2, g3⟩ := g q hq' hqa
  refine ⟨Mq, g1, g2, fun n hn hN => ?_⟩
  have e1 : growthFam B w v n (q.cen .I) (q.cen .J) (q.cen .K) (q.cen .L) = growth B w v q.am.toNat := by
    simp only [growthFam]
    congr 2
    rw [Qrt.am_cen]; ring
  obtain ⟨g4, g5⟩ := g3 n hn hN
  rw [e1] at g4 g5
  refine ⟨g4, g5.trans ?_⟩
  refine mul_le_mul_of_nonneg_right (γ_le (le_trans ?_ hk)) (growth_pos hB0 hw0 hv0 _).le
  have : q.am.toNat ≤ N + 1 := by omega
  exact Nat.add_le_add_left (Nat.mul_le_mul_left _ this) _

theorem κ_le : κ ≤ 1 / 8 := by
  unfold κ
  have : (2 : ℝ) ^ 3 ≤ 2 ^ 1022 := pow_le_pow_right₀ (by norm_num) (by norm_num)
  refine (one_div_le_one_div_of_le (by norm_num) this).trans (by norm_num)

/-- the parameters of two equal pairs of exponent 1 at distance 2 on the x axis, with their
absolute values as bounds -/
example : ParBound ⟨fun _ => 0, fun _ => 0, fun _ => 0, fun _ => 0, fun i => if i = .x then 1 else 0,
    fun i => if i = .x then 1 else 0, 1 / 2, 1 / 2, 1 / 2, 1 / 2, 1 / 4⟩ 1 2 := by
  have hκ := κ_le
  have h0 := κ_pos
  constructor
  any_goals (intro i; cases i <;> simp)
  all_goals simp only
  · exact ⟨by norm_num, by norm_num, by linarith⟩
  · exact ⟨by norm_num, by norm_num, by linarith⟩
  · exact ⟨by norm_num, by linarith⟩

/-! ## No relative bound -/

/-- parameters of the counterexample: all directions but x trivial -/
noncomputable def cexPar : VPar ℝ where
  PA := fun i => if i = .x then 1 + 1 / 2 ^ 52 else 0
  PB := fun i => if i = .x then 1 + 1 / 2 ^ 52 else 0
  QA := fun _ => 0
  QB := fun _ => 0
  aopPQ := fun i => if i = .x then 1 else 0
  aoqPQ := fun _ => 0
  aop := 0
  aoq := 0
  o2p := 0
  o2q := 0
  o2pq := 0

/-- values of the `(ss|ss)` integrals -/
noncomputable def cexBase (n : ℕ) : ℝ := if n = 0 then 1 + 1 / 2 ^ 52 else if n = 1 then -(1 + 1 / 2 ^ 51) else 0

noncomputable def cexPow : ℕ → ℕ → ℝ
  | 0, n => cexBase n
  | l + 1, n => (1 + 1 / 2 ^ 52) * cexPow l n + cexPow l (n + 1)

noncomputable def cexFam : VFam ℝ := fun n a b c d =>
  if a.y = 0 ∧ a.z = 0 ∧ b.y = 0 ∧ b.z = 0 ∧ c = ⟨0, 0, 0⟩ ∧ d = ⟨0, 0, 0⟩ then cexPow (a.x + b.x).toNat n
  else 0

theorem cexFam_I {a b c d : Exp} (ha : 0 ≤ a.x) (hb : 0 ≤ b.x) (n : ℕ) :
    cexFam n (a.step .x 1) b c d = (1 + 1 / 2 ^ 52) * cexFam n a b c d + 1 * cexFam (n + 1) a b c d := by
  have e : (a.x + 1 + b.x).toNat = (a.x + b.x).toNat + 1 := by omega
  unfold cexFam
  simp only [Exp.step, e, cexPow]
  split_ifs <;> simp

theorem cexFam_J {a b c d : Exp} (ha : 0 ≤ a.x) (hb : 0 ≤ b.x) (n : ℕ) :
    cexFam n a (b.step .x 1) c d = (1 + 1 / 2 ^ 52) * cexFam n a b c d + 1 * cexFam (n + 1) a b c d := by
  have e : (a.x + (b.x + 1)).toNat = (a.x + b.x).toNat + 1 := by omega
  unfold cexFam
  simp only [Exp.step, e, cexPow]
  split_ifs <;> simp

theorem cexFam_rr : VRRFam cexPar cexFam := by
  have st : ∀ (e : Exp) (i : Dir), e.Valid → e.step i 1 ≠ ⟨0, 0, 0⟩ := by
    rintro ⟨x, y, z⟩ i ⟨h1, h2, h3⟩ h
    simp only at h1 h2 h3
    cases i <;> simp only [Exp.step, Exp.mk.injEq] at h <;> omega
  constructor
  · intro n a b c d i ha hb hc hd
    obtain ⟨a1, a2, a3⟩ := ha
    obtain ⟨b1, -, -⟩ := hb
    cases i
    · simp only [cexPar, if_true, mul_zero, zero_mul, add_zero]
      exact cexFam_I a1 b1 n
    · simp only [cexPar, reduceCtorEq, if_false, mul_zero, zero_mul, add_zero]
      exact if_neg (by rintro ⟨h, -⟩; simp only [Exp.step] at h; omega)
    · simp only [cexPar, reduceCtorEq, if_false, mul_zero, zero_mul, add_zero]
      exact if_neg (by rintro ⟨-, h, -⟩; simp only [Exp.step] at h; omega)
  · intro n a b c d i ha hb hc hd
    obtain ⟨a1, -, -⟩ := ha
    obtain ⟨b1, b2, b3⟩ := hb
    cases i
    · simp only [cexPar, if_true, mul_zero, zero_mul, add_zero]
      exact cexFam_J a1 b1 n
    · simp only [cexPar, reduceCtorEq, if_false, mul_zero, zero_mul, add_zero]
      exact if_neg (by rintro ⟨-, -, h, -⟩; simp only [Exp.step] at h; omega)
    · simp only [cexPar, reduceCtorEq, if_false, mul_zero, zero_mul, add_zero]
      exact if_neg (by rintro ⟨-, -, -, h, -⟩; simp only [Exp.step] at h; omega)
  · intro n a b c d i ha hb hc hd
    simp only [cexPar, mul_zero, zero_mul, add_zero]
    exact if_neg (by rintro ⟨-, -, -, -, h, -⟩; exact st c i hc h)
  · intro n a b c d i ha hb hc hd
    simp only [cexPar, mul_zero, zero_mul, add_zero]
    exact if_neg (by rintro ⟨-, -, -, -, -, h⟩; exact st d i hd h)

theorem rn_neg_one_sub : rn (-(1 + 1 / 2 ^ 51)) = -(1 + 1 / 2 ^ 51) := by
  have h : lastPlace (-(1 + 1 / 2 ^ 51)) = -52 :=
    HRRRound.rn_place (e := 0) (by rw [abs_neg]; norm_num [abs_of_pos]) (by rw [abs_neg]; norm_num [abs_of_pos])
      (by norm_num)
  unfold FlBoys.rn
  have e : (-(1 + 1 / 2 ^ 51) : ℝ) / 2 ^ (-52 : ℤ) = ((-(2 ^ 52 + 2) : ℤ) : ℝ) := by
    rw [zpow_neg]; norm_num
  rw [h, e, round_intCast, zpow_neg]
  norm_num

/-- No bound relative to the integral itself holds: with all parameters and the `(ss|ss)` integrals
exact doubles, the integral `(px s|ss)` is computed as zero though it is not zero (products rounded,
doubles to nearest). -/
theorem C85_relative_false {se sg : ℤ} (hse : 1 < se) :
    ∃ (P : VPar ℝ) (θ : VFam ℝ) (A : VRRAlgo) (m m' : VMem ℝ),
    VRRFam P θ ∧
    vrrCreate id (vrrDirections (classTargets psi4List [⟨1, 0, 0, 0, ""⟩]))
      (classTargets psi4List [⟨1, 0, 0, 0, ""⟩]) = some A ∧
    (∀ n, m ssss n = θ n ⟨0, 0, 0⟩ ⟨0, 0, 0⟩ ⟨0, 0, 0⟩ ⟨0, 0, 0⟩) ∧
    run (ieee false) psi4List id se sg A P A.order m = some m' ∧
    θ 0 ⟨1, 0, 0⟩ ⟨0, 0, 0⟩ ⟨0, 0, 0⟩ ⟨0, 0, 0⟩ ≠ 0 ∧
    m' ⟨1, 0, 0, 0, ""⟩
      (Qrt.index psi4List ⟨⟨⟨1, 0, 0⟩, ⟨0, 0, 0⟩⟩, ⟨⟨0, 0, 0⟩, ⟨0, 0, 0⟩⟩, 0⟩) = 0 := by
  have hv : ∀ a ∈ [(⟨1, 0, 0, 0, ""⟩ : QAM)], QAM.valid a = true ∧ a.tag = "" := by decide
  have hmode : ModesOK psi4List se sg (classTargets psi4List [⟨1, 0, 0, 0, ""⟩]) := by
    have key : ∀ q ∈ classTargets psi4List [(⟨1, 0, 0, 0, ""⟩ : QAM)], q.am < se := by
      intro q hq
      have h := ((mem_classTargets psi4_ordOK psi4_start hv).1 hq).2.2
      rw [List.mem_singleton] at h
      rw [← Qrt.am4_sum, h]
      exact hse
    exact ⟨fun q hq => Or.inl (key q hq), fun q hq => Or.inl (key q hq)⟩
  let s0 : Qrt := ⟨⟨⟨0, 0, 0⟩, ⟨0, 0, 0⟩⟩, ⟨⟨0, 0, 0⟩, ⟨0, 0, 0⟩⟩, 0⟩
  let px : Qrt := ⟨⟨⟨1, 0, 0⟩, ⟨0, 0, 0⟩⟩, ⟨⟨0, 0, 0⟩, ⟨0, 0, 0⟩⟩, 0⟩
  let G : ℕ → Qrt → ℝ → Prop := fun n q v => (q = s0 → v = cexBase n) ∧ (q = px → n = 0 → v = 0)
  have hr := rn_neg_one_sub
  have hq2 := HRRRound.rn_sq
  have hG : @VClosed ℝ (flOps (ieee false)) cexPar G := by
    intro f t d q n rd hq hm hd h
    refine ⟨fun e => ?_, fun e hn => ?_⟩
    · subst e
      cases t <;> cases d <;> exact absurd hd (by decide)
    · subst e
      subst hn
      have ht : t = .I ∧ d = .x := by
        cases t <;> cases d <;> first | exact ⟨rfl, rfl⟩ | exact absurd hd (by decide)
      obtain ⟨rfl, rfl⟩ := ht
      have hs : vslot .I px .x 0 = s0 := by decide
      have h0 := (h 0 (by rw [hs]; decide) 0 le_rfl (by omega)).1 hs
      have h1 := (h 0 (by rw [hs]; decide) 1 (by omega) le_rfl).1 hs
      rw [vslot_zero] at h0 h1
      have n1 : vnum .I px .x (RRType.s1 .I) = 0 := by decide
      have n2 : vnum .I px .x (RRType.s2 .I) = 0 := by decide
      have n3 : vnum .I px .x (RRType.o1 .I) = 0 := by decide
      have n4 : vnum .I px .x (RRType.o2 .I) = 0 := by decide
      cases f
      · simp only [vform, n1, n2, n3, n4, vOne, vTwo, lt_irrefl, if_false, h0, h1]
        show (if false then (0 : ℝ) else rn (rn (1 * -(1 + 1 / 2 ^ 51)) +
          rn ((1 + 1 / 2 ^ 52) * (1 + 1 / 2 ^ 52)))) = 0
        rw [one_mul, hr, hq2]
        simp [FlBoys.rn_zero]
      · simp only [vform, n1, n2, n3, n4, vOne, vTwoG, lt_irrefl, if_false, h0, h1]
        show (if false then (0 : ℝ) else rn (rn ((1 + 1 / 2 ^ 52) * (1 + 1 / 2 ^ 52)) +
          rn (1 * -(1 + 1 / 2 ^ 51)))) = 0
        rw [one_mul, hr, hq2]
        simp [FlBoys.rn_zero]
  obtain ⟨A, M, e, hM, h⟩ := @vertical_closed ℝ (flOps (ieee false)) psi4List psi4_ordOK psi4_start id
    (fun l x => Iff.rfl) [⟨1, 0, 0, 0, ""⟩] hv se sg hmode cexPar G hG
  have base : ∀ n, cexFam n ⟨0, 0, 0⟩ ⟨0, 0, 0⟩ ⟨0, 0, 0⟩ ⟨0, 0, 0⟩ = cexBase n := by
    intro n
    simp [cexFam, cexPow]
  obtain ⟨m', r, g⟩ := h (fun _ n => cexBase n) (fun n _ => ⟨fun _ => rfl, fun e => absurd e (by decide)⟩)
  refine ⟨cexPar, cexFam, A, fun _ n => cexBase n, m', cexFam_rr, e, fun n => (base n).symm, r, ?_, ?_⟩
  · simp [cexFam, cexPow, cexBase]
    norm_num
  · obtain ⟨Mq, g1, g2, g3⟩ := g px (by decide) (by decide)
    have := (g3 0 (by simpa using g2)).2 rfl rfl
    rw [Nat.zero_mul, Nat.zero_add] at this
    exact this

end Simint.VRRRound
