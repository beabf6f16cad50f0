import Verif.FlDerivLemmas
import Verif.FlModerate
import Verif.Props.ShellFill

/-! Error of the horizontal stage and of the lines of `WriteFormDeriv`; the exact derivatives. -/

set_option autoImplicit false

namespace Simint

open Finset
open FlBoys (Arith Rounds u η)

/-! ## The horizontal stage -/

section
variable {F : Arith} {b : Build} {g : GenCfg} {final : QAM} {c : DerivCall ℝ} {H : HRRAlgo} {A : VRRAlgo}
  {S T : ℕ → PairData} {R : ℝ}

theorem stepped_le {ty : RRType} {p : ℤ × ℤ} (h1 : 0 ≤ p.1) (h2 : 0 ≤ p.2) : steppedAM ty p ≤ p.1 + p.2 := by
  unfold steppedAM
  split <;> omega

/-- Angular momentum on the stepped centers of the classes derivatives are formed from. -/
theorem needed_stepped {q : QAM} (hq : q ∈ derivNeeded final) (ty ty' : RRType) :
    (steppedAM ty q.bra + steppedAM ty' q.ket).toNat ≤
      (steppedAM ty final.bra + steppedAM ty' final.ket).toNat + 1 := by
  obtain ⟨t, -, rfl | ⟨hv, rfl⟩⟩ := mem_derivNeeded.1 hq
  · cases t <;> simp only [raisedQ, QAM.bump, QAM.bra, QAM.ket, steppedAM] <;> split_ifs <;> omega
  · cases t <;> simp only [loweredQ, QAM.bump, QAM.bra, QAM.ket, steppedAM] <;> split_ifs <;> omega

theorem gradStepped_le (hv : final.Valid) : gradStepped final ≤ totalL final + 1 := by
  obtain ⟨v1, v2, v3, v4⟩ := hv
  have h1 := stepped_le (ty := (setDirections (derivNeeded final)).1) (p := final.bra) v1 v2
  have h2 := stepped_le (ty := (setDirections (derivNeeded final)).2) (p := final.ket) v3 v4
  unfold gradStepped totalL
  simp only [QAM.bra, QAM.ket] at h1 h2 ⊢
  omega

/-- Bound of the integrals derivatives are formed from. -/
noncomputable def gradM (F : Arith) (c : Call ℝ) (S T : ℕ → PairData) (R : ℝ) (ab cd : ℕ) (final : QAM) : ℝ :=
  gradSize F c S T R ab cd (totalL final + 1) * (2 + 2 * R) ^ gradStepped final

/-- Roundings in the integrals derivatives are formed from. -/
def gradK (kb : ℕ) (final : QAM) (n : ℕ) : ℕ :=
  2 * (kb + 114 + 46 * (totalL final + 1) + 3 * (n - 1)) + 3 * gradStepped final

theorem horizontalD_err (hF : Sound F) (hst : Stable F) (hg : g.OK) (hf : DerivClassOK final)
    (hL : totalL final + 1 ≤ 24) (hc : DerivCallOK final c.toCall)
    (hA : AlgosOK g (setDirections (derivNeeded final)) (derivNeeded final) (totalL final + 1) H A)
    (hS : HoldsFl F c.P (tightStart c.P.nprim12) S R)
    (hT : HoldsFl F c.Q (paddedStart c.len c.Q.nprim12) T R)
    (hP : HoldsExpsFl c.P c.alpha2P c.beta2P (tightStart c.P.nprim12) S)
    (hQ : HoldsExpsFl c.Q c.alpha2Q c.beta2Q (paddedStart c.len c.Q.nprim12) T) {kb : ℕ} (hkb : kb ≤ 2 ^ 19)
    (hboys : BoysOK F c.toCall b.vec (totalL final + 1) kb) {ab cd : ℕ} (hab : ab < c.P.nclip)
    (hcd : cd < c.Q.nclip) (hn : c.P.nprim12 ab * c.Q.nprim12 cd ≤ 2 ^ 49)
    (hov : 4 * (gradSize F c.toCall S T R ab cd (totalL final + 1) * (2 + 2 * R) ^ (totalL final + 1)) ≤
      2 ^ 1022)
    {X : QAM → ℕ → Fd F} (hX : ∀ t ∈ H.top, ∀ k < ncartQ t, SumOf F (X t k).val
      (quartetValues (flDerivEnv F b g final c H A) (flDPrim F b g A (totalL final + 1) c) ab cd t k)) :
    ∃ m', HRRRound.runM F b.fuse b.fuseB b.fuseK psi4List g.enumD g.he g.hg H
      (fun d => c.P.AB d ab) (fun d => c.Q.AB d cd) H.order (fun t k => (X t k).val) = some m' ∧
      ∀ q ∈ derivNeeded final, ∀ x y z w : Exp, x.Valid → y.Valid → z.Valid → w.Valid →
        x.am = q.a → y.am = q.b → z.am = q.c → w.am = q.d →
        Approx (gradK kb final (c.P.nprim12 ab * c.Q.nprim12 cd))
          (m' q (Qrt.index psi4List ⟨⟨x, y⟩, ⟨z, w⟩, 0⟩)) (exactW F c.toCall S T ab cd q.tag x y z w)
          (gradM F c.toCall S T R ab cd final) := by
  have hκ := κ_pos
  have hR : 0 ≤ R := (abs_nonneg _).trans (hS.pos ab hab .x).1
  have hX1 : 1 ≤ 2 + 2 * R := by linarith
  obtain ⟨s1, s2, s3⟩ := gradSize_facts (c := c) hF hS hT hab hcd
  have hp1 : ∀ n, 1 ≤ (2 + 2 * R) ^ n := fun n => one_le_pow₀ hX1
  have hov' : 4 * gradSize F c.toCall S T R ab cd (totalL final + 1) ≤ 2 ^ 1022 := by
    refine le_trans ?_ hov
    have h1 := s1 (totalL final + 1)
    have h2 := hp1 (totalL final + 1)
    have : gradSize F c.toCall S T R ab cd (totalL final + 1) * 1 ≤
        gradSize F c.toCall S T R ab cd (totalL final + 1) * (2 + 2 * R) ^ (totalL final + 1) :=
      mul_le_mul_of_nonneg_left h2 (by linarith)
    linarith
  set bty := (setDirections (derivNeeded final)).1 with hbty
  set kty := (setDirections (derivNeeded final)).2 with hkty
  obtain ⟨H', e', key⟩ := HRRRound.C84_general hg.D hg.Q (bty := bty) (kty := kty) hf.classes.hb hf.classes.hk
    (ams := derivNeeded final) hf.classes.valid hf.classes.h18 g.he g.hg
  rw [hA.hcreate, Option.some.injEq] at e'
  subst e'
  have hcl := hrrCreate_closed hg.Q hA.hcreate
    (Pr := fun q => q.a + q.b + q.c + q.d ≤ (totalL final + 1 : ℕ))
    (fun q h1 d hd => by
      have := deps_sums hA.hok.bra hA.hok.ket hd
      omega)
    (fun q hq => by
      have := hf.classes.le q hq
      unfold totalAM at this
      omega)
  set K := kb + 114 + 46 * (totalL final + 1) + 3 * (c.P.nprim12 ab * c.Q.nprim12 cd - 1) with hKdef
  have hK : ∀ n ≤ 24, 2 * K + 3 * n ≤ 2 ^ 52 := by
    intro n hn'
    norm_num at hkb hn ⊢
    omega
  have hdiff : ∀ a b : ℝ, |a| ≤ R ∧ |b| ≤ R → |a - b| ≤ 2 * R := by
    intro a b ⟨h1, h2⟩
    exact (abs_sub a b).trans (by linarith)
  obtain ⟨m', r, hm⟩ := key F hF.toRounds b.fuse b.fuseB b.fuseK
    (fun d => (S ab).A.pos d - (S ab).B.pos d) (fun d => (T cd).A.pos d - (T cd).B.pos d)
    (fun d => c.P.AB d ab) (fun d => c.Q.AB d cd) (hS.AB ab hab) (hT.AB cd hcd)
    (fun tag => exactW F c.toCall S T ab cd tag)
    (fun _ a b c' d => gradSize F c.toCall S T R ab cd (a.am + b.am + c'.am + d.am).toNat *
      (2 + 2 * R) ^ ((if bty.isLeft then a else b).am + (if kty.isLeft then c' else d).am).toNat)
    (fun tag => exactW_hrr hS hT hab hcd tag)
    (fun _ => size_majorant hR (fun d => hdiff _ _ (hS.pos ab hab d)) (fun d => hdiff _ _ (hT.pos cd hcd d)) s2 s1)
    (2 * K) (by
      intro q hq x y z w vx vy vz vw ex ey ez ew
      have hb := hcl.2 q hq
      have hx := vx.am_nonneg
      have hy := vy.am_nonneg
      have hz := vz.am_nonneg
      have hw := vw.am_nonneg
      have h1 := stepped_le (ty := bty) (p := q.bra) (by rw [show q.bra.1 = q.a from rfl]; omega)
        (by rw [show q.bra.2 = q.b from rfl]; omega)
      have h2 := stepped_le (ty := kty) (p := q.ket) (by rw [show q.ket.1 = q.c from rfl]; omega)
        (by rw [show q.ket.2 = q.d from rfl]; omega)
      have hle : (steppedAM bty q.bra + steppedAM kty q.ket).toNat ≤ totalL final + 1 := by
        simp only [QAM.bra, QAM.ket] at h1 h2 ⊢
        omega
      rw [HRRRound.am_stepped bty (p := q.bra) ex ey,
        HRRRound.am_stepped kty (p := q.ket) ez ew, ex, ey, ez, ew]
      have g1 := pow_two_le (hK _ (hle.trans hL))
      have hb' : (q.a + q.b + q.c + q.d).toNat ≤ totalL final + 1 := by omega
      have g2 : gradSize F c.toCall S T R ab cd (q.a + q.b + q.c + q.d).toNat *
          (2 + 2 * R) ^ (steppedAM bty q.bra + steppedAM kty q.ket).toNat ≤
          gradSize F c.toCall S T R ab cd (totalL final + 1) * (2 + 2 * R) ^ (totalL final + 1) :=
        mul_le_mul (s2 hb') (pow_le_pow_right₀ hX1 hle) (by positivity) (by
          have := s1 (totalL final + 1); linarith)
      have g0 : 0 ≤ gradSize F c.toCall S T R ab cd (q.a + q.b + q.c + q.d).toNat *
          (2 + 2 * R) ^ (steppedAM bty q.bra + steppedAM kty q.ket).toNat :=
        mul_nonneg (by have := s1 (q.a + q.b + q.c + q.d).toNat; linarith) (by positivity)
      have e2 : (2 : ℝ) ^ 1023 = 2 * 2 ^ 1022 := by rw [← pow_succ']
      rw [e2]
      refine mul_le_mul g1 (le_trans ?_ hov) g0 (by norm_num)
      have : 0 ≤ gradSize F c.toCall S T R ab cd (totalL final + 1) * (2 + 2 * R) ^ (totalL final + 1) :=
        g0.trans g2
      linarith)
    (fun t k => (X t k).val) (by
      intro q hq x y z w vx vy vz vw ex ey ez ew
      set Z : Qrt := ⟨⟨x, y⟩, ⟨z, w⟩, 0⟩ with hZ
      have hv : Z.Valid := ⟨⟨vx, vy⟩, ⟨vz, vw⟩, le_rfl⟩
      have et : q.notag = Z.am4 := by
        obtain ⟨a', b', c', d', tag⟩ := q
        simp only at ex ey ez ew
        simp only [hZ, Qrt.am4, QAM.notag, ex, ey, ez, ew]
      have hlt : Z.index psi4List < ncartQ q := by
        have := Qrt.index_lt psi4_ordOK hv
        have e2 : ncartQ q = ncartQ q.notag := rfl
        rw [e2, et]
        exact this
      have hZam : Z.am.toNat = (x.am + y.am + z.am + w.am).toNat := by
        simp only [hZ, Qrt.am]
        congr 1
        ring
      obtain ⟨c1, c2⟩ := contractedD_err hF hst hg hL hc hA hS hT hP hQ hkb hboys hab hcd hn hov' hq hv et
        (hX q hq (Z.index psi4List) hlt)
      rw [hZam] at c1 c2
      have hpos : 0 ≤ gradSize F c.toCall S T R ab cd (x.am + y.am + z.am + w.am).toNat := by
        have := s1 (x.am + y.am + z.am + w.am).toNat
        linarith
      have hmul := le_mul_of_one_le_right hpos (hp1 ((if bty.isLeft then x else y).am +
        (if kty.isLeft then z else w).am).toNat)
      refine ⟨c1.trans hmul, c2.trans ?_⟩
      have hle : kb + 114 + 46 * (x.am + y.am + z.am + w.am).toNat +
          3 * (c.P.nprim12 ab * c.Q.nprim12 cd - 1) ≤ K := by
        have := hcl.1 q hq
        rw [ex, ey, ez, ew]
        omega
      have hγ : ((kb + 114 + 46 * (x.am + y.am + z.am + w.am).toNat +
          3 * (c.P.nprim12 ab * c.Q.nprim12 cd - 1) : ℕ) : ℝ) * (1 / 2 ^ 52) ≤ γ (2 * K) := by
        have h1 : ((kb + 114 + 46 * (x.am + y.am + z.am + w.am).toNat +
          3 * (c.P.nprim12 ab * c.Q.nprim12 cd - 1) : ℕ) : ℝ) ≤ (K : ℕ) := by exact_mod_cast hle
        refine FlPrim.γ_ge ?_
        push_cast at h1 ⊢
        linarith
      exact mul_le_mul hγ hmul hpos (γ_nonneg _))
  refine ⟨m', r, ?_⟩
  intro q hq x y z w vx vy vz vw ex ey ez ew
  have h := hm q hq x y z w vx vy vz vw ex ey ez ew
  have hst' := needed_stepped hq bty kty
  have h' : Approx _ _ _ _ := ⟨h.1, h.2⟩
  refine h'.mono ?_ ?_
  · unfold gradK gradStepped
    rw [← hbty, ← hkty]
    omega
  · rw [HRRRound.am_stepped bty (p := q.bra) ex ey, HRRRound.am_stepped kty (p := q.ket) ez ew, ex, ey, ez, ew]
    have hle := hf.classes.le q hq
    unfold gradM
    refine mul_le_mul (s2 ?_) (pow_le_pow_right₀ hX1 ?_) (by positivity) ?_
    · unfold totalAM at hle
      omega
    · unfold gradStepped
      rw [← hbty, ← hkty]
      omega
    · have := s1 (totalL final + 1)
      linarith

end

/-! ## The lines of `WriteFormDeriv` -/

section
variable {F : Arith} {fuseD : RRType → Dir → Bool}

theorem flForm_sub_err (hF : Rounds F) {k : ℕ} {v' v w' w M n : ℝ} {N : ℕ} (z : ℤ) (hn : n = z) (hz : 0 ≤ z)
    (hzN : z ≤ N) (hM : 2 * κ ≤ M) (hv : Approx k v' v M) (hw : Approx k w' w M) (t : RRType) (d : Dir)
    (hk : k + 2 ≤ 2 ^ 52) (hov : (N + 2) * M ≤ 2 ^ 1022) :
    Approx (k + 2) ((flForm F fuseD).sub t d ⟨v'⟩ z ⟨w'⟩).val (v - n * w) ((N + 2) * M) := by
  subst hn
  have hκ := κ_pos
  have hM0 : 0 ≤ M := by linarith
  have hz' : (0 : ℝ) ≤ z := by exact_mod_cast hz
  have hzN' : (z : ℝ) ≤ N := by exact_mod_cast hzN
  have e2 : (2 : ℝ) ^ 1023 = 2 * 2 ^ 1022 := by rw [← pow_succ']
  have hzM : (z : ℝ) * M ≤ N * M := mul_le_mul_of_nonneg_right hzN' hM0
  have hzM0 : 0 ≤ (z : ℝ) * M := mul_nonneg hz' hM0
  have ov : ∀ j ≤ k + 2, ∀ X, 0 ≤ X → X ≤ (N + 2) * M → (1 + u) ^ j * X ≤ 2 ^ 1023 := fun j hj X hX0 hX => by
    rw [e2]
    exact mul_le_mul (pow_two_le (hj.trans hk)) (hX.trans hov) hX0 (by norm_num)
  have h1 : Approx k (z * w') (z * w) (z * M) := by
    have := (Approx.refl (z : ℝ)).mul hw
    rw [Nat.zero_add, abs_of_nonneg hz'] at this
    exact this
  show Approx (k + 2) (if fuseD t d then F.fl (v' - z * w') else F.fl (v' - F.fl (z * w'))) _ _
  split_ifs
  · have h2 := (hv.sub h1).fl hF (ov k (by omega) _ (by linarith) (by linarith))
    exact h2.mono (by omega) (by linarith)
  · have h2 := h1.fl hF (ov k (by omega) _ hzM0 (by linarith))
    have h3 := ((hv.mono (Nat.le_succ k) le_rfl).sub h2).fl hF (ov (k + 1) (by omega) _ (by linarith) (by linarith))
    exact h3.mono le_rfl (by linarith)

theorem flForm_neg_err (hF : Rounds F) {k : ℕ} {a' b' c' a b c M : ℝ} {N : ℕ} (hM : 2 * κ ≤ M)
    (ha : Approx (k + 2) a' a ((N + 2) * M)) (hb : Approx (k + 2) b' b ((N + 2) * M))
    (hc : Approx (k + 2) c' c ((N + 2) * M)) (hk : k + 4 ≤ 2 ^ 52) (hov : (3 * N + 7) * M ≤ 2 ^ 1022) :
    Approx (k + 4) ((flForm F fuseD).neg [⟨a'⟩, ⟨b'⟩, ⟨c'⟩]).val (-(a + b + c)) ((3 * N + 7) * M) := by
  have hκ := κ_pos
  have hM0 : 0 ≤ M := by linarith
  have e2 : (2 : ℝ) ^ 1023 = 2 * 2 ^ 1022 := by rw [← pow_succ']
  have hNM : 0 ≤ (N : ℝ) * M := by positivity
  have ov : ∀ j ≤ k + 4, ∀ X, 0 ≤ X → X ≤ (3 * N + 7) * M → (1 + u) ^ j * X ≤ 2 ^ 1023 := fun j hj X hX0 hX => by
    rw [e2]
    exact mul_le_mul (pow_two_le (hj.trans hk)) (hX.trans hov) hX0 (by norm_num)
  show Approx (k + 4) (-(F.fl (F.fl (a' + b') + c'))) _ _
  have h1 := (ha.add hb).fl hF (ov (k + 2) (by omega) _ (by nlinarith) (by nlinarith))
  have h2 := (h1.add (hc.mono (Nat.le_succ _) le_rfl)).fl hF (ov (k + 3) (by omega) _ (by nlinarith) (by nlinarith))
  exact h2.neg.mono (by omega) (by nlinarith)

end

/-! ## The exact derivatives -/

section
variable {F : Arith} {c : DerivCall ℝ} {S T : ℕ → PairData} {R : ℝ} {ab cd : ℕ}

/-- Derivative of one primitive with its coefficients. -/
noncomputable def dPrim (S T : ℕ → PairData) (ab cd k l : ℕ) (e : RRType → Exp) (t : RRType) (i : Dir) : ℝ :=
  raiseLower (fun s a b c d => tagFl S T ab cd (centerTag s) k l * exactPrim S T ab cd k l a b c d)
    (exactPrim S T ab cd k l) e t i

theorem tagFl_center (t : RRType) (k l : ℕ) : tagFl S T ab cd (centerTag t) k l = expFl S T ab cd t k l := by
  unfold tagFl
  cases t <;> simp [centerTag]

/-- A shell paired with itself has one center. -/
def OneCenter (S T : PairData) : Prop :=
  (sameShell S.A S.B = true → S.A.pos = S.B.pos) ∧ (sameShell T.A T.B = true → T.A.pos = T.B.pos)

theorem PairData.mean_sum (S : PairData) (k : ℕ) :
    S.A.alpha (S.prim k).1 + S.B.alpha (S.prim k).2 = S.meanA k + S.meanB k := by
  unfold PairData.meanA PairData.meanB
  split_ifs <;> ring

theorem PairData.mean_plain {S : PairData} {k : ℕ} (h : ¬ sameShell S.A S.B = true) :
    S.meanA k = S.A.alpha (S.prim k).1 ∧ S.meanB k = S.B.alpha (S.prim k).2 := by
  unfold PairData.meanA PairData.meanB PairData.folded
  simp [h]

theorem meanPrim_eq (h : OneCenter (S ab) (T cd)) (k l : ℕ) (x y z w : Exp) :
    exactPrim S T ab cd k l x y z w = meanPrim S T ab cd k l x y z w := by
  unfold exactPrim meanPrim
  congr 1
  have e1 : ∀ γ δ : ℝ, coulomb ((S ab).A.alpha ((S ab).prim k).1) ((S ab).B.alpha ((S ab).prim k).2) γ δ
      (S ab).A.pos (S ab).B.pos (T cd).A.pos (T cd).B.pos x y z w = coulomb ((S ab).meanA k) ((S ab).meanB k) γ δ
      (S ab).A.pos (S ab).B.pos (T cd).A.pos (T cd).B.pos x y z w := by
    intro γ δ
    by_cases hs : sameShell (S ab).A (S ab).B = true
    · exact coulomb_bra_sum ((S ab).mean_sum k) γ δ (h.1 hs) _ _ _ _ _ _
    · obtain ⟨m1, m2⟩ := PairData.mean_plain (k := k) hs
      rw [m1, m2]
  rw [e1]
  by_cases hs : sameShell (T cd).A (T cd).B = true
  · exact coulomb_ket_sum ((T cd).mean_sum l) _ _ (h.2 hs) _ _ _ _ _ _
  · obtain ⟨m1, m2⟩ := PairData.mean_plain (k := l) hs
    rw [m1, m2]

/-- The integral whose derivatives are computed is the integral of C88 where the derivatives are taken. -/
theorem meanERI_eq {c : Call ℝ} (h : OneCenter (S ab) (T cd)) (x y z w : Exp) :
    meanERI F c S T ab cd x y z w = exactERI F c S T ab cd x y z w := by
  unfold meanERI exactERI
  simp only [meanPrim_eq h]

/-- Without pairs of a shell with itself the two integrals agree everywhere. -/
theorem meanERI_plain {c : Call ℝ} (h1 : ¬ sameShell (S ab).A (S ab).B = true)
    (h2 : ¬ sameShell (T cd).A (T cd).B = true) (t : RRType) (i : Dir) (v : ℝ) (x y z w : Exp) :
    meanERI F c (moveFl S T t i v).1 (moveFl S T t i v).2 ab cd x y z w =
      exactERI F c (moveFl S T t i v).1 (moveFl S T t i v).2 ab cd x y z w := by
  refine meanERI_eq ⟨fun h => absurd h ?_, fun h => absurd h ?_⟩ x y z w
  · cases t <;> exact h1
  · cases t <;> exact h2

theorem dPrim_hasDerivAt (hS : HoldsFl F c.P (tightStart c.P.nprim12) S R)
    (hT : HoldsFl F c.Q (paddedStart c.len c.Q.nprim12) T R) (ho : OneCenter (S ab) (T cd)) (hab : ab < c.P.nclip) (hcd : cd < c.Q.nclip)
    {k l : ℕ} (hk : k < c.P.nprim12 ab) (hl : l < c.Q.nprim12 cd) {x y z w : Exp} (hx : x.Valid) (hy : y.Valid)
    (hz : z.Valid) (hw : w.Valid) (t : RRType) (i : Dir) :
    HasDerivAt (fun v => meanPrim (moveFl S T t i v).1 (moveFl S T t i v).2 ab cd k l x y z w)
      (dPrim S T ab cd k l (comps x y z w) t i) (posFl S T ab cd t i) := by
  have hP := hS.size ab hab k hk
  have hQ := hT.size cd hcd l hl
  obtain ⟨p1, p2⟩ := PairData.mean_pos hP.ar.pos hP.br.pos
  obtain ⟨p3, p4⟩ := PairData.mean_pos hQ.ar.pos hQ.br.pos
  unfold dPrim raiseLower
  simp only [tagFl_center, meanPrim_eq ho]
  cases t
  · have h := (coulomb_hasDerivAt_1 p1 p2 p3 p4 (S ab).A.pos (S ab).B.pos
      (T cd).A.pos (T cd).B.pos x y z w i ((Exp.valid_iff _).1 hx i)).const_mul
      (FlPrim.coefs (S ab).A (S ab).B (T cd).A (T cd).B ((S ab).prim k).1 ((S ab).prim k).2 ((T cd).prim l).1
      ((T cd).prim l).2)
    refine h.congr_deriv ?_
    simp [meanPrim, expFl, comps]
    ring
  · have h := (coulomb_hasDerivAt_2 p1 p2 p3 p4 (S ab).A.pos (S ab).B.pos
      (T cd).A.pos (T cd).B.pos x y z w i ((Exp.valid_iff _).1 hy i)).const_mul
      (FlPrim.coefs (S ab).A (S ab).B (T cd).A (T cd).B ((S ab).prim k).1 ((S ab).prim k).2 ((T cd).prim l).1
      ((T cd).prim l).2)
    refine h.congr_deriv ?_
    simp [meanPrim, expFl, comps]
    ring
  · have h := (coulomb_hasDerivAt_3 p1 p2 p3 p4 (S ab).A.pos (S ab).B.pos
      (T cd).A.pos (T cd).B.pos x y z w i ((Exp.valid_iff _).1 hz i)).const_mul
      (FlPrim.coefs (S ab).A (S ab).B (T cd).A (T cd).B ((S ab).prim k).1 ((S ab).prim k).2 ((T cd).prim l).1
      ((T cd).prim l).2)
    refine h.congr_deriv ?_
    simp [meanPrim, expFl, comps]
    ring
  · have h := (coulomb_hasDerivAt_4 p1 p2 p3 p4 (S ab).A.pos (S ab).B.pos
      (T cd).A.pos (T cd).B.pos x y z w i ((Exp.valid_iff _).1 hw i)).const_mul
      (FlPrim.coefs (S ab).A (S ab).B (T cd).A (T cd).B ((S ab).prim k).1 ((S ab).prim k).2 ((T cd).prim l).1
      ((T cd).prim l).2)
    refine h.congr_deriv ?_
    simp [meanPrim, expFl, comps]
    ring

theorem dPrim_sum (hS : HoldsFl F c.P (tightStart c.P.nprim12) S R)
    (hT : HoldsFl F c.Q (paddedStart c.len c.Q.nprim12) T R) (ho : OneCenter (S ab) (T cd)) (hab : ab < c.P.nclip) (hcd : cd < c.Q.nclip)
    {k l : ℕ} (hk : k < c.P.nprim12 ab) (hl : l < c.Q.nprim12 cd) {x y z w : Exp} (hx : x.Valid) (hy : y.Valid)
    (hz : z.Valid) (hw : w.Valid) (i : Dir) :
    dPrim S T ab cd k l (comps x y z w) .I i + dPrim S T ab cd k l (comps x y z w) .J i +
      dPrim S T ab cd k l (comps x y z w) .K i + dPrim S T ab cd k l (comps x y z w) .L i = 0 := by
  have hP := hS.size ab hab k hk
  have hQ := hT.size cd hcd l hl
  obtain ⟨p1, p2⟩ := PairData.mean_pos hP.ar.pos hP.br.pos
  obtain ⟨p3, p4⟩ := PairData.mean_pos hQ.ar.pos hQ.br.pos
  have h := coulomb_trans p1 p2 p3 p4 (S ab).A.pos (S ab).B.pos
    (T cd).A.pos (T cd).B.pos x y z w i hx hy hz hw
  unfold dPrim raiseLower
  simp only [tagFl_center, meanPrim_eq ho]
  simp [meanPrim, expFl, comps]
  linear_combination (FlPrim.coefs (S ab).A (S ab).B (T cd).A (T cd).B ((S ab).prim k).1 ((S ab).prim k).2
    ((T cd).prim l).1 ((T cd).prim l).2) * h

/-- Derivative of the integral over the evaluated pairs of primitives. -/
noncomputable def dERI (F : Arith) (c : Call ℝ) (S T : ℕ → PairData) (ab cd : ℕ) (e : RRType → Exp) (t : RRType)
    (i : Dir) : ℝ :=
  overKept F c ab cd fun k l => dPrim S T ab cd k l e t i

theorem dERI_hasDerivAt (hS : HoldsFl F c.P (tightStart c.P.nprim12) S R)
    (hT : HoldsFl F c.Q (paddedStart c.len c.Q.nprim12) T R) (ho : OneCenter (S ab) (T cd)) (hab : ab < c.P.nclip) (hcd : cd < c.Q.nclip)
    {x y z w : Exp} (hx : x.Valid) (hy : y.Valid) (hz : z.Valid) (hw : w.Valid) (t : RRType) (i : Dir) :
    HasDerivAt (fun v => meanERI F c.toCall (moveFl S T t i v).1 (moveFl S T t i v).2 ab cd x y z w)
      (dERI F c.toCall S T ab cd (comps x y z w) t i) (posFl S T ab cd t i) := by
  classical
  unfold meanERI dERI overKept
  refine HasDerivAt.fun_sum fun k hk => HasDerivAt.fun_sum fun l hl => ?_
  by_cases h : c.toCall.KeptFl F (tightStart c.P.nprim12 ab + k) (paddedStart c.len c.Q.nprim12 cd + l)
  · simp only [h, if_true]
    exact dPrim_hasDerivAt hS hT ho hab hcd (mem_range.1 hk) (mem_range.1 hl) hx hy hz hw t i
  · simp only [h, if_false]
    exact hasDerivAt_const _ _

theorem dERI_sum (hS : HoldsFl F c.P (tightStart c.P.nprim12) S R)
    (hT : HoldsFl F c.Q (paddedStart c.len c.Q.nprim12) T R) (ho : OneCenter (S ab) (T cd)) (hab : ab < c.P.nclip) (hcd : cd < c.Q.nclip)
    {x y z w : Exp} (hx : x.Valid) (hy : y.Valid) (hz : z.Valid) (hw : w.Valid) (i : Dir) :
    dERI F c.toCall S T ab cd (comps x y z w) .I i + dERI F c.toCall S T ab cd (comps x y z w) .J i +
      dERI F c.toCall S T ab cd (comps x y z w) .K i + dERI F c.toCall S T ab cd (comps x y z w) .L i = 0 := by
  classical
  unfold dERI overKept
  simp only [← Finset.sum_add_distrib]
  refine Finset.sum_eq_zero fun k hk => Finset.sum_eq_zero fun l hl => ?_
  split
  · exact dPrim_sum hS hT ho hab hcd (mem_range.1 hk) (mem_range.1 hl) hx hy hz hw i
  · simp

theorem raiseLower_exactW (e : RRType → Exp) (t : RRType) (i : Dir) :
    raiseLower (fun s => exactW F c.toCall S T ab cd (centerTag s)) (exactW F c.toCall S T ab cd "") e t i =
      dERI F c.toCall S T ab cd e t i := by
  classical
  unfold raiseLower exactW dERI overKept
  simp only
  rw [Finset.mul_sum, ← Finset.sum_sub_distrib]
  refine Finset.sum_congr rfl fun k _ => ?_
  rw [Finset.mul_sum, ← Finset.sum_sub_distrib]
  refine Finset.sum_congr rfl fun l _ => ?_
  have h0 : tagFl S T ab cd "" k l = 1 := by unfold tagFl; rw [if_pos rfl]
  rw [h0]
  split
  · unfold dPrim raiseLower
    simp only
    ring
  · ring

end

/-! ## Overflow -/

/-- No overflow for sizes as they occur in calculations on molecules. -/
theorem gradSize_moderate {F : Arith} (hF : Sound F) {c : Call ℝ} {S' T' : ℕ → PairData} {R : ℝ} {ab cd : ℕ}
    (hR : 0 ≤ R) (hR' : R ≤ 2 ^ 10)
    (hP : ∀ k < c.P.nprim12 ab, PairMod (S' ab).A (S' ab).B ((S' ab).prim k).1 ((S' ab).prim k).2 R)
    (hQ : ∀ l < c.Q.nprim12 cd, PairMod (T' cd).A (T' cd).B ((T' cd).prim l).1 ((T' cd).prim l).2 R)
    (hn : c.P.nprim12 ab * c.Q.nprim12 cd ≤ 2 ^ 49) {L : ℕ} (hL : L + 1 ≤ 24) :
    (3 * L + 7 : ℕ) * (gradSize F c S' T' R ab cd (L + 1) * (2 + 2 * R) ^ (L + 1)) ≤ 2 ^ 1022 := by
  classical
  have h1 : overKept F c ab cd (fun k l => expWeight S' T' ab cd k l * primSize S' T' R ab cd (L + 1) k l) ≤
      FlPrim.T 684 := by
    have hle : overKept F c ab cd (fun k l => expWeight S' T' ab cd k l * primSize S' T' R ab cd (L + 1) k l) ≤
        ∑ k ∈ Finset.range (c.P.nprim12 ab), ∑ l ∈ Finset.range (c.Q.nprim12 cd), FlPrim.T 635 := by
      refine Finset.sum_le_sum fun k hk => Finset.sum_le_sum fun l hl => ?_
      split_ifs
      · have p := hP k (Finset.mem_range.1 hk)
        have q := hQ l (Finset.mem_range.1 hl)
        have hw : expWeight S' T' ab cd k l ≤ FlPrim.T 34 := by
          have p1 := p.ahi
          have p2 := p.bhi
          have q1 := q.ahi
          have q2 := q.bhi
          have ep := (S' ab).mean_sum k
          have eq := (T' cd).mean_sum l
          unfold expWeight expFl FlPrim.T
          norm_num at p1 p2 q1 q2 ⊢
          linarith
        have hg := p.growth_le hF q hL
        have hw0 : 0 ≤ expWeight S' T' ab cd k l := by
          obtain ⟨p1, p2⟩ := PairData.mean_pos p.pairIn.ar.pos p.pairIn.br.pos
          obtain ⟨q1, q2⟩ := PairData.mean_pos q.pairIn.ar.pos q.pairIn.br.pos
          unfold expWeight expFl
          linarith
        beta_reduce
        rw [mul_comm]
        exact FlPrim.mul_T hg hw hw0 (by norm_num)
      · exact (FlPrim.T_pos _).le
    refine hle.trans ?_
    rw [Finset.sum_const, Finset.sum_const, Finset.card_range, Finset.card_range, smul_smul, nsmul_eq_mul]
    have : ((c.P.nprim12 ab * c.Q.nprim12 cd : ℕ) : ℝ) ≤ FlPrim.T 49 := by unfold FlPrim.T; exact_mod_cast hn
    exact FlPrim.mul_T this le_rfl (FlPrim.T_pos _).le (by norm_num)
  have h2 : gradSize F c S' T' R ab cd (L + 1) ≤ FlPrim.T 685 := by
    unfold gradSize
    rw [FlPrim.S_def]
    exact FlPrim.add_T h1 ((FlPrim.S_one _).trans (FlPrim.T_one _)) le_rfl
  have h3 : (2 + 2 * R) ^ (L + 1) ≤ FlPrim.T 288 := by
    have : 2 + 2 * R ≤ FlPrim.T 12 := by
      have : R ≤ 1024 := by norm_num at hR'; exact hR'
      unfold FlPrim.T
      norm_num
      linarith
    refine (pow_le_pow_left₀ (by linarith) this (L + 1)).trans ?_
    unfold FlPrim.T
    rw [← pow_mul]
    exact pow_le_pow_right₀ (by norm_num) (by omega)
  have h4 := FlPrim.mul_T h2 h3 (by positivity) (le_refl 973)
  have h5 : ((3 * L + 7 : ℕ) : ℝ) ≤ FlPrim.T 7 := by
    have : 3 * L + 7 ≤ 2 ^ 7 := by omega
    unfold FlPrim.T
    exact_mod_cast this
  rw [FlPrim.T_def]
  refine (mul_le_mul_of_nonneg_left h4 (by positivity)).trans ?_
  exact FlPrim.mul_T h5 le_rfl (FlPrim.T_pos _).le (by norm_num)

end Simint
