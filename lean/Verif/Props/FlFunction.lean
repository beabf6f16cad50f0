import Verif.FlModerate
import Verif.Props.Hsum

/-!
# Property C88: the error of complete generated functions

Shell pairs, Boys function, vertical stage, contraction, horizontal stage and output on doubles.
-/

set_option autoImplicit false

open Real Finset

namespace Simint

open FlBoys (Arith ieee u)

/-- **C88.** The complete function on doubles, for every class up to a total angular momentum of 24, every
choice of the thresholds, of the set iteration orders, of contracted expressions and of the variant of `contract_all`, every call and every
previous content of memory: if the Boys function of the evaluated primitives has a relative error of `kb`
roundings, and nothing overflows, the function runs, returns the number of quartets, leaves the rest of
the output alone, and each integral has an error of at most `errCount * 2^-52` times the sum of the bounds
of the evaluated primitives times `(2 + 2R)^n`, `n` being the angular momentum on the stepped centers. -/
theorem C88_function {F : Arith} (hF : Sound F) (hst : Stable F) (b : Build) {g : GenCfg} (hg : g.OK)
    {final : QAM} (hf : ClassOK final) (hL : totalL final ≤ 24) {c : Call ℝ} (hc : CallOK final c)
    {S T : ℕ → PairData} {R : ℝ} (hS : HoldsFl F c.P (tightStart c.P.nprim12) S R)
    (hT : HoldsFl F c.Q (paddedStart c.len c.Q.nprim12) T R) {kb : ℕ} (hkb : kb ≤ 2 ^ 19)
    (hboys : BoysOK F c b.vec (totalL final) kb)
    (hn : ∀ ab < c.P.nclip, ∀ cd < c.Q.nclip, c.P.nprim12 ab * c.Q.nprim12 cd ≤ 2 ^ 49)
    (hov : ∀ ab < c.P.nclip, ∀ cd < c.Q.nclip,
      4 * (sizeMax F c S T R ab cd (totalL final) * (2 + 2 * R) ^ totalL final) ≤ 2 ^ 1022)
    (hmem : HMem (Fd F)) (out : ℕ → Fd F) (hout : ∀ k, IsDouble F (out k).val) :
    ∃ o, flFunction F b g final c hmem out = some (c.P.nclip * c.Q.nclip, o) ∧
      (∀ ab < c.P.nclip, ∀ cd < c.Q.nclip, ∀ x y z w : Exp, x.Valid → y.Valid → z.Valid → w.Valid →
        x.am = final.a → y.am = final.b → z.am = final.c → w.am = final.d →
        |(o ((ab * c.Q.nclip + cd) * ncartQ final + Qrt.index psi4List ⟨⟨x, y⟩, ⟨z, w⟩, 0⟩)).val -
            exactERI F c S T ab cd x y z w| ≤
          errCount kb final (c.P.nprim12 ab * c.Q.nprim12 cd) * (1 / 2 ^ 52) *
            (sizeMax F c S T R ab cd (totalL final) *
              (2 + 2 * R) ^ (min final.a final.b + min final.c final.d).toNat)) ∧
      ∀ k, c.P.nclip * c.Q.nclip * ncartQ final ≤ k → o k = out k := by
  obtain ⟨H, A, e, hA⟩ := algos_ok hg hf
  have hl := flEnv_laneWise (b := b) hF hst hg hf hL hA hc.braPos hc.ketPos
  have hok : ListsOK (flEnv F b g final c H A) :=
    ⟨hc.len, hc.prims, hc.bra, hc.ket, List.nodup_dedup _, fun t ht =>
      ncartQ_pos (hA.tval t (by simpa [flEnv] using ht))⟩
  have hq : ∀ {x y z w : Exp}, x.Valid → y.Valid → z.Valid → w.Valid → x.am = final.a →
      y.am = final.b → z.am = final.c → w.am = final.d →
      (⟨⟨x, y⟩, ⟨z, w⟩, 0⟩ : Qrt).Valid ∧ (⟨⟨x, y⟩, ⟨z, w⟩, 0⟩ : Qrt).am4 = final := by
    intro x y z w vx vy vz vw ex ey ez ew
    refine ⟨⟨⟨vx, vy⟩, ⟨vz, vw⟩, le_rfl⟩, ?_⟩
    have := hf.tag
    obtain ⟨a, b, c, d, tag⟩ := final
    simp only at this ex ey ez ew
    simp only [Qrt.am4, ex, ey, ez, ew, this]
  have hlt : ∀ {q : Qrt}, q.Valid → q.am4 = final → q.index psi4List < ncartQ final := by
    intro q h1 h2
    rw [← h2]
    exact Qrt.index_lt psi4_ordOK h1
  unfold flFunction
  rw [e, Option.bind_some]
  by_cases hh : H.hasHRR
  · simp only [hh, if_true]
    obtain ⟨X, hX, run⟩ := C103_hrr (flEnv F b g final c H A) (b.all c.len) (flPrim F b g A (totalL final) c) hl hok
      (fun t _ => by simp only [flEnv, hh, if_true]; exact le_rfl)
    have hX' : ∀ ab < c.P.nclip, ∀ cd < c.Q.nclip, ∀ t ∈ H.top, ∀ k < ncartQ t, SumOf F (X ab cd t k).val
        (quartetValues (flEnv F b g final c H A) (flPrim F b g A (totalL final) c) ab cd t k) :=
      fun ab hab cd hcd t ht k hk => hX ab hab cd hcd t (by simpa [flEnv] using ht) k hk
    have herr := fun ab hab cd hcd => horizontal_err hF hst hg hf hL hc e hA hS hT hkb hboys hab hcd
      (hn ab hab cd hcd) (hov ab hab cd hcd) (hX' ab hab cd hcd)
    have hon : HrrOn (flEnv F b g final c H A) (flHrr F b g final c H) final X (fun ab cd k =>
        ((flHrr F b g final c H).hrr ab cd (X ab cd)).elim 0 fun m => m final k) := by
      intro ab hab cd hcd view hview
      obtain ⟨H', e', ok, tb, tk⟩ := hrrCreate_ok psi4_ordOK psi4_start hg.D hg.Q (hrrDirections final).1
        (hrrDirections final).2 (ams := [final]) (by simpa using hf.valid)
      rw [hA.hcreate, Option.some.injEq] at e'
      subst e'
      have hb : H.bra.type = .I ∨ H.bra.type = .J := by
        rw [tb]; simp only [hrrDirections]; split <;> simp
      have hk : H.ket.type = .K ∨ H.ket.type = .L := by
        rw [tk]; simp only [hrrDirections]; split <;> simp
      have hop := fun m : HMem ℝ => runHRRM_op hg.D g.he g.hg ok hb hk (by simpa using ⟨hf.bra, hf.ket⟩)
        (opB := HRRRound.flOp F b.fuse fun d => c.P.AB d ab) (opK := HRRRound.flOp F b.fuse fun d => c.Q.AB d cd)
        (gB := HRRRound.flDirOp F b.fuseB fun d => c.P.AB d ab)
        (gK := HRRRound.flDirOp F b.fuseK fun d => c.Q.AB d cd) H.order (fun _ h => h) m
      obtain ⟨m1, m2, r1, r2, h12⟩ := runHRROp_det
        (C := ⟨modeSteps g.enumD g.he g.hg H.bra, modeSteps g.enumD g.he g.hg H.ket⟩) psi4_ordOK ok hb hk
        (modeSteps_cover hg.D g.he g.hg ok.bra)
        (modeSteps_cover hg.D g.he g.hg ok.ket)
        (opB := modeOp g.he g.hg (fun q => q.a + q.b) (HRRRound.flOp F b.fuse fun d => c.P.AB d ab)
          (HRRRound.flDirOp F b.fuseB fun d => c.P.AB d ab))
        (opK := modeOp g.he g.hg (fun q => q.c + q.d) (HRRRound.flOp F b.fuse fun d => c.Q.AB d cd)
          (HRRRound.flDirOp F b.fuseK fun d => c.Q.AB d cd))
        (m1 := fun t k => (view t k).val) (m2 := fun t k => (X ab cd t k).val)
        (fun t ht k hk => by rw [hview t (by simpa [flEnv] using ht) k hk])
      rw [← hop] at r1 r2
      have w1 : (flHrr F b g final c H).hrr ab cd view = some fun t k => ⟨m1 t k⟩ := by
        show (HRRRound.runM F b.fuse b.fuseB b.fuseK psi4List g.enumD g.he g.hg H
          (fun d => c.P.AB d ab) (fun d => c.Q.AB d cd) H.order fun t k => (view t k).val).map _ = _
        unfold HRRRound.runM
        rw [r1, Option.map_some]
      have w2 : (flHrr F b g final c H).hrr ab cd (X ab cd) = some fun t k => ⟨m2 t k⟩ := by
        show (HRRRound.runM F b.fuse b.fuseB b.fuseK psi4List g.enumD g.he g.hg H
          (fun d => c.P.AB d ab) (fun d => c.Q.AB d cd) H.order fun t k => (X ab cd t k).val).map _ = _
        unfold HRRRound.runM
        rw [r2, Option.map_some]
      refine ⟨_, w1, fun k hk => ?_⟩
      simp only
      rw [w2]
      obtain ⟨q, q1, q0, q2, q3⟩ := Qrt.index_surj psi4_ordOK hf.valid hf.tag hk
      obtain ⟨⟨a, b'⟩, ⟨c', d⟩, n⟩ := q
      simp only at q0
      subst q0
      have h := h12 final (by simp) ⟨a, b'⟩ ⟨c', d⟩ q1.1 q1.2.1 (by rw [← q2]; rfl) (by rw [← q2]; rfl)
      rw [← q3]
      exact Fd.val_injective h
    obtain ⟨o, r, h1, h2⟩ := run (flHrr F b g final c H) final _ (ncartQ_pos hf.valid) hon hc.out hmem out
    refine ⟨o, r, ?_, h2⟩
    intro ab hab cd hcd x y z w vx vy vz vw ex ey ez ew
    obtain ⟨hv, hv4⟩ := hq vx vy vz vw ex ey ez ew
    have ho := h1 ab hab cd hcd _ (hlt hv hv4)
    obtain ⟨m', rm, hm⟩ := herr ab hab cd hcd
    have w2 : (flHrr F b g final c H).hrr ab cd (X ab cd) = some fun t k => ⟨m' t k⟩ := by
      show (HRRRound.runM F b.fuse b.fuseB b.fuseK psi4List g.enumD g.he g.hg H
        (fun d => c.P.AB d ab) (fun d => c.Q.AB d cd) H.order fun t k => (X ab cd t k).val).map _ = _
      rw [rm, Option.map_some]
    rw [w2] at ho
    have ho' : o ((ab * c.Q.nclip + cd) * ncartQ final + Qrt.index psi4List ⟨⟨x, y⟩, ⟨z, w⟩, 0⟩) =
      ⟨m' final (Qrt.index psi4List ⟨⟨x, y⟩, ⟨z, w⟩, 0⟩)⟩ := ho
    rw [ho']
    exact hm x y z w vx vy vz vw ex ey ez ew
  · simp only [hh]
    have hn' := (hrrCreate_no_steps hg.Q hA.hcreate hA.hok (by simpa using hh)).2
    have ht : (flEnv F b g final c H A).tops = [final] := by
      have hm : ∀ q, q ∈ H.top.dedup ↔ q = final := fun q => by
        rw [List.mem_dedup, hn']; simp
      have hnd := List.nodup_dedup H.top
      show H.top.dedup = [final]
      generalize H.top.dedup = l at hm hnd
      match l with
      | [] => exact absurd ((hm final).2 rfl) (by simp)
      | [a] => rw [(hm a).1 (by simp)]
      | a :: b :: l =>
        exfalso
        have h1 := (hm a).1 (by simp)
        have h2 := (hm b).1 (by simp)
        rw [h1, h2] at hnd
        simp at hnd
    obtain ⟨o, r, h1, h2⟩ := C103_direct hst (flEnv F b g final c H A) (b.all c.len) final
      (flPrim F b g A (totalL final) c) hl hok ht (by simp only [flEnv, hh]; exact hc.out) out hout
    refine ⟨o, r, ?_, h2⟩
    intro ab hab cd hcd x y z w vx vy vz vw ex ey ez ew
    obtain ⟨hv, hv4⟩ := hq vx vy vz vw ex ey ez ew
    have hs := h1 ab hab cd hcd _ (hlt hv hv4)
    have hκ := κ_pos
    have hR : 0 ≤ R := (abs_nonneg _).trans (hS.pos ab hab .x).1
    obtain ⟨s1, s2, s3⟩ := sizeMax_facts hF hS hT hab hcd
    have hp1 : ∀ n, 1 ≤ (2 + 2 * R) ^ n := fun n => one_le_pow₀ (by linarith)
    have s0 : 0 ≤ sizeMax F c S T R ab cd (totalL final) := by
      have := s1 (totalL final)
      linarith
    have hov' : 4 * sizeMax F c S T R ab cd (totalL final) ≤ 2 ^ 1022 := by
      refine le_trans ?_ (hov ab hab cd hcd)
      have := le_mul_of_one_le_right s0 (hp1 (totalL final))
      linarith
    have ham : (⟨⟨x, y⟩, ⟨z, w⟩, 0⟩ : Qrt).am.toNat = totalL final := by
      simp only [Qrt.am, totalL, ex, ey, ez, ew]
      congr 1
      ring
    have hc2 := (contracted_err hF hst hg hf hL hc e hA hS hT hkb hboys hab hcd (hn ab hab cd hcd) hov' hv
      (by rw [hv4, hn']; simp) (by rw [hv4]; exact hs)).2
    rw [ham] at hc2
    refine hc2.trans ?_
    refine mul_le_mul ?_ (le_mul_of_one_le_right s0 (hp1 _)) s0 (by positivity)
    refine mul_le_mul_of_nonneg_right ?_ (by positivity)
    have : kb + 110 + 46 * totalL final + 3 * (c.P.nprim12 ab * c.Q.nprim12 cd - 1) ≤
        errCount kb final (c.P.nprim12 ab * c.Q.nprim12 cd) := by
      unfold errCount
      omega
    exact_mod_cast this

/-! ### The Boys function -/

section
variable {F : Arith} {c : Call ℝ} {S T : ℕ → PairData} {R : ℝ}

/-- Arguments of the Boys function below 36.5 (up to where the library uses its table). -/
theorem C88_near (hF : Sound F) (hc : 0 < c.len) (hS : HoldsFl F c.P (tightStart c.P.nprim12) S R)
    (hT : HoldsFl F c.Q (paddedStart c.len c.Q.nprim12) T R) (vec : Bool) {L : ℕ} (hL : L ≤ 24)
    (hx : ∀ ab < c.P.nclip, ∀ cd < c.Q.nclip, ∀ k < c.P.nprim12 ab, ∀ l < c.Q.nprim12 cd,
      FlPrim.fx F c.P c.Q (tightStart c.P.nprim12 ab + k) (paddedStart c.len c.Q.nprim12 cd + l) < 36.5) :
    BoysOK F c vec L 226 := by
  intro ab hab cd hcd k hk l hl
  intro i j _ n hn
  have hdiv : j / c.len * c.len + j % c.len = j := by rw [Nat.mul_comm]; exact Nat.div_add_mod _ _
  have h0 := (FlPrim.fx_near hF (hS.size ab hab k hk) (hT.size cd hcd l hl) (hS.prims ab hab k hk)
    (hT.prims cd hcd l hl)).1
  obtain ⟨y, e, hy⟩ := FlBoys.C83_near hF.toRounds vec
    (x := fun w => FlPrim.fx F c.P c.Q i (j / c.len * c.len + w)) (Nat.mod_lt j hc)
    (by rw [hdiv]; exact h0) (by rw [hdiv]; exact hx ab hab cd hcd k hk l hl) hL hn
  rw [hdiv] at hy
  exact ⟨y, e, hy.trans (mul_le_mul_of_nonneg_right (FlPrim.γ_ge (by norm_num)) (boysF_nonneg _ _))⟩

/-- Arguments of the Boys function up to `10^8`, total angular momentum up to 3. -/
theorem C88_far (hF : Sound F) (hc : 0 < c.len) (hS : HoldsFl F c.P (tightStart c.P.nprim12) S R)
    (hT : HoldsFl F c.Q (paddedStart c.len c.Q.nprim12) T R) (vec : Bool) {L : ℕ} (hL : L < 4)
    (hx : ∀ ab < c.P.nclip, ∀ cd < c.Q.nclip, ∀ k < c.P.nprim12 ab, ∀ l < c.Q.nprim12 cd,
      FlPrim.fx F c.P c.Q (tightStart c.P.nprim12 ab + k) (paddedStart c.len c.Q.nprim12 cd + l) ≤ 10 ^ 8) :
    BoysOK F c vec L 9910 := by
  intro ab hab cd hcd k hk l hl
  intro i j _ n hn
  have hdiv : j / c.len * c.len + j % c.len = j := by rw [Nat.mul_comm]; exact Nat.div_add_mod _ _
  have h0 := (FlPrim.fx_near hF (hS.size ab hab k hk) (hT.size cd hcd l hl) (hS.prims ab hab k hk)
    (hT.prims cd hcd l hl)).1
  by_cases h36 : FlPrim.fx F c.P c.Q i j < 36.5
  · obtain ⟨y, e, hy⟩ := FlBoys.C83_near hF.toRounds vec
      (x := fun w => FlPrim.fx F c.P c.Q i (j / c.len * c.len + w)) (Nat.mod_lt j hc)
      (by rw [hdiv]; exact h0) (by rw [hdiv]; exact h36) (by omega) hn
    rw [hdiv] at hy
    exact ⟨y, e, hy.trans (mul_le_mul_of_nonneg_right (FlPrim.γ_ge (by norm_num)) (boysF_nonneg _ _))⟩
  · obtain ⟨y, e, hy⟩ := FlBoys.C83_far_small hF.toRounds vec
      (x := fun w => FlPrim.fx F c.P c.Q i (j / c.len * c.len + w)) (Nat.mod_lt j hc)
      (by rw [hdiv]; exact not_lt.1 h36) (by rw [hdiv]; exact hx ab hab cd hcd k hk l hl) hL hn
    rw [hdiv] at hy
    exact ⟨y, e, hy.trans (mul_le_mul_of_nonneg_right (FlPrim.γ_ge (by norm_num)) (boysF_nonneg _ _))⟩

end

/-! ### IEEE doubles -/

/-- IEEE doubles, sizes as they occur in calculations on molecules, arguments of the Boys function below
36.5: nothing overflows, and the error is at most
`(672 + 92 L + 6 (N - 1) + 3 n) 2^-52` times what it is measured with, where `L` is the total angular
momentum, `N` the number of pairs of primitives and `n` the angular momentum on the stepped centers. -/
theorem C88_double (fused : Bool) (b : Build) {g : GenCfg} (hg : g.OK) {final : QAM} (hf : ClassOK final)
    (hL : totalL final ≤ 24) {c : Call ℝ} (hc : CallOK final c) {S T : ℕ → PairData} {R : ℝ} (hR : R ≤ 2 ^ 10)
    (hS : HoldsFl (ieee fused) c.P (tightStart c.P.nprim12) S R)
    (hT : HoldsFl (ieee fused) c.Q (paddedStart c.len c.Q.nprim12) T R)
    (mS : ∀ s < c.P.nclip, ∀ k < c.P.nprim12 s, PairMod (S s).A (S s).B ((S s).prim k).1 ((S s).prim k).2 R)
    (mT : ∀ s < c.Q.nclip, ∀ k < c.Q.nprim12 s, PairMod (T s).A (T s).B ((T s).prim k).1 ((T s).prim k).2 R)
    (hn : ∀ ab < c.P.nclip, ∀ cd < c.Q.nclip, c.P.nprim12 ab * c.Q.nprim12 cd ≤ 2 ^ 49)
    (hx : ∀ ab < c.P.nclip, ∀ cd < c.Q.nclip, ∀ k < c.P.nprim12 ab, ∀ l < c.Q.nprim12 cd,
      FlPrim.fx (ieee fused) c.P c.Q (tightStart c.P.nprim12 ab + k)
        (paddedStart c.len c.Q.nprim12 cd + l) < 36.5)
    (hmem : HMem (Fd (ieee fused))) (out : ℕ → Fd (ieee fused))
    (hout : ∀ k, IsDouble (ieee fused) (out k).val) :
    ∃ o, flFunction (ieee fused) b g final c hmem out = some (c.P.nclip * c.Q.nclip, o) ∧
      (∀ ab < c.P.nclip, ∀ cd < c.Q.nclip, ∀ x y z w : Exp, x.Valid → y.Valid → z.Valid → w.Valid →
        x.am = final.a → y.am = final.b → z.am = final.c → w.am = final.d →
        |(o ((ab * c.Q.nclip + cd) * ncartQ final + Qrt.index psi4List ⟨⟨x, y⟩, ⟨z, w⟩, 0⟩)).val -
            exactERI (ieee fused) c S T ab cd x y z w| ≤
          (672 + 92 * totalL final + 6 * (c.P.nprim12 ab * c.Q.nprim12 cd - 1) +
              3 * (min final.a final.b + min final.c final.d).toNat : ℕ) * (1 / 2 ^ 52) *
            (sizeMax (ieee fused) c S T R ab cd (totalL final) *
              (2 + 2 * R) ^ (min final.a final.b + min final.c final.d).toNat)) ∧
      ∀ k, c.P.nclip * c.Q.nclip * ncartQ final ≤ k → o k = out k := by
  obtain ⟨hF, hst⟩ := C87_ieee fused
  obtain ⟨o, r, h1, h2⟩ := C88_function hF hst b hg hf hL hc hS hT (kb := 226) (by norm_num)
    (C88_near hF hc.len hS hT b.vec hL hx) hn
    (fun ab hab cd hcd => sizeMax_moderate hF ((abs_nonneg _).trans (hS.pos ab hab .x).1) hR (mS ab hab)
      (mT cd hcd) (hn ab hab cd hcd) hL) hmem out hout
  refine ⟨o, r, fun ab hab cd hcd x y z w vx vy vz vw ex ey ez ew => ?_, h2⟩
  have := h1 ab hab cd hcd x y z w vx vy vz vw ex ey ez ew
  have e : errCount 226 final (c.P.nprim12 ab * c.Q.nprim12 cd) = 672 + 92 * totalL final +
      6 * (c.P.nprim12 ab * c.Q.nprim12 cd - 1) + 3 * (min final.a final.b + min final.c final.d).toNat := by
    unfold errCount
    omega
  rw [e] at this
  exact this

/-! ### The hypotheses can be met -/

/-- A list with a single pair of shells with `n` pairs of primitives, padding with exponent 1. -/
noncomputable def pairList (F : Arith) (len n : ℕ) (S : PairData) : MSP ℝ :=
  let v := fun i a => FlPrim.value F S.A S.B (S.prim i).1 (S.prim i).2 a
  { nclip := 1
    nprim12 := fun _ => n
    alloc := simdRound len n
    prefac := fun i => if i < n then v i .prefac else 0
    screen := fun _ => 0
    screenMax := 0
    alpha := fun i => if i < n then v i .alpha else 1
    pos := fun d i => if i < n then v i (.pos d) else 0
    PA := fun d i => if i < n then v i (.PA d) else 0
    PB := fun d i => if i < n then v i (.PB d) else 0
    AB := fun d _ => F.fl (S.A.pos d - S.B.pos d) }

theorem pairList_holds (fused : Bool) (len n : ℕ) (S : PairData) {R : ℝ}
    (hA : ∀ d, ∃ k : ℤ, S.A.pos d = k * 2 ^ (-1074 : ℤ)) (hB : ∀ d, ∃ k : ℤ, S.B.pos d = k * 2 ^ (-1074 : ℤ))
    (hp : ∀ d, |S.A.pos d| ≤ R ∧ |S.B.pos d| ≤ R)
    (hm : ∀ k < n, PairMod S.A S.B (S.prim k).1 (S.prim k).2 R) :
    HoldsFl (ieee fused) (pairList (ieee fused) len n S)
      (paddedStart len (pairList (ieee fused) len n S).nprim12) (fun _ => S) R := by
  refine ⟨fun s _ d => HRRRound.C84_diff fused S.A.pos S.B.pos hA hB d, fun s _ => hp, fun s hs k hk => ?_,
    fun s _ k hk => (hm k hk).pairIn⟩
  have h0 : s = 0 := by have : s < 1 := hs; omega
  subst h0
  have hk : k < n := hk
  have e : paddedStart len (pairList (ieee fused) len n S).nprim12 0 + k = k := by simp [paddedStart]
  rw [e]
  constructor <;> intros <;> simp [pairList, hk]

theorem pairList_pos (fused : Bool) (len n : ℕ) (S : PairData) {R : ℝ}
    (hm : ∀ k < n, PairMod S.A S.B (S.prim k).1 (S.prim k).2 R) (i : ℕ) :
    0 < (pairList (ieee fused) len n S).alpha i := by
  have hF := (C87_ieee fused).1
  simp only [pairList]
  split_ifs with h
  · have hs := (hm i h).sum.1
    have hp := FlPrim.C86_pair hF (hm i h).pairIn
    have h0 : (0 : ℝ) < 1 / 2 ^ 9 := by positivity
    have h1 := (abs_le.1 hp.1).1
    have h2 : (1 : ℝ) / 2 ^ 52 * (S.A.alpha (S.prim i).1 + S.B.alpha (S.prim i).2) ≤
        1 / 2 * (S.A.alpha (S.prim i).1 + S.B.alpha (S.prim i).2) :=
      mul_le_mul_of_nonneg_right (by norm_num) (by linarith)
    linarith
  · exact one_pos

/-- two of the shells of the case below -/
noncomputable def unitPair (k : ℕ) (x : ℝ) : PairData := ⟨FlPrim.unit k x, FlPrim.unit (k + 1) x, fun _ => (0, 0)⟩

theorem unit_mod (k : ℕ) (x : ℝ) (hx : |x| ≤ 1) (a b : ℕ) :
    PairMod (unitPair k x).A (unitPair k x).B a b 1 := by
  have hp : ∀ d : Dir, |if d = .x then x else 0| ≤ 1 := fun d => by split_ifs <;> simp [hx]
  refine ⟨?_, ?_, ?_, ?_, hp, hp, by norm_num, ?_⟩ <;> norm_num [unitPair, FlPrim.unit]

/-- Non-trivial case: one primitive of exponent 1 on each of four centers, the pairs at a distance of 1,
class `(d p | p s)`, vectors of four lanes, IEEE doubles: all 54 integrals have an error of at most
`1043 * 2^-52` times four times the bound. -/
example (fused : Bool) (b : Build) {g : GenCfg} (hg : g.OK) (junk : VPar ℝ) (scratch : ℕ → ℕ → ℕ → VMem ℝ)
    (hmem : HMem (Fd (ieee fused))) (out : ℕ → Fd (ieee fused))
    (hout : ∀ k, IsDouble (ieee fused) (out k).val) :
    let c : Call ℝ := ⟨4, pairList (ieee fused) 4 1 (unitPair 0 0), pairList (ieee fused) 4 1 (unitPair 2 1), 0,
      54, junk, scratch⟩
    ∃ o, flFunction (ieee fused) b g ⟨2, 1, 1, 0, ""⟩ c hmem out = some (1, o) ∧
      |(o 0).val - exactERI (ieee fused) c (fun _ => unitPair 0 0) (fun _ => unitPair 2 1) 0 0
          ⟨2, 0, 0⟩ ⟨1, 0, 0⟩ ⟨1, 0, 0⟩ ⟨0, 0, 0⟩| ≤
        1043 * (1 / 2 ^ 52) *
          (sizeMax (ieee fused) c (fun _ => unitPair 0 0) (fun _ => unitPair 2 1) 1 0 0 4 * 4) ∧
      o 54 = out 54 := by
  intro c
  have hf : ClassOK (⟨2, 1, 1, 0, ""⟩ : QAM) := ⟨by unfold QAM.Valid; decide, rfl, by decide, by decide⟩
  have hint : ∀ (k : ℕ) (x : ℝ), x = 0 ∨ x = 1 → ∀ d, ∃ n : ℤ, (FlPrim.unit k x).pos d = n * 2 ^ (-1074 : ℤ) := by
    intro k x hx d
    have h1 : ∃ n : ℤ, (1 : ℝ) = n * 2 ^ (-1074 : ℤ) := ⟨2 ^ 1074, by
      rw [zpow_neg, zpow_ofNat]; push_cast; rw [mul_inv_cancel₀ (by positivity)]⟩
    simp only [FlPrim.unit]
    split_ifs
    · rcases hx with rfl | rfl
      · exact ⟨0, by simp⟩
      · exact h1
    · exact ⟨0, by simp⟩
  have hpos : ∀ (k : ℕ) (x : ℝ), |x| ≤ 1 → ∀ d, |(unitPair k x).A.pos d| ≤ 1 ∧ |(unitPair k x).B.pos d| ≤ 1 := by
    intro k x hx d
    have : |if d = .x then x else 0| ≤ 1 := by split_ifs <;> simp [hx]
    exact ⟨this, this⟩
  have hS := pairList_holds fused 4 1 (unitPair 0 0) (R := 1) (hint 0 0 (.inl rfl)) (hint 1 0 (.inl rfl))
    (hpos 0 0 (by simp)) (fun k _ => unit_mod 0 0 (by simp) _ _)
  have hT := pairList_holds fused 4 1 (unitPair 2 1) (R := 1) (hint 2 1 (.inr rfl)) (hint 3 1 (.inr rfl))
    (hpos 2 1 (by simp)) (fun k _ => unit_mod 2 1 (by simp) _ _)
  have hS' : HoldsFl (ieee fused) c.P (tightStart c.P.nprim12) (fun _ => unitPair 0 0) 1 := by
    refine ⟨hS.AB, hS.pos, fun s hs k hk => ?_, hS.size⟩
    have h0 : s = 0 := by have : s < 1 := hs; omega
    subst h0
    exact hS.prims 0 hs k hk
  have hc : CallOK (⟨2, 1, 1, 0, ""⟩ : QAM) c := by
    refine ⟨by show 0 < 4; norm_num, fun s _ => one_pos, ?_, fun s hs => ?_, fun i _ =>
      pairList_pos fused 4 1 (unitPair 0 0) (R := 1) (fun k _ => unit_mod 0 0 (by simp) _ _) i, fun i _ =>
      pairList_pos fused 4 1 (unitPair 2 1) (R := 1) (fun k _ => unit_mod 2 1 (by simp) _ _) i,
      by show 1 * 1 * ncartQ _ ≤ 54; decide⟩
    · show tightStart (fun _ => 1) 1 ≤ simdRound 4 1
      decide
    · have h0 : s = 0 := by have : s < 1 := hs; omega
      subst h0
      show simdRound 4 (0 + 1) ≤ simdRound 4 1
      decide
  obtain ⟨o, r, h1, h2⟩ := C88_double fused b hg hf (by decide) hc (R := 1) (by norm_num) hS' hT
    (fun s _ k _ => unit_mod 0 0 (by simp) _ _) (fun s _ k _ => unit_mod 2 1 (by simp) _ _)
    (fun ab _ cd _ => by show 1 * 1 ≤ 2 ^ 49; norm_num)
    (fun ab hab cd hcd k hk l hl => by
      have e1 : ab = 0 := by have : ab < 1 := hab; omega
      have e2 : cd = 0 := by have : cd < 1 := hcd; omega
      have e3 : k = 0 := by have : k < 1 := hk; omega
      have e4 : l = 0 := by have : l < 1 := hl; omega
      subst e1 e2 e3 e4
      exact FlPrim.unit_fx (C87_ieee fused).1) hmem out hout
  refine ⟨o, r, ?_, h2 54 (by show 1 * 1 * ncartQ _ ≤ 54; decide)⟩
  have := h1 0 one_pos 0 one_pos ⟨2, 0, 0⟩ ⟨1, 0, 0⟩ ⟨1, 0, 0⟩ ⟨0, 0, 0⟩ (by decide) (by decide)
    (by decide) (by decide) rfl rfl rfl rfl
  refine this.trans (le_of_eq ?_)
  have e1 : totalL (⟨2, 1, 1, 0, ""⟩ : QAM) = 4 := by decide
  have e2 : (min (2 : ℤ) 1 + min 1 0).toNat = 1 := by decide
  have e3 : c.P.nprim12 0 * c.Q.nprim12 0 = 1 := rfl
  simp only [e1, e2, e3]
  norm_num

end Simint
