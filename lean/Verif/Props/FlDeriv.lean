import Verif.FlDerivErr
import Verif.Props.FlFunction

/-!
# Property C90: the error of complete generated derivative functions

Shell pairs, Boys function, vertical stage, products with twice the exponents, contraction, horizontal
stage, differences and output on doubles.
-/

set_option autoImplicit false

open Real Finset

namespace Simint

open FlBoys (Arith ieee u)

section
variable {F : Arith} {b : Build} {fuseD : RRType → Dir → Bool} {g : GenCfg} {final : QAM} {c : DerivCall ℝ}

/-- The contents of the arrays as families. -/
def arrayFam (m : HMem ℝ) (tag : String) : Fam (Fd F) := fun a b c d =>
  ⟨m ⟨a.am, b.am, c.am, d.am, tag⟩ (Qrt.index psi4List ⟨⟨a, b⟩, ⟨c, d⟩, 0⟩)⟩

theorem arrayFam_holds (m : HMem ℝ) {m' : HMem ℝ} (ams : List QAM)
    (h : ∀ q ∈ ams, ∀ bra ket : Dbl, bra.Valid → ket.Valid → bra.am2 = q.bra → ket.am2 = q.ket →
      m' q (Qrt.index psi4List ⟨bra, ket, 0⟩) = m q (Qrt.index psi4List ⟨bra, ket, 0⟩)) :
    HoldsFam ams (fun t k => (⟨m' t k⟩ : Fd F)) (arrayFam m) := by
  intro q hq x y z w vx vy vz vw ex ey ez ew
  have := h q hq ⟨x, y⟩ ⟨z, w⟩ ⟨vx, vy⟩ ⟨vz, vw⟩ (by simp only [Dbl.am2, QAM.bra, ex, ey])
    (by simp only [Dbl.am2, QAM.ket, ez, ew])
  unfold arrayFam
  beta_reduce
  rw [this, ex, ey, ez, ew]

end

/-- One element of a block with rounding. -/
theorem derivVal_err {F : Arith} (hF : FlBoys.Rounds F) {fuseD : RRType → Dir → Bool} {final : QAM}
    (hf : DerivClassOK final) {c : DerivCall ℝ} {S T : ℕ → PairData} {R : ℝ} {ab cd : ℕ}
    (hS : HoldsFl F c.P (tightStart c.P.nprim12) S R)
    (hT : HoldsFl F c.Q (paddedStart c.len c.Q.nprim12) T R) (ho : OneCenter (S ab) (T cd)) (hab : ab < c.P.nclip) (hcd : cd < c.Q.nclip)
    {k : ℕ} {M : ℝ} {m' : HMem ℝ}
    (hm : ∀ q ∈ derivNeeded final, ∀ x y z w : Exp, x.Valid → y.Valid → z.Valid → w.Valid →
        x.am = q.a → y.am = q.b → z.am = q.c → w.am = q.d →
        Approx k (m' q (Qrt.index psi4List ⟨⟨x, y⟩, ⟨z, w⟩, 0⟩)) (exactW F c.toCall S T ab cd q.tag x y z w) M)
    (hk : k + 4 ≤ 2 ^ 52) (hM : 2 * κ ≤ M) (hov : (3 * totalL final + 7 : ℕ) * M ≤ 2 ^ 1022)
    {x y z w : Exp} (he : ∀ s, IsComp (final.get s).toNat (comps x y z w s)) (t : RRType) (i : Dir) :
    Approx (k + 4) (derivVal (flForm F fuseD) final (arrayFam m') (comps x y z w) t i).val
      (dERI F c.toCall S T ab cd (comps x y z w) t i) (gradTerms final t * M) := by
  have hκ := κ_pos
  have hM0 : 0 ≤ M := by linarith
  push_cast at hov
  have hv : ∀ s, (comps x y z w s).Valid := fun s => (he s).valid
  have ham : ∀ s, (comps x y z w s).am = final.get s := fun s => by
    rw [(he s).am_eq]
    have : 0 ≤ final.get s := by
      obtain ⟨v1, v2, v3, v4⟩ := hf.valid
      cases s <;> assumption
    omega
  -- one center
  have step : ∀ s, s ≠ missingCenter final →
      Approx (k + 2) (stepVal (flForm F fuseD) (fun t => arrayFam m' (centerTag t)) (arrayFam m' "")
        (comps x y z w) s i).val (dERI F c.toCall S T ab cd (comps x y z w) s i)
        (((totalL final : ℕ) + 2) * M) := by
    intro s hs
    have hgi : 0 ≤ (comps x y z w s).get i := (Exp.valid_iff _).1 (hv s) i
    have hup : Approx k (arrayFam (F := F) m' (centerTag s)
        (Function.update (comps x y z w) s ((comps x y z w s).step i 1) .I)
        (Function.update (comps x y z w) s ((comps x y z w s).step i 1) .J)
        (Function.update (comps x y z w) s ((comps x y z w s).step i 1) .K)
        (Function.update (comps x y z w) s ((comps x y z w s).step i 1) .L)).val
        (exactW F c.toCall S T ab cd (centerTag s)
        (Function.update (comps x y z w) s ((comps x y z w s).step i 1) .I)
        (Function.update (comps x y z w) s ((comps x y z w s).step i 1) .J)
        (Function.update (comps x y z w) s ((comps x y z w s).step i 1) .K)
        (Function.update (comps x y z w) s ((comps x y z w s).step i 1) .L)) M := by
      have hmem := mem_derivNeeded.2 ⟨s, hs, Or.inl rfl⟩
      have hv' : ∀ r, (Function.update (comps x y z w) s ((comps x y z w s).step i 1) r).Valid := fun r => by
        by_cases hr : r = s
        · subst hr
          rw [Function.update_self]
          exact (Exp.valid_step_iff _ _ _ (hv r)).2 (by omega)
        · rw [Function.update_of_ne hr]
          exact hv r
      have ham' : ∀ r, (Function.update (comps x y z w) s ((comps x y z w s).step i 1) r).am =
          (raisedQ final s).get r := fun r => by
        rw [get_raised]
        by_cases hr : r = s
        · subst hr
          rw [Function.update_self, Exp.am_step, ham, get_bump_self]
        · rw [Function.update_of_ne hr, ham, get_bump_ne _ _ hr]
      have e : (⟨(Function.update (comps x y z w) s ((comps x y z w s).step i 1) .I).am,
          (Function.update (comps x y z w) s ((comps x y z w s).step i 1) .J).am,
          (Function.update (comps x y z w) s ((comps x y z w s).step i 1) .K).am,
          (Function.update (comps x y z w) s ((comps x y z w s).step i 1) .L).am, centerTag s⟩ : QAM) =
          raisedQ final s := by
        rw [ham', ham', ham', ham']
        rfl
      have := hm _ hmem _ _ _ _ (hv' .I) (hv' .J) (hv' .K) (hv' .L) (ham' .I) (ham' .J) (ham' .K) (ham' .L)
      unfold arrayFam
      rw [e]
      exact this
    have hlow : 0 < (comps x y z w s).get i → Approx k (arrayFam (F := F) m' ""
        (Function.update (comps x y z w) s ((comps x y z w s).step i (-1)) .I)
        (Function.update (comps x y z w) s ((comps x y z w s).step i (-1)) .J)
        (Function.update (comps x y z w) s ((comps x y z w s).step i (-1)) .K)
        (Function.update (comps x y z w) s ((comps x y z w s).step i (-1)) .L)).val
        (exactW F c.toCall S T ab cd ""
        (Function.update (comps x y z w) s ((comps x y z w s).step i (-1)) .I)
        (Function.update (comps x y z w) s ((comps x y z w s).step i (-1)) .J)
        (Function.update (comps x y z w) s ((comps x y z w s).step i (-1)) .K)
        (Function.update (comps x y z w) s ((comps x y z w s).step i (-1)) .L)) M := by
      intro hpos
      have hv' : ∀ r, (Function.update (comps x y z w) s ((comps x y z w s).step i (-1)) r).Valid := fun r => by
        by_cases hr : r = s
        · subst hr
          rw [Function.update_self]
          exact (Exp.valid_step_iff _ _ _ (hv r)).2 (by omega)
        · rw [Function.update_of_ne hr]
          exact hv r
      have ham' : ∀ r, (Function.update (comps x y z w) s ((comps x y z w s).step i (-1)) r).am =
          (loweredQ final s).get r := fun r => by
        have e0 : (loweredQ final s).get r = (final.bump (-1) s).get r := rfl
        rw [e0]
        by_cases hr : r = s
        · subst hr
          rw [Function.update_self, Exp.am_step, ham, get_bump_self]
        · rw [Function.update_of_ne hr, ham, get_bump_ne _ _ hr]
      have hlv : (loweredQ final s).valid = true := by
        rw [valid_iff_Valid]
        exact ⟨by have := (hv' .I).am_nonneg; rw [ham'] at this; exact this,
          by have := (hv' .J).am_nonneg; rw [ham'] at this; exact this,
          by have := (hv' .K).am_nonneg; rw [ham'] at this; exact this,
          by have := (hv' .L).am_nonneg; rw [ham'] at this; exact this⟩
      have hmem := mem_derivNeeded.2 ⟨s, hs, Or.inr ⟨hlv, rfl⟩⟩
      have htag : (loweredQ final s).tag = "" := by
        have := hf.tag
        cases s <;> simpa [loweredQ, QAM.bump] using this
      have e : (⟨(Function.update (comps x y z w) s ((comps x y z w s).step i (-1)) .I).am,
          (Function.update (comps x y z w) s ((comps x y z w s).step i (-1)) .J).am,
          (Function.update (comps x y z w) s ((comps x y z w s).step i (-1)) .K).am,
          (Function.update (comps x y z w) s ((comps x y z w s).step i (-1)) .L).am, ""⟩ : QAM) =
          loweredQ final s := by
        rw [ham', ham', ham', ham', ← htag]
        rfl
      have := hm _ hmem _ _ _ _ (hv' .I) (hv' .J) (hv' .K) (hv' .L) (ham' .I) (ham' .J) (ham' .K) (ham' .L)
      unfold arrayFam
      rw [e]
      rw [htag] at this
      exact this
    rw [← raiseLower_exactW]
    unfold stepVal raiseLower
    simp only
    split_ifs with h
    · have hle : (comps x y z w s).get i ≤ (totalL final : ℕ) := by
        have h1 : (comps x y z w s).get i ≤ (comps x y z w s).am := by
          obtain ⟨v1, v2, v3⟩ := hv s
          cases i <;> simp only [Exp.get, Exp.am] <;> omega
        rw [ham s] at h1
        obtain ⟨v1, v2, v3, v4⟩ := hf.valid
        unfold totalL
        cases s <;> simp only [QAM.get] at h1 <;> omega
      have hNM : 0 ≤ ((totalL final : ℕ) : ℝ) * M := by positivity
      exact flForm_sub_err hF _ rfl hgi hle hM hup (hlow h) s i (by omega) (le_trans (by nlinarith) hov)
    · have h0 : (comps x y z w s).get i = 0 := by omega
      rw [h0, Int.cast_zero, zero_mul, sub_zero]
      have hNM : 0 ≤ ((totalL final : ℕ) : ℝ) * M := by positivity
      exact hup.mono (by omega) (by nlinarith)
  unfold derivVal
  by_cases ht : t = missingCenter final
  · rw [if_pos ht]
    have hsum := dERI_sum (F := F) (c := c) hS hT ho hab hcd (hv .I) (hv .J) (hv .K) (hv .L) i
    have hg : gradTerms final t = 3 * totalL final + 7 := by unfold gradTerms; rw [if_pos ht]
    rw [hg]
    push_cast
    have key : ∀ s1 s2 s3, s1 ≠ missingCenter final → s2 ≠ missingCenter final → s3 ≠ missingCenter final →
        dERI F c.toCall S T ab cd (comps x y z w) t i = -(dERI F c.toCall S T ab cd (comps x y z w) s1 i +
          dERI F c.toCall S T ab cd (comps x y z w) s2 i + dERI F c.toCall S T ab cd (comps x y z w) s3 i) →
        centers.filter (fun s => s ≠ missingCenter final) = [s1, s2, s3] →
        Approx (k + 4) ((flForm F fuseD).neg ((centers.filter fun s => s ≠ missingCenter final).map fun s =>
          stepVal (flForm F fuseD) (fun t => arrayFam m' (centerTag t)) (arrayFam m' "") (comps x y z w) s i)).val
          (dERI F c.toCall S T ab cd (comps x y z w) t i) ((3 * totalL final + 7) * M) := by
      intro s1 s2 s3 n1 n2 n3 e1 e2
      rw [e1, e2]
      exact flForm_neg_err hF hM (step s1 n1) (step s2 n2) (step s3 n3) hk hov
    have hsum' : dERI F c.toCall S T ab cd (comps x y z w) .I i +
      dERI F c.toCall S T ab cd (comps x y z w) .J i + dERI F c.toCall S T ab cd (comps x y z w) .K i +
      dERI F c.toCall S T ab cd (comps x y z w) .L i = 0 := hsum
    rw [← ht] at key ⊢
    cases t
    · exact key .J .K .L (by decide) (by decide) (by decide) (by linarith) (by decide)
    · exact key .I .K .L (by decide) (by decide) (by decide) (by linarith) (by decide)
    · exact key .I .J .L (by decide) (by decide) (by decide) (by linarith) (by decide)
    · exact key .I .J .K (by decide) (by decide) (by decide) (by linarith) (by decide)
  · rw [if_neg ht]
    have hg : gradTerms final t = totalL final + 2 := by unfold gradTerms; rw [if_neg ht]
    rw [hg]
    push_cast
    exact (step t ht).mono (by omega) le_rfl

/-- **C90.** The complete derivative function on doubles, for every class up to a total angular momentum of
23, every choice of the thresholds, of the set iteration orders and of contracted expressions, every call
and every previous content of memory: if the Boys function of the evaluated primitives has a relative error
of `kb` roundings, and nothing overflows, the function runs, returns the number of quartets, leaves the rest
of the output alone, and what it writes at position `12 * component + 3 * center + direction` differs from
the derivative of the exact integral (over the evaluated primitives; both exponents of a pair that stands
for two pairs of one shell with itself are their mean) with respect to that coordinate of that center by at most `gradCount * 2^-52` times `gradTerms` integrals of the raised class, measured with their
exponents. -/
theorem C90_function {F : Arith} (hF : Sound F) (hst : Stable F) (b : Build) (fuseD : RRType → Dir → Bool)
    {g : GenCfg} (hg : g.OK) {final : QAM} (hf : DerivClassOK final) (hL : totalL final + 1 ≤ 24)
    {c : DerivCall ℝ} (hc : DerivCallOK final c.toCall) {S T : ℕ → PairData} {R : ℝ}
    (hS : HoldsFl F c.P (tightStart c.P.nprim12) S R)
    (hT : HoldsFl F c.Q (paddedStart c.len c.Q.nprim12) T R)
    (hP : HoldsExpsFl c.P c.alpha2P c.beta2P (tightStart c.P.nprim12) S)
    (hQ : HoldsExpsFl c.Q c.alpha2Q c.beta2Q (paddedStart c.len c.Q.nprim12) T) {kb : ℕ} (hkb : kb ≤ 2 ^ 19)
    (hboys : BoysOK F c.toCall b.vec (totalL final + 1) kb)
    (hn : ∀ ab < c.P.nclip, ∀ cd < c.Q.nclip, c.P.nprim12 ab * c.Q.nprim12 cd ≤ 2 ^ 49)
    (hov : ∀ ab < c.P.nclip, ∀ cd < c.Q.nclip, (3 * totalL final + 7 : ℕ) *
      (gradSize F c.toCall S T R ab cd (totalL final + 1) * (2 + 2 * R) ^ (totalL final + 1)) ≤ 2 ^ 1022)
    (hmem : HMem (Fd F)) (out : ℕ → Fd F) :
    ∃ o, flDerivFunction F b fuseD g final c hmem out = some (c.P.nclip * c.Q.nclip, o) ∧
      (∀ ab < c.P.nclip, ∀ cd < c.Q.nclip, ∀ x y z w : Exp, x.Valid → y.Valid → z.Valid → w.Valid →
        x.am = final.a → y.am = final.b → z.am = final.c → w.am = final.d → ∀ (t : RRType) (i : Dir),
        ∃ D, HasDerivAt
            (fun v => meanERI F c.toCall (moveFl S T t i v).1 (moveFl S T t i v).2 ab cd x y z w) D
            (posFl S T ab cd t i) ∧
          |(o ((ab * c.Q.nclip + cd) * (12 * ncartQ final) +
              (12 * Qrt.index psi4List ⟨⟨x, y⟩, ⟨z, w⟩, 0⟩ + (3 * t.idx + i.idx)))).val - D| ≤
            gradCount kb final (c.P.nprim12 ab * c.Q.nprim12 cd) * (1 / 2 ^ 52) *
              (gradTerms final t * (gradSize F c.toCall S T R ab cd (totalL final + 1) *
                (2 + 2 * R) ^ gradStepped final))) ∧
      ∀ k, c.P.nclip * c.Q.nclip * (12 * ncartQ final) ≤ k → o k = out k := by
  have ho : ∀ ab < c.P.nclip, ∀ cd < c.Q.nclip, OneCenter (S ab) (T cd) := fun ab hab cd hcd =>
    ⟨hP.same ab hab, hQ.same cd hcd⟩
  obtain ⟨H, A, e, hA⟩ := derivAlgos_ok hg hf
  have hl := flDerivEnv_laneWise (b := b) hF hst hg hA hL hc.braPos hc.ketPos
  have hok : ListsOK (flDerivEnv F b g final c H A) :=
    ⟨hc.len, hc.prims, hc.bra, hc.ket, List.nodup_dedup _, fun t ht =>
      ncartQ_pos (hA.tval t (by simpa [flDerivEnv] using ht))⟩
  unfold flDerivFunction
  rw [e, Option.bind_some]
  simp only [deriv_hasHRR hg hf hA, if_true]
  obtain ⟨X, hX, run⟩ := C103_hrr (flDerivEnv F b g final c H A) (b.all c.len) (flDPrim F b g A (totalL final + 1) c) hl hok
    (fun t _ => le_rfl)
  have hX' : ∀ ab < c.P.nclip, ∀ cd < c.Q.nclip, ∀ t ∈ H.top, ∀ k < ncartQ t, SumOf F (X ab cd t k).val
      (quartetValues (flDerivEnv F b g final c H A) (flDPrim F b g A (totalL final + 1) c) ab cd t k) :=
    fun ab hab cd hcd t ht k hk => hX ab hab cd hcd t (by simpa [flDerivEnv] using ht) k hk
  have hκ := κ_pos
  have hsz : ∀ ab < c.P.nclip, ∀ cd < c.Q.nclip,
      2 * κ ≤ gradM F c.toCall S T R ab cd final ∧
      4 * (gradSize F c.toCall S T R ab cd (totalL final + 1) * (2 + 2 * R) ^ (totalL final + 1)) ≤ 2 ^ 1022 ∧
      (3 * totalL final + 7 : ℕ) * gradM F c.toCall S T R ab cd final ≤ 2 ^ 1022 := by
    intro ab hab cd hcd
    have hR : 0 ≤ R := (abs_nonneg _).trans (hS.pos ab hab .x).1
    have hX1 : 1 ≤ 2 + 2 * R := by linarith
    have s1 := (gradSize_facts (c := c) hF hS hT hab hcd).1 (totalL final + 1)
    have s0 : 0 ≤ gradSize F c.toCall S T R ab cd (totalL final + 1) := by linarith
    refine ⟨s1.trans (le_mul_of_one_le_right s0 (one_le_pow₀ hX1)), le_trans ?_ (hov ab hab cd hcd),
      le_trans ?_ (hov ab hab cd hcd)⟩
    · refine mul_le_mul_of_nonneg_right ?_ (mul_nonneg s0 (by positivity))
      have : 4 ≤ 3 * totalL final + 7 := by omega
      exact_mod_cast this
    · exact mul_le_mul_of_nonneg_left (mul_le_mul_of_nonneg_left
        (pow_le_pow_right₀ hX1 (gradStepped_le hf.valid)) s0) (by positivity)
  have herr := fun ab hab cd hcd => horizontalD_err hF hst hg hf hL hc hA hS hT hP hQ hkb hboys hab hcd
    (hn ab hab cd hcd) (hsz ab hab cd hcd).2.1 (hX' ab hab cd hcd)
  have hreq : ∀ q ∈ derivNeeded final, q ∈ H.top ++ H.order := fun q hq => List.mem_append.2 (hA.hok.req q hq)
  -- the value of the horizontal stage for any content of the buffers that agrees with `X`
  have hval : ∀ ab cd (view : QAM → ℕ → Fd F) (m1 m2 : HMem ℝ),
      HRRRound.runM F b.fuse b.fuseB b.fuseK psi4List g.enumD g.he g.hg H
        (fun d => c.P.AB d ab) (fun d => c.Q.AB d cd) H.order (fun t k => (view t k).val) = some m1 →
      HoldsFam (derivNeeded final) (fun t k => (⟨m1 t k⟩ : Fd F)) (arrayFam m2) →
      (flDerivHrr F b fuseD g final c H).hrr ab cd view = some fun q i =>
        if q = final then (derivBlock (flForm F fuseD) final (arrayFam m2)).getD i ⟨m1 q i⟩ else ⟨m1 q i⟩ := by
    intro ab cd view m1 m2 r hh
    show (HRRRound.runM F b.fuse b.fuseB b.fuseK psi4List g.enumD g.he g.hg H
      (fun d => c.P.AB d ab) (fun d => c.Q.AB d cd) H.order fun t k => (view t k).val).bind _ = _
    rw [r, Option.bind_some, formDeriv_ok _ hf hh hreq, Option.map_some]
  have hon : HrrOn (flDerivEnv F b g final c H A) (flDerivHrr F b fuseD g final c H) final X (fun ab cd k =>
      ((flDerivHrr F b fuseD g final c H).hrr ab cd (X ab cd)).elim 0 fun m => m final k) := by
    intro ab hab cd hcd view hview
    obtain ⟨H', e', ok, tb, tk⟩ := hrrCreate_ok psi4_ordOK psi4_start hg.D hg.Q
      (setDirections (derivNeeded final)).1 (setDirections (derivNeeded final)).2 (ams := derivNeeded final)
      hf.classes.valid
    rw [hA.hcreate, Option.some.injEq] at e'
    subst e'
    have hb : H.bra.type = .I ∨ H.bra.type = .J := by rw [tb]; exact hf.classes.hb
    have hk : H.ket.type = .K ∨ H.ket.type = .L := by rw [tk]; exact hf.classes.hk
    have hop := fun m : HMem ℝ => runHRRM_op hg.D g.he g.hg ok hb hk hf.classes.h18
      (opB := HRRRound.flOp F b.fuse fun d => c.P.AB d ab) (opK := HRRRound.flOp F b.fuse fun d => c.Q.AB d cd)
      (gB := HRRRound.flDirOp F b.fuseB fun d => c.P.AB d ab)
      (gK := HRRRound.flDirOp F b.fuseK fun d => c.Q.AB d cd) H.order (fun _ h => h) m
    obtain ⟨m1, m2, r1, r2, h12⟩ := runHRROp_det
      (C := ⟨modeSteps g.enumD g.he g.hg H.bra, modeSteps g.enumD g.he g.hg H.ket⟩) psi4_ordOK ok hb hk
      (modeSteps_cover hg.D g.he g.hg ok.bra)
      (modeSteps_cover hg.D g.he g.hg ok.ket)
      (opB := modeOp g.he g.hg (fun q => q.a + q.b) (HRRRound.flOp F b.fuse fun d => c.P.AB d ab)
        (HRRRound.flDirOp F b.fuseB fun d => c.P.AB d ab))
      (opK := modeOp g.he g.hg (fun q => q.c + q.d) (HRRRound.flOp F b.fuse fun d => c.Q.AB d cd)
        (HRRRound.flDirOp F b.fuseK fun d => c.Q.AB d cd))
      (m1 := fun t k => (view t k).val) (m2 := fun t k => (X ab cd t k).val)
      (fun t ht k hk => by rw [hview t (by simpa [flDerivEnv] using ht) k hk])
    rw [← hop] at r1 r2
    have w1 := hval ab cd view m1 m2 r1 (arrayFam_holds m2 _ fun q hq bra ket hb hk e1 e2 =>
      h12 q hq bra ket hb hk e1 e2)
    have w2 := hval ab cd (X ab cd) m2 m2 r2 (arrayFam_holds m2 _ fun _ _ _ _ _ _ _ _ => rfl)
    refine ⟨_, w1, fun k hk => ?_⟩
    simp only
    rw [w2]
    have hk' : k < (derivBlock (flForm F fuseD) final (arrayFam m2)).length := by
      rw [derivBlock_length _ hf.valid]; exact hk
    simp only [if_true, Option.elim]
    rw [List.getD_eq_getElem _ _ hk', List.getD_eq_getElem _ _ hk']
  obtain ⟨o, r, h1, h2⟩ := run (flDerivHrr F b fuseD g final c H) final _
    (Nat.mul_pos (by decide) (ncartQ_pos hf.valid)) hon hc.out hmem out
  refine ⟨o, r, ?_, h2⟩
  intro ab hab cd hcd x y z w vx vy vz vw ex ey ez ew t i
  have he : ∀ s, IsComp (final.get s).toNat (comps x y z w s) := by
    have key : ∀ {e : Exp} {n : ℤ}, e.Valid → e.am = n → IsComp n.toNat e := by
      rintro e n ⟨h1, h2, h3⟩ h
      simp only [Exp.am] at h
      exact ⟨h1, h2, h3, by omega⟩
    intro s
    cases s
    · exact key vx ex
    · exact key vy ey
    · exact key vz ez
    · exact key vw ew
  refine ⟨_, dERI_hasDerivAt hS hT (ho ab hab cd hcd) hab hcd vx vy vz vw t i, ?_⟩
  obtain ⟨m', rm, hm⟩ := herr ab hab cd hcd
  have w2 := hval ab cd (X ab cd) m' m' rm (arrayFam_holds m' _ fun _ _ _ _ _ _ _ _ => rfl)
  have hget := derivBlock_get (flForm F fuseD) hf.valid (arrayFam m') he t i
  obtain ⟨hlt, hv'⟩ := List.getElem?_eq_some_iff.1 hget
  have hlt' := hlt
  rw [derivBlock_length _ hf.valid] at hlt'
  have hv := h1 ab hab cd hcd _ hlt'
  rw [w2] at hv
  simp only [if_true, Option.elim] at hv
  rw [List.getD_eq_getElem _ _ hlt, hv'] at hv
  have hv2 : o ((ab * c.Q.nclip + cd) * (12 * ncartQ final) +
      (12 * Qrt.index psi4List ⟨⟨x, y⟩, ⟨z, w⟩, 0⟩ + (3 * t.idx + i.idx))) =
      derivVal (flForm F fuseD) final (arrayFam m') (comps x y z w) t i := hv
  rw [hv2]
  have hst' := gradStepped_le hf.valid
  have hkk : gradK kb final (c.P.nprim12 ab * c.Q.nprim12 cd) + 4 ≤ 2 ^ 52 := by
    have h1 := hn ab hab cd hcd
    unfold gradK
    norm_num at hkb h1 ⊢
    omega
  have ha := derivVal_err (fuseD := fuseD) hF.toRounds hf hS hT (ho ab hab cd hcd) hab hcd hm hkk (hsz ab hab cd hcd).1
    (hsz ab hab cd hcd).2.2 he t i
  exact ha.err.trans (mul_le_mul_of_nonneg_right (γ_le hkk) ha.nonneg)

/-! ### IEEE doubles -/

/-- IEEE doubles, sizes as they occur in calculations on molecules, arguments of the Boys function below
36.5: nothing overflows, and the error is at most `(776 + 92 L + 6 (N - 1) + 3 n) 2^-52` times what it is
measured with, where `L` is the total angular momentum, `N` the number of pairs of primitives and `n` the
angular momentum on the stepped centers, one of them raised. -/
theorem C90_double (fused : Bool) (b : Build) (fuseD : RRType → Dir → Bool) {g : GenCfg} (hg : g.OK)
    {final : QAM} (hf : DerivClassOK final) (hL : totalL final + 1 ≤ 24) {c : DerivCall ℝ}
    (hc : DerivCallOK final c.toCall) {S T : ℕ → PairData} {R : ℝ} (hR : R ≤ 2 ^ 10)
    (hS : HoldsFl (ieee fused) c.P (tightStart c.P.nprim12) S R)
    (hT : HoldsFl (ieee fused) c.Q (paddedStart c.len c.Q.nprim12) T R)
    (hP : HoldsExpsFl c.P c.alpha2P c.beta2P (tightStart c.P.nprim12) S)
    (hQ : HoldsExpsFl c.Q c.alpha2Q c.beta2Q (paddedStart c.len c.Q.nprim12) T)
    (mS : ∀ s < c.P.nclip, ∀ k < c.P.nprim12 s, PairMod (S s).A (S s).B ((S s).prim k).1 ((S s).prim k).2 R)
    (mT : ∀ s < c.Q.nclip, ∀ k < c.Q.nprim12 s, PairMod (T s).A (T s).B ((T s).prim k).1 ((T s).prim k).2 R)
    (hn : ∀ ab < c.P.nclip, ∀ cd < c.Q.nclip, c.P.nprim12 ab * c.Q.nprim12 cd ≤ 2 ^ 49)
    (hx : ∀ ab < c.P.nclip, ∀ cd < c.Q.nclip, ∀ k < c.P.nprim12 ab, ∀ l < c.Q.nprim12 cd,
      FlPrim.fx (ieee fused) c.P c.Q (tightStart c.P.nprim12 ab + k)
        (paddedStart c.len c.Q.nprim12 cd + l) < 36.5)
    (hmem : HMem (Fd (ieee fused))) (out : ℕ → Fd (ieee fused)) :
    ∃ o, flDerivFunction (ieee fused) b fuseD g final c hmem out = some (c.P.nclip * c.Q.nclip, o) ∧
      (∀ ab < c.P.nclip, ∀ cd < c.Q.nclip, ∀ x y z w : Exp, x.Valid → y.Valid → z.Valid → w.Valid →
        x.am = final.a → y.am = final.b → z.am = final.c → w.am = final.d → ∀ (t : RRType) (i : Dir),
        ∃ D, HasDerivAt
            (fun v => meanERI (ieee fused) c.toCall (moveFl S T t i v).1 (moveFl S T t i v).2 ab cd x y z w) D
            (posFl S T ab cd t i) ∧
          |(o ((ab * c.Q.nclip + cd) * (12 * ncartQ final) +
              (12 * Qrt.index psi4List ⟨⟨x, y⟩, ⟨z, w⟩, 0⟩ + (3 * t.idx + i.idx)))).val - D| ≤
            (776 + 92 * totalL final + 6 * (c.P.nprim12 ab * c.Q.nprim12 cd - 1) + 3 * gradStepped final : ℕ) *
              (1 / 2 ^ 52) * (gradTerms final t * (gradSize (ieee fused) c.toCall S T R ab cd (totalL final + 1) *
                (2 + 2 * R) ^ gradStepped final))) ∧
      ∀ k, c.P.nclip * c.Q.nclip * (12 * ncartQ final) ≤ k → o k = out k := by
  obtain ⟨hF, hst⟩ := C87_ieee fused
  obtain ⟨o, r, h1, h2⟩ := C90_function hF hst b fuseD hg hf hL hc hS hT hP hQ (kb := 226) (by norm_num)
    (C88_near hF hc.len hS hT b.vec hL hx) hn
    (fun ab hab cd hcd => gradSize_moderate hF ((abs_nonneg _).trans (hS.pos ab hab .x).1) hR (mS ab hab)
      (mT cd hcd) (hn ab hab cd hcd) hL) hmem out
  refine ⟨o, r, fun ab hab cd hcd x y z w vx vy vz vw ex ey ez ew t i => ?_, h2⟩
  have := h1 ab hab cd hcd x y z w vx vy vz vw ex ey ez ew t i
  have e : gradCount 226 final (c.P.nprim12 ab * c.Q.nprim12 cd) = 776 + 92 * totalL final +
      6 * (c.P.nprim12 ab * c.Q.nprim12 cd - 1) + 3 * gradStepped final := by
    unfold gradCount
    omega
  rw [e] at this
  exact this

/-- Non-trivial case: one primitive of exponent 1 on each of four centers, the pairs at a distance of 1,
class `(p p | p s)`, vectors of four lanes, IEEE doubles: at position 7 is the derivative of
`(px px | px s)` with respect to `y` of the third center, at position 2 that with respect to `z` of the first
center, which the function gets from the other three, with errors of at most `1058 * 2^-52` times five and
16 times the bound. -/
example (fused : Bool) (b : Build) (fuseD : RRType → Dir → Bool) {g : GenCfg} (hg : g.OK) (junk : VPar ℝ)
    (scratch : ℕ → ℕ → ℕ → VMem ℝ) (hmem : HMem (Fd (ieee fused))) (out : ℕ → Fd (ieee fused)) :
    let c : DerivCall ℝ := ⟨⟨4, pairList (ieee fused) 4 1 (unitPair 0 0),
      pairList (ieee fused) 4 1 (unitPair 2 1), 0, 324, junk, scratch⟩, fun _ => 2, fun _ => 2, fun _ => 2,
      fun _ => 2⟩
    let S : ℕ → PairData := fun _ => unitPair 0 0
    let T : ℕ → PairData := fun _ => unitPair 2 1
    let bound := gradSize (ieee fused) c.toCall S T 1 0 0 4 * 4 ^ gradStepped ⟨1, 1, 1, 0, ""⟩
    ∃ o, flDerivFunction (ieee fused) b fuseD g ⟨1, 1, 1, 0, ""⟩ c hmem out = some (1, o) ∧
      |(o 7).val - deriv (fun v => exactERI (ieee fused) c.toCall S (fun _ => (unitPair 2 1).moveA .y v) 0 0
          ⟨1, 0, 0⟩ ⟨1, 0, 0⟩ ⟨1, 0, 0⟩ ⟨0, 0, 0⟩) 0| ≤ 1058 * (1 / 2 ^ 52) * (5 * bound) ∧
      |(o 2).val - deriv (fun v => exactERI (ieee fused) c.toCall (fun _ => (unitPair 0 0).moveA .z v) T 0 0
          ⟨1, 0, 0⟩ ⟨1, 0, 0⟩ ⟨1, 0, 0⟩ ⟨0, 0, 0⟩) 0| ≤ 1058 * (1 / 2 ^ 52) * (16 * bound) ∧
      o 324 = out 324 := by
  intro c S T bound
  have hf : DerivClassOK (⟨1, 1, 1, 0, ""⟩ : QAM) := ⟨by unfold QAM.Valid; decide, rfl, by decide, by decide⟩
  have hint : ∀ (k : ℕ) (x : ℝ), x = 0 ∨ x = 1 → ∀ d, ∃ n : ℤ, (FlPrim.unit k x).pos d = n * 2 ^ (-1074 : ℤ) := by
    intro k x hx d
    have h1 : ∃ n : ℤ, (1 : ℝ) = n * 2 ^ (-1074 : ℤ) := ⟨2 ^ 1074, by
      rw [zpow_neg, zpow_ofNat]; push_cast; rw [mul_inv_cancel₀ (by positivity)]⟩
    simp only [FlPrim.unit]
    split_ifs
    · rcases hx with rfl | rfl
      · exact ⟨0, by simp⟩
      · exact h1
    · exact ⟨0, by simp⟩
  have hpos : ∀ (k : ℕ) (x : ℝ), |x| ≤ 1 → ∀ d, |(unitPair k x).A.pos d| ≤ 1 ∧ |(unitPair k x).B.pos d| ≤ 1 := by
    intro k x hx d
    have : |if d = .x then x else 0| ≤ 1 := by split_ifs <;> simp [hx]
    exact ⟨this, this⟩
  have hS := pairList_holds fused 4 1 (unitPair 0 0) (R := 1) (hint 0 0 (.inl rfl)) (hint 1 0 (.inl rfl))
    (hpos 0 0 (by simp)) (fun k _ => unit_mod 0 0 (by simp) _ _)
  have hT := pairList_holds fused 4 1 (unitPair 2 1) (R := 1) (hint 2 1 (.inr rfl)) (hint 3 1 (.inr rfl))
    (hpos 2 1 (by simp)) (fun k _ => unit_mod 2 1 (by simp) _ _)
  have hS' : HoldsFl (ieee fused) c.P (tightStart c.P.nprim12) S 1 := by
    refine ⟨hS.AB, hS.pos, fun s hs k hk => ?_, hS.size⟩
    have h0 : s = 0 := by have : s < 1 := hs; omega
    subst h0
    exact hS.prims 0 hs k hk
  have hc : DerivCallOK (⟨1, 1, 1, 0, ""⟩ : QAM) c.toCall := by
    refine ⟨by show 0 < 4; norm_num, fun s _ => one_pos, ?_, fun s hs => ?_, fun i _ =>
      pairList_pos fused 4 1 (unitPair 0 0) (R := 1) (fun k _ => unit_mod 0 0 (by simp) _ _) i, fun i _ =>
      pairList_pos fused 4 1 (unitPair 2 1) (R := 1) (fun k _ => unit_mod 2 1 (by simp) _ _) i,
      by show 1 * 1 * (12 * ncartQ _) ≤ 324; decide⟩
    · show tightStart (fun _ => 1) 1 ≤ simdRound 4 1
      decide
    · have h0 : s = 0 := by have : s < 1 := hs; omega
      subst h0
      show simdRound 4 (0 + 1) ≤ simdRound 4 1
      decide
  have hexp : ∀ (k : ℕ) (x : ℝ) (M : MSP ℝ) (start : ℕ → ℕ),
      HoldsExpsFl M (fun _ => 2) (fun _ => 2) start fun _ => unitPair k x := fun k x M start =>
    ⟨fun s _ h => by simp [sameShell, unitPair, FlPrim.unit] at h,
      fun s _ k _ => by norm_num [PairData.meanA, PairData.folded, sameShell, unitPair, FlPrim.unit],
      fun s _ k _ => by norm_num [PairData.meanB, PairData.folded, sameShell, unitPair, FlPrim.unit]⟩
  obtain ⟨o, r, h1, h2⟩ := C90_double fused b fuseD hg hf (by decide) hc (R := 1) (by norm_num) hS' hT
    (hexp _ _ _ _) (hexp _ _ _ _)
    (fun s _ k _ => unit_mod 0 0 (by simp) _ _) (fun s _ k _ => unit_mod 2 1 (by simp) _ _)
    (fun ab _ cd _ => by show 1 * 1 ≤ 2 ^ 49; norm_num)
    (fun ab hab cd hcd k hk l hl => by
      have e1 : ab = 0 := by have : ab < 1 := hab; omega
      have e2 : cd = 0 := by have : cd < 1 := hcd; omega
      have e3 : k = 0 := by have : k < 1 := hk; omega
      have e4 : l = 0 := by have : l < 1 := hl; omega
      subst e1 e2 e3 e4
      exact FlPrim.unit_fx (C87_ieee fused).1) hmem out
  have np : ∀ k x, ¬ sameShell (unitPair k x).A (unitPair k x).B = true := fun k x => by
    simp [sameShell, unitPair, FlPrim.unit]
  have hpl : ∀ (t : RRType) (i : Dir) (x y z w : Exp),
      (fun v => meanERI (ieee fused) c.toCall (moveFl S T t i v).1 (moveFl S T t i v).2 0 0 x y z w) =
      fun v => exactERI (ieee fused) c.toCall (moveFl S T t i v).1 (moveFl S T t i v).2 0 0 x y z w :=
    fun t i x y z w => funext fun v => meanERI_plain (np 0 0) (np 2 1) t i v x y z w
  have p0 : Qrt.index psi4List ⟨⟨⟨1, 0, 0⟩, ⟨1, 0, 0⟩⟩, ⟨⟨1, 0, 0⟩, ⟨0, 0, 0⟩⟩, 0⟩ = 0 := by decide
  have e1 : totalL (⟨1, 1, 1, 0, ""⟩ : QAM) = 3 := by decide
  have e3 : c.P.nprim12 0 * c.Q.nprim12 0 = 1 := rfl
  have e4 : gradStepped ⟨1, 1, 1, 0, ""⟩ = 2 := by decide
  have e5 : gradTerms ⟨1, 1, 1, 0, ""⟩ .K = 5 := by decide
  have e6 : gradTerms ⟨1, 1, 1, 0, ""⟩ .I = 16 := by decide
  have e7 : (2 : ℝ) + 2 * 1 = 4 := by norm_num
  refine ⟨o, r, ?_, ?_, h2 324 (by show 1 * 1 * (12 * ncartQ _) ≤ 324; decide)⟩
  · obtain ⟨D, d1, d2⟩ := h1 0 one_pos 0 one_pos ⟨1, 0, 0⟩ ⟨1, 0, 0⟩ ⟨1, 0, 0⟩ ⟨0, 0, 0⟩ (by decide)
      (by decide) (by decide) (by decide) rfl rfl rfl rfl .K .y
    have hd : deriv (fun v => exactERI (ieee fused) c.toCall S (fun _ => (unitPair 2 1).moveA .y v) 0 0
          ⟨1, 0, 0⟩ ⟨1, 0, 0⟩ ⟨1, 0, 0⟩ ⟨0, 0, 0⟩) 0 = D := by
      refine HasDerivAt.deriv ?_
      have : posFl S T 0 0 .K .y = 0 := by simp [posFl, T, unitPair, FlPrim.unit]
      rw [this, hpl] at d1
      exact d1
    rw [hd]
    have ei : (0 * c.Q.nclip + 0) * (12 * ncartQ (⟨1, 1, 1, 0, ""⟩ : QAM)) + (12 * 0 + (3 * RRType.K.idx + Dir.y.idx)) = 7 := by
      simp [RRType.idx, Dir.idx]
    rw [p0, e1, e3, e5, e7, ei] at d2
    refine d2.trans (le_of_eq ?_)
    simp only [bound, e4]
    norm_num
    rfl
  · obtain ⟨D, d1, d2⟩ := h1 0 one_pos 0 one_pos ⟨1, 0, 0⟩ ⟨1, 0, 0⟩ ⟨1, 0, 0⟩ ⟨0, 0, 0⟩ (by decide)
      (by decide) (by decide) (by decide) rfl rfl rfl rfl .I .z
    have hd : deriv (fun v => exactERI (ieee fused) c.toCall (fun _ => (unitPair 0 0).moveA .z v) T 0 0
          ⟨1, 0, 0⟩ ⟨1, 0, 0⟩ ⟨1, 0, 0⟩ ⟨0, 0, 0⟩) 0 = D := by
      refine HasDerivAt.deriv ?_
      have : posFl S T 0 0 .I .z = 0 := by simp [posFl, S, unitPair, FlPrim.unit]
      rw [this, hpl] at d1
      exact d1
    rw [hd]
    have ei : (0 * c.Q.nclip + 0) * (12 * ncartQ (⟨1, 1, 1, 0, ""⟩ : QAM)) + (12 * 0 + (3 * RRType.I.idx + Dir.z.idx)) = 2 := by
      simp [RRType.idx, Dir.idx]
    rw [p0, e1, e3, e6, e7, ei] at d2
    refine d2.trans (le_of_eq ?_)
    simp only [bound, e4]
    norm_num
    rfl

end Simint
