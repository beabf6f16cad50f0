import Verif.ScreenErrorLemmas

/-!
# C68: Schwarz screening of primitives

The Schwarz inequality, the values that `simint_primscreen_schwarz` computes, and the error of the
integrals when lists are filled with these values and a tolerance is used.
-/

set_option autoImplicit false

namespace Simint

/-- **C68, inequality.** `(ab|cd)² ≤ (ab|ab) (cd|cd)` for all Cartesian Gaussians. -/
theorem C68_schwarz {α β γ δ : ℝ} (hα : 0 < α) (hβ : 0 < β) (hγ : 0 < γ) (hδ : 0 < δ) (A B C D : Dir → ℝ)
    (a b c d : Exp) :
    coulomb α β γ δ A B C D a b c d ^ 2 ≤ coulomb α β α β A B A B a b a b * coulomb γ δ γ δ C D C D c d c d :=
  coulomb_schwarz hα hβ hγ hδ A B C D a b c d

/-- **C68, values.** For AM up to the limit of the build and up to 7, the value of a pair of primitives is
the largest of the integrals `(xy|xy)` over its components. -/
theorem C68_values_partial (L : LibCfg) (hL : L.OK) (sh : ShCfg) (hl : 0 < sh.len) (big : ℝ) (w : ScrMem ℝ)
    (hw : w.ptrA ≠ w.ptrB) {A B : Shell ℝ} (hA : A.OK) (hB : B.OK) (hA' : A.am ≤ min L.use 7)
    (hB' : B.am ≤ min L.use 7) {i j : ℕ} (hi : i < A.nprim) (hj : j < B.nprim) :
    ∃ v, L.primVal realOps realShOps sh big w A B i j = some v ∧
      (∀ x y, IsComp A.am x → IsComp B.am y → (A.coef i * B.coef j) ^ 2 *
        coulomb (A.alpha i) (B.alpha j) (A.alpha i) (B.alpha j) A.pos B.pos A.pos B.pos x y x y ≤ v) ∧
      ∃ x y, IsComp A.am x ∧ IsComp B.am y ∧ v = (A.coef i * B.coef j) ^ 2 *
        coulomb (A.alpha i) (B.alpha j) (A.alpha i) (B.alpha j) A.pos B.pos A.pos B.pos x y x y :=
  primVal_spec L hL sh hl big w hw hA hB hA' hB' hi hj

/-- **C68, AM above 7.** No value is computed: the entry of the table is missing (C64). -/
theorem C68_missing (L : LibCfg) (sh : ShCfg) (big : ℝ) (w : ScrMem ℝ) (A B : Shell ℝ)
    (hA : A.am ≤ L.use) (hB : B.am ≤ L.use) (h7 : 7 < max A.am B.am) (i j : ℕ) :
    L.primVal realOps realShOps sh big w A B i j = none := by
  unfold LibCfg.primVal
  rw [selfInts_missing L sh big w (oneShell w.ptrA A i) (oneShell w.ptrB B j) hA hB h7]
  rfl

/-- The values bound the integrals. -/
theorem primVals_bounding (L : LibCfg) (hL : L.OK) (sh : ShCfg) (hl : 0 < sh.len) (big : ℝ)
    (w : Shell ℝ → Shell ℝ → ℕ → ℕ → ScrMem ℝ) (hw : ∀ A B i j, (w A B i j).ptrA ≠ (w A B i j).ptrB)
    {A B : Shell ℝ} (hA : A.OK) (hB : B.OK) (hA' : A.am ≤ min L.use 7) (hB' : B.am ≤ min L.use 7) {x y : Exp}
    (hx : IsComp A.am x) (hy : IsComp B.am y) :
    Bounding (L.primVals realOps realShOps sh big w) A B x y := by
  intro i hi j hj
  obtain ⟨v, h1, h2, -⟩ := primVal_spec L hL sh hl big (w A B i j) (hw A B i j) hA hB hA' hB' hi hj
  unfold LibCfg.primVals
  rw [h1]
  exact h2 x y hx hy

theorem primVals_nonneg (L : LibCfg) (sh : ShCfg) (big : ℝ) (w : Shell ℝ → Shell ℝ → ℕ → ℕ → ScrMem ℝ)
    (A B : Shell ℝ) (i j : ℕ) : 0 ≤ L.primVals realOps realShOps sh big w A B i j := by
  unfold LibCfg.primVals LibCfg.primVal
  cases L.selfInts realOps realShOps sh big (w A B i j) (oneShell (w A B i j).ptrA A i)
      (oneShell (w A B i j).ptrB B j) with
  | none => exact le_rfl
  | some o => exact maxLoop_nonneg _

/-- What a filled list says about one of its pairs. -/
theorem ListScr.has {len : ℕ} {M : MSP ℝ} {ps : List (Shell ℝ × Shell ℝ)} {val : Shell ℝ → Shell ℝ → ℕ → ℕ → ℝ}
    (hn : M.nclip = ps.length) (h : ListScr len M ps val) :
    ∃ S : ℕ → List (ℕ × ℕ), Holds M (paddedStart len M.nprim12) (pairIn ps S) ∧
      ∀ s (hs : s < ps.length), HasScr len M s ps[s].1 ps[s].2 val (S s) := by
  obtain ⟨ord, h1, h2, h3⟩ := h
  refine ⟨ord, h2, fun s hs => ⟨?_, ?_, ?_⟩⟩
  · have := h1 s hs
    rwa [List.getD_eq_getElem _ _ hs] at this
  · have := h2.count s (by omega)
    simpa [pairIn] using this
  · intro k hk
    have := h3 s hs k hk
    simpa only [List.getD_eq_getElem _ _ hs] using this

/-- The maximum of a list bounds its values. -/
theorem screenMax_ge (sh : ShCfg) (hsc : sh.screening = true) (val : Shell ℝ → Shell ℝ → ℕ → ℕ → ℝ) (big : ℝ)
    (ps : List (Shell ℝ × Shell ℝ)) {s : ℕ} (hs : s < ps.length) {p : ℕ × ℕ}
    (hp : p ∈ primOrder ps[s].1 ps[s].2) :
    val ps[s].1 ps[s].2 p.1 p.2 ≤ (fillPairs sh realShOps (fastSchwarz val) big ps).screenMax := by
  obtain ⟨-, h2⟩ := fill_screenMax sh realShOps (fastSchwarz val) hsc big ps ps.length le_rfl
  rw [fillAfter_length] at h2
  refine le_trans ?_ (h2 s hs hs)
  exact (foldl_max (fun q : ℕ × ℕ => val ps[s].1 ps[s].2 q.1 q.2) _ 0).2 p hp

/-- Screening with any values that bound the integrals `(xy|xy)`: the error of the result. -/
theorem screened_error (L : LibCfg) (hL : L.OK) {am : QAM} (ham : ClassUpTo L.use am) (h7 : topAM am ≤ 7)
    (sh : ShCfg) (hl : 0 < sh.len) (hsc : sh.screening = true) (val : Shell ℝ → Shell ℝ → ℕ → ℕ → ℝ)
    (hnn : ∀ A B i j, A.OK → B.OK → i < A.nprim → j < B.nprim → 0 ≤ val A B i j) (big : ℝ) (psP psQ : List (Shell ℝ × Shell ℝ))
    (hP : PairsOK psP) (hQ : PairsOK psQ)
    (hbP : ∀ p ∈ psP, ∀ x y : Exp, x.Valid → y.Valid → x.am = am.a → y.am = am.b → Bounding val p.1 p.2 x y)
    (hbQ : ∀ p ∈ psQ, ∀ x y : Exp, x.Valid → y.Valid → x.am = am.c → y.am = am.d → Bounding val p.1 p.2 x y)
    (nP : 0 < psP.length) (nQ : 0 < psQ.length)
    (hbra : BatchesFull sh.len psP) (memP memQ : ℕ → ℝ) (tol : ℝ) (htol : 0 < tol) (outSize : ℕ)
    (hout : psP.length * psQ.length * ncartQ am ≤ outSize) (junk : VPar ℝ)
    (scratch : ℕ → ℕ → ℕ → VMem ℝ) (junkAB : Dir → ℕ → ℝ) (hmem : HMem ℝ) (out : ℕ → ℝ) :
    ∃ P Q r, completeList sh realShOps (fastSchwarz val) big psP memP = some P ∧
      completeList sh realShOps (fastSchwarz val) big psQ memQ = some Q ∧
      L.computeOstei realOps am ⟨⟨sh.len, P.1, Q.1, tol, outSize, junk, scratch⟩, psP.length, psQ.length,
        junkAB⟩ hmem out = some r ∧
      (r.ret = -1 ∧ r.out = out ∧
        (∀ ab (hab : ab < psP.length) cd (hcd : cd < psQ.length) (x y z w : Exp),
          x.Valid → y.Valid → z.Valid → w.Valid → x.am = am.a → y.am = am.b → z.am = am.c → w.am = am.d →
          |shellERI psP[ab].1 psP[ab].2 psQ[cd].1 psQ[cd].2 x y z w| ≤
            (psP[ab].1.nprim * psP[ab].2.nprim) * (psQ[cd].1.nprim * psQ[cd].2.nprim) * tol) ∨
      r.ret = psP.length * psQ.length ∧
        (∀ ab (hab : ab < psP.length) cd (hcd : cd < psQ.length) (x y z w : Exp),
          x.Valid → y.Valid → z.Valid → w.Valid → x.am = am.a → y.am = am.b → z.am = am.c → w.am = am.d →
          |r.out ((ab * psQ.length + cd) * ncartQ am + Qrt.index psi4List ⟨⟨x, y⟩, ⟨z, w⟩, 0⟩) -
            shellERI psP[ab].1 psP[ab].2 psQ[cd].1 psQ[cd].2 x y z w| ≤
            (psP[ab].1.nprim * psP[ab].2.nprim) * (psQ[cd].1.nprim * psQ[cd].2.nprim) * tol) ∧
        ∀ k, psP.length * psQ.length * ncartQ am ≤ k → r.out k = out k) := by
  obtain ⟨P, eP, ⟨p1, -, p4, p5, p6, p7⟩, sP, mP⟩ := complete_listScr sh hl hsc (fastSchwarz val) val
    (fastSchwarz_exact val) big psP hP memP
  obtain ⟨Q, eQ, ⟨q1, -, q4, q5, q6, q7⟩, sQ, mQ⟩ := complete_listScr sh hl hsc (fastSchwarz val) val
    (fastSchwarz_exact val) big psQ hQ memQ
  obtain ⟨o, hS, oP⟩ := sP.has p1
  obtain ⟨o', hT, oQ⟩ := sQ.has q1
  have maxP : ∀ ab (hab : ab < psP.length) k (hk : k < (o ab).length),
      P.1.screen (paddedStart sh.len P.1.nprim12 ab + k) ≤ P.1.screenMax := by
    intro ab hab k hk
    rw [(oP ab hab).screen k hk, mP]
    exact screenMax_ge sh hsc val big psP hab ((oP ab hab).perm.mem_iff.1 (List.getElem_mem hk))
  have maxQ : ∀ cd (hcd : cd < psQ.length) k (hk : k < (o' cd).length),
      Q.1.screen (paddedStart sh.len Q.1.nprim12 cd + k) ≤ Q.1.screenMax := by
    intro cd hcd k hk
    rw [(oQ cd hcd).screen k hk, mQ]
    exact screenMax_ge sh hsc val big psQ hcd ((oQ cd hcd).perm.mem_iff.1 (List.getElem_mem hk))
  have nnP : ∀ ab (hab : ab < psP.length) k (hk : k < (o ab).length),
      0 ≤ P.1.screen (paddedStart sh.len P.1.nprim12 ab + k) := by
    intro ab hab k hk
    rw [(oP ab hab).screen k hk]
    have hm := (mem_primOrder _ _ _ _).1 ((oP ab hab).perm.mem_iff.1 (List.getElem_mem hk))
    exact hnn _ _ _ _ (hP _ (List.getElem_mem hab)).1 (hP _ (List.getElem_mem hab)).2.1 hm.1 hm.2.1
  have nnQ : ∀ cd (hcd : cd < psQ.length) k (hk : k < (o' cd).length),
      0 ≤ Q.1.screen (paddedStart sh.len Q.1.nprim12 cd + k) := by
    intro cd hcd k hk
    rw [(oQ cd hcd).screen k hk]
    have hm := (mem_primOrder _ _ _ _).1 ((oQ cd hcd).perm.mem_iff.1 (List.getElem_mem hk))
    exact hnn _ _ _ _ (hQ _ (List.getElem_mem hcd)).1 (hQ _ (List.getElem_mem hcd)).2.1 hm.1 hm.2.1
  set c : PermCall ℝ := ⟨⟨sh.len, P.1, Q.1, tol, outSize, junk, scratch⟩, psP.length, psQ.length, junkAB⟩ with hcdef
  by_cases hn : c.toCall.Negligible
  · refine ⟨P, Q, ⟨-1, c.Q.screen, out⟩, eP, eQ, C64_screened L am c hn hmem out, Or.inl ⟨rfl, rfl, ?_⟩⟩
    intro ab hab cd hcd x y z w vx vy vz vw ex ey ez ew
    obtain ⟨a1, a2, a3⟩ := hP _ (List.getElem_mem hab)
    obtain ⟨b1, b2, b3⟩ := hQ _ (List.getElem_mem hcd)
    have := pair_error (oP ab hab) (oQ cd hcd) a1 a2 a3 b1 b2 b3
      (hbP _ (List.getElem_mem hab) x y vx vy ex ey) (hbQ _ (List.getElem_mem hcd) z w vz vw ez ew)
      (fun _ _ => False) htol.le (t := tol) (fun k hk l hl' _ => by
        have h1 := maxP ab hab k hk
        have h2 := maxQ cd hcd l hl'
        have h3 := nnP ab hab k hk
        have h4 := nnQ cd hcd l hl'
        have h5 : P.1.screenMax * Q.1.screenMax < tol * tol := hn.2
        rw [sq]
        exact (mul_le_mul h1 h2 h4 (h3.trans h1)).trans h5.le)
    simpa using this
  · have hc : CallOK am c.toCall := ⟨hl, q4, p5, q6, p7, q7, by simp only [hcdef]; rw [p1, q1]; exact hout⟩
    have hst : ∀ s, s < psP.length → tightStart P.1.nprim12 s = paddedStart sh.len P.1.nprim12 s :=
      starts_of_full hl hbra fun s hs => by
        rw [hS.count s (p1 ▸ hs), storedCount_eq, ← primOrder_length, ← (oP s hs).perm.length_eq]
        unfold pairIn
        rw [List.length_map]
    have hS' : Holds P.1 (tightStart P.1.nprim12) (pairIn psP o) := by
      refine ⟨hS.count, hS.AB, fun s hs k hk => ?_⟩
      rw [hst s (by omega)]
      exact hS.prims s hs k hk
    obtain ⟨scr, r, h0, hr, hscr, -, -, h1, h2⟩ := C64_calls_partial L hL ham h7 (c := c) hc hS' hT
      ⟨nP, p1.le⟩ ⟨nQ, q1.le⟩ hn hmem out
    simp only [hcdef, p1, q1] at hr h1 h2
    refine ⟨P, Q, r, eP, eQ, h0, Or.inr ⟨hr, ?_, h2⟩⟩
    intro ab hab cd hcd x y z w vx vy vz vw ex ey ez ew
    obtain ⟨a1, a2, a3⟩ := hP _ (List.getElem_mem hab)
    obtain ⟨b1, b2, b3⟩ := hQ _ (List.getElem_mem hcd)
    rw [h1 ab hab cd hcd x y z w vx vy vz vw ex ey ez ew]
    have := pair_error (oP ab hab) (oQ cd hcd) a1 a2 a3 b1 b2 b3
      (hbP _ (List.getElem_mem hab) x y vx vy ex ey) (hbQ _ (List.getElem_mem hcd) z w vz vw ez ew)
      (fun k l => (c.toCall.inside scr).Kept (tightStart P.1.nprim12 ab + k)
        (paddedStart sh.len Q.1.nprim12 cd + l)) htol.le (t := tol) (fun k hk l hl' hk' => by
        have h3 := nnP ab hab k hk
        have h4 := maxQ cd hcd l hl'
        have hs : scr (paddedStart sh.len Q.1.nprim12 cd + l) = Q.1.screen (paddedStart sh.len Q.1.nprim12 cd + l) :=
          hscr cd (by simp only [hcdef]; omega) l (by simp only [hcdef]; rw [(oQ cd hcd).count]; exact hl')
        rw [sq]
        rw [Call.Kept, not_and_or, not_not, not_not] at hk'
        rcases hk' with ⟨-, hk'⟩ | ⟨-, hk'⟩
        · have hk' : P.1.screen (tightStart P.1.nprim12 ab + k) * Q.1.screenMax < tol * tol := hk'
          rw [hst ab hab] at hk'
          exact (mul_le_mul_of_nonneg_left h4 h3).trans hk'.le
        · set j := paddedStart sh.len Q.1.nprim12 cd + l
          have hk' : vectorMax sh.len (fun n => P.1.screen (tightStart P.1.nprim12 ab + k) *
            scr (j / sh.len * sh.len + n)) < tol * tol := hk'
          rw [hst ab hab] at hk'
          have := vectorMax_ge (fun n => P.1.screen (paddedStart sh.len P.1.nprim12 ab + k) *
            scr (j / sh.len * sh.len + n)) (Nat.mod_lt j hl)
          simp only [Nat.div_add_mod' j sh.len, hs] at this
          exact this.trans hk'.le)
    have e1 : pairIn psP o ab = ⟨psP[ab].1.pos, psP[ab].2.pos, (o ab).map (storedPrim psP[ab].1 psP[ab].2)⟩ := by
      unfold pairIn
      rw [List.getD_eq_getElem _ _ hab]
    have e2 : pairIn psQ o' cd = ⟨psQ[cd].1.pos, psQ[cd].2.pos, (o' cd).map (storedPrim psQ[cd].1 psQ[cd].2)⟩ := by
      unfold pairIn
      rw [List.getD_eq_getElem _ _ hcd]
    unfold screenedERI
    rw [e1, e2]
    exact this

/-- **C68, error.** Fill two lists with the values of `simint_primscreen_schwarz` (its stores staying in
the array, C44) and call `simint_compute_ostei` with a positive tolerance, for AM up to the limit of the
build and up to 7. Either it returns -1 and every integral is at most the tolerance times the number of
quartets of primitives; or it returns the number of quartets of shells and every stored integral differs
from the exact one by at most that. -/
theorem C68_error_partial (L : LibCfg) (hL : L.OK) {am : QAM} (ham : ClassUpTo L.use am) (h7 : topAM am ≤ 7)
    (sh : ShCfg) (hl : 0 < sh.len) (hsc : sh.screening = true) (big : ℝ)
    (w : Shell ℝ → Shell ℝ → ℕ → ℕ → ScrMem ℝ) (hw : ∀ A B i j, (w A B i j).ptrA ≠ (w A B i j).ptrB)
    (psP psQ : List (Shell ℝ × Shell ℝ)) (hP : PairsOK psP) (hQ : PairsOK psQ)
    (hamP : ∀ p ∈ psP, (p.1.am : ℤ) = am.a ∧ (p.2.am : ℤ) = am.b)
    (hamQ : ∀ p ∈ psQ, (p.1.am : ℤ) = am.c ∧ (p.2.am : ℤ) = am.d)
    (hinP : ∀ i v, (Arr.screen, i, v) ∈ (fillPairs sh realShOps
      (schwarz sh.len (L.primVals realOps realShOps sh big w)) big psP).log → i < allocPrims sh.len psP)
    (hinQ : ∀ i v, (Arr.screen, i, v) ∈ (fillPairs sh realShOps
      (schwarz sh.len (L.primVals realOps realShOps sh big w)) big psQ).log → i < allocPrims sh.len psQ)
    (nP : 0 < psP.length) (nQ : 0 < psQ.length)
    (hbra : BatchesFull sh.len psP) (memP memQ : ℕ → ℝ) (tol : ℝ) (htol : 0 < tol) (outSize : ℕ)
    (hout : psP.length * psQ.length * ncartQ am ≤ outSize) (junk : VPar ℝ)
    (scratch : ℕ → ℕ → ℕ → VMem ℝ) (junkAB : Dir → ℕ → ℝ) (hmem : HMem ℝ) (out : ℕ → ℝ) :
    ∃ P Q r,
      completeList sh realShOps (schwarz sh.len (L.primVals realOps realShOps sh big w)) big psP memP = some P ∧
      completeList sh realShOps (schwarz sh.len (L.primVals realOps realShOps sh big w)) big psQ memQ = some Q ∧
      L.computeOstei realOps am ⟨⟨sh.len, P.1, Q.1, tol, outSize, junk, scratch⟩, psP.length, psQ.length,
        junkAB⟩ hmem out = some r ∧
      (r.ret = -1 ∧ r.out = out ∧
        (∀ ab (hab : ab < psP.length) cd (hcd : cd < psQ.length) (x y z w : Exp),
          x.Valid → y.Valid → z.Valid → w.Valid → x.am = am.a → y.am = am.b → z.am = am.c → w.am = am.d →
          |shellERI psP[ab].1 psP[ab].2 psQ[cd].1 psQ[cd].2 x y z w| ≤
            (psP[ab].1.nprim * psP[ab].2.nprim) * (psQ[cd].1.nprim * psQ[cd].2.nprim) * tol) ∨
      r.ret = psP.length * psQ.length ∧
        (∀ ab (hab : ab < psP.length) cd (hcd : cd < psQ.length) (x y z w : Exp),
          x.Valid → y.Valid → z.Valid → w.Valid → x.am = am.a → y.am = am.b → z.am = am.c → w.am = am.d →
          |r.out ((ab * psQ.length + cd) * ncartQ am + Qrt.index psi4List ⟨⟨x, y⟩, ⟨z, w⟩, 0⟩) -
            shellERI psP[ab].1 psP[ab].2 psQ[cd].1 psQ[cd].2 x y z w| ≤
            (psP[ab].1.nprim * psP[ab].2.nprim) * (psQ[cd].1.nprim * psQ[cd].2.nprim) * tol) ∧
        ∀ k, psP.length * psQ.length * ncartQ am ≤ k → r.out k = out k) := by
  rw [completeList_schwarz sh hl realShOps _ big psP hinP, completeList_schwarz sh hl realShOps _ big psQ hinQ]
  have h7' := h7
  unfold topAM at h7'
  refine screened_error L hL ham h7 sh hl hsc _ (fun A B i j _ _ _ _ => primVals_nonneg L sh big w A B i j) big psP psQ hP hQ ?_ ?_ nP nQ hbra
    memP memQ tol htol outSize hout junk scratch junkAB hmem out
  · intro p hp x y vx vy ex ey
    obtain ⟨e1, e2⟩ := hamP p hp
    obtain ⟨a1, a2, -⟩ := hP p hp
    have i1 := ham.a
    have i2 := ham.b
    exact primVals_bounding L hL sh hl big w hw a1 a2 (by omega) (by omega)
      ⟨vx.1, vx.2.1, vx.2.2, ex.trans e1.symm⟩ ⟨vy.1, vy.2.1, vy.2.2, ey.trans e2.symm⟩
  · intro p hp x y vx vy ex ey
    obtain ⟨e1, e2⟩ := hamQ p hp
    obtain ⟨a1, a2, -⟩ := hQ p hp
    have i1 := ham.c
    have i2 := ham.d
    exact primVals_bounding L hL sh hl big w hw a1 a2 (by omega) (by omega)
      ⟨vx.1, vx.2.1, vx.2.2, ex.trans e1.symm⟩ ⟨vy.1, vy.2.1, vy.2.2, ey.trans e2.symm⟩

/-- **C69.** `simint_shellscreen_schwarz`, for AM up to the limit of the build and up to 7: the product of
the values of two pairs of shells bounds the square of every integral over the four shells, and the value
is the largest of the integrals `(ab|ab)`. -/
theorem C69_shells_partial (L : LibCfg) (hL : L.OK) (sh : ShCfg) (hl : 0 < sh.len) (big : ℝ) (w w' : ScrMem ℝ)
    {A B C D : Shell ℝ} (hA : A.OK) (hB : B.OK) (hf : Faithful A B) (hC : C.OK) (hD : D.OK) (hf' : Faithful C D)
    (hA' : A.am ≤ min L.use 7) (hB' : B.am ≤ min L.use 7) (hC' : C.am ≤ min L.use 7) (hD' : D.am ≤ min L.use 7) :
    ∃ u v, L.shellscreen realOps realShOps sh big w A B = some u ∧
      L.shellscreen realOps realShOps sh big w' C D = some v ∧
      (∃ x y x' y', IsComp A.am x ∧ IsComp B.am y ∧ IsComp A.am x' ∧ IsComp B.am y' ∧
        u = |shellERI A B A B x y x' y'|) ∧
      ∀ x y x' y', IsComp A.am x → IsComp B.am y → IsComp C.am x' → IsComp D.am y' →
        shellERI A B C D x y x' y' ^ 2 ≤ u * v := by
  obtain ⟨u, h1, h2, h3⟩ := shellscreen_spec L hL sh hl big w hA hB hf hA' hB'
  obtain ⟨v, k1, k2, -⟩ := shellscreen_spec L hL sh hl big w' hC hD hf' hC' hD'
  refine ⟨u, v, h1, k1, h3, fun x y x' y' hx hy hx' hy' => ?_⟩
  have h := contracted_schwarz (fullPair A B) (fullPair C D) x y x' y'
  rw [contractedERI_full hA hB hC hD, contractedERI_full hA hB hA hB, contractedERI_full hC hD hC hD] at h
  have a1 := (le_abs_self _).trans (h2 x y x y hx hy hx hy)
  have a2 := (le_abs_self _).trans (k2 x' y' x' y' hx' hy' hx' hy')
  have p1 : 0 ≤ shellERI C D C D x' y' x' y' := by
    rw [← contractedERI_full hC hD hC hD]; exact contracted_self_nonneg _ _ _
  exact h.trans (mul_le_mul a1 a2 p1 ((abs_nonneg _).trans (h2 x y x y hx hy hx hy)))

/-- **C69, AM above 7.** The function calls a null pointer. -/
theorem C69_missing (L : LibCfg) (sh : ShCfg) (big : ℝ) (w : ScrMem ℝ) (A B : Shell ℝ)
    (hA : A.am ≤ L.use) (hB : B.am ≤ L.use) (h7 : 7 < max A.am B.am) :
    L.shellscreen realOps realShOps sh big w A B = none := by
  unfold LibCfg.shellscreen
  rw [selfInts_missing L sh big w A B hA hB h7]
  rfl

/-! ## Non-trivial cases -/

/-- A contracted p shell and a contracted s shell in the demo library, vector length 4: all hypotheses of
`C68_error_partial` hold for lists with this one pair. -/
example (A B : Shell ℝ) (hA : A.OK) (hB : B.OK) (hf : Faithful A B) (eA : A.am = 1) (eB : B.am = 0)
    (w : Shell ℝ → Shell ℝ → ℕ → ℕ → ScrMem ℝ) (hw : ∀ A B i j, (w A B i j).ptrA ≠ (w A B i j).ptrB)
    (mem : ℕ → ℝ) (junk : VPar ℝ) (scratch : ℕ → ℕ → ℕ → VMem ℝ) (junkAB : Dir → ℕ → ℝ) (hmem : HMem ℝ)
    (out : ℕ → ℝ) (tol : ℝ) (htol : 0 < tol) :
    ∃ P r, completeList ⟨4, true, false⟩ realShOps
        (schwarz 4 (demoLib.primVals realOps realShOps ⟨4, true, false⟩ 1e99 w)) 1e99 [(A, B)] mem = some P ∧
      demoLib.computeOstei realOps ⟨1, 0, 1, 0, ""⟩ ⟨⟨4, P.1, P.1, tol, 9, junk, scratch⟩, 1, 1, junkAB⟩ hmem out =
        some r ∧
      (r.ret = 1 → |r.out 1 - shellERI A B A B ⟨1, 0, 0⟩ ⟨0, 0, 0⟩ ⟨0, 1, 0⟩ ⟨0, 0, 0⟩| ≤
        (A.nprim * B.nprim) * (A.nprim * B.nprim) * tol) := by
  have hps : PairsOK [(A, B)] := by
    intro p hp
    rw [List.mem_singleton] at hp
    subst hp
    exact ⟨hA, hB, hf⟩
  have hin := C44_schwarz_partial ⟨4, true, false⟩ (by decide) rfl realShOps
    (demoLib.primVals realOps realShOps ⟨4, true, false⟩ 1e99 w) 1e99 [(A, B)] (Or.inl le_rfl)
  have ham : ∀ p ∈ [(A, B)], (p.1.am : ℤ) = 1 ∧ (p.2.am : ℤ) = 0 := by
    intro p hp
    rw [List.mem_singleton] at hp
    subst hp
    simp [eA, eB]
  obtain ⟨P, Q, r, h1, h2, h3, h4⟩ := C68_error_partial demoLib demoLib_ok (am := ⟨1, 0, 1, 0, ""⟩)
    ⟨rfl, by unfold QAM.Valid; decide, by decide, by decide, by decide, by decide⟩ (by decide) ⟨4, true, false⟩
    (by decide) rfl 1e99 w hw [(A, B)] [(A, B)] hps hps ham ham hin hin (by simp) (by simp)
    (batchesFull_one (by rw [List.length_singleton]; decide)) mem mem tol htol 9
    (by rw [List.length_singleton]; decide) junk scratch junkAB hmem out
  rw [h1] at h2
  obtain rfl := Option.some.inj h2
  refine ⟨P, r, h1, h3, fun hr => ?_⟩
  rcases h4 with ⟨e, -⟩ | ⟨-, h, -⟩
  · rw [hr] at e
    exact absurd e (by decide)
  · have := h 0 (by simp) 0 (by simp) ⟨1, 0, 0⟩ ⟨0, 0, 0⟩ ⟨0, 1, 0⟩ ⟨0, 0, 0⟩ (by decide) (by decide) (by decide)
      (by decide) rfl rfl rfl rfl
    have e0 : Qrt.index psi4List ⟨⟨⟨1, 0, 0⟩, ⟨0, 0, 0⟩⟩, ⟨⟨0, 1, 0⟩, ⟨0, 0, 0⟩⟩, 0⟩ = 1 := by decide
    rw [e0] at this
    simpa using this

/-- The value for an s shell with itself is the integral. -/
example (sh : ShCfg) (hl : 0 < sh.len) (w : ScrMem ℝ) (A : Shell ℝ) (hA : A.OK) (eA : A.am = 0) :
    demoLib.shellscreen realOps realShOps sh 1e99 w A A =
      some |shellERI A A A A ⟨0, 0, 0⟩ ⟨0, 0, 0⟩ ⟨0, 0, 0⟩ ⟨0, 0, 0⟩| := by
  have hz : ∀ x : Exp, IsComp A.am x → x = ⟨0, 0, 0⟩ := by
    rintro ⟨x, y, z⟩ ⟨h1, h2, h3, h⟩
    rw [eA] at h
    simp only at h1 h2 h3 h
    simp only [Exp.mk.injEq]
    omega
  have hm : A.am ≤ min demoLib.use 7 := by rw [eA]; exact Nat.zero_le _
  obtain ⟨u, v, h1, -, ⟨x, y, x', y', k1, k2, k3, k4, e⟩, -⟩ := C69_shells_partial demoLib demoLib_ok sh hl 1e99 w w
    hA hA (fun _ => ⟨rfl, fun _ _ => ⟨rfl, rfl⟩⟩) hA hA (fun _ => ⟨rfl, fun _ _ => ⟨rfl, rfl⟩⟩) hm hm hm hm
  rw [h1, e, hz x k1, hz y k2, hz x' k3, hz y' k4]

end Simint
