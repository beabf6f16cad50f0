import Verif.Props.Dispatch
import Verif.Props.FastScreen
import Verif.BatchLemmas

/-!
# C58, C64: lists of bra pairs with more than one batch

`C64_shells_partial` allows one batch of bra pairs.  Here: the public function is correct for every
list of bra pairs whose complete batches hold a multiple of the vector length of primitives, and for
every vector length greater than one there are lists for which it stores `0` in place of a positive
integral.
-/

set_option autoImplicit false

open Real Finset

namespace Simint

/-- Batches are full exactly if every pair is read from where it is stored. -/
theorem C58_batches {len : ℕ} (hl : 0 < len) (ps : List (Shell ℝ × Shell ℝ)) :
    BatchesFull len ps ↔ ∀ s < ps.length, tightStart (npOf (ps.map storedCount)) s =
      paddedStart len (npOf (ps.map storedCount)) s := by
  rw [C25_bra_layout hl]
  unfold BatchesFull
  refine forall_congr' fun b => ⟨fun h hb => ?_, fun h hb => ?_⟩
  all_goals
    have hb' : (b + 1) * (2 * len) < ps.length := hb
    have := h hb
    rcases ps with _ | ⟨p, ps⟩
    · exact absurd hb' (Nat.not_lt_zero _)
    have e : (((p :: ps).take ((b + 1) * (2 * len))).map storedCount).sum =
        ∑ k ∈ range ((b + 1) * nshellSimd len), npOf ((p :: ps).map storedCount) k := by
      rw [sum_take_map _ _ p _ (le_of_lt hb')]
      refine sum_congr rfl fun k hk => ?_
      have hk' : k < (p :: ps).length := lt_trans (mem_range.1 hk) hb'
      unfold npOf
      rw [List.getD_eq_getElem _ _ hk', List.getD_eq_getElem _ _ (by rwa [List.length_map]), List.getElem_map]
  · rw [← e]; exact this
  · rw [e]; exact this

/-- **C64, several batches of bra pairs.** `C64_shells_partial` for every list of bra pairs with full
batches. -/
theorem C64_batches_partial (L : LibCfg) (hL : L.OK) {am : QAM} (ham : ClassUpTo L.use am) (h7 : topAM am ≤ 7)
    (sh : ShCfg) (hl : 0 < sh.len) (scr : PrimScreen ℝ) (val : Shell ℝ → Shell ℝ → ℕ → ℕ → ℝ)
    (hscr : sh.screening = true → ExactScr scr val) (big : ℝ) (psP psQ : List (Shell ℝ × Shell ℝ))
    (hP : PairsOK psP) (hQ : PairsOK psQ) (nP : 0 < psP.length) (nQ : 0 < psQ.length)
    (hbra : BatchesFull sh.len psP) (memP memQ : ℕ → ℝ) (outSize : ℕ)
    (hout : psP.length * psQ.length * ncartQ am ≤ outSize) (junk : VPar ℝ)
    (scratch : ℕ → ℕ → ℕ → VMem ℝ) (junkAB : Dir → ℕ → ℝ) (hmem : HMem ℝ) (out : ℕ → ℝ) :
    ∃ P Q r, completeList sh realShOps scr big psP memP = some P ∧
      completeList sh realShOps scr big psQ memQ = some Q ∧
      L.computeOstei realOps am ⟨⟨sh.len, P.1, Q.1, 0, outSize, junk, scratch⟩, psP.length, psQ.length,
        junkAB⟩ hmem out = some r ∧ r.ret = psP.length * psQ.length ∧
      (∀ ab (hab : ab < psP.length) cd (hcd : cd < psQ.length) (x y z w : Exp),
        x.Valid → y.Valid → z.Valid → w.Valid →
        x.am = am.a → y.am = am.b → z.am = am.c → w.am = am.d →
        r.out ((ab * psQ.length + cd) * ncartQ am + Qrt.index psi4List ⟨⟨x, y⟩, ⟨z, w⟩, 0⟩) =
          shellERI psP[ab].1 psP[ab].2 psQ[cd].1 psQ[cd].2 x y z w) ∧
      ∀ k, psP.length * psQ.length * ncartQ am ≤ k → r.out k = out k := by
  obtain ⟨P, eP, ⟨p1, ⟨S, p2, -, ps⟩, p4, p5, p6, p7⟩⟩ := complete_listFor sh hl scr val hscr big psP hP memP
  obtain ⟨Q, eQ, ⟨q1, ⟨T, q2, -, qs⟩, q4, q5, q6, q7⟩⟩ := complete_listFor sh hl scr val hscr big psQ hQ memQ
  have hc : CallOK am ⟨sh.len, P.1, Q.1, 0, outSize, junk, scratch⟩ :=
    ⟨hl, q4, p5, q6, p7, q7, by simp only; rw [p1, q1]; exact hout⟩
  have hcount : ∀ s (hs : s < psP.length), P.1.nprim12 s = storedCount psP[s] := by
    intro s hs
    rw [p2.count s (p1 ▸ hs), (ps s hs).2.2.length_eq, storedCount_eq, ← primOrder_length]
    unfold storedPair storedPrims
    rw [List.length_map]
  have hlay : ∀ s < P.1.nclip, tightStart P.1.nprim12 s = paddedStart sh.len P.1.nprim12 s := by
    rw [p1]
    exact starts_of_full hl hbra hcount
  have p2' : Holds P.1 (tightStart P.1.nprim12) S := by
    refine ⟨p2.count, p2.AB, fun s hs k hk => ?_⟩
    rw [hlay s hs]
    exact p2.prims s hs k hk
  obtain ⟨r, h0, hr, h1, h2⟩ := C64_integrals_partial L hL ham h7
    (c := ⟨⟨sh.len, P.1, Q.1, 0, outSize, junk, scratch⟩, psP.length, psQ.length, junkAB⟩) hc rfl p2' q2
    ⟨nP, p1.le⟩ ⟨nQ, q1.le⟩ hmem out
  simp only [p1, q1] at hr h1 h2
  refine ⟨P, Q, r, eP, eQ, h0, hr, ?_, h2⟩
  intro ab hab cd hcd x y z w vx vy vz vw ex ey ez ew
  obtain ⟨a1, a2, a3⟩ := hP _ (List.getElem_mem hab)
  obtain ⟨b1, b2, b3⟩ := hQ _ (List.getElem_mem hcd)
  rw [h1 ab hab cd hcd x y z w vx vy vz vw ex ey ez ew, contractedERI_same (ps ab hab) (qs cd hcd),
    C40_integrals a1 a2 a3 b1 b2 b3, contractedERI_full a1 a2 b1 b2]

/-! ### What padding elements hold -/

section
variable {F : Type} [Field F] [LinearOrder F]

theorem pad_elem (g : ShCfg) (hl : 0 < g.len) (ops : ShOps F) (scr : PrimScreen F)
    (val : Shell F → Shell F → ℕ → ℕ → F) (hscr : g.screening = true → ExactScr scr val) (big : F)
    (ps : List (Shell F × Shell F)) (mf : ℕ → F) {i : ℕ} (hi : i < allocPrims g.len ps)
    (hno : ∀ s (hs : s < ps.length), ¬ (paddedStart g.len (npOf (countsOf ps)) s ≤ i ∧
      i < paddedStart g.len (npOf (countsOf ps)) s + pairPrims ps[s].1 ps[s].2)) {a : Arr} (ha : PerPrim g a) :
    bufView g ps.length (allocPrims g.len ps) (applyFlat g ps.length (allocPrims g.len ps)
      (fillPairs g ops scr big ps).log mf) a i = padValue a := by
  have hlen : (countsOf ps).length = ps.length := by simp [countsOf]
  have halloc : allocPrims g.len ps = fillIdx g.len (countsOf ps) ps.length := by
    rw [← hlen]; exact countPrims_eq hl _
  rw [halloc] at hi
  obtain ⟨s, hs, l1, l2⟩ := slot_cases hl (countsOf ps) (n := ps.length) (by omega) hi
  have h2 : fillIdx g.len (countsOf ps) s + pairPrims ps[s].1 ps[s].2 ≤ i := by
    by_contra hc
    apply hno s hs
    rw [← fillIdx_eq_padded (by simpa [countsOf] using hs)]
    omega
  have hpa : a ∈ padArrs g := by
    rcases isElem_iff.1 (Or.inl ⟨(Nat.lt_succ_self 0 : 0 < 1), ha⟩ : IsElem g 0 1 a 0) with h | ⟨d, -, h⟩
    · exact h.1
    · omega
  apply bufView_fill g hl ops scr val hscr big ps mf
  have := (mem_fill_log g hl ops scr big ps ps.length le_rfl (a, i, padValue a)).2
    ⟨s, hs, hs, (mem_stepLog hscr).2 (Or.inr (Or.inl ⟨hpa, h2, l2, rfl⟩))⟩
  rw [fillAfter_length] at this
  exact this

end

/-! ### A positive integral that comes out as zero -/

/-- An s shell at the origin with `n` primitives of exponent and coefficient 1; `p` tells shells apart. -/
noncomputable def originShell (p n : ℕ) : Shell ℝ := ⟨p, 0, n, fun _ => 0, fun _ => 1, fun _ => 1⟩

/-- One pair with two combinations of primitives, then `2 * len` pairs with one. -/
noncomputable def braTooLong (len : ℕ) : List (Shell ℝ × Shell ℝ) :=
  (originShell 0 2, originShell 1 1) :: List.replicate (2 * len) (originShell 2 1, originShell 1 1)

theorem braTooLong_length (len : ℕ) : (braTooLong len).length = 2 * len + 1 := by
  simp [braTooLong]

theorem braTooLong_get {len s : ℕ} (hs : s < (braTooLong len).length) (h0 : 0 < s) :
    (braTooLong len)[s] = (originShell 2 1, originShell 1 1) := by
  obtain ⟨t, rfl⟩ : ∃ t, s = t + 1 := ⟨s - 1, by omega⟩
  simp [braTooLong]

theorem originPair_ok {p q n m : ℕ} (h : p ≠ q) (hn : 0 < n) (hm : 0 < m) :
    (originShell p n).OK ∧ (originShell q m).OK ∧ Faithful (originShell p n) (originShell q m) := by
  refine ⟨⟨hn, fun _ _ => one_pos⟩, ⟨hm, fun _ _ => one_pos⟩, fun hs => ?_⟩
  simp [sameShell, originShell, h] at hs

theorem braTooLong_ok (len : ℕ) : PairsOK (braTooLong len) := by
  intro p hp
  rcases List.mem_cons.1 hp with rfl | hp
  · exact originPair_ok (by decide) (by decide) (by decide)
  · rw [List.eq_of_mem_replicate hp]
    exact originPair_ok (by decide) (by decide) (by decide)

/-- The counts of the list. -/
theorem braTooLong_np {len : ℕ} : npOf (countsOf (braTooLong len)) 0 = 2 ∧
    ∀ s, 0 < s → s < 2 * len + 1 → npOf (countsOf (braTooLong len)) s = 1 := by
  refine ⟨rfl, fun s h0 hs => ?_⟩
  have hs' : s < (braTooLong len).length := by rw [braTooLong_length]; exact hs
  rw [npOf_countsOf hs', braTooLong_get hs' h0]
  rfl

theorem braTooLong_tight {len : ℕ} (s : ℕ) (h0 : 0 < s) (hs : s ≤ 2 * len + 1) :
    tightStart (npOf (countsOf (braTooLong len))) s = s + 1 := by
  induction s with
  | zero => omega
  | succ s ih =>
    rw [tightStart_succ]
    rcases Nat.eq_zero_or_pos s with rfl | h
    · rw [braTooLong_np.1]; rfl
    · rw [ih h (by omega), braTooLong_np.2 s h (by omega)]

/-- **C58, C64, the claim is false for every vector length greater than one.** There are lists of
pairs of ordinary shells for which the public function stores `0` for an integral that is positive:
the last bra pair starts a new batch, is stored behind the padding of the first batch, and is read
from that padding. -/
theorem C64_bra_false (L : LibCfg) (hL : L.OK) (sh : ShCfg) (hsc : sh.screening = false) (hl : 2 ≤ sh.len)
    (scr : PrimScreen ℝ) (big : ℝ) (memP memQ : ℕ → ℝ) (junk : VPar ℝ)
    (scratch : ℕ → ℕ → ℕ → VMem ℝ) (junkAB : Dir → ℕ → ℝ) (hmem : HMem ℝ) (out : ℕ → ℝ) :
    ∃ psP psQ, PairsOK psP ∧ PairsOK psQ ∧ ∃ P Q r,
      completeList sh realShOps scr big psP memP = some P ∧
      completeList sh realShOps scr big psQ memQ = some Q ∧
      L.computeOstei realOps ⟨0, 0, 0, 0, ""⟩ ⟨⟨sh.len, P.1, Q.1, 0, psP.length * psQ.length, junk, scratch⟩,
        psP.length, psQ.length, junkAB⟩ hmem out = some r ∧
      ∃ ab, ∃ hab : ab < psP.length, ∃ cd, ∃ hcd : cd < psQ.length,
        0 < shellERI psP[ab].1 psP[ab].2 psQ[cd].1 psQ[cd].2 ⟨0, 0, 0⟩ ⟨0, 0, 0⟩ ⟨0, 0, 0⟩ ⟨0, 0, 0⟩ ∧
        r.out (ab * psQ.length + cd) = 0 := by
  have hl0 : 0 < sh.len := by omega
  have hscr : sh.screening = true → ExactScr scr (fun _ _ _ _ => 0) := fun h => by rw [hsc] at h; cases h
  set ps := braTooLong sh.len with hps
  have hlen : ps.length = 2 * sh.len + 1 := braTooLong_length _
  have hQok : PairsOK [(originShell 2 1, originShell 1 1)] := by
    intro p hp
    rw [List.mem_singleton.1 hp]
    exact originPair_ok (by decide) (by decide) (by decide)
  refine ⟨ps, [(originShell 2 1, originShell 1 1)], braTooLong_ok _, hQok, ?_⟩
  have eP : completeList sh realShOps scr big ps memP =
      some (filledList sh realShOps scr big ps memP, filledExps sh realShOps scr big ps memP) := by
    unfold completeList completeFill
    simp only
    rw [hsc, if_neg (by decide), Option.map_some]
    rfl
  obtain ⟨p1, ⟨S, p2, -, psame⟩, p4, p5, p6, p7⟩ :=
    filled_listFor sh hl0 scr (fun _ _ _ _ => 0) hscr big ps (braTooLong_ok _) memP
  obtain ⟨Q, eQ, ⟨q1, ⟨T, q2, -, qs⟩, q4, q5, q6, q7⟩⟩ :=
    complete_listFor sh hl0 scr (fun _ _ _ _ => 0) hscr big _ hQok memQ
  have hM : ∀ a, PerPrim sh a → ∀ i, i < allocPrims sh.len ps → (∀ s (hs : s < ps.length),
      ¬ (paddedStart sh.len (npOf (countsOf ps)) s ≤ i ∧
        i < paddedStart sh.len (npOf (countsOf ps)) s + pairPrims ps[s].1 ps[s].2)) →
      bufView sh ps.length (allocPrims sh.len ps) (applyFlat sh ps.length (allocPrims sh.len ps)
        (fillPairs sh realShOps scr big ps).log memP) a i = padValue a :=
    fun a ha i hi hno => pad_elem sh hl0 realShOps scr _ hscr big ps memP hi hno ha
  have hAB : ∀ d, (filledList sh realShOps scr big ps memP).AB d (2 * sh.len) = 0 := by
    intro d
    have h : 2 * sh.len < ps.length := by omega
    rw [p2.AB _ (by rw [p1]; exact h), (psame _ h).1, (psame _ h).2.1, braTooLong_get h (by omega)]
    exact sub_self _
  set M := filledList sh realShOps scr big ps memP with hMd
  have hnp : M.nprim12 = npOf (countsOf ps) := by
    obtain ⟨-, -, -, hn12, -⟩ := C37_fill_writes_allocation sh hl0 realShOps scr _ hscr big ps
    funext s
    change (fillPairs sh realShOps scr big ps).nprim12.getD s 0 = _
    rw [hn12]
    rfl
  have hsmall : ∀ s < 2 * sh.len, tightStart M.nprim12 s = paddedStart sh.len M.nprim12 s :=
    C25_bra_small hl0 _ _ le_rfl
  have hbig : 2 * sh.len + 1 < paddedStart sh.len M.nprim12 (2 * sh.len) := by
    have h1 := padded_ge_tight hl0 M.nprim12 (2 * sh.len)
    rw [hnp, braTooLong_tight _ (by omega) (by omega), ← hnp] at h1
    have h2 := paddedStart_dvd sh.len M.nprim12 1
    rw [one_mul] at h2
    change sh.len ∣ paddedStart sh.len M.nprim12 (2 * sh.len) at h2
    rcases Nat.lt_or_ge (2 * sh.len + 1) (paddedStart sh.len M.nprim12 (2 * sh.len)) with h | h
    · exact h
    · rw [le_antisymm h h1, (Nat.dvd_add_right (Dvd.intro_left 2 rfl))] at h2
      have := Nat.le_of_dvd one_pos h2
      omega
  have hno : ∀ s (hs : s < ps.length),
      ¬ (paddedStart sh.len (npOf (countsOf ps)) s ≤ 2 * sh.len + 1 ∧
        2 * sh.len + 1 < paddedStart sh.len (npOf (countsOf ps)) s + pairPrims ps[s].1 ps[s].2) := by
    intro s hs
    rw [← npOf_countsOf hs]
    rcases Nat.lt_or_ge s (2 * sh.len) with h | h
    · have h3 := hsmall s h
      rw [hnp] at h3
      have h4 := braTooLong_tight (len := sh.len) (s + 1) (by omega) (by omega)
      rw [← hps] at h4
      rw [← h3, ← tightStart_succ, h4]
      omega
    · have : s = 2 * sh.len := by omega
      rw [this, ← hnp]
      omega
  have halloc : 2 * sh.len + 1 < M.alloc := by
    have h1 := p6 (2 * sh.len) (by rw [p1]; omega)
    have h2 := le_simdRound' hl0 (paddedStart sh.len M.nprim12 (2 * sh.len) + M.nprim12 (2 * sh.len))
    omega
  have hpad := fun a ha => hM a ha _ halloc hno
  -- the pairs as they are read
  let S' : ℕ → ShellPair := fun s => if s < 2 * sh.len then S s else
    ⟨fun _ => 0, fun _ => 0, [⟨0, 1 / 2, 1 / 2, one_half_pos, one_half_pos⟩]⟩
  have hS' : Holds M (tightStart M.nprim12) S' := by
    have last : ∀ s, s < M.nclip → ¬ s < 2 * sh.len → s = 2 * sh.len := by
      intro s hs h; rw [p1] at hs; omega
    refine ⟨fun s hs => ?_, fun s hs d => ?_, fun s hs k hk => ?_⟩
    · by_cases h : s < 2 * sh.len
      · simp only [S', if_pos h]; exact p2.count s hs
      · simp only [S', if_neg h]
        rw [last s hs h, hnp, braTooLong_np.2 _ (by omega) (by omega)]
        rfl
    · by_cases h : s < 2 * sh.len
      · simp only [S', if_pos h]; exact p2.AB s hs d
      · simp only [S', if_neg h]
        rw [last s hs h, hAB, sub_self]
    · by_cases h : s < 2 * sh.len
      · simp only [S', if_pos h] at hk ⊢
        rw [hsmall s h]
        exact p2.prims s hs k hk
      · simp only [S', if_neg h, List.length_singleton] at hk ⊢
        obtain rfl : k = 0 := by omega
        have e : tightStart M.nprim12 s + 0 = 2 * sh.len + 1 := by
          rw [last s hs h, hnp, braTooLong_tight _ (by omega) (by omega)]
        rw [e]
        refine ⟨?_, fun d => ?_, fun d => ?_, fun d => ?_, ?_⟩
        · refine (hpad .alpha trivial).trans ?_
          norm_num [padValue]
        · refine (hpad (.pos d) trivial).trans ?_
          norm_num [padValue]
        · refine (hpad (.PA d) trivial).trans ?_
          refine Eq.trans ?_ (congrArg (· - (0 : ℝ)) (hpad (.pos d) trivial).symm)
          norm_num [padValue]
        · refine (hpad (.PB d) trivial).trans ?_
          refine Eq.trans ?_ (congrArg (· - (0 : ℝ)) (hpad (.pos d) trivial).symm)
          norm_num [padValue]
        · refine (hpad .prefac trivial).trans ?_
          norm_num [padValue]
  have hc : CallOK ⟨0, 0, 0, 0, ""⟩ ⟨sh.len, M, Q.1, 0, ps.length * 1, junk, scratch⟩ :=
    ⟨hl0, q4, p5, q6, p7, q7, by simp only; rw [p1, q1]; simp [ncartQ, ncart]⟩
  obtain ⟨r, h0, hr, h1, h2⟩ := C64_integrals_partial L hL (am := ⟨0, 0, 0, 0, ""⟩)
    ⟨rfl, by unfold QAM.Valid; decide, Int.natCast_nonneg _, Int.natCast_nonneg _, Int.natCast_nonneg _, Int.natCast_nonneg _⟩ (by decide)
    (c := ⟨⟨sh.len, M, Q.1, 0, ps.length * 1, junk, scratch⟩, ps.length, 1, junkAB⟩) hc rfl hS' q2
    ⟨hlen ▸ Nat.succ_pos _, p1.le⟩ ⟨one_pos, q1.le⟩ hmem out
  refine ⟨_, Q, r, eP, eQ, h0, 2 * sh.len, by omega, 0, one_pos, ?_, ?_⟩
  · rw [braTooLong_get (s := 2 * sh.len) (by rw [braTooLong_length]; omega) (by omega)]
    simp only [shellERI, originShell, List.getElem_cons_zero, sum_range_one]
    rw [self_s one_pos one_pos]
    positivity
  · have := h1 (2 * sh.len) (by rw [p1]; omega) 0 (by rw [q1]; exact one_pos) ⟨0, 0, 0⟩ ⟨0, 0, 0⟩ ⟨0, 0, 0⟩ ⟨0, 0, 0⟩
      (by decide) (by decide) (by decide) (by decide) rfl rfl rfl rfl
    have e : (2 * sh.len * Q.1.nclip + 0) * ncartQ ⟨0, 0, 0, 0, ""⟩ + Qrt.index psi4List
        ⟨⟨⟨0, 0, 0⟩, ⟨0, 0, 0⟩⟩, ⟨⟨0, 0, 0⟩, ⟨0, 0, 0⟩⟩, 0⟩ = 2 * sh.len * 1 + 0 := by
      rw [q1]
      have h1 : Qrt.index psi4List ⟨⟨⟨0, 0, 0⟩, ⟨0, 0, 0⟩⟩, ⟨⟨0, 0, 0⟩, ⟨0, 0, 0⟩⟩, 0⟩ = 0 := by decide +kernel
      have h2 : ncartQ ⟨0, 0, 0, 0, ""⟩ = 1 := by decide
      rw [h1, h2, List.length_singleton]
      omega
    rw [e] at this
    refine this.trans ?_
    simp [S', contractedERI]

/-! ### The first example program

skel/examples/example1.c:102-124 pairs four s shells of three primitives with themselves and passes the
list as bra pairs. -/

/-- The four s shells of the program hold three primitives each in different arrays. Whatever their
exponents and coefficients: the sixteen pairs are read from where they are stored by scalar code and
by code with vectors of eight, but not by code with vectors of two (SSE) or four (AVX). -/
theorem C58_example1 (a b c d : Shell ℝ) (h3 : ∀ x ∈ [a, b, c, d], x.nprim = 3)
    (hptr : [a.ptr, b.ptr, c.ptr, d.ptr].Nodup) :
    BatchesFull 1 (allPairs [a, b, c, d] [a, b, c, d]) ∧ ¬ BatchesFull 2 (allPairs [a, b, c, d] [a, b, c, d]) ∧
    ¬ BatchesFull 4 (allPairs [a, b, c, d] [a, b, c, d]) ∧ BatchesFull 8 (allPairs [a, b, c, d] [a, b, c, d]) := by
  have ha := h3 a (by simp)
  have hb := h3 b (by simp)
  have hc := h3 c (by simp)
  have hd := h3 d (by simp)
  simp only [List.nodup_cons, List.mem_cons, List.not_mem_nil, or_false, not_or, not_false_eq_true,
    List.nodup_nil, and_true] at hptr
  obtain ⟨⟨h1, h2, h3⟩, ⟨h4, h5⟩, h6⟩ := hptr
  have e : (allPairs [a, b, c, d] [a, b, c, d]).map storedCount = [6, 9, 9, 9, 9, 6, 9, 9, 9, 9, 6, 9, 9, 9, 9, 6] := by
    simp [allPairs, storedCount, ha, hb, hc, hd, h1, h2, h3, h4, h5, h6, Ne.symm h1, Ne.symm h2, Ne.symm h3,
      Ne.symm h4, Ne.symm h5, Ne.symm h6]
  have hlen : (allPairs [a, b, c, d] [a, b, c, d]).length = 16 := by
    rw [← List.length_map (f := storedCount), e]; rfl
  refine ⟨batchesFull_scalar _, fun h => ?_, fun h => ?_, batchesFull_one (by rw [hlen])⟩
  · have := h 0 (by rw [hlen]; decide)
    rw [List.map_take, e] at this
    revert this
    decide
  · have := h 0 (by rw [hlen]; decide)
    rw [List.map_take, e] at this
    revert this
    decide

/-- Non-trivial case of `C64_batches_partial`: nine pairs of one primitive with vectors of two or four
elements, two or three batches. -/
example : BatchesFull 4 (List.replicate 9 (originShell 2 1, originShell 1 1)) ∧
    BatchesFull 2 (List.replicate 9 (originShell 2 1, originShell 1 1)) := by
  refine ⟨fun b hb => ?_, fun b hb => ?_⟩
  all_goals
    rw [List.length_replicate] at hb
    rw [List.map_take, List.map_replicate, List.take_replicate, List.sum_replicate, Nat.min_eq_left hb.le]
    have : storedCount (originShell 2 1, originShell 1 1) = 1 := by simp [storedCount, originShell]
    rw [this]
  · exact Dvd.intro ((b + 1) * 2) (by simp; ring)
  · exact Dvd.intro ((b + 1) * 2) (by simp; ring)

end Simint
