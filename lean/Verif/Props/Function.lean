import Verif.FunctionLemmas

/-!
# Properties C59, C60: complete generated functions

The search, both recurrences, the loops, screening, contraction and the output layout together:
the function returns contracted electron repulsion integrals.
-/

set_option autoImplicit false

open Real Finset

namespace Simint

/-- **C59.** For every class within the range of the generic run-time tables, every choice of the
thresholds and of the set iteration orders, every call and every previous content of memory: the
generated function runs, returns the number of quartets, writes for each quartet of shell pairs and
each component the contracted integral over the primitives that pass the screening, and leaves the
rest of the output alone.  Bra primitives are read as stored without gaps, ket primitives as stored
in padded batches. -/
theorem C59_function {g : GenCfg} (hg : g.OK) {final : QAM} (hf : ClassOK final) {c : Call ℝ}
    (hc : CallOK final c) {S T : ℕ → ShellPair} (hS : Holds c.P (tightStart c.P.nprim12) S)
    (hT : Holds c.Q (paddedStart c.len c.Q.nprim12) T) (hmem : HMem ℝ) (out : ℕ → ℝ) :
    ∃ o, genFunction g realOps final c hmem out = some (c.P.nclip * c.Q.nclip, o) ∧
      (∀ ab < c.P.nclip, ∀ cd < c.Q.nclip, ∀ x y z w : Exp, x.Valid → y.Valid → z.Valid → w.Valid →
        x.am = final.a → y.am = final.b → z.am = final.c → w.am = final.d →
        o ((ab * c.Q.nclip + cd) * ncartQ final + Qrt.index psi4List ⟨⟨x, y⟩, ⟨z, w⟩, 0⟩) =
          screenedERI c (tightStart c.P.nprim12 ab) (paddedStart c.len c.Q.nprim12 cd) (S ab) (T cd)
            x y z w) ∧
      ∀ k, c.P.nclip * c.Q.nclip * ncartQ final ≤ k → o k = out k := by
  obtain ⟨H, A, e, hA⟩ := algos_ok hg hf
  have hl := genEnv_laneWise hf hA c hc.braPos hc.ketPos
  have hok : ListsOK (genEnv g realOps final c H A) :=
    ⟨hc.len, hc.prims, hc.bra, hc.ket, List.nodup_dedup _, fun t ht =>
      ncartQ_pos (hA.tval t (by simpa [genEnv] using ht))⟩
  have hq : ∀ {x y z w : Exp}, x.Valid → y.Valid → z.Valid → w.Valid → x.am = final.a →
      y.am = final.b → z.am = final.c → w.am = final.d →
      (⟨⟨x, y⟩, ⟨z, w⟩, 0⟩ : Qrt).Valid ∧ (⟨⟨x, y⟩, ⟨z, w⟩, 0⟩ : Qrt).am4 = final := by
    intro x y z w vx vy vz vw ex ey ez ew
    refine ⟨⟨⟨vx, vy⟩, ⟨vz, vw⟩, le_rfl⟩, ?_⟩
    have := hf.tag
    obtain ⟨a, b, c, d, tag⟩ := final
    simp only at this ex ey ez ew
    simp only [Qrt.am4, ex, ey, ez, ew, this]
  have hlt : ∀ {q : Qrt}, q.Valid → q.am4 = final → q.index psi4List < ncartQ final := by
    intro q h1 h2
    rw [← h2]
    exact Qrt.index_lt psi4_ordOK h1
  unfold genFunction
  rw [e, Option.bind_some]
  by_cases hh : H.hasHRR
  · simp only [hh, if_true]
    obtain ⟨o, r, h1, h2⟩ := C25_hrr (genEnv g realOps final c H A) (genHrr g final c H) final
      (ncartQ_pos hf.valid) (genPrim c.P c.Q) hl _ (hrrOn_gen hg hf hA hS hT) hok
      (fun t _ => by simp only [genEnv, hh, if_true]; exact le_rfl) hc.out hmem out
    refine ⟨o, r, ?_, h2⟩
    intro ab hab cd hcd x y z w vx vy vz vw ex ey ez ew
    obtain ⟨hv, hv4⟩ := hq vx vy vz vw ex ey ez ew
    have := h1 ab hab cd hcd _ (hlt hv hv4)
    refine this.trans ?_
    conv_lhs => rw [← hv4]
    exact atPos_eq _ hv
  · simp only [hh]
    have ht : (genEnv g realOps final c H A).tops = [final] := by
      have hn := (hrrCreate_no_steps hg.Q hA.hcreate hA.hok (by simpa using hh)).2
      have hm : ∀ q, q ∈ H.top.dedup ↔ q = final := fun q => by
        rw [List.mem_dedup, hn]; simp
      have hnd := List.nodup_dedup H.top
      show H.top.dedup = [final]
      generalize H.top.dedup = l at hm hnd
      match l with
      | [] => exact absurd ((hm final).2 rfl) (by simp)
      | [a] => rw [(hm a).1 (by simp)]
      | a :: b :: l =>
        exfalso
        have h1 := (hm a).1 (by simp)
        have h2 := (hm b).1 (by simp)
        rw [h1, h2] at hnd
        simp at hnd
    obtain ⟨o, r, h1, h2⟩ := C25_direct (genEnv g realOps final c H A) final (genPrim c.P c.Q) hl hok
      ht (by simp only [genEnv, hh]; exact hc.out) out
    refine ⟨o, r, ?_, h2⟩
    intro ab hab cd hcd x y z w vx vy vz vw ex ey ez ew
    obtain ⟨hv, hv4⟩ := hq vx vy vz vw ex ey ez ew
    refine (h1 ab hab cd hcd _ (hlt hv hv4)).trans ?_
    conv_lhs => rw [← hv4]
    exact contractedPair_eq hS hT hab hcd hv

/-- Without screening every pair of primitives counts. -/
theorem screenedERI_unscreened {c : Call ℝ} (h : c.tol ≤ 0) (i0 j0 : ℕ) (S T : ShellPair)
    (x y z w : Exp) : screenedERI c i0 j0 S T x y z w = contractedERI S T x y z w := by
  have hk : ∀ i j, c.Kept i j := fun i j =>
    ⟨fun h' => absurd h'.1 (not_lt.2 h), fun h' => absurd h'.1 (not_lt.2 h)⟩
  unfold screenedERI contractedERI
  simp only [hk, if_true]
  rw [← Fin.sum_univ_fun_getElem]
  refine Finset.sum_congr rfl fun k _ => ?_
  rw [← Fin.sum_univ_fun_getElem]
  rfl

/-- **C59, no screening.** With both lists in the padded layout that the fill routines produce and
a multiple of the vector length of primitives in the complete batches of bra pairs (none if there is one
batch, always the case for scalar code), the function computes the contracted integrals.  (Otherwise the
layouts differ, see C58.) -/
theorem C59_integrals {g : GenCfg} (hg : g.OK) {final : QAM} (hf : ClassOK final) {c : Call ℝ}
    (hc : CallOK final c) (htol : c.tol ≤ 0) (hbra : ∀ b, (b + 1) * nshellSimd c.len < c.P.nclip →
      c.len ∣ ∑ k ∈ range ((b + 1) * nshellSimd c.len), c.P.nprim12 k)
    {S T : ℕ → ShellPair} (hS : Holds c.P (paddedStart c.len c.P.nprim12) S)
    (hT : Holds c.Q (paddedStart c.len c.Q.nprim12) T) (hmem : HMem ℝ) (out : ℕ → ℝ) :
    ∃ o, genFunction g realOps final c hmem out = some (c.P.nclip * c.Q.nclip, o) ∧
      (∀ ab < c.P.nclip, ∀ cd < c.Q.nclip, ∀ x y z w : Exp, x.Valid → y.Valid → z.Valid → w.Valid →
        x.am = final.a → y.am = final.b → z.am = final.c → w.am = final.d →
        o ((ab * c.Q.nclip + cd) * ncartQ final + Qrt.index psi4List ⟨⟨x, y⟩, ⟨z, w⟩, 0⟩) =
          contractedERI (S ab) (T cd) x y z w) ∧
      ∀ k, c.P.nclip * c.Q.nclip * ncartQ final ≤ k → o k = out k := by
  have hS' : Holds c.P (tightStart c.P.nprim12) S := by
    refine ⟨hS.count, hS.AB, fun s hs k hk => ?_⟩
    rw [(C25_bra_layout hc.len c.P.nprim12 c.P.nclip).2 hbra s hs]
    exact hS.prims s hs k hk
  obtain ⟨o, e, h1, h2⟩ := C59_function hg hf hc hS' hT hmem out
  refine ⟨o, e, ?_, h2⟩
  intro ab hab cd hcd x y z w vx vy vz vw ex ey ez ew
  rw [h1 ab hab cd hcd x y z w vx vy vz vw ex ey ez ew, screenedERI_unscreened htol]

/-! ### The hypotheses can be met -/

/-- A list with a single shell pair, as the fill routine stores it: data of the primitives, then
padding with exponent `1`. -/
noncomputable def singleList (len : ℕ) (S : ShellPair) : MSP ℝ where
  nclip := 1
  nprim12 := fun _ => S.prims.length
  alloc := simdRound len S.prims.length
  prefac := fun i => if h : i < S.prims.length then
    (S.prims[i]).coef * exp (-((S.prims[i]).α * (S.prims[i]).β / ((S.prims[i]).α + (S.prims[i]).β)) *
      dist2 S.A S.B) * (√2 * π ^ ((5 : ℝ) / 4)) / ((S.prims[i]).α + (S.prims[i]).β) else 0
  screen := fun _ => 0
  screenMax := 0
  alpha := fun i => if h : i < S.prims.length then (S.prims[i]).α + (S.prims[i]).β else 1
  pos := fun d i => if h : i < S.prims.length then
    ((S.prims[i]).α * S.A d + (S.prims[i]).β * S.B d) / ((S.prims[i]).α + (S.prims[i]).β) else 0
  PA := fun d i => if h : i < S.prims.length then
    ((S.prims[i]).α * S.A d + (S.prims[i]).β * S.B d) / ((S.prims[i]).α + (S.prims[i]).β) - S.A d else 0
  PB := fun d i => if h : i < S.prims.length then
    ((S.prims[i]).α * S.A d + (S.prims[i]).β * S.B d) / ((S.prims[i]).α + (S.prims[i]).β) - S.B d else 0
  AB := fun d _ => S.A d - S.B d

theorem singleList_holds (len : ℕ) (S : ShellPair) :
    Holds (singleList len S) (paddedStart len (singleList len S).nprim12) (fun _ => S) := by
  refine ⟨fun s _ => rfl, fun s _ d => rfl, fun s hs k hk => ?_⟩
  have h0 : s = 0 := by have : s < 1 := hs; omega
  subst h0
  have e : paddedStart len (singleList len S).nprim12 0 + k = k := by simp [paddedStart]
  rw [e]
  constructor <;> intros <;> simp [singleList, hk]

theorem singleList_pos (len : ℕ) (S : ShellPair) (i : ℕ) : 0 < (singleList len S).alpha i := by
  simp only [singleList]
  split
  · rename_i h
    exact add_pos (S.prims[i]).hα (S.prims[i]).hβ
  · exact one_pos

/-- Non-trivial case: any two shell pairs with primitives, the class `(d p | p s)` with vectors of
four lanes: the function stores the contracted integrals at the documented places. -/
example {g : GenCfg} (hg : g.OK) (S T : ShellPair) (hT : T.prims ≠ []) (junk : VPar ℝ)
    (scratch : ℕ → ℕ → ℕ → VMem ℝ) (hmem : HMem ℝ) (out : ℕ → ℝ) :
    ∃ o, genFunction g realOps ⟨2, 1, 1, 0, ""⟩
        ⟨4, singleList 4 S, singleList 4 T, 0, 54, junk, scratch⟩ hmem out = some (1, o) ∧
      o 0 = contractedERI S T ⟨2, 0, 0⟩ ⟨1, 0, 0⟩ ⟨1, 0, 0⟩ ⟨0, 0, 0⟩ ∧
      o 53 = contractedERI S T ⟨0, 0, 2⟩ ⟨0, 0, 1⟩ ⟨0, 0, 1⟩ ⟨0, 0, 0⟩ ∧ o 54 = out 54 := by
  have hf : ClassOK (⟨2, 1, 1, 0, ""⟩ : QAM) := ⟨by unfold QAM.Valid; decide, rfl, by decide, by decide⟩
  have hpos : 0 < T.prims.length := List.length_pos_iff.2 hT
  obtain ⟨o, e, h1, h2⟩ := C59_integrals hg hf
    (c := ⟨4, singleList 4 S, singleList 4 T, 0, 54, junk, scratch⟩)
    ⟨Nat.succ_pos 3, fun s _ => hpos, by
      show tightStart _ 1 ≤ _
      simp only [tightStart, Finset.sum_range_one]
      show S.prims.length ≤ simdRound 4 S.prims.length
      unfold simdRound; omega, fun s hs => by
      have h0 : s = 0 := by have : s < 1 := hs; omega
      subst h0
      show simdRound 4 (0 + T.prims.length) ≤ simdRound 4 T.prims.length
      rw [Nat.zero_add], fun i _ => singleList_pos _ _ _, fun i _ => singleList_pos _ _ _,
      by show 1 * 1 * ncartQ _ ≤ 54; decide⟩ le_rfl (fun b hb => absurd hb (by show ¬ (b + 1) * 8 < 1; omega))
    (singleList_holds 4 S) (singleList_holds 4 T) hmem out
  refine ⟨o, e, ?_, ?_, ?_⟩
  · exact h1 0 one_pos 0 one_pos ⟨2, 0, 0⟩ ⟨1, 0, 0⟩ ⟨1, 0, 0⟩ ⟨0, 0, 0⟩ (by decide) (by decide)
      (by decide) (by decide) rfl rfl rfl rfl
  · exact h1 0 one_pos 0 one_pos ⟨0, 0, 2⟩ ⟨0, 0, 1⟩ ⟨0, 0, 1⟩ ⟨0, 0, 0⟩ (by decide) (by decide)
      (by decide) (by decide) rfl rfl rfl rfl
  · exact h2 54 (by show 1 * 1 * ncartQ _ ≤ 54; decide)

/-! ### C60: declared variables -/

/-- **C60.** `Write_Full_` declares only some of the variables of the vertical stage. The values of
the others do not matter: no recurrence step of the function reads them (over any field). -/
theorem C60_declared {F : Type} [Field F] [LinearOrder F] {g : GenCfg} (hg : g.OK) (ops : FOps F)
    {final : QAM} (hf : ClassOK final) (c : Call F) (junk' : VPar F) (hmem : HMem F) (out : ℕ → F) :
    genFunction g ops final { c with junk := junk' } hmem out =
      genFunction g ops final c hmem out := by
  obtain ⟨H, A, e, hA⟩ := algos_ok hg hf
  have hv : ∀ L i j pf, vecStage g ops A L { c with junk := junk' } i j pf = vecStage g ops A L c i j pf := by
    intro L i j pf
    have hl : ∀ n, primLane g ops A L junk' c.P c.Q i (j + n) (pf n) (c.scratch i j n) =
        primLane g ops A L c.junk c.P c.Q i (j + n) (pf n) (c.scratch i j n) := by
      intro n
      unfold primLane
      simp only
      rw [vRunAllM_congr _ _ _ _ _ (loopVars_junk hA junk' c.junk c.P c.Q i (j + n))]
    unfold vecStage
    simp only [hl]
  have he : genEnv g ops final { c with junk := junk' } H A = genEnv g ops final c H A := by
    unfold genEnv
    simp only [DEnv.mk.injEq, true_and]
    funext i j pf
    exact hv _ i j pf
  unfold genFunction
  rw [e, Option.bind_some, Option.bind_some, he]
  rfl

/-- Non-trivial case: when there are steps on center A, the distances to center B are not
declared. -/
example {F : Type} [Field F] (A : VRRAlgo) (h : A.has .I = true) (junk : VPar F) (P Q : MSP F)
    (i j : ℕ) : (loopVars A junk P Q i j).PB = junk.PB := by
  simp [loopVars, h]

end Simint
