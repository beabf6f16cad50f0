import Verif.Props.Sort

/-!
# Properties C41 and C62 for complete fills, including the sort of primitives
-/

set_option autoImplicit false

open Real

namespace Simint

/-- Two shell pairs that differ only in the order of their primitives. -/
def ShellPair.Same (S T : ShellPair) : Prop := S.A = T.A ∧ S.B = T.B ∧ S.prims.Perm T.prims

theorem contractedERI_same {S S' T T' : ShellPair} (h1 : S.Same S') (h2 : T.Same T') (a b c d : Exp) :
    contractedERI S T a b c d = contractedERI S' T' a b c d := by
  obtain ⟨e1, e2, p⟩ := h1
  obtain ⟨e3, e4, q⟩ := h2
  unfold contractedERI
  rw [e1, e2, e3, e4]
  refine (p.map _).sum_eq.trans (congrArg List.sum (List.map_congr_left fun x _ => ?_))
  exact (q.map _).sum_eq

theorem moveCenter_same {S S' T T' : ShellPair} (h1 : S.Same S') (h2 : T.Same T') (t : RRType) (i : Dir)
    (v : ℝ) : (moveCenter S T t i v).1.Same (moveCenter S' T' t i v).1 ∧
      (moveCenter S T t i v).2.Same (moveCenter S' T' t i v).2 := by
  obtain ⟨e1, e2, p⟩ := h1
  obtain ⟨e3, e4, q⟩ := h2
  cases t
  · exact ⟨⟨by simp only [moveCenter]; rw [e1], e2, p⟩, ⟨e3, e4, q⟩⟩
  · exact ⟨⟨e1, by simp only [moveCenter]; rw [e2], p⟩, ⟨e3, e4, q⟩⟩
  · exact ⟨⟨e1, e2, p⟩, ⟨by simp only [moveCenter]; rw [e3], e4, q⟩⟩
  · exact ⟨⟨e1, e2, p⟩, ⟨e3, by simp only [moveCenter]; rw [e4], q⟩⟩

theorem centerOf_same {S S' T T' : ShellPair} (h1 : S.Same S') (h2 : T.Same T') (t : RRType) :
    centerOf S T t = centerOf S' T' t := by
  cases t
  · exact h1.1
  · exact h1.2.1
  · exact h2.1
  · exact h2.2.1

/-- The list is usable by the integral functions for the given pairs of shells: it holds the stored
combinations of primitives of every pair, in any order within the pair. -/
structure ListFor (len : ℕ) (deriv : Bool) (M : MSP ℝ) (a2 b2 : ℕ → ℝ) (ps : List (Shell ℝ × Shell ℝ)) :
    Prop where
  nclip : M.nclip = ps.length
  holds : ∃ S : ℕ → ShellPair, Holds M (paddedStart len M.nprim12) S ∧
    (deriv = true → HoldsExps M a2 b2 (paddedStart len M.nprim12) S) ∧
    ∀ s (hs : s < ps.length), (S s).Same (storedPair ps[s].1 ps[s].2)
  count : ∀ s < M.nclip, 0 < M.nprim12 s
  tight : tightStart M.nprim12 M.nclip ≤ M.alloc
  padded : ∀ s < M.nclip, simdRound len (paddedStart len M.nprim12 s + M.nprim12 s) ≤ M.alloc
  pos : ∀ i < M.alloc, 0 < M.alpha i

/-- Shells that can be used. -/
def PairsOK (ps : List (Shell ℝ × Shell ℝ)) : Prop := ∀ p ∈ ps, p.1.OK ∧ p.2.OK ∧ Faithful p.1 p.2

theorem filled_listFor (sh : ShCfg) (hl : 0 < sh.len) (scr : PrimScreen ℝ)
    (val : Shell ℝ → Shell ℝ → ℕ → ℕ → ℝ) (hscr : sh.screening = true → ExactScr scr val) (big : ℝ)
    (ps : List (Shell ℝ × Shell ℝ)) (hps : PairsOK ps) (mf : ℕ → ℝ) :
    ListFor sh.len sh.deriv (filledList sh realShOps scr big ps mf) (filledExps sh realShOps scr big ps mf).1
      (filledExps sh realShOps scr big ps mf).2 ps := by
  obtain ⟨p1, p2, p3, p4, p5, p6, -⟩ := C39_holds sh hl scr val hscr big ps hps mf
  refine ⟨p1, ⟨_, p2, p3, fun s hs => ?_⟩, p4, filled_tight sh hl realShOps scr big ps mf, p5, p6⟩
  rw [List.getD_eq_getElem _ _ hs]
  exact ⟨rfl, rfl, List.Perm.refl _⟩

/-- Calls with lists that are usable. -/
theorem call_integrals {g : GenCfg} (hg : g.OK) {final : QAM} (hf : ClassOK final) {len : ℕ} {der : Bool}
    (hl : 0 < len) {P Q : MSP ℝ} {aP bP aQ bQ : ℕ → ℝ} {psP psQ : List (Shell ℝ × Shell ℝ)}
    (okP : PairsOK psP) (okQ : PairsOK psQ)
    (hP : ListFor len der P aP bP psP) (hQ : ListFor len der Q aQ bQ psQ)
    (hbra : BatchesFull len psP) (tol : ℝ) (htol : tol ≤ 0) (outSize : ℕ)
    (hout : psP.length * psQ.length * ncartQ final ≤ outSize) (junk : VPar ℝ)
    (scratch : ℕ → ℕ → ℕ → VMem ℝ) (hmem : HMem ℝ) (out : ℕ → ℝ) :
    ∃ o, genFunction g realOps final ⟨len, P, Q, tol, outSize, junk, scratch⟩ hmem out
        = some (psP.length * psQ.length, o) ∧
      (∀ ab (hab : ab < psP.length) cd (hcd : cd < psQ.length) (x y z w : Exp),
        x.Valid → y.Valid → z.Valid → w.Valid →
        x.am = final.a → y.am = final.b → z.am = final.c → w.am = final.d →
        o ((ab * psQ.length + cd) * ncartQ final + Qrt.index psi4List ⟨⟨x, y⟩, ⟨z, w⟩, 0⟩) =
          shellERI psP[ab].1 psP[ab].2 psQ[cd].1 psQ[cd].2 x y z w) ∧
      ∀ k, psP.length * psQ.length * ncartQ final ≤ k → o k = out k := by
  obtain ⟨p1, ⟨S, p2, -, ps⟩, p4, p5, p6, p7⟩ := hP
  obtain ⟨q1, ⟨T, q2, -, qs⟩, q4, q5, q6, q7⟩ := hQ
  have hc : CallOK final ⟨len, P, Q, tol, outSize, junk, scratch⟩ :=
    ⟨hl, q4, p5, q6, p7, q7, by simp only; rw [p1, q1]; exact hout⟩
  have hfull := full_sums hbra (np := P.nprim12) fun s hs => by
    rw [p2.count s (p1 ▸ hs), (ps s hs).2.2.length_eq, storedPair_length]
  obtain ⟨o, r, h1, h2⟩ := C59_integrals hg hf hc htol (by simp only; rw [p1]; exact hfull) p2 q2 hmem out
  simp only [p1, q1] at r h1 h2
  refine ⟨o, r, ?_, h2⟩
  intro ab hab cd hcd x y z w vx vy vz vw ex ey ez ew
  obtain ⟨a1, a2, a3⟩ := okP _ (List.getElem_mem hab)
  obtain ⟨b1, b2, b3⟩ := okQ _ (List.getElem_mem hcd)
  rw [h1 ab hab cd hcd x y z w vx vy vz vw ex ey ez ew, contractedERI_same (ps ab hab) (qs cd hcd),
    C40_integrals a1 a2 a3 b1 b2 b3, contractedERI_full a1 a2 b1 b2]

/-- The same for derivative functions. -/
theorem call_derivatives {g : GenCfg} (hg : g.OK) {final : QAM} (hf : DerivClassOK final) {len : ℕ}
    (hl : 0 < len) {P Q : MSP ℝ} {aP bP aQ bQ : ℕ → ℝ} {psP psQ : List (Shell ℝ × Shell ℝ)}
    (okP : PairsOK psP) (okQ : PairsOK psQ)
    (hP : ListFor len true P aP bP psP) (hQ : ListFor len true Q aQ bQ psQ)
    (hbra : BatchesFull len psP) (tol : ℝ) (htol : tol ≤ 0) (outSize : ℕ)
    (hout : psP.length * psQ.length * (12 * ncartQ final) ≤ outSize) (junk : VPar ℝ)
    (scratch : ℕ → ℕ → ℕ → VMem ℝ) (hmem : HMem ℝ) (out : ℕ → ℝ) :
    ∃ o, derivFunction g realOps final ⟨⟨len, P, Q, tol, outSize, junk, scratch⟩, aP, bP, aQ, bQ⟩ hmem out
        = some (psP.length * psQ.length, o) ∧
      (∀ ab (hab : ab < psP.length) cd (hcd : cd < psQ.length) (x y z w : Exp),
        x.Valid → y.Valid → z.Valid → w.Valid →
        x.am = final.a → y.am = final.b → z.am = final.c → w.am = final.d → ∀ (t : RRType) (i : Dir),
        HasDerivAt (movedERI psP[ab].1 psP[ab].2 psQ[cd].1 psQ[cd].2 x y z w t i)
          (o ((ab * psQ.length + cd) * (12 * ncartQ final) +
            (12 * Qrt.index psi4List ⟨⟨x, y⟩, ⟨z, w⟩, 0⟩ + (3 * t.idx + i.idx))))
          (shellCenter psP[ab].1 psP[ab].2 psQ[cd].1 psQ[cd].2 t i)) ∧
      ∀ k, psP.length * psQ.length * (12 * ncartQ final) ≤ k → o k = out k := by
  obtain ⟨p1, ⟨S, p2, p3, ps⟩, p4, p5, p6, p7⟩ := hP
  obtain ⟨q1, ⟨T, q2, q3, qs⟩, q4, q5, q6, q7⟩ := hQ
  have hc : DerivCallOK final ⟨len, P, Q, tol, outSize, junk, scratch⟩ :=
    ⟨hl, q4, p5, q6, p7, q7, by simp only; rw [p1, q1]; exact hout⟩
  have hfull := full_sums hbra (np := P.nprim12) fun s hs => by
    rw [p2.count s (p1 ▸ hs), (ps s hs).2.2.length_eq, storedPair_length]
  obtain ⟨o, r, h1, h2⟩ := C61_gradient hg hf
    (c := ⟨⟨len, P, Q, tol, outSize, junk, scratch⟩, aP, bP, aQ, bQ⟩)
    hc htol (by simp only; rw [p1]; exact hfull) p2 q2 (p3 rfl) (q3 rfl) hmem out
  simp only [p1, q1] at r h1 h2
  refine ⟨o, r, ?_, h2⟩
  intro ab hab cd hcd x y z w vx vy vz vw ex ey ez ew t i
  have h := h1 ab hab cd hcd x y z w vx vy vz vw ex ey ez ew t i
  have e0 : (fun v => contractedERI (moveCenter (S ab) (T cd) t i v).1
        (moveCenter (S ab) (T cd) t i v).2 x y z w) = fun v => contractedERI
        (moveCenter (storedPair psP[ab].1 psP[ab].2) (storedPair psQ[cd].1 psQ[cd].2) t i v).1
        (moveCenter (storedPair psP[ab].1 psP[ab].2) (storedPair psQ[cd].1 psQ[cd].2) t i v).2 x y z w := by
    funext v
    have := moveCenter_same (ps ab hab) (qs cd hcd) t i v
    exact contractedERI_same this.1 this.2 _ _ _ _
  rw [e0, centerOf_same (ps ab hab) (qs cd hcd)] at h
  obtain ⟨a1, a2, a3⟩ := okP _ (List.getElem_mem hab)
  obtain ⟨b1, b2, b3⟩ := okQ _ (List.getElem_mem hcd)
  rw [C40_derivatives a1 a2 a3 b1 b2 b3 vx vy vz vw] at h
  have e : movedERI psP[ab].1 psP[ab].2 psQ[cd].1 psQ[cd].2 x y z w t i = fun v =>
      contractedERI (moveCenter (fullPair psP[ab].1 psP[ab].2) (fullPair psQ[cd].1 psQ[cd].2) t i v).1
      (moveCenter (fullPair psP[ab].1 psP[ab].2) (fullPair psQ[cd].1 psQ[cd].2) t i v).2 x y z w := by
    funext v
    exact (movedERI_full a1 a2 b1 b2 x y z w t i v).symm
  rw [e]
  cases t <;> exact h

/-! ### Complete fills -/

/-- Reordering the primitives of a usable list gives a usable list. -/
theorem ListFor.reorder {sh : ShCfg} {ns : List ℕ} {m m' : Arr → ℕ → ℝ} {alloc : ℕ} {smax : ℝ}
    {ps : List (Shell ℝ × Shell ℝ)}
    (h : ListFor sh.len sh.deriv (mspOf m alloc ns smax) (m .alpha2) (m .beta2) ps)
    (hr : Reordered sh ns.length (fun s => ns.getD s 0) (paddedStart sh.len fun s => ns.getD s 0) m m') :
    ListFor sh.len sh.deriv (mspOf m' alloc ns smax) (m' .alpha2) (m' .beta2) ps := by
  obtain ⟨h1, ⟨S, h2, h3, h4⟩, h5, h6, h7, h8⟩ := h
  choose! σ hσ using hr.perm
  have hcount : ∀ s < ns.length, ns.getD s 0 = (S s).prims.length := h2.count
  let S' : ℕ → ShellPair := fun s => ⟨(S s).A, (S s).B,
    List.ofFn fun k : Fin (ns.getD s 0) => (S s).prims.getD (σ s k) ⟨0, 1, 1, one_pos, one_pos⟩⟩
  have hlen : ∀ s, (S' s).prims.length = ns.getD s 0 := fun s => List.length_ofFn
  have hget : ∀ s (hs : s < ns.length) (k : ℕ) (hk : k < (S' s).prims.length),
      ∃ hk' : k < ns.getD s 0, ∃ hb : (σ s ⟨k, hk'⟩ : ℕ) < (S s).prims.length,
      (S' s).prims[k] = (S s).prims[(σ s ⟨k, hk'⟩ : ℕ)] := by
    intro s hs k hk
    have hk' : k < ns.getD s 0 := by rw [hlen] at hk; exact hk
    have hb : (σ s ⟨k, hk'⟩ : ℕ) < (S s).prims.length := by rw [← hcount s hs]; exact (σ s ⟨k, hk'⟩).2
    refine ⟨hk', hb, ?_⟩
    simp only [S', List.getElem_ofFn]
    exact List.getD_eq_getElem _ _ hb
  refine ⟨h1, ⟨S', ⟨?_, ?_, ?_⟩, ?_, ?_⟩, h5, h6, h7, ?_⟩
  · intro s hs
    exact (hlen s).symm
  · intro s hs d
    refine Eq.trans ?_ (h2.AB s hs d)
    exact hr.rest (.AB d) s fun hp => hp.elim
  · intro s hs k hk
    obtain ⟨hk', hb, e⟩ := hget s hs k hk
    have hp := h2.prims s hs _ hb
    rw [e]
    have mv : ∀ a, PerPrim sh a → m' a (paddedStart sh.len (fun s => ns.getD s 0) s + k) =
        m a (paddedStart sh.len (fun s => ns.getD s 0) s + σ s ⟨k, hk'⟩) :=
      fun a ha => hσ s hs a ha ⟨k, hk'⟩
    refine ⟨?_, fun d => ?_, fun d => ?_, fun d => ?_, ?_⟩
    · exact (mv .alpha trivial).trans hp.alpha
    · exact (mv (.pos d) trivial).trans (hp.pos d)
    · refine (mv (.PA d) trivial).trans ((hp.PA d).trans ?_)
      exact congrArg (· - _) (mv (.pos d) trivial).symm
    · refine (mv (.PB d) trivial).trans ((hp.PB d).trans ?_)
      exact congrArg (· - _) (mv (.pos d) trivial).symm
    · exact (mv .prefac trivial).trans hp.prefac
  · intro hd
    obtain ⟨ha, hb'⟩ := h3 hd
    constructor
    · intro s hs k hk
      obtain ⟨hk', hb, e⟩ := hget s hs k hk
      rw [e]
      exact (hσ s hs .alpha2 hd ⟨k, hk'⟩).trans (ha s hs _ hb)
    · intro s hs k hk
      obtain ⟨hk', hb, e⟩ := hget s hs k hk
      rw [e]
      exact (hσ s hs .beta2 hd ⟨k, hk'⟩).trans (hb' s hs _ hb)
  · intro s hs
    obtain ⟨e1, e2, p⟩ := h4 s hs
    refine ⟨e1, e2, List.Perm.trans ?_ p⟩
    have hs' : s < ns.length := by rw [← h1] at hs; exact hs
    have hc := hcount s hs'
    have := Equiv.Perm.ofFn_comp_perm (σ s) fun k : Fin (ns.getD s 0) =>
      (S s).prims.getD k ⟨0, 1, 1, one_pos, one_pos⟩
    refine List.Perm.trans this (List.Perm.of_eq ?_)
    refine List.ext_getElem (by rw [List.length_ofFn, hc]) fun k k1 k2 => ?_
    rw [List.getElem_ofFn]
    exact List.getD_eq_getElem _ _ k2
  · intro i hi
    by_cases hin : ∃ s < ns.length, paddedStart sh.len (fun s => ns.getD s 0) s ≤ i ∧
        i < paddedStart sh.len (fun s => ns.getD s 0) s + ns.getD s 0
    · obtain ⟨s, hs, l1, l2⟩ := hin
      obtain ⟨k, rfl⟩ := Nat.exists_eq_add_of_le l1
      have := hσ s hs .alpha trivial ⟨k, by omega⟩
      change 0 < m' .alpha _
      rw [this]
      have hb := lt_of_lt_of_eq (σ s ⟨k, by omega⟩).2 (hcount s hs)
      have ep := (h2.prims s hs _ hb).alpha
      change m .alpha _ = _ at ep
      refine lt_of_lt_of_eq ?_ ep.symm
      exact add_pos (PrimPair.hα _) (PrimPair.hβ _)
    · have := hr.rest .alpha i fun _ s hs hc => hin ⟨s, hs, hc⟩
      change 0 < m' .alpha i
      rw [this]
      exact h8 i hi

/-- **C41, complete fill.** A fill with screening, including the final sort, produces a list; its
arrays are those of the fill with the primitives of every pair reordered. -/
theorem C41_fill {F : Type} [Field F] [LinearOrder F] (sh : ShCfg) (hl : 0 < sh.len)
    (hs : sh.screening = true) (ops : ShOps F) (scr : PrimScreen F)
    (val : Shell F → Shell F → ℕ → ℕ → F) (hscr : ExactScr scr val) (big : F)
    (ps : List (Shell F × Shell F)) (hps : ∀ p ∈ ps, 0 < p.1.nprim ∧ 0 < p.2.nprim) (mf : ℕ → F) :
    ∃ m', completeFill sh ops scr big ps mf = some m' ∧
      Reordered sh ps.length (fun s => (fillPairs sh ops scr big ps).nprim12.getD s 0)
        (paddedStart sh.len fun s => (fillPairs sh ops scr big ps).nprim12.getD s 0)
        (bufView sh ps.length (allocPrims sh.len ps)
          (applyFlat sh ps.length (allocPrims sh.len ps) (fillPairs sh ops scr big ps).log mf)) m' := by
  obtain ⟨-, -, -, hn12, hsum⟩ := C37_fill_writes_allocation sh hl ops scr val (fun _ => hscr) big ps
  have hlen : (fillPairs sh ops scr big ps).nprim12.length = ps.length := by rw [hn12, List.length_map]
  have hpos : ∀ n ∈ (fillPairs sh ops scr big ps).nprim12, 0 < n := by
    rw [hn12]
    intro n hn
    obtain ⟨p, hp, rfl⟩ := List.mem_map.1 hn
    exact pairPrims_pos (hps p hp).1 (hps p hp).2
  obtain ⟨m', e, r⟩ := C41_sort sh hl hs _ hpos (bufView sh ps.length (allocPrims sh.len ps)
          (applyFlat sh ps.length (allocPrims sh.len ps) (fillPairs sh ops scr big ps).log mf))
  refine ⟨fun a i => m' a (i : ℤ), ?_, ?_⟩
  · unfold completeFill
    simp only
    rw [if_pos hs, hsum, ← hn12, e, Option.map_some]
  · rw [hlen] at r
    exact r

/-- A complete fill succeeds and gives a list that is usable for the given pairs. -/
theorem complete_listFor (sh : ShCfg) (hl : 0 < sh.len) (scr : PrimScreen ℝ)
    (val : Shell ℝ → Shell ℝ → ℕ → ℕ → ℝ) (hscr : sh.screening = true → ExactScr scr val) (big : ℝ)
    (ps : List (Shell ℝ × Shell ℝ)) (hps : PairsOK ps) (mf : ℕ → ℝ) :
    ∃ M, completeList sh realShOps scr big ps mf = some M ∧ ListFor sh.len sh.deriv M.1 M.2.1 M.2.2 ps := by
  have hf := filled_listFor sh hl scr val hscr big ps hps mf
  by_cases hs : sh.screening = true
  · obtain ⟨m', e, r⟩ := C41_fill sh hl hs realShOps scr val (hscr hs) big ps
      (fun p hp => ⟨(hps p hp).1.1, (hps p hp).2.1.1⟩) mf
    have hlen : (fillPairs sh realShOps scr big ps).nprim12.length = ps.length := hf.nclip
    refine ⟨(mspOf m' (allocPrims sh.len ps) (fillPairs sh realShOps scr big ps).nprim12
      (fillPairs sh realShOps scr big ps).screenMax, m' .alpha2, m' .beta2), ?_, ListFor.reorder hf ?_⟩
    swap
    · rw [hlen]; exact r
    unfold completeList
    rw [e, Option.map_some]
  · refine ⟨(filledList sh realShOps scr big ps mf, filledExps sh realShOps scr big ps mf), ?_, hf⟩
    unfold completeList completeFill
    simp only
    rw [if_neg hs, Option.map_some]
    rfl

/-- **C62, complete fills.** `C62_integrals` for lists made by complete fills, with or without
screening values and the sort by screening values. -/
theorem C62_complete {g : GenCfg} (hg : g.OK) {final : QAM} (hf : ClassOK final) (sh : ShCfg)
    (hl : 0 < sh.len) (scr : PrimScreen ℝ) (val : Shell ℝ → Shell ℝ → ℕ → ℕ → ℝ)
    (hscr : sh.screening = true → ExactScr scr val) (big : ℝ)
    (psP psQ : List (Shell ℝ × Shell ℝ)) (hP : PairsOK psP) (hQ : PairsOK psQ)
    (hbra : BatchesFull sh.len psP)
    (memP memQ : ℕ → ℝ) (tol : ℝ) (htol : tol ≤ 0) (outSize : ℕ)
    (hout : psP.length * psQ.length * ncartQ final ≤ outSize) (junk : VPar ℝ)
    (scratch : ℕ → ℕ → ℕ → VMem ℝ) (hmem : HMem ℝ) (out : ℕ → ℝ) :
    ∃ P Q o, completeList sh realShOps scr big psP memP = some P ∧
      completeList sh realShOps scr big psQ memQ = some Q ∧
      genFunction g realOps final ⟨sh.len, P.1, Q.1, tol, outSize, junk, scratch⟩ hmem out
        = some (psP.length * psQ.length, o) ∧
      (∀ ab (hab : ab < psP.length) cd (hcd : cd < psQ.length) (x y z w : Exp),
        x.Valid → y.Valid → z.Valid → w.Valid →
        x.am = final.a → y.am = final.b → z.am = final.c → w.am = final.d →
        o ((ab * psQ.length + cd) * ncartQ final + Qrt.index psi4List ⟨⟨x, y⟩, ⟨z, w⟩, 0⟩) =
          shellERI psP[ab].1 psP[ab].2 psQ[cd].1 psQ[cd].2 x y z w) ∧
      ∀ k, psP.length * psQ.length * ncartQ final ≤ k → o k = out k := by
  obtain ⟨P, eP, lP⟩ := complete_listFor sh hl scr val hscr big psP hP memP
  obtain ⟨Q, eQ, lQ⟩ := complete_listFor sh hl scr val hscr big psQ hQ memQ
  obtain ⟨o, h⟩ := call_integrals hg hf hl hP hQ lP lQ hbra tol htol outSize hout junk scratch hmem out
  exact ⟨P, Q, o, eP, eQ, h⟩

/-- **C62, complete fills, derivatives.** -/
theorem C62_complete_derivatives {g : GenCfg} (hg : g.OK) {final : QAM} (hf : DerivClassOK final)
    (sh : ShCfg) (hl : 0 < sh.len) (hder : sh.deriv = true) (scr : PrimScreen ℝ)
    (val : Shell ℝ → Shell ℝ → ℕ → ℕ → ℝ) (hscr : sh.screening = true → ExactScr scr val) (big : ℝ)
    (psP psQ : List (Shell ℝ × Shell ℝ)) (hP : PairsOK psP) (hQ : PairsOK psQ)
    (hbra : BatchesFull sh.len psP)
    (memP memQ : ℕ → ℝ) (tol : ℝ) (htol : tol ≤ 0) (outSize : ℕ)
    (hout : psP.length * psQ.length * (12 * ncartQ final) ≤ outSize) (junk : VPar ℝ)
    (scratch : ℕ → ℕ → ℕ → VMem ℝ) (hmem : HMem ℝ) (out : ℕ → ℝ) :
    ∃ P Q o, completeList sh realShOps scr big psP memP = some P ∧
      completeList sh realShOps scr big psQ memQ = some Q ∧
      derivFunction g realOps final ⟨⟨sh.len, P.1, Q.1, tol, outSize, junk, scratch⟩, P.2.1, P.2.2, Q.2.1,
        Q.2.2⟩ hmem out = some (psP.length * psQ.length, o) ∧
      (∀ ab (hab : ab < psP.length) cd (hcd : cd < psQ.length) (x y z w : Exp),
        x.Valid → y.Valid → z.Valid → w.Valid →
        x.am = final.a → y.am = final.b → z.am = final.c → w.am = final.d → ∀ (t : RRType) (i : Dir),
        HasDerivAt (movedERI psP[ab].1 psP[ab].2 psQ[cd].1 psQ[cd].2 x y z w t i)
          (o ((ab * psQ.length + cd) * (12 * ncartQ final) +
            (12 * Qrt.index psi4List ⟨⟨x, y⟩, ⟨z, w⟩, 0⟩ + (3 * t.idx + i.idx))))
          (shellCenter psP[ab].1 psP[ab].2 psQ[cd].1 psQ[cd].2 t i)) ∧
      ∀ k, psP.length * psQ.length * (12 * ncartQ final) ≤ k → o k = out k := by
  obtain ⟨P, eP, lP⟩ := complete_listFor sh hl scr val hscr big psP hP memP
  obtain ⟨Q, eQ, lQ⟩ := complete_listFor sh hl scr val hscr big psQ hQ memQ
  rw [hder] at lP lQ
  obtain ⟨o, h⟩ := call_derivatives hg hf hl hP hQ lP lQ hbra tol htol outSize hout junk scratch hmem out
  exact ⟨P, Q, o, eP, eQ, h⟩

/-- A sort that has to move something: three primitives in ascending order are reversed. -/
example : (sortPairs 2 false 3 [3] (fun a k => if a = .screen ∨ a = .alpha then (k : ℚ) else 0)).map
    (fun m => [m .screen 0, m .screen 1, m .screen 2, m .alpha 0, m .alpha 1, m .alpha 2, m .prefac 0]) =
    some [2, 1, 0, 2, 1, 0, 0] := by
  decide +kernel

end Simint
