import Verif.Props.SchwarzFill

/-!
# Screening values in filled lists

Which screening value a filled and sorted list holds for which pair of primitives.
-/

set_option autoImplicit false

namespace Simint

/-- The stored combination for primitives `p.1`, `p.2`. -/
noncomputable def storedPrim (A B : Shell ℝ) (p : ℕ × ℕ) : PrimPair :=
  if sameShell A B && decide (p.1 ≠ p.2) then
    primPair (2 * (A.coef p.1 * B.coef p.2)) ((A.alpha p.1 + B.alpha p.2) / 2)
      ((A.alpha p.1 + B.alpha p.2) / 2)
  else primPair (A.coef p.1 * B.coef p.2) (A.alpha p.1) (B.alpha p.2)

theorem storedPrims_map (A B : Shell ℝ) : storedPrims A B = (primOrder A B).map (storedPrim A B) := rfl

/-- The stored combinations of a pair in the order `ord`. -/
noncomputable def pairIn (ps : List (Shell ℝ × Shell ℝ)) (ord : ℕ → List (ℕ × ℕ)) (s : ℕ) : ShellPair :=
  ⟨(ps.getD s default).1.pos, (ps.getD s default).2.pos,
    (ord s).map (storedPrim (ps.getD s default).1 (ps.getD s default).2)⟩

/-- The list holds the combinations of every pair in some order, together with their screening
values. -/
def ListScr (len : ℕ) (M : MSP ℝ) (ps : List (Shell ℝ × Shell ℝ))
    (val : Shell ℝ → Shell ℝ → ℕ → ℕ → ℝ) : Prop :=
  ∃ ord : ℕ → List (ℕ × ℕ),
    (∀ s < ps.length, (ord s).Perm (primOrder (ps.getD s default).1 (ps.getD s default).2)) ∧
    Holds M (paddedStart len M.nprim12) (pairIn ps ord) ∧
    ∀ s < ps.length, ∀ k (hk : k < (ord s).length), M.screen (paddedStart len M.nprim12 s + k) =
      val (ps.getD s default).1 (ps.getD s default).2 (ord s)[k].1 (ord s)[k].2

theorem filled_listScr (sh : ShCfg) (hl : 0 < sh.len) (hsc : sh.screening = true) (scr : PrimScreen ℝ)
    (val : Shell ℝ → Shell ℝ → ℕ → ℕ → ℝ) (hscr : ExactScr scr val) (big : ℝ)
    (ps : List (Shell ℝ × Shell ℝ)) (hps : PairsOK ps) (mf : ℕ → ℝ) :
    ListScr sh.len (filledList sh realShOps scr big ps mf) ps val := by
  obtain ⟨-, p2, -⟩ := C39_holds sh hl scr val (fun _ => hscr) big ps hps mf
  obtain ⟨h1, -⟩ := layout_aux sh hl realShOps scr val (fun _ => hscr) big ps mf
  refine ⟨fun s => primOrder (ps.getD s default).1 (ps.getD s default).2, fun s hs => List.Perm.refl _, p2, ?_⟩
  intro s hs k hk
  have e : ps.getD s default = ps[s] := List.getD_eq_getElem _ _ hs
  have hk' : k < (primOrder ps[s].1 ps[s].2).length := by rw [← e]; exact hk
  have := ((h1 s hs).1.2 k hk').2 hsc
  simp only [e]
  exact this

theorem ListScr.reorder {sh : ShCfg} (hsc : sh.screening = true) {ns : List ℕ} {m m' : Arr → ℕ → ℝ} {alloc : ℕ} {smax : ℝ}
    {ps : List (Shell ℝ × Shell ℝ)} {val : Shell ℝ → Shell ℝ → ℕ → ℕ → ℝ} (hlen : ns.length = ps.length)
    (h : ListScr sh.len (mspOf m alloc ns smax) ps val)
    (hr : Reordered sh ns.length (fun s => ns.getD s 0) (paddedStart sh.len fun s => ns.getD s 0) m m') :
    ListScr sh.len (mspOf m' alloc ns smax) ps val := by
  obtain ⟨ord, h1, h2, h3⟩ := h
  choose! σ hσ using hr.perm
  have hcount : ∀ s < ns.length, ns.getD s 0 = (ord s).length := fun s hs => by
    have := h2.count s hs
    simp only [pairIn, List.length_map] at this
    exact this
  let ord' : ℕ → List (ℕ × ℕ) := fun s =>
    List.ofFn fun k : Fin (ns.getD s 0) => (ord s).getD (σ s k) default
  have hget : ∀ s (_ : s < ns.length) (k : ℕ) (hk : k < (ord' s).length),
      ∃ hk' : k < ns.getD s 0, ∃ hb : (σ s ⟨k, hk'⟩ : ℕ) < (ord s).length,
      (ord' s)[k] = (ord s)[(σ s ⟨k, hk'⟩ : ℕ)] := by
    intro s hs k hk
    have hk' : k < ns.getD s 0 := by rw [List.length_ofFn] at hk; exact hk
    have hb : (σ s ⟨k, hk'⟩ : ℕ) < (ord s).length := by rw [← hcount s hs]; exact (σ s ⟨k, hk'⟩).2
    refine ⟨hk', hb, ?_⟩
    simp only [ord', List.getElem_ofFn]
    exact List.getD_eq_getElem _ _ hb
  refine ⟨ord', ?_, ⟨?_, ?_, ?_⟩, ?_⟩
  · intro s hs
    refine List.Perm.trans ?_ (h1 s hs)
    have hc := hcount s (by omega)
    have := Equiv.Perm.ofFn_comp_perm (σ s) fun k : Fin (ns.getD s 0) => (ord s).getD k default
    refine List.Perm.trans this (List.Perm.of_eq ?_)
    refine List.ext_getElem (by rw [List.length_ofFn, hc]) fun k k1 k2 => ?_
    rw [List.getElem_ofFn]
    exact List.getD_eq_getElem _ _ k2
  · intro s hs
    simp only [pairIn, List.length_map]
    exact List.length_ofFn.symm
  · intro s hs d
    refine Eq.trans ?_ (h2.AB s hs d)
    exact hr.rest (.AB d) s fun hp => hp.elim
  · intro s hs k hk
    have hk0 : k < (ord' s).length := by simpa [pairIn] using hk
    obtain ⟨hk', hb, e⟩ := hget s hs k hk0
    have hp := h2.prims s hs (σ s ⟨k, hk'⟩) (by simpa [pairIn] using hb)
    have ee : (pairIn ps ord' s).prims[k] =
        (pairIn ps ord s).prims[(σ s ⟨k, hk'⟩ : ℕ)]'(by simpa [pairIn] using hb) := by
      simp only [pairIn, List.getElem_map]
      rw [e]
    rw [ee]
    have mv : ∀ a, PerPrim sh a → m' a (paddedStart sh.len (fun s => ns.getD s 0) s + k) =
        m a (paddedStart sh.len (fun s => ns.getD s 0) s + σ s ⟨k, hk'⟩) :=
      fun a ha => hσ s hs a ha ⟨k, hk'⟩
    refine ⟨?_, fun d => ?_, fun d => ?_, fun d => ?_, ?_⟩
    · exact (mv .alpha trivial).trans hp.alpha
    · exact (mv (.pos d) trivial).trans (hp.pos d)
    · refine (mv (.PA d) trivial).trans ((hp.PA d).trans ?_)
      exact congrArg (· - _) (mv (.pos d) trivial).symm
    · refine (mv (.PB d) trivial).trans ((hp.PB d).trans ?_)
      exact congrArg (· - _) (mv (.pos d) trivial).symm
    · exact (mv .prefac trivial).trans hp.prefac
  · intro s hs k hk
    obtain ⟨hk', hb, e⟩ := hget s (by omega) k hk
    rw [e]
    exact (hσ s (by omega) .screen hsc ⟨k, hk'⟩).trans (h3 s hs _ hb)

/-- The same for complete fills. -/
theorem complete_listScr (sh : ShCfg) (hl : 0 < sh.len) (hsc : sh.screening = true) (scr : PrimScreen ℝ)
    (val : Shell ℝ → Shell ℝ → ℕ → ℕ → ℝ) (hscr : ExactScr scr val) (big : ℝ)
    (ps : List (Shell ℝ × Shell ℝ)) (hps : PairsOK ps) (mf : ℕ → ℝ) :
    ∃ M, completeList sh realShOps scr big ps mf = some M ∧
      ListFor sh.len sh.deriv M.1 M.2.1 M.2.2 ps ∧ ListScr sh.len M.1 ps val ∧
      M.1.screenMax = (fillPairs sh realShOps scr big ps).screenMax := by
  have hf := filled_listFor sh hl scr val (fun _ => hscr) big ps hps mf
  have hg := filled_listScr sh hl hsc scr val hscr big ps hps mf
  obtain ⟨m', e, r⟩ := C41_fill sh hl hsc realShOps scr val hscr big ps
      (fun p hp => ⟨(hps p hp).1.1, (hps p hp).2.1.1⟩) mf
  have hlen : (fillPairs sh realShOps scr big ps).nprim12.length = ps.length := hf.nclip
  refine ⟨(mspOf m' (allocPrims sh.len ps) (fillPairs sh realShOps scr big ps).nprim12
      (fillPairs sh realShOps scr big ps).screenMax, m' .alpha2, m' .beta2), ?_, ListFor.reorder hf ?_,
      ListScr.reorder hsc hlen hg ?_, rfl⟩
  · unfold completeList
    rw [e, Option.map_some]
  · rw [hlen]; exact r
  · rw [hlen]; exact r

end Simint
