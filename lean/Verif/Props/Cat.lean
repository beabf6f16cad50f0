import Verif.CatLemmas
import Verif.Spec.Cat
import Verif.Props.SortFill

/-!
# Property C42: concatenation of lists of shell pairs
-/

set_option autoImplicit false

namespace Simint

section
variable {F : Type} [Field F] [LinearOrder F]

/-- **C42, what `simint_cat_multi_shellpair` does.** For all inputs: the number of pairs and their
numbers of primitives are those of the inputs in order, the differences of centers are those of the
pairs, and the primitives of every pair are *the first primitives of the input list* (equal to the
primitives of the pair only for the first pair of a list); `nprim` is increased by the total;
`screen_max` bounds the `screen_max` of every input with primitives; padding elements have prefactor 0
and exponent 1; the screening value of padding elements is not written. -/
theorem C42_multi_actual (g : ShCfg) (hl : 0 < g.len) (old : ℕ) (ins : List (PairList F)) (mf : ℕ → F) :
    let st := catMulti g old ins
    let n := catMultiAlloc g.len ins
    let m := catArrays g (pairsIn ins).length n st mf
    let start := paddedStart g.len fun s => st.nprim12.getD s 0
    st.nprim12 = ins.flatMap PairList.nprim12 ∧ st.nprim = old + (ins.map PairList.nprim).sum ∧
    (∀ s (hs : s < (pairsIn ins).length),
      (∀ a, PerPrim g a → ∀ k < (pairsIn ins)[s].1.nprim12.getD (pairsIn ins)[s].2 0,
        m a (start s + k) = (pairsIn ins)[s].1.arr a k) ∧
      ∀ d, m (.AB d) s = (pairsIn ins)[s].1.arr (.AB d) (pairsIn ins)[s].2) ∧
    (∀ P ∈ ins, (∃ c ∈ P.nprim12, 0 < c) → P.screenMax ≤ st.screenMax) ∧
    ∀ i < n, (∀ s < (pairsIn ins).length, ¬ (start s ≤ i ∧ i < start s + st.nprim12.getD s 0)) →
      m .prefac i = 0 ∧ m .alpha i = 1 ∧ ∀ v, (Arr.screen, i, v) ∉ st.log := by
  intro st n m start
  obtain ⟨⟨-, -, e3, e4, e5⟩, en⟩ := catMulti_eq g old ins
  have hj : jobsOf ins = pairsIn ins := rfl
  rw [hj] at e3 e4 e5
  have hcnt : jobCounts (pairsIn ins) = ins.flatMap PairList.nprim12 := jobsOf_counts ins
  obtain ⟨-, -, i3, -⟩ := cat_inv g hl false old (pairsIn ins) (pairsIn ins).length le_rfl
  have hlen : (jobCounts (pairsIn ins)).length = (pairsIn ins).length := by simp [jobCounts]
  rw [← hlen, List.take_length, hlen] at i3
  have hn12 : st.nprim12 = jobCounts (pairsIn ins) := e4.trans i3
  have hstart : start = paddedStart g.len (npOf (jobCounts (pairsIn ins))) := by
    simp only [start]; rw [hn12]; rfl
  have hn : n = countPrims g.len (jobCounts (pairsIn ins)) := by
    simp only [n, catMultiAlloc]; rw [hcnt]
  obtain ⟨c1, c2⟩ := cat_contents g hl false old (pairsIn ins) mf
  rw [← hn, ← e3] at c1 c2
  refine ⟨hn12.trans hcnt, en, ?_, ?_, ?_⟩
  · intro s hs
    obtain ⟨d1, d2⟩ := c1 s hs
    rw [hstart]
    exact ⟨d1, d2⟩
  · rintro P hP ⟨c, hc, hpos⟩
    obtain ⟨j, hj, rfl⟩ := List.getElem_of_mem hc
    have hmem : (P, j) ∈ pairsIn ins :=
      List.mem_flatMap.2 ⟨P, hP, List.mem_map.2 ⟨j, List.mem_range.2 hj, rfl⟩⟩
    have := (cat_screenMax g false old (pairsIn ins) (pairsIn ins).length le_rfl).1 (P, j)
      (by rw [List.take_length]; exact hmem)
      (Or.inr (by unfold Job.count; rw [List.getD_eq_getElem _ _ hj]; exact hpos))
    rw [← e5] at this
    exact this
  · intro i hi hno
    have h := c2 i hi fun s hs hc => hno s hs (by rw [hstart, hn12]; exact hc)
    refine ⟨h.1 .prefac trivial (by decide), h.1 .alpha trivial (by decide), h.2⟩

/-- **C42, lists with one pair each.** Concatenating lists of one pair with
`simint_cat_multi_shellpair` gives a list whose pairs have the data of the input pairs.  Missing from
the full statement: lists with several pairs (`C42_multi_wrong`), and `nprim` is the total only if it
was 0 before (it is not initialised). -/
theorem C42_multi_partial (g : ShCfg) (hl : 0 < g.len) (old : ℕ) (ins : List (PairList F))
    (h1 : ∀ P ∈ ins, P.nprim12.length = 1) (mf : ℕ → F) :
    let st := catMulti g old ins
    let n := catMultiAlloc g.len ins
    let m := catArrays g (pairsIn ins).length n st mf
    let start := paddedStart g.len fun s => st.nprim12.getD s 0
    st.nprim12 = ins.flatMap PairList.nprim12 ∧ st.nprim = old + (ins.map PairList.nprim).sum ∧
    ∀ s (hs : s < (pairsIn ins).length),
      PairCopied g m (start s) s (pairsIn ins)[s].1 (pairsIn ins)[s].2 := by
  intro st n m start
  obtain ⟨a1, a2, a3, -⟩ := C42_multi_actual g hl old ins mf
  refine ⟨a1, a2, fun s hs => ?_⟩
  obtain ⟨d1, d2⟩ := a3 s hs
  refine ⟨fun a ha k hk => ?_, d2⟩
  have h0 : (pairsIn ins)[s].2 = 0 := by
    obtain ⟨P, hP, h⟩ := List.mem_flatMap.1 (List.getElem_mem hs)
    obtain ⟨j, hj, e⟩ := List.mem_map.1 h
    rw [← e]
    have := List.mem_range.1 hj
    rw [h1 P hP] at this
    simp only
    omega
  refine (d1 a ha k hk).trans ?_
  rw [h0]
  simp [paddedStart]

/-- One list with two pairs of one primitive each. -/
def twoPairs : PairList ℚ := ⟨fun _ i => i, [1, 1], 2, 0⟩

/-- **C42 is false for lists with several pairs.** The second pair of the result has the primitive of
the first pair of the input. -/
theorem C42_multi_wrong :
    let st := catMulti ⟨1, false, false⟩ 0 [twoPairs]
    let m := applyStores st.log (fun _ _ => 0)
    m .alpha 1 = twoPairs.arr .alpha 0 ∧ m .alpha 1 ≠ twoPairs.arr .alpha 1 := by
  decide +kernel

/-- The same in the buffer as it is laid out, for any contents before the call: the data of the
second pair are not those of the input. -/
theorem C42_multi_negation : ¬ ∀ (g : ShCfg) (_ : 0 < g.len) (old : ℕ) (ins : List (PairList ℚ)) (mf : ℕ → ℚ),
    ∀ s (hs : s < (pairsIn ins).length),
      PairCopied g (catArrays g (pairsIn ins).length (catMultiAlloc g.len ins) (catMulti g old ins) mf)
        (paddedStart g.len (fun s => (catMulti g old ins).nprim12.getD s 0) s) s
        (pairsIn ins)[s].1 (pairsIn ins)[s].2 := by
  intro h
  have h1 := (h ⟨1, false, false⟩ (by decide) 0 [twoPairs] (fun _ => 0) 1 (by decide)).1 .alpha trivial 0
    (by decide)
  obtain ⟨-, -, a3, -⟩ := C42_multi_actual (F := ℚ) ⟨1, false, false⟩ (by decide) 0 [twoPairs] (fun _ => 0)
  have h2 := (a3 1 (by decide)).1 .alpha trivial 0 (by decide)
  rw [h1] at h2
  revert h2
  decide +kernel

/-- **C42, `simint_cat_shellpairs`.** For lists of one pair (the documented use) and all other inputs
likewise restricted to their first pair: pairs, numbers of primitives and data are those of the inputs,
in order; `screen_max` bounds those of the inputs; padding as above.  `nprim` is the total plus
whatever it was before the call. -/
theorem C42_shellpairs_partial (g : ShCfg) (hl : 0 < g.len) (old : ℕ) (ins : List (PairList F)) (mf : ℕ → F) :
    let st := catSingle g old ins
    let n := catSingleAlloc g.len ins
    let m := catArrays g ins.length n st mf
    let start := paddedStart g.len fun s => st.nprim12.getD s 0
    st.nprim12 = ins.map (fun P => P.nprim12.getD 0 0) ∧
    n = countPrims g.len st.nprim12 ∧
    st.nprim = old + (ins.map PairList.nprim).sum ∧
    (∀ s (hs : s < ins.length), PairCopied g m (start s) s ins[s] 0) ∧
    (∀ P ∈ ins, P.screenMax ≤ st.screenMax) ∧
    ∀ i < n, (∀ s < ins.length, ¬ (start s ≤ i ∧ i < start s + st.nprim12.getD s 0)) →
      m .prefac i = 0 ∧ m .alpha i = 1 ∧ ∀ v, (Arr.screen, i, v) ∉ st.log := by
  intro st n m start
  obtain ⟨⟨-, -, e3, e4, e5⟩, en⟩ := catSingle_eq g old ins
  have hl1 : (ins.map fun P => ((P, 0) : Job F)).length = ins.length := by simp
  have hcnt : jobCounts (ins.map fun P => ((P, 0) : Job F)) = ins.map fun P => P.nprim12.getD 0 0 := by
    unfold jobCounts; rw [List.map_map]; rfl
  obtain ⟨-, -, i3, -⟩ := cat_inv g hl true old (ins.map fun P => ((P, 0) : Job F)) _ le_rfl
  have hlen : (jobCounts (ins.map fun P => ((P, 0) : Job F))).length =
      (ins.map fun P => ((P, 0) : Job F)).length := by simp [jobCounts]
  rw [← hlen, List.take_length, hlen, hl1] at i3
  have hn12 : st.nprim12 = jobCounts (ins.map fun P => ((P, 0) : Job F)) := e4.trans i3
  have hstart : start = paddedStart g.len (npOf (jobCounts (ins.map fun P => ((P, 0) : Job F)))) := by
    simp only [start]; rw [hn12]; rfl
  have hn : n = countPrims g.len (jobCounts (ins.map fun P => ((P, 0) : Job F))) := catSingleAlloc_eq hl ins
  obtain ⟨c1, c2⟩ := cat_contents g hl true old (ins.map fun P => ((P, 0) : Job F)) mf
  have hlog : catArrays g ins.length n st mf = bufView g (ins.map fun P => ((P, 0) : Job F)).length
      (countPrims g.len (jobCounts (ins.map fun P => ((P, 0) : Job F))))
      (applyFlat g (ins.map fun P => ((P, 0) : Job F)).length
        (countPrims g.len (jobCounts (ins.map fun P => ((P, 0) : Job F))))
        (catJobs g true old (ins.map fun P => ((P, 0) : Job F)) (ins.map fun P => ((P, 0) : Job F)).length).log
        mf) := by
    unfold catArrays
    rw [hl1, hn, ← e3]
  simp only [← hlog] at c1 c2
  refine ⟨hn12.trans hcnt, by rw [hn12]; exact hn, en, ?_, ?_, ?_⟩
  · intro s hs
    obtain ⟨d1, d2⟩ := c1 s (by omega)
    simp only [List.getElem_map] at d1 d2
    rw [hstart]
    refine ⟨fun a ha k hk => ?_, d2⟩
    refine (d1 a ha k hk).trans ?_
    simp [paddedStart]
  · intro P hP
    have := (cat_screenMax g true old (ins.map fun P => ((P, 0) : Job F)) _ le_rfl).1 (P, 0)
      (by rw [List.take_length]; exact List.mem_map.2 ⟨P, hP, rfl⟩) (Or.inl rfl)
    rw [hl1, ← e5] at this
    exact this
  · intro i hi hno
    have h := c2 i (by rw [← hn]; exact hi) fun s hs hc =>
      hno s (by omega) (by rw [hstart, hn12]; exact hc)
    refine ⟨h.1 .prefac trivial (by decide), h.1 .alpha trivial (by decide), fun v => ?_⟩
    have := h.2 v
    rw [hl1, ← e3] at this
    exact this

end

/-- The structure passed to the integral functions. -/
def PairList.msp {F : Type} [Zero F] (P : PairList F) (alloc : ℕ) : MSP F :=
  mspOf P.arr alloc P.nprim12 P.screenMax

/-- **C42, integrals.** Concatenating usable lists of one pair each with `simint_cat_shellpairs` gives a
list that is usable for all the pairs; so the integral functions return the integrals over the shells
of the inputs. -/
theorem C42_listFor (sh : ShCfg) (hl : 0 < sh.len) (old : ℕ) (ins : List (PairList ℝ)) (alloc : ℕ → ℕ)
    (ps : List (Shell ℝ × Shell ℝ)) (hlen : ins.length = ps.length)
    (h : ∀ s (h1 : s < ins.length) (h2 : s < ps.length), ListFor sh.len sh.deriv (ins[s].msp (alloc s))
      (ins[s].arr .alpha2) (ins[s].arr .beta2) [ps[s]]) (mf : ℕ → ℝ) :
    let st := catSingle sh old ins
    let n := catSingleAlloc sh.len ins
    let m := catArrays sh ins.length n st mf
    ListFor sh.len sh.deriv (mspOf m n st.nprim12 st.screenMax) (m .alpha2) (m .beta2) ps := by
  intro st n m
  obtain ⟨a1, a2, -, a4, -, a6⟩ := C42_shellpairs_partial sh hl old ins mf
  have hl12 : st.nprim12.length = ins.length := by rw [a1, List.length_map]
  have hnp : ∀ s (hs : s < ins.length), st.nprim12.getD s 0 = ins[s].nprim12.getD 0 0 := by
    intro s hs
    rw [a1, List.getD_eq_getElem _ _ (by simpa using hs), List.getElem_map]
  have h1 : ∀ s (h1 : s < ins.length), (ins[s].msp (alloc s)).nclip = 1 := fun s h1 =>
    (h s h1 (by omega)).nclip
  haveI : Nonempty (ℕ → ShellPair) := ⟨fun _ => ⟨0, 0, []⟩⟩
  choose! S hS using fun s (h1 : s < ins.length) => (h s h1 (by omega)).holds
  have hcount : ∀ s (hs : s < ins.length), ins[s].nprim12.getD 0 0 = (S s 0).prims.length := fun s hs =>
    (hS s hs).1.count 0 (by rw [h1 s hs]; exact one_pos)
  have hcopy : ∀ s (hs : s < ins.length) a, PerPrim sh a → ∀ k < ins[s].nprim12.getD 0 0,
      m a (paddedStart sh.len (fun s => st.nprim12.getD s 0) s + k) = ins[s].arr a k := by
    intro s hs a ha k hk
    have := (a4 s hs).1 a ha k hk
    simpa [paddedStart] using this
  have hal : n = fillIdx sh.len st.nprim12 ins.length := by
    rw [← hl12]
    exact a2.trans (countPrims_eq hl _)
  have hpad : ∀ s < ins.length, simdRound sh.len (paddedStart sh.len (fun s => st.nprim12.getD s 0) s +
      st.nprim12.getD s 0) ≤ n := by
    intro s hs
    have hst : fillIdx sh.len st.nprim12 s = paddedStart sh.len (fun s => st.nprim12.getD s 0) s :=
      fillIdx_eq_padded (by omega)
    have hd : sh.len ∣ fillIdx sh.len st.nprim12 ins.length := by
      unfold fillIdx
      rw [if_pos hl12.symm]
      exact simdRound_dvd _ _
    rw [hal, ← hst]
    refine simdRound_le_of_dvd hl hd ?_
    exact (fillIdx_mono hl _ (by omega)).trans (fillIdx_le hl _ (by omega) (by omega))
  refine ⟨by change st.nprim12.length = _; omega, ⟨fun s => S s 0, ⟨?_, ?_, ?_⟩, ?_, ?_⟩, ?_, ?_, ?_, ?_⟩
  · intro s hs
    have hs' : s < ins.length := by rw [← hl12]; exact hs
    exact (hnp s hs').trans (hcount s hs')
  · intro s hs d
    have hs' : s < ins.length := by rw [← hl12]; exact hs
    exact ((a4 s hs').2 d).trans ((hS s hs').1.AB 0 (by rw [h1 s hs']; exact one_pos) d)
  · intro s hs k hk
    have hs' : s < ins.length := by rw [← hl12]; exact hs
    have hp := (hS s hs').1.prims 0 (by rw [h1 s hs']; exact one_pos) k hk
    have hk' : k < ins[s].nprim12.getD 0 0 := by rw [hcount s hs']; exact hk
    have cp := fun a ha => hcopy s hs' a ha k hk'
    have z : paddedStart sh.len (ins[s].msp (alloc s)).nprim12 0 + k = k := by simp [paddedStart]
    rw [z] at hp
    refine ⟨?_, fun d => ?_, fun d => ?_, fun d => ?_, ?_⟩
    · exact (cp .alpha trivial).trans hp.alpha
    · exact (cp (.pos d) trivial).trans (hp.pos d)
    · refine (cp (.PA d) trivial).trans ((hp.PA d).trans ?_)
      exact congrArg (· - _) (cp (.pos d) trivial).symm
    · refine (cp (.PB d) trivial).trans ((hp.PB d).trans ?_)
      exact congrArg (· - _) (cp (.pos d) trivial).symm
    · exact (cp .prefac trivial).trans hp.prefac
  · intro hd
    constructor
    · intro s hs k hk
      have hs' : s < ins.length := by rw [← hl12]; exact hs
      have hk' : k < ins[s].nprim12.getD 0 0 := by rw [hcount s hs']; exact hk
      have hp := ((hS s hs').2.1 hd).a 0 (by rw [h1 s hs']; exact one_pos) k hk
      have z : paddedStart sh.len (ins[s].msp (alloc s)).nprim12 0 + k = k := by simp [paddedStart]
      rw [z] at hp
      exact (hcopy s hs' .alpha2 hd k hk').trans hp
    · intro s hs k hk
      have hs' : s < ins.length := by rw [← hl12]; exact hs
      have hk' : k < ins[s].nprim12.getD 0 0 := by rw [hcount s hs']; exact hk
      have hp := ((hS s hs').2.1 hd).b 0 (by rw [h1 s hs']; exact one_pos) k hk
      have z : paddedStart sh.len (ins[s].msp (alloc s)).nprim12 0 + k = k := by simp [paddedStart]
      rw [z] at hp
      exact (hcopy s hs' .beta2 hd k hk').trans hp
  · intro s hs
    exact (hS s (by omega)).2.2 0 one_pos
  · intro s hs
    have hs' : s < ins.length := by rw [← hl12]; exact hs
    change 0 < st.nprim12.getD s 0
    rw [hnp s hs']
    exact (h s hs' (by omega)).count 0 (by rw [h1 s hs']; exact one_pos)
  · change tightStart (npOf st.nprim12) st.nprim12.length ≤ n
    rw [hal, hl12]
    exact tightStart_le_fillIdx hl _ (by omega)
  · intro s hs
    exact hpad s (by rw [← hl12]; exact hs)
  · intro i hi
    by_cases hin : ∃ s < ins.length, paddedStart sh.len (fun s => st.nprim12.getD s 0) s ≤ i ∧
        i < paddedStart sh.len (fun s => st.nprim12.getD s 0) s + st.nprim12.getD s 0
    · obtain ⟨s, hs, l1, l2⟩ := hin
      obtain ⟨k, rfl⟩ := Nat.exists_eq_add_of_le l1
      rw [hnp s hs] at l2
      have hk : k < ins[s].nprim12.getD 0 0 := by omega
      change 0 < m .alpha _
      rw [hcopy s hs .alpha trivial k hk]
      have hp := (hS s hs).1.prims 0 (by rw [h1 s hs]; exact one_pos) k (by rw [← hcount s hs]; exact hk)
      have z : paddedStart sh.len (ins[s].msp (alloc s)).nprim12 0 + k = k := by simp [paddedStart]
      rw [z] at hp
      have e := hp.alpha
      change ins[s].arr .alpha k = _ at e
      rw [e]
      exact add_pos (PrimPair.hα _) (PrimPair.hβ _)
    · have : m .alpha i = 1 := (a6 i hi fun s hs hc => hin ⟨s, hs, hc⟩).2.1
      change 0 < m .alpha i
      rw [this]
      exact one_pos

/-- Non-trivial case: two lists of one pair with two primitives each (vector length 2, so no padding
inside the batch); the second pair starts at element 2 and holds the primitives of the second list. -/
example :
    let P : PairList ℚ := ⟨fun _ i => i + 1, [2], 2, 5⟩
    let Q : PairList ℚ := ⟨fun _ i => i + 10, [3], 3, 7⟩
    let st := catSingle ⟨2, true, false⟩ 0 [P, Q]
    let m := applyStores st.log (fun _ _ => -1)
    [m .alpha 0, m .alpha 1, m .alpha 2, m .alpha 3, m .alpha 4, m .alpha 5, m .screen 4, m .screen 5] =
      [1, 2, 10, 11, 12, 1, 12, -1] ∧ st.nprim12 = [2, 3] ∧ st.nprim = 5 ∧ st.screenMax = 7 ∧
      catSingleAlloc 2 [P, Q] = 6 := by
  decide +kernel

end Simint
