import Verif.Props.Shell
import Verif.Props.Function
import Verif.Props.Deriv
import Verif.Spec.ShellPairs
import Verif.BatchLemmas

/-!
# Properties C39, C40, C62: contents of filled lists, and integrals over shells
-/

set_option autoImplicit false

open Finset Real

namespace Simint

section
variable {F : Type} [Field F] [LinearOrder F]

/-! ### C39 -/

theorem primOrder_nodup (A B : Shell F) : (primOrder A B).Nodup := by
  unfold primOrder
  rw [List.nodup_flatMap]
  refine ⟨fun i _ => List.nodup_range.map fun a b h => by simpa using h, ?_⟩
  refine List.nodup_range.imp_of_mem ?_
  intro i j _ _ hij
  rw [Function.onFun, List.disjoint_left]
  intro p h1 h2
  obtain ⟨a, -, rfl⟩ := List.mem_map.1 h1
  obtain ⟨b, -, h⟩ := List.mem_map.1 h2
  simp only [Prod.mk.injEq] at h
  exact hij h.1.symm

theorem mem_primOrder (A B : Shell F) (i j : ℕ) :
    (i, j) ∈ primOrder A B ↔ i < A.nprim ∧ j < B.nprim ∧ (sameShell A B = true → j ≤ i) := by
  unfold primOrder
  rw [List.mem_flatMap]
  constructor
  · rintro ⟨a, ha, h⟩
    obtain ⟨b, hb, e⟩ := List.mem_map.1 h
    simp only [Prod.mk.injEq] at e
    obtain ⟨rfl, rfl⟩ := e
    rw [List.mem_range] at ha hb
    by_cases hs : sameShell A B = true
    · rw [if_pos hs] at hb
      have : A.nprim = B.nprim := by
        unfold sameShell at hs; simp only [Bool.and_eq_true, decide_eq_true_eq] at hs; exact hs.1
      exact ⟨ha, by omega, fun _ => by omega⟩
    · rw [if_neg hs] at hb
      exact ⟨ha, hb, fun h => absurd h hs⟩
  · rintro ⟨h1, h2, h3⟩
    refine ⟨i, List.mem_range.2 h1, List.mem_map.2 ⟨j, List.mem_range.2 ?_, rfl⟩⟩
    by_cases hs : sameShell A B = true
    · rw [if_pos hs]; have := h3 hs; omega
    · rw [if_neg hs]; exact h2

/-- Contents of the arrays after a fill: an element named in the log. -/
theorem bufView_fill (g : ShCfg) (hl : 0 < g.len) (ops : ShOps F) (scr : PrimScreen F)
    (val : Shell F → Shell F → ℕ → ℕ → F) (hscr : g.screening = true → ExactScr scr val) (big : F)
    (ps : List (Shell F × Shell F)) (mf : ℕ → F) {a : Arr} {i : ℕ} {v : F}
    (h : (a, i, v) ∈ (fillPairs g ops scr big ps).log) :
    bufView g ps.length (allocPrims g.len ps) (applyFlat g ps.length (allocPrims g.len ps)
      (fillPairs g ops scr big ps).log mf) a i = v := by
  obtain ⟨-, k, h1, h2⟩ := fill_elem g hl ops scr val hscr big ps (fun _ _ => 0) mf h
  unfold bufView
  rw [h1]
  exact h2

theorem start_eq (g : ShCfg) (hl : 0 < g.len) (ops : ShOps F) (scr : PrimScreen F) (big : F)
    (ps : List (Shell F × Shell F)) {s : ℕ} (hs : s < ps.length) :
    fillIdx g.len (countsOf ps) s =
      paddedStart g.len (fun s => (fillPairs g ops scr big ps).nprim12.getD s 0) s := by
  rw [fillIdx_eq_padded (by simpa [countsOf] using hs)]
  obtain ⟨-, -, i3, -⟩ := fill_inv g hl ops scr big ps ps.length le_rfl
  rw [fillAfter_length] at i3
  have hlen : (countsOf ps).length = ps.length := by simp [countsOf]
  rw [i3, ← hlen, List.take_length]
  rfl

theorem layout_aux (g : ShCfg) (hl : 0 < g.len) (ops : ShOps F) (scr : PrimScreen F)
    (val : Shell F → Shell F → ℕ → ℕ → F) (hscr : g.screening = true → ExactScr scr val) (big : F)
    (ps : List (Shell F × Shell F)) (mf : ℕ → F) :
    let st := fillPairs g ops scr big ps
    let m := bufView g ps.length (allocPrims g.len ps)
      (applyFlat g ps.length (allocPrims g.len ps) st.log mf)
    let start := paddedStart g.len (fun s => st.nprim12.getD s 0)
    (∀ s (hs : s < ps.length), ((primOrder ps[s].1 ps[s].2).length = st.nprim12.getD s 0 ∧
      ∀ k (hk : k < (primOrder ps[s].1 ps[s].2).length),
        (∀ a, PerPrim g a → a ≠ .screen → m a (start s + k) = ops.prim ps[s].1 ps[s].2
          ((primOrder ps[s].1 ps[s].2)[k]).1 ((primOrder ps[s].1 ps[s].2)[k]).2 a) ∧
        (g.screening = true → m .screen (start s + k) = val ps[s].1 ps[s].2
          ((primOrder ps[s].1 ps[s].2)[k]).1 ((primOrder ps[s].1 ps[s].2)[k]).2)) ∧
      ∀ d, m (.AB d) s = ops.sub (ps[s].1.pos d) (ps[s].2.pos d)) ∧
    ∀ i < allocPrims g.len ps,
      (∀ s < ps.length, ¬ (start s ≤ i ∧ i < start s + st.nprim12.getD s 0)) →
      m .prefac i = 0 ∧ m .alpha i = 1 ∧ (g.screening = true → m .screen i = 0) := by
  intro st m start
  have hlen : (countsOf ps).length = ps.length := by simp [countsOf]
  have halloc : allocPrims g.len ps = fillIdx g.len (countsOf ps) ps.length := by
    rw [← hlen]; exact countPrims_eq hl _
  have hst : ∀ s (hs : s < ps.length), start s = fillIdx g.len (countsOf ps) s :=
    fun s hs => (start_eq g hl ops scr big ps hs).symm
  have hn : ∀ s (hs : s < ps.length), st.nprim12.getD s 0 = pairPrims ps[s].1 ps[s].2 := by
    intro s hs
    obtain ⟨-, -, i3, -⟩ := fill_inv g hl ops scr big ps ps.length le_rfl
    rw [fillAfter_length, ← hlen, List.take_length] at i3
    change (fillPairs g ops scr big ps).nprim12.getD s 0 = _
    rw [i3]
    exact npOf_countsOf hs
  have mem : ∀ x : Store F, (∃ s, ∃ hs : s < ps.length, x ∈ stepLog g ops scr s
      (fillIdx g.len (countsOf ps) s) (fillIdx g.len (countsOf ps) (s + 1)) ps[s].1 ps[s].2) → x ∈ st.log := by
    rintro x ⟨s, hs, h⟩
    have := (mem_fill_log g hl ops scr big ps ps.length le_rfl x).2 ⟨s, hs, hs, h⟩
    rw [fillAfter_length] at this
    exact this
  have get : ∀ {a : Arr} {i : ℕ} {v : F}, (a, i, v) ∈ st.log → m a i = v :=
    fun h => bufView_fill g hl ops scr val hscr big ps mf h
  constructor
  · intro s hs
    constructor
    · refine ⟨by rw [primOrder_length, hn s hs], ?_⟩
      intro k hk
      have hk' : k < pairPrims ps[s].1 ps[s].2 := by rw [primOrder_length] at hk; exact hk
      have hat : primAt ps[s].1 ps[s].2 k = (primOrder ps[s].1 ps[s].2)[k] :=
        List.getD_eq_getElem _ _ hk
      rw [hst s hs]
      constructor
      · intro a ha hne
        apply get
        apply mem
        refine ⟨s, hs, (mem_stepLog hscr).2 (Or.inl ⟨k, hk', ?_, rfl, ?_⟩)⟩
        · rcases isElem_iff.1 (Or.inl ⟨(Nat.lt_succ_self 0 : 0 < 1), ha⟩ : IsElem g 0 1 a 0) with h | ⟨d, -, h⟩
          · exact h.1
          · omega
        · simp only [fullValue]
          rw [if_neg hne, hat]
      · intro hsc
        apply get
        apply mem
        refine ⟨s, hs, (mem_stepLog hscr).2 (Or.inl ⟨k, hk', screen_mem_pad hsc, rfl, ?_⟩)⟩
        simp only [fullValue, if_true]
        rw [hat]
    · intro d
      apply get
      apply mem
      exact ⟨s, hs, (mem_stepLog hscr).2 (Or.inr (Or.inr ⟨d, rfl⟩))⟩
  · intro i hi hno
    rw [halloc] at hi
    obtain ⟨s, hs, l1, l2⟩ := slot_cases hl (countsOf ps) (n := ps.length) (by omega) hi
    have h2 : fillIdx g.len (countsOf ps) s + pairPrims ps[s].1 ps[s].2 ≤ i := by
      by_contra hc
      apply hno s hs
      rw [hst s hs, hn s hs]
      omega
    have pad : ∀ a, a ∈ padArrs g → m a i = padValue a := by
      intro a ha
      apply get
      apply mem
      exact ⟨s, hs, (mem_stepLog hscr).2 (Or.inr (Or.inl ⟨ha, h2, l2, rfl⟩))⟩
    have hp : ∀ a, PerPrim g a → a ∈ padArrs g := by
      intro a ha
      rcases isElem_iff.1 (Or.inl ⟨(Nat.lt_succ_self 0 : 0 < 1), ha⟩ : IsElem g 0 1 a 0) with h | ⟨d, -, h⟩
      · exact h.1
      · omega
    exact ⟨pad .prefac (hp _ trivial), pad .alpha (hp _ trivial), fun h => pad .screen (hp _ h)⟩

/-- **C39.** After a fill, whatever the buffer contained before: the combinations of primitives of
pair `s` occupy the consecutive elements that the integral functions attribute to ket pair `s`
(`paddedStart`), each combination of the pair (only `j ≤ i` when a shell is paired with itself)
appears exactly once, the differences of centers are those of the pair, and elements that belong to
no pair have prefactor 0, exponent 1 and screening value 0. -/
theorem C39_layout (g : ShCfg) (hl : 0 < g.len) (ops : ShOps F) (scr : PrimScreen F)
    (val : Shell F → Shell F → ℕ → ℕ → F) (hscr : g.screening = true → ExactScr scr val) (big : F)
    (ps : List (Shell F × Shell F)) (mf : ℕ → F) :
    let st := fillPairs g ops scr big ps
    let m := bufView g ps.length (allocPrims g.len ps)
      (applyFlat g ps.length (allocPrims g.len ps) st.log mf)
    let start := paddedStart g.len (fun s => st.nprim12.getD s 0)
    (∀ s (hs : s < ps.length), (∃ ord : List (ℕ × ℕ), ord.Nodup ∧ ord.length = st.nprim12.getD s 0 ∧
      (∀ i j, (i, j) ∈ ord ↔ i < ps[s].1.nprim ∧ j < ps[s].2.nprim ∧
        (sameShell ps[s].1 ps[s].2 = true → j ≤ i)) ∧
      ∀ k (hk : k < ord.length),
        (∀ a, PerPrim g a → a ≠ .screen →
          m a (start s + k) = ops.prim ps[s].1 ps[s].2 (ord[k]).1 (ord[k]).2 a) ∧
        (g.screening = true → m .screen (start s + k) = val ps[s].1 ps[s].2 (ord[k]).1 (ord[k]).2)) ∧
      ∀ d, m (.AB d) s = ops.sub (ps[s].1.pos d) (ps[s].2.pos d)) ∧
    ∀ i < allocPrims g.len ps,
      (∀ s < ps.length, ¬ (start s ≤ i ∧ i < start s + st.nprim12.getD s 0)) →
      m .prefac i = 0 ∧ m .alpha i = 1 ∧ (g.screening = true → m .screen i = 0) := by
  intro st m start
  obtain ⟨h1, h2⟩ := layout_aux g hl ops scr val hscr big ps mf
  refine ⟨fun s hs => ⟨⟨primOrder ps[s].1 ps[s].2, primOrder_nodup _ _, (h1 s hs).1.1, mem_primOrder _ _,
    (h1 s hs).1.2⟩, (h1 s hs).2⟩, h2⟩

end

/-! ### The list holds the pairs, over the reals -/

/-- The combinations of primitives that are stored: one per pair of different primitives of a shell
with itself, with twice the coefficient and the mean exponent. -/
noncomputable def storedPrims (A B : Shell ℝ) : List PrimPair :=
  (primOrder A B).map fun p =>
    if sameShell A B && decide (p.1 ≠ p.2) then
      primPair (2 * (A.coef p.1 * B.coef p.2)) ((A.alpha p.1 + B.alpha p.2) / 2)
        ((A.alpha p.1 + B.alpha p.2) / 2)
    else primPair (A.coef p.1 * B.coef p.2) (A.alpha p.1) (B.alpha p.2)

noncomputable def storedPair (A B : Shell ℝ) : ShellPair := ⟨A.pos, B.pos, storedPrims A B⟩

instance : Inhabited (Shell ℝ) := ⟨⟨0, 0, 0, fun _ => 0, fun _ => 0, fun _ => 0⟩⟩

theorem primPair_eq {c α β : ℝ} (h1 : 0 < α) (h2 : 0 < β) : primPair c α β = ⟨c, α, β, h1, h2⟩ :=
  dif_pos ⟨h1, h2⟩

theorem storedPrims_length (A B : Shell ℝ) : (storedPrims A B).length = pairPrims A B := by
  unfold storedPrims; rw [List.length_map, primOrder_length]

theorem storedPair_length (p : Shell ℝ × Shell ℝ) : (storedPair p.1 p.2).prims.length = storedCount p := by
  rw [storedCount_eq, ← storedPrims_length]
  rfl

theorem dist2_self {A B : Dir → ℝ} (h : A = B) : dist2 A B = 0 := by
  subst h; unfold dist2; ring

/-- The data of one stored combination. -/
theorem primValue_holds {A B : Shell ℝ} (hA : A.OK) (hB : B.OK) (hf : Faithful A B) {i j : ℕ}
    (hi : i < A.nprim) (hj : j < B.nprim) {x : PrimPair}
    (hx : x = if sameShell A B && decide (i ≠ j) then
      primPair (2 * (A.coef i * B.coef j)) ((A.alpha i + B.alpha j) / 2) ((A.alpha i + B.alpha j) / 2)
    else primPair (A.coef i * B.coef j) (A.alpha i) (B.alpha j)) :
    realShOps.prim A B i j .alpha = x.α + x.β ∧
    (∀ d, realShOps.prim A B i j (.pos d) = (x.α * A.pos d + x.β * B.pos d) / (x.α + x.β)) ∧
    (∀ d, realShOps.prim A B i j (.PA d) = realShOps.prim A B i j (.pos d) - A.pos d) ∧
    (∀ d, realShOps.prim A B i j (.PB d) = realShOps.prim A B i j (.pos d) - B.pos d) ∧
    realShOps.prim A B i j .prefac = x.coef * exp (-(x.α * x.β / (x.α + x.β)) * dist2 A.pos B.pos) *
      (√2 * π ^ ((5 : ℝ) / 4)) / (x.α + x.β) ∧
    realShOps.prim A B i j .alpha2 = 2 * x.α ∧ realShOps.prim A B i j .beta2 = 2 * x.β := by
  have a1 := hA.2 i hi
  have b1 := hB.2 j hj
  have hd : shXab A B = dist2 A.pos B.pos := by unfold shXab dist2; ring
  by_cases h : (sameShell A B && decide (i ≠ j)) = true
  · rw [if_pos h, primPair_eq (by linarith) (by linarith)] at hx
    subst hx
    have hs : sameShell A B = true := by simp only [Bool.and_eq_true] at h; exact h.1
    have hp := (hf hs).1
    simp only [realShOps, ShOps.exact, primValue]
    rw [h, hd, dist2_self hp]
    simp only [if_true]
    have e2 : (A.alpha i + B.alpha j) / 2 + (A.alpha i + B.alpha j) / 2 = A.alpha i + B.alpha j := by ring
    rw [e2]
    refine ⟨rfl, fun d => ?_, fun _ => trivial, fun _ => trivial, ?_, by ring, by ring⟩
    · rw [hp]; congr 1; ring
    · rw [neg_zero, zero_mul, zero_div, mul_zero]
      ring
  · rw [if_neg h, primPair_eq a1 b1] at hx
    subst hx
    simp only [realShOps, ShOps.exact, primValue]
    rw [if_neg h, if_neg h, if_neg h, hd]
    refine ⟨trivial, fun d => ?_, fun _ => trivial, fun _ => trivial, ?_, rfl, rfl⟩
    · congr 1; ring
    · congr 4
      ring

/-- **C39, over the reals.** After a fill the list holds the pairs of shells in the sense expected by
the integral functions (C59, C61): the data of every stored combination, in the padded layout, and
positive exponents everywhere. -/
theorem C39_holds (g : ShCfg) (hl : 0 < g.len) (scr : PrimScreen ℝ)
    (val : Shell ℝ → Shell ℝ → ℕ → ℕ → ℝ) (hscr : g.screening = true → ExactScr scr val) (big : ℝ)
    (ps : List (Shell ℝ × Shell ℝ)) (hps : ∀ p ∈ ps, p.1.OK ∧ p.2.OK ∧ Faithful p.1 p.2) (mf : ℕ → ℝ) :
    let M := filledList g realShOps scr big ps mf
    let E := filledExps g realShOps scr big ps mf
    let S := fun s => storedPair (ps.getD s default).1 (ps.getD s default).2
    M.nclip = ps.length ∧
    Holds M (paddedStart g.len M.nprim12) S ∧
    (g.deriv = true → HoldsExps M E.1 E.2 (paddedStart g.len M.nprim12) S) ∧
    (∀ s < M.nclip, 0 < M.nprim12 s) ∧
    (∀ s < M.nclip, simdRound g.len (paddedStart g.len M.nprim12 s + M.nprim12 s) ≤ M.alloc) ∧
    (∀ i < M.alloc, 0 < M.alpha i) ∧
    ∀ i < M.alloc, (∀ s < M.nclip,
      ¬ (paddedStart g.len M.nprim12 s ≤ i ∧ i < paddedStart g.len M.nprim12 s + M.nprim12 s)) →
      M.prefac i = 0 := by
  intro M E S
  obtain ⟨h1, h2⟩ := layout_aux g hl realShOps scr val hscr big ps mf
  obtain ⟨-, -, -, hn12, -⟩ := C37_fill_writes_allocation g hl realShOps scr val hscr big ps
  have hclip : M.nclip = ps.length := by
    change (fillPairs g realShOps scr big ps).nprim12.length = _
    rw [hn12, List.length_map]
  have hS : ∀ s (hs : s < ps.length), S s = storedPair ps[s].1 ps[s].2 := by
    intro s hs
    simp only [S]
    rw [List.getD_eq_getElem _ _ hs]
  have hn : ∀ s (hs : s < ps.length), M.nprim12 s = pairPrims ps[s].1 ps[s].2 := by
    intro s hs
    change (fillPairs g realShOps scr big ps).nprim12.getD s 0 = _
    rw [hn12]
    exact npOf_countsOf hs
  have hmem : ∀ s (hs : s < ps.length), ps[s].1.OK ∧ ps[s].2.OK ∧ Faithful ps[s].1 ps[s].2 :=
    fun s hs => hps _ (List.getElem_mem hs)
  -- the data of pair `s`
  have data : ∀ s (hs : s < ps.length) (k : ℕ) (hk : k < (storedPrims ps[s].1 ps[s].2).length),
      ∃ i j, i < ps[s].1.nprim ∧ j < ps[s].2.nprim ∧
        ((storedPrims ps[s].1 ps[s].2)[k] = if sameShell ps[s].1 ps[s].2 && decide (i ≠ j) then
          primPair (2 * (ps[s].1.coef i * ps[s].2.coef j)) ((ps[s].1.alpha i + ps[s].2.alpha j) / 2)
            ((ps[s].1.alpha i + ps[s].2.alpha j) / 2)
          else primPair (ps[s].1.coef i * ps[s].2.coef j) (ps[s].1.alpha i) (ps[s].2.alpha j)) ∧
        ∀ a, PerPrim g a → a ≠ .screen → bufView g ps.length (allocPrims g.len ps)
          (applyFlat g ps.length (allocPrims g.len ps) (fillPairs g realShOps scr big ps).log mf) a
            (paddedStart g.len M.nprim12 s + k) = realShOps.prim ps[s].1 ps[s].2 i j a := by
    intro s hs k hk
    have hk' : k < (primOrder ps[s].1 ps[s].2).length := by
      unfold storedPrims at hk; rw [List.length_map] at hk; exact hk
    have hm := (mem_primOrder ps[s].1 ps[s].2 _ _).1 (List.getElem_mem hk')
    refine ⟨((primOrder ps[s].1 ps[s].2)[k]).1, ((primOrder ps[s].1 ps[s].2)[k]).2, hm.1, hm.2.1, ?_,
      ((h1 s hs).1.2 k hk').1⟩
    simp only [storedPrims]
    rw [List.getElem_map]
  have hpad : ∀ s (hs : s < ps.length),
      simdRound g.len (paddedStart g.len M.nprim12 s + M.nprim12 s) ≤ M.alloc := by
    intro s hs
    have hlen : (countsOf ps).length = ps.length := by simp [countsOf]
    have hal : M.alloc = fillIdx g.len (countsOf ps) ps.length := by
      rw [← hlen]; exact countPrims_eq hl _
    have e := start_eq g hl realShOps scr big ps hs
    change _ = paddedStart g.len M.nprim12 s at e
    rw [hal, ← e, hn s hs, ← npOf_countsOf hs]
    have hd : g.len ∣ fillIdx g.len (countsOf ps) ps.length := by
      unfold fillIdx
      rw [if_pos hlen.symm]
      exact simdRound_dvd _ _
    refine simdRound_le_of_dvd hl hd ?_
    exact (fillIdx_mono hl _ (by omega)).trans (fillIdx_le hl _ (by omega) (by omega))
  refine ⟨hclip, ⟨?_, ?_, ?_⟩, ?_, ?_, ?_, ?_, ?_⟩
  · intro s hs
    rw [hclip] at hs
    rw [hn s hs, hS s hs]
    exact (storedPrims_length _ _).symm
  · intro s hs d
    rw [hclip] at hs
    rw [hS s hs]
    exact (h1 s hs).2 d
  · intro s hs k hk
    rw [hclip] at hs
    simp only [hS s hs] at hk ⊢
    obtain ⟨i, j, hi, hj, hx, hv⟩ := data s hs k hk
    obtain ⟨o1, o2, o3⟩ := hmem s hs
    obtain ⟨v1, v2, v3, v4, v5, -⟩ := primValue_holds o1 o2 o3 hi hj hx
    refine ⟨?_, fun d => ?_, fun d => ?_, fun d => ?_, ?_⟩
    · exact (hv .alpha trivial (by decide)).trans v1
    · exact (hv (.pos d) trivial (by simp)).trans (v2 d)
    · refine (hv (.PA d) trivial (by simp)).trans ((v3 d).trans ?_)
      rw [← hv (.pos d) trivial (by simp)]; rfl
    · refine (hv (.PB d) trivial (by simp)).trans ((v4 d).trans ?_)
      rw [← hv (.pos d) trivial (by simp)]; rfl
    · exact (hv .prefac trivial (by decide)).trans v5
  · intro hder
    constructor
    all_goals
      intro s hs k hk
      rw [hclip] at hs
      simp only [hS s hs] at hk ⊢
      obtain ⟨i, j, hi, hj, hx, hv⟩ := data s hs k hk
      obtain ⟨o1, o2, o3⟩ := hmem s hs
      obtain ⟨-, -, -, -, -, v6, v7⟩ := primValue_holds o1 o2 o3 hi hj hx
    · exact (hv .alpha2 hder (by decide)).trans v6
    · exact (hv .beta2 hder (by decide)).trans v7
  · intro s hs
    rw [hclip] at hs
    rw [hn s hs]
    exact pairPrims_pos (hmem s hs).1.1 (hmem s hs).2.1.1
  · intro s hs
    rw [hclip] at hs
    exact hpad s hs
  · intro i hi
    by_cases hin : ∃ s < ps.length, paddedStart g.len M.nprim12 s ≤ i ∧
        i < paddedStart g.len M.nprim12 s + M.nprim12 s
    · obtain ⟨s, hs, l1, l2⟩ := hin
      rw [hn s hs] at l2
      obtain ⟨k, rfl⟩ := Nat.exists_eq_add_of_le l1
      obtain ⟨i, j, hi, hj, -, hv⟩ := data s hs k (by rw [storedPrims_length]; omega)
      have := hv .alpha trivial (by decide)
      change M.alpha _ = ps[s].1.alpha i + ps[s].2.alpha j at this
      obtain ⟨o1, o2, -⟩ := hmem s hs
      have e1 := o1.2 i hi
      have e2 := o2.2 j hj
      rw [this]; linarith
    · have := (h2 i hi fun s hs hc => hin ⟨s, hs, hc⟩).2.1
      change M.alpha i = 1 at this
      rw [this]; exact one_pos
  · intro i hi hno
    rw [hclip] at hno
    exact (h2 i hi hno).1

/-! ### C40 -/

theorem sum_flatMap_range {M : Type} [AddCommMonoid M] (n : ℕ) (k : ℕ → ℕ) (f : ℕ → ℕ → M) :
    (((List.range n).flatMap fun i => (List.range (k i)).map fun j => (i, j)).map fun p => f p.1 p.2).sum =
      ∑ i ∈ range n, ∑ j ∈ range (k i), f i j := by
  induction n with
  | zero => rfl
  | succ n ih =>
    rw [List.range_succ, List.flatMap_append, List.map_append, List.sum_append, ih, sum_range_succ]
    congr 1
    simp only [List.flatMap_cons, List.flatMap_nil, List.append_nil, List.map_map]
    rw [Finset.sum_range]
    rw [← List.sum_ofFn]
    congr 1
    apply List.ext_getElem
    · simp
    · intro i h1 h2; simp

theorem primOrder_sum {F M : Type} [AddCommMonoid M] (A B : Shell F) (f : ℕ → ℕ → M) :
    ((primOrder A B).map fun p => f p.1 p.2).sum =
      ∑ i ∈ range A.nprim, ∑ j ∈ range (if sameShell A B then i + 1 else B.nprim), f i j :=
  sum_flatMap_range A.nprim _ f

theorem square_sum {M : Type} [AddCommMonoid M] (n : ℕ) (f : ℕ → ℕ → M) :
    ∑ i ∈ range n, ∑ j ∈ range n, f i j =
      ∑ i ∈ range n, ((∑ j ∈ range i, (f i j + f j i)) + f i i) := by
  induction n with
  | zero => rfl
  | succ n ih =>
    rw [sum_range_succ, sum_range_succ (fun i => (∑ j ∈ range i, (f i j + f j i)) + f i i), ← ih]
    simp only [sum_range_succ]
    rw [sum_add_distrib, sum_add_distrib]
    abel

/-- **C40.** For one shell paired with itself: the sum over the stored combinations, with weight 2 for
two different primitives, is the sum over all combinations, for every symmetric function. -/
theorem C40_symmetric {F : Type} [Field F] {A B : Shell F} (h : sameShell A B = true) (f : ℕ → ℕ → F)
    (hf : ∀ i j, f i j = f j i) :
    ((primOrder A B).map fun p => (if p.1 ≠ p.2 then 2 else 1) * f p.1 p.2).sum =
      ∑ i ∈ range A.nprim, ∑ j ∈ range B.nprim, f i j := by
  have hn : A.nprim = B.nprim := by
    unfold sameShell at h; simp only [Bool.and_eq_true, decide_eq_true_eq] at h; exact h.1
  unfold primOrder
  rw [sum_flatMap_range A.nprim _ (fun i j => (if i ≠ j then 2 else 1) * f i j), ← hn, square_sum]
  refine sum_congr rfl fun i _ => ?_
  rw [if_pos h, sum_range_succ, if_neg (by simp), one_mul]
  congr 1
  refine sum_congr rfl fun j hj => ?_
  rw [if_pos (by have := Finset.mem_range.1 hj; omega), hf j i]
  ring

/-- Sums over stored combinations of a function that may be folded. -/
theorem stored_sum {A B : Shell ℝ} (hA : A.OK) (hB : B.OK) (hf : Faithful A B) (g : ℝ → ℝ → ℝ)
    (hg : sameShell A B = true → ∀ a b, 0 < a → 0 < b → g a b + g b a = 2 * g ((a + b) / 2) ((a + b) / 2)) :
    ((storedPrims A B).map fun x => x.coef * g x.α x.β).sum =
      ((fullPair A B).prims.map fun x => x.coef * g x.α x.β).sum := by
  have full : ((fullPair A B).prims.map fun x => x.coef * g x.α x.β).sum =
      ∑ i ∈ range A.nprim, ∑ j ∈ range B.nprim, A.coef i * B.coef j * g (A.alpha i) (B.alpha j) := by
    rw [← sum_flatMap_range A.nprim (fun _ => B.nprim)]
    unfold fullPair
    simp only
    congr 1
    rw [List.map_flatMap, List.map_flatMap]
    refine List.flatMap_congr ?_
    intro i hi
    rw [List.map_map, List.map_map]
    refine List.map_congr_left fun j hj => ?_
    simp only [Function.comp]
    rw [primPair_eq (hA.2 i (List.mem_range.1 hi)) (hB.2 j (List.mem_range.1 hj))]
  rw [full]
  by_cases h : sameShell A B = true
  · obtain ⟨hp, hd⟩ := hf h
    have hn : A.nprim = B.nprim := by
      unfold sameShell at h; simp only [Bool.and_eq_true, decide_eq_true_eq] at h; exact h.1
    rw [← hn, square_sum]
    have e : ((storedPrims A B).map fun x => x.coef * g x.α x.β) = (primOrder A B).map fun p =>
        (fun i j => if i ≠ j then 2 * (A.coef i * B.coef j) * g ((A.alpha i + B.alpha j) / 2)
          ((A.alpha i + B.alpha j) / 2) else A.coef i * B.coef j * g (A.alpha i) (B.alpha j)) p.1 p.2 := by
      unfold storedPrims
      rw [List.map_map]
      refine List.map_congr_left fun p hp => ?_
      obtain ⟨m1, m2, -⟩ := (mem_primOrder A B p.1 p.2).1 hp
      have a1 := hA.2 _ m1
      have b1 := hB.2 _ m2
      simp only [Function.comp, h, Bool.true_and, decide_eq_true_eq]
      split
      · rw [primPair_eq (by linarith) (by linarith)]
      · rw [primPair_eq a1 b1]
    rw [e]
    refine (primOrder_sum A B (fun i j => if i ≠ j then 2 * (A.coef i * B.coef j) *
      g ((A.alpha i + B.alpha j) / 2) ((A.alpha i + B.alpha j) / 2)
        else A.coef i * B.coef j * g (A.alpha i) (B.alpha j))).trans ?_
    refine sum_congr rfl fun i hi => ?_
    have hi' := Finset.mem_range.1 hi
    rw [if_pos h, sum_range_succ, if_neg (by simp)]
    congr 1
    refine sum_congr rfl fun j hj => ?_
    have hj' := Finset.mem_range.1 hj
    rw [if_pos (by omega)]
    obtain ⟨i1, i2⟩ := hd i hi'
    obtain ⟨j1, j2⟩ := hd j (by omega)
    have := hg h (A.alpha i) (A.alpha j) (hA.2 i hi') (hA.2 j (by omega))
    rw [← i1, ← i2, ← j1, ← j2, mul_comm (A.coef j), ← mul_add, this]
    ring
  · have e : (storedPrims A B).map (fun x => x.coef * g x.α x.β) = (primOrder A B).map fun p =>
        (fun i j => A.coef i * B.coef j * g (A.alpha i) (B.alpha j)) p.1 p.2 := by
      unfold storedPrims
      rw [List.map_map]
      refine List.map_congr_left fun p hp => ?_
      obtain ⟨m1, m2, -⟩ := (mem_primOrder A B p.1 p.2).1 hp
      have h' : sameShell A B = false := by simpa using h
      simp only [Function.comp, h', Bool.false_and, Bool.false_eq_true, if_false]
      rw [primPair_eq (hA.2 _ m1) (hB.2 _ m2)]
    rw [e]
    refine (primOrder_sum A B fun i j => A.coef i * B.coef j * g (A.alpha i) (B.alpha j)).trans ?_
    refine sum_congr rfl fun i _ => ?_
    rw [if_neg h]

/-- Two functions on the same center: only the sum of the exponents matters. -/
theorem coulomb_bra_sum {α β α' β' : ℝ} (h : α + β = α' + β') (γ δ : ℝ) {A B : Dir → ℝ} (hAB : A = B)
    (C D : Dir → ℝ) (a b c d : Exp) :
    coulomb α β γ δ A B C D a b c d = coulomb α' β' γ δ A B C D a b c d := by
  subst hAB
  unfold coulomb
  congr 1
  ext w
  have : ∀ r, primG α A a r * primG β A b r = primG α' A a r * primG β' A b r := by
    intro r
    unfold primG
    rw [mul_mul_mul_comm, ← Real.exp_add, mul_mul_mul_comm, ← Real.exp_add]
    congr 2
    linear_combination (-dist2 r A) * h
  rw [this]

theorem coulomb_ket_sum {γ δ γ' δ' : ℝ} (h : γ + δ = γ' + δ') (α β : ℝ) {C D : Dir → ℝ} (hCD : C = D)
    (A B : Dir → ℝ) (a b c d : Exp) :
    coulomb α β γ δ A B C D a b c d = coulomb α β γ' δ' A B C D a b c d := by
  subst hCD
  unfold coulomb
  congr 1
  ext w
  have : ∀ r, primG γ C c r * primG δ C d r = primG γ' C c r * primG δ' C d r := by
    intro r
    unfold primG
    rw [mul_mul_mul_comm, ← Real.exp_add, mul_mul_mul_comm, ← Real.exp_add]
    congr 2
    linear_combination (-dist2 r C) * h
  rw [this]

theorem sum_mul_sum_list {α β : Type} (l : List α) (l' : List β) (u : α → ℝ) (v : β → ℝ) (f : α → β → ℝ) :
    (l.map fun x => (l'.map fun y => u x * v y * f x y).sum).sum =
      (l.map fun x => u x * (l'.map fun y => v y * f x y).sum).sum := by
  congr 1
  refine List.map_congr_left fun x _ => ?_
  rw [← List.sum_map_mul_left]
  simp only [mul_assoc]

theorem list_sum_comm {α β : Type} (l : List α) (l' : List β) (f : α → β → ℝ) :
    (l.map fun x => (l'.map fun y => f x y).sum).sum = (l'.map fun y => (l.map fun x => f x y).sum).sum := by
  induction l with
  | nil => simp
  | cons a l ih => simp only [List.map_cons, List.sum_cons, ih, List.sum_map_add]

/-- A double sum over stored combinations on both sides. -/
theorem stored_double {A B C D : Shell ℝ} (hA : A.OK) (hB : B.OK) (hAB : Faithful A B) (hC : C.OK)
    (hD : D.OK) (hCD : Faithful C D) (f : ℝ → ℝ → ℝ → ℝ → ℝ)
    (h1 : sameShell A B = true → ∀ a b c d, 0 < a → 0 < b → 0 < c → 0 < d →
      f a b c d + f b a c d = 2 * f ((a + b) / 2) ((a + b) / 2) c d)
    (h2 : sameShell C D = true → ∀ a b c d, 0 < a → 0 < b → 0 < c → 0 < d →
      f a b c d + f a b d c = 2 * f a b ((c + d) / 2) ((c + d) / 2)) :
    ((storedPair A B).prims.map fun x => ((storedPair C D).prims.map fun y =>
      x.coef * y.coef * f x.α x.β y.α y.β).sum).sum =
    ((fullPair A B).prims.map fun x => ((fullPair C D).prims.map fun y =>
      x.coef * y.coef * f x.α x.β y.α y.β).sum).sum := by
  have step2 : ∀ x : PrimPair, ((storedPrims C D).map fun y => x.coef * y.coef * f x.α x.β y.α y.β).sum =
      ((fullPair C D).prims.map fun y => x.coef * y.coef * f x.α x.β y.α y.β).sum := by
    intro x
    have := stored_sum hC hD hCD (f x.α x.β) (fun h c d hc hd => h2 h _ _ _ _ x.hα x.hβ hc hd)
    simp only [mul_assoc, List.sum_map_mul_left]
    rw [this]
  have e : ((storedPair A B).prims.map fun x => ((storedPair C D).prims.map fun y =>
      x.coef * y.coef * f x.α x.β y.α y.β).sum).sum = ((storedPrims A B).map fun x =>
        ((fullPair C D).prims.map fun y => x.coef * y.coef * f x.α x.β y.α y.β).sum).sum := by
    congr 1
    exact List.map_congr_left fun x _ => step2 x
  rw [e]
  have := stored_sum hA hB hAB (fun a b => ((fullPair C D).prims.map fun y => y.coef * f a b y.α y.β).sum) ?_
  · simp only [mul_assoc, List.sum_map_mul_left]
    exact this
  · intro h a b ha hb
    rw [← List.sum_map_mul_left, ← List.sum_map_add]
    congr 1
    refine List.map_congr_left fun y _ => ?_
    rw [← mul_add, h1 h a b _ _ ha hb y.hα y.hβ]
    ring

/-- **C40, integrals.** Contracted integrals over the stored combinations are those over all
combinations of primitives, whichever of the two pairs repeat a shell. -/
theorem C40_integrals {A B C D : Shell ℝ} (hA : A.OK) (hB : B.OK) (hAB : Faithful A B) (hC : C.OK)
    (hD : D.OK) (hCD : Faithful C D) (a b c d : Exp) :
    contractedERI (storedPair A B) (storedPair C D) a b c d =
      contractedERI (fullPair A B) (fullPair C D) a b c d := by
  refine stored_double hA hB hAB hC hD hCD
    (fun p q r s => coulomb p q r s A.pos B.pos C.pos D.pos a b c d) ?_ ?_
  · intro h p q r s _ _ _ _
    have hp := (hAB h).1
    rw [coulomb_bra_sum (add_comm q p) r s hp, coulomb_bra_sum (α := p) (β := q)
      (by ring : p + q = (p + q) / 2 + (p + q) / 2) r s hp]
    ring
  · intro h p q r s _ _ _ _
    have hp := (hCD h).1
    rw [coulomb_ket_sum (add_comm s r) p q hp, coulomb_ket_sum (γ := r) (δ := s)
      (by ring : r + s = (r + s) / 2 + (r + s) / 2) p q hp]
    ring

/-! Derivatives. -/

theorem hasDerivAt_listSum {α : Type} (l : List α) (f : α → ℝ → ℝ) (f' : α → ℝ) (x : ℝ)
    (h : ∀ a ∈ l, HasDerivAt (f a) (f' a) x) :
    HasDerivAt (fun v => (l.map fun a => f a v).sum) ((l.map f').sum) x := by
  induction l with
  | nil => simpa using hasDerivAt_const x (0 : ℝ)
  | cons a l ih =>
    simp only [List.map_cons, List.sum_cons]
    exact (h a (by simp)).add (ih fun b hb => h b (by simp [hb]))

/-- Derivative of a contracted integral as a sum. -/
noncomputable def contractedD (S T : ShellPair) (e : RRType → Exp) (t : RRType) (i : Dir) : ℝ :=
  (S.prims.map fun x => (T.prims.map fun y => x.coef * y.coef * dCoul S T x y e t i).sum).sum

theorem contractedD_hasDerivAt (S T : ShellPair) {a b c d : Exp} (ha : a.Valid) (hb : b.Valid)
    (hc : c.Valid) (hd : d.Valid) (t : RRType) (i : Dir) :
    HasDerivAt (fun v => contractedERI (moveCenter S T t i v).1 (moveCenter S T t i v).2 a b c d)
      (contractedD S T (comps a b c d) t i) (centerOf S T t i) := by
  have e : (fun v => contractedERI (moveCenter S T t i v).1 (moveCenter S T t i v).2 a b c d) =
      fun v => (S.prims.map fun x => (T.prims.map fun y => x.coef * y.coef *
        coulomb x.α x.β y.α y.β (moveCenter S T t i v).1.A (moveCenter S T t i v).1.B
        (moveCenter S T t i v).2.A (moveCenter S T t i v).2.B a b c d).sum).sum := by
    funext v
    cases t <;> rfl
  rw [e]
  unfold contractedD
  refine hasDerivAt_listSum _ _ _ _ fun x _ => hasDerivAt_listSum _ _ _ _ fun y _ => ?_
  exact (dCoul_hasDerivAt S T x y ha hb hc hd t i).const_mul _

/-- Derivative of an integral of four primitives as a function of the exponents. -/
noncomputable def dExp (S T : ShellPair) (e : RRType → Exp) (t : RRType) (i : Dir) (p q r s : ℝ) : ℝ :=
  raiseLower (fun u a b c d => (match u with
      | .I => 2 * p
      | .J => 2 * q
      | .K => 2 * r
      | .L => 2 * s) * coulomb p q r s S.A S.B T.A T.B a b c d)
    (coulomb p q r s S.A S.B T.A T.B) e t i

theorem dCoul_dExp (S T : ShellPair) (x y : PrimPair) (e : RRType → Exp) (t : RRType) (i : Dir) :
    dCoul S T x y e t i = dExp S T e t i x.α x.β y.α y.β := by
  unfold dCoul dExp raiseLower
  cases t <;> rfl

theorem contractedD_stored {A B C D : Shell ℝ} (hA : A.OK) (hB : B.OK) (hAB : Faithful A B) (hC : C.OK)
    (hD : D.OK) (hCD : Faithful C D) (e : RRType → Exp) (t : RRType) (i : Dir) :
    contractedD (storedPair A B) (storedPair C D) e t i = contractedD (fullPair A B) (fullPair C D) e t i := by
  unfold contractedD
  simp only [dCoul_dExp]
  refine stored_double hA hB hAB hC hD hCD (dExp (fullPair A B) (fullPair C D) e t i) ?_ ?_
  · intro h p q r s _ _ _ _
    have hp := (hAB h).1
    unfold dExp raiseLower fullPair
    simp only
    generalize Function.update e t ((e t).step i 1) = e1
    generalize Function.update e t ((e t).step i (-1)) = e2
    have s1 := fun a b c d => coulomb_bra_sum (add_comm q p) r s hp C.pos D.pos a b c d
    have s2 := fun a b c d => coulomb_bra_sum (α := p) (β := q)
      (by ring : p + q = (p + q) / 2 + (p + q) / 2) r s hp C.pos D.pos a b c d
    rw [s1, s1, s2, s2]
    cases t <;> ring
  · intro h p q r s _ _ _ _
    have hp := (hCD h).1
    unfold dExp raiseLower fullPair
    simp only
    generalize Function.update e t ((e t).step i 1) = e1
    generalize Function.update e t ((e t).step i (-1)) = e2
    have s1 := fun a b c d => coulomb_ket_sum (add_comm s r) p q hp A.pos B.pos a b c d
    have s2 := fun a b c d => coulomb_ket_sum (γ := r) (δ := s)
      (by ring : r + s = (r + s) / 2 + (r + s) / 2) p q hp A.pos B.pos a b c d
    rw [s1, s1, s2, s2]
    cases t <;> ring

/-- **C40, derivatives.** The same for derivatives with respect to the coordinates of each of the four
centers (both centers of a folded pair are moved separately). -/
theorem C40_derivatives {A B C D : Shell ℝ} (hA : A.OK) (hB : B.OK) (hAB : Faithful A B) (hC : C.OK)
    (hD : D.OK) (hCD : Faithful C D) {a b c d : Exp} (ha : a.Valid) (hb : b.Valid) (hc : c.Valid)
    (hd : d.Valid) (t : RRType) (i : Dir) (v : ℝ) :
    HasDerivAt (fun x => contractedERI (moveCenter (storedPair A B) (storedPair C D) t i x).1
      (moveCenter (storedPair A B) (storedPair C D) t i x).2 a b c d) v
      (centerOf (storedPair A B) (storedPair C D) t i) ↔
    HasDerivAt (fun x => contractedERI (moveCenter (fullPair A B) (fullPair C D) t i x).1
      (moveCenter (fullPair A B) (fullPair C D) t i x).2 a b c d) v
      (centerOf (fullPair A B) (fullPair C D) t i) := by
  have h1 := contractedD_hasDerivAt (storedPair A B) (storedPair C D) ha hb hc hd t i
  have h2 := contractedD_hasDerivAt (fullPair A B) (fullPair C D) ha hb hc hd t i
  rw [contractedD_stored hA hB hAB hC hD hCD] at h1
  constructor
  · intro h
    rw [h.unique h1]
    exact h2
  · intro h
    rw [h.unique h2]
    exact h1

/-! ### C62 -/

theorem full_list_sum {A B : Shell ℝ} (hA : A.OK) (hB : B.OK) (f : ℝ → ℝ → ℝ → ℝ) :
    ((fullPair A B).prims.map fun x => f x.coef x.α x.β).sum =
      ∑ i ∈ range A.nprim, ∑ j ∈ range B.nprim, f (A.coef i * B.coef j) (A.alpha i) (B.alpha j) := by
  rw [← sum_flatMap_range A.nprim (fun _ => B.nprim)]
  unfold fullPair
  simp only
  congr 1
  rw [List.map_flatMap, List.map_flatMap]
  refine List.flatMap_congr ?_
  intro i hi
  rw [List.map_map, List.map_map]
  refine List.map_congr_left fun j hj => ?_
  simp only [Function.comp]
  rw [primPair_eq (hA.2 i (List.mem_range.1 hi)) (hB.2 j (List.mem_range.1 hj))]

theorem contractedERI_full {A B C D : Shell ℝ} (hA : A.OK) (hB : B.OK) (hC : C.OK) (hD : D.OK)
    (a b c d : Exp) :
    contractedERI (fullPair A B) (fullPair C D) a b c d = shellERI A B C D a b c d := by
  unfold contractedERI shellERI
  have := full_list_sum hA hB (fun c1 p q => ((fullPair C D).prims.map fun y =>
    c1 * y.coef * coulomb p q y.α y.β A.pos B.pos C.pos D.pos a b c d).sum)
  refine this.trans (sum_congr rfl fun i _ => sum_congr rfl fun j _ => ?_)
  exact full_list_sum hC hD (fun c2 r s => A.coef i * B.coef j * c2 *
    coulomb (A.alpha i) (B.alpha j) r s A.pos B.pos C.pos D.pos a b c d)

theorem movedERI_full {A B C D : Shell ℝ} (hA : A.OK) (hB : B.OK) (hC : C.OK) (hD : D.OK)
    (a b c d : Exp) (t : RRType) (i : Dir) (v : ℝ) :
    contractedERI (moveCenter (fullPair A B) (fullPair C D) t i v).1
      (moveCenter (fullPair A B) (fullPair C D) t i v).2 a b c d = movedERI A B C D a b c d t i v := by
  cases t
  · exact contractedERI_full (A := { A with pos := Function.update A.pos i v }) hA hB hC hD a b c d
  · exact contractedERI_full (B := { B with pos := Function.update B.pos i v }) hA hB hC hD a b c d
  · exact contractedERI_full (C := { C with pos := Function.update C.pos i v }) hA hB hC hD a b c d
  · exact contractedERI_full (D := { D with pos := Function.update D.pos i v }) hA hB hC hD a b c d

theorem tightStart_le_fillIdx {len : ℕ} (hl : 0 < len) (ns : List ℕ) {s : ℕ} (hs : s ≤ ns.length) :
    tightStart (npOf ns) s ≤ fillIdx len ns s := by
  induction s with
  | zero => exact Nat.zero_le _
  | succ s ih =>
    rw [tightStart_succ]
    have := ih (by omega)
    have := fillIdx_mono hl ns (s := s) (by omega)
    omega

/-- A list with at least the layout facts that calls need. -/
theorem filled_tight (g : ShCfg) (hl : 0 < g.len) (ops : ShOps ℝ) (scr : PrimScreen ℝ) (big : ℝ)
    (ps : List (Shell ℝ × Shell ℝ)) (mf : ℕ → ℝ) :
    tightStart (filledList g ops scr big ps mf).nprim12 (filledList g ops scr big ps mf).nclip ≤
      (filledList g ops scr big ps mf).alloc := by
  obtain ⟨-, -, i3, -⟩ := fill_inv g hl ops scr big ps ps.length le_rfl
  have hlen : (countsOf ps).length = ps.length := by simp [countsOf]
  rw [fillAfter_length, ← hlen, List.take_length] at i3
  change tightStart (fun s => (fillPairs g ops scr big ps).nprim12.getD s 0)
    (fillPairs g ops scr big ps).nprim12.length ≤ allocPrims g.len ps
  rw [i3]
  have : allocPrims g.len ps = fillIdx g.len (countsOf ps) (countsOf ps).length := countPrims_eq hl _
  rw [this]
  exact tightStart_le_fillIdx hl _ le_rfl

/-- **C62.** From shells to integrals: fill two lists from pairs of shells (any memory, at most one
batch of bra pairs, pairs may repeat a shell), call the generated function of the class without
screening: it runs, and writes for every quartet and component the sum over all primitives of the four
shells of the electron repulsion integrals. -/
theorem C62_integrals {g : GenCfg} (hg : g.OK) {final : QAM} (hf : ClassOK final) (sh : ShCfg)
    (hl : 0 < sh.len) (scr : PrimScreen ℝ) (val : Shell ℝ → Shell ℝ → ℕ → ℕ → ℝ)
    (hscr : sh.screening = true → ExactScr scr val) (big : ℝ)
    (psP psQ : List (Shell ℝ × Shell ℝ)) (hP : ∀ p ∈ psP, p.1.OK ∧ p.2.OK ∧ Faithful p.1 p.2)
    (hQ : ∀ p ∈ psQ, p.1.OK ∧ p.2.OK ∧ Faithful p.1 p.2) (hbra : BatchesFull sh.len psP)
    (memP memQ : ℕ → ℝ) (tol : ℝ) (htol : tol ≤ 0) (outSize : ℕ)
    (hout : psP.length * psQ.length * ncartQ final ≤ outSize) (junk : VPar ℝ)
    (scratch : ℕ → ℕ → ℕ → VMem ℝ) (hmem : HMem ℝ) (out : ℕ → ℝ) :
    ∃ o, genFunction g realOps final ⟨sh.len, filledList sh realShOps scr big psP memP,
        filledList sh realShOps scr big psQ memQ, tol, outSize, junk, scratch⟩ hmem out
        = some (psP.length * psQ.length, o) ∧
      (∀ ab (hab : ab < psP.length) cd (hcd : cd < psQ.length) (x y z w : Exp),
        x.Valid → y.Valid → z.Valid → w.Valid →
        x.am = final.a → y.am = final.b → z.am = final.c → w.am = final.d →
        o ((ab * psQ.length + cd) * ncartQ final + Qrt.index psi4List ⟨⟨x, y⟩, ⟨z, w⟩, 0⟩) =
          shellERI psP[ab].1 psP[ab].2 psQ[cd].1 psQ[cd].2 x y z w) ∧
      ∀ k, psP.length * psQ.length * ncartQ final ≤ k → o k = out k := by
  obtain ⟨p1, p2, -, p4, p5, p6, -⟩ := C39_holds sh hl scr val hscr big psP hP memP
  obtain ⟨q1, q2, -, q4, q5, q6, -⟩ := C39_holds sh hl scr val hscr big psQ hQ memQ
  have tP := filled_tight sh hl realShOps scr big psP memP
  have hc : CallOK final ⟨sh.len, filledList sh realShOps scr big psP memP,
        filledList sh realShOps scr big psQ memQ, tol, outSize, junk, scratch⟩ :=
    ⟨hl, q4, tP, q5, p6, q6, by rw [p1, q1]; exact hout⟩
  have hfull := full_sums hbra (np := (filledList sh realShOps scr big psP memP).nprim12) fun s hs => by
    rw [p2.count s (p1 ▸ hs), List.getD_eq_getElem _ _ hs, storedPair_length]
  obtain ⟨o, r, h1, h2⟩ := C59_integrals hg hf hc htol (by rw [p1]; exact hfull) p2 q2 hmem out
  simp only [p1, q1] at r h1 h2
  refine ⟨o, r, ?_, h2⟩
  intro ab hab cd hcd x y z w vx vy vz vw ex ey ez ew
  rw [h1 ab hab cd hcd x y z w vx vy vz vw ex ey ez ew, List.getD_eq_getElem _ _ hab,
    List.getD_eq_getElem _ _ hcd]
  obtain ⟨a1, a2, a3⟩ := hP _ (List.getElem_mem hab)
  obtain ⟨b1, b2, b3⟩ := hQ _ (List.getElem_mem hcd)
  rw [C40_integrals a1 a2 a3 b1 b2 b3, contractedERI_full a1 a2 b1 b2]

/-- **C62, derivatives.** The same for the generated derivative functions: the values written are the
derivatives of the sums over all primitives with respect to the coordinates of the four centers. -/
theorem C62_derivatives {g : GenCfg} (hg : g.OK) {final : QAM} (hf : DerivClassOK final) (sh : ShCfg)
    (hl : 0 < sh.len) (hder : sh.deriv = true) (scr : PrimScreen ℝ) (val : Shell ℝ → Shell ℝ → ℕ → ℕ → ℝ)
    (hscr : sh.screening = true → ExactScr scr val) (big : ℝ)
    (psP psQ : List (Shell ℝ × Shell ℝ)) (hP : ∀ p ∈ psP, p.1.OK ∧ p.2.OK ∧ Faithful p.1 p.2)
    (hQ : ∀ p ∈ psQ, p.1.OK ∧ p.2.OK ∧ Faithful p.1 p.2) (hbra : BatchesFull sh.len psP)
    (memP memQ : ℕ → ℝ) (tol : ℝ) (htol : tol ≤ 0) (outSize : ℕ)
    (hout : psP.length * psQ.length * (12 * ncartQ final) ≤ outSize) (junk : VPar ℝ)
    (scratch : ℕ → ℕ → ℕ → VMem ℝ) (hmem : HMem ℝ) (out : ℕ → ℝ) :
    ∃ o, derivFunction g realOps final ⟨⟨sh.len, filledList sh realShOps scr big psP memP,
        filledList sh realShOps scr big psQ memQ, tol, outSize, junk, scratch⟩,
        (filledExps sh realShOps scr big psP memP).1, (filledExps sh realShOps scr big psP memP).2,
        (filledExps sh realShOps scr big psQ memQ).1, (filledExps sh realShOps scr big psQ memQ).2⟩ hmem out
        = some (psP.length * psQ.length, o) ∧
      (∀ ab (hab : ab < psP.length) cd (hcd : cd < psQ.length) (x y z w : Exp),
        x.Valid → y.Valid → z.Valid → w.Valid →
        x.am = final.a → y.am = final.b → z.am = final.c → w.am = final.d → ∀ (t : RRType) (i : Dir),
        HasDerivAt (movedERI psP[ab].1 psP[ab].2 psQ[cd].1 psQ[cd].2 x y z w t i)
          (o ((ab * psQ.length + cd) * (12 * ncartQ final) +
            (12 * Qrt.index psi4List ⟨⟨x, y⟩, ⟨z, w⟩, 0⟩ + (3 * t.idx + i.idx))))
          (shellCenter psP[ab].1 psP[ab].2 psQ[cd].1 psQ[cd].2 t i)) ∧
      ∀ k, psP.length * psQ.length * (12 * ncartQ final) ≤ k → o k = out k := by
  obtain ⟨p1, p2, p3, p4, p5, p6, -⟩ := C39_holds sh hl scr val hscr big psP hP memP
  obtain ⟨q1, q2, q3, q4, q5, q6, -⟩ := C39_holds sh hl scr val hscr big psQ hQ memQ
  have tP := filled_tight sh hl realShOps scr big psP memP
  have hc : DerivCallOK final ⟨sh.len, filledList sh realShOps scr big psP memP,
        filledList sh realShOps scr big psQ memQ, tol, outSize, junk, scratch⟩ :=
    ⟨hl, q4, tP, q5, p6, q6, by rw [p1, q1]; exact hout⟩
  have hfull := full_sums hbra (np := (filledList sh realShOps scr big psP memP).nprim12) fun s hs => by
    rw [p2.count s (p1 ▸ hs), List.getD_eq_getElem _ _ hs, storedPair_length]
  obtain ⟨o, r, h1, h2⟩ := C61_gradient hg hf (c := ⟨⟨sh.len, filledList sh realShOps scr big psP memP,
        filledList sh realShOps scr big psQ memQ, tol, outSize, junk, scratch⟩,
        (filledExps sh realShOps scr big psP memP).1, (filledExps sh realShOps scr big psP memP).2,
        (filledExps sh realShOps scr big psQ memQ).1, (filledExps sh realShOps scr big psQ memQ).2⟩)
    hc htol (by rw [p1]; exact hfull) p2 q2 (p3 hder) (q3 hder) hmem out
  simp only [p1, q1] at r h1 h2
  refine ⟨o, r, ?_, h2⟩
  intro ab hab cd hcd x y z w vx vy vz vw ex ey ez ew t i
  have h := h1 ab hab cd hcd x y z w vx vy vz vw ex ey ez ew t i
  rw [List.getD_eq_getElem _ _ hab, List.getD_eq_getElem _ _ hcd] at h
  obtain ⟨a1, a2, a3⟩ := hP _ (List.getElem_mem hab)
  obtain ⟨b1, b2, b3⟩ := hQ _ (List.getElem_mem hcd)
  rw [C40_derivatives a1 a2 a3 b1 b2 b3 vx vy vz vw] at h
  have e : movedERI psP[ab].1 psP[ab].2 psQ[cd].1 psQ[cd].2 x y z w t i = fun v =>
      contractedERI (moveCenter (fullPair psP[ab].1 psP[ab].2) (fullPair psQ[cd].1 psQ[cd].2) t i v).1
      (moveCenter (fullPair psP[ab].1 psP[ab].2) (fullPair psQ[cd].1 psQ[cd].2) t i v).2 x y z w := by
    funext v
    exact (movedERI_full a1 a2 b1 b2 x y z w t i v).symm
  rw [e]
  cases t <;> exact h

/-- The hypotheses can be met: one shell with two primitives, paired with itself on both sides. -/
example : ∃ A : Shell ℝ, A.OK ∧ Faithful A A ∧ sameShell A A = true ∧ pairPrims A A = 3 ∧
    (fullPair A A).prims.length = 4 := by
  refine ⟨⟨1, 0, 2, fun _ => 0, fun i => i + 1, fun _ => 1⟩, ⟨by decide, fun i _ => by positivity⟩,
    fun _ => ⟨rfl, fun _ _ => ⟨rfl, rfl⟩⟩, rfl, rfl, ?_⟩
  simp [fullPair, List.range_succ]

end Simint
