import Verif.Props.ShellFill

/-!
# Properties C43 - C45: copying a shell, and primitive screening values
-/

set_option autoImplicit false

open Finset

namespace Simint

/-! ### C43 -/

theorem shellAfter_size (h : List (Option ℕ)) : (shellAfter h).memsize = (shellAfter h).size := by
  unfold shellAfter
  induction h using List.reverseRecOn with
  | nil => rfl
  | append_singleton l op ih =>
    rw [List.foldl_append]
    simp only [List.foldl_cons, List.foldl_nil]
    generalize List.foldl _ Block.init l = b at ih ⊢
    cases op with
    | none => rfl
    | some n =>
      simp only [allocShell, Block.ensure]
      split
      · rfl
      · exact ih

/-- **C43, partial.** For every history of the destination (`hd`) and of the source (`hs`, then an
allocation for `n` primitives): the copy writes only the block of the destination, and reads only the
block of the source exactly if the old block of the destination was not larger than that of the
source.  The full statement (reads are always inside) is false, see `C43_overread`. -/
theorem C43_copy_partial (hd hs : List (Option ℕ)) (n : ℕ) :
    (copyShell n (shellAfter hd)).2 ≤ (copyShell n (shellAfter hd)).1.size ∧
    2 * n * 8 ≤ (copyShell n (shellAfter hd)).2 ∧
    ((copyShell n (shellAfter hd)).2 ≤ (shellAfter (hs ++ [some n])).size ↔
      (shellAfter hd).size ≤ (shellAfter (hs ++ [some n])).size) := by
  have h1 := shellAfter_size hd
  have h2 : 2 * n * 8 ≤ (shellAfter (hs ++ [some n])).size := by
    have h3 := shellAfter_size hs
    have e : shellAfter (hs ++ [some n]) = allocShell n (shellAfter hs) := by
      unfold shellAfter; rw [List.foldl_append]; rfl
    rw [e]
    unfold allocShell Block.ensure
    split
    · exact le_rfl
    · omega
  unfold copyShell allocShell Block.ensure
  simp only
  split <;> (try simp only) <;> omega

/-- **C43 is false.** A shell that once held five primitives is reused as destination for a copy of a
shell with one primitive: `memcpy` reads 80 bytes from a block of 16. -/
theorem C43_overread : ∃ (hd hs : List (Option ℕ)) (n : ℕ),
    (shellAfter (hs ++ [some n])).size < (copyShell n (shellAfter hd)).2 :=
  ⟨[some 5], [], 1, by decide⟩

/-! ### C44 -/

section
variable {F : Type} [Field F] [LinearOrder F]

/-- The pair of shells is stored folded and has more than one primitive: then the routine never
reaches its padding code. -/
def FoldedPair (A B : Shell F) : Prop := sameShell A B = true ∧ 1 < A.nprim

instance (A B : Shell F) : Decidable (FoldedPair A B) := inferInstanceAs (Decidable (_ ∧ _))

/-- Number of elements that `simint_primscreen_schwarz` writes. -/
def schwarzCount (len : ℕ) (A B : Shell F) : ℕ :=
  if FoldedPair A B then pairPrims A B else simdRound len (pairPrims A B)

theorem schwarz_prefix {len : ℕ} (hl : 0 < len) (val : Shell F → Shell F → ℕ → ℕ → F) (A B : Shell F)
    (k : ℕ) (hk : k ≤ pairPrims A B) (hk2 : k < A.nprim * B.nprim) :
    ∃ m, ((primOrder A B).take k).foldl (schwarzStep len val A B) ⟨0, 0, [], 0⟩ =
      ⟨k, k, (List.range k).map fun i => (i, val A B (primAt A B i).1 (primAt A B i).2), m⟩ := by
  induction k with
  | zero => exact ⟨0, rfl⟩
  | succ k ih =>
    obtain ⟨m, e⟩ := ih (by omega) (by omega)
    have hlt : k < (primOrder A B).length := by rw [primOrder_length]; omega
    rw [List.take_add_one, List.foldl_append, e, List.getElem?_eq_getElem hlt]
    simp only [Option.toList_some, List.foldl_cons, List.foldl_nil]
    have hat : primAt A B k = (primOrder A B)[k] := List.getD_eq_getElem _ _ hlt
    unfold schwarzStep
    simp only
    have hpad : (if (k + 1) % nshellSimd len = 0 ∨ A.nprim * B.nprim ≤ k + 1 then
        simdRound len (k + 1) - (k + 1) else 0) = 0 := by
      split
      · rename_i h
        rcases h with h | h
        · rw [simdRound_of_dvd hl ?_]
          · omega
          · exact (Dvd.intro_left 2 rfl).trans (Nat.dvd_of_mod_eq_zero h)
        · omega
      · rfl
    rw [hpad]
    refine ⟨if val A B (primAt A B k).1 (primAt A B k).2 > m then val A B (primAt A B k).1 (primAt A B k).2
      else m, ?_⟩
    rw [List.range_succ, List.map_append, ← hat]
    simp

/-- What `simint_primscreen_schwarz` stores: one value per pair of primitives, then zeros. -/
theorem schwarz_stores {len : ℕ} (hl : 0 < len) (val : Shell F → Shell F → ℕ → ℕ → F) (A B : Shell F) :
    (schwarz len val A B).1 =
      ((List.range (pairPrims A B)).map fun i => (i, val A B (primAt A B i).1 (primAt A B i).2)) ++
      (List.range (schwarzCount len A B - pairPrims A B)).map fun k => (pairPrims A B + k, 0) := by
  have hsame : sameShell A B = true → A.nprim = B.nprim := fun h => by
    unfold sameShell at h; simp only [Bool.and_eq_true, decide_eq_true_eq] at h; exact h.1
  unfold schwarz
  simp only
  by_cases hf : FoldedPair A B
  · have hlt : pairPrims A B < A.nprim * B.nprim := by
      obtain ⟨h1, h2⟩ := hf
      unfold pairPrims
      rw [if_pos h1, ← hsame h1]
      have : 2 * A.nprim ≤ A.nprim * A.nprim := Nat.mul_le_mul_right _ h2
      rw [Nat.mul_add]
      omega
    obtain ⟨m, e⟩ := schwarz_prefix hl val A B _ le_rfl hlt
    rw [← primOrder_length, List.take_length] at e
    rw [e]
    unfold schwarzCount
    rw [if_pos hf, primOrder_length]
    simp
  · have heq : pairPrims A B = A.nprim * B.nprim := by
      unfold FoldedPair at hf
      unfold pairPrims
      split
      · rename_i h
        have := hsame h
        have h2 : A.nprim ≤ 1 := by
          by_contra hc; exact hf ⟨h, by omega⟩
        rcases Nat.le_one_iff_eq_zero_or_eq_one.1 h2 with h0 | h0 <;> rw [← this, h0]
      · rfl
    by_cases h0 : pairPrims A B = 0
    · have : primOrder A B = [] := List.length_eq_zero_iff.1 (by rw [primOrder_length]; exact h0)
      unfold schwarzCount
      rw [this, if_neg hf, h0, simdRound_of_dvd hl (dvd_zero _)]
      rfl
    · obtain ⟨k, hk⟩ := Nat.exists_eq_succ_of_ne_zero h0
      obtain ⟨m, e⟩ := schwarz_prefix hl val A B k (by omega) (by omega)
      have hlt : k < (primOrder A B).length := by rw [primOrder_length]; omega
      have hat : primAt A B k = (primOrder A B)[k] := List.getD_eq_getElem _ _ hlt
      have hall : primOrder A B = (primOrder A B).take (k + 1) := by
        rw [List.take_of_length_le]; rw [primOrder_length]; omega
      rw [hall, List.take_add_one, List.foldl_append, e, List.getElem?_eq_getElem hlt]
      simp only [Option.toList_some, List.foldl_cons, List.foldl_nil]
      unfold schwarzStep schwarzCount
      simp only
      rw [if_neg hf, if_pos (Or.inr (by omega)), hk, Nat.succ_eq_add_one, List.range_succ, List.map_append,
        ← hat]
      rfl

/-- **C44, exact condition.** With `simint_primscreen_schwarz` the stores of screening values are inside
the array exactly if, for every pair that is not folded, the number of its primitives rounded up to the
vector length still fits behind its first element. -/
theorem C44_schwarz_iff (g : ShCfg) (hl : 0 < g.len) (hs : g.screening = true) (ops : ShOps F)
    (val : Shell F → Shell F → ℕ → ℕ → F) (big : F) (ps : List (Shell F × Shell F)) :
    (∀ i v, (Arr.screen, i, v) ∈ (fillPairs g ops (schwarz g.len val) big ps).log →
      i < allocPrims g.len ps) ↔
    ∀ s (hs : s < ps.length), ¬ FoldedPair ps[s].1 ps[s].2 →
      paddedStart g.len (fun t => (ps.map fun p => pairPrims p.1 p.2).getD t 0) s +
        simdRound g.len (pairPrims ps[s].1 ps[s].2) ≤ allocPrims g.len ps ∨
      pairPrims ps[s].1 ps[s].2 = 0 := by
  have hlen : (countsOf ps).length = ps.length := by simp [countsOf]
  have halloc : allocPrims g.len ps = fillIdx g.len (countsOf ps) ps.length := by
    rw [← hlen]; exact countPrims_eq hl _
  have hst : ∀ s (hs : s < ps.length), fillIdx g.len (countsOf ps) s =
      paddedStart g.len (fun t => (ps.map fun p => pairPrims p.1 p.2).getD t 0) s :=
    fun s hs => fillIdx_eq_padded (by omega)
  have hmem : ∀ i v, (Arr.screen, i, v) ∈ (fillPairs g ops (schwarz g.len val) big ps).log ↔
      ∃ s, ∃ hs : s < ps.length, (∃ k, i = fillIdx g.len (countsOf ps) s + k ∧
        (k, v) ∈ (schwarz g.len val ps[s].1 ps[s].2).1) ∨
        (i < fillIdx g.len (countsOf ps) (s + 1) ∧
          fillIdx g.len (countsOf ps) s + pairPrims ps[s].1 ps[s].2 ≤ i ∧ v = 0) := by
    intro i v
    have := mem_fill_log g hl ops (schwarz g.len val) big ps ps.length le_rfl (Arr.screen, i, v)
    rw [fillAfter_length] at this
    rw [this]
    constructor
    · rintro ⟨s, hs', -, h⟩
      refine ⟨s, hs', ?_⟩
      unfold stepLog at h
      rw [if_pos hs] at h
      simp only [List.mem_append, List.mem_map] at h
      rcases h with ((⟨x, hx, e⟩ | h) | h) | h
      · simp only [Prod.mk.injEq, true_and] at e
        exact Or.inl ⟨x.1, e.1.symm, by rw [← e.2]; exact hx⟩
      · rw [mem_blockStores] at h
        obtain ⟨k, -, h, -⟩ := h
        exact absurd h (screen_not_prim g)
      · obtain ⟨d, -, e⟩ := h
        simp at e
      · rw [mem_blockStores] at h
        obtain ⟨k, h1, h2, h3, h4⟩ := h
        simp only at h3 h4
        exact Or.inr ⟨by omega, by omega, h4⟩
    · rintro ⟨s, hs', h⟩
      refine ⟨s, hs', hs', ?_⟩
      unfold stepLog
      rw [if_pos hs]
      simp only [List.mem_append, List.mem_map]
      rcases h with ⟨k, e, hk⟩ | ⟨h1, h2, h3⟩
      · exact Or.inl (Or.inl (Or.inl ⟨(k, v), hk, by rw [e]⟩))
      · refine Or.inr ?_
        rw [mem_blockStores]
        refine ⟨i - (fillIdx g.len (countsOf ps) s + pairPrims ps[s].1 ps[s].2), by omega,
          screen_mem_pad hs, by simp only; omega, h3⟩
  have hend : ∀ s (hs : s < ps.length), fillIdx g.len (countsOf ps) s + pairPrims ps[s].1 ps[s].2 ≤
      allocPrims g.len ps ∧ fillIdx g.len (countsOf ps) (s + 1) ≤ allocPrims g.len ps := by
    intro s hs
    have h1 := fillIdx_mono hl (countsOf ps) (s := s) (by omega)
    have h2 := fillIdx_le hl (countsOf ps) (s := s + 1) (t := ps.length) (by omega) (by omega)
    rw [npOf_countsOf hs] at h1
    rw [halloc]
    omega
  constructor
  · intro h s hs' hnf
    by_cases h0 : pairPrims ps[s].1 ps[s].2 = 0
    · exact Or.inr h0
    left
    rw [← hst s hs']
    have hr := le_simdRound' hl (pairPrims ps[s].1 ps[s].2)
    have h2 : fillIdx g.len (countsOf ps) s + (simdRound g.len (pairPrims ps[s].1 ps[s].2) - 1) <
        allocPrims g.len ps := by
      by_cases hp : simdRound g.len (pairPrims ps[s].1 ps[s].2) = pairPrims ps[s].1 ps[s].2
      · have := (hend s hs').1
        omega
      refine h _ 0 ((hmem _ _).2 ⟨s, hs', Or.inl ⟨_, rfl, ?_⟩⟩)
      rw [schwarz_stores hl]
      refine List.mem_append_right _ (List.mem_map.2
        ⟨simdRound g.len (pairPrims ps[s].1 ps[s].2) - 1 - pairPrims ps[s].1 ps[s].2, ?_, ?_⟩)
      · unfold schwarzCount
        rw [if_neg hnf, List.mem_range]
        omega
      · simp only [Prod.mk.injEq, and_true]
        omega
    omega
  · intro h i v hi
    obtain ⟨s, hs', h1 | h1⟩ := (hmem i v).1 hi
    · obtain ⟨k, rfl, hk⟩ := h1
      rw [schwarz_stores hl] at hk
      have h2 := (hend s hs').1
      rcases List.mem_append.1 hk with hk | hk
      · obtain ⟨j, hj, e⟩ := List.mem_map.1 hk
        simp only [Prod.mk.injEq] at e
        have := List.mem_range.1 hj
        omega
      · obtain ⟨j, hj, e⟩ := List.mem_map.1 hk
        simp only [Prod.mk.injEq] at e
        have hj' := List.mem_range.1 hj
        unfold schwarzCount at hj'
        split at hj'
        · omega
        · rename_i hnf
          rcases h s hs' hnf with h3 | h3
          · rw [← hst s hs'] at h3
            omega
          · rw [h3, simdRound_of_dvd hl (dvd_zero _)] at hj'
            omega
    · have := (hend s hs').2
      omega

/-- **C44, partial.** A list with one pair (the only kind for which the padding inside the routine is
right), or a build without vectors. -/
theorem C44_schwarz_partial (g : ShCfg) (hl : 0 < g.len) (hs : g.screening = true) (ops : ShOps F)
    (val : Shell F → Shell F → ℕ → ℕ → F) (big : F) (ps : List (Shell F × Shell F))
    (h : ps.length ≤ 1 ∨ g.len = 1) :
    ∀ i v, (Arr.screen, i, v) ∈ (fillPairs g ops (schwarz g.len val) big ps).log →
      i < allocPrims g.len ps := by
  rw [C44_schwarz_iff g hl hs]
  intro s hs' _
  left
  have hlen : (countsOf ps).length = ps.length := by simp [countsOf]
  have halloc : allocPrims g.len ps = fillIdx g.len (countsOf ps) ps.length := by
    rw [← hlen]; exact countPrims_eq hl _
  have hst : fillIdx g.len (countsOf ps) s =
      paddedStart g.len (fun t => (ps.map fun p => pairPrims p.1 p.2).getD t 0) s :=
    fillIdx_eq_padded (by omega)
  rw [← hst, halloc]
  have h1 := fillIdx_mono hl (countsOf ps) (s := s) (by omega)
  have h2 := fillIdx_le hl (countsOf ps) (s := s + 1) (t := ps.length) (by omega) (by omega)
  rw [npOf_countsOf hs'] at h1
  rcases h with h | h
  · have : s = 0 := by omega
    subst this
    have h3 := fillIdx_succ hl (countsOf ps) (s := 0) (by omega)
    rw [if_pos (Or.inr (by omega)), npOf_countsOf hs', fillIdx_zero _ _ hl] at h3
    rw [Nat.zero_add] at h3 h2
    rw [Nat.zero_add] at h3
    rw [fillIdx_zero _ _ hl, Nat.zero_add, ← h3]
    exact h2
  · have : simdRound g.len (pairPrims ps[s].1 ps[s].2) = pairPrims ps[s].1 ps[s].2 :=
      simdRound_of_dvd hl (by rw [h]; exact one_dvd _)
    omega

/-- **C44, the other method.** `simint_primscreen_fastschwarz` stores only inside the array, for every
list. -/
theorem C44_fastschwarz (g : ShCfg) (hl : 0 < g.len) (hs : g.screening = true) (ops : ShOps F)
    (val : Shell F → Shell F → ℕ → ℕ → F) (big : F) (ps : List (Shell F × Shell F)) :
    ∀ i v, (Arr.screen, i, v) ∈ (fillPairs g ops (fastSchwarz val) big ps).log →
      i < allocPrims g.len ps := by
  intro i v h
  have h2 := (C37_fill_writes_allocation g hl ops _ val (fun _ => fastSchwarz_exact val) big ps).2.1
    Arr.screen i
  rcases h2.1 (List.mem_map.2 ⟨_, h, rfl⟩) with h3 | ⟨-, d, h3⟩
  · exact h3.1
  · simp at h3

end

/-- Two pairs of shells: two primitives with one, and one with one; the shells of a pair are at distance
1 in direction x. -/
def overrunPairs : List (Shell ℚ × Shell ℚ) :=
  [(⟨1, 0, 2, fun d => if d = .x then 1 else 0, fun _ => 1, fun _ => 1⟩,
    ⟨2, 0, 1, fun _ => 0, fun _ => 1, fun _ => 1⟩),
   (⟨3, 0, 1, fun d => if d = .x then 1 else 0, fun _ => 1, fun _ => 1⟩,
    ⟨4, 0, 1, fun _ => 0, fun _ => 1, fun _ => 1⟩)]

/-- **C44 is false.** Vector length 4, no derivative arrays: the padding of the second pair is written to
elements 4 and 5 of an array of 4, which is where the differences of the centers are stored; the
difference of the first pair, which is 1, becomes 0. -/
theorem C44_overrun :
    (∃ i v, (Arr.screen, i, v) ∈ (fillPairs ⟨4, true, false⟩ (.exact (fun _ => 1) 1)
      (schwarz 4 fun _ _ _ _ => 1) 0 overrunPairs).log ∧ allocPrims 4 overrunPairs ≤ i) ∧
    ((overrunPairs.getD 0 (⟨0, 0, 0, fun _ => 0, fun _ => 0, fun _ => 0⟩,
      ⟨0, 0, 0, fun _ => 0, fun _ => 0, fun _ => 0⟩)).1.pos .x = 1) ∧
    bufView ⟨4, true, false⟩ 2 4 (applyFlat ⟨4, true, false⟩ 2 4 (fillPairs ⟨4, true, false⟩
      ⟨fun _ => 1, 1⟩ (schwarz 4 fun _ _ _ _ => 1) 0 overrunPairs).log fun _ => 7) (.AB .x) 0 = 0 := by
  refine ⟨⟨4, 0, by decide +kernel, by decide +kernel⟩, rfl, by decide +kernel⟩

/-! ### C45 -/

section
variable {F : Type} [Field F] [LinearOrder F]

/-- The value returned for a pair bounds the values stored for it. -/
def ScrMax (scr : PrimScreen F) : Prop := ∀ A B, ∀ x ∈ (scr A B).1, x.2 ≤ (scr A B).2

theorem foldl_max {α : Type} (f : α → F) (l : List α) (m : F) :
    m ≤ l.foldl (fun m p => if f p > m then f p else m) m ∧
    ∀ a ∈ l, f a ≤ l.foldl (fun m p => if f p > m then f p else m) m := by
  induction l generalizing m with
  | nil => exact ⟨le_rfl, by simp⟩
  | cons b l ih =>
    obtain ⟨h1, h2⟩ := ih (if f b > m then f b else m)
    simp only [List.foldl_cons]
    refine ⟨le_trans ?_ h1, fun a ha => ?_⟩
    · split
      · rename_i h; exact h.le
      · exact le_rfl
    · rcases List.mem_cons.1 ha with rfl | ha
      · refine le_trans ?_ h1
        split
        · exact le_rfl
        · rename_i h; exact not_lt.1 h
      · exact h2 a ha

theorem fastSchwarz_max (val : Shell F → Shell F → ℕ → ℕ → F) : ScrMax (fastSchwarz val) := by
  intro A B x hx
  unfold fastSchwarz at hx ⊢
  simp only at hx ⊢
  obtain ⟨p, hp, rfl⟩ := List.mem_map.1 hx
  have hm : p.1 ∈ primOrder A B := by
    have := List.mem_zipIdx_iff_getElem?.1 hp
    exact List.mem_of_getElem? this
  exact (foldl_max (fun p : ℕ × ℕ => val A B p.1 p.2) _ 0).2 _ hm

theorem schwarz_max (len : ℕ) (val : Shell F → Shell F → ℕ → ℕ → F) : ScrMax (schwarz len val) := by
  intro A B
  unfold schwarz
  simp only
  have key : ∀ (l : List (ℕ × ℕ)) (st : SchwarzSt F), 0 ≤ st.max → (∀ x ∈ st.out, x.2 ≤ st.max) →
      ∀ x ∈ (l.foldl (schwarzStep len val A B) st).out, x.2 ≤ (l.foldl (schwarzStep len val A B) st).max := by
    intro l
    induction l with
    | nil => intro st _ h; exact h
    | cons p l ih =>
      intro st h0 h
      have hle : st.max ≤ (schwarzStep len val A B st p).max := by
        unfold schwarzStep
        simp only
        split
        · rename_i h; exact h.le
        · exact le_rfl
      refine ih _ (h0.trans hle) ?_
      intro x hx
      have hx' : x ∈ st.out ∨ x = (st.idx, val A B p.1 p.2) ∨ x.2 = 0 := by
        unfold schwarzStep at hx
        simp only [List.mem_append, List.mem_map, List.mem_singleton] at hx
        rcases hx with (hx | hx) | ⟨k, -, rfl⟩
        · exact Or.inl hx
        · exact Or.inr (Or.inl hx)
        · exact Or.inr (Or.inr rfl)
      rcases hx' with hx | rfl | hx
      · exact (h x hx).trans hle
      · unfold schwarzStep
        simp only
        split
        · exact le_rfl
        · rename_i h; exact not_lt.1 h
      · rw [hx]; exact h0.trans hle
  exact key _ _ le_rfl (by simp)

theorem fill_screenMax (g : ShCfg) (ops : ShOps F) (scr : PrimScreen F) (hs : g.screening = true) (big : F)
    (ps : List (Shell F × Shell F)) (s : ℕ) (h : s ≤ ps.length) :
    big ≤ (fillAfter g ops scr big ps s).screenMax ∧
    ∀ t (ht : t < ps.length), t < s → (scr ps[t].1 ps[t].2).2 ≤ (fillAfter g ops scr big ps s).screenMax := by
  induction s with
  | zero => exact ⟨le_rfl, fun t _ h => by omega⟩
  | succ s ih =>
    obtain ⟨h1, h2⟩ := ih (by omega)
    rw [fillAfter_succ g ops scr big ps (by omega)]
    have e : (fillStep g ops scr ps.length (fillAfter g ops scr big ps s) ps[s]).screenMax =
        if (scr ps[s].1 ps[s].2).2 > (fillAfter g ops scr big ps s).screenMax then (scr ps[s].1 ps[s].2).2
        else (fillAfter g ops scr big ps s).screenMax := by
      unfold fillStep; simp only; rw [if_pos hs]
    rw [e]
    have hle : (fillAfter g ops scr big ps s).screenMax ≤
        if (scr ps[s].1 ps[s].2).2 > (fillAfter g ops scr big ps s).screenMax then (scr ps[s].1 ps[s].2).2
        else (fillAfter g ops scr big ps s).screenMax := by
      split
      · rename_i h; exact h.le
      · exact le_rfl
    refine ⟨h1.trans hle, fun t ht hlt => ?_⟩
    by_cases hts : t < s
    · exact (h2 t ht hts).trans hle
    · have : t = s := by omega
      subst this
      split
      · exact le_rfl
      · rename_i h; exact not_lt.1 h

/-- **C45.** For both screening methods and every list: `screen_max` is at least every screening value
that was stored (and at least its start value `1.e99`). -/
theorem C45_upper_bound (g : ShCfg) (hl : 0 < g.len) (hs : g.screening = true) (ops : ShOps F)
    (scr : PrimScreen F) (hscr : ScrMax scr) (big : F) (hbig : 0 ≤ big) (ps : List (Shell F × Shell F)) :
    big ≤ (fillPairs g ops scr big ps).screenMax ∧
    ∀ i v, (Arr.screen, i, v) ∈ (fillPairs g ops scr big ps).log → v ≤ (fillPairs g ops scr big ps).screenMax := by
  obtain ⟨h1, h2⟩ := fill_screenMax g ops scr hs big ps ps.length le_rfl
  rw [fillAfter_length] at h1 h2
  refine ⟨h1, fun i v h => ?_⟩
  have := mem_fill_log g hl ops scr big ps ps.length le_rfl (Arr.screen, i, v)
  rw [fillAfter_length] at this
  obtain ⟨s, hs', -, h⟩ := this.1 h
  unfold stepLog at h
  rw [if_pos hs] at h
  simp only [List.mem_append, List.mem_map] at h
  rcases h with ((⟨x, hx, e⟩ | h) | h) | h
  · simp only [Prod.mk.injEq, true_and] at e
    rw [← e.2]
    exact (hscr _ _ x hx).trans (h2 s hs' hs')
  · rw [mem_blockStores] at h
    obtain ⟨k, -, h, -⟩ := h
    exact absurd h (screen_not_prim g)
  · obtain ⟨d, -, e⟩ := h
    simp at e
  · rw [mem_blockStores] at h
    obtain ⟨k, -, -, -, h4⟩ := h
    simp only at h4
    rw [h4]
    exact hbig.trans h1

/-- Contents of the array after a fill with one value per pair of primitives: every element is at most
`screen_max`. -/
theorem C45_elements (g : ShCfg) (hl : 0 < g.len) (hs : g.screening = true) (ops : ShOps F)
    (val : Shell F → Shell F → ℕ → ℕ → F) (big : F) (hbig : 0 ≤ big) (ps : List (Shell F × Shell F))
    (mf : ℕ → F) : ∀ i < allocPrims g.len ps, (filledList g ops (fastSchwarz val) big ps mf).screen i ≤
      (filledList g ops (fastSchwarz val) big ps mf).screenMax := by
  intro i hi
  have h2 := (C37_fill_writes_allocation g hl ops _ val (fun _ => fastSchwarz_exact val) big ps).2.1
    Arr.screen i
  obtain ⟨x, hx, e⟩ := List.mem_map.1 (h2.2 (Or.inl ⟨hi, hs⟩))
  simp only [Prod.mk.injEq] at e
  have hx' : (Arr.screen, i, x.2.2) ∈ (fillPairs g ops (fastSchwarz val) big ps).log := by
    rw [← e.1, ← e.2]; exact hx
  have := (C45_upper_bound g hl hs ops _ (fastSchwarz_max val) big hbig ps).2 i _ hx'
  have e2 := bufView_fill g hl ops _ val (fun _ => fastSchwarz_exact val) big ps mf hx'
  change bufView _ _ _ _ _ _ ≤ _
  rw [e2]
  exact this

variable [IsStrictOrderedRing F]

/-- `simint_compute_ostei`, skel/simint/ostei/ostei.c:16-19: the whole call is skipped. -/
def skipCall (P Q : MSP F) (tol : F) : Prop := 0 < tol ∧ P.screenMax * Q.screenMax < tol * tol

/-- **C45, consequence.** If the call is skipped, every product of a bra and a ket screening value is
below the squared tolerance. -/
theorem C45_skip {P Q : MSP F} {tol : F} (h : skipCall P Q tol) {i j : ℕ} (hP : P.screen i ≤ P.screenMax)
    (hQ : Q.screen j ≤ Q.screenMax) (hi : 0 ≤ P.screen i) (hj : 0 ≤ Q.screen j) :
    P.screen i * Q.screen j < tol * tol :=
  lt_of_le_of_lt (mul_le_mul hP hQ hj (hi.trans hP)) h.2

/-- The start value `1.e99` keeps the maximum so large that the call is in fact never skipped unless the
tolerance exceeds it. -/
theorem C45_never_skipped (g : ShCfg) (hl : 0 < g.len) (hs : g.screening = true) (ops : ShOps F)
    (scr : PrimScreen F) (hscr : ScrMax scr) (big : F) (hbig : 0 ≤ big) (ps qs : List (Shell F × Shell F))
    (mf mf' : ℕ → F) (tol : F) (htol : tol ≤ big) :
    ¬ skipCall (filledList g ops scr big ps mf) (filledList g ops scr big qs mf') tol := by
  rintro ⟨h0, h⟩
  have h1 := (C45_upper_bound g hl hs ops scr hscr big hbig ps).1
  have h2 := (C45_upper_bound g hl hs ops scr hscr big hbig qs).1
  refine absurd h (not_lt.2 ?_)
  exact mul_le_mul (htol.trans h1) (htol.trans h2) h0.le (hbig.trans h1)

/-- Non-trivial case: two pairs with values 5 and 3, start value 0. -/
example : (fillPairs ⟨2, true, false⟩ (.exact (fun _ => (1 : ℚ)) 1) (fastSchwarz fun A _ _ _ => if A.ptr = 1 then 5 else 3)
    0 overrunPairs).screenMax = 5 := by decide +kernel

end

end Simint
