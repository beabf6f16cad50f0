import Verif.Props.SortFill
import Verif.Props.ShellScreen

/-!
# Contents of lists filled with `simint_primscreen_schwarz` (C44, C68)

The routine stores zeros behind its values. If these stay inside of the array, they are overwritten by
later stores, and the list is the same as with one value per pair of primitives.
-/

set_option autoImplicit false

namespace Simint

section
variable {F : Type}

theorem applyFlat_append (g : ShCfg) (npair n : ℕ) (l1 l2 : List (Store F)) (m : ℕ → F) :
    applyFlat g npair n (l1 ++ l2) m = applyFlat g npair n l2 (applyFlat g npair n l1 m) := by
  unfold applyFlat; rw [List.foldl_append]

/-- Two memories that get the same stores agree where they agreed before and where something is
stored. -/
theorem applyFlat_agree (g : ShCfg) (npair n : ℕ) (l : List (Store F)) (m1 m2 : ℕ → F) (k : ℕ)
    (h : m1 k = m2 k ∨ ∃ s ∈ l, flatAddr g npair n s.1 s.2.1 = some k) :
    applyFlat g npair n l m1 k = applyFlat g npair n l m2 k := by
  induction l generalizing m1 m2 with
  | nil =>
    rcases h with h | ⟨s, hs, -⟩
    · exact h
    · exact absurd hs (by simp)
  | cons s l ih =>
    have e : ∀ m : ℕ → F, applyFlat g npair n (s :: l) m = applyFlat g npair n l
      (fun k => if flatAddr g npair n s.1 s.2.1 = some k then s.2.2 else m k) := fun m => rfl
    rw [e, e]
    apply ih
    by_cases hs : flatAddr g npair n s.1 s.2.1 = some k
    · left; simp only [if_pos hs]
    · rcases h with h | ⟨t, ht, h⟩
      · left; simp only [if_neg hs]; exact h
      · rcases List.mem_cons.1 ht with rfl | ht
        · exact absurd h hs
        · exact Or.inr ⟨t, ht, h⟩

theorem applyFlat_other (g : ShCfg) (npair n : ℕ) (l : List (Store F)) (m : ℕ → F) (k : ℕ)
    (h : ∀ s ∈ l, flatAddr g npair n s.1 s.2.1 ≠ some k) : applyFlat g npair n l m k = m k := by
  induction l generalizing m with
  | nil => rfl
  | cons s l ih =>
    have e : applyFlat g npair n (s :: l) m = applyFlat g npair n l
      (fun k => if flatAddr g npair n s.1 s.2.1 = some k then s.2.2 else m k) := rfl
    rw [e, ih _ fun t ht => h t (by simp [ht])]
    exact if_neg (h s (by simp))

variable [Field F] [LinearOrder F]

theorem schwarz_screenMax (len : ℕ) (val : Shell F → Shell F → ℕ → ℕ → F) (A B : Shell F) :
    (schwarz len val A B).2 = (fastSchwarz val A B).2 := by
  unfold schwarz fastSchwarz
  simp only
  have : ∀ (l : List (ℕ × ℕ)) (st : SchwarzSt F),
      (l.foldl (schwarzStep len val A B) st).max =
        l.foldl (fun m p => if val A B p.1 p.2 > m then val A B p.1 p.2 else m) st.max := by
    intro l
    induction l with
    | nil => intro st; rfl
    | cons p l ih =>
      intro st
      rw [List.foldl_cons, ih]
      rfl
  exact this _ _

theorem fill_other (g : ShCfg) (hl : 0 < g.len) (ops : ShOps F) (val : Shell F → Shell F → ℕ → ℕ → F)
    (big : F) (ps : List (Shell F × Shell F)) (s : ℕ) (hs : s ≤ ps.length) :
    (fillAfter g ops (schwarz g.len val) big ps s).screenMax =
      (fillAfter g ops (fastSchwarz val) big ps s).screenMax := by
  induction s with
  | zero => rfl
  | succ s ih =>
    rw [fillAfter_succ _ _ _ _ _ hs, fillAfter_succ _ _ _ _ _ hs]
    unfold fillStep
    simp only
    rw [ih (by omega), schwarz_screenMax]

/-- **C44, contents.** If the stores of `simint_primscreen_schwarz` stay inside of the array (the
condition of `C44_schwarz_iff`), the filled buffer, the counts and the maximum are the same as with
exactly one value per pair of primitives. -/
theorem C44_contents (g : ShCfg) (hl : 0 < g.len) (ops : ShOps F) (val : Shell F → Shell F → ℕ → ℕ → F)
    (big : F) (ps : List (Shell F × Shell F))
    (hin : ∀ i v, (Arr.screen, i, v) ∈ (fillPairs g ops (schwarz g.len val) big ps).log →
      i < allocPrims g.len ps) (mf : ℕ → F) :
    applyFlat g ps.length (allocPrims g.len ps) (fillPairs g ops (schwarz g.len val) big ps).log mf =
      applyFlat g ps.length (allocPrims g.len ps) (fillPairs g ops (fastSchwarz val) big ps).log mf ∧
    (fillPairs g ops (schwarz g.len val) big ps).nprim12 = (fillPairs g ops (fastSchwarz val) big ps).nprim12 ∧
    (fillPairs g ops (schwarz g.len val) big ps).nprim = (fillPairs g ops (fastSchwarz val) big ps).nprim ∧
    (fillPairs g ops (schwarz g.len val) big ps).screenMax =
      (fillPairs g ops (fastSchwarz val) big ps).screenMax := by
  set N := allocPrims g.len ps
  have hlen : (countsOf ps).length = ps.length := by simp [countsOf]
  have halloc : N = fillIdx g.len (countsOf ps) ps.length := by
    rw [← hlen]; exact countPrims_eq hl _
  have key : ∀ s ≤ ps.length, ∀ k,
      (∀ i, fillIdx g.len (countsOf ps) s ≤ i → i < N → flatAddr g ps.length N .screen i ≠ some k) →
      applyFlat g ps.length N (fillAfter g ops (schwarz g.len val) big ps s).log mf k =
        applyFlat g ps.length N (fillAfter g ops (fastSchwarz val) big ps s).log mf k := by
    intro s
    induction s with
    | zero => intro _ k _; rfl
    | succ s ih =>
      intro hs k hk
      have hs' : s < ps.length := hs
      have ih := ih (by omega) k
      have hlog := fill_log g hl ops (schwarz g.len val) big ps hs'
      have hsub : ∀ i v, (Arr.screen, i, v) ∈ stepLog g ops (schwarz g.len val) s
          (fillIdx g.len (countsOf ps) s) (fillIdx g.len (countsOf ps) (s + 1)) ps[s].1 ps[s].2 → i < N := by
        intro i v h
        apply hin i v
        have := (mem_fill_log g hl ops (schwarz g.len val) big ps ps.length le_rfl (Arr.screen, i, v)).2
          ⟨s, hs', hs', h⟩
        rw [fillAfter_length] at this
        exact this
      rw [hlog, fill_log g hl ops (fastSchwarz val) big ps hs']
      set idx := fillIdx g.len (countsOf ps) s
      set idx' := fillIdx g.len (countsOf ps) (s + 1)
      have hidx : idx + pairPrims ps[s].1 ps[s].2 ≤ idx' := by
        have := fillIdx_mono hl (countsOf ps) (s := s) (by omega)
        rwa [npOf_countsOf hs'] at this
      by_cases hsc : g.screening = true
      swap
      · have e : stepLog g ops (schwarz g.len val) s idx idx' ps[s].1 ps[s].2 =
            stepLog g ops (fastSchwarz val) s idx idx' ps[s].1 ps[s].2 := by
          unfold stepLog; rw [if_neg hsc, if_neg hsc]
        rw [e, applyFlat_append, applyFlat_append]
        apply applyFlat_agree
        left
        apply ih
        intro i h1 h2
        have : flatAddr g ps.length N .screen i = none := by
          have hf : g.screening = false := by simpa using hsc
          simp [flatAddr, Arr.offset, Arr.num, hf]
        rw [this]; simp
      · -- split the stores
        set E : List (Store F) := (List.range (pairPrims ps[s].1 ps[s].2)).map fun i =>
          (Arr.screen, idx + i, val ps[s].1 ps[s].2 (primAt ps[s].1 ps[s].2 i).1 (primAt ps[s].1 ps[s].2 i).2)
          with hE
        set Z : List (Store F) := (List.range (schwarzCount g.len ps[s].1 ps[s].2 -
          pairPrims ps[s].1 ps[s].2)).map fun i => (Arr.screen, idx + (pairPrims ps[s].1 ps[s].2 + i), 0) with hZ
        set R : List (Store F) := blockStores (primArrs g) idx (pairPrims ps[s].1 ps[s].2)
            (fun k a => ops.prim ps[s].1 ps[s].2 (primAt ps[s].1 ps[s].2 k).1
              (primAt ps[s].1 ps[s].2 k).2 a) ++
          (dirList.map fun d => (Arr.AB d, s, ops.sub (ps[s].1.pos d) (ps[s].2.pos d))) ++
          blockStores (padArrs g) (idx + pairPrims ps[s].1 ps[s].2)
            (idx' - (idx + pairPrims ps[s].1 ps[s].2)) (fun _ a => padValue a) with hR
        have e1 : stepLog g ops (schwarz g.len val) s idx idx' ps[s].1 ps[s].2 = E ++ (Z ++ R) := by
          unfold stepLog
          rw [if_pos hsc, schwarz_stores hl, List.map_append, List.map_map, List.map_map, hE, hZ, hR]
          simp only [List.append_assoc]
          rfl
        have e2 : stepLog g ops (fastSchwarz val) s idx idx' ps[s].1 ps[s].2 = E ++ R := by
          unfold stepLog
          rw [if_pos hsc, fastSchwarz_exact val, List.map_map, hE, hR]
          simp only [List.append_assoc]
          rfl
        have hpad : ∀ i, idx + pairPrims ps[s].1 ps[s].2 ≤ i → i < idx' →
            ∃ x ∈ R, x.1 = Arr.screen ∧ x.2.1 = i := by
          intro i h1 h2
          refine ⟨(Arr.screen, i, padValue .screen), ?_, rfl, rfl⟩
          rw [hR]
          refine List.mem_append_right _ (mem_blockStores.2
            ⟨i - (idx + pairPrims ps[s].1 ps[s].2), by omega, screen_mem_pad hsc, by simp only; omega, rfl⟩)
        rw [e1] at hsub
        rw [e1, e2]
        simp only [applyFlat_append]
        apply applyFlat_agree
        by_cases hw : ∃ x ∈ R, flatAddr g ps.length N x.1 x.2.1 = some k
        · exact Or.inr hw
        left
        have hno : ∀ i, idx + pairPrims ps[s].1 ps[s].2 ≤ i → i < N →
            flatAddr g ps.length N .screen i ≠ some k := by
          intro i h1 h2 h3
          by_cases h4 : i < idx'
          · obtain ⟨x, hx, x1, x2⟩ := hpad i h1 h4
            exact hw ⟨x, hx, by rw [x1, x2]; exact h3⟩
          · exact hk i (by omega) h2 h3
        rw [applyFlat_other]
        · apply applyFlat_agree
          by_cases hwE : ∃ x ∈ E, flatAddr g ps.length N x.1 x.2.1 = some k
          · exact Or.inr hwE
          left
          apply ih
          intro i h1 h2 h3
          by_cases h4 : i < idx + pairPrims ps[s].1 ps[s].2
          · refine hwE ⟨_, List.mem_map.2 ⟨i - idx, List.mem_range.2 (by omega), rfl⟩, ?_⟩
            simp only
            rw [Nat.add_sub_cancel' h1]
            exact h3
          · exact hno i (by omega) h2 h3
        · intro x hx
          obtain ⟨j, hj, rfl⟩ := List.mem_map.1 hx
          refine hno _ (by simp only; omega) (hsub _ 0 ?_)
          exact List.mem_append_right _ (List.mem_append_left _ hx)
  obtain ⟨-, -, i3, i4⟩ := fill_inv g hl ops (schwarz g.len val) big ps ps.length le_rfl
  obtain ⟨-, -, j3, j4⟩ := fill_inv g hl ops (fastSchwarz val) big ps ps.length le_rfl
  have i5 := fill_other g hl ops val big ps ps.length le_rfl
  have h := key ps.length le_rfl
  simp only [fillAfter_length] at *
  refine ⟨funext fun k => h k fun i h1 h2 => by omega, by rw [i3, j3], by rw [i4, j4], i5⟩

/-- The complete list is the same as well. -/
theorem completeList_schwarz (g : ShCfg) (hl : 0 < g.len) (ops : ShOps F) (val : Shell F → Shell F → ℕ → ℕ → F)
    (big : F) (ps : List (Shell F × Shell F))
    (hin : ∀ i v, (Arr.screen, i, v) ∈ (fillPairs g ops (schwarz g.len val) big ps).log →
      i < allocPrims g.len ps) (mf : ℕ → F) :
    completeList g ops (schwarz g.len val) big ps mf = completeList g ops (fastSchwarz val) big ps mf := by
  obtain ⟨h1, h2, h3, h4⟩ := C44_contents g hl ops val big ps hin mf
  unfold completeList completeFill
  simp only
  rw [h1, h2, h3, h4]

end

end Simint
