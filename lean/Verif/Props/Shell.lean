import Verif.ShellLemmas
import Verif.Spec.Shell

/-!
# Properties C37 - C39, C43 - C45: memory of shells and lists of shell pairs
-/

set_option autoImplicit false

open Finset

namespace Simint

/-! ### C38 -/

/-- The arrays with one entry per primitive in the order of memory. -/
def arrList (g : ShCfg) : List Arr :=
  dirList.map .pos ++ dirList.map .PA ++ dirList.map .PB ++ [.alpha, .prefac] ++
    (if g.screening then [.screen] else []) ++ (if g.deriv then [.alpha2, .beta2] else [])

theorem arrList_num {g : ShCfg} {a : Arr} {k : ℕ} (h : a.num g = some k) : (arrList g)[k]? = some a := by
  obtain ⟨len, sc, dv⟩ := g
  cases sc <;> cases dv <;> cases a <;> first
    | (rename_i d; cases d <;> first | (cases h; rfl) | exact absurd h (by simp [Arr.num]))
    | (cases h; rfl)
    | exact absurd h (by simp [Arr.num])

theorem num_lt {g : ShCfg} {a : Arr} {k : ℕ} (h : a.num g = some k) : k < g.narr := by
  have h1 := (List.getElem?_eq_some_iff.1 (arrList_num h)).1
  have h2 : (arrList g).length = g.narr := by
    unfold arrList ShCfg.narr dirList
    cases g.screening <;> cases g.deriv <;> rfl
  omega

theorem num_inj {g : ShCfg} {a b : Arr} {k : ℕ} (h1 : a.num g = some k) (h2 : b.num g = some k) : a = b := by
  have e1 := arrList_num h1
  have e2 := arrList_num h2
  rw [e1, Option.some.injEq] at e2
  exact e2

/-- Offset and size of an array: per primitive, per pair, or the counts. -/
theorem offset_cases {g : ShCfg} {npair nprim o : ℕ} {a : Arr} (h : a.offset g npair nprim = some o) :
    (∃ k, a.num g = some k ∧ o = k * (nprim * 8) ∧ a.bytes npair nprim = nprim * 8) ∨
    (∃ d, a = .AB d ∧ o = g.narr * (nprim * 8) + d.idx * (npair * 8) ∧ a.bytes npair nprim = npair * 8) ∨
    (a = .nprim12 ∧ o = g.narr * (nprim * 8) + 3 * (npair * 8) ∧ a.bytes npair nprim = npair * 4) := by
  cases a with
  | AB d => exact Or.inr (Or.inl ⟨d, rfl, (Option.some.inj h).symm, rfl⟩)
  | nprim12 => exact Or.inr (Or.inr ⟨rfl, (Option.some.inj h).symm, rfl⟩)
  | _ =>
    left
    simp only [Arr.offset] at h
    obtain ⟨k, h1, h2⟩ := Option.map_eq_some_iff.1 h
    exact ⟨k, h1, h2.symm, rfl⟩

theorem step_le {a b n : ℕ} (h : a < b) : a * n + n ≤ b * n := by
  have : (a + 1) * n ≤ b * n := Nat.mul_le_mul_right _ h
  rw [Nat.succ_mul] at this
  exact this

theorem Dir.idx_lt (d : Dir) : d.idx < 3 := by cases d <;> decide

theorem Dir.idx_inj {d e : Dir} (h : d.idx = e.idx) : d = e := by
  cases d <;> cases e <;> first | rfl | exact absurd h (by decide)

theorem blockAfter_size (h : List BlockOp) : (blockAfter h).memsize = (blockAfter h).size := by
  unfold blockAfter
  induction h using List.reverseRecOn with
  | nil => rfl
  | append_singleton l op ih =>
    rw [List.foldl_append]
    simp only [List.foldl_cons, List.foldl_nil]
    generalize List.foldl _ Block.init l = b at ih ⊢
    cases op with
    | free => rfl
    | alloc g p n =>
      simp only [allocBase, Block.ensure]
      split
      · rfl
      · exact ih

/-- **C38.** After any history of allocations and frees of a list of shell pairs, and a further
allocation: the arrays that exist are pairwise disjoint in memory and inside the allocated block. -/
theorem C38_disjoint (h : List BlockOp) (g : ShCfg) (npair nprim : ℕ) (a b : Arr) (o o' : ℕ)
    (ha : a.offset g npair nprim = some o) (hb : b.offset g npair nprim = some o') :
    (a ≠ b → Apart o (a.bytes npair nprim) o' (b.bytes npair nprim)) ∧
    o + a.bytes npair nprim ≤ (blockAfter (h ++ [.alloc g npair nprim])).size := by
  have hsize : g.need npair nprim ≤ (blockAfter (h ++ [.alloc g npair nprim])).size := by
    have e : blockAfter (h ++ [.alloc g npair nprim]) = allocBase g npair nprim (blockAfter h) := by
      unfold blockAfter; rw [List.foldl_append]; rfl
    have := blockAfter_size h
    rw [e]
    unfold allocBase Block.ensure
    split
    · exact le_rfl
    · omega
  unfold ShCfg.need at hsize
  rw [Nat.mul_comm (nprim * 8)] at hsize
  constructor
  · intro hne
    unfold Apart
    rcases offset_cases ha with ⟨k, h1, h2, h3⟩ | ⟨d, h1, h2, h3⟩ | ⟨h1, h2, h3⟩ <;>
    rcases offset_cases hb with ⟨k', h1', h2', h3'⟩ | ⟨d', h1', h2', h3'⟩ | ⟨h1', h2', h3'⟩ <;>
    rw [h2, h2', h3, h3']
    · have hk : k ≠ k' := fun e => hne (num_inj h1 (e ▸ h1'))
      rcases Nat.lt_or_gt_of_ne hk with h | h
      · exact Or.inl (step_le h)
      · exact Or.inr (step_le h)
    · have := step_le (n := nprim * 8) (num_lt h1); omega
    · have := step_le (n := nprim * 8) (num_lt h1); omega
    · have := step_le (n := nprim * 8) (num_lt h1'); omega
    · have hk : d.idx ≠ d'.idx := fun e => hne (by rw [h1, h1', Dir.idx_inj e])
      rcases Nat.lt_or_gt_of_ne hk with h | h
      · have := step_le (n := npair * 8) h; omega
      · have := step_le (n := npair * 8) h; omega
    · have := step_le (n := npair * 8) (Dir.idx_lt d); omega
    · have := step_le (n := nprim * 8) (num_lt h1'); omega
    · have := step_le (n := npair * 8) (Dir.idx_lt d'); omega
    · exact absurd (h1.trans h1'.symm) hne
  · rcases offset_cases ha with ⟨k, h1, h2, h3⟩ | ⟨d, h1, h2, h3⟩ | ⟨h1, h2, h3⟩ <;> rw [h2, h3]
    · have := step_le (n := nprim * 8) (num_lt h1); omega
    · have := step_le (n := npair * 8) (Dir.idx_lt d); omega
    · omega

/-- Non-trivial case: three pairs, eight slots, screening and derivatives: 14 arrays of 64 bytes, then
three of 24 bytes, then the counts. -/
example : Arr.offset ⟨4, true, true⟩ 3 8 .screen = some 704 ∧ Arr.offset ⟨4, true, true⟩ 3 8 .beta2 = some 832
    ∧ Arr.offset ⟨4, true, true⟩ 3 8 (.AB .y) = some 920 ∧ Arr.offset ⟨4, true, true⟩ 3 8 .nprim12 = some 968
    ∧ (blockAfter [.alloc ⟨4, true, true⟩ 3 8]).size = 980 := by decide

/-! ### C37 -/

theorem isElem_iff {g : ShCfg} {npair nprim : ℕ} {a : Arr} {i : ℕ} :
    IsElem g npair nprim a i ↔ (a ∈ padArrs g ∧ i < nprim) ∨ ∃ d, a = .AB d ∧ i < npair := by
  have h : PerPrim g a ↔ a ∈ padArrs g := by
    obtain ⟨len, sc, dv⟩ := g
    unfold padArrs primArrs dirList PerPrim
    cases sc <;> cases dv <;> cases a
    all_goals first | (rename_i d; cases d <;> simp) | simp
  unfold IsElem
  rw [h]
  constructor
  · rintro (⟨h1, h2⟩ | ⟨h1, d, h2⟩)
    · exact Or.inl ⟨h2, h1⟩
    · exact Or.inr ⟨d, h2, h1⟩
  · rintro (⟨h1, h2⟩ | ⟨d, h2, h1⟩)
    · exact Or.inl ⟨h2, h1⟩
    · exact Or.inr ⟨h1, d, h2⟩

section
variable {F : Type} [Field F] [LinearOrder F]

/-- **C37.** For every list of pairs of shells, with or without repeated shells, every vector length,
with derivatives or not, without screening or with a screening routine that stores one value per pair
of primitives (`fastSchwarz_exact`): the slots counted by the allocation are exactly the elements
that filling writes, and each of them is written exactly once; the counts are those of the pairs. -/
theorem C37_fill_writes_allocation (g : ShCfg) (hl : 0 < g.len) (ops : ShOps F) (scr : PrimScreen F)
    (val : Shell F → Shell F → ℕ → ℕ → F) (hscr : g.screening = true → ExactScr scr val) (big : F)
    (ps : List (Shell F × Shell F)) :
    (((fillPairs g ops scr big ps).log.map fun s => (s.1, s.2.1)).Nodup) ∧
    (∀ a i, (a, i) ∈ ((fillPairs g ops scr big ps).log.map fun s => (s.1, s.2.1)) ↔
      IsElem g ps.length (allocPrims g.len ps) a i) ∧
    (fillPairs g ops scr big ps).idx = allocPrims g.len ps ∧
    (fillPairs g ops scr big ps).nprim12 = ps.map (fun p => pairPrims p.1 p.2) ∧
    (fillPairs g ops scr big ps).nprim = (ps.map fun p => pairPrims p.1 p.2).sum := by
  have hlen : (countsOf ps).length = ps.length := by simp [countsOf]
  have halloc : allocPrims g.len ps = fillIdx g.len (countsOf ps) ps.length := by
    rw [← hlen]; exact countPrims_eq hl _
  obtain ⟨-, i2, i3, i4⟩ := fill_inv g hl ops scr big ps ps.length le_rfl
  rw [fillAfter_length] at i2 i3 i4
  rw [← hlen, List.take_length] at i3 i4
  refine ⟨?_, fun a i => ?_, by rw [i2, halloc], i3, i4⟩
  · have := fill_nodup g hl ops scr hscr big ps ps.length le_rfl
    rw [fillAfter_length] at this
    exact this
  · rw [isElem_iff]
    constructor
    · intro h
      obtain ⟨x, hx, e⟩ := List.mem_map.1 h
      rw [← fillAfter_length] at hx
      have := fill_addr_lt g hl ops scr hscr big ps ps.length le_rfl hx
      simp only [Prod.mk.injEq] at e
      rw [e.1, e.2, ← halloc] at this
      exact this
    · intro h
      rw [← fillAfter_length]
      rcases h with ⟨h1, h2⟩ | ⟨d, rfl, h2⟩
      · rw [halloc] at h2
        obtain ⟨s, hs, l1, l2⟩ := slot_cases hl (countsOf ps) (n := ps.length) (by omega) h2
        by_cases hk : i < fillIdx g.len (countsOf ps) s + pairPrims ps[s].1 ps[s].2
        · refine List.mem_map.2 ⟨(a, i, fullValue ops val ps[s].1 ps[s].2
            (i - fillIdx g.len (countsOf ps) s) a), ?_, rfl⟩
          refine (mem_fill_log g hl ops scr big ps ps.length le_rfl _).2 ⟨s, hs, hs, ?_⟩
          exact (mem_stepLog hscr).2 (Or.inl ⟨i - fillIdx g.len (countsOf ps) s, by omega, h1,
            by simp only; omega, rfl⟩)
        · refine List.mem_map.2 ⟨(a, i, padValue a), ?_, rfl⟩
          refine (mem_fill_log g hl ops scr big ps ps.length le_rfl _).2 ⟨s, hs, hs, ?_⟩
          exact (mem_stepLog hscr).2 (Or.inr (Or.inl ⟨h1, by simp only; omega, l2, rfl⟩))
      · refine List.mem_map.2 ⟨(.AB d, i, ops.sub (ps[i].1.pos d) (ps[i].2.pos d)), ?_, rfl⟩
        refine (mem_fill_log g hl ops scr big ps ps.length le_rfl _).2 ⟨i, h2, h2, ?_⟩
        exact (mem_stepLog hscr).2 (Or.inr (Or.inr ⟨d, rfl⟩))

theorem flatAddr_inj {g : ShCfg} {npair nprim : ℕ} {a b : Arr} {i j k : ℕ}
    (ha : IsElem g npair nprim a i) (hb : IsElem g npair nprim b j)
    (h1 : flatAddr g npair nprim a i = some k) (h2 : flatAddr g npair nprim b j = some k) :
    a = b ∧ i = j := by
  obtain ⟨o, ho, e⟩ := Option.map_eq_some_iff.1 h1
  obtain ⟨o', ho', e'⟩ := Option.map_eq_some_iff.1 h2
  have hd := (C38_disjoint [] g npair nprim a b o o' ho ho').1
  have sz : ∀ {c : Arr} {l o : ℕ}, IsElem g npair nprim c l → c.offset g npair nprim = some o →
      8 * (l + 1) ≤ c.bytes npair nprim ∧ ∃ q, o = 8 * q := by
    intro c l o hc ho
    rcases offset_cases ho with ⟨k, h1, h2, h3⟩ | ⟨d, h1, h2, h3⟩ | ⟨h1, h2, h3⟩
    · refine ⟨?_, k * nprim, by rw [h2]; ring⟩
      rcases isElem_iff.1 hc with ⟨-, h⟩ | ⟨d, rfl, -⟩
      · rw [h3]; omega
      · exact absurd h1 (by simp [Arr.num])
    · refine ⟨?_, g.narr * nprim + d.idx * npair, by rw [h2]; ring⟩
      rcases isElem_iff.1 hc with ⟨h, -⟩ | ⟨d, rfl, h⟩
      · exact absurd (h1 ▸ h) (AB_not_pad g d)
      · rw [h3]; omega
    · subst h1
      rcases hc with ⟨-, h⟩ | ⟨-, d, h⟩
      · exact h.elim
      · exact absurd h (by simp)
  obtain ⟨s1, q1, rfl⟩ := sz ha ho
  obtain ⟨s2, q2, rfl⟩ := sz hb ho'
  by_cases hab : a = b
  · subst hab
    rw [ho] at ho'
    have : 8 * q1 = 8 * q2 := Option.some.inj ho'
    exact ⟨rfl, by omega⟩
  · rcases hd hab with h | h <;> omega

theorem applyFlat_val {g : ShCfg} {npair nprim : ℕ} {l : List (Store F)} {m : ℕ → F} {a : Arr} {i k : ℕ}
    {v : F} (hk : flatAddr g npair nprim a i = some k) (h1 : (a, i, v) ∈ l)
    (h2 : ∀ s ∈ l, flatAddr g npair nprim s.1 s.2.1 = some k → s.2.2 = v) :
    applyFlat g npair nprim l m k = v := by
  have other : ∀ (l : List (Store F)) (m : ℕ → F), (∀ s ∈ l, flatAddr g npair nprim s.1 s.2.1 ≠ some k) →
      applyFlat g npair nprim l m k = m k := by
    intro l
    induction l with
    | nil => intro m _; rfl
    | cons s l ih =>
      intro m h
      have e : applyFlat g npair nprim (s :: l) m = applyFlat g npair nprim l
        (fun k => if flatAddr g npair nprim s.1 s.2.1 = some k then s.2.2 else m k) := rfl
      rw [e, ih _ fun t ht => h t (by simp [ht])]
      exact if_neg (h s (by simp))
  induction l generalizing m with
  | nil => exact absurd h1 (by simp)
  | cons s l ih =>
    have e : applyFlat g npair nprim (s :: l) m = applyFlat g npair nprim l
      (fun k => if flatAddr g npair nprim s.1 s.2.1 = some k then s.2.2 else m k) := rfl
    rw [e]
    by_cases hl : (a, i, v) ∈ l
    · exact ih hl fun t ht => h2 t (by simp [ht])
    · have hs : s = (a, i, v) := by
        rcases List.mem_cons.1 h1 with h | h
        · exact h.symm
        · exact absurd h hl
      by_cases hex : ∃ t ∈ l, flatAddr g npair nprim t.1 t.2.1 = some k
      · obtain ⟨t, ht, e2⟩ := hex
        have hv := h2 t (by simp [ht]) e2
        clear ih h1 hl
        -- the last store with this address decides
        have : ∀ (l : List (Store F)) (m : ℕ → F), (∀ s ∈ l, flatAddr g npair nprim s.1 s.2.1 = some k →
            s.2.2 = v) → m k = v → applyFlat g npair nprim l m k = v := by
          intro l
          induction l with
          | nil => intro m _ hm; exact hm
          | cons s l ih =>
            intro m h hm
            have e : applyFlat g npair nprim (s :: l) m = applyFlat g npair nprim l
              (fun k => if flatAddr g npair nprim s.1 s.2.1 = some k then s.2.2 else m k) := rfl
            rw [e]
            refine ih _ (fun t ht => h t (by simp [ht])) ?_
            by_cases hh : flatAddr g npair nprim s.1 s.2.1 = some k
            · rw [if_pos hh]; exact h s (by simp) hh
            · rw [if_neg hh]; exact hm
        refine this l _ (fun t ht => h2 t (by simp [ht])) ?_
        rw [hs, if_pos hk]
      · rw [other l _ fun t ht hh => hex ⟨t, ht, hh⟩, hs, if_pos hk]

/-! ### C39 -/

theorem fill_elem (g : ShCfg) (hl : 0 < g.len) (ops : ShOps F) (scr : PrimScreen F)
    (val : Shell F → Shell F → ℕ → ℕ → F) (hscr : g.screening = true → ExactScr scr val) (big : F)
    (ps : List (Shell F × Shell F)) (m : Arr → ℕ → F) (mf : ℕ → F) {a : Arr} {i : ℕ} {v : F}
    (h : (a, i, v) ∈ (fillPairs g ops scr big ps).log) :
    applyStores (fillPairs g ops scr big ps).log m a i = v ∧
    ∃ k, flatAddr g ps.length (allocPrims g.len ps) a i = some k ∧
      applyFlat g ps.length (allocPrims g.len ps) (fillPairs g ops scr big ps).log mf k = v := by
  obtain ⟨hn, he, -⟩ := C37_fill_writes_allocation g hl ops scr val hscr big ps
  refine ⟨applyStores_nodup hn h, ?_⟩
  have hel : IsElem g ps.length (allocPrims g.len ps) a i :=
    (he a i).1 (List.mem_map.2 ⟨_, h, rfl⟩)
  have hoff : ∃ o, a.offset g ps.length (allocPrims g.len ps) = some o := by
    rcases isElem_iff.1 hel with ⟨h1, -⟩ | ⟨d, rfl, -⟩
    · rcases hel with ⟨-, h2⟩ | ⟨-, d, rfl⟩
      · cases a <;> first
          | exact ⟨_, rfl⟩
          | exact h2.elim
          | (simp only [PerPrim] at h2; simp [Arr.offset, Arr.num, h2])
      · exact ⟨_, rfl⟩
    · exact ⟨_, rfl⟩
  obtain ⟨o, ho⟩ := hoff
  refine ⟨o / 8 + i, by unfold flatAddr; rw [ho]; rfl, ?_⟩
  have hk : flatAddr g ps.length (allocPrims g.len ps) a i = some (o / 8 + i) := by
    unfold flatAddr; rw [ho]; rfl
  refine applyFlat_val hk h fun s hs hsk => ?_
  have hes : IsElem g ps.length (allocPrims g.len ps) s.1 s.2.1 :=
    (he _ _).1 (List.mem_map.2 ⟨_, hs, rfl⟩)
  obtain ⟨e1, e2⟩ := flatAddr_inj hes hel hsk hk
  have := List.inj_on_of_nodup_map hn hs h (by simp [e1, e2])
  rw [this]

end

end Simint
