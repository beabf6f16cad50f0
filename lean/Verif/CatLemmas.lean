import Verif.Cat
import Verif.ShellLemmas
import Verif.Spec.ShellPairs
import Verif.Props.Shell

/-!
# Lemmas about concatenation
-/

set_option autoImplicit false

namespace Simint

section
variable {F : Type} [Field F] [LinearOrder F]

/-- A pair of a list. -/
abbrev Job (F : Type) := PairList F × ℕ

def Job.count (q : Job F) : ℕ := q.1.nprim12.getD q.2 0

/-- The loop over pairs without `nprim`. -/
def catJobs (g : ShCfg) (always : Bool) (old : ℕ) (l : List (Job F)) (s : ℕ) : CatSt F :=
  (l.take s).foldl (fun st q => catPair g always l.length st q.1 q.2) ⟨0, 0, [], [], old, 0⟩

/-- Stores for one pair. -/
def catLog (g : ShCfg) (s idx idx' : ℕ) (q : Job F) : List (Store F) :=
  blockStores (padArrs g) idx q.count (fun k a => q.1.arr a k) ++
  (dirList.map fun d => (Arr.AB d, s, q.1.arr (.AB d) q.2)) ++
  blockStores (primArrs g) (idx + q.count) (idx' - (idx + q.count)) (fun _ a => catPad a)

def jobCounts (l : List (Job F)) : List ℕ := l.map Job.count

theorem npOf_jobs {l : List (Job F)} {s : ℕ} (hs : s < l.length) : npOf (jobCounts l) s = l[s].count := by
  unfold npOf jobCounts
  rw [List.getD_eq_getElem _ _ (by simpa using hs), List.getElem_map]

theorem catJobs_succ (g : ShCfg) (al : Bool) (old : ℕ) (l : List (Job F)) {s : ℕ} (hs : s < l.length) :
    catJobs g al old l (s + 1) = catPair g al l.length (catJobs g al old l s) l[s].1 l[s].2 := by
  unfold catJobs
  rw [List.take_add_one, List.foldl_append, List.getElem?_eq_getElem hs]
  rfl

theorem cat_inv (g : ShCfg) (hl : 0 < g.len) (al : Bool) (old : ℕ) (l : List (Job F)) (s : ℕ)
    (hs : s ≤ l.length) :
    (catJobs g al old l s).sasb = s ∧ (catJobs g al old l s).idx = fillIdx g.len (jobCounts l) s ∧
    (catJobs g al old l s).nprim12 = (jobCounts l).take s ∧ (catJobs g al old l s).nprim = old := by
  induction s with
  | zero => exact ⟨rfl, (fillIdx_zero _ _ hl).symm, rfl, rfl⟩
  | succ s ih =>
    obtain ⟨h1, h2, h3, h4⟩ := ih (by omega)
    have hs' : s < l.length := hs
    have hlen : (jobCounts l).length = l.length := by simp [jobCounts]
    rw [catJobs_succ g al old l hs']
    refine ⟨?_, ?_, ?_, ?_⟩
    · unfold catPair; simp only; rw [h1]
    · rw [fillIdx_succ hl _ (by omega), hlen, npOf_jobs hs']
      unfold catPair Job.count
      simp only
      rw [h1, h2]
      split
      · have := le_simdRound' hl (fillIdx g.len (jobCounts l) s + l[s].1.nprim12.getD l[s].2 0)
        omega
      · rfl
    · unfold catPair
      simp only
      rw [h3, List.take_add_one, List.getElem?_eq_getElem (by omega)]
      simp [jobCounts, Job.count]
    · unfold catPair; simp only; exact h4

theorem cat_log (g : ShCfg) (hl : 0 < g.len) (al : Bool) (old : ℕ) (l : List (Job F)) {s : ℕ}
    (hs : s < l.length) :
    (catJobs g al old l (s + 1)).log = (catJobs g al old l s).log ++
      catLog g s (fillIdx g.len (jobCounts l) s) (fillIdx g.len (jobCounts l) (s + 1)) l[s] := by
  obtain ⟨h1, h2, -, -⟩ := cat_inv g hl al old l s (by omega)
  have hlen : (jobCounts l).length = l.length := by simp [jobCounts]
  rw [catJobs_succ g al old l hs, fillIdx_succ hl _ (by omega), hlen, npOf_jobs hs]
  unfold catPair catLog Job.count
  simp only
  rw [h1, h2]
  congr 2
  split
  · rfl
  · rw [Nat.sub_self]; rfl

theorem mem_cat_log (g : ShCfg) (hl : 0 < g.len) (al : Bool) (old : ℕ) (l : List (Job F)) (n : ℕ)
    (hn : n ≤ l.length) (x : Store F) :
    x ∈ (catJobs g al old l n).log ↔ ∃ s, ∃ hs : s < l.length, s < n ∧
      x ∈ catLog g s (fillIdx g.len (jobCounts l) s) (fillIdx g.len (jobCounts l) (s + 1)) l[s] := by
  induction n with
  | zero =>
    constructor
    · intro h; exact absurd h (by simp [catJobs])
    · rintro ⟨s, -, h, -⟩; omega
  | succ n ih =>
    rw [cat_log g hl al old l (by omega), List.mem_append, ih (by omega)]
    constructor
    · rintro (⟨s, hs, h1, h2⟩ | h)
      · exact ⟨s, hs, by omega, h2⟩
      · exact ⟨n, by omega, by omega, h⟩
    · rintro ⟨s, hs, h1, h2⟩
      by_cases h : s = n
      · subst h; exact Or.inr h2
      · exact Or.inl ⟨s, hs, by omega, h2⟩

theorem mem_catLog {g : ShCfg} {s idx idx' : ℕ} {q : Job F} {x : Store F} :
    x ∈ catLog g s idx idx' q ↔
      (∃ k < q.count, x.1 ∈ padArrs g ∧ x.2.1 = idx + k ∧ x.2.2 = q.1.arr x.1 k) ∨
      (x.1 ∈ primArrs g ∧ idx + q.count ≤ x.2.1 ∧ x.2.1 < idx' ∧ x.2.2 = catPad x.1) ∨
      ∃ d, x = (.AB d, s, q.1.arr (.AB d) q.2) := by
  unfold catLog
  rw [List.mem_append, List.mem_append, mem_blockStores, mem_blockStores]
  have h3 : (x ∈ dirList.map fun d => (Arr.AB d, s, q.1.arr (.AB d) q.2)) ↔
      ∃ d, x = (.AB d, s, q.1.arr (.AB d) q.2) := by
    simp only [List.mem_map]
    constructor
    · rintro ⟨d, -, rfl⟩; exact ⟨d, rfl⟩
    · rintro ⟨d, rfl⟩; exact ⟨d, by cases d <;> simp [dirList], rfl⟩
  rw [h3]
  constructor
  · rintro ((h | h) | ⟨k, hk, e1, e2, e3⟩)
    · exact Or.inl h
    · exact Or.inr (Or.inr h)
    · exact Or.inr (Or.inl ⟨e1, by omega, by omega, e3⟩)
  · rintro (h | ⟨e1, e2, e3, e4⟩ | h)
    · exact Or.inl (Or.inl h)
    · exact Or.inr ⟨x.2.1 - (idx + q.count), by omega, e1, by omega, e4⟩
    · exact Or.inl (Or.inr h)

/-- Stores to elements of arrays, never two different values to one element: the buffer holds the
stored value. -/
theorem bufView_val {g : ShCfg} {npair nprim : ℕ} {l : List (Store F)}
    (he : ∀ x ∈ l, IsElem g npair nprim x.1 x.2.1)
    (hu : ∀ x ∈ l, ∀ y ∈ l, x.1 = y.1 → x.2.1 = y.2.1 → x.2.2 = y.2.2) (mf : ℕ → F) {a : Arr} {i : ℕ} {v : F}
    (h : (a, i, v) ∈ l) : bufView g npair nprim (applyFlat g npair nprim l mf) a i = v := by
  have hel : IsElem g npair nprim a i := he _ h
  have hoff : ∃ o, a.offset g npair nprim = some o := by
    rcases hel with ⟨-, h2⟩ | ⟨-, d, rfl⟩
    · cases a <;> first
        | exact ⟨_, rfl⟩
        | exact h2.elim
        | (simp only [PerPrim] at h2; simp [Arr.offset, Arr.num, h2])
    · exact ⟨_, rfl⟩
  obtain ⟨o, ho⟩ := hoff
  have hk : flatAddr g npair nprim a i = some (o / 8 + i) := by
    unfold flatAddr; rw [ho]; rfl
  unfold bufView
  rw [hk]
  refine applyFlat_val hk h fun s hs hsk => ?_
  obtain ⟨e1, e2⟩ := flatAddr_inj (he s hs) hel hsk hk
  exact hu s hs _ h e1 e2

/-- The stores of a concatenation. -/
theorem cat_stores (g : ShCfg) (hl : 0 < g.len) (al : Bool) (old : ℕ) (l : List (Job F)) :
    (∀ x ∈ (catJobs g al old l l.length).log,
      IsElem g l.length (countPrims g.len (jobCounts l)) x.1 x.2.1) ∧
    ∀ x ∈ (catJobs g al old l l.length).log, ∀ y ∈ (catJobs g al old l l.length).log, x.1 = y.1 →
      x.2.1 = y.2.1 → x.2.2 = y.2.2 := by
  have hlen : (jobCounts l).length = l.length := by simp [jobCounts]
  have hal : countPrims g.len (jobCounts l) = fillIdx g.len (jobCounts l) l.length := by
    rw [countPrims_eq hl, hlen]
  constructor
  · intro x hx
    obtain ⟨s, hs, -, h⟩ := (mem_cat_log g hl al old l l.length le_rfl x).1 hx
    have m1 := fillIdx_mono hl (jobCounts l) (s := s) (by omega)
    have m2 := fillIdx_le hl (jobCounts l) (s := s + 1) (t := l.length) (by omega) (by omega)
    rw [npOf_jobs hs] at m1
    rw [hal]
    rcases mem_catLog.1 h with ⟨k, hk, e1, e2, -⟩ | ⟨e1, e2, e3, -⟩ | ⟨d, rfl⟩
    · exact isElem_iff.2 (Or.inl ⟨e1, by omega⟩)
    · exact isElem_iff.2 (Or.inl ⟨primArrs_sub g e1, by omega⟩)
    · exact Or.inr ⟨hs, d, rfl⟩
  · intro x hx y hy ha hi
    obtain ⟨s, hs, -, h⟩ := (mem_cat_log g hl al old l l.length le_rfl x).1 hx
    obtain ⟨t, ht, -, h'⟩ := (mem_cat_log g hl al old l l.length le_rfl y).1 hy
    have m1 := fillIdx_mono hl (jobCounts l) (s := s) (by omega)
    have m2 := fillIdx_mono hl (jobCounts l) (s := t) (by omega)
    rw [npOf_jobs hs] at m1
    rw [npOf_jobs ht] at m2
    have same : x.1 ∈ padArrs g → fillIdx g.len (jobCounts l) s ≤ x.2.1 →
        x.2.1 < fillIdx g.len (jobCounts l) (s + 1) → fillIdx g.len (jobCounts l) t ≤ x.2.1 →
        x.2.1 < fillIdx g.len (jobCounts l) (t + 1) → s = t := by
      intro _ a1 a2 a3 a4
      rcases Nat.lt_trichotomy s t with h | h | h
      · have := fillIdx_le hl (jobCounts l) (s := s + 1) (t := t) (by omega) (by omega)
        omega
      · exact h
      · have := fillIdx_le hl (jobCounts l) (s := t + 1) (t := s) (by omega) (by omega)
        omega
    rcases mem_catLog.1 h with ⟨k, hk, e1, e2, e3⟩ | ⟨e1, e2, e3, e4⟩ | ⟨d, rfl⟩ <;>
      rcases mem_catLog.1 h' with ⟨k', hk', e1', e2', e3'⟩ | ⟨e1', e2', e3', e4'⟩ | ⟨d', rfl⟩
    · have := same e1 (by omega) (by omega) (by omega) (by omega)
      subst this
      rw [e3, e3', ha]
      congr 1
      omega
    · have := same e1 (by omega) (by omega) (by omega) (by omega)
      subst this
      omega
    · rw [ha] at e1; exact absurd e1 (AB_not_pad g d')
    · have := same (primArrs_sub g e1) (by omega) (by omega) (by omega) (by omega)
      subst this
      omega
    · rw [e4, e4', ha]
    · rw [ha] at e1; exact absurd (primArrs_sub g e1) (AB_not_pad g d')
    · rw [← ha] at e1'; exact absurd e1' (AB_not_pad g d)
    · rw [← ha] at e1'; exact absurd (primArrs_sub g e1') (AB_not_pad g d)
    · simp only [Arr.AB.injEq] at ha hi
      subst ha; subst hi
      rfl

/-- Contents of the arrays after a concatenation. -/
theorem cat_contents (g : ShCfg) (hl : 0 < g.len) (al : Bool) (old : ℕ) (l : List (Job F)) (mf : ℕ → F) :
    let m := bufView g l.length (countPrims g.len (jobCounts l)) (applyFlat g l.length
      (countPrims g.len (jobCounts l)) (catJobs g al old l l.length).log mf)
    (∀ s (hs : s < l.length), (∀ a, PerPrim g a → ∀ k < l[s].count,
        m a (paddedStart g.len (npOf (jobCounts l)) s + k) = l[s].1.arr a k) ∧
      ∀ d, m (.AB d) s = l[s].1.arr (.AB d) l[s].2) ∧
    ∀ i < countPrims g.len (jobCounts l),
      (∀ s < l.length, ¬ (paddedStart g.len (npOf (jobCounts l)) s ≤ i ∧
        i < paddedStart g.len (npOf (jobCounts l)) s + npOf (jobCounts l) s)) →
      (∀ a, PerPrim g a → a ≠ .screen → m a i = catPad a) ∧
      ∀ v, (Arr.screen, i, v) ∉ (catJobs g al old l l.length).log := by
  intro m
  obtain ⟨he, hu⟩ := cat_stores g hl al old l
  have hlen : (jobCounts l).length = l.length := by simp [jobCounts]
  have get : ∀ {a : Arr} {i : ℕ} {v : F}, (a, i, v) ∈ (catJobs g al old l l.length).log → m a i = v :=
    fun h => bufView_val he hu mf h
  have hp : ∀ a, PerPrim g a → a ∈ padArrs g := by
    intro a ha
    rcases isElem_iff.1 (Or.inl ⟨(Nat.lt_succ_self 0 : 0 < 1), ha⟩ : IsElem g 0 1 a 0) with h | ⟨d, -, h⟩
    · exact h.1
    · omega
  have hst : ∀ s < l.length, fillIdx g.len (jobCounts l) s = paddedStart g.len (npOf (jobCounts l)) s :=
    fun s hs => fillIdx_eq_padded (by omega)
  constructor
  · intro s hs
    constructor
    · intro a ha k hk
      apply get
      refine (mem_cat_log g hl al old l l.length le_rfl _).2 ⟨s, hs, hs, mem_catLog.2 (Or.inl ?_)⟩
      exact ⟨k, hk, hp a ha, by rw [hst s hs], rfl⟩
    · intro d
      apply get
      exact (mem_cat_log g hl al old l l.length le_rfl _).2
        ⟨s, hs, hs, mem_catLog.2 (Or.inr (Or.inr ⟨d, rfl⟩))⟩
  · intro i hi hno
    rw [countPrims_eq hl, hlen] at hi
    obtain ⟨s, hs, l1, l2⟩ := slot_cases hl (jobCounts l) (n := l.length) (by omega) hi
    have h2 : fillIdx g.len (jobCounts l) s + l[s].count ≤ i := by
      by_contra hc
      apply hno s hs
      rw [← hst s hs, npOf_jobs hs]
      omega
    constructor
    · intro a ha hne
      apply get
      refine (mem_cat_log g hl al old l l.length le_rfl _).2
        ⟨s, hs, hs, mem_catLog.2 (Or.inr (Or.inl ⟨?_, h2, l2, rfl⟩))⟩
      rcases mem_padArrs.1 (hp a ha) with h | h
      · exact h
      · exact absurd h.2 hne
    · intro v hv
      obtain ⟨t, ht, -, h⟩ := (mem_cat_log g hl al old l l.length le_rfl _).1 hv
      rcases mem_catLog.1 h with ⟨k, hk, -, e2, -⟩ | ⟨e1, -⟩ | ⟨d, e⟩
      · apply hno t ht
        rw [← hst t ht, npOf_jobs ht]
        simp only at e2
        omega
      · exact screen_not_prim g e1
      · simp at e

/-- Two states that differ at most in `nprim`. -/
def CatSt.Eqv (a b : CatSt F) : Prop :=
  a.sasb = b.sasb ∧ a.idx = b.idx ∧ a.log = b.log ∧ a.nprim12 = b.nprim12 ∧ a.screenMax = b.screenMax

theorem catPair_eqv {g : ShCfg} {al : Bool} {n : ℕ} {a b : CatSt F} (h : a.Eqv b) (P : PairList F) (j : ℕ) :
    (catPair g al n a P j).Eqv (catPair g al n b P j) ∧ (catPair g al n a P j).nprim = a.nprim := by
  obtain ⟨h1, h2, h3, h4, h5⟩ := h
  unfold catPair CatSt.Eqv
  simp only
  rw [h1, h2, h3, h4, h5]
  refine ⟨⟨?_, ?_, ?_, ?_, ?_⟩, ?_⟩ <;> trivial

theorem foldl_catPair_eqv {g : ShCfg} {al : Bool} {n : ℕ} (l : List (Job F)) {a b : CatSt F} (h : a.Eqv b) :
    (l.foldl (fun st q => catPair g al n st q.1 q.2) a).Eqv (l.foldl (fun st q => catPair g al n st q.1 q.2) b) ∧
    (l.foldl (fun st q => catPair g al n st q.1 q.2) a).nprim = a.nprim := by
  induction l generalizing a b with
  | nil => exact ⟨h, rfl⟩
  | cons q l ih =>
    obtain ⟨h1, h2⟩ := catPair_eqv (g := g) (al := al) (n := n) h q.1 q.2
    obtain ⟨i1, i2⟩ := ih h1
    exact ⟨i1, i2.trans h2⟩

theorem cat_flat {g : ShCfg} {al : Bool} {n : ℕ} (jobs : PairList F → List ℕ) (ins : List (PairList F))
    {a b : CatSt F} (h : a.Eqv b) :
    (ins.foldl (fun st P =>
      let st := (jobs P).foldl (fun st j => catPair g al n st P j) st
      { st with nprim := st.nprim + P.nprim }) a).Eqv
      ((ins.flatMap fun P => (jobs P).map fun j => (P, j)).foldl (fun st q => catPair g al n st q.1 q.2) b) ∧
    (ins.foldl (fun st P =>
      let st := (jobs P).foldl (fun st j => catPair g al n st P j) st
      { st with nprim := st.nprim + P.nprim }) a).nprim = a.nprim + (ins.map PairList.nprim).sum := by
  induction ins generalizing a b with
  | nil => exact ⟨h, by simp⟩
  | cons P ins ih =>
    obtain ⟨h1, h2⟩ := foldl_catPair_eqv (g := g) (al := al) (n := n) ((jobs P).map fun j => (P, j)) h
    rw [List.foldl_map, List.foldl_map] at h1
    rw [List.foldl_map] at h2
    have h1' : CatSt.Eqv
      { (jobs P).foldl (fun st j => catPair g al n st P j) a with
        nprim := ((jobs P).foldl (fun st j => catPair g al n st P j) a).nprim + P.nprim }
      ((jobs P).foldl (fun st j => catPair g al n st P j) b) := h1
    obtain ⟨i1, i2⟩ := ih h1'
    rw [List.flatMap_cons, List.foldl_append, List.foldl_map, List.foldl_cons]
    refine ⟨i1, i2.trans ?_⟩
    simp only
    rw [h2, List.map_cons, List.sum_cons, Nat.add_assoc]

/-- All pairs of the lists, in order. -/
def jobsOf (ins : List (PairList F)) : List (Job F) :=
  ins.flatMap fun P => (List.range P.nprim12.length).map fun j => (P, j)

theorem jobsOf_length (ins : List (PairList F)) :
    (jobsOf ins).length = (ins.map fun P => P.nprim12.length).sum := by
  unfold jobsOf
  rw [List.length_flatMap]
  congr 1
  refine List.map_congr_left fun P _ => ?_
  simp

theorem jobsOf_counts (ins : List (PairList F)) : jobCounts (jobsOf ins) = ins.flatMap PairList.nprim12 := by
  unfold jobCounts jobsOf
  rw [List.map_flatMap]
  refine List.flatMap_congr fun P _ => ?_
  rw [List.map_map]
  refine List.ext_getElem (by simp) fun i h1 h2 => ?_
  rw [List.getElem_map, List.getElem_range]
  exact List.getD_eq_getElem _ _ h2

theorem catMulti_eq (g : ShCfg) (old : ℕ) (ins : List (PairList F)) :
    (catMulti g old ins).Eqv (catJobs g false old (jobsOf ins) (jobsOf ins).length) ∧
    (catMulti g old ins).nprim = old + (ins.map PairList.nprim).sum := by
  unfold catMulti catJobs
  rw [List.take_length, jobsOf_length]
  exact cat_flat (fun P => List.range P.nprim12.length) ins ⟨rfl, rfl, rfl, rfl, rfl⟩

theorem catSingle_eq (g : ShCfg) (old : ℕ) (ins : List (PairList F)) :
    (catSingle g old ins).Eqv (catJobs g true old (ins.map fun P => (P, 0)) ins.length) ∧
    (catSingle g old ins).nprim = old + (ins.map PairList.nprim).sum := by
  have h := cat_flat (g := g) (al := true) (n := ins.length) (fun _ => [0]) ins
    (a := (⟨0, 0, [], [], old, 0⟩ : CatSt F)) ⟨rfl, rfl, rfl, rfl, rfl⟩
  unfold catSingle catJobs
  have e : (ins.flatMap fun P => [0].map fun j => (P, j)) = ins.map fun P => (P, 0) := by
    clear h
    induction ins with
    | nil => rfl
    | cons P l ih => rw [List.flatMap_cons, ih]; rfl
  rw [e] at h
  have hlen : (ins.map fun P => ((P, 0) : Job F)).length = ins.length := by simp
  rw [hlen, ← hlen, List.take_length, hlen]
  exact h

/-- `screen_max` of the result. -/
theorem cat_screenMax (g : ShCfg) (al : Bool) (old : ℕ) (l : List (Job F)) (s : ℕ) (hs : s ≤ l.length) :
    (∀ q ∈ l.take s, (al = true ∨ 0 < q.count) → q.1.screenMax ≤ (catJobs g al old l s).screenMax) ∧
    0 ≤ (catJobs g al old l s).screenMax ∧
    ((catJobs g al old l s).screenMax = 0 ∨
      ∃ q ∈ l.take s, q.1.screenMax = (catJobs g al old l s).screenMax) := by
  induction s with
  | zero => exact ⟨fun q h => absurd h (by simp), le_rfl, Or.inl rfl⟩
  | succ s ih =>
    obtain ⟨h1, h2, h3⟩ := ih (by omega)
    have hs' : s < l.length := hs
    have e : l.take (s + 1) = l.take s ++ [l[s]] := by
      rw [List.take_add_one, List.getElem?_eq_getElem hs']; rfl
    rw [e, catJobs_succ g al old l hs']
    generalize catJobs g al old l s = st at h1 h2 h3
    have hv : (catPair g al l.length st l[s].1 l[s].2).screenMax =
      if (al = true ∨ 0 < l[s].count) ∧ l[s].1.screenMax > st.screenMax then l[s].1.screenMax
      else st.screenMax := rfl
    rw [hv]
    split
    · rename_i hc
      refine ⟨fun q hq hh => ?_, h2.trans hc.2.le, Or.inr ⟨l[s], List.mem_append_right _ (List.mem_singleton_self _), rfl⟩⟩
      rcases List.mem_append.1 hq with h | h
      · exact (h1 q h hh).trans hc.2.le
      · rw [List.mem_singleton.1 h]
    · rename_i hc
      refine ⟨fun q hq hh => ?_, h2, ?_⟩
      · rcases List.mem_append.1 hq with h | h
        · exact h1 q h hh
        · rw [List.mem_singleton] at h
          subst h
          exact not_lt.1 fun hlt => hc ⟨hh, hlt⟩
      · rcases h3 with h | ⟨q, hq, h⟩
        · exact Or.inl h
        · exact Or.inr ⟨q, List.mem_append_left _ hq, h⟩

/-- Elements that are inside a batch follow each other without gaps. -/
theorem fillIdx_batch {len : ℕ} (hl : 0 < len) (ns : List ℕ) (b r : ℕ) (hr : r < nshellSimd len)
    (h : b * nshellSimd len + r < ns.length) :
    fillIdx len ns (b * nshellSimd len + r) =
      fillIdx len ns (b * nshellSimd len) + ((ns.drop (b * nshellSimd len)).take r).sum := by
  induction r with
  | zero => simp
  | succ r ih =>
    have e := fillIdx_succ hl ns (s := b * nshellSimd len + r) (by omega)
    rw [if_neg] at e
    · rw [← Nat.add_assoc, e, ih (by omega) (by omega), List.take_add_one, List.sum_append]
      have : npOf ns (b * nshellSimd len + r) = ns[b * nshellSimd len + r] :=
        List.getD_eq_getElem _ _ (by omega)
      rw [this, List.getElem?_drop, List.getElem?_eq_getElem (by omega)]
      simp [Nat.add_assoc]
    · rintro (h' | h')
      · rw [Nat.add_assoc, Nat.mul_add_mod_self_right, Nat.mod_eq_of_lt hr] at h'
        omega
      · omega

theorem batch_count {len : ℕ} (hl : 0 < len) (ns : List ℕ) (b : ℕ) (hb : b * nshellSimd len ≤ ns.length ∨
      (b - 1) * nshellSimd len < ns.length) :
    (List.range b).foldl (fun n i => n + simdRound len ((ns.drop (i * nshellSimd len)).take (nshellSimd len)).sum) 0
      = fillIdx len ns (min (b * nshellSimd len) ns.length) := by
  have hB : 0 < nshellSimd len := by unfold nshellSimd; omega
  induction b with
  | zero => simp [fillIdx_zero len ns hl]
  | succ b ih =>
    have hb' : b * nshellSimd len < ns.length := by
      rcases hb with h | h
      · rw [Nat.succ_mul] at h; omega
      · simpa using h
    rw [List.range_succ, List.foldl_append, ih (Or.inl hb'.le), List.foldl_cons, List.foldl_nil,
      Nat.min_eq_left hb'.le]
    -- last pair of the batch
    obtain ⟨r, hr1, hr2, hr3⟩ : ∃ r, r < nshellSimd len ∧ b * nshellSimd len + r < ns.length ∧
        min ((b + 1) * nshellSimd len) ns.length = b * nshellSimd len + r + 1 := by
      rw [Nat.succ_mul]
      by_cases h : b * nshellSimd len + nshellSimd len ≤ ns.length
      · exact ⟨nshellSimd len - 1, by omega, by omega, by omega⟩
      · exact ⟨ns.length - b * nshellSimd len - 1, by omega, by omega, by omega⟩
    have hedge : (b * nshellSimd len + r + 1) % nshellSimd len = 0 ∨
        ns.length ≤ b * nshellSimd len + r + 1 := by
      by_cases h : b * nshellSimd len + nshellSimd len ≤ ns.length
      · left
        have : b * nshellSimd len + r + 1 = (b + 1) * nshellSimd len := by
          rw [← hr3, Nat.min_eq_left (by rw [Nat.succ_mul]; exact h)]
        rw [this, Nat.mul_mod_left]
      · right
        rw [← hr3, Nat.min_eq_right (by rw [Nat.succ_mul]; omega)]
    have hdvd : len ∣ fillIdx len ns (b * nshellSimd len) := by
      rw [fillIdx_eq_padded hb']
      rcases Nat.eq_zero_or_pos b with h0 | h0
      · subst h0; simp [paddedStart]
      · obtain ⟨c, hc⟩ : ∃ c, b * nshellSimd len = c + 1 := ⟨b * nshellSimd len - 1, by
          have := Nat.mul_pos h0 hB; omega⟩
        rw [hc]
        simp only [paddedStart]
        rw [if_pos]
        · exact simdRound_dvd _ _
        · rw [← hc]; exact Nat.mul_mod_left _ _
    rw [hr3, fillIdx_succ hl ns hr2, if_pos hedge, fillIdx_batch hl ns b r hr1 hr2, Nat.add_assoc,
      simdRound_add hl hdvd]
    congr 2
    have e : (ns.drop (b * nshellSimd len)).take (nshellSimd len) =
        (ns.drop (b * nshellSimd len)).take (r + 1) := by
      by_cases h : b * nshellSimd len + nshellSimd len ≤ ns.length
      · have : r + 1 = nshellSimd len := by
          rw [Nat.succ_mul, Nat.min_eq_left h] at hr3; omega
        rw [this]
      · rw [Nat.succ_mul, Nat.min_eq_right (by omega)] at hr3
        rw [List.take_of_length_le (by rw [List.length_drop]; omega),
          List.take_of_length_le (by rw [List.length_drop]; omega)]
    rw [e, List.take_add_one, List.sum_append, List.getElem?_drop, List.getElem?_eq_getElem hr2]
    have : npOf ns (b * nshellSimd len + r) = ns[b * nshellSimd len + r] := List.getD_eq_getElem _ _ hr2
    rw [this]
    simp

theorem catSingleAlloc_eq {len : ℕ} (hl : 0 < len) (ins : List (PairList F)) :
    catSingleAlloc len ins = countPrims len (jobCounts (ins.map fun P => (P, 0))) := by
  have hB : 0 < nshellSimd len := by unfold nshellSimd; omega
  have e : jobCounts (ins.map fun P => (P, 0)) = ins.map fun P => P.nprim12.getD 0 0 := by
    unfold jobCounts; rw [List.map_map]; rfl
  rw [e, countPrims_eq hl]
  unfold catSingleAlloc
  simp only
  generalize ins.map (fun P => P.nprim12.getD 0 0) = ns
  have hd := Nat.div_add_mod (ns.length + (nshellSimd len - 1)) (nshellSimd len)
  have hm := Nat.mod_lt (ns.length + (nshellSimd len - 1)) hB
  generalize (ns.length + (nshellSimd len - 1)) / nshellSimd len = b at hd
  rw [Nat.mul_comm] at hd
  rw [batch_count hl ns b, Nat.min_eq_right (by omega)]
  by_cases h0 : b = 0
  · left; subst h0; omega
  · right
    obtain ⟨c, rfl⟩ := Nat.exists_eq_succ_of_ne_zero h0
    rw [Nat.succ_mul] at hd
    simp only [Nat.succ_eq_add_one, Nat.add_sub_cancel]
    omega

end

end Simint
