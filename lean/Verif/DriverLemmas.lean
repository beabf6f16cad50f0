import Verif.Spec.Driver
import Verif.WorkspaceLemmas
import Mathlib.Algebra.BigOperators.Ring.Finset
import Mathlib.Algebra.BigOperators.Intervals
import Mathlib.Tactic.Ring
import Mathlib.Tactic.Linarith

/-! Helper lemmas for the driver loops. -/

set_option autoImplicit false

namespace Simint

open Finset

theorem list_range_sum {F : Type} [AddCommMonoid F] (n : ℕ) (f : ℕ → F) :
    ((List.range n).map f).sum = ∑ i ∈ range n, f i := by
  induction n with
  | zero => simp
  | succ n ih => rw [List.range_succ, List.map_append, List.sum_append, ih, sum_range_succ]; simp

theorem list_sum_flatMap {α F : Type} [AddCommMonoid F] (l : List α) (f : α → List F) :
    (l.flatMap f).sum = (l.map fun a => (f a).sum).sum := by
  induction l with
  | nil => simp
  | cons a r ih => simp [List.flatMap_cons, ih]

theorem addList_eq {F : Type} [AddCommMonoid F] (size : ℕ) (l : List (ℕ × F)) :
    ∀ b, (∀ e ∈ l, e.1 < size) →
      addList size l b = some fun k => b k + (l.map fun e => if e.1 = k then e.2 else 0).sum := by
  induction l with
  | nil => intro b _; simp [addList]
  | cons e r ih =>
    intro b h
    obtain ⟨i, v⟩ := e
    have hi : i < size := h (i, v) (by simp)
    rw [addList, if_pos hi, ih _ fun e he => h e (by simp [he])]
    congr 1
    funext k
    simp only [List.map_cons, List.sum_cons]
    by_cases hk : k = i
    · subst hk; simp only [if_true]; rw [add_assoc]
    · have : ¬ i = k := fun h => hk h.symm
      simp [hk, this]

theorem addList_none {F : Type} [Add F] (size : ℕ) (l : List (ℕ × F)) :
    ∀ b, (∃ e ∈ l, size ≤ e.1) → addList size l b = none := by
  induction l with
  | nil => intro b h; simp at h
  | cons e r ih =>
    intro b h
    obtain ⟨i, v⟩ := e
    rw [addList]
    split
    · rename_i hi
      apply ih
      obtain ⟨e, he, h⟩ := h
      rcases List.mem_cons.1 he with rfl | he
      · simp only at h; omega
      · exact ⟨e, he, h⟩
    · rfl

theorem contract_eq {F : Type} [AddCommMonoid F] (size len ncart : ℕ) (off : ℕ → ℕ) (src : ℕ → ℕ → F)
    (ptr : ℕ) (b : ℕ → F) (h : ∀ n < len, ptr + off n * ncart + ncart ≤ size) :
    contract size len ncart off src ptr b = some fun k => b k +
      ∑ n ∈ range len, ∑ np ∈ range ncart,
        if ptr + off n * ncart + np = k then src np n else 0 := by
  rw [contract, addList_eq]
  · congr 1
    funext k
    congr 1
    rw [List.map_flatMap, list_sum_flatMap]
    simp only [List.map_map, Function.comp_def, list_range_sum]
  · intro e he
    obtain ⟨n, hn, he⟩ := List.mem_flatMap.1 he
    obtain ⟨np, hnp, rfl⟩ := List.mem_map.1 he
    have := h n (List.mem_range.1 hn)
    have := List.mem_range.1 hnp
    simp only
    omega

/-! ## Lane bookkeeping -/

/-- Running shell counter: the test made for lane `k` when the counter is `c`. -/
def bump (ns : ℕ → ℕ) (nb c k : ℕ) : ℕ := if tightStart ns (c + 1) ≤ k ∧ c + 1 < nb then c + 1 else c

/-- Shell counter before lane `k`. -/
def before (ns : ℕ → ℕ) (nb : ℕ) : ℕ → ℕ
  | 0 => 0
  | k + 1 => bump ns nb (before ns nb k) k

/-- Shell counter used for lane `k`. -/
def owner (ns : ℕ → ℕ) (nb k : ℕ) : ℕ := before ns nb (k + 1)

theorem owner_eq (ns : ℕ → ℕ) (nb k : ℕ) : owner ns nb k = bump ns nb (before ns nb k) k := rfl

theorem bump_ge (ns : ℕ → ℕ) (nb c k : ℕ) : c ≤ bump ns nb c k := by unfold bump; split <;> omega

theorem before_mono (ns : ℕ → ℕ) (nb : ℕ) : Monotone (before ns nb) :=
  monotone_nat_of_le_succ fun _ => bump_ge _ _ _ _

theorem owner_mono (ns : ℕ → ℕ) (nb : ℕ) : Monotone (owner ns nb) :=
  fun _ _ h => before_mono ns nb (by omega)

theorem before_lt (ns : ℕ → ℕ) {nb : ℕ} (h : 0 < nb) (k : ℕ) : before ns nb k < nb := by
  induction k with
  | zero => exact h
  | succ k ih => rw [before, bump]; split <;> omega

theorem owner_lt (ns : ℕ → ℕ) {nb : ℕ} (h : 0 < nb) (k : ℕ) : owner ns nb k < nb := before_lt ns h _

theorem tightStart_succ (ns : ℕ → ℕ) (s : ℕ) : tightStart ns (s + 1) = tightStart ns s + ns s :=
  sum_range_succ _ _

theorem tightStart_mono (ns : ℕ → ℕ) : Monotone (tightStart ns) :=
  monotone_nat_of_le_succ fun s => by rw [tightStart_succ]; omega

/-- Loop over the lanes after the first. -/
theorem offIter (nprim12 : ℕ → ℕ) (cd nb k : ℕ) (m : ℕ) (s0 : OffSt)
    (h0 : s0.offs = [0]) (h1 : s0.last = 0)
    (h2 : s0.icd = owner (fun i => nprim12 (cd + i)) nb k) (h3 : s0.iprim = k + 1)
    (h4 : s0.nprim = tightStart (fun i => nprim12 (cd + i)) (s0.icd + 1)) :
    (offStep nprim12 cd nb)^[m] s0 =
      { offs := (List.range (m + 1)).map fun n =>
          owner (fun i => nprim12 (cd + i)) nb (k + n) - owner (fun i => nprim12 (cd + i)) nb k
        last := owner (fun i => nprim12 (cd + i)) nb (k + m)
          - owner (fun i => nprim12 (cd + i)) nb k
        icd := owner (fun i => nprim12 (cd + i)) nb (k + m)
        iprim := k + m + 1
        nprim := tightStart (fun i => nprim12 (cd + i))
          (owner (fun i => nprim12 (cd + i)) nb (k + m) + 1) } := by
  induction m with
  | zero =>
    obtain ⟨a, b, c, d, f⟩ := s0
    simp only at h0 h1 h2 h3 h4
    subst h0 h1 h2 h3 h4
    simp
  | succ m ih =>
    rw [Function.iterate_succ_apply', ih]
    set ns := fun i => nprim12 (cd + i) with hns
    have hm : owner ns nb (k + m) ≥ owner ns nb k := owner_mono ns nb (by omega)
    have hl : ((List.range (m + 1)).map fun n => owner ns nb (k + n) - owner ns nb k).getLastD 0
        = owner ns nb (k + m) - owner ns nb k := by
      rw [List.range_succ, List.map_append]; simp
    have hr : (List.range (m + 1 + 1)).map (fun n => owner ns nb (k + n) - owner ns nb k)
        = ((List.range (m + 1)).map fun n => owner ns nb (k + n) - owner ns nb k)
          ++ [owner ns nb (k + (m + 1)) - owner ns nb k] := by
      rw [List.range_succ (n := m + 1), List.map_append]; simp
    have hb : owner ns nb (k + (m + 1)) = bump ns nb (owner ns nb (k + m)) (k + m + 1) := rfl
    unfold offStep
    simp only [hl, hr]
    by_cases hc : tightStart ns (owner ns nb (k + m) + 1) ≤ k + m + 1 ∧
        owner ns nb (k + m) + 1 < nb
    · have : owner ns nb (k + (m + 1)) = owner ns nb (k + m) + 1 := by
        rw [hb, bump, if_pos hc]
      rw [if_pos hc, this]
      simp only [OffSt.mk.injEq]
      refine ⟨by congr 2; omega, by omega, trivial, by omega, ?_⟩
      rw [tightStart_succ ns (owner ns nb (k + m) + 1)]
    · have : owner ns nb (k + (m + 1)) = owner ns nb (k + m) := by
        rw [hb, bump, if_neg hc]
      rw [if_neg hc, this]
      simp only [OffSt.mk.injEq]
      refine ⟨trivial, trivial, trivial, by omega, trivial⟩

/-- The vector computation does, for lane `n`, what the lane-by-lane counter does. -/
theorem shellOffsets_eq {len : ℕ} (hlen : 0 < len) (nprim12 : ℕ → ℕ) (cd nb k : ℕ)
    (ns : ℕ → ℕ) (hns : ns = fun i => nprim12 (cd + i)) :
    let r := shellOffsets len nprim12 cd nb (before ns nb k) k (tightStart ns (before ns nb k + 1))
    (∀ n < len, r.offs.getD n 0 = owner ns nb (k + n) - owner ns nb k) ∧
    r.last = owner ns nb (k + (len - 1)) - owner ns nb k ∧
    (if r.adv then before ns nb k + 1 else before ns nb k) = owner ns nb k ∧
    r.icd = before ns nb (k + len) ∧ r.iprim = k + len ∧
    r.nprim = tightStart ns (before ns nb (k + len) + 1) ∧ r.offs.length = len := by
  obtain ⟨m, rfl⟩ : ∃ m, len = m + 1 := ⟨len - 1, by omega⟩
  intro r
  by_cases hf : k + (m + 1) ≥ tightStart ns (before ns nb k + 1)
  · have hr : r = shellOffsets (m + 1) nprim12 cd nb (before ns nb k) k
      (tightStart ns (before ns nb k + 1)) := rfl
    unfold shellOffsets at hr
    rw [if_pos hf] at hr
    have hres : ∀ s0 : OffSt, s0.offs = [0] → s0.last = 0 → s0.icd = owner ns nb k →
        s0.iprim = k + 1 → s0.nprim = tightStart ns (s0.icd + 1) → ∀ adv,
        (if adv then before ns nb k + 1 else before ns nb k) = owner ns nb k →
        r = (let s := (offStep nprim12 cd nb)^[m + 1 - 1] s0
          (⟨s.offs, s.last, adv, s.icd, s.iprim, s.nprim⟩ : OffRes)) →
        (∀ n < m + 1, r.offs.getD n 0 = owner ns nb (k + n) - owner ns nb k) ∧
        r.last = owner ns nb (k + (m + 1 - 1)) - owner ns nb k ∧
        (if r.adv then before ns nb k + 1 else before ns nb k) = owner ns nb k ∧
        r.icd = before ns nb (k + (m + 1)) ∧ r.iprim = k + (m + 1) ∧
        r.nprim = tightStart ns (before ns nb (k + (m + 1)) + 1) ∧ r.offs.length = m + 1 := by
      intro s0 h0 h1 h2 h3 h4 adv hadv hr
      have := offIter nprim12 cd nb k m s0 h0 h1 (by rw [h2, hns]) h3 (by rw [h4, hns])
      rw [Nat.add_sub_cancel, this, ← hns] at hr
      rw [hr]
      refine ⟨fun n hn => ?_, rfl, hadv, rfl, by simp only; omega, rfl, by simp⟩
      simp [List.getD_eq_getElem?_getD, List.getElem?_map, List.getElem?_range hn]
    by_cases ha : k ≥ tightStart ns (before ns nb k + 1) ∧ before ns nb k + 1 < nb
    · have ho : owner ns nb k = before ns nb k + 1 := by rw [owner_eq, bump, if_pos ha]
      have hd : decide (k ≥ tightStart ns (before ns nb k + 1) ∧ before ns nb k + 1 < nb) = true := by
        simpa using ha
      simp only [hd, if_true] at hr
      refine hres ⟨[0], 0, before ns nb k + 1, k + 1,
        tightStart ns (before ns nb k + 1) + nprim12 (cd + (before ns nb k + 1))⟩ rfl rfl
        ho.symm rfl ?_ true (by simp [ho]) hr
      simp only
      rw [tightStart_succ ns (before ns nb k + 1), hns]
    · have ho : owner ns nb k = before ns nb k := by rw [owner_eq, bump, if_neg ha]
      have hd : decide (k ≥ tightStart ns (before ns nb k + 1) ∧ before ns nb k + 1 < nb) = false := by
        simpa using ha
      simp only [hd, Bool.false_eq_true, if_false] at hr
      exact hres ⟨[0], 0, before ns nb k, k + 1, tightStart ns (before ns nb k + 1)⟩ rfl rfl
        ho.symm rfl rfl false (by simp [ho]) hr
  · have hlow : ∀ n ≤ m + 1, before ns nb (k + n) = before ns nb k := by
      intro n
      induction n with
      | zero => intro _; rfl
      | succ n ih =>
        intro hn
        have e := ih (by omega)
        show bump ns nb (before ns nb (k + n)) (k + n) = _
        rw [e, bump, if_neg]
        omega
    have how : ∀ n < m + 1, owner ns nb (k + n) = before ns nb k := fun n hn => hlow (n + 1) hn
    have hr : r = ⟨List.replicate (m + 1) 0, 0, false, before ns nb k, k + (m + 1),
        tightStart ns (before ns nb k + 1)⟩ := by
      show shellOffsets _ _ _ _ _ _ _ = _
      unfold shellOffsets
      rw [if_neg hf]
    have h0 : owner ns nb k = before ns nb k := how 0 (by omega)
    rw [hr]
    refine ⟨fun n hn => ?_, ?_, by simp [h0], (hlow _ le_rfl).symm, rfl, by rw [hlow _ le_rfl], by simp⟩
    · rw [how n hn, h0, Nat.sub_self]
      simp [List.getD_eq_getElem?_getD, List.getElem?_replicate, hn]
    · rw [how _ (by omega), h0, Nat.sub_self]

/-- With at least one primitive per shell the counter is the shell that owns the primitive. -/
theorem owner_spec (ns : ℕ → ℕ) (nb : ℕ) (hnb : 0 < nb) (hpos : ∀ s < nb, 0 < ns s) (k : ℕ) :
    tightStart ns (owner ns nb k) ≤ k ∧ (k < tightStart ns nb → k < tightStart ns (owner ns nb k + 1)) := by
  have key : ∀ k, tightStart ns (before ns nb k) ≤ k ∧
      (k < tightStart ns nb → k ≤ tightStart ns (before ns nb k + 1)) := by
    intro k
    induction k with
    | zero => exact ⟨by simp [before, tightStart], fun _ => Nat.zero_le _⟩
    | succ k ih =>
      have hlt := before_lt ns hnb k
      rw [before, bump]
      by_cases hc : tightStart ns (before ns nb k + 1) ≤ k ∧ before ns nb k + 1 < nb
      · rw [if_pos hc]
        refine ⟨by omega, fun hk => ?_⟩
        have h1 := ih.2 (by omega)
        have h2 := hpos _ hc.2
        have h3 := tightStart_succ ns (before ns nb k + 1)
        omega
      · rw [if_neg hc]
        refine ⟨by omega, fun hk => ?_⟩
        have h1 := ih.2 (by omega)
        by_contra hcon
        have h4 : tightStart ns (before ns nb k + 1) ≤ k := by omega
        have h5 : before ns nb k + 1 = nb := by
          by_contra hne; exact hc ⟨h4, by omega⟩
        rw [h5] at h4
        omega
  have hlt := before_lt ns hnb k
  obtain ⟨h1, h2⟩ := key k
  rw [owner_eq, bump]
  by_cases hc : tightStart ns (before ns nb k + 1) ≤ k ∧ before ns nb k + 1 < nb
  · rw [if_pos hc]
    refine ⟨hc.1, fun hk => ?_⟩
    have h1 := h2 hk
    have h2 := hpos _ hc.2
    have h3 := tightStart_succ ns (before ns nb k + 1)
    omega
  · rw [if_neg hc]
    refine ⟨h1, fun hk => ?_⟩
    have h3 := h2 hk
    by_contra hcon
    have h4 : tightStart ns (before ns nb k + 1) ≤ k := by omega
    have h5 : before ns nb k + 1 = nb := by
      by_contra hne; exact hc ⟨h4, by omega⟩
    rw [h5] at h4
    omega

theorem owner_iff (ns : ℕ → ℕ) (nb : ℕ) (hnb : 0 < nb) (hpos : ∀ s < nb, 0 < ns s) {k s : ℕ}
    (hk : k < tightStart ns nb) : owner ns nb k = s ↔ Owns ns k s := by
  have h := owner_spec ns nb hnb hpos k
  constructor
  · rintro rfl
    exact ⟨h.1, h.2 hk⟩
  · rintro ⟨h1, h2⟩
    have h3 := h.2 hk
    change tightStart ns s ≤ k at h1
    change k < tightStart ns (s + 1) at h2
    by_contra hne
    rcases Nat.lt_or_gt_of_ne hne with hlt | hlt
    · have := tightStart_mono ns (show owner ns nb k + 1 ≤ s by omega); omega
    · have := tightStart_mono ns (show s + 1 ≤ owner ns nb k by omega); omega

/-! ## One vector -/

section
variable {F : Type} [AddCommMonoid F] [Mul F] [LinearOrder F]

theorem foldlM_update (f : QAM → (ℕ → F) → Option (ℕ → F)) (g : QAM → ℕ → F) (l : List QAM)
    (hl : l.Nodup) : ∀ m : QAM → ℕ → F, (∀ t ∈ l, f t (m t) = some (g t)) →
      l.foldlM (fun m t => (f t (m t)).map fun b => Function.update m t b) m
        = some fun t => if t ∈ l then g t else m t := by
  induction l with
  | nil => intro m _; simp
  | cons t r ih =>
    intro m h
    rw [List.foldlM_cons, h t (by simp)]
    have hn := List.nodup_cons.1 hl
    have h2 : ∀ t' ∈ r, f t' ((Function.update m t (g t)) t') = some (g t') := by
      intro t' ht'
      have hne : t' ≠ t := fun e => hn.1 (e ▸ ht')
      rw [Function.update_of_ne hne]
      exact h t' (by simp [ht'])
    show List.foldlM _ (Function.update m t (g t)) r = _
    rw [ih hn.2 _ h2]
    congr 1
    funext t'
    by_cases h3 : t' ∈ r
    · simp [h3]
    · by_cases h4 : t' = t
      · subst h4; simp [h3]
      · simp [h3, h4]

/-- Contribution of one vector to element `idx` of class `t`: lane `n` is added to the block of
shell `abcd + owner`. -/
def vecContrib (len : ℕ) (ns : ℕ → ℕ) (nb abcd k : ℕ) (src : ℕ → QAM → ℕ → F) (t : QAM) (idx : ℕ) : F :=
  ∑ n ∈ range len, ∑ c ∈ range (ncartQ t),
    if (abcd + owner ns nb (k + n)) * ncartQ t + c = idx then src n t c else 0

theorem accumulate_eq (e : DEnv F) (htops : e.tops.Nodup) (ns : ℕ → ℕ) (nb abcd k : ℕ)
    (hnb : 0 < nb) (hlen : 0 < e.len) (hsize : ∀ t ∈ e.tops, (abcd + nb) * ncartQ t ≤ e.size t)
    (offs : List ℕ) (last : ℕ)
    (h1 : ∀ n < e.len, offs.getD n 0 = owner ns nb (k + n) - owner ns nb k)
    (h2 : last = owner ns nb (k + (e.len - 1)) - owner ns nb k)
    (ptr : QAM → ℕ) (hptr : ∀ t, ptr t = (abcd + owner ns nb k) * ncartQ t)
    (src : ℕ → QAM → ℕ → F) (mem : QAM → ℕ → F) :
    accumulate e offs last ptr src mem = some fun t =>
      if t ∈ e.tops then fun idx => mem t idx + vecContrib e.len ns nb abcd k src t idx
      else mem t := by
  have hge : ∀ n, owner ns nb k ≤ owner ns nb (k + n) := fun n => owner_mono ns nb (by omega)
  have e1 : ∀ t n, ptr t + (owner ns nb (k + n) - owner ns nb k) * ncartQ t
      = (abcd + owner ns nb (k + n)) * ncartQ t := by
    intro t n
    rw [hptr, ← Nat.add_mul]
    congr 1
    have := hge n
    omega
  have hb : ∀ t ∈ e.tops, ∀ n, (abcd + owner ns nb (k + n)) * ncartQ t + ncartQ t ≤ e.size t := by
    intro t ht n
    have := owner_lt ns hnb (k + n)
    refine le_trans ?_ (hsize t ht)
    rw [← Nat.succ_mul]
    exact Nat.mul_le_mul_right _ (by omega)
  unfold accumulate
  apply foldlM_update (f := fun t b => if last = 0 then
        contractAll (e.size t) e.len (ncartQ t) (fun np n => src n t np) (ptr t) b
      else
        contract (e.size t) e.len (ncartQ t) (fun n => offs.getD n 0) (fun np n => src n t np)
          (ptr t) b) (hl := htops)
  intro t ht
  by_cases hl : last = 0
  · have hown : ∀ n < e.len, owner ns nb (k + n) = owner ns nb k := by
      intro n hn
      have a := hge n
      have b := owner_mono ns nb (show k + n ≤ k + (e.len - 1) by omega)
      omega
    simp only [hl, if_true]
    rw [contractAll, contract_eq]
    · congr 1
      funext idx
      congr 1
      unfold vecContrib
      apply sum_congr rfl
      intro n hn
      rw [hown n (mem_range.1 hn), hptr]
      simp
    · intro n hn
      have := hb t ht n
      rw [hown n hn, ← hptr] at this
      simpa using this
  · simp only [hl, if_false]
    rw [contract_eq]
    · congr 1
      funext idx
      congr 1
      unfold vecContrib
      apply sum_congr rfl
      intro n hn
      simp only [h1 n (mem_range.1 hn), e1]
    · intro n hn
      rw [h1 n hn, e1]
      exact hb t ht n

/-- State before the vector that starts at lane `k` of a batch. -/
def laneState (ns : ℕ → ℕ) (nb abcd k : ℕ) (mem : QAM → ℕ → F) : DSt F :=
  ⟨before ns nb k, k, tightStart ns (before ns nb k + 1),
    fun t => (abcd + before ns nb k) * ncartQ t, mem⟩

theorem vecStep_eq (e : DEnv F) (prim : ℕ → ℕ → F → QAM → ℕ → F) (hprim : LaneWise e prim)
    (htops : e.tops.Nodup) (hlen : 0 < e.len) (cd nb abcd jend i j k : ℕ)
    (hnb : 0 < nb) (hi : i < e.P.alloc) (hdvd : e.len ∣ j) (hj : j + e.len ≤ e.Q.alloc)
    (hsize : ∀ t ∈ e.tops, (abcd + nb) * ncartQ t ≤ e.size t) (mem : QAM → ℕ → F)
    (ns : ℕ → ℕ) (hns : ns = fun s => e.Q.nprim12 (cd + s)) :
    vecStep e cd nb jend i (laneState ns nb abcd k mem) j
      = some (laneState ns nb abcd (k + e.len) fun t => if t ∈ e.tops then fun idx => mem t idx +
          (if e.skipVec i j then 0 else vecContrib e.len ns nb abcd k
            (fun n t c => prim i (j + n) (if j + n < jend then e.Q.prefac (j + n) else 0) t c) t idx)
          else mem t) := by
  obtain ⟨h1, h2, h3, h4, h5, h6, h7⟩ := shellOffsets_eq hlen e.Q.nprim12 cd nb k ns hns
  unfold vecStep laneState
  simp only
  rw [if_pos hj]
  set r := shellOffsets e.len e.Q.nprim12 cd nb (before ns nb k) k
    (tightStart ns (before ns nb k + 1)) with hr
  have hptr : ∀ t, (if r.adv = true then (abcd + before ns nb k) * ncartQ t + ncartQ t
      else (abcd + before ns nb k) * ncartQ t) = (abcd + owner ns nb k) * ncartQ t := by
    intro t
    rw [← h3]
    split <;> ring
  have hlast : ∀ t, (abcd + owner ns nb k) * ncartQ t + r.last * ncartQ t
      = (abcd + before ns nb (k + e.len)) * ncartQ t := by
    intro t
    have hge : owner ns nb k ≤ owner ns nb (k + (e.len - 1)) := owner_mono ns nb (by omega)
    have he : owner ns nb (k + (e.len - 1)) = before ns nb (k + e.len) := by
      show before ns nb (k + (e.len - 1) + 1) = _
      congr 1; omega
    rw [h2, ← Nat.add_mul, ← he]
    congr 1
    omega
  simp only [hptr, hlast, h4, h5, h6]
  by_cases hs : e.skipVec i j
  · rw [if_pos hs]
    congr 2
    funext t
    simp only [hs, if_true, add_zero, ite_self]
  · rw [if_neg hs]
    obtain ⟨src, hv, hsrc⟩ := hprim.lane i j
      (maskLoad (if j + e.len < jend then e.len else jend - j) e.Q.prefac j) hi hdvd hj
    rw [hv, Option.bind_some]
    rw [accumulate_eq e htops ns nb abcd k hnb hlen hsize r.offs r.last h1 h2 _ (fun t => rfl) src mem]
    simp only [Option.map_some, Option.some.injEq, DSt.mk.injEq, true_and]
    refine ⟨?_, ?_⟩
    · split
      · rename_i h0
        funext t
        have := hlast t
        rw [h0] at this
        simpa using this
      · rfl
    · funext t
      by_cases ht : t ∈ e.tops
      · simp only [ht, if_true, hs, if_false]
        funext idx
        congr 1
        unfold vecContrib
        apply sum_congr rfl
        intro n hn
        apply sum_congr rfl
        intro c hc
        rw [hsrc n (mem_range.1 hn) t ht c (mem_range.1 hc)]
        have hm : maskLoad (if j + e.len < jend then e.len else jend - j) e.Q.prefac j n
            = if j + n < jend then e.Q.prefac (j + n) else 0 := by
          have := mem_range.1 hn
          unfold maskLoad
          split_ifs <;> first | rfl | omega
        rw [hm]
      · simp only [ht, if_false]

end

end Simint
