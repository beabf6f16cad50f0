import Verif.SortLemmas
import Verif.Spec.Sort
import Verif.Props.ShellFill

/-!
# Property C41: the sort of primitives
-/

set_option autoImplicit false

namespace Simint

section
variable {F : Type} [LinearOrder F]

theorem mem_swapArrs {g : ShCfg} (hs : g.screening = true) {a : Arr} : a ∈ swapArrs g.deriv ↔ PerPrim g a := by
  cases a with
  | pos d => cases d <;> simp [swapArrs, dirList, PerPrim]
  | PA d => cases d <;> simp [swapArrs, dirList, PerPrim]
  | PB d => cases d <;> simp [swapArrs, dirList, PerPrim]
  | AB d => cases h : g.deriv <;> cases d <;> simp [swapArrs, dirList, PerPrim]
  | nprim12 => cases h : g.deriv <;> simp [swapArrs, dirList, PerPrim]
  | alpha2 => cases h : g.deriv <;> simp [swapArrs, dirList, PerPrim, h]
  | beta2 => cases h : g.deriv <;> simp [swapArrs, dirList, PerPrim, h]
  | alpha => simp [swapArrs, PerPrim]
  | prefac => simp [swapArrs, PerPrim]
  | screen => simp [swapArrs, PerPrim, hs]

/-- A permutation that moves only `[lo, lo+n)` as a permutation of `Fin n`. -/
theorem within_fin {σ : Equiv.Perm ℤ} {lo n : ℕ} (h : Within σ lo ((lo : ℤ) + n - 1)) :
    ∃ τ : Equiv.Perm (Fin n), ∀ k : Fin n, σ ((lo + k : ℕ) : ℤ) = ((lo + τ k : ℕ) : ℤ) := by
  have hm : ∀ k : Fin n, (lo : ℤ) ≤ σ ((lo + k : ℕ) : ℤ) ∧ σ ((lo + k : ℕ) : ℤ) ≤ (lo : ℤ) + n - 1 := by
    intro k
    have := k.2
    exact h.mem ⟨by push_cast; omega, by push_cast; omega⟩
  let f : Fin n → Fin n := fun k => ⟨(σ ((lo + k : ℕ) : ℤ) - lo).toNat, by
    have := hm k
    have := k.2
    omega⟩
  have hf : ∀ k : Fin n, σ ((lo + k : ℕ) : ℤ) = ((lo + f k : ℕ) : ℤ) := by
    intro k
    have := hm k
    simp only [f]
    generalize σ ((lo + k : ℕ) : ℤ) = x at this ⊢
    omega
  have inj : Function.Injective f := by
    intro k l hkl
    have h1 := hf k
    have h2 := hf l
    rw [hkl] at h1
    have := σ.injective (h1.trans h2.symm)
    apply Fin.ext
    push_cast at this
    omega
  exact ⟨Equiv.ofBijective f (Finite.injective_iff_bijective.1 inj), hf⟩

/-- The loop over the pairs. -/
theorem sort_inv (len : ℕ) (hl : 0 < len) (deriv : Bool) (ns : List ℕ) (hn : ∀ n ∈ ns, 0 < n) (m : SMem F)
    (s : ℕ) (hs : s ≤ ns.length) :
    ∃ m', (ns.take s).foldl (fun st n => st.bind fun st => sortStep len deriv ns.length st n)
        (some ⟨m, 0, 0⟩) = some ⟨m', fillIdx len ns s, s⟩ ∧
      (∀ t < s, ∃ σ, Within σ (fillIdx len ns t) ((fillIdx len ns t : ℤ) + npOf ns t - 1) ∧
        (∀ a ∈ swapArrs deriv, ∀ k : ℤ, fillIdx len ns t ≤ k → k ≤ (fillIdx len ns t : ℤ) + npOf ns t - 1 →
          m' a k = m a (σ k)) ∧
        ∀ k l : ℤ, fillIdx len ns t ≤ k → k ≤ l → l ≤ (fillIdx len ns t : ℤ) + npOf ns t - 1 →
          m' .screen l ≤ m' .screen k) ∧
      ∀ a k, (a ∈ swapArrs deriv → ∀ t < s, ¬ ((fillIdx len ns t : ℤ) ≤ k ∧
        k ≤ (fillIdx len ns t : ℤ) + npOf ns t - 1)) → m' a k = m a k := by
  induction s with
  | zero =>
    refine ⟨m, ?_, fun t ht => by omega, fun _ _ _ => rfl⟩
    rw [fillIdx_zero len ns hl]; rfl
  | succ s ih =>
    obtain ⟨m1, e, h1, h2⟩ := ih (by omega)
    have hs' : s < ns.length := hs
    have hnp : npOf ns s = ns[s] := List.getD_eq_getElem _ _ hs'
    have hpos := hn _ (List.getElem_mem hs')
    obtain ⟨m2, eq, σ, g1, w, o⟩ := qsort_ok deriv (ns[s] + 1) m1 (fillIdx len ns s)
      ((fillIdx len ns s : ℤ) + ns[s] - 1) (by omega) (by omega) (by push_cast; omega)
    refine ⟨m2, ?_, ?_, ?_⟩
    · rw [List.take_add_one, List.foldl_append, e, List.getElem?_eq_getElem hs']
      simp only [Option.toList_some, List.foldl_cons, List.foldl_nil, Option.bind_some]
      unfold sortStep
      simp only
      rw [eq, Option.map_some, fillIdx_succ hl ns hs', hnp]
    · intro t ht
      by_cases hts : t = s
      · subst hts
        rw [hnp]
        refine ⟨σ, w, ?_, o⟩
        intro a ha k k1 k2
        rw [g1]
        unfold permMem
        rw [if_pos ha]
        apply h2
        intro _ u hu hc
        have := w.mem ⟨k1, k2⟩
        have l1 := fillIdx_mono hl ns (s := u) (by omega)
        have l2 := fillIdx_le hl ns (s := u + 1) (t := t) (by omega) (by omega)
        omega
      · obtain ⟨τ, w', p1, p2⟩ := h1 t (by omega)
        have l1 := fillIdx_mono hl ns (s := t) (by omega)
        have l2 := fillIdx_le hl ns (s := t + 1) (t := s) (by omega) (by omega)
        have same : ∀ a, ∀ k : ℤ, k ≤ (fillIdx len ns t : ℤ) + npOf ns t - 1 → m2 a k = m1 a k := by
          intro a k hk
          rw [g1]
          unfold permMem
          split
          · rw [w k (by omega)]
          · rfl
        refine ⟨τ, w', ?_, ?_⟩
        · intro a ha k k1 k2
          rw [same a k k2]
          exact p1 a ha k k1 k2
        · intro k l k1 k2 k3
          rw [same _ l k3, same _ k (by omega)]
          exact p2 k l k1 k2 k3
    · intro a k hk
      rw [← h2 a k fun ha t ht => hk ha t (by omega), g1]
      unfold permMem
      by_cases ha : a ∈ swapArrs deriv
      · rw [if_pos ha]
        have := hk ha s (by omega)
        rw [hnp] at this
        rw [w k this]
      · rw [if_neg ha]

/-- **C41.** Sorting a list terminates without reading outside the slots of the pair being sorted, and
leaves every pair with a permutation of its primitives, the same permutation in every array that has
one entry per primitive, in descending order of the screening values; padding elements and all other
arrays keep their contents. -/
theorem C41_sort (g : ShCfg) (hl : 0 < g.len) (hs : g.screening = true) (ns : List ℕ)
    (hn : ∀ n ∈ ns, 0 < n) (m : Arr → ℕ → F) :
    ∃ m', sortPairs g.len g.deriv ns.sum ns (fun a k => m a k.toNat) = some m' ∧
      Reordered g ns.length (fun s => ns.getD s 0) (paddedStart g.len fun s => ns.getD s 0) m
        (fun a i => m' a (i : ℤ)) := by
  unfold sortPairs
  by_cases h1 : ns.sum = 1
  · rw [if_pos h1]
    refine ⟨_, rfl, fun s hs => ⟨1, fun a _ k => by rw [Int.toNat_natCast]; rfl⟩, ?_, fun a i _ => by simp⟩
    intro s hs' k l hkl hl'
    have hlt : ns.getD s 0 ≤ ns.sum := by
      rw [List.getD_eq_getElem _ _ hs']
      exact List.le_sum_of_mem (List.getElem_mem hs')
    have : k = l := by omega
    rw [this]
  · rw [if_neg h1]
    obtain ⟨m', e, p1, p2⟩ := sort_inv g.len hl g.deriv ns hn (fun a k => m a k.toNat) ns.length le_rfl
    rw [List.take_length] at e
    rw [e, Option.map_some]
    have hst : ∀ s < ns.length, fillIdx g.len ns s = paddedStart g.len (fun s => ns.getD s 0) s :=
      fun s hs => fillIdx_eq_padded hs
    refine ⟨m', rfl, fun s hs' => ?_, fun s hs' k l hkl hl' => ?_, fun a i h => ?_⟩
    · obtain ⟨σ, w, q, -⟩ := p1 s hs'
      rw [hst s hs'] at w q
      obtain ⟨τ, hτ⟩ := within_fin w
      refine ⟨τ, fun a ha k => ?_⟩
      have := k.2
      simp only [npOf] at q
      have e1 := q a ((mem_swapArrs hs).2 ha) ((paddedStart g.len (fun s => ns.getD s 0) s + k : ℕ) : ℤ) (by push_cast; omega) (by push_cast; omega)
      rw [hτ k, Int.toNat_natCast] at e1
      exact e1
    · obtain ⟨σ, -, -, q⟩ := p1 s hs'
      rw [hst s hs'] at q
      simp only [npOf] at q
      exact q _ _ (by push_cast; omega) (by push_cast; omega) (by push_cast; omega)
    · have := p2 a i fun ha t ht hc => by
        rw [hst t ht] at hc
        simp only [npOf] at hc
        exact h ((mem_swapArrs hs).1 ha) t ht ⟨by omega, by omega⟩
      rw [this, Int.toNat_natCast]

end

end Simint
