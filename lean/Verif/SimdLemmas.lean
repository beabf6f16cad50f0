import Verif.DriverLemmas

/-! Contraction helpers: all variants add the same things. -/

set_option autoImplicit false

namespace Simint

open Finset

section
variable {F : Type} [CommRing F]

theorem list_sum_append {F : Type} [AddCommMonoid F] (l r : List F) :
    (l ++ r).sum = l.sum + r.sum := List.sum_append

/-- A sum that picks out one index. -/
theorem sum_pick (n ptr k : ℕ) (f : ℕ → F) :
    ∑ np ∈ range n, (if ptr + np = k then f np else 0)
      = if ptr ≤ k ∧ k < ptr + n then f (k - ptr) else 0 := by
  by_cases h : ptr ≤ k ∧ k < ptr + n
  · rw [if_pos h, sum_eq_single (k - ptr)]
    · rw [if_pos (by omega)]
    · intro b _ hb; rw [if_neg (by omega)]
    · intro hb; exact absurd (mem_range.2 (by omega)) hb
  · rw [if_neg h]
    exact sum_eq_zero fun x hx => by rw [if_neg]; have := mem_range.1 hx; omega

theorem contractAll_eq (size len ncart : ℕ) (src : ℕ → ℕ → F) (ptr : ℕ) (b : ℕ → F)
    (h : ptr + ncart ≤ size) :
    contractAll size len ncart src ptr b = some fun k => b k +
      (if ptr ≤ k ∧ k < ptr + ncart then ∑ n ∈ range len, src (k - ptr) n else 0) := by
  rw [contractAll, contract_eq _ _ _ _ _ _ _ (by intro n _; simpa using h)]
  congr 1
  funext k
  congr 1
  simp only [Nat.zero_mul, Nat.add_zero]
  rw [sum_comm]
  have := sum_pick ncart ptr k (fun np => ∑ n ∈ range len, src np n)
  rw [← this]
  refine sum_congr rfl fun np _ => ?_
  by_cases hk : ptr + np = k
  · simp only [hk, if_true]
  · simp only [hk, if_false, sum_const_zero]

theorem contractAllReduce_eq (size len ncart : ℕ) (src : ℕ → ℕ → F) (ptr : ℕ) (b : ℕ → F)
    (h : ptr + ncart ≤ size) :
    contractAllReduce size len ncart src ptr b = some fun k => b k +
      (if ptr ≤ k ∧ k < ptr + ncart then ∑ n ∈ range len, src (k - ptr) n else 0) := by
  rw [contractAllReduce, addList_eq]
  · congr 1
    funext k
    congr 1
    rw [List.map_map]
    simp only [Function.comp_def, list_range_sum]
    exact sum_pick ncart ptr k (fun np => ∑ n ∈ range len, src np n)
  · intro e he
    obtain ⟨np, hnp, rfl⟩ := List.mem_map.1 he
    have := List.mem_range.1 hnp
    simp only; omega

/-- Splitting a range into blocks of `w` and a remainder. -/
theorem sum_blocked (w n : ℕ) (f : ℕ → F) :
    ∑ x ∈ range n, f x = ∑ q ∈ range (n / w), ∑ r ∈ range w, f (q * w + r)
      + ∑ r ∈ range (n - n / w * w), f (n / w * w + r) := by
  have h1 : ∀ m, ∑ x ∈ range (m * w), f x = ∑ q ∈ range m, ∑ r ∈ range w, f (q * w + r) := by
    intro m
    induction m with
    | zero => simp
    | succ m ih => rw [Nat.succ_mul, sum_range_add, ih, sum_range_succ]
  rw [← h1, ← sum_range_add]
  congr 2
  have := Nat.div_mul_le_self n w
  omega

theorem list_range'_sum {F : Type} [AddCommMonoid F] (s n : ℕ) (f : ℕ → F) :
    ((List.range' s n).map f).sum = ∑ i ∈ range n, f (s + i) := by
  rw [List.range'_eq_map_range, List.map_map, list_range_sum]
  rfl

theorem contractAllAvx512_eq (size ncart : ℕ) (src : ℕ → ℕ → F) (ptr : ℕ) (b : ℕ → F)
    (h : ptr + ncart ≤ size) :
    contractAllAvx512 size ncart src ptr b = some fun k => b k +
      (if ptr ≤ k ∧ k < ptr + ncart then ∑ n ∈ range 8, src (k - ptr) n else 0) := by
  have hd := Nat.div_mul_le_self ncart 8
  rw [contractAllAvx512, addList_eq]
  · congr 1
    funext k
    congr 1
    rw [List.map_append, List.sum_append, List.map_flatMap, list_sum_flatMap]
    simp only [List.map_map, Function.comp_def, list_range_sum, list_range'_sum]
    rw [← sum_pick ncart ptr k (fun np => ∑ n ∈ range 8, src np n), sum_blocked 8 ncart]
    simp only [Nat.add_assoc]
  · intro e he
    rcases List.mem_append.1 he with he | he
    · obtain ⟨it, hit, he⟩ := List.mem_flatMap.1 he
      obtain ⟨j, hj, rfl⟩ := List.mem_map.1 he
      have h1 := List.mem_range.1 hit
      have h2 := List.mem_range.1 hj
      simp only
      omega
    · obtain ⟨np, hnp, rfl⟩ := List.mem_map.1 he
      have := List.mem_range'_1.1 hnp
      simp only
      omega

theorem contractAllAvx_eq (size ncart : ℕ) (src : ℕ → ℕ → F) (ptr : ℕ) (b : ℕ → F)
    (h : ptr + ncart ≤ size) :
    contractAllAvx size ncart src ptr b = some fun k => b k +
      (if ptr ≤ k ∧ k < ptr + ncart then ∑ n ∈ range 4, src (k - ptr) n else 0) := by
  have hd := Nat.div_mul_le_self ncart 4
  have hm : ncart % 4 = ncart - ncart / 4 * 4 := by omega
  have hm' : ncart - ncart % 4 = ncart / 4 * 4 := by omega
  rw [contractAllAvx, addList_eq]
  · congr 1
    funext k
    congr 1
    rw [List.map_append, List.sum_append, List.map_flatMap, list_sum_flatMap]
    simp only [List.map_map, Function.comp_def, list_range_sum, list_range'_sum]
    rw [← sum_pick ncart ptr k (fun np => ∑ n ∈ range 4, src np n), sum_blocked 4 ncart, hm', hm]
    congr 1
    · refine sum_congr rfl fun q _ => ?_
      simp only [List.map_cons, List.map_nil, List.sum_cons, List.sum_nil, hadd4, sum_range_succ,
        range_zero, sum_empty, zero_add, add_zero, Nat.mul_comm q 4]
      simp only [← add_assoc]
    · refine sum_congr rfl fun r _ => ?_
      simp only [sum_range_succ, range_zero, sum_empty, zero_add]
  · intro e he
    rcases List.mem_append.1 he with he | he
    · obtain ⟨it, hit, he⟩ := List.mem_flatMap.1 he
      have h1 := List.mem_range.1 hit
      simp only [List.mem_cons, List.not_mem_nil, or_false] at he
      rcases he with rfl | rfl | rfl | rfl <;> simp only <;> omega
    · obtain ⟨np, hnp, rfl⟩ := List.mem_map.1 he
      have := List.mem_range'_1.1 hnp
      simp only
      omega

theorem contractFac_eq (size len ncart : ℕ) (fac : ℕ → F) (off : ℕ → ℕ) (src : ℕ → ℕ → F)
    (ptr : ℕ) (b : ℕ → F) (h : ∀ n < len, ptr + off n * ncart + ncart ≤ size) :
    contractFac size len ncart fac off src ptr b = some fun k => b k +
      ∑ n ∈ range len, ∑ np ∈ range ncart,
        if ptr + off n * ncart + np = k then fac n * src np n else 0 := by
  rw [contractFac, addList_eq]
  · congr 1
    funext k
    congr 1
    rw [List.map_flatMap, list_sum_flatMap]
    simp only [List.map_map, Function.comp_def, list_range_sum]
    rw [sum_comm]
    simp only [mul_comm]
  · intro e he
    obtain ⟨np, hnp, he⟩ := List.mem_flatMap.1 he
    obtain ⟨n, hn, rfl⟩ := List.mem_map.1 he
    have := h n (List.mem_range.1 hn)
    have := List.mem_range.1 hnp
    simp only; omega

theorem contractFacScalar_eq (size len ncart : ℕ) (fac : ℕ → F) (off : ℕ → ℕ) (src : ℕ → ℕ → F)
    (ptr : ℕ) (b : ℕ → F) :
    contractFacScalar size len ncart fac off src ptr b
      = contract size len ncart off (fun np n => fac n * src np n) ptr b := rfl

end

section
variable {F : Type} [LinearOrder F]

theorem foldl_gtmax_ge (v : ℕ → F) (l : List ℕ) : ∀ m,
    m ≤ l.foldl (fun m n => if v n > m then v n else m) m ∧
    ∀ n ∈ l, v n ≤ l.foldl (fun m n => if v n > m then v n else m) m := by
  induction l with
  | nil => intro m; exact ⟨le_rfl, by simp⟩
  | cons a r ih =>
    intro m
    simp only [List.foldl_cons]
    obtain ⟨h1, h2⟩ := ih (if v a > m then v a else m)
    have h3 : m ≤ (if v a > m then v a else m) := by
      split
      · rename_i h; exact le_of_lt h
      · exact le_rfl
    have h4 : v a ≤ (if v a > m then v a else m) := by
      split
      · exact le_rfl
      · rename_i h; exact not_lt.1 h
    refine ⟨h3.trans h1, fun n hn => ?_⟩
    rcases List.mem_cons.1 hn with rfl | hn
    · exact h4.trans h1
    · exact h2 n hn

theorem foldl_gtmax_mem (v : ℕ → F) (l : List ℕ) : ∀ m,
    l.foldl (fun m n => if v n > m then v n else m) m = m ∨
    ∃ n ∈ l, l.foldl (fun m n => if v n > m then v n else m) m = v n := by
  induction l with
  | nil => intro m; exact Or.inl rfl
  | cons a r ih =>
    intro m
    simp only [List.foldl_cons]
    rcases ih (if v a > m then v a else m) with h | ⟨n, hn, h⟩
    · rw [h]
      split
      · exact Or.inr ⟨a, by simp, rfl⟩
      · exact Or.inl rfl
    · exact Or.inr ⟨n, by simp [hn], h⟩

theorem vectorMax_ge [Zero F] {len : ℕ} (v : ℕ → F) {n : ℕ} (hn : n < len) : v n ≤ vectorMax len v := by
  unfold vectorMax
  obtain ⟨h1, h2⟩ := foldl_gtmax_ge v (List.range' 1 (len - 1)) (v 0)
  rcases Nat.eq_zero_or_pos n with rfl | h
  · exact h1
  · exact h2 n (List.mem_range'_1.2 (by omega))

theorem vectorMax_mem [Zero F] {len : ℕ} (hlen : 0 < len) (v : ℕ → F) :
    ∃ n < len, vectorMax len v = v n := by
  unfold vectorMax
  rcases foldl_gtmax_mem v (List.range' 1 (len - 1)) (v 0) with h | ⟨n, hn, h⟩
  · exact ⟨0, hlen, h⟩
  · have := List.mem_range'_1.1 hn
    exact ⟨n, by omega, h⟩

theorem vectorMaxSse_eq [Zero F] {len : ℕ} (hlen : 0 < len) (v : ℕ → F) :
    vectorMaxSse len v = max 0 (vectorMax len v) := by
  obtain ⟨n, hn, hv⟩ := vectorMax_mem hlen v
  unfold vectorMaxSse
  obtain ⟨h1, h2⟩ := foldl_gtmax_ge v (List.range len) 0
  apply le_antisymm
  · rcases foldl_gtmax_mem v (List.range len) 0 with h | ⟨k, hk, h⟩
    · rw [h]; exact le_max_left _ _
    · rw [h]; exact le_trans (vectorMax_ge v (List.mem_range.1 hk)) (le_max_right _ _)
  · apply max_le h1
    rw [hv]
    exact h2 n (List.mem_range.2 hn)

end

end Simint
