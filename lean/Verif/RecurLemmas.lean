import Verif.Recur
import Verif.TypesLemmas

namespace Simint

theorem findIndex_comp {am : ℕ} {e : Exp} (h : IsComp am e) :
    findIndex (psi4List am) e = rank e := by
  have hm : e ∈ psi4List am := (psi4_ordOK.mem am e).2 h
  have hc := psi4_cidx h.valid
  unfold cidx at hc
  rw [h.am_eq, Int.toNat_natCast] at hc
  unfold findIndex
  have : (psi4List am).findIdx? (· = e) = some ((psi4List am).idxOf e) := by
    rw [List.findIdx?_eq_some_iff_getElem]
    have hl := List.idxOf_lt_length_of_mem hm
    refine ⟨hl, by simp, ?_⟩
    intro j hj hh
    simp only [decide_eq_true_eq] at hh
    have := (psi4_ordOK.nodup am).idxOf_getElem j (by omega)
    rw [hh] at this; omega
  rw [this, hc]

theorem findIndex_not {am : ℕ} {e : Exp} (h : ¬ IsComp am e) :
    findIndex (psi4List am) e = -1 := by
  unfold findIndex
  have : (psi4List am).findIdx? (· = e) = none := by
    rw [List.findIdx?_eq_none_iff]
    intro x hx
    simp only [decide_eq_false_iff_not]
    rintro rfl
    exact h ((psi4_ordOK.mem am x).1 hx)
  rw [this]

theorem isComp_step {am : ℕ} {e : Exp} (h : IsComp am e) (d : Dir) (n : ℤ) (m : ℕ)
    (hm : (m : ℤ) = am + n) : IsComp m (e.step d n) ↔ 0 ≤ e.get d + n := by
  obtain ⟨h1, h2, h3, h4⟩ := h
  cases d <;> simp only [IsComp, Exp.step, Exp.get] <;> omega

theorem recurRow_m1 {k : ℕ} {e : Exp} (h : IsComp k e) (d : Dir) :
    (recurRow k e).m1 d = if 0 < e.get d then (rank (e.step d (-1)) : ℤ) else -1 := by
  simp only [recurRow]
  have hle := h.valid.get_le_am d
  rw [h.am_eq] at hle
  split_ifs with h0 h1 h1
  · omega
  · rfl
  · exact findIndex_comp ((isComp_step h d (-1) (k - 1) (by omega)).2 (by omega))
  · exact findIndex_not (fun hh => by
      have := (isComp_step h d (-1) (k - 1) (by omega)).1 hh; omega)

theorem recurRow_m2 {k : ℕ} {e : Exp} (h : IsComp k e) (d : Dir) :
    (recurRow k e).m2 d = if 1 < e.get d then (rank (e.step d (-2)) : ℤ) else -1 := by
  simp only [recurRow]
  have hle := h.valid.get_le_am d
  rw [h.am_eq] at hle
  split_ifs with h0 h1 h1
  · exact findIndex_comp ((isComp_step h d (-2) (k - 2) (by omega)).2 (by omega))
  · exact findIndex_not (fun hh => by
      have := (isComp_step h d (-2) (k - 2) (by omega)).1 hh; omega)
  · omega
  · rfl

theorem recurRow_p1 {k : ℕ} {e : Exp} (h : IsComp k e) (d : Dir) :
    (recurRow k e).p1 d = rank (e.step d 1) := by
  simp only [recurRow]
  have hge := (Exp.valid_iff e).1 h.valid d
  split_ifs with h0
  · subst h0
    obtain ⟨h1, h2, h3, h4⟩ := h
    have : e = ⟨0, 0, 0⟩ := by ext <;> simp only <;> omega
    subst this
    cases d <;> decide
  · exact findIndex_comp ((isComp_step h d 1 (k + 1) (by omega)).2 (by omega))

theorem recurStart_add (maxam : ℕ) : (recurArrayGen maxam).length = recurStart (maxam + 1) := by
  induction maxam with
  | zero => simp [recurArrayGen, recurStart, recurRows]
  | succ n ih =>
    unfold recurArrayGen at ih ⊢
    rw [List.range_succ, List.flatMap_append, List.length_append, ih]
    simp [recurStart, recurRows]

theorem recurArrayGen_prefix (k n : ℕ) :
    ∃ t, recurArrayGen (k + n) = recurArrayGen k ++ t := by
  induction n with
  | zero => exact ⟨[], by simp⟩
  | succ n ih =>
    obtain ⟨t, ht⟩ := ih
    refine ⟨t ++ recurRows (k + n + 1), ?_⟩
    have : recurArrayGen (k + (n + 1)) = recurArrayGen (k + n) ++ recurRows (k + n + 1) := by
      unfold recurArrayGen
      rw [show k + (n + 1) + 1 = (k + n + 1) + 1 by ring, List.range_succ (n := k + n + 1),
        List.flatMap_append]
      simp
    rw [this, ht, List.append_assoc]

theorem recurArrayGen_get {maxam k i : ℕ} (hk : k ≤ maxam) (hi : i < (psi4List k).length) :
    (recurArrayGen maxam)[recurStart k + i]? = some (recurRow k (psi4List k)[i]) := by
  obtain ⟨n, rfl⟩ := Nat.exists_eq_add_of_le hk
  obtain ⟨t, ht⟩ := recurArrayGen_prefix k n
  have hlen := recurStart_add k
  have hlt : recurStart k + i < (recurArrayGen k).length := by
    rw [hlen]; simp only [recurStart]; omega
  rw [ht, List.getElem?_append_left hlt]
  cases k with
  | zero =>
    simp only [recurArrayGen, recurStart]
    simp [recurRows, hi]
  | succ k =>
    have h2 : recurArrayGen (k + 1) = recurArrayGen k ++ recurRows (k + 1) := by
      unfold recurArrayGen
      rw [List.range_succ (n := k + 1), List.flatMap_append]; simp
    rw [h2, List.getElem?_append_right (by rw [recurStart_add]; omega), recurStart_add]
    simp [recurRows, hi]

end Simint
