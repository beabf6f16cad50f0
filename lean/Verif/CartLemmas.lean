import Verif.Spec.Cart

namespace Simint

/-- triangular number -/
def tri (s : ℕ) : ℕ := s * (s + 1) / 2

theorem tri_two (s : ℕ) : 2 * tri s = s * (s + 1) := by
  unfold tri
  have : 2 ∣ s * (s + 1) := (Nat.even_mul_succ_self s).two_dvd
  omega

theorem tri_succ (s : ℕ) : tri (s + 1) = tri s + (s + 1) := by
  have h1 := tri_two s
  have h2 := tri_two (s + 1)
  have : (s + 1) * (s + 1 + 1) = s * (s + 1) + 2 * (s + 1) := by ring
  omega

theorem tri_mono {s t : ℕ} (h : s ≤ t) : tri s ≤ tri t := by
  induction h with
  | refl => exact le_refl _
  | step _ ih => exact le_trans ih (by rw [tri_succ]; omega)

theorem ncart_eq_tri (am : ℕ) : ncart am = tri (am + 1) := by
  simp [ncart, tri]
  congr 1; ring

theorem ncart_succ (am : ℕ) : ncart ((am : ℤ) + 1) = ncart am + (am + 2) := by
  have h := ncart_eq_tri (am + 1)
  push_cast at h
  rw [h, ncart_eq_tri, tri_succ]

theorem ncart_pos {am : ℤ} (h : 0 ≤ am) : 0 < ncart am := by
  obtain ⟨n, rfl⟩ := Int.eq_ofNat_of_zero_le h
  rw [ncart_eq_tri, tri_succ]; omega

/-- rank of a component in the Psi4 order -/
def rank (e : Exp) : ℕ := tri (e.y + e.z).toNat + e.z.toNat

theorem rank_inj_aux {s k s' k' : ℕ} (hk : k ≤ s) (hk' : k' ≤ s')
    (h : tri s + k = tri s' + k') : s = s' ∧ k = k' := by
  rcases lt_trichotomy s s' with hl | he | hl
  · have := tri_mono (show s + 1 ≤ s' from hl)
    rw [tri_succ] at this; omega
  · subst he; omega
  · have := tri_mono (show s' + 1 ≤ s from hl)
    rw [tri_succ] at this; omega

theorem rank_inj {am : ℕ} {e f : Exp} (he : IsComp am e) (hf : IsComp am f)
    (h : rank e = rank f) : e = f := by
  obtain ⟨h1, h2, h3, h4⟩ := he
  obtain ⟨g1, g2, g3, g4⟩ := hf
  unfold rank at h
  have := rank_inj_aux (s := (e.y + e.z).toNat) (k := e.z.toNat) (s' := (f.y + f.z).toNat)
    (k' := f.z.toNat) (by omega) (by omega) h
  ext <;> omega

theorem rank_lt {am : ℕ} {e : Exp} (he : IsComp am e) : rank e < ncart am := by
  obtain ⟨h1, h2, h3, h4⟩ := he
  rw [ncart_eq_tri]
  unfold rank
  have := tri_mono (show (e.y + e.z).toNat ≤ am by omega)
  rw [tri_succ]; omega

theorem pyValid_iff (am : ℕ) (e : Exp) : pyValid am e = true ↔ IsComp am e := by
  simp only [pyValid, IsComp, decide_eq_true_eq]
  omega

/-- one `IteratePsi4` step moves to the next rank, or to an invalid exponent list at the end -/
theorem iterate_rank {am : ℕ} {e : Exp} (he : IsComp am e) :
    (rank e + 1 < ncart am ∧ IsComp am (iteratePsi4 am e) ∧
        rank (iteratePsi4 am e) = rank e + 1) ∨
    (rank e + 1 = ncart am ∧ ¬ IsComp am (iteratePsi4 am e)) := by
  have hlt := rank_lt he
  obtain ⟨h1, h2, h3, h4⟩ := he
  rw [ncart_eq_tri] at *
  unfold iteratePsi4
  split_ifs with c1 c2
  · right
    refine ⟨?_, by simp [IsComp]⟩
    have : (e.y + e.z).toNat = am := by omega
    unfold rank
    rw [this, tri_succ]; omega
  · left
    have e1 : rank ⟨e.x, e.y - 1, e.z + 1⟩ = rank e + 1 := by
      unfold rank
      simp only
      rw [show e.y - 1 + (e.z + 1) = e.y + e.z by ring]
      omega
    have e2 : IsComp am ⟨e.x, e.y - 1, e.z + 1⟩ := by
      simp only [IsComp]; omega
    refine ⟨?_, e2, e1⟩
    have := rank_lt e2
    rw [e1, ncart_eq_tri] at this; exact this
  · left
    have e1 : rank ⟨e.x - 1, am - e.x + 1, 0⟩ = rank e + 1 := by
      unfold rank
      simp only
      have : ((am : ℤ) - e.x + 1 + 0).toNat = (e.y + e.z).toNat + 1 := by omega
      rw [this, tri_succ]; omega
    have e2 : IsComp am ⟨e.x - 1, am - e.x + 1, 0⟩ := by
      simp only [IsComp]; omega
    refine ⟨?_, e2, e1⟩
    have := rank_lt e2
    rw [e1, ncart_eq_tri] at this; exact this

theorem genLoop_spec {am : ℕ} : ∀ (f : ℕ) (e : Exp), IsComp am e → ncart am ≤ rank e + f →
    (genLoop am f e).length + rank e + 1 = ncart am ∧
    ∀ i (h : i < (genLoop am f e).length),
      IsComp am (genLoop am f e)[i] ∧ rank (genLoop am f e)[i] = rank e + 1 + i := by
  intro f
  induction f with
  | zero =>
    intro e he hf
    have := rank_lt he
    omega
  | succ f ih =>
    intro e he hf
    rcases iterate_rank he with ⟨h1, h2, h3⟩ | ⟨h1, h2⟩
    · have hv : pyValid am (iteratePsi4 am e) = true := (pyValid_iff _ _).2 h2
      have hl : genLoop am (f + 1) e = iteratePsi4 am e :: genLoop am f (iteratePsi4 am e) := by
        simp [genLoop, hv]
      obtain ⟨i1, i2⟩ := ih _ h2 (by omega)
      simp only [hl, List.length_cons]
      refine ⟨by omega, ?_⟩
      intro i hi
      cases i with
      | zero => simp [h2, h3]
      | succ i =>
        simp only [List.getElem_cons_succ]
        have := i2 i (by simpa using hi)
        exact ⟨this.1, by omega⟩
    · have hv : pyValid am (iteratePsi4 am e) = false := by
        rw [Bool.eq_false_iff]; exact fun hh => h2 ((pyValid_iff _ _).1 hh)
      have hl : genLoop am (f + 1) e = [] := by simp [genLoop, hv]
      simp [hl]; omega

theorem isComp_start (am : ℕ) : IsComp am ⟨am, 0, 0⟩ := by simp [IsComp]

theorem rank_start (am : ℕ) : rank ⟨am, 0, 0⟩ = 0 := by simp [rank, tri]

theorem generateMap_get (am fuel : ℕ) (hf : ncart am ≤ fuel) :
    (generateMap fuel am).length = ncart am ∧
    ∀ i (h : i < (generateMap fuel am).length),
      IsComp am (generateMap fuel am)[i] ∧ rank (generateMap fuel am)[i] = i := by
  obtain ⟨h1, h2⟩ := genLoop_spec (am := am) fuel ⟨am, 0, 0⟩ (isComp_start am)
    (by rw [rank_start]; omega)
  rw [rank_start] at h1 h2
  unfold generateMap
  refine ⟨by simp only [List.length_cons]; omega, ?_⟩
  intro i hi
  cases i with
  | zero => exact ⟨isComp_start am, rank_start am⟩
  | succ i =>
    simp only [List.getElem_cons_succ]
    have := h2 i (by simpa using hi)
    exact ⟨this.1, by omega⟩

theorem psi4_get (am : ℕ) : (psi4List am).length = ncart am ∧
    ∀ i (h : i < (psi4List am).length), IsComp am (psi4List am)[i] ∧ rank (psi4List am)[i] = i :=
  generateMap_get am _ (le_refl _)

theorem psi4_ordOK : OrdOK psi4List where
  nodup am := by
    obtain ⟨_, h2⟩ := psi4_get am
    rw [List.nodup_iff_injective_get]
    intro i j hij
    have hi := h2 i.1 i.2
    have hj := h2 j.1 j.2
    simp only [List.get_eq_getElem] at hij
    rw [hij] at hi
    exact Fin.ext (by rw [← hi.2, hj.2])
  mem am e := by
    obtain ⟨h1, h2⟩ := psi4_get am
    constructor
    · intro h
      obtain ⟨i, hi, rfl⟩ := List.getElem_of_mem h
      exact (h2 i hi).1
    · intro h
      have hr := rank_lt h
      have hi := h2 (rank e) (by omega)
      rw [← rank_inj hi.1 h hi.2]
      exact List.getElem_mem _

theorem psi4_cidx {e : Exp} (h : e.Valid) : cidx psi4List e = rank e := by
  obtain ⟨am, ham⟩ := Int.eq_ofNat_of_zero_le h.am_nonneg
  have hc : IsComp am e := ⟨h.1, h.2.1, h.2.2, ham⟩
  obtain ⟨h1, h2⟩ := psi4_get am
  have hr := rank_lt hc
  unfold cidx
  have hh : e.am.toNat = am := by omega
  rw [hh]
  have hi := h2 (rank e) (by omega)
  have he : (psi4List am)[rank e]'(by omega) = e := rank_inj hi.1 hc hi.2
  conv_lhs => rw [← he]
  rw [(psi4_ordOK.nodup am).idxOf_getElem]

/-! ### generic facts about an order -/

variable {ord : ℕ → List Exp}

theorem OrdOK.perm (h : OrdOK ord) (am : ℕ) : (ord am).Perm (psi4List am) :=
  (List.perm_ext_iff_of_nodup (h.nodup am) (psi4_ordOK.nodup am)).2 fun e => by
    rw [h.mem, psi4_ordOK.mem]

theorem OrdOK.length (h : OrdOK ord) (am : ℕ) : (ord am).length = ncart am := by
  rw [(h.perm am).length_eq, (psi4_get am).1]

theorem isComp_of_valid {e : Exp} (h : e.Valid) : IsComp e.am.toNat e := by
  have := h.am_nonneg
  refine ⟨h.1, h.2.1, h.2.2, ?_⟩
  have : e.x + e.y + e.z = e.am := rfl
  omega

theorem OrdOK.mem_of_valid (h : OrdOK ord) {e : Exp} (he : e.Valid) : e ∈ ord e.am.toNat :=
  (h.mem _ _).2 (isComp_of_valid he)

theorem OrdOK.cidx_lt (h : OrdOK ord) {e : Exp} (he : e.Valid) : cidx ord e < ncart e.am := by
  have := List.idxOf_lt_length_of_mem (h.mem_of_valid he)
  rw [h.length] at this
  have h2 : ((e.am.toNat : ℕ) : ℤ) = e.am := by have := he.am_nonneg; omega
  rw [h2] at this
  exact this

theorem OrdOK.cidx_inj (h : OrdOK ord) {e f : Exp} (he : e.Valid) (hf : f.Valid)
    (ham : e.am = f.am) (hi : cidx ord e = cidx ord f) : e = f := by
  unfold cidx at hi
  rw [← ham] at hi
  have h1 := h.mem_of_valid he
  have h2 := h.mem_of_valid hf
  rw [← ham] at h2
  exact (List.idxOf_inj h1).1 hi

theorem IsComp.valid {am : ℕ} {e : Exp} (h : IsComp am e) : e.Valid := ⟨h.1, h.2.1, h.2.2.1⟩

theorem IsComp.am_eq {am : ℕ} {e : Exp} (h : IsComp am e) : e.am = am := h.2.2.2

/-- every component number below `ncart` is hit -/
theorem OrdOK.cidx_surj (h : OrdOK ord) (am : ℕ) {i : ℕ} (hi : i < ncart am) :
    ∃ e, IsComp am e ∧ cidx ord e = i ∧ (ord am)[i]? = some e := by
  have hl := h.length am
  have hi' : i < (ord am).length := by omega
  refine ⟨(ord am)[i], (h.mem _ _).1 (List.getElem_mem _), ?_, by simp [hi']⟩
  have hc := (h.mem am _).1 (List.getElem_mem hi')
  unfold cidx
  rw [hc.am_eq]
  simp only [Int.toNat_natCast]
  exact (h.nodup am).idxOf_getElem i hi'

/-! ### Makowski direction -/

theorem find_sorted_min {l : List ℤ} {p : ℤ → Bool} {v : ℤ} (hs : l.Pairwise (· ≤ ·))
    (hf : l.find? p = some v) : p v = true ∧ v ∈ l ∧ ∀ w ∈ l, p w = true → v ≤ w := by
  refine ⟨List.find?_some hf, List.mem_of_find?_eq_some hf, ?_⟩
  induction l with
  | nil => simp
  | cons a l ih =>
    rw [List.pairwise_cons] at hs
    intro w hw hp
    rw [List.find?_cons] at hf
    cases hpa : p a with
    | true =>
      simp only [hpa, Option.some.injEq] at hf
      subst hf
      rcases List.mem_cons.1 hw with rfl | hw
      · exact le_refl _
      · exact hs.1 w hw
    | false =>
      simp only [hpa] at hf
      rcases List.mem_cons.1 hw with rfl | hw
      · rw [hpa] at hp; exact absurd hp (by simp)
      · exact ih hs.2 hf w hw hp

theorem find_sort3 {a b c : ℤ} {p : ℤ → Bool} (h : p a = true ∨ p b = true ∨ p c = true) :
    ∃ v, ([a, b, c].insertionSort (· ≤ ·)).find? p = some v ∧ p v = true ∧
      (a = v ∨ b = v ∨ c = v) ∧
      (p a = true → v ≤ a) ∧ (p b = true → v ≤ b) ∧ (p c = true → v ≤ c) := by
  have hperm := List.perm_insertionSort (· ≤ ·) [a, b, c]
  have hsort := List.pairwise_insertionSort (· ≤ ·) [a, b, c]
  cases hf : ([a, b, c].insertionSort (· ≤ ·)).find? p with
  | none =>
    rw [List.find?_eq_none] at hf
    exfalso
    rcases h with h | h | h
    · exact hf a (hperm.mem_iff.2 (by simp)) h
    · exact hf b (hperm.mem_iff.2 (by simp)) h
    · exact hf c (hperm.mem_iff.2 (by simp)) h
  | some v =>
    obtain ⟨h1, h2, h3⟩ := find_sorted_min hsort hf
    refine ⟨v, rfl, h1, ?_, fun h => h3 a (hperm.mem_iff.2 (by simp)) h,
      fun h => h3 b (hperm.mem_iff.2 (by simp)) h, fun h => h3 c (hperm.mem_iff.2 (by simp)) h⟩
    have := hperm.mem_iff.1 h2
    simp only [List.mem_cons, List.not_mem_nil, or_false] at this
    omega

theorem makDir_spec {e : Exp} (hv : e.Valid) (ham : 0 < e.am) :
    ∃ d, makDir e = some d ∧ SmallestRight e d := by
  obtain ⟨a, b, c⟩ := e
  obtain ⟨h1, h2, h3⟩ := hv
  simp only [Exp.am] at ham h1 h2 h3
  obtain ⟨v, hv, h0, hm, ha, hb, hc⟩ := find_sort3 (a := a) (b := b) (c := c)
    (p := fun i => i ≠ 0) (by simp only [decide_eq_true_eq, ne_eq]; omega)
  simp only [decide_eq_true_eq, ne_eq] at h0 ha hb hc
  replace ha : a = 0 ∨ v ≤ a := by by_cases h : a = 0 <;> simp_all
  replace hb : b = 0 ∨ v ≤ b := by by_cases h : b = 0 <;> simp_all
  replace hc : c = 0 ∨ v ≤ c := by by_cases h : c = 0 <;> simp_all
  unfold makDir firstNonzero
  simp only
  rw [hv]
  simp only [Option.map_some, Option.some.injEq, exists_eq_left']
  split_ifs with q1 q2
  · refine ⟨by simp only [Exp.get]; omega, ?_⟩
    intro d' hd'
    cases d' <;> simp only [Exp.get, Dir.idx] at hd' ⊢ <;> first | omega | simp
  · refine ⟨by simp only [Exp.get]; omega, ?_⟩
    intro d' hd'
    cases d' <;> simp only [Exp.get, Dir.idx] at hd' ⊢ <;> first | omega | simp
  · refine ⟨by simp only [Exp.get]; omega, ?_⟩
    intro d' hd'
    cases d' <;> simp only [Exp.get, Dir.idx] at hd' ⊢ <;> first | omega | simp

theorem smallestRight_unique {e : Exp} {d d' : Dir} (h : SmallestRight e d)
    (h' : SmallestRight e d') : d = d' := by
  obtain ⟨a, b⟩ := h
  obtain ⟨a', b'⟩ := h'
  have h1 := b d' a'
  have h2 := b' d a
  cases d <;> cases d' <;> simp [Exp.get, Dir.idx] at * <;> omega

theorem pyDir_spec {e : Exp} (hv : e.Valid) (ham : 0 < e.am) :
    ∃ d, pyDir e = some d ∧ SmallestRight e d := by
  obtain ⟨a, b, c⟩ := e
  obtain ⟨h1, h2, h3⟩ := hv
  simp only [Exp.am] at ham h1 h2 h3
  obtain ⟨v, hv, h0, hm, ha, hb, hc⟩ := find_sort3 (a := a) (b := b) (c := c)
    (p := fun i => i > 0) (by simp only [decide_eq_true_eq]; omega)
  simp only [decide_eq_true_eq] at h0 ha hb hc
  replace ha : a ≤ 0 ∨ v ≤ a := (le_or_gt a 0).imp id ha
  replace hb : b ≤ 0 ∨ v ≤ b := (le_or_gt b 0).imp id hb
  replace hc : c ≤ 0 ∨ v ≤ c := (le_or_gt c 0).imp id hc
  unfold pyDir
  have hne : ¬ ((⟨a, b, c⟩ : Exp).am = 0) := by simp only [Exp.am]; omega
  simp only [hne, if_false]
  rw [hv]
  simp only [Option.bind_some, List.findIdx?_cons, List.findIdx?_nil]
  clear hne
  by_cases q1 : c = v
  · simp only [q1, decide_true, if_true]
    refine ⟨_, rfl, by simp only [Exp.get]; omega, ?_⟩
    intro d' hd'
    cases d' <;> simp only [Exp.get, Dir.idx] at hd' ⊢ <;> first | omega | simp
  · by_cases q2 : b = v
    · simp only [q1, q2, decide_true, decide_false, if_true, Bool.false_eq_true, if_false,
        Option.map_some]
      refine ⟨_, rfl, by simp only [Exp.get]; omega, ?_⟩
      intro d' hd'
      cases d' <;> simp only [Exp.get, Dir.idx] at hd' ⊢ <;> first | omega | simp
    · have q3 : a = v := by omega
      simp only [q1, q2, q3, decide_true, decide_false, if_true, Bool.false_eq_true, if_false,
        Option.map_some]
      refine ⟨_, rfl, by simp only [Exp.get]; omega, ?_⟩
      intro d' hd'
      cases d' <;> simp only [Exp.get, Dir.idx] at hd' ⊢ <;> first | omega | simp

end Simint
