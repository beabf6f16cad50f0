import Verif.TestProgLemmas

/-!
# C82: buffers and threads of the test programs and of the benchmark
-/

set_option autoImplicit false

namespace Simint.TestProg

/-- `FindMaxParams`: the largest angular momentum and the largest number of functions of one angular
momentum. -/
theorem C82_max (m : SMap) :
    (∀ kv ∈ m, kv.1 ≤ (findMax m).1 ∧ (kv.1 + 2) * (kv.1 + 1) / 2 * kv.2 ≤ (findMax m).2) ∧
      (m ≠ [] → ∃ kv ∈ m, kv.1 = (findMax m).1) ∧
      ((findMax m).2 = 0 ∨ ∃ kv ∈ m, (kv.1 + 2) * (kv.1 + 1) / 2 * kv.2 = (findMax m).2) := by
  obtain ⟨-, -, h3, h4, h5⟩ := findMax_aux m (0, 0)
  refine ⟨h3, fun hne => ?_, h5⟩
  rcases h4 with h4 | h4
  · obtain ⟨kv, l, rfl⟩ := List.exists_cons_of_ne_nil hne
    have := (h3 kv List.mem_cons_self).1
    exact ⟨kv, List.mem_cons_self, by unfold findMax; omega⟩
  · exact h4

/-! ## Two-electron tests -/

theorem eri_fine {libMax fac : ℕ} {s : Sizes} {m : SMap} (hs : s.maxsize = eriMaxsize libMax fac m)
    (hw : ∀ q ∈ quartets (eriMaxam libMax m), s.used q ≤ s.worksize) {r : Region}
    (hr : r ∈ eriRegions libMax fac s m) (p t : ℕ) :
    ∀ x ∈ r.iter p t, Fine s.maxsize s.worksize t x := by
  obtain ⟨q, hq, m', hc, h1, h2, h3, h4, rfl⟩ := eri_region hr
  obtain ⟨b1, b2, -, -⟩ := mem_quartets.1 hq
  have hn : ncont m' fac q ≤ s.maxsize := by
    rw [ncont_congr hc, hs]; exact ncont_le b1 b2
  intro x hx
  simp only [eriIter, List.mem_append, List.mem_flatMap] at hx
  rcases hx with hx | ⟨_, -, (((((((((hx | hx) | hx) | hx) | hx) | hx) | hx) | hx) | hx) | hx)⟩
  · exact fine_lookup h2 x hx
  · exact fine_lookup h1 x hx
  · exact fine_lookup h2 x hx
  · exact fine_lookup h1 x hx
  · exact fine_lookup h2 x hx
  · exact fine_lookup h3 x hx
  · exact fine_lookup h4 x hx
  · exact fine_fill_ref hn x hx
  · exact fine_fill_work (hw q hq) x hx
  · exact fine_fill_res hn x hx
  · simp only [List.mem_cons, List.not_mem_nil, or_false] at hx
    rcases hx with rfl | rfl
    · exact Or.inr (Or.inr (Or.inr (Or.inr ⟨rfl, Or.inl rfl⟩)))
    · exact Or.inr (Or.inr (Or.inr (Or.inr ⟨rfl, Or.inr (Or.inl rfl)⟩)))

/-- The two-electron tests have no data race, for every file, whatever angular momenta are missing and
however the iterations are given to threads. -/
theorem C82_eri_norace (libMax fac : ℕ) (s : Sizes) (m : SMap) (σ : ℕ → ℕ)
    (hs : s.maxsize = eriMaxsize libMax fac m)
    (hw : ∀ q ∈ quartets (eriMaxam libMax m), s.used q ≤ s.worksize) :
    ∀ r ∈ eriRegions libMax fac s m, ¬ r.Race σ :=
  fun _ hr => Fine.noRace fun p _ => eri_fine hs hw hr p (σ p)

/-- Every access is inside of the allocated buffers. -/
theorem C82_eri_inside (libMax fac nthread : ℕ) (s : Sizes) (m : SMap)
    (hs : s.maxsize = eriMaxsize libMax fac m)
    (hw : ∀ q ∈ quartets (eriMaxam libMax m), s.used q ≤ s.worksize) :
    ∀ r ∈ eriRegions libMax fac s m, ∀ p, ∀ t < nthread, ∀ x ∈ r.iter p t, ∀ n,
      (x.loc = .res n ∨ x.loc = .ref n → n < nthread * s.maxsize) ∧
      (x.loc = .work n → n < nthread * s.worksize) := by
  intro r hr p t ht x hx n
  have key : ∀ S k, k < S → t * S + k < nthread * S := fun S k hk => by
    have := Nat.mul_le_mul_right S (show t + 1 ≤ nthread from ht)
    rw [Nat.succ_mul] at this
    omega
  rcases eri_fine hs hw hr p t x hx with rfl | ⟨k, hk, rfl⟩ | ⟨k, hk, rfl⟩ | ⟨k, hk, rfl⟩ | ⟨-, h⟩
  · simp
  · simp only [Loc.res.injEq, reduceCtorEq, or_false, false_implies, and_true]
    rintro rfl; exact key _ _ hk
  · simp only [Loc.ref.injEq, reduceCtorEq, false_or, false_implies, and_true]
    rintro rfl; exact key _ _ hk
  · simp only [Loc.work.injEq, reduceCtorEq, or_self, false_implies, true_and]
    rintro rfl; exact key _ _ hk
  · rcases h with h | h | h <;> rw [h] <;> simp

/-- The two-electron tests call the library with defined angular momenta exactly if there are shells of
every angular momentum up to the largest one that is tested, or of none of them. -/
theorem C82_eri_defined (libMax : ℕ) (m : SMap) :
    EriDefined libMax m ↔
      (∀ am ≤ eriMaxam libMax m, 0 < m.count am) ∨ (∀ am ≤ eriMaxam libMax m, m.count am = 0) := by
  have hle : eriMaxam libMax m ≤ libMax := by unfold eriMaxam; split <;> omega
  constructor
  · intro h
    by_contra hc
    rw [not_or] at hc
    obtain ⟨h1, h2⟩ := hc
    simp only [not_forall] at h1 h2
    obtain ⟨k, hk, hk0⟩ := h1
    obtain ⟨i, hi, hi0⟩ := h2
    have := h ⟨i, i, k, k⟩ (mem_quartets.2 ⟨hi, hi, hk, hk⟩) 0 (by simp only; omega) 0
      (by simp only; omega)
    have hz : m.count k = 0 := by omega
    simp [eriCall, first, hz] at this
  · intro h q hq a ha b hb
    obtain ⟨b1, b2, b3, b4⟩ := mem_quartets.1 hq
    rcases h with h | h
    · have c3 := h q.k b3
      have c4 := h q.l b4
      have e3 : m.count q.k ≠ 0 := by omega
      have e4 : m.count q.l ≠ 0 := by omega
      unfold eriCall first callIdx
      rw [if_neg e3, if_neg e4, listAm_eq, listAm_eq, if_neg (by omega), if_neg (by omega)]
      simp only [Option.bind_some]
      rw [if_pos ⟨by omega, by omega, by omega, by omega⟩]
      rfl
    · rw [h q.i b1] at ha; omega

/-! ## One-electron tests -/

theorem one_res {m : SMap} {i t : ℕ} {x : Acc} (hx : x ∈ oneIter m i t) :
    (∃ j ≤ (findMax m).1, (j = i ∨ 0 < m.count i) ∧ x = ⟨.map, !m.has j, false⟩) ∨
    (∃ k < oneMaxsize m, x = ⟨.res (t * oneMaxsize m + k), true, false⟩) ∨
    x = ⟨.stdout, true, true⟩ ∨ (x = ⟨.map, !m.has i, false⟩) := by
  simp only [oneIter, List.mem_append, List.mem_flatMap, List.mem_range] at hx
  obtain ⟨j, hj, hx⟩ := hx
  rcases hx with hx | ⟨_, ha, hx⟩
  · exact Or.inr (Or.inr (Or.inr (List.mem_singleton.1 hx)))
  · have hci : 0 < m.count i := by omega
    rcases hx with hx | ⟨_, hb, ((hx | hx) | hx) | hx⟩
    · exact Or.inl ⟨j, by omega, Or.inr hci, List.mem_singleton.1 hx⟩
    · exact Or.inr (Or.inr (Or.inr (List.mem_singleton.1 hx)))
    · exact Or.inl ⟨j, by omega, Or.inr hci, List.mem_singleton.1 hx⟩
    · obtain ⟨k, hk, rfl⟩ := mem_fill hx
      have := oneSize_le hci (show 0 < m.count j by omega)
      exact Or.inr (Or.inl ⟨k, by omega, rfl⟩)
    · exact Or.inr (Or.inr (Or.inl (List.mem_singleton.1 hx)))

/-- The one-electron tests have a data race exactly if some angular momentum below the largest one is
missing and not all iterations run on one thread: `shellmap[i]` and `shellmap[j]` insert it. -/
theorem C82_one_race (m : SMap) (σ : ℕ → ℕ) (hwf : ∀ kv ∈ m, 0 < kv.2) :
    (oneRegion m).Race σ ↔
      (∃ am ≤ (findMax m).1, ∀ kv ∈ m, kv.1 ≠ am) ∧
      ∃ p ≤ (findMax m).1, ∃ q ≤ (findMax m).1, σ p ≠ σ q := by
  have hmiss : ∀ am, m.has am = false ↔ ∀ kv ∈ m, kv.1 ≠ am := fun am => by
    unfold SMap.has
    rw [List.any_eq_false]
    simp
  constructor
  · intro hr
    by_cases hall : ∀ am ≤ (findMax m).1, m.has am = true
    · exfalso
      revert hr
      refine Fine.noRace (S := oneMaxsize m) (W := 0) fun p hp x hx => ?_
      have hp' : p ≤ (findMax m).1 := Nat.lt_succ_iff.1 hp
      rcases one_res hx with ⟨j, hj, -, rfl⟩ | ⟨k, hk, rfl⟩ | rfl | rfl
      · exact Or.inl (by rw [hall j hj]; rfl)
      · exact Or.inr (Or.inl ⟨k, hk, rfl⟩)
      · exact Or.inr (Or.inr (Or.inr (Or.inr ⟨rfl, Or.inr (Or.inr rfl)⟩)))
      · exact Or.inl (by rw [hall p hp']; rfl)
    · simp only [not_forall, Bool.not_eq_true] at hall
      obtain ⟨am, ha, hm⟩ := hall
      obtain ⟨p, hp, q, hq, hne, -⟩ := hr
      exact ⟨⟨am, ha, (hmiss am).1 hm⟩, p, Nat.lt_succ_iff.1 hp, q, Nat.lt_succ_iff.1 hq, hne⟩
  · rintro ⟨⟨am, ha, hm⟩, p, hp, q, hq, hne⟩
    rw [← hmiss] at hm
    refine ⟨p, Nat.lt_succ_iff.2 hp, q, Nat.lt_succ_iff.2 hq, hne, ⟨.map, true, false⟩, ?_,
      ⟨.map, !m.has q, false⟩, ?_, rfl, Or.inl rfl, by simp⟩
    · show _ ∈ oneIter m p (σ p)
      simp only [oneIter, List.mem_append, List.mem_flatMap, List.mem_range]
      by_cases hpm : m.has p = true
      · refine ⟨am, by omega, Or.inr ⟨0, ?_, Or.inl ?_⟩⟩
        · exact hwf _ (count_mem hpm)
        · unfold lookup; rw [hm]; exact List.mem_singleton.2 rfl
      · refine ⟨0, by omega, Or.inl ?_⟩
        unfold lookup
        rw [Bool.not_eq_true] at hpm
        rw [hpm]; exact List.mem_singleton.2 rfl
    · show _ ∈ oneIter m q (σ q)
      simp only [oneIter, List.mem_append, List.mem_flatMap, List.mem_range]
      exact ⟨0, by omega, Or.inl (List.mem_singleton.2 rfl)⟩

/-- The pieces of the result buffer are large enough. -/
theorem C82_one_inside (m : SMap) (nthread : ℕ) : ∀ i, ∀ t < nthread, ∀ x ∈ oneIter m i t, ∀ n,
    x.loc = .res n → n < nthread * oneMaxsize m := by
  intro i t ht x hx n
  rcases one_res hx with ⟨j, -, -, rfl⟩ | ⟨k, hk, rfl⟩ | rfl | rfl
  · simp
  · simp only [Loc.res.injEq]
    rintro rfl
    have := Nat.mul_le_mul_right (oneMaxsize m) (show t + 1 ≤ nthread from ht)
    rw [Nat.succ_mul] at this
    omega
  · simp
  · simp

/-- The negation of "no data race": a file with s and d shells only. -/
theorem C82_one_race_false : ∃ (m : SMap) (σ : ℕ → ℕ), (∀ kv ∈ m, 0 < kv.2) ∧
    (oneRegion m).Race σ := by
  refine ⟨[(0, 1), (2, 1)], id, by decide, ?_⟩
  rw [C82_one_race _ _ (by decide)]
  exact ⟨⟨1, by decide, by decide⟩, 0, by decide, 1, by decide, by decide⟩

/-- The same file makes the two-electron tests read angular momenta that have no value. -/
theorem C82_eri_defined_false : ¬ EriDefined 4 [(0, 1), (2, 1)] := by
  rw [C82_eri_defined]
  rintro (h | h)
  · exact absurd (h 1 (by decide)) (by decide)
  · exact absurd (h 0 (by decide)) (by decide)

/-! ## Benchmark -/

/-- The benchmark has no data race if its calls are defined. -/
theorem C82_bench_norace (libMax : ℕ) (valid : Bool) (s : Sizes) (m : SMap) (σ : ℕ → ℕ)
    (hs : s.maxsize = eriMaxsize libMax 1 m) (hw : ∀ q ∈ benchQuartets, s.used q ≤ s.worksize)
    (hd : BenchDefined libMax m) :
    ∀ r ∈ benchRegions valid s m, ¬ r.Race σ := by
  intro r hr
  obtain ⟨q, hq, m', hc, rfl⟩ := bench_region hr
  refine Fine.noRace (S := s.maxsize) (W := s.worksize) fun p hp x hx => ?_
  simp only at hp hx
  have hn : ncont m' 1 q ≤ s.maxsize := by
    rw [ncont_congr hc, hs]
    rw [hc, hc] at hp
    have hcall := (hd q hq).2.2 p hp
    have hi : 0 < m.count q.i := Nat.pos_of_ne_zero fun h => by rw [h] at hp; omega
    have hj : 0 < m.count q.j := Nat.pos_of_ne_zero fun h => by rw [h] at hp; omega
    have hmi := am_le (has_of_count hi)
    have hmj := am_le (has_of_count hj)
    unfold callIdx at hcall
    rw [listAm_eq, if_neg (by omega)] at hcall
    cases hQ : listAm q.k (m.count q.k) q.l (m.count q.l) with
    | none => rw [hQ] at hcall; simp at hcall
    | some v =>
      rw [hQ] at hcall
      simp only [Option.bind_some] at hcall
      split at hcall
      · rename_i hb
        refine ncont_le ?_ ?_ <;> unfold eriMaxam <;> split <;> omega
      · simp at hcall
  simp only [benchIter, List.mem_append] at hx
  rcases hx with ((hx | hx) | hx) | hx
  · rw [List.mem_singleton.1 hx]
    exact Or.inr (Or.inr (Or.inr (Or.inr ⟨rfl, Or.inr (Or.inl rfl)⟩)))
  · exact fine_fill_work (hw q hq) x hx
  · exact fine_fill_res hn x hx
  · split at hx
    · rcases List.mem_append.1 hx with hx | hx
      · exact fine_fill_ref hn x hx
      · rw [List.mem_singleton.1 hx]
        exact Or.inr (Or.inr (Or.inr (Or.inr ⟨rfl, Or.inl rfl⟩)))
    · exact absurd hx List.not_mem_nil

/-- The benchmark is defined exactly if the file has s, d and f shells and the library goes up to f. -/
theorem C82_bench_defined (libMax : ℕ) (m : SMap) :
    BenchDefined libMax m ↔ 0 < m.count 0 ∧ 0 < m.count 2 ∧ 0 < m.count 3 ∧ 3 ≤ libMax := by
  unfold BenchDefined benchQuartets
  simp only [List.mem_cons, List.not_mem_nil, or_false, forall_eq_or_imp, forall_eq]
  have hf : ∀ am, (first m am).isSome = true ↔ 0 < m.count am := fun am => by
    unfold first
    split
    · simp; omega
    · simp; omega
  simp only [hf, listAm_eq]
  constructor
  · rintro ⟨⟨h0, -, -⟩, ⟨h2, -, -⟩, ⟨h3, -, -⟩, -, -, hc⟩
    refine ⟨h0, h2, h3, ?_⟩
    have := hc 0 (Nat.mul_pos h2 h2)
    rw [if_neg (by omega), if_neg (by omega)] at this
    unfold callIdx at this
    simp only [Option.bind_some] at this
    by_contra h
    rw [if_neg (by omega)] at this
    simp at this
  · rintro ⟨h0, h2, h3, h⟩
    have hcall : ∀ a b c d, a ≤ libMax → b ≤ libMax → c ≤ libMax → d ≤ libMax → 0 < m.count c →
        0 < m.count d → (callIdx libMax (if 1 = 0 ∨ 1 = 0 then none else some (a, b))
          (if m.count c = 0 ∨ m.count d = 0 then none else some (c, d))).isSome = true := by
      intro a b c d ha hb hc hd h1 h2
      rw [if_neg (by omega), if_neg (by omega)]
      unfold callIdx
      simp only [Option.bind_some]
      rw [if_pos ⟨ha, hb, hc, hd⟩]
      rfl
    refine ⟨⟨h0, h0, fun _ _ => hcall _ _ _ _ ?_ ?_ ?_ ?_ h0 h0⟩,
      ⟨h2, h2, fun _ _ => hcall _ _ _ _ ?_ ?_ ?_ ?_ h2 h2⟩,
      ⟨h3, h0, fun _ _ => hcall _ _ _ _ ?_ ?_ ?_ ?_ h3 h0⟩,
      ⟨h3, h0, fun _ _ => hcall _ _ _ _ ?_ ?_ ?_ ?_ h3 h0⟩⟩ <;> omega

/-- A file without f shells. -/
theorem C82_bench_defined_false : ¬ BenchDefined 4 [(0, 3), (1, 2), (2, 1)] := by
  rw [C82_bench_defined]
  exact fun h => absurd h.2.2.1 (by decide)

/-! ## Examples -/

/-- Three s, two p and one d shells: at most six functions of one kind. -/
example : findMax [(0, 3), (1, 2), (2, 1)] = (2, 6) ∧
    eriMaxsize 4 1 [(0, 3), (1, 2), (2, 1)] = 1296 ∧ eriMaxam 1 [(0, 3), (1, 2), (2, 1)] = 1 ∧
    oneMaxsize [(0, 3), (1, 2), (2, 1)] = 36 := by decide

/-- The largest piece is attained. -/
example : ncont [(0, 3), (1, 2), (2, 1)] 1 ⟨2, 2, 2, 2⟩ = 1296 := by decide

/-- 81 parallel loops, the first over three iterations. -/
example : (eriRegions 4 1 ⟨1296, 5, fun _ => 5⟩ [(0, 3), (1, 2), (2, 1)]).length = 81 ∧
    ((eriRegions 4 1 ⟨1296, 5, fun _ => 5⟩ [(0, 3), (1, 2), (2, 1)]).map (·.n)).take 1 = [3] := by
  decide +kernel

example : EriDefined 4 [(0, 3), (1, 2), (2, 1)] := by
  rw [C82_eri_defined]
  left
  decide

example : BenchDefined 4 [(0, 3), (1, 2), (2, 1), (3, 1)] := by
  rw [C82_bench_defined]
  decide

end Simint.TestProg
