import Verif.TestProg
import Mathlib.Tactic.Linarith
import Mathlib.Tactic.Ring
import Mathlib.Data.List.Induction

/-! Lemmas about the test programs. -/

set_option autoImplicit false

namespace Simint.TestProg

/-! ## The map -/

theorem has_touch (m : SMap) (a x : ℕ) : (m.touch a).has x = (m.has x || (a == x)) := by
  unfold SMap.touch
  split
  · rename_i h
    by_cases hax : a = x
    · subst hax; simp [h]
    · have : (a == x) = false := by simpa using hax
      rw [this, Bool.or_false]
  · simp [SMap.has]

theorem count_of_not_has {m : SMap} {x : ℕ} (h : m.has x = false) : m.count x = 0 := by
  unfold SMap.has at h
  unfold SMap.count
  have : m.find? (fun kv => kv.1 == x) = none := by
    rw [List.find?_eq_none]
    intro kv hk hc
    rw [List.any_eq_false] at h
    exact h kv hk hc
  rw [this]
  rfl

theorem count_touch (m : SMap) (a x : ℕ) : (m.touch a).count x = m.count x := by
  unfold SMap.touch
  split
  · rfl
  · rename_i h
    unfold SMap.count
    rw [List.find?_append]
    cases hf : m.find? (fun kv => kv.1 == x) with
    | some kv => rfl
    | none =>
      simp only [Option.none_or, List.find?_singleton]
      split <;> rfl

theorem has_of_count {m : SMap} {x : ℕ} (h : 0 < m.count x) : m.has x = true := by
  by_contra hc
  rw [Bool.not_eq_true] at hc
  rw [count_of_not_has hc] at h
  omega

theorem count_mem {m : SMap} {x : ℕ} (h : m.has x = true) : (x, m.count x) ∈ m := by
  unfold SMap.has at h
  unfold SMap.count
  obtain ⟨kv, hk, he⟩ := List.any_eq_true.1 h
  cases hf : m.find? (fun kv => kv.1 == x) with
  | none => exact absurd he (by simpa using List.find?_eq_none.1 hf kv hk)
  | some kv' =>
    have h1 := List.find?_some hf
    have h2 := List.mem_of_find?_eq_some hf
    simp only [beq_iff_eq] at h1
    simp only [Option.map_some, Option.getD_some]
    rw [← h1]
    exact h2

/-! ## `FindMaxParams` -/

/-- The loop from any start. -/
theorem findMax_aux (m : SMap) (st : ℕ × ℕ) :
    let r := m.foldl (fun st kv =>
      (if kv.1 > st.1 then kv.1 else st.1,
       if nc kv.1 * kv.2 > st.2 then nc kv.1 * kv.2 else st.2)) st
    st.1 ≤ r.1 ∧ st.2 ≤ r.2 ∧ (∀ kv ∈ m, kv.1 ≤ r.1 ∧ nc kv.1 * kv.2 ≤ r.2) ∧
      (r.1 = st.1 ∨ ∃ kv ∈ m, kv.1 = r.1) ∧ (r.2 = st.2 ∨ ∃ kv ∈ m, nc kv.1 * kv.2 = r.2) := by
  induction m generalizing st with
  | nil => simp
  | cons kv m ih =>
    have h := ih (if kv.1 > st.1 then kv.1 else st.1,
       if nc kv.1 * kv.2 > st.2 then nc kv.1 * kv.2 else st.2)
    simp only [List.foldl_cons] at h ⊢
    obtain ⟨h1, h2, h3, h4, h5⟩ := h
    generalize hr : List.foldl _ _ m = r at h1 h2 h3 h4 h5 ⊢
    have a1 : st.1 ≤ (if kv.1 > st.1 then kv.1 else st.1) ∧
        kv.1 ≤ (if kv.1 > st.1 then kv.1 else st.1) := by split <;> omega
    have a2 : st.2 ≤ (if nc kv.1 * kv.2 > st.2 then nc kv.1 * kv.2 else st.2) ∧
        nc kv.1 * kv.2 ≤ (if nc kv.1 * kv.2 > st.2 then nc kv.1 * kv.2 else st.2) := by
      split <;> omega
    refine ⟨le_trans a1.1 h1, le_trans a2.1 h2, ?_, ?_, ?_⟩
    · intro kv' hk
      rcases List.mem_cons.1 hk with rfl | hk
      · exact ⟨le_trans a1.2 h1, le_trans a2.2 h2⟩
      · exact h3 kv' hk
    · rcases h4 with h4 | ⟨kv', hk, he⟩
      · split at h4
        · exact Or.inr ⟨kv, List.mem_cons_self, h4.symm⟩
        · exact Or.inl h4
      · exact Or.inr ⟨kv', List.mem_cons_of_mem _ hk, he⟩
    · rcases h5 with h5 | ⟨kv', hk, he⟩
      · split at h5
        · exact Or.inr ⟨kv, List.mem_cons_self, h5.symm⟩
        · exact Or.inl h5
      · exact Or.inr ⟨kv', List.mem_cons_of_mem _ hk, he⟩

theorem nc_mono {a b : ℕ} (h : a ≤ b) : nc a ≤ nc b :=
  Nat.div_le_div_right (Nat.mul_le_mul (by omega) (by omega))

theorem nc_pos (a : ℕ) : 0 < nc a := by
  have : nc 0 ≤ nc a := nc_mono (Nat.zero_le a)
  have h0 : nc 0 = 1 := rfl
  omega

/-- Functions of one angular momentum. -/
theorem funcs_le (m : SMap) (x : ℕ) : nc x * m.count x ≤ (findMax m).2 := by
  by_cases h : m.has x = true
  · exact ((findMax_aux m (0, 0)).2.2.1 _ (count_mem h)).2
  · rw [count_of_not_has (by simpa using h)]; omega

theorem am_le {m : SMap} {x : ℕ} (h : m.has x = true) : x ≤ (findMax m).1 :=
  ((findMax_aux m (0, 0)).2.2.1 _ (count_mem h)).1

theorem nc_eq (a : ℕ) : (a + 1) * (a + 2) / 2 = nc a := by unfold nc; rw [Nat.mul_comm]

theorem ncont_le {m : SMap} {libMax fac : ℕ} {q : Quartet} (hi : q.i ≤ eriMaxam libMax m)
    (hj : q.j ≤ eriMaxam libMax m) : ncont m fac q ≤ eriMaxsize libMax fac m := by
  unfold ncont eriMaxsize
  simp only [nc_eq]
  refine Nat.mul_le_mul_right _ ?_
  have h1 := Nat.mul_le_mul (Nat.mul_le_mul (funcs_le m q.k) (funcs_le m q.l))
    (Nat.mul_le_mul (nc_mono hi) (nc_mono hj))
  calc m.count q.k * m.count q.l * (nc q.i * nc q.j * nc q.k * nc q.l)
      = nc q.k * m.count q.k * (nc q.l * m.count q.l) * (nc q.i * nc q.j) := by ring
    _ ≤ _ := h1
    _ = _ := by ring

theorem oneSize_le {m : SMap} {i j : ℕ} (hi : 0 < m.count i) (hj : 0 < m.count j) :
    nc i * nc j ≤ oneMaxsize m := by
  unfold oneMaxsize
  rw [nc_eq]
  refine Nat.mul_le_mul ?_ (nc_mono (am_le (has_of_count hj)))
  calc nc i ≤ nc i * m.count i := Nat.le_mul_of_pos_right _ hi
    _ ≤ _ := funcs_le m i

/-! ## Pieces of buffers -/

theorem mem_fill {mk : ℕ → Loc} {s n : ℕ} {x : Acc} (h : x ∈ fill mk s n) :
    ∃ k < n, x = ⟨mk (s + k), true, false⟩ := by
  unfold fill at h
  obtain ⟨k, hk, rfl⟩ := List.mem_map.1 h
  exact ⟨k, List.mem_range.1 hk, rfl⟩

/-- Pieces of different threads do not meet. -/
theorem pieces {t u S k l : ℕ} (hk : k < S) (hl : l < S) (h : t * S + k = u * S + l) : t = u := by
  have hS : 0 < S := by omega
  have h1 : (t * S + k) / S = t := by
    rw [Nat.mul_comm, Nat.mul_add_div hS, Nat.div_eq_of_lt hk]; rfl
  have h2 : (u * S + l) / S = u := by
    rw [Nat.mul_comm, Nat.mul_add_div hS, Nat.div_eq_of_lt hl]; rfl
  rw [← h1, ← h2, h]

/-- What an access of an iteration on thread `t` may be if all keys are there. -/
def Fine (S W t : ℕ) (x : Acc) : Prop :=
  x = ⟨.map, false, false⟩ ∨
  (∃ k < S, x = ⟨.res (t * S + k), true, false⟩) ∨
  (∃ k < S, x = ⟨.ref (t * S + k), true, false⟩) ∨
  (∃ k < W, x = ⟨.work (t * W + k), true, false⟩) ∨
  (x.guarded = true ∧ (x.loc = .errors ∨ x.loc = .counters ∨ x.loc = .stdout))

theorem Fine.noRace {S W : ℕ} {r : Region} {σ : ℕ → ℕ}
    (h : ∀ p < r.n, ∀ x ∈ r.iter p (σ p), Fine S W (σ p) x) : ¬ r.Race σ := by
  rintro ⟨p, hp, q, hq, hne, x, hx, y, hy, hloc, hw, hg⟩
  have fx := h p hp x hx
  have fy := h q hq y hy
  rcases fx with rfl | ⟨k, hk, rfl⟩ | ⟨k, hk, rfl⟩ | ⟨k, hk, rfl⟩ | ⟨g, hl⟩ <;>
    rcases fy with rfl | ⟨k', hk', rfl⟩ | ⟨k', hk', rfl⟩ | ⟨k', hk', rfl⟩ | ⟨g', hl'⟩ <;>
    simp_all
  all_goals first
    | exact hne (pieces hk hk' (by assumption))
    | (rcases hl' with h | h | h <;> rw [h] at hloc <;> simp at hloc)

theorem fine_fill_res {S W t n : ℕ} (h : n ≤ S) : ∀ x ∈ fill .res (t * S) n, Fine S W t x := by
  intro x hx
  obtain ⟨k, hk, rfl⟩ := mem_fill hx
  exact Or.inr (Or.inl ⟨k, by omega, rfl⟩)

theorem fine_fill_ref {S W t n : ℕ} (h : n ≤ S) : ∀ x ∈ fill .ref (t * S) n, Fine S W t x := by
  intro x hx
  obtain ⟨k, hk, rfl⟩ := mem_fill hx
  exact Or.inr (Or.inr (Or.inl ⟨k, by omega, rfl⟩))

theorem fine_fill_work {S W t n : ℕ} (h : n ≤ W) : ∀ x ∈ fill .work (t * W) n, Fine S W t x := by
  intro x hx
  obtain ⟨k, hk, rfl⟩ := mem_fill hx
  exact Or.inr (Or.inr (Or.inr (Or.inl ⟨k, by omega, rfl⟩)))

theorem fine_lookup {S W t : ℕ} {m : SMap} {a : ℕ} (h : m.has a = true) :
    ∀ x ∈ lookup m a, Fine S W t x := by
  intro x hx
  unfold lookup at hx
  rw [List.mem_singleton, h] at hx
  exact Or.inl hx

/-! ## The four loops -/

/-- Order of the quartets. -/
def Quartet.Lt (p q : Quartet) : Prop :=
  p.i < q.i ∨ (p.i = q.i ∧ (p.j < q.j ∨ (p.j = q.j ∧ (p.k < q.k ∨ (p.k = q.k ∧ p.l < q.l)))))

theorem mem_quartets {n : ℕ} {q : Quartet} :
    q ∈ quartets n ↔ q.i ≤ n ∧ q.j ≤ n ∧ q.k ≤ n ∧ q.l ≤ n := by
  unfold quartets
  simp only [List.mem_flatMap, List.mem_map, List.mem_range]
  constructor
  · rintro ⟨i, hi, j, hj, k, hk, l, hl, rfl⟩
    simp only
    omega
  · rintro ⟨h1, h2, h3, h4⟩
    exact ⟨q.i, by omega, q.j, by omega, q.k, by omega, q.l, by omega, rfl⟩

theorem quartets_sorted (n : ℕ) : (quartets n).Pairwise Quartet.Lt := by
  unfold quartets
  have hr : (List.range (n + 1)).Pairwise (· < ·) := List.pairwise_lt_range
  rw [List.pairwise_flatMap]
  refine ⟨fun i _ => ?_, hr.imp fun {a b} hab => ?_⟩
  · rw [List.pairwise_flatMap]
    refine ⟨fun j _ => ?_, hr.imp fun {a b} hab => ?_⟩
    · rw [List.pairwise_flatMap]
      refine ⟨fun k _ => ?_, hr.imp fun {a b} hab => ?_⟩
      · rw [List.pairwise_map]
        exact hr.imp fun {a b} hab => Or.inr ⟨rfl, Or.inr ⟨rfl, Or.inr ⟨rfl, hab⟩⟩⟩
      · intro x hx y hy
        obtain ⟨_, _, rfl⟩ := List.mem_map.1 hx
        obtain ⟨_, _, rfl⟩ := List.mem_map.1 hy
        exact Or.inr ⟨rfl, Or.inr ⟨rfl, Or.inl hab⟩⟩
    · intro x hx y hy
      obtain ⟨_, _, hx⟩ := List.mem_flatMap.1 hx
      obtain ⟨_, _, rfl⟩ := List.mem_map.1 hx
      obtain ⟨_, _, hy⟩ := List.mem_flatMap.1 hy
      obtain ⟨_, _, rfl⟩ := List.mem_map.1 hy
      exact Or.inr ⟨rfl, Or.inl hab⟩
  · intro x hx y hy
    obtain ⟨_, _, hx⟩ := List.mem_flatMap.1 hx
    obtain ⟨_, _, hx⟩ := List.mem_flatMap.1 hx
    obtain ⟨_, _, rfl⟩ := List.mem_map.1 hx
    obtain ⟨_, _, hy⟩ := List.mem_flatMap.1 hy
    obtain ⟨_, _, hy⟩ := List.mem_flatMap.1 hy
    obtain ⟨_, _, rfl⟩ := List.mem_map.1 hy
    exact Or.inl hab

theorem earlier {n : ℕ} {pre post : List Quartet} {q p : Quartet}
    (h : quartets n = pre ++ q :: post) (hp : p ∈ quartets n) (hlt : p.Lt q) : p ∈ pre := by
  have hs := quartets_sorted n
  rw [h] at hs hp
  rcases List.mem_append.1 hp with hp | hp
  · exact hp
  · exfalso
    unfold Quartet.Lt at hlt
    rcases List.mem_cons.1 hp with rfl | hp
    · omega
    · have h2 := (List.pairwise_cons.1 (List.pairwise_append.1 hs).2.1).1 p hp
      unfold Quartet.Lt at h2
      omega

/-- State before a quartet. -/
theorem eri_state (fac : ℕ) (s : Sizes) (m : SMap) (pre : List Quartet) :
    let st := pre.foldl (eriStep fac s) (m, [])
    (∀ x, st.1.count x = m.count x) ∧ (∀ p ∈ pre, st.1.has p.k = true ∧ st.1.has p.l = true) := by
  induction pre using List.reverseRecOn with
  | nil => exact ⟨fun _ => rfl, fun p hp => absurd hp List.not_mem_nil⟩
  | append_singleton pre q ih =>
    simp only [List.foldl_append, List.foldl_cons, List.foldl_nil] at ih ⊢
    generalize pre.foldl (eriStep fac s) (m, []) = st at ih
    obtain ⟨h1, h2⟩ := ih
    unfold eriStep
    simp only
    constructor
    · intro x
      split <;> simp only [count_touch, h1]
    · intro p hp
      have hp' : (st.1.has p.k = true ∧ st.1.has p.l = true) ∨ p = q := by
        rcases List.mem_append.1 hp with hp | hp
        · exact Or.inl (h2 p hp)
        · exact Or.inr (List.mem_singleton.1 hp)
      rcases hp' with ⟨a, b⟩ | rfl
      · split <;> simp [has_touch, a, b]
      · split <;> simp [has_touch]

theorem eri_regions_mem {fac : ℕ} {s : Sizes} {m : SMap} {qs : List Quartet} {r : Region}
    (h : r ∈ (qs.foldl (eriStep fac s) (m, [])).2) :
    ∃ pre q post, qs = pre ++ q :: post ∧
      let m' := (((pre.foldl (eriStep fac s) (m, [])).1.touch q.k).touch q.l).touch q.i
      r = ⟨m'.count q.i, fun _ t => eriIter m' fac s q t⟩ := by
  induction qs using List.reverseRecOn with
  | nil => exact absurd h List.not_mem_nil
  | append_singleton pre q ih =>
    rw [List.foldl_append, List.foldl_cons, List.foldl_nil] at h
    rcases List.mem_append.1 h with h | h
    · obtain ⟨a, q', b, e, hr⟩ := ih h
      exact ⟨a, q', b ++ [q], by rw [e]; simp, hr⟩
    · exact ⟨pre, q, [], rfl, List.mem_singleton.1 h⟩

/-- In every parallel loop all keys that it uses are there, and the numbers of shells are those of the
file. -/
theorem eri_region {libMax fac : ℕ} {s : Sizes} {m : SMap} {r : Region}
    (h : r ∈ eriRegions libMax fac s m) :
    ∃ q ∈ quartets (eriMaxam libMax m), ∃ m' : SMap, (∀ x, m'.count x = m.count x) ∧
      m'.has q.i = true ∧ m'.has q.j = true ∧ m'.has q.k = true ∧ m'.has q.l = true ∧
      r = ⟨m'.count q.i, fun _ t => eriIter m' fac s q t⟩ := by
  unfold eriRegions at h
  obtain ⟨pre, q, post, e, hr⟩ := eri_regions_mem h
  obtain ⟨h1, h2⟩ := eri_state fac s m pre
  simp only at hr
  have hq : q ∈ quartets (eriMaxam libMax m) := by rw [e]; simp
  obtain ⟨b1, b2, b3, b4⟩ := mem_quartets.1 hq
  refine ⟨q, hq, _, fun x => ?_, ?_, ?_, ?_, ?_, hr⟩
  · simp only [count_touch, h1]
  · simp [has_touch]
  · by_cases hz : q = ⟨0, 0, 0, 0⟩
    · subst hz; simp [has_touch]
    · by_cases hj : q.j = 0
      · have hmem : (⟨0, 0, 0, 0⟩ : Quartet) ∈ pre := by
          refine earlier e (mem_quartets.2 ⟨Nat.zero_le _, Nat.zero_le _, Nat.zero_le _, Nat.zero_le _⟩) ?_
          unfold Quartet.Lt
          simp only
          by_contra hc
          apply hz
          obtain ⟨a, b, c, d⟩ := q
          simp only at hc hj
          simp only [Quartet.mk.injEq]
          omega
        have := (h2 _ hmem).1
        rw [hj]
        simp [has_touch, this]
      · have hmem : (⟨0, 0, 0, q.j⟩ : Quartet) ∈ pre := by
          refine earlier e (mem_quartets.2 ⟨Nat.zero_le _, Nat.zero_le _, Nat.zero_le _, b2⟩) ?_
          unfold Quartet.Lt
          simp only
          omega
        have := (h2 _ hmem).2
        simp only at this
        simp [has_touch, this]
  · simp [has_touch]
  · simp [has_touch]

/-! ## The benchmark -/

theorem bench_region {valid : Bool} {s : Sizes} {m : SMap} {r : Region}
    (h : r ∈ benchRegions valid s m) :
    ∃ q ∈ benchQuartets, ∃ m' : SMap, (∀ x, m'.count x = m.count x) ∧
      r = ⟨m'.count q.i * m'.count q.j, fun _ t => benchIter m' valid s q t⟩ := by
  unfold benchRegions at h
  suffices hs : ∀ qs : List Quartet, (∀ x, (qs.foldl (benchStep valid s) (m, [])).1.count x = m.count x) ∧
      ∀ r ∈ (qs.foldl (benchStep valid s) (m, [])).2,
        ∃ q ∈ qs, ∃ m' : SMap, (∀ x, m'.count x = m.count x) ∧
        r = ⟨m'.count q.i * m'.count q.j, fun _ t => benchIter m' valid s q t⟩ from (hs _).2 r h
  intro qs
  induction qs using List.reverseRecOn with
  | nil => exact ⟨fun _ => rfl, fun r hr => absurd hr List.not_mem_nil⟩
  | append_singleton pre q ih =>
    simp only [List.foldl_append, List.foldl_cons, List.foldl_nil]
    generalize pre.foldl (benchStep valid s) (m, []) = st at ih
    obtain ⟨h1, h2⟩ := ih
    unfold benchStep
    simp only
    constructor
    · intro x; simp only [count_touch, h1]
    · intro r hr
      rcases List.mem_append.1 hr with hr | hr
      · obtain ⟨q', hq, rest⟩ := h2 r hr
        exact ⟨q', List.mem_append_left _ hq, rest⟩
      · exact ⟨q, by simp, _, fun x => by simp only [count_touch, h1], List.mem_singleton.1 hr⟩

theorem ncont_congr {m m' : SMap} (h : ∀ x, m'.count x = m.count x) (fac : ℕ) (q : Quartet) :
    ncont m' fac q = ncont m fac q := by unfold ncont; rw [h, h]

/-! ## Calls -/

theorem listAm_eq (a n b k : ℕ) : listAm a n b k = if n = 0 ∨ k = 0 then none else some (a, b) := by
  unfold listAm
  have key : ∀ (l : List (ℕ × ℕ)) (x : Option (ℕ × ℕ)), (∀ p ∈ l, p = (a, b)) →
      l.foldl (fun _ p => some p) x = if l = [] then x else some (a, b) := by
    intro l
    induction l with
    | nil => intro x _; rfl
    | cons p l ih =>
      intro x hp
      rw [List.foldl_cons, ih _ fun q hq => hp q (List.mem_cons_of_mem _ hq),
        hp p List.mem_cons_self]
      simp
  rw [key]
  · congr 1
    simp only [List.flatMap_eq_nil_iff, List.map_eq_nil_iff, List.range_eq_nil, List.mem_range,
      eq_iff_iff]
    constructor
    · intro h
      by_cases hn : n = 0
      · exact Or.inl hn
      · exact Or.inr (h 0 (by omega))
    · rintro (rfl | rfl)
      · intro x hx; omega
      · exact fun _ _ => rfl
  · intro p hp
    obtain ⟨_, _, hp⟩ := List.mem_flatMap.1 hp
    obtain ⟨_, _, rfl⟩ := List.mem_map.1 hp
    rfl

end Simint.TestProg
