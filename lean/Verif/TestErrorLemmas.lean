/-
Lemmas about the comparison in the test programs.
-/
import Verif.TestErrors
import Verif.CartLemmas
import Mathlib.Tactic.Linarith
import Mathlib.Tactic.NormNum
import Mathlib.Order.Bounds.Basic

set_option autoImplicit false

namespace Simint

namespace Fp

theorem gt_some {x y : ℝ} : gt (some x) (some y) ↔ y < x := by
  constructor
  · rintro ⟨a, b, h1, h2, h⟩
    rw [Option.some.injEq] at h1 h2
    subst h1; subst h2; exact h
  · exact fun h => ⟨x, y, rfl, rfl, h⟩

theorem not_gt_none {y : Fp} : ¬ gt none y := by
  rintro ⟨a, b, h1, -⟩
  cases h1

theorem max_none (a : Fp) : Fp.max a none = a := if_neg not_gt_none

theorem max_some (a b : ℝ) : Fp.max (some a) (some b) = some (Max.max a b) := by
  unfold Fp.max
  by_cases h : a < b
  · rw [if_pos (gt_some.2 h), max_eq_right h.le]
  · rw [if_neg (fun g => h (gt_some.1 g)), max_eq_left (not_lt.1 h)]

/-- A running maximum that starts with a number: it is the greatest of the numbers; NaN has no effect. -/
theorem foldl_max (L : List Fp) (a : ℝ) :
    ∃ m, L.foldl Fp.max (some a) = some m ∧ IsGreatest (insert a {x | some x ∈ L}) m := by
  induction L generalizing a with
  | nil => exact ⟨a, rfl, by simp [IsGreatest, upperBounds]⟩
  | cons b L ih =>
    cases b with
    | none =>
      obtain ⟨m, h1, h2⟩ := ih a
      refine ⟨m, by rw [List.foldl_cons, max_none, h1], ?_⟩
      simpa using h2
    | some b =>
      obtain ⟨m, h1, h2, h3⟩ := ih (Max.max a b)
      refine ⟨m, by rw [List.foldl_cons, max_some, h1], ?_, ?_⟩
      · rcases h2 with h2 | h2
        · rcases max_choice a b with h | h
          · exact Or.inl (h2.trans h)
          · exact Or.inr (by simp [h2, h])
        · exact Or.inr (List.mem_cons_of_mem _ h2)
      · rintro x (rfl | hx)
        · exact (le_max_left _ _).trans (h3 (Or.inl rfl))
        · rcases List.mem_cons.1 hx with hx | hx
          · rw [Option.some.injEq] at hx
            subst hx
            exact (le_max_right _ _).trans (h3 (Or.inl rfl))
          · exact h3 (Or.inr hx)

end Fp

/-- A running maximum of pairs. -/
theorem foldl_pair {α : Type} (f g : α → Fp) (L : List α) (s : Fp × Fp) :
    L.foldl (fun s x => (Fp.max s.1 (f x), Fp.max s.2 (g x))) s =
      ((L.map f).foldl Fp.max s.1, (L.map g).foldl Fp.max s.2) := by
  induction L generalizing s with
  | nil => rfl
  | cons a L ih => simp only [List.foldl_cons, List.map_cons, ih]

/-- The absolute error of element `i`. -/
noncomputable def elemAbs (lib ref : ℕ → Fp) (i : ℕ) : Fp := Fp.abs (Fp.sub (lib i) (ref i))

open Classical in
/-- The relative error of element `i`. -/
noncomputable def elemRel (lib ref : ℕ → Fp) (i : ℕ) : Fp :=
  if Fp.gt (Fp.abs (ref i)) (some rndZero) then Fp.abs (Fp.div (elemAbs lib ref i) (ref i)) else some 0

theorem calcError_eq (lib ref : ℕ → Fp) (n : ℕ) : calcError lib ref n =
    (((List.range n).map (elemAbs lib ref)).foldl Fp.max (some 0),
     ((List.range n).map (elemRel lib ref)).foldl Fp.max (some 0)) :=
  foldl_pair (elemAbs lib ref) (elemRel lib ref) (List.range n) (some 0, some 0)

theorem elemAbs_some {lib ref : ℕ → Fp} {i : ℕ} {x : ℝ} :
    elemAbs lib ref i = some x ↔ ∃ v r, lib i = some v ∧ ref i = some r ∧ x = |v - r| := by
  unfold elemAbs Fp.abs Fp.sub
  cases h1 : lib i <;> cases h2 : ref i <;> simp [eq_comm]

theorem rndZero_pos : 0 < rndZero := by unfold rndZero; norm_num

theorem elemRel_none {lib ref : ℕ → Fp} {i : ℕ} (h : ref i = none) : elemRel lib ref i = some 0 := by
  unfold elemRel
  rw [h]
  exact if_neg Fp.not_gt_none

theorem elemRel_small {lib ref : ℕ → Fp} {i : ℕ} {r : ℝ} (h : ref i = some r) (hr : |r| ≤ rndZero) :
    elemRel lib ref i = some 0 := by
  unfold elemRel
  rw [h]
  exact if_neg fun g => (not_lt.2 hr) (Fp.gt_some.1 g)

theorem elemRel_nan {lib ref : ℕ → Fp} {i : ℕ} {r : ℝ} (h : ref i = some r) (hr : rndZero < |r|) (hl : lib i = none) :
    elemRel lib ref i = none := by
  unfold elemRel elemAbs
  rw [h, hl, if_pos (show Fp.gt (Fp.abs (some r)) _ from Fp.gt_some.2 hr)]
  rfl

theorem elemRel_some {lib ref : ℕ → Fp} {i : ℕ} {r v : ℝ} (h : ref i = some r) (hr : rndZero < |r|)
    (hl : lib i = some v) : elemRel lib ref i = some (|v - r| / |r|) := by
  have hr0 : r ≠ 0 := by
    rintro rfl
    rw [abs_zero] at hr
    exact absurd rndZero_pos (not_lt.2 hr.le)
  unfold elemRel
  rw [h, if_pos (show Fp.gt (Fp.abs (some r)) _ from Fp.gt_some.2 hr), elemAbs_some.2 ⟨v, r, hl, h, rfl⟩]
  simp only [Fp.div, if_neg hr0, Fp.abs, Option.map_some, abs_div, abs_abs]

/-! ## The map -/

theorem allTQ_mem {maxam : ℕ} {q : TQ} :
    q ∈ allTQ maxam ↔ q.1 ≤ maxam ∧ q.2.1 ≤ maxam ∧ q.2.2.1 ≤ maxam ∧ q.2.2.2 ≤ maxam := by
  obtain ⟨i, j, k, l⟩ := q
  simp only [allTQ, List.mem_flatMap, List.mem_map, List.mem_range, Prod.mk.injEq]
  constructor
  · rintro ⟨a, ha, b, hb, c, hc, d, hd, rfl, rfl, rfl, rfl⟩
    omega
  · rintro ⟨h1, h2, h3, h4⟩
    exact ⟨i, by omega, j, by omega, k, by omega, l, by omega, rfl, rfl, rfl, rfl⟩

theorem allTQ_nodup (maxam : ℕ) : (allTQ maxam).Nodup := by
  unfold allTQ
  have hr := List.nodup_range (n := maxam + 1)
  refine List.nodup_flatMap.2 ⟨fun i _ => List.nodup_flatMap.2 ⟨fun j _ => List.nodup_flatMap.2 ⟨fun k _ =>
    hr.map fun a b h => by simpa using h, ?_⟩, ?_⟩, ?_⟩
  · refine hr.imp fun {a b} hab q h1 h2 => ?_
    simp only [List.mem_map] at h1 h2
    obtain ⟨_, _, rfl⟩ := h1
    obtain ⟨_, _, h⟩ := h2
    simp only [Prod.mk.injEq] at h
    exact hab h.2.2.1.symm
  · refine hr.imp fun {a b} hab q h1 h2 => ?_
    simp only [List.mem_flatMap, List.mem_map] at h1 h2
    obtain ⟨_, _, _, _, rfl⟩ := h1
    obtain ⟨_, _, _, _, h⟩ := h2
    simp only [Prod.mk.injEq] at h
    exact hab h.2.1.symm
  · refine hr.imp fun {a b} hab q h1 h2 => ?_
    simp only [List.mem_flatMap, List.mem_map] at h1 h2
    obtain ⟨_, _, _, _, _, _, rfl⟩ := h1
    obtain ⟨_, _, _, _, _, _, h⟩ := h2
    simp only [Prod.mk.injEq] at h
    exact hab h.1.symm

theorem foldl_init (l : List TQ) (m : ErrorMap) (q : TQ) :
    (q ∈ l → l.foldl (fun m q => Function.update m q (some (some 0, some 0))) m q = some (some 0, some 0)) ∧
    (q ∉ l → l.foldl (fun m q => Function.update m q (some (some 0, some 0))) m q = m q) := by
  induction l generalizing m with
  | nil => simp
  | cons a l ih =>
    rw [List.foldl_cons]
    constructor
    · intro h
      by_cases hq : q ∈ l
      · exact (ih _).1 hq
      · rw [(ih _).2 hq]
        rcases List.mem_cons.1 h with rfl | h
        · rw [Function.update_self]
        · exact absurd h hq
    · intro h
      rw [List.mem_cons, not_or] at h
      rw [(ih _).2 h.2, Function.update_of_ne h.1]

theorem initErrors_mem {maxam : ℕ} {q : TQ} (h : q ∈ allTQ maxam) : initErrors maxam q = some (some 0, some 0) :=
  (foldl_init _ _ q).1 h

/-- The errors that are left for one quartet. -/
noncomputable def errorsOf (o : List Compared) (s : Fp × Fp) : Fp × Fp :=
  ((o.map fun c => (calcError c.lib c.ref c.len).1).foldl Fp.max s.1,
   (o.map fun c => (calcError c.lib c.ref c.len).2).foldl Fp.max s.2)

theorem update_fold (q : TQ) (o : List Compared) (m : ErrorMap) (s : Fp × Fp) (h : m q = some s) :
    o.foldlM (fun m c => updateErrorMap m q (calcError c.lib c.ref c.len)) m =
      some (Function.update m q (some (errorsOf o s))) := by
  induction o generalizing m s with
  | nil =>
    rw [List.foldlM_nil]
    refine congrArg some ?_
    rw [show errorsOf [] s = s from rfl, ← h, Function.update_eq_self]
  | cons c o ih =>
    rw [List.foldlM_cons]
    have e : updateErrorMap m q (calcError c.lib c.ref c.len) = some (Function.update m q
        (some (Fp.max s.1 (calcError c.lib c.ref c.len).1, Fp.max s.2 (calcError c.lib c.ref c.len).2))) := by
      rw [updateErrorMap, h]; rfl
    rw [e, Option.bind_eq_bind, Option.bind_some, ih _ _ (Function.update_self ..), Function.update_idem]
    rfl

theorem testLoop_eq (order : TQ → List Compared) (l : List TQ) (hn : l.Nodup) (m : ErrorMap)
    (h : ∀ q ∈ l, m q = some (some 0, some 0)) :
    testLoop order l m = some (l.map fun q =>
      (q, (errorsOf (order q) (some 0, some 0)).1, (errorsOf (order q) (some 0, some 0)).2,
        isBad (errorsOf (order q) (some 0, some 0)).1 (errorsOf (order q) (some 0, some 0)).2)) := by
  induction l generalizing m with
  | nil => rfl
  | cons q l ih =>
    rw [List.nodup_cons] at hn
    have e := update_fold q (order q) m _ (h q (List.mem_cons_self ..))
    simp only [testLoop, testQuartet, e, Option.bind_eq_bind, Option.bind_some, Function.update_self, Option.pure_def]
    rw [ih hn.2 _ fun a ha => ?_]
    · rfl
    · rw [Function.update_of_ne (show a ≠ q by rintro rfl; exact hn.1 ha)]
      exact h a (List.mem_cons_of_mem _ ha)

theorem testTable_eq (maxam : ℕ) (order : TQ → List Compared) :
    testTable maxam order = some ((allTQ maxam).map fun q =>
      (q, (errorsOf (order q) (some 0, some 0)).1, (errorsOf (order q) (some 0, some 0)).2,
        isBad (errorsOf (order q) (some 0, some 0)).1 (errorsOf (order q) (some 0, some 0)).2)) :=
  testLoop_eq order _ (allTQ_nodup maxam) _ fun _ h => initErrors_mem h

/-- Greatest of greatest. -/
theorem greatest_join {α : Type} (o : List α) (f : α → Fp) (E : α → Set ℝ)
    (hf : ∀ c ∈ o, ∃ m, f c = some m ∧ IsGreatest (insert 0 (E c)) m) :
    ∃ m, (o.map f).foldl Fp.max (some 0) = some m ∧ IsGreatest (insert 0 {x | ∃ c ∈ o, x ∈ E c}) m := by
  obtain ⟨m, h1, h2, h3⟩ := Fp.foldl_max (o.map f) 0
  refine ⟨m, h1, ?_, ?_⟩
  · rcases h2 with h2 | h2
    · exact Or.inl h2
    · obtain ⟨c, hc, e⟩ := List.mem_map.1 h2
      obtain ⟨m', e', hg, -⟩ := hf c hc
      rw [e, Option.some.injEq] at e'
      subst e'
      rcases hg with hg | hg
      · exact Or.inl hg
      · exact Or.inr ⟨c, hc, hg⟩
  · rintro x (rfl | ⟨c, hc, hx⟩)
    · exact h3 (Or.inl rfl)
    · obtain ⟨m', e', -, hg⟩ := hf c hc
      exact (hg (Or.inr hx)).trans (h3 (Or.inr (List.mem_map.2 ⟨c, hc, e'⟩)))

/-! ## The sizes -/

theorem findMax_fold (m : List (ℕ × ℕ)) (s : ℕ × ℕ) :
    let f := m.foldl (fun s it =>
      let maxam := if it.1 > s.1 then it.1 else s.1
      let n := ncart it.1 * it.2
      (maxam, if n > s.2 then n else s.2)) s
    s.1 ≤ f.1 ∧ s.2 ≤ f.2 ∧ (∀ it ∈ m, it.1 ≤ f.1 ∧ ncart it.1 * it.2 ≤ f.2) ∧
      (f.1 = s.1 ∨ ∃ it ∈ m, f.1 = it.1) ∧ (f.2 = s.2 ∨ ∃ it ∈ m, f.2 = ncart it.1 * it.2) := by
  induction m generalizing s with
  | nil => simp
  | cons a m ih =>
    obtain ⟨h1, h2, h3, h4, h5⟩ := ih ((if a.1 > s.1 then a.1 else s.1),
      if ncart a.1 * a.2 > s.2 then ncart a.1 * a.2 else s.2)
    simp only [List.foldl_cons, List.mem_cons, forall_eq_or_imp, exists_eq_or_imp]
    simp only at h1 h2 h4 h5
    refine ⟨?_, ?_, ⟨⟨?_, ?_⟩, h3⟩, ?_, ?_⟩
    · refine le_trans ?_ h1; split_ifs <;> omega
    · refine le_trans ?_ h2; split_ifs <;> omega
    · refine le_trans ?_ h1; split_ifs <;> omega
    · refine le_trans ?_ h2; split_ifs <;> omega
    · rcases h4 with h4 | h4
      · rw [h4]
        split_ifs
        · exact Or.inr (Or.inl rfl)
        · exact Or.inl rfl
      · exact Or.inr (Or.inr h4)
    · rcases h5 with h5 | h5
      · rw [h5]
        split_ifs
        · exact Or.inr (Or.inl rfl)
        · exact Or.inl rfl
      · exact Or.inr (Or.inr h5)

theorem lookup_mem {m : List (ℕ × ℕ)} {k n : ℕ} (h : m.lookup k = some n) : (k, n) ∈ m := by
  induction m with
  | nil => cases h
  | cons a m ih =>
    rw [List.lookup_cons] at h
    split at h
    · rename_i he
      rw [beq_iff_eq] at he
      rw [Option.some.injEq] at h
      subst h; subst he
      exact List.mem_cons_self ..
    · exact List.mem_cons_of_mem _ (ih h)

theorem shellsOf_le (m : List (ℕ × ℕ)) (k : ℕ) : ncart k * shellsOf m k ≤ (findMaxParams m).2 := by
  unfold shellsOf
  cases h : m.lookup k with
  | none => simp
  | some n => exact ((findMax_fold m (0, 0)).2.2.1 _ (lookup_mem h)).2

theorem ncart_mono {i n : ℕ} (h : i ≤ n) : ncart (i : ℤ) ≤ (n + 1) * (n + 2) / 2 := by
  rw [ncart, if_pos (Int.natCast_nonneg i), Int.toNat_natCast]
  apply Nat.div_le_div_right
  rw [mul_comm]
  exact Nat.mul_le_mul (by omega) (by omega)

end Simint
