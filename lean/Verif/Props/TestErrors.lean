/-
C75: the test programs print the largest absolute and relative error of every quartet; what a line without mark says
and what it does not say; the buffers are large enough; `UniqueQuartet` picks one representative.
-/
import Verif.TestErrorLemmas
import Verif.Props.ValeevArrays

set_option autoImplicit false

namespace Simint

/-! ## Specification -/

/-- The absolute errors of the elements that can be compared. -/
def Compared.absErrs (c : Compared) : Set ℝ :=
  {x | ∃ e < c.len, ∃ v r, c.lib e = some v ∧ c.ref e = some r ∧ x = |v - r|}

/-- The relative errors of the elements that can be compared and whose reference is not tiny. -/
def Compared.relErrs (c : Compared) : Set ℝ :=
  {x | ∃ e < c.len, ∃ v r, c.lib e = some v ∧ c.ref e = some r ∧ (1e-15 : ℝ) < |r| ∧ x = |v - r| / |r|}

/-- A line of the table for the comparisons `o`. -/
def LineOK (q : TQ) (o : List Compared) (line : TQ × Fp × Fp × Bool) : Prop :=
  ∃ m1 m2 : ℝ, ∃ b, line = (q, some m1, some m2, b) ∧
    IsGreatest (insert 0 {x | ∃ c ∈ o, x ∈ c.absErrs}) m1 ∧
    IsGreatest (insert 0 {x | ∃ c ∈ o, x ∈ c.relErrs}) m2 ∧
    (b = true ↔ 1e-14 < m1 ∧ 1e-8 < m2)

/-- One element agrees: absolute error at most 1e-14 or relative error at most 1e-8. -/
def Agrees (v r : ℝ) : Prop := |v - r| ≤ 1e-14 ∨ |v - r| ≤ 1e-8 * |r|

/-! ## The errors -/

/-- `CalcError` gives the largest absolute and the largest relative error (zero if there is none). -/
theorem C75_error (c : Compared) : ∃ m1 m2, calcError c.lib c.ref c.len = (some m1, some m2) ∧
    IsGreatest (insert 0 c.absErrs) m1 ∧ IsGreatest (insert 0 c.relErrs) m2 := by
  rw [calcError_eq]
  obtain ⟨m1, h1, g1⟩ := Fp.foldl_max ((List.range c.len).map (elemAbs c.lib c.ref)) 0
  obtain ⟨m2, h2, g2, g3⟩ := Fp.foldl_max ((List.range c.len).map (elemRel c.lib c.ref)) 0
  have e1 : {x | some x ∈ (List.range c.len).map (elemAbs c.lib c.ref)} = c.absErrs := by
    ext x
    simp only [Set.mem_setOf_eq, List.mem_map, List.mem_range, elemAbs_some, Compared.absErrs]
  rw [e1] at g1
  refine ⟨m1, m2, by rw [h1, h2], g1, ?_, ?_⟩
  · rcases g2 with g2 | g2
    · exact Or.inl g2
    · obtain ⟨i, hi, e⟩ := List.mem_map.1 g2
      rw [List.mem_range] at hi
      cases hr : c.ref i with
      | none =>
        rw [elemRel_none hr, Option.some.injEq] at e
        exact Or.inl e.symm
      | some r =>
        by_cases hs : |r| ≤ rndZero
        · rw [elemRel_small hr hs, Option.some.injEq] at e
          exact Or.inl e.symm
        · rw [not_le] at hs
          cases hl : c.lib i with
          | none =>
            rw [elemRel_nan hr hs hl] at e
            cases e
          | some v =>
            rw [elemRel_some hr hs hl, Option.some.injEq] at e
            exact Or.inr ⟨i, hi, v, r, hl, hr, hs, e.symm⟩
  · rintro x (rfl | ⟨i, hi, v, r, hl, hr, hs, rfl⟩)
    · exact g3 (Or.inl rfl)
    · exact g3 (Or.inr (List.mem_map.2 ⟨i, List.mem_range.2 hi, elemRel_some hr hs hl⟩))

/-- The table of the test programs has one line for every quartet, with the largest errors over all shells and
elements, in every order in which the threads report. -/
theorem C75_table (maxam : ℕ) (order : TQ → List Compared) : ∃ L, testTable maxam order = some L ∧
    (L.map Prod.fst).Nodup ∧
    (∀ q : TQ, q ∈ L.map Prod.fst ↔ q.1 ≤ maxam ∧ q.2.1 ≤ maxam ∧ q.2.2.1 ≤ maxam ∧ q.2.2.2 ≤ maxam) ∧
    ∀ line ∈ L, LineOK line.1 (order line.1) line := by
  refine ⟨_, testTable_eq maxam order, ?_, fun q => ?_, fun line hl => ?_⟩
  · rw [List.map_map]
    simpa [Function.comp_def] using allTQ_nodup maxam
  · rw [List.map_map, ← allTQ_mem]
    simp [Function.comp_def]
  · obtain ⟨q, -, rfl⟩ := List.mem_map.1 hl
    obtain ⟨m1, e1, g1⟩ := greatest_join (order q) (fun c => (calcError c.lib c.ref c.len).1) Compared.absErrs
      fun c _ => by
        obtain ⟨a, b, e, h, -⟩ := C75_error c
        exact ⟨a, by rw [e], h⟩
    obtain ⟨m2, e2, g2⟩ := greatest_join (order q) (fun c => (calcError c.lib c.ref c.len).2) Compared.relErrs
      fun c _ => by
        obtain ⟨a, b, e, -, h⟩ := C75_error c
        exact ⟨b, by rw [e], h⟩
    have e : errorsOf (order q) (some 0, some 0) = (some m1, some m2) := by rw [errorsOf, e1, e2]
    refine ⟨m1, m2, isBad (some m1) (some m2), by rw [e], g1, g2, ?_⟩
    classical
    simp only [isBad, decide_eq_true_eq, Fp.gt_some]

/-- The order of the threads does not matter. -/
theorem C75_threads (maxam : ℕ) {o1 o2 : TQ → List Compared} (h : ∀ q, (o1 q).Perm (o2 q)) :
    testTable maxam o1 = testTable maxam o2 := by
  rw [testTable_eq, testTable_eq]
  have e : ∀ q, errorsOf (o1 q) (some 0, some 0) = errorsOf (o2 q) (some 0, some 0) := fun q => by
    have key : ∀ f : Compared → Fp, ((o1 q).map f).foldl Fp.max (some 0) = ((o2 q).map f).foldl Fp.max (some 0) := by
      intro f
      obtain ⟨m1, e1, g1⟩ := Fp.foldl_max ((o1 q).map f) 0
      obtain ⟨m2, e2, g2⟩ := Fp.foldl_max ((o2 q).map f) 0
      have : {x | some x ∈ (o1 q).map f} = {x | some x ∈ (o2 q).map f} := by
        ext x; exact ((h q).map f).mem_iff
      rw [this] at g1
      rw [e1, e2, g1.unique g2]
    exact Prod.ext (key _) (key _)
  simp only [e]

/-! ## What the mark says -/

/-- A line without mark: every element that is a number and has a reference above 1e-15 agrees.  (Missing: elements
that are NaN, and elements with a reference that is zero or tiny.) -/
theorem C75_unmarked_partial {q : TQ} {o : List Compared} {m1 m2 : Fp} (h : LineOK q o (q, m1, m2, false)) :
    ∀ c ∈ o, ∀ e < c.len, ∀ v r, c.lib e = some v → c.ref e = some r → 1e-15 < |r| → Agrees v r := by
  obtain ⟨a, b, f, he, g1, g2, hb⟩ := h
  simp only [Prod.mk.injEq, true_and] at he
  obtain ⟨rfl, rfl, rfl⟩ := he
  intro c hc e hlt v r hv hr hs
  by_contra hn
  rw [Agrees, not_or, not_le, not_le] at hn
  have h1 := g1.2 (Or.inr ⟨c, hc, e, hlt, v, r, hv, hr, rfl⟩)
  have h2 := g2.2 (Or.inr ⟨c, hc, e, hlt, v, r, hv, hr, hs, rfl⟩)
  refine absurd (hb.2 ⟨hn.1.trans_le h1, lt_of_lt_of_le ?_ h2⟩) (by decide)
  rw [lt_div_iff₀ (lt_trans (by norm_num) hs)]
  exact hn.2

/-- One comparison with `len` elements. -/
def cmp (l : List (Fp × Fp)) : Compared where
  len := l.length
  lib := fun i => (l.getD i (none, none)).1
  ref := fun i => (l.getD i (none, none)).2

theorem LineOK.mark {q : TQ} {o : List Compared} {m1 m2 : Fp} {b : Bool} (h : LineOK q o (q, m1, m2, b)) :
    ∃ x y, m1 = some x ∧ m2 = some y ∧ IsGreatest (insert 0 {x | ∃ c ∈ o, x ∈ c.absErrs}) x ∧
      IsGreatest (insert 0 {x | ∃ c ∈ o, x ∈ c.relErrs}) y ∧ (b = true ↔ 1e-14 < x ∧ 1e-8 < y) := by
  obtain ⟨x, y, b', he, g⟩ := h
  simp only [Prod.mk.injEq, true_and] at he
  obtain ⟨rfl, rfl, rfl⟩ := he
  exact ⟨x, y, rfl, rfl, g⟩

/-- A result that is NaN everywhere is not marked. -/
theorem C75_nan_false : ∃ c : Compared, c.len = 1 ∧ c.lib 0 = none ∧ c.ref 0 = some 1 ∧
    ∀ q m1 m2 b, LineOK q [c] (q, m1, m2, b) → b = false := by
  refine ⟨cmp [(none, some 1)], rfl, rfl, rfl, fun q m1 m2 b h => ?_⟩
  obtain ⟨x, y, -, -, g, -, hb⟩ := h.mark
  have hx : x = 0 := by
    rcases g.1 with h0 | ⟨c, hc, e, he, v, r, hv, -⟩
    · exact h0
    · rw [List.mem_singleton] at hc
      subst hc
      have : e = 0 := by simpa [cmp] using he
      subst this
      cases hv
  rw [hx] at hb
  cases b with
  | false => rfl
  | true => exact absurd (hb.1 rfl).1 (by norm_num)

/-- A wrong value where the reference is zero is not marked, whatever the value is. -/
theorem C75_zero_false (v : ℝ) : ∃ c : Compared, c.len = 1 ∧ c.lib 0 = some v ∧ c.ref 0 = some 0 ∧
    ∀ q m1 m2 b, LineOK q [c] (q, m1, m2, b) → m1 = some |v| ∧ b = false := by
  refine ⟨cmp [(some v, some 0)], rfl, rfl, rfl, fun q m1 m2 b h => ?_⟩
  obtain ⟨x, y, rfl, -, g1, g, hb⟩ := h.mark
  have hx : x = |v| := by
    refine le_antisymm ?_ (g1.2 (Or.inr ⟨_, List.mem_singleton.2 rfl, 0, Nat.one_pos, v, 0, rfl, rfl, by simp⟩))
    rcases g1.1 with h0 | ⟨c, hc, e, he, w, r, hv, hr, rfl⟩
    · rw [h0]; exact abs_nonneg v
    · rw [List.mem_singleton] at hc
      subst hc
      have : e = 0 := by simpa [cmp] using he
      subst this
      cases hv; cases hr
      simp
  have hy : y = 0 := by
    rcases g.1 with h0 | ⟨c, hc, e, he, w, r, hv, hr, hs, -⟩
    · exact h0
    · rw [List.mem_singleton] at hc
      subst hc
      have : e = 0 := by simpa [cmp] using he
      subst this
      cases hr
      rw [abs_zero] at hs
      exact absurd hs (by norm_num)
  rw [hy] at hb
  refine ⟨by rw [hx], ?_⟩
  cases b with
  | false => rfl
  | true => exact absurd (hb.1 rfl).2 (by norm_num)

/-- A line can be marked although every element agrees: the two maxima belong to different elements. -/
theorem C75_mark_false : ∃ c : Compared,
    (∀ e < c.len, ∃ v r, c.lib e = some v ∧ c.ref e = some r ∧ Agrees v r) ∧
    ∀ q m1 m2 b, LineOK q [c] (q, m1, m2, b) → b = true := by
  refine ⟨cmp [(some (10 ^ 6 + 1e-10), some (10 ^ 6)), (some 2e-14, some 1e-14)], fun e he => ?_,
    fun q m1 m2 b h => ?_⟩
  · have : e = 0 ∨ e = 1 := by simp only [cmp, List.length_cons, List.length_nil] at he; omega
    rcases this with rfl | rfl
    · refine ⟨_, _, rfl, rfl, Or.inr ?_⟩
      rw [abs_of_nonneg (by norm_num), abs_of_nonneg (by norm_num)]
      norm_num
    · refine ⟨_, _, rfl, rfl, Or.inl ?_⟩
      rw [abs_of_nonneg (by norm_num)]
      norm_num
  · obtain ⟨x, y, -, -, g1, g2, hb⟩ := h.mark
    refine hb.2 ⟨?_, ?_⟩
    · have := g1.2 (Or.inr ⟨_, List.mem_singleton.2 rfl, 0, by decide, _, _, rfl, rfl, rfl⟩)
      refine lt_of_lt_of_le ?_ this
      rw [abs_of_nonneg (by norm_num)]
      norm_num
    · have := g2.2 (Or.inr ⟨_, List.mem_singleton.2 rfl, 1, by decide, _, _, rfl, rfl,
        by rw [abs_of_nonneg (by norm_num)]; norm_num, rfl⟩)
      refine lt_of_lt_of_le ?_ this
      rw [abs_of_nonneg (by norm_num), abs_of_nonneg (by norm_num)]
      norm_num

/-! ## The buffers -/

/-- The buffers hold the results of one call: one shell pair in the bra and all shells in the ket. -/
theorem C75_buffer (m : List (ℕ × ℕ)) (libmax width : ℕ) {i j k l : ℕ} (hi : i ≤ testMaxam m libmax)
    (hj : j ≤ testMaxam m libmax) :
    1 * 1 * shellsOf m k * shellsOf m l * (ncart i * ncart j * ncart k * ncart l) * width ≤
      testMaxsize m libmax width := by
  have h1 := shellsOf_le m k
  have h2 := shellsOf_le m l
  have h3 := ncart_mono hi
  have h4 := ncart_mono hj
  have e : 1 * 1 * shellsOf m k * shellsOf m l * (ncart i * ncart j * ncart k * ncart l) * width =
      (ncart k * shellsOf m k) * (ncart l * shellsOf m l) * ncart i * ncart j * width := by ring
  rw [e]
  exact Nat.mul_le_mul_right _ (Nat.mul_le_mul (Nat.mul_le_mul (Nat.mul_le_mul h1 h2) h3) h4)

/-- The reference integrals of one call fit into the buffer and are where the comparison expects them. -/
theorem C75_reference (m : List (ℕ × ℕ)) (libmax : ℕ) {r : RefArgs} {bf : ℕ → ℝ → Option (List ℝ)} (h : RefOK r bf 0)
    (h1 : r.n .I = 1) (h2 : r.n .J = 1) (h3 : r.n .K = shellsOf m (r.sh .K 0).am)
    (h4 : r.n .L = shellsOf m (r.sh .L 0).am) (hi : (r.sh .I 0).am ≤ testMaxam m libmax)
    (hj : (r.sh .J 0).am ≤ testMaxam m libmax) (mem : ℕ → ℝ) :
    ∃ v, r.deriv0 bf false (testMaxsize m libmax 1) mem = some v ∧ r.ValueLayout v := by
  obtain ⟨v, e, hv, -⟩ := C74_values h (size := testMaxsize m libmax 1) (mem := mem) (by
    refine le_trans (le_of_eq ?_) (C75_buffer m libmax 1 (k := (r.sh .K 0).am) (l := (r.sh .L 0).am) hi hj)
    simp only [RefArgs.n234, RefArgs.ncart, RefArgs.am, h1, h2, h3, h4, mul_one, one_mul])
  exact ⟨v, e, hv⟩

/-- The same for the derivatives. -/
theorem C75_reference_deriv (m : List (ℕ × ℕ)) (libmax : ℕ) {r : RefArgs} {bf : ℕ → ℝ → Option (List ℝ)}
    (h : RefOK r bf 1) (h1 : r.n .I = 1) (h2 : r.n .J = 1) (h3 : r.n .K = shellsOf m (r.sh .K 0).am)
    (h4 : r.n .L = shellsOf m (r.sh .L 0).am) (hi : (r.sh .I 0).am ≤ testMaxam m libmax)
    (hj : (r.sh .J 0).am ≤ testMaxam m libmax) (mem : ℕ → ℝ) :
    ∃ v, r.deriv1 bf false (testMaxsize m libmax 12) mem = some v ∧ r.GradLayout v := by
  obtain ⟨v, e, hv, -⟩ := C74_gradients_partial h h1 (size := testMaxsize m libmax 12) (mem := mem) (by
    refine le_trans (le_of_eq ?_) (C75_buffer m libmax 12 (k := (r.sh .K 0).am) (l := (r.sh .L 0).am) hi hj)
    simp only [RefArgs.n234, RefArgs.ncart, RefArgs.am, h2, h3, h4]
    ring)
  exact ⟨v, e, hv⟩

theorem intProd_eq (l : List ℕ) (hl : ∀ b ∈ l, 0 < b) (a : ℕ) (ha : a < 2 ^ 31) :
    intProd (a :: l) = if a * l.prod < 2 ^ 31 then some (a * l.prod) else none := by
  show l.foldlM (fun a b => if a * b < 2 ^ 31 then some (a * b) else none) a = _
  induction l generalizing a with
  | nil => rw [List.prod_nil, mul_one, if_pos ha]; rfl
  | cons b l ih =>
    have hp : 0 < l.prod := List.prod_pos fun x hx => hl x (List.mem_cons_of_mem _ hx)
    rw [List.foldlM_cons, List.prod_cons, ← mul_assoc]
    by_cases h : a * b < 2 ^ 31
    · rw [if_pos h]
      exact ih (fun x hx => hl x (List.mem_cons_of_mem _ hx)) _ h
    · rw [if_neg h, if_neg fun hh => h ((Nat.le_mul_of_pos_right _ hp).trans_lt hh)]
      rfl

/-- The buffers are allocated, with the right size, exactly if the number of elements for all threads is below
2^31. -/
theorem C75_alloc (m : List (ℕ × ℕ)) (libmax : ℕ) {width nthread : ℕ} (hw : 0 < width) (ht : 0 < nthread)
    (ht' : nthread < 2 ^ 31) (hm : 0 < (findMaxParams m).2) (hm' : (findMaxParams m).2 < 2 ^ 31) :
    testAlloc m libmax width nthread =
      if nthread * testMaxsize m libmax width < 2 ^ 31 then some (nthread * testMaxsize m libmax width * 8) else none := by
  have hc : 0 < (testMaxam m libmax + 1) * (testMaxam m libmax + 2) / 2 :=
    (ncart_pos (Int.natCast_nonneg 0)).trans_le (ncart_mono (Nat.zero_le _))
  have e : (findMaxParams m).2 * [(findMaxParams m).2, (testMaxam m libmax + 1) * (testMaxam m libmax + 2) / 2,
      (testMaxam m libmax + 1) * (testMaxam m libmax + 2) / 2, width].prod = testMaxsize m libmax width := by
    simp only [List.prod_cons, List.prod_nil, mul_one, testMaxsize]
    ring
  have h1 := intProd_eq [(findMaxParams m).2, (testMaxam m libmax + 1) * (testMaxam m libmax + 2) / 2,
    (testMaxam m libmax + 1) * (testMaxam m libmax + 2) / 2, width]
    (by simp only [List.mem_cons, List.not_mem_nil, or_false]; rintro b (rfl | rfl | rfl | rfl) <;> assumption) _ hm'
  rw [e] at h1
  have hs : 0 < testMaxsize m libmax width :=
    Nat.mul_pos (Nat.mul_pos (Nat.mul_pos (Nat.mul_pos hm hm) hc) hc) hw
  have h2 := intProd_eq [testMaxsize m libmax width] (by simpa using hs) nthread ht'
  rw [List.prod_cons, List.prod_nil, mul_one] at h2
  simp only [testAlloc, h1]
  by_cases h : testMaxsize m libmax width < 2 ^ 31
  · simp only [if_pos h, Option.bind_eq_bind, Option.bind_some, h2]
    split_ifs <;> rfl
  · rw [if_neg h, if_neg fun hh => h ((Nat.le_mul_of_pos_left _ ht).trans_lt hh)]
    rfl

/-- Shells of each angular momentum in skel/test/dat/R-camphor.aug-cc-pvqz.mol. -/
def camphor : List (ℕ × ℕ) := [(0, 146), (1, 119), (2, 92), (3, 65), (4, 22)]

/-- With two threads the derivative test overflows for one of the molecules that come with it. -/
theorem C75_alloc_false : testAlloc camphor 4 12 2 = none ∧ (testAlloc camphor 4 12 1).isSome = true ∧
    testAlloc camphor 4 1 23 = none := by
  decide +kernel

/-- `FindMaxParams`: the largest angular momentum and the largest number of functions of one angular momentum. -/
theorem C75_maxparams (m : List (ℕ × ℕ)) :
    IsGreatest (insert 0 {a | ∃ it ∈ m, a = it.1}) (findMaxParams m).1 ∧
    IsGreatest (insert 0 {a | ∃ it ∈ m, a = (it.1 + 2) * (it.1 + 1) / 2 * it.2}) (findMaxParams m).2 := by
  obtain ⟨-, -, h3, h4, h5⟩ := findMax_fold m (0, 0)
  have hc : ∀ it : ℕ × ℕ, ncart it.1 * it.2 = (it.1 + 2) * (it.1 + 1) / 2 * it.2 := fun it => by
    rw [ncart, if_pos (Int.natCast_nonneg _), Int.toNat_natCast]
  refine ⟨⟨h4, ?_⟩, ?_, ?_⟩
  · rintro a (rfl | ⟨it, hit, rfl⟩)
    · exact Nat.zero_le _
    · exact (h3 it hit).1
  · rcases h5 with h5 | ⟨it, hit, h5⟩
    · exact Or.inl h5
    · exact Or.inr ⟨it, hit, h5.trans (hc it)⟩
  · rintro a (rfl | ⟨it, hit, rfl⟩)
    · exact Nat.zero_le _
    · exact (hc it) ▸ (h3 it hit).2

/-! ## `UniqueQuartet` -/

/-- The eight orders of a quartet that have the same integrals. -/
def eightOrders (i j k l : ℤ) : List (ℤ × ℤ × ℤ × ℤ) :=
  [(i, j, k, l), (j, i, k, l), (i, j, l, k), (j, i, l, k), (k, l, i, j), (k, l, j, i), (l, k, i, j), (l, k, j, i)]

/-- Exactly one of the eight orders is unique in the sense of `UniqueQuartet`. -/
theorem C75_unique (i j k l : ℤ) :
    ∃! q : ℤ × ℤ × ℤ × ℤ, q ∈ eightOrders i j k l ∧ testUnique q.1 q.2.1 q.2.2.1 q.2.2.2 = true := by
  have hu : ∀ a b c d : ℤ, testUnique a b c d = true ↔
      b ≤ a ∧ d ≤ c ∧ c + d ≤ a + b ∧ (a + b = c + d → c ≤ a) := by
    intro a b c d
    unfold testUnique
    split_ifs <;> simp <;> omega
  have hex : ∃ q ∈ eightOrders i j k l, testUnique q.1 q.2.1 q.2.2.1 q.2.2.2 = true := by
    simp only [eightOrders, List.mem_cons, List.not_mem_nil, or_false, exists_eq_or_imp, exists_eq_left, hu]
    omega
  obtain ⟨q, hq, hq'⟩ := hex
  refine ⟨q, ⟨hq, hq'⟩, ?_⟩
  rintro ⟨a, b, c, d⟩ ⟨hp, hp'⟩
  obtain ⟨a', b', c', d'⟩ := q
  rw [hu] at hq' hp'
  dsimp only at hq' hp'
  simp only [eightOrders, List.mem_cons, List.not_mem_nil, or_false, Prod.mk.injEq] at hq hp ⊢
  omega

/-! ## Examples -/

/-- A marked and an unmarked line of one table. -/
example : ∃ L, testTable 0 (fun _ => [cmp [(some 1, some 1), (some 3, some 2)], cmp [(some 5, some 4)]]) = some L ∧
    (0, some 1, some (1 / 2), true) ∈ L.map fun x => ((x.1.1 : ℕ), x.2) := by
  obtain ⟨L, hL, -, hm, hl⟩ := C75_table 0 fun _ => [cmp [(some 1, some 1), (some 3, some 2)], cmp [(some 5, some 4)]]
  refine ⟨L, hL, ?_⟩
  have h0 := (hm (0, 0, 0, 0)).2 (by decide)
  obtain ⟨⟨q, a, b, f⟩, hmem, rfl⟩ := List.mem_map.1 h0
  obtain ⟨x, y, f', he, g1, g2, hf⟩ := hl _ hmem
  simp only [Prod.mk.injEq, true_and] at he
  obtain ⟨rfl, rfl, rfl⟩ := he
  have hx : x = 1 := by
    refine le_antisymm ?_ (g1.2 (Or.inr ⟨cmp [(some 5, some 4)], by simp, 0, by decide, 5, 4, rfl, rfl, by norm_num⟩))
    rcases g1.1 with h | ⟨c, hc, e, he, v, r, hv, hr, rfl⟩
    · rw [h]; norm_num
    · simp only [List.mem_cons, List.not_mem_nil, or_false] at hc
      rcases hc with rfl | rfl
      · have : e = 0 ∨ e = 1 := by simp only [cmp, List.length_cons, List.length_nil] at he; omega
        rcases this with rfl | rfl <;> cases hv <;> cases hr <;> norm_num
      · have : e = 0 := by simpa [cmp] using he
        subst this; cases hv; cases hr; norm_num
  have hy : y = 1 / 2 := by
    refine le_antisymm ?_ (g2.2 (Or.inr ⟨cmp [(some 1, some 1), (some 3, some 2)], by simp, 1, by decide, 3, 2, rfl,
      rfl, by norm_num, by norm_num⟩))
    rcases g2.1 with h | ⟨c, hc, e, he, v, r, hv, hr, -, rfl⟩
    · rw [h]; norm_num
    · simp only [List.mem_cons, List.not_mem_nil, or_false] at hc
      rcases hc with rfl | rfl
      · have : e = 0 ∨ e = 1 := by simp only [cmp, List.length_cons, List.length_nil] at he; omega
        rcases this with rfl | rfl <;> cases hv <;> cases hr <;> norm_num
      · have : e = 0 := by simpa [cmp] using he
        subst this; cases hv; cases hr; norm_num
  subst hx; subst hy
  refine List.mem_map.2 ⟨_, hmem, ?_⟩
  rw [hf.2 ⟨by norm_num, by norm_num⟩]

example : findMaxParams [(0, 5), (1, 3), (2, 1)] = (2, 9) := by decide
example : testMaxsize [(0, 5), (1, 3), (2, 1)] 7 1 = 2916 := by decide
example : shellsOf [(0, 5), (2, 1)] 1 = 0 ∧ shellsOf [(0, 5), (2, 1)] 2 = 1 := by decide
example : testUnique 2 0 1 1 = true ∧ testUnique 1 1 2 0 = false := by decide

end Simint
