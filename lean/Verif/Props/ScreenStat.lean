import Verif.ScreenStatLemmas
import Verif.SimdLemmas
import Mathlib.Algebra.Order.BigOperators.Group.Finset
import Mathlib.Algebra.Order.Ring.Int
import Mathlib.Algebra.BigOperators.Pi
import Mathlib.Algebra.Order.Ring.Defs

/-!
# Statistics of primitive screening (C94)

The numbers of vectors add up, and with screening `calc_nprim` is the number of pairs of primitives that
are significant.  The numbers of primitives do not add up: `skip_nprim` counts the lanes that only fill
up a vector, unless the whole row is skipped, and without screening `calc_nprim` counts them.  The four
counters are stored behind the integrals.
-/

set_option autoImplicit false

open Finset

namespace Simint.Stat

section
variable {F : Type} [AddCommMonoid F] [Mul F] [LinearOrder F] (e : DEnv F) (hl : 0 < e.len)

theorem nvec_jpos (js n len : ℕ) (hl : 0 < len) : nvec len js (js + n) = (n + len - 1) / len := by
  unfold nvec
  rw [Nat.add_sub_cancel_left, Nat.add_sub_assoc hl]

theorem nbatches_eq (len n : ℕ) : (n + 2 * len - 1) / (2 * len) = nbatches len n ∨ len = 0 := by
  rcases Nat.eq_zero_or_pos len with h | h
  · exact Or.inr h
  · left
    unfold nbatches nshellSimd
    rw [Nat.add_sub_assoc (by omega)]

include hl

/-- C94: every vector is counted once, as computed or as skipped. -/
theorem C94_vectors :
    (runStat e).2.2.1 + (runStat e).2.2.2 = primCount e.P * rowVecs e.len e.Q := by
  rw [run_eq e hl]
  have hrow : ∀ i, (row e i).2.2.1 + (row e i).2.2.2 = rowVecs e.len e.Q := by
    intro i
    have hb : ∀ js n, (braStat e js (js + n) 0 i).2.2.1 + (braStat e js (js + n) 0 i).2.2.2 =
        (n + e.len - 1) / e.len := by
      intro js n
      unfold braStat
      split
      · simp
      · rw [foldl_add _ _ _ (fun c v => vecStat_add e i c (js + v * e.len)), sum_list_range, zero_add,
          nvec_jpos _ _ _ hl]
        simp only [Prod.snd_sum, Prod.fst_sum, ← sum_add_distrib]
        calc _ = ∑ v ∈ range ((n + e.len - 1) / e.len), 1 := sum_congr rfl fun v _ => by
              unfold vecStat
              split <;> simp
          _ = _ := by simp
    unfold row rowVecs
    simp only [Prod.snd_sum, Prod.fst_sum, ← sum_add_distrib, hb]
    rw [(nbatches_eq e.len e.Q.nclip).resolve_right (by omega)]
  simp only [Prod.snd_sum, Prod.fst_sum, ← sum_add_distrib, hrow]
  simp

/-- A row of full vectors, lane by lane. -/
theorem lanes_eq (f : ℕ → ℕ) (js nv : ℕ) :
    ∑ v ∈ range nv, ∑ n ∈ range e.len, f (js + v * e.len + n) = ∑ k ∈ range (nv * e.len), f (js + k) := by
  induction nv with
  | zero => simp
  | succ nv ih =>
    rw [sum_range_succ, ih, Nat.add_mul, Nat.one_mul, sum_range_add]
    simp only [Nat.add_assoc]

/-- All batches, lane by lane. -/
theorem batches_lanes (f : ℕ → ℕ) (k : ℕ) :
    ∑ b ∈ range k, ∑ n ∈ range ((batchPrims e.len e.Q b + e.len - 1) / e.len * e.len),
      f (jpos e.len e.Q b + n) = ∑ j ∈ range (jpos e.len e.Q k), f j := by
  induction k with
  | zero => simp [jpos]
  | succ k ih =>
    rw [sum_range_succ, ih, show jpos e.len e.Q (k + 1) = jpos e.len e.Q k +
      (batchPrims e.len e.Q k + e.len - 1) / e.len * e.len from sum_range_succ _ _, sum_range_add]

theorem jpos_end : jpos e.len e.Q (nbatches e.len e.Q.nclip) = rowVecs e.len e.Q * e.len := by
  unfold jpos rowVecs
  rw [(nbatches_eq e.len e.Q.nclip).resolve_right (by omega), sum_mul]

/-- C94, with screening: `calc_nprim` is the number of significant pairs, if `screen_max` bounds the
screening values of the ket. -/
theorem C94_calc (hc : e.check)
    (hmax : ∀ i j, e.P.screen i * e.Q.screen j ≤ e.P.screen i * e.Q.screenMax) :
    (runStat e).1 = significant e := by
  have hrow : ∀ i, (row e i).1 =
      ∑ j ∈ range (rowVecs e.len e.Q * e.len), if e.tol ≤ e.P.screen i * e.Q.screen j then 1 else 0 := by
    intro i
    have hb : ∀ js n, (braStat e js (js + n) 0 i).1 = ∑ k ∈ range ((n + e.len - 1) / e.len * e.len),
        if e.tol ≤ e.P.screen i * e.Q.screen (js + k) then 1 else 0 := by
      intro js n
      unfold braStat
      split
      · rename_i h
        symm
        simp only [Prod.fst_zero]
        refine sum_eq_zero fun k _ => if_neg ?_
        exact not_le.2 ((hmax i (js + k)).trans_lt h.2)
      · rw [foldl_add _ _ _ (fun c v => vecStat_add e i c (js + v * e.len)), sum_list_range, zero_add,
          nvec_jpos _ _ _ hl, Prod.fst_sum,
          ← lanes_eq e hl (fun j => if e.tol ≤ e.P.screen i * e.Q.screen j then 1 else 0)]
        refine sum_congr rfl fun v _ => ?_
        unfold vecStat
        split
        · rename_i h
          symm
          simp only [Prod.fst_zero]
          refine sum_eq_zero fun k hk => if_neg ?_
          exact not_le.2 ((vectorMax_ge (fun n => e.P.screen i * e.Q.screen (js + v * e.len + n))
            (mem_range.1 hk)).trans_lt h.2)
        · simp only [Prod.fst_zero, zero_add, survivors_eq, screenRes, if_pos hc]
    unfold row
    simp only [Prod.fst_sum, hb]
    rw [batches_lanes e hl (fun j => if e.tol ≤ e.P.screen i * e.Q.screen j then 1 else 0), jpos_end e hl]
  rw [run_eq e hl, Prod.fst_sum, significant, card_filter, sum_product]
  exact sum_congr rfl fun i _ => hrow i

/-- C94, without screening: `calc_nprim` counts every lane. -/
theorem C94_calc_off (ht : ¬e.check) :
    (runStat e).1 = primCount e.P * (rowVecs e.len e.Q * e.len) ∧ (runStat e).2.1 = 0 := by
  have ht' : e.tol ≤ 0 := not_lt.1 ht
  have hrow : ∀ i, (row e i).1 = rowVecs e.len e.Q * e.len ∧ (row e i).2.1 = 0 := by
    intro i
    have hb : ∀ js n, (braStat e js (js + n) 0 i).1 = (n + e.len - 1) / e.len * e.len ∧
        (braStat e js (js + n) 0 i).2.1 = 0 := by
      intro js n
      unfold braStat
      rw [if_neg fun h => ht h.1]
      rw [foldl_add _ _ _ (fun c v => vecStat_add e i c (js + v * e.len)), sum_list_range, zero_add,
        nvec_jpos _ _ _ hl]
      have hv : ∀ j, (vecStat e i 0 j).1 = e.len ∧ (vecStat e i 0 j).2.1 = 0 := by
        intro j
        have hs : survivors e.len (screenRes e i j) e.tol = e.len := by
          rw [survivors_eq]
          simp [screenRes, ht, ht']
        unfold vecStat
        rw [if_neg fun h => ht h.1, hs]
        simp
      simp only [Prod.fst_sum, Prod.snd_sum, hv]
      simp
    unfold row
    simp only [Prod.fst_sum, Prod.snd_sum, hb]
    refine ⟨?_, by simp⟩
    rw [← jpos_end e hl]
    rfl
  rw [run_eq e hl]
  simp only [Prod.fst_sum, Prod.snd_sum, hrow]
  simp

/-- C94, partial: the numbers of primitives add up to all lanes of the rows that are examined and to the
primitives of the rows that are skipped, not to the number of pairs of primitives. -/
theorem C94_total_partial :
    (runStat e).1 + (runStat e).2.1 = ∑ i ∈ range (primCount e.P),
      if e.skipBra i then primCount e.Q else rowVecs e.len e.Q * e.len := by
  have hrow : ∀ i, (row e i).1 + (row e i).2.1 =
      if e.skipBra i then ∑ b ∈ range (nbatches e.len e.Q.nclip), batchPrims e.len e.Q b
      else rowVecs e.len e.Q * e.len := by
    intro i
    have hb : ∀ js n, (braStat e js (js + n) 0 i).1 + (braStat e js (js + n) 0 i).2.1 =
        if e.skipBra i then n else (n + e.len - 1) / e.len * e.len := by
      intro js n
      unfold braStat
      split
      · simp
      · rw [foldl_add _ _ _ (fun c v => vecStat_add e i c (js + v * e.len)), sum_list_range, zero_add,
          nvec_jpos _ _ _ hl]
        simp only [Prod.snd_sum, Prod.fst_sum, ← sum_add_distrib]
        calc _ = ∑ v ∈ range ((n + e.len - 1) / e.len), e.len := sum_congr rfl fun v _ => by
              unfold vecStat
              have := survivors_le e.len (screenRes e i (js + v * e.len)) e.tol
              split
              · simp
              · simp only [Prod.fst_zero, Prod.snd_zero, zero_add]
                omega
          _ = _ := by simp
    unfold row
    simp only [Prod.snd_sum, Prod.fst_sum, ← sum_add_distrib, hb]
    split
    · rfl
    · rw [← jpos_end e hl]; rfl
  have hq : ∑ b ∈ range (nbatches e.len e.Q.nclip), batchPrims e.len e.Q b = primCount e.Q := by
    unfold batchPrims primCount
    rw [← sum_fiberwise_of_maps_to (s := range e.Q.nclip) (t := range (nbatches e.len e.Q.nclip))
      (g := fun s => s / (2 * e.len))]
    intro s hs
    rw [mem_range] at hs ⊢
    rw [lt_nbatches hl]
    exact (Nat.div_mul_le_self _ _).trans_lt hs
  rw [run_eq e hl]
  simp only [Prod.fst_sum, Prod.snd_sum, ← sum_add_distrib, hrow, hq]

end

/-- C94, partial: the stores of the counters need four more elements than the integrals, and then write
nothing else. -/
theorem C94_store_partial (size ncart nbra nket : ℕ) (c : Counts) (mem : ℕ → ℕ) :
    (size < ncart * nbra * nket + 4 → storeStat size ncart nbra nket c mem = none) ∧
    (ncart * nbra * nket + 4 ≤ size → ∃ mem', storeStat size ncart nbra nket c mem = some mem' ∧
      mem' (ncart * nbra * nket) = c.1 ∧ mem' (ncart * nbra * nket + 1) = c.2.1 ∧
      mem' (ncart * nbra * nket + 2) = c.2.2.1 ∧ mem' (ncart * nbra * nket + 3) = c.2.2.2 ∧
      ∀ k, (k < ncart * nbra * nket ∨ ncart * nbra * nket + 4 ≤ k) → mem' k = mem k) := by
  generalize hn : ncart * nbra * nket = n
  constructor
  · intro h
    unfold storeStat put
    simp only [hn]
    by_cases h0 : n < size
    · by_cases h1 : n + 1 < size
      · by_cases h2 : n + 2 < size
        · simp [h0, h1, h2, show ¬(n + 3 < size) by omega]
        · simp [h0, h1, h2]
      · simp [h0, h1]
    · simp [h0]
  · intro h
    have e : storeStat size ncart nbra nket c mem = some (Function.update (Function.update (Function.update
        (Function.update mem n c.1) (n + 1) c.2.1) (n + 2) c.2.2.1) (n + 3) c.2.2.2) := by
      unfold storeStat put
      simp only [hn]
      rw [if_pos (by omega), Option.bind_some, if_pos (by omega), Option.bind_some, if_pos (by omega),
        Option.bind_some, if_pos (by omega)]
    refine ⟨_, e, ?_, ?_, ?_, ?_, fun k hk => ?_⟩
    all_goals simp only [Function.update_apply]
    · rw [if_neg (by omega), if_neg (by omega), if_neg (by omega), if_pos trivial]
    · rw [if_neg (by omega), if_neg (by omega), if_pos trivial]
    · rw [if_neg (by omega), if_pos trivial]
    · rw [if_pos trivial]
    · rw [if_neg (by omega), if_neg (by omega), if_neg (by omega), if_neg (by omega)]

/-- C94 is false: a caller that provides room for exactly the integrals gets a store
past the end, whatever the numbers of shells. -/
theorem C94_store_false (ncart nbra nket : ℕ) (c : Counts) (mem : ℕ → ℕ) :
    storeStat (ncart * nbra * nket) ncart nbra nket c mem = none :=
  (C94_store_partial _ ncart nbra nket c mem).1 (by omega)

/-! ## Concrete cases -/

/-- One bra pair with two primitives, three ket pairs with one primitive each, vectors of four lanes; the
screening values are 5 and 0 in the bra, 3, 1 and 2 in the ket. -/
def demo (tol : ℤ) : DEnv ℤ where
  len := 4
  tops := []
  P := { nclip := 1, nprim12 := fun _ => 2, alloc := 4, prefac := fun _ => 0,
         screen := fun i => if i = 0 then 5 else 0, screenMax := 5, alpha := fun _ => 1,
         pos := fun _ _ => 0, PA := fun _ _ => 0, PB := fun _ _ => 0, AB := fun _ _ => 0 }
  Q := { nclip := 3, nprim12 := fun _ => 1, alloc := 4, prefac := fun _ => 0,
         screen := fun j => if j = 0 then 3 else if j = 1 then 1 else if j = 2 then 2 else 0, screenMax := 3,
         alpha := fun _ => 1, pos := fun _ _ => 0, PA := fun _ _ => 0, PB := fun _ _ => 0, AB := fun _ _ => 0 }
  tol := tol
  size := fun _ => 0
  vec := fun _ _ _ => none

/-- Six pairs of primitives, two of them significant; five counted as skipped. -/
theorem demo_stat : runStat (demo 8) = (2, 5, 1, 1) ∧ primCount (demo 8).P * primCount (demo 8).Q = 6 := by
  decide +kernel

/-- C94 is false: the numbers of primitives do not add up to the number of pairs. -/
theorem C94_total_false : ¬∀ e : DEnv ℤ, 0 < e.len →
    (runStat e).1 + (runStat e).2.1 = primCount e.P * primCount e.Q := by
  intro h
  have := h (demo 8) (by decide)
  rw [demo_stat.1, demo_stat.2] at this
  exact absurd this (by decide)

/-- C94 is false: without screening more primitives are counted as computed than there are. -/
theorem C94_calc_false : ¬∀ e : DEnv ℤ, 0 < e.len → (runStat e).1 ≤ primCount e.P * primCount e.Q := by
  intro h
  exact absurd (h (demo 0) (by decide)) (by decide +kernel)

/-- The hypotheses of `C94_calc` hold in the example. -/
example : (runStat (demo 8)).1 = significant (demo 8) :=
  C94_calc (demo 8) (by decide) (show (8 : ℤ) > 0 by decide) fun i j => by
    simp only [demo]
    split <;> split <;> (try split) <;> (try split) <;> norm_num

example : (runStat (demo 8)).2.2.1 + (runStat (demo 8)).2.2.2 = 2 := by
  rw [C94_vectors (demo 8) (by decide)]
  decide +kernel

end Simint.Stat
