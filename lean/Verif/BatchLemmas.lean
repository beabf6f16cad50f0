import Verif.Spec.Batches
import Verif.Props.Driver

/-!
# Lists of bra pairs with full batches are read from where they are stored
-/

set_option autoImplicit false

open Finset

namespace Simint

theorem storedCount_eq (p : Shell ℝ × Shell ℝ) : storedCount p = pairPrims p.1 p.2 := by
  unfold storedCount pairPrims sameShell
  simp only [Bool.and_eq_true, decide_eq_true_eq]

theorem sum_take_map {α : Type} (f : α → ℕ) (ps : List α) (d : α) (n : ℕ) (hn : n ≤ ps.length) :
    ((ps.take n).map f).sum = ∑ k ∈ range n, f (ps.getD k d) := by
  induction n with
  | zero => simp
  | succ n ih =>
    rw [sum_range_succ, ← ih (by omega), List.take_add_one, List.getElem?_eq_getElem (by omega),
      List.getD_eq_getElem _ _ (by omega), List.map_append, List.sum_append]
    simp only [Option.toList, List.map_cons, List.map_nil, List.sum_cons, List.sum_nil, Nat.add_zero]

/-- Full batches, in terms of the counts of a list. -/
theorem full_sums {len : ℕ} {ps : List (Shell ℝ × Shell ℝ)} (h : BatchesFull len ps)
    {np : ℕ → ℕ} (hn : ∀ s (hs : s < ps.length), np s = storedCount ps[s]) :
    ∀ b, (b + 1) * nshellSimd len < ps.length → len ∣ ∑ k ∈ range ((b + 1) * nshellSimd len), np k := by
  intro b hb
  change (b + 1) * (2 * len) < ps.length at hb
  have := h b hb
  rw [sum_take_map _ _ (ps[0]) _ (le_of_lt hb)] at this
  refine (Eq.subst (motive := fun n => len ∣ n) ?_ this)
  refine sum_congr rfl fun k hk => ?_
  have hk' : k < ps.length := lt_trans (mem_range.1 hk) hb
  rw [hn k hk', List.getD_eq_getElem _ _ hk']

/-- In a list with full batches each pair is stored where a function looks for it. -/
theorem starts_of_full {len : ℕ} (hl : 0 < len) {ps : List (Shell ℝ × Shell ℝ)} (h : BatchesFull len ps)
    {np : ℕ → ℕ} (hn : ∀ s (hs : s < ps.length), np s = storedCount ps[s]) :
    ∀ s < ps.length, tightStart np s = paddedStart len np s :=
  (C25_bra_layout hl np _).2 (full_sums h hn)

/-- Full batches depend on the numbers of stored combinations only. -/
theorem batchesFull_congr {len : ℕ} {ps qs : List (Shell ℝ × Shell ℝ)} (e : ps.map storedCount = qs.map storedCount)
    (h : BatchesFull len ps) : BatchesFull len qs := by
  have el : ps.length = qs.length := by simpa using congrArg List.length e
  intro b hb
  have := h b (el ▸ hb)
  rwa [List.map_take, e, ← List.map_take] at this

/-- Scalar builds: every list has full batches. -/
theorem batchesFull_scalar (ps : List (Shell ℝ × Shell ℝ)) : BatchesFull 1 ps := fun _ _ => one_dvd _

/-- One batch: nothing to check. -/
theorem batchesFull_one {len : ℕ} {ps : List (Shell ℝ × Shell ℝ)} (h : ps.length ≤ 2 * len) :
    BatchesFull len ps := by
  intro b hb
  rw [Nat.succ_mul] at hb
  omega

/-- Non-trivial cases: nine pairs with two combinations each make full batches for vectors of four lanes;
a pair with two combinations followed by eight with one does not. -/
example (A B : Shell ℝ) (hA : A.nprim = 2) (hB : B.nprim = 1) : BatchesFull 4 (List.replicate 9 (A, B)) := by
  have e : storedCount (A, B) = 2 := by simp [storedCount, hA, hB]
  intro b hb
  rw [List.length_replicate] at hb
  obtain rfl : b = 0 := by omega
  rw [List.take_replicate, List.map_replicate, e, List.sum_replicate]
  decide

example (A B C : Shell ℝ) (hA : A.nprim = 2) (hB : B.nprim = 1) (hC : C.nprim = 1) (hp : C.ptr ≠ B.ptr) :
    ¬ BatchesFull 4 ((A, B) :: List.replicate 8 (C, B)) := by
  have e : storedCount (A, B) = 2 := by simp [storedCount, hA, hB]
  have e' : storedCount (C, B) = 1 := by simp [storedCount, hB, hC, hp]
  intro h
  have := h 0 (by simp)
  rw [show (0 + 1) * (2 * 4) = 7 + 1 from rfl, List.take_succ_cons, List.take_replicate, List.map_cons,
    List.map_replicate, e, e', List.sum_cons, List.sum_replicate] at this
  revert this
  decide

end Simint
