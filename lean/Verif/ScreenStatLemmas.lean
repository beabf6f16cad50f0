import Verif.ScreenStat
import Verif.Spec.ScreenStat
import Verif.DriverSumLemmas
import Verif.ShellLemmas
import Verif.DriverLoopLemmas
import Mathlib.Algebra.Order.BigOperators.Group.Finset

/-!
# Lemmas on the statistics of primitive screening
-/

set_option autoImplicit false

open Finset

namespace Simint.Stat

section
variable {F : Type} [AddCommMonoid F] [Mul F] [LinearOrder F]

/-- A loop that adds. -/
theorem foldl_add {α : Type} (l : List α) (f : Counts → α → Counts) (g : α → Counts)
    (h : ∀ c x, f c x = c + g x) (c : Counts) : l.foldl f c = c + (l.map g).sum := by
  induction l generalizing c with
  | nil => simp
  | cons x l ih => rw [List.foldl_cons, ih, h, List.map_cons, List.sum_cons, add_assoc]

theorem sum_list_range {α : Type} [AddCommMonoid α] (n : ℕ) (g : ℕ → α) :
    ((List.range n).map g).sum = ∑ k ∈ range n, g k := by
  induction n with
  | zero => rfl
  | succ n ih => rw [List.range_succ, List.map_append, List.sum_append, ih, sum_range_succ]; simp

theorem sum_list_range' {α : Type} [AddCommMonoid α] (s n : ℕ) (g : ℕ → α) :
    ((List.range' s n).map g).sum = ∑ k ∈ range n, g (s + k) := by
  rw [List.range'_eq_map_range, List.map_map, sum_list_range]
  rfl

theorem survivors_eq (len : ℕ) (v : ℕ → F) (tol : F) :
    survivors len v tol = ∑ n ∈ range len, if tol ≤ v n then 1 else 0 := by
  have : ∀ m, (List.range len).foldl (fun res n => if v n ≥ tol then res + 1 else res) m =
      m + ∑ n ∈ range len, if tol ≤ v n then 1 else 0 := by
    induction len with
    | zero => intro m; simp
    | succ n ih =>
      intro m
      rw [List.range_succ, List.foldl_append, ih, sum_range_succ]
      simp only [List.foldl_cons, List.foldl_nil, ge_iff_le]
      split <;> omega
  rw [survivors, this 0, zero_add]

theorem survivors_le (len : ℕ) (v : ℕ → F) (tol : F) : survivors len v tol ≤ len := by
  rw [survivors_eq]
  calc _ ≤ ∑ n ∈ range len, 1 := sum_le_sum fun n _ => by split <;> omega
    _ = len := by simp

theorem vecStat_add (e : DEnv F) (i : ℕ) (c : Counts) (j : ℕ) : vecStat e i c j = c + vecStat e i 0 j := by
  unfold vecStat
  split <;> simp [Prod.ext_iff]

theorem braStat_add (e : DEnv F) (js je : ℕ) (c : Counts) (i : ℕ) :
    braStat e js je c i = c + braStat e js je 0 i := by
  unfold braStat
  split
  · simp [Prod.ext_iff]
  · rw [foldl_add _ _ _ (fun c v => vecStat_add e i c (js + v * e.len)) c,
      foldl_add _ _ _ (fun c v => vecStat_add e i c (js + v * e.len)) 0, zero_add]

/-- Where batch `b` starts. -/
def jpos (len : ℕ) (m : MSP F) (b : ℕ) : ℕ :=
  ∑ k ∈ range b, (batchPrims len m k + len - 1) / len * len

theorem jpos_dvd (len : ℕ) (m : MSP F) (b : ℕ) : len ∣ jpos len m b :=
  dvd_sum fun _ _ => Dvd.intro_left _ rfl

theorem batchPrims_eq {len : ℕ} (hl : 0 < len) (m : MSP F) {b : ℕ} (hb : b * (2 * len) < m.nclip) :
    batchPrims len m b =
      ∑ k ∈ range (nshellBatch len m.nclip (b * nshellSimd len)), m.nprim12 (b * nshellSimd len + k) := by
  unfold batchPrims nshellBatch nshellSimd
  have hL : 0 < 2 * len := by omega
  generalize 2 * len = L at *
  rw [← sum_image (s := range _) (g := fun k => b * L + k) (f := m.nprim12) (fun x _ y _ h => by simpa using h)]
  refine sum_congr ?_ fun _ _ => rfl
  ext s
  simp only [mem_filter, mem_range, mem_image]
  constructor
  · rintro ⟨h1, h2⟩
    have := Nat.div_add_mod s L
    rw [h2, Nat.mul_comm] at this
    have h3 := Nat.mod_lt s hL
    refine ⟨s % L, ?_, this⟩
    split <;> omega
  · rintro ⟨k, h1, rfl⟩
    have hk : k < L ∧ b * L + k < m.nclip := by
      revert h1
      split <;> intro h1 <;> constructor <;> omega
    refine ⟨hk.2, ?_⟩
    rw [Nat.mul_comm, Nat.mul_add_div hL, Nat.div_eq_of_lt hk.1, Nat.add_zero]

theorem batchEnd_prims {len : ℕ} (hl : 0 < len) (m : MSP F) {b : ℕ} (hb : b * (2 * len) < m.nclip) (js : ℕ) :
    batchEnd m.nprim12 (b * nshellSimd len) (nshellBatch len m.nclip (b * nshellSimd len)) js =
      js + batchPrims len m b := by
  rw [batchPrims_eq hl m hb]
  unfold batchEnd
  generalize nshellBatch len m.nclip (b * nshellSimd len) = n
  induction n with
  | zero => simp
  | succ n ih => rw [List.range_succ, List.foldl_append, ih, sum_range_succ]; simp; ring

/-- What row `i` adds. -/
def row (e : DEnv F) (i : ℕ) : Counts :=
  ∑ b ∈ range (nbatches e.len e.Q.nclip),
    braStat e (jpos e.len e.Q b) (jpos e.len e.Q b + batchPrims e.len e.Q b) 0 i

theorem batches_eq (e : DEnv F) (hl : 0 < e.len) (istart n : ℕ) (c : Counts) :
    ∀ k ≤ nbatches e.len e.Q.nclip,
      (List.range k).foldl (batchStat e istart (istart + n)) (0, c) =
        (jpos e.len e.Q k, c + ∑ a ∈ range n, ∑ b ∈ range k,
          braStat e (jpos e.len e.Q b) (jpos e.len e.Q b + batchPrims e.len e.Q b) 0 (istart + a)) := by
  intro k
  induction k with
  | zero => intro _; simp [jpos]
  | succ k ih =>
    intro hk
    rw [List.range_succ, List.foldl_append, ih (by omega), List.foldl_cons, List.foldl_nil, batchStat]
    have hb : k * (2 * e.len) < e.Q.nclip := (lt_nbatches (b := k) hl).1 (by omega)
    simp only [batchEnd_prims hl e.Q hb]
    rw [foldl_add _ _ _ (fun c i => braStat_add e _ _ c i), sum_list_range', Nat.add_sub_cancel_left]
    refine Prod.ext ?_ ?_
    · simp only
      rw [simdRound_add hl (jpos_dvd _ _ _), jpos, jpos, sum_range_succ, simdRound]
      congr 2
      rw [Nat.add_sub_assoc hl]
    · simp only [sum_range_succ, sum_add_distrib]
      rw [add_assoc]

theorem run_eq (e : DEnv F) (hl : 0 < e.len) : runStat e = ∑ i ∈ range (primCount e.P), row e i := by
  have key : ∀ k, (List.range k).foldl (shellStat e) (0, (0, 0, 0, 0)) =
      (∑ s ∈ range k, e.P.nprim12 s, ∑ i ∈ range (∑ s ∈ range k, e.P.nprim12 s), row e i) := by
    intro k
    induction k with
    | zero => rfl
    | succ k ih =>
      rw [List.range_succ, List.foldl_append, ih, List.foldl_cons, List.foldl_nil, shellStat]
      simp only
      rw [batches_eq e hl _ _ _ _ le_rfl, sum_range_succ (fun s => e.P.nprim12 s) k, sum_range_add]
      rfl
  unfold runStat
  rw [key]
  rfl

end

end Simint.Stat
