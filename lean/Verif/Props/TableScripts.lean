import Verif.TableScriptsLemmas
import Verif.BoysLemmas

/-!
# The scripts that write the tables of constants (C97)
-/

set_option autoImplicit false

open Real MeasureTheory Set

namespace Simint.TableScripts

/-! ## Number of grid points -/

/-- C97: without rounding the loop ends and gives the multiples of the spacing below the largest argument.
The number of rows written is the number of rows declared exactly if the largest argument is not a multiple of
the spacing. -/
theorem C97_rows {s m : ℚ} (hs : 0 < s) (hm : 0 < m) :
    (∀ fuel, ⌈m / s⌉₊ < fuel → shortGrid id s m fuel =
      some ((List.range ⌈m / s⌉₊).map fun k : ℕ => (k : ℚ) * s, ⌊m / s⌋₊ + 1)) ∧
    (⌈m / s⌉₊ = ⌊m / s⌋₊ + 1 ↔ ∀ k : ℕ, m ≠ k * s) := by
  have q0 : 0 < m / s := by positivity
  constructor
  · intro fuel hf
    have h := gridLoop_eq (rnd := id) (inc := s) (maxx := m) (x := 0) hf
      (fun k hk => by rw [gridPoint_id, ← lt_div_iff₀ hs]; exact Nat.lt_ceil.1 hk)
      (by rw [gridPoint_id, ← div_le_iff₀ hs]; exact Nat.le_ceil _)
    have e : (⌊m / s⌋ + 1).toNat = ⌊m / s⌋₊ + 1 := by
      rw [← Int.natCast_floor_eq_floor q0.le]
      omega
    have e2 : gridPoint id s 0 = fun k : ℕ => (k : ℚ) * s := funext (gridPoint_id s)
    simp only [shortGrid, id]
    rw [h, Option.map_some, e, e2]
  · constructor
    · rintro e k rfl
      rw [mul_div_cancel_right₀ _ hs.ne', Nat.ceil_natCast, Nat.floor_natCast] at e
      omega
    · intro h
      refine le_antisymm (Nat.ceil_le_floor_add_one _) ?_
      rw [Nat.add_one_le_iff, Nat.lt_ceil]
      refine lt_of_le_of_ne (Nat.floor_le q0.le) fun e => h ⌊m / s⌋₊ ?_
      rw [e]
      field_simp

/-- Each grid point is a multiple of 1/10 up to `2^-840`. -/
def gridClose (l : List ℚ) : Bool :=
  (List.range l.length).all fun k => decide (|l.getD k 0 - k / 10| * 2 ^ 840 ≤ 1)

/-- C97: with the options that are recorded in boys_shortgrid.c (maximum 36.5, spacing 0.1, 256 digits) the script
writes 366 rows, as many as it declares, for the arguments 0, 0.1, …, 36.5.  The last row is there only because
the sum of 365 rounded tenths is below 36.5. -/
theorem C97_committed_partial : dpsToPrec 256 = 854 ∧ ∃ pts, shortGrid (mpRound 854) (1 / 10) (73 / 2) 400 = some (pts, 366) ∧
    pts.length = 366 ∧ ∀ k < 366, |pts.getD k 0 - k / 10| ≤ 1 / 2 ^ 840 := by
  refine ⟨by decide +kernel, ?_⟩
  have h : (match shortGrid (mpRound 854) (1 / 10) (73 / 2) 400 with
      | some (pts, n) => n == 366 && pts.length == 366 && gridClose pts
      | none => false) = true := by decide +kernel
  rcases e : shortGrid (mpRound 854) (1 / 10) (73 / 2) 400 with _ | ⟨pts, n⟩
  · rw [e] at h; simp at h
  · rw [e] at h
    simp only [Bool.and_eq_true, beq_iff_eq] at h
    obtain ⟨⟨rfl, hl⟩, hc⟩ := h
    refine ⟨pts, rfl, hl, fun k hk => ?_⟩
    rw [gridClose, List.all_eq_true] at hc
    have := of_decide_eq_true (hc k (by rw [hl]; exact List.mem_range.2 hk))
    rw [le_div_iff₀ (by positivity)]
    exact this

/-- The property is false: the same grid with 15 digits, and a grid whose points are exact: one row less is
written than declared. -/
theorem C97_rows_false : dpsToPrec 15 = 53 ∧
    (shortGrid (mpRound 53) (1 / 10) (73 / 2) 400).map (fun r => (r.1.length, r.2)) = some (365, 366) ∧
    shortGrid (mpRound 854) (1 / 2) 1 4 = some ([0, 1 / 2], 3) := by
  refine ⟨by decide +kernel, by decide +kernel, by decide +kernel⟩

/-- The row that is missing then (C fills it with zeros) is the one that is looked up between 36.45 and 36.5: the
Taylor series gives zero. -/
theorem C97_lastRow (T : ℕ → ℕ → ℝ) (hT : ∀ j, T 365 j = 0) {x : ℝ} (h1 : 36.45 ≤ x) (h2 : x < 36.5) (m : ℕ) :
    lookupIdx realBoys x = 365 ∧
    ∑ k ∈ Finset.range 8, ((gridIdx x / 10 : ℝ) - x) ^ k / k.factorial * T (gridIdx x) (m + k) = 0 ∧
    0 < boysF m x := by
  have h0 : 0 ≤ x := by norm_num at h1; linarith
  have e : gridIdx x = 365 := by
    unfold gridIdx
    rw [Nat.floor_eq_iff (by positivity)]
    norm_num at h1 h2 ⊢
    constructor <;> linarith
  refine ⟨by rw [lookupIdx_eq h0, e]; rfl, ?_, boysF_pos m h0⟩
  rw [e]
  exact Finset.sum_eq_zero fun k _ => by rw [hT, mul_zero]

/-! ## Values -/

/-- C97: `BoysValue` computes the Boys function, at zero too. -/
theorem C97_value (n : ℕ) {x : ℝ} (hx : 0 ≤ x) : boysValue n x = (List.range (n + 1)).map fun i => boysF i x := by
  unfold boysValue
  refine List.map_congr_left fun i _ => ?_
  rcases hx.eq_or_lt with rfl | h
  · rw [if_pos rfl, boysF_zero]
  · rw [if_neg h.ne']
    exact value_eq i h

/-- C97: `BoysValue_Asymptotic` is too large by the integral from 1 to infinity. -/
theorem C97_asym (n : ℕ) {x : ℝ} (hx : 0 < x) : boysAsym n x = (List.range (n + 1)).map fun i =>
    boysF i x + ∫ t in Ioi (1 : ℝ), t ^ (2 * i) * exp (-x * t ^ 2) := by
  unfold boysAsym
  refine List.map_congr_left fun i _ => ?_
  rw [if_neg hx.ne']
  exact (asym_eq i hx).trans (boysInf_split i hx)

/-- C97: `longfac` holds the factors of the long-range formula, for any `--max-n`. -/
theorem C97_longfac (maxn : ℕ) : ∃ a, longfac maxn = some a ∧ a.length = maxn + 1 ∧
    ∀ n ≤ maxn, pyGet a n = some ((2 * n - 1 : ℕ).doubleFactorial * √π / 2 ^ (n + 1)) := by
  have h := fill_loop (val := fun n => (2 * n - 1 : ℕ).doubleFactorial * √π / 2 ^ (n + 1))
    (step := fun n v => v * (1 / 2) * (2 * n - 1)) (lo := 1) one_pos (fun n hn => ?_) maxn
    (a := (List.replicate (maxn + 1) none).set 0 (some (√π / 2))) (by simp; omega) (fun i hi => ?_)
  · obtain ⟨b, e, hb, hv⟩ := h
    refine ⟨b, ?_, by simpa using hb, fun n hn => hv n (by omega)⟩
    rw [longfac, pySet, if_pos (by simp)]
    exact e
  · obtain ⟨k, rfl⟩ : ∃ k, n = k + 1 := ⟨n - 1, by omega⟩
    have e : ((2 * (k + 1) - 1 : ℕ).doubleFactorial : ℝ) = (2 * k + 1) * (2 * k - 1 : ℕ).doubleFactorial := by
      rcases k with _ | k
      · simp
      · rw [show 2 * (k + 1 + 1) - 1 = (2 * k + 1) + 2 by omega, Nat.doubleFactorial_add_two,
          show 2 * (k + 1) - 1 = 2 * k + 1 by omega]
        push_cast; ring
    rw [e, Nat.add_sub_cancel, pow_succ]
    push_cast
    ring
  · obtain rfl : i = 0 := by omega
    rw [pyGet_set _ _ (by simp), if_pos rfl]
    simp

/-- C97: `normfac` holds the factors of normalisation for any `--max-am` from 1 on; with `--max-am 0` the script
stops with an exception. -/
theorem C97_normfac (maxam : ℕ) : (maxam = 0 → normfac maxam = none) ∧
    (1 ≤ maxam → ∃ a, normfac maxam = some a ∧ a.length = maxam + 1 ∧
      ∀ l ≤ maxam, pyGet a l = some (π ^ (3 / 2 : ℝ) * (2 * l - 1 : ℕ).doubleFactorial / 2 ^ l)) := by
  constructor
  · rintro rfl
    simp [normfac, pySet, pyGet]
  · intro h1
    set a0 : List (Option ℝ) := (List.replicate (maxam + 1) none).set 0 (some (π ^ (3 / 2 : ℝ))) with ha0
    have l0 : a0.length = maxam + 1 := by simp [ha0]
    have g0 : pyGet a0 0 = some (π ^ (3 / 2 : ℝ)) := by
      rw [ha0, pyGet_set _ _ (by simp), if_pos rfl]
    have h := fill_loop (val := fun l => π ^ (3 / 2 : ℝ) * (2 * l - 1 : ℕ).doubleFactorial / 2 ^ l)
      (step := fun l v => v * ((2 * l - 1 : ℕ) : ℝ) / 2) (lo := 2) two_pos (fun n hn => ?_) (maxam + 1 - 2)
      (a := a0.set 1 (some (π ^ (3 / 2 : ℝ) / 2))) (by simp [l0]; omega) (fun i hi => ?_)
    · obtain ⟨b, e, hb, hv⟩ := h
      refine ⟨b, ?_, by rw [hb]; simp [l0], fun n hn => hv n (by omega)⟩
      rw [normfac, pySet, if_pos (by simp), ← ha0]
      simp only [Option.bind_eq_bind, Option.bind_some, g0]
      rw [pySet, if_pos (by omega)]
      exact e
    · obtain ⟨k, rfl⟩ : ∃ k, n = k + 2 := ⟨n - 2, by omega⟩
      have e : ((2 * (k + 2) - 1 : ℕ).doubleFactorial : ℝ) =
          ((2 * (k + 2) - 1 : ℕ) : ℝ) * (2 * (k + 1) - 1 : ℕ).doubleFactorial := by
        rw [show 2 * (k + 2) - 1 = (2 * k + 1) + 2 by omega, Nat.doubleFactorial_add_two,
            show 2 * (k + 1) - 1 = 2 * k + 1 by omega]
        push_cast; ring
      rw [e, show k + 2 - 1 = k + 1 by omega, pow_succ]
      ring
    · rw [pyGet_set _ _ (by omega)]
      rcases (show i = 0 ∨ i = 1 by omega) with rfl | rfl
      · rw [if_neg (by omega), g0]
        simp
      · rw [if_pos rfl]
        simp

/-! ## Cutoffs -/

/-- What is known after `k` iterations. -/
structure CutInv (n : ℕ) (inc eps : ℝ) (k : ℕ) (s : CutState) : Prop where
  x : s.x = k * inc
  len : s.cutoffs.length = n + 1
  found : ∀ i ≤ n, ∀ y, s.cutoffs[i]? = some (some y) → ∃ j : ℕ, 0 < j ∧ y = j * inc ∧ boysTail i y < eps ∧
    ∀ j' : ℕ, 0 < j' → j' < j → eps ≤ boysTail i (j' * inc)
  none : ∀ i ≤ n, s.cutoffs[i]? = some none → ∀ j : ℕ, 0 < j → j ≤ k → eps ≤ boysTail i (j * inc)
  max : 0 < k → s.maxdiff = boysTail n (k * inc)

theorem diff_eq (n : ℕ) {x : ℝ} (hx : 0 < x) : List.zipWith (fun a b => |a - b|) (boysValue n x) (boysAsym n x) =
    (List.range (n + 1)).map fun i => boysTail i x := by
  rw [C97_value n hx.le, C97_asym n hx, List.zipWith_map, List.zipWith_self]
  refine List.map_congr_left fun i _ => ?_
  rw [abs_sub_comm, add_sub_cancel_left]
  exact abs_of_nonneg (boysTail_nonneg i x)

theorem max_eq (n : ℕ) {x : ℝ} (hx : 0 < x) : ((List.range (n + 1)).map fun i => boysTail i x).foldl max 0 =
    boysTail n x := by
  induction n with
  | zero => simp [boysTail_nonneg]
  | succ n ih =>
    rw [List.range_succ, List.map_append, List.foldl_append, ih]
    simp [boysTail_mono n hx]

theorem cutStep_inv {n : ℕ} {inc eps : ℝ} (hi : 0 < inc) {k : ℕ} {s : CutState} (h : CutInv n inc eps k s) :
    CutInv n inc eps (k + 1) (cutStep n inc eps s) := by
  have ex : s.x + inc = ((k + 1 : ℕ) : ℝ) * inc := by rw [h.x]; push_cast; ring
  have x0 : 0 < ((k + 1 : ℕ) : ℝ) * inc := by positivity
  have el : ∀ i ≤ n, (cutStep n inc eps s).cutoffs[i]? = some (match s.cutoffs[i]? with
      | some (some y) => some y
      | _ => if boysTail i (((k + 1 : ℕ) : ℝ) * inc) < eps then some (((k + 1 : ℕ) : ℝ) * inc) else none) := by
    intro i hin
    have hl : i < s.cutoffs.length := by rw [h.len]; omega
    simp only [cutStep, ex, diff_eq n x0]
    rw [List.getElem?_zipWith, List.getElem?_eq_getElem hl, List.getElem?_map,
      List.getElem?_range (by omega)]
    simp only [Option.map_some]
    rcases s.cutoffs[i] with _ | y <;> rfl
  refine ⟨ex, ?_, fun i hin y hy => ?_, fun i hin hy j hj hjk => ?_, fun _ => ?_⟩
  · simp only [cutStep, ex, diff_eq n x0]
    simp [h.len]
  · rw [el i hin] at hy
    have hl : i < s.cutoffs.length := by rw [h.len]; omega
    rcases e : s.cutoffs[i]? with _ | _ | z
    · rw [List.getElem?_eq_getElem hl] at e; simp at e
    · rw [e] at hy
      simp only [Option.some.injEq] at hy
      split_ifs at hy with hlt
      obtain rfl := Option.some.inj hy
      exact ⟨k + 1, by omega, rfl, hlt, fun j' h1 h2 => h.none i hin e j' h1 (by omega)⟩
    · rw [e] at hy
      simp only [Option.some.injEq] at hy
      subst hy
      exact h.found i hin z e
  · rw [el i hin] at hy
    have hl : i < s.cutoffs.length := by rw [h.len]; omega
    rcases e : s.cutoffs[i]? with _ | _ | z
    · rw [List.getElem?_eq_getElem hl] at e; simp at e
    · rw [e] at hy
      simp only [Option.some.injEq] at hy
      split_ifs at hy with hlt
      rcases Nat.lt_or_ge k j with hk | hk
      · obtain rfl : j = k + 1 := by omega
        exact not_lt.1 hlt
      · exact h.none i hin e j hj hk
    · rw [e] at hy
      simp at hy
  · simp only [cutStep, ex, diff_eq n x0]
    exact max_eq n x0

theorem cutLoop_inv {n : ℕ} {inc eps : ℝ} (hi : 0 < inc) (fuel : ℕ) : ∀ {k : ℕ} {s t : CutState},
    CutInv n inc eps k s → cutLoop n inc eps fuel s = some t → ∃ k', k ≤ k' ∧ CutInv n inc eps k' t ∧
      t.maxdiff ≤ eps := by
  induction fuel with
  | zero => intro k s t _ e; simp [cutLoop] at e
  | succ fuel ih =>
    intro k s t h e
    rw [cutLoop] at e
    split_ifs at e with hc
    · obtain ⟨k', h1, h2⟩ := ih (cutStep_inv hi h) e
      exact ⟨k', by omega, h2⟩
    · obtain rfl := Option.some.inj e
      exact ⟨k, le_rfl, h, not_lt.1 hc⟩

/-- The loop ends if the error falls below `eps` after `m` more iterations. -/
theorem cutLoop_ends {n : ℕ} {inc eps : ℝ} (hi : 0 < inc) (m : ℕ) : ∀ {k : ℕ} {s : CutState},
    CutInv n inc eps k s → 0 < k + m → boysTail n ((k + m : ℕ) * inc) ≤ eps →
    (cutLoop n inc eps (m + 1) s).isSome := by
  induction m with
  | zero =>
    intro k s h hk hm
    rw [cutLoop, if_neg]
    · rfl
    · rw [h.max (by omega)]
      exact not_lt.2 hm
  | succ m ih =>
    intro k s h hk hm
    rw [cutLoop]
    split_ifs
    · exact ih (cutStep_inv hi h) (by omega) (by rw [show k + 1 + m = k + (m + 1) by omega]; exact hm)
    · rfl

/-- C97: `cutoff_finder` ends.  The cutoff found for order `i` is a multiple of the spacing; from there on the
asymptotic formula is off by less than `eps`, at all smaller multiples by at least `eps`.  No cutoff for order `i`
means that the error never was below `eps` (and is exactly `eps` at the end). -/
theorem C97_cutoffs (n : ℕ) {inc eps : ℝ} (hi : 0 < inc) (he : 0 < eps) :
    (∃ fuel cs, cutoffs n inc eps fuel = some cs) ∧
    ∀ fuel cs, cutoffs n inc eps fuel = some cs → cs.length = n + 1 ∧ ∀ i ≤ n,
      (∀ y, cs[i]? = some (some y) → ∃ j : ℕ, 0 < j ∧ y = j * inc ∧
        (∀ x, y ≤ x → |boysF i x - √(π / x ^ (2 * i + 1)) * ((2 * i - 1 : ℕ).doubleFactorial / 2 ^ (i + 1))| < eps) ∧
        ∀ j' : ℕ, 0 < j' → j' < j →
          eps ≤ |boysF i (j' * inc) - √(π / (j' * inc) ^ (2 * i + 1)) *
            ((2 * i - 1 : ℕ).doubleFactorial / 2 ^ (i + 1))|) ∧
      (cs[i]? = some none → ∃ j : ℕ, 0 < j ∧ |boysF i (j * inc) - √(π / (j * inc) ^ (2 * i + 1)) *
            ((2 * i - 1 : ℕ).doubleFactorial / 2 ^ (i + 1))| = eps) := by
  have start : CutInv n inc eps 0 ⟨0, eps * 2, List.replicate (n + 1) none⟩ := by
    refine ⟨by simp, by simp, fun i hin y hy => ?_, fun i hin hy j hj hj0 => by omega, fun h => by omega⟩
    simp [List.getElem?_replicate] at hy
  have err : ∀ (i : ℕ) {x : ℝ}, 0 < x → |boysF i x - √(π / x ^ (2 * i + 1)) *
      ((2 * i - 1 : ℕ).doubleFactorial / 2 ^ (i + 1))| = boysTail i x := by
    intro i x hx
    rw [asym_eq i hx, boysInf_split i hx, abs_sub_comm, add_sub_cancel_left]
    exact abs_of_nonneg (boysTail_nonneg i x)
  constructor
  · obtain ⟨m, hm, ht⟩ := boysTail_small n hi he
    have h := cutLoop_ends hi m start (by omega) (by simpa using ht)
    obtain ⟨t, e⟩ := Option.isSome_iff_exists.1 h
    exact ⟨m + 1, t.cutoffs, by rw [cutoffs, e]; rfl⟩
  · intro fuel cs e
    unfold cutoffs at e
    rw [Option.map_eq_some_iff] at e
    obtain ⟨t, et, rfl⟩ := e
    obtain ⟨k, -, h, hmax⟩ := cutLoop_inv hi fuel start et
    refine ⟨h.len, fun i hin => ⟨fun y hy => ?_, fun hy => ?_⟩⟩
    · obtain ⟨j, j0, ey, hlt, hprev⟩ := h.found i hin y hy
      have y0 : 0 < y := by rw [ey]; positivity
      refine ⟨j, j0, ey, fun x hx => ?_, fun j' h1 h2 => ?_⟩
      · rw [err i (y0.trans_le hx)]
        exact (boysTail_anti i y0 hx).trans_lt hlt
      · rw [err i (by positivity)]
        exact hprev j' h1 h2
    · rcases Nat.eq_zero_or_pos k with rfl | hk
      · exfalso
        have := et
        rcases fuel with _ | fuel
        · simp [cutLoop] at this
        · rw [cutLoop, if_pos (by simp only; linarith)] at this
          obtain ⟨k', hk', h', -⟩ := cutLoop_inv hi fuel (cutStep_inv hi start) this
          have e0 := h'.x
          rw [h.x] at e0
          have : 0 < (k' : ℝ) * inc := by
            have : (0 : ℝ) < k' := by exact_mod_cast (show 0 < k' by omega)
            positivity
          simp at e0
          rcases e0 with e0 | e0
          · omega
          · linarith
      · refine ⟨k, hk, ?_⟩
        have x0 : 0 < (k : ℝ) * inc := by positivity
        rw [err i x0]
        refine le_antisymm ?_ (h.none i hin hy k hk le_rfl)
        rw [h.max hk] at hmax
        exact (boysTail_up hin x0).trans hmax

/-! ## Concrete cases -/

example : ⌈(73 / 2 : ℚ) / (1 / 10)⌉₊ = 365 ∧ ⌊(73 / 2 : ℚ) / (1 / 10)⌋₊ + 1 = 366 := by decide +kernel

/-- Spacing 0.3 up to 1: four rows. -/
example : shortGrid id (3 / 10) 1 5 = some ([0, 3 / 10, 6 / 10, 9 / 10], 4) := by decide +kernel

example : ∃ a, normfac 3 = some a ∧ pyGet a 3 = some (π ^ (3 / 2 : ℝ) * 15 / 8) := by
  obtain ⟨a, e, -, h⟩ := (C97_normfac 3).2 (by norm_num)
  refine ⟨a, e, (h 3 le_rfl).trans ?_⟩
  norm_num [Nat.doubleFactorial]

example : boysValue 1 0 = [1, 1 / 3] := by
  rw [boysValue]
  norm_num [List.range_succ]

end Simint.TableScripts
