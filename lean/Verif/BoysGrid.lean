import Verif.BoysInt
import Verif.BoysCheck
import Verif.Boys
import Mathlib.Analysis.Real.Pi.Bounds
import Mathlib.Tactic.NormNum.NatFactorial

/-!
# Accuracy of the tables of the Boys function

Soundness of the check of `BoysCheck.lean`, and the check itself.
-/

set_option autoImplicit false

open Real

namespace Simint

/-- Scaled value `v` and error bounds. -/
def InBox (lo hi : ℕ) (v : ℝ) : Prop := (lo : ℝ) ≤ 10 ^ 60 * v ∧ 10 ^ 60 * v ≤ hi

theorem chkStep_le (i e n v : ℕ) :
    (boysStep i e n v : ℝ) ≤ (2 * (i / 10) * v + e) / (2 * n + 1) := by
  unfold boysStep
  refine Nat.cast_div_le.trans_eq ?_
  push_cast
  field_simp

theorem lt_chkStep (i e n v : ℕ) :
    (2 * (i / 10) * v + e : ℝ) / (2 * n + 1) ≤ (boysStep i e n v + 1 : ℕ) := by
  have h := Nat.lt_div_mul_add (a := 2 * i * v + 10 * e) (b := 10 * (2 * n + 1)) (by omega)
  rw [div_le_iff₀ (by positivity)]
  have h' : ((2 * i * v + 10 * e : ℕ) : ℝ) ≤
      ((boysStep i e n v * (10 * (2 * n + 1)) + 10 * (2 * n + 1) : ℕ) : ℝ) := by
    exact_mod_cast h.le
  push_cast at h' ⊢
  nlinarith

theorem step_box {i elo ehi lo hi n : ℕ} (he : InBox elo ehi (exp (-(i / 10 : ℝ))))
    (h : InBox lo hi (boysF (n + 1) (i / 10))) :
    InBox (boysStep i elo n lo) (boysStep i ehi n hi + 1) (boysF n (i / 10)) := by
  have hr := boysF_rec n (i / 10 : ℝ)
  have hp : (0 : ℝ) < 2 * n + 1 := by positivity
  have hF : 10 ^ 60 * boysF n (i / 10 : ℝ) =
      (2 * (i / 10) * (10 ^ 60 * boysF (n + 1) (i / 10)) + 10 ^ 60 * exp (-(i / 10 : ℝ))) / (2 * n + 1) := by
    rw [eq_div_iff hp.ne']
    linear_combination 10 ^ 60 * hr
  have hi0 : (0 : ℝ) ≤ 2 * (i / 10) := by positivity
  constructor
  · refine (chkStep_le _ _ _ _).trans ?_
    rw [hF]
    refine div_le_div_of_nonneg_right ?_ hp.le
    exact add_le_add (mul_le_mul_of_nonneg_left h.1 hi0) he.1
  · refine le_trans ?_ (lt_chkStep _ _ _ _)
    rw [hF]
    refine div_le_div_of_nonneg_right ?_ hp.le
    exact add_le_add (mul_le_mul_of_nonneg_left h.2 hi0) he.2

/-- Scaled entry `t` is accurate. -/
def EntryOK (t : ℕ) (v : ℝ) : Prop := |(t : ℝ) / 10 ^ 34 - v| ≤ v / (2 * 10 ^ 17)

theorem entry_ok {t lo hi : ℕ} {v : ℝ} (h : boysEntry t lo hi = true) (hb : InBox lo hi v) :
    EntryOK t v := by
  simp only [boysEntry, Bool.and_eq_true, Nat.ble_eq] at h
  have hd : ((lo / (2 * 10 ^ 17) : ℕ) : ℝ) ≤ lo / (2 * 10 ^ 17) :=
    Nat.cast_div_le.trans_eq (by push_cast; ring)
  have h1 : ((t * 10 ^ 26 : ℕ) : ℝ) ≤ ((lo + lo / (2 * 10 ^ 17) : ℕ) : ℝ) := by exact_mod_cast h.1
  have h2 : (hi : ℝ) ≤ ((t * 10 ^ 26 + lo / (2 * 10 ^ 17) : ℕ) : ℝ) := by exact_mod_cast h.2
  rw [Nat.cast_add] at h1 h2
  rw [Nat.cast_mul, Nat.cast_pow, Nat.cast_ofNat] at h1 h2
  have hlo : (lo : ℝ) / (2 * 10 ^ 17) ≤ 10 ^ 60 * v / (2 * 10 ^ 17) :=
    div_le_div_of_nonneg_right hb.1 (by positivity)
  unfold EntryOK
  rw [abs_le]
  constructor
  · have : 10 ^ 60 * v ≤ t * 10 ^ 26 + 10 ^ 60 * v / (2 * 10 ^ 17) := by linarith [hb.2]
    rw [neg_le_sub_iff_le_add]
    linarith
  · have : (t : ℝ) * 10 ^ 26 ≤ 10 ^ 60 * v + 10 ^ 60 * v / (2 * 10 ^ 17) := by linarith [hb.1]
    linarith

theorem gridRow_sound {i elo ehi : ℕ} (he : InBox elo ehi (exp (-(i / 10 : ℝ)))) :
    ∀ (n lo hi row : ℕ), InBox lo hi (boysF n (i / 10)) → boysRow i elo ehi n lo hi row = true →
      ∀ j, j < n → j < 32 →
        EntryOK (row / 10 ^ (35 * (min n 32 - 1 - j)) % 10 ^ 35) (boysF j (i / 10)) := by
  intro n
  induction n with
  | zero => intro lo hi row _ _ j hj; omega
  | succ n ih =>
    intro lo hi row hb hc j hj hj32
    have hs := step_box he hb
    rw [boysRow] at hc
    split_ifs at hc with h32
    · rw [Bool.and_eq_true] at hc
      rw [show min (n + 1) 32 - 1 - j = n - j by omega]
      rcases Nat.lt_or_ge j n with hjn | hjn
      · have := ih _ _ _ hs hc.2 j hjn hj32
        rw [show min n 32 - 1 - j = n - j - 1 by omega, Nat.div_div_eq_div_mul, ← pow_add,
          show 35 + 35 * (n - j - 1) = 35 * (n - j) by omega] at this
        exact this
      · obtain rfl : j = n := by omega
        rw [Nat.sub_self, Nat.mul_zero, pow_zero, Nat.div_one]
        exact entry_ok hc.1 hs
    · have := ih _ _ _ hs hc j (by omega) hj32
      rwa [show min (n + 1) 32 = min n 32 by omega]

theorem exp_box : InBox expLo expHi (exp (-(1 / 10 : ℝ))) := by
  have h := Real.exp_bound (x := -(1 / 10)) (by rw [abs_neg, abs_of_pos] <;> norm_num) (n := 36)
    (by norm_num)
  rw [abs_le] at h
  have ha : |(-(1 / 10) : ℝ)| = 1 / 10 := by rw [abs_neg, abs_of_pos]; norm_num
  rw [ha] at h
  simp only [Finset.sum_range_succ, Finset.sum_range_zero] at h
  norm_num [Nat.factorial] at h
  unfold InBox expLo expHi
  constructor
  · push_cast
    norm_num
    linarith [h.1]
  · push_cast
    norm_num
    linarith [h.2]

theorem box_mul_aux {S : ℕ} (hS : 0 < S) {lo hi lo' hi' : ℕ} {a b : ℝ} (ha : (lo : ℝ) ≤ S * a)
    (ha' : S * a ≤ hi) (hb : (lo' : ℝ) ≤ S * b) (hb' : S * b ≤ hi') (a0 : 0 ≤ a) (b0 : 0 ≤ b) :
    ((lo * lo' / S : ℕ) : ℝ) ≤ S * (a * b) ∧ S * (a * b) ≤ ((hi * hi' / S + 1 : ℕ) : ℝ) := by
  have hS' : (0 : ℝ) < S := Nat.cast_pos.2 hS
  have e : (S : ℝ) * (a * b) = (S * a) * (S * b) / S := by field_simp
  constructor
  · refine (Nat.cast_div_le (α := ℝ)).trans ?_
    rw [e, Nat.cast_mul]
    refine div_le_div_of_nonneg_right ?_ hS'.le
    exact mul_le_mul ha hb (Nat.cast_nonneg _) (by positivity)
  · have h := Nat.lt_div_mul_add (a := hi * hi') hS
    have h' : ((hi * hi' : ℕ) : ℝ) ≤ ((hi * hi' / S * S + S : ℕ) : ℝ) := Nat.cast_le.2 h.le
    rw [e, div_le_iff₀ hS']
    refine (mul_le_mul ha' hb' (by positivity) (Nat.cast_nonneg _)).trans ?_
    rw [← Nat.cast_mul]
    refine h'.trans_eq ?_
    rw [Nat.cast_add, Nat.cast_mul, Nat.cast_add, Nat.cast_one]
    ring

theorem scale_cast : ((10 ^ 60 : ℕ) : ℝ) = 10 ^ 60 := by norm_num

theorem box_mul {lo hi lo' hi' : ℕ} {a b : ℝ} (ha : InBox lo hi a) (hb : InBox lo' hi' b) (a0 : 0 ≤ a)
    (b0 : 0 ≤ b) : InBox (lo * lo' / 10 ^ 60) (hi * hi' / 10 ^ 60 + 1) (a * b) := by
  unfold InBox at *
  rw [← scale_cast] at *
  exact box_mul_aux (by norm_num) ha.1 ha.2 hb.1 hb.2 a0 b0

theorem gridRows_sound : ∀ (rows : List ℕ) (i elo ehi : ℕ), InBox elo ehi (exp (-(i / 10 : ℝ))) →
    boysRows i elo ehi rows = true → ∀ k < rows.length, ∀ j < 32,
      EntryOK (rows.getD k 0 / 10 ^ (35 * (31 - j)) % 10 ^ 35) (boysF j ((i + k : ℕ) / 10)) := by
  intro rows
  induction rows with
  | nil => intro i elo ehi _ _ k hk; simp at hk
  | cons row rows ih =>
    intro i elo ehi he hc k hk j hj
    rw [boysRows, Bool.and_eq_true] at hc
    rcases k with _ | k
    · have hx : (0 : ℝ) ≤ i / 10 := by positivity
      have hb : InBox 0 (10 ^ 60) (boysF 160 (i / 10 : ℝ)) := by
        constructor
        · have := boysF_nonneg 160 (i / 10 : ℝ)
          push_cast; positivity
        · have := boysF_le_one (n := 160) hx
          push_cast
          linarith
      have := gridRow_sound he 160 0 (10 ^ 60) row hb hc.1 j (by omega) hj
      simpa using this
    · have hs : InBox (elo * expLo / 10 ^ 60) (ehi * expHi / 10 ^ 60 + 1)
          (exp (-((i + 1 : ℕ) / 10 : ℝ))) := by
        rw [show (-((i + 1 : ℕ) / 10 : ℝ)) = -(i / 10 : ℝ) + -(1 / 10) by push_cast; ring, exp_add]
        exact box_mul he exp_box (exp_nonneg _) (exp_nonneg _)
      have := ih (i + 1) _ _ hs hc.2 k (by simpa using hk) j hj
      rw [show i + 1 + k = i + (k + 1) by omega] at this
      simpa using this

theorem rows_length : boysGridRows.length = 366 := by decide +kernel

/-- The check succeeds. -/
theorem rows_checked : boysRows 0 (10 ^ 60) (10 ^ 60) boysGridRows = true := by decide +kernel

theorem grid_ok {i j : ℕ} (hi : i < 366) (hj : j < 32) : EntryOK (boysGridN i j) (boysF j (i / 10)) := by
  have := gridRows_sound boysGridRows 0 (10 ^ 60) (10 ^ 60) (by constructor <;> norm_num) rows_checked i
    (by rw [rows_length]; exact hi) j hj
  rwa [Nat.zero_add] at this

/-! ## Factors of the long range -/

theorem sqrt_pi_bounds : 1.77245385090551602729 < √π ∧ √π < 1.77245385090551602731 := by
  constructor
  · rw [Real.lt_sqrt (by norm_num)]
    exact lt_of_lt_of_le (by norm_num) Real.pi_gt_d20.le
  · rw [Real.sqrt_lt' (by norm_num)]
    exact lt_trans Real.pi_lt_d20 (by norm_num)

/-- `sqrt(pi)*(2n-1)!!/(2**(n+1))`, boys_longfac.h:5. -/
noncomputable def longfacExact (n : ℕ) : ℝ := (2 * n - 1 : ℕ).doubleFactorial * √π / 2 ^ (n + 1)

def chkFac (n : ℕ) : Bool :=
  let N := boysLongfacN.getD n 0 * 2 ^ (n + 1) * 100
  let d := (2 * n - 1).doubleFactorial * 177245385090551602729
  Nat.ble N (d + d / (2 * 10 ^ 17)) &&
    Nat.ble ((2 * n - 1).doubleFactorial * 177245385090551602731) (N + d / (2 * 10 ^ 17))

theorem facs_checked : ∀ n < 32, chkFac n = true := by decide +kernel

theorem longfac_ok {n : ℕ} (hn : n < 32) :
    |(boysLongfacN.getD n 0 : ℝ) / 10 ^ 18 - longfacExact n| ≤ longfacExact n / (2 * 10 ^ 17) := by
  have h := facs_checked n hn
  simp only [chkFac, Bool.and_eq_true, Nat.ble_eq] at h
  obtain ⟨h1, h2⟩ := h
  generalize boysLongfacN.getD n 0 = N at *
  unfold longfacExact
  generalize (2 * n - 1 : ℕ).doubleFactorial = D at *
  have hd : ((D * 177245385090551602729 / (2 * 10 ^ 17) : ℕ) : ℝ) ≤
      D * 177245385090551602729 / (2 * 10 ^ 17) :=
    (Nat.cast_div_le (α := ℝ)).trans_eq (by push_cast; ring)
  have h1' : ((N * 2 ^ (n + 1) * 100 : ℕ) : ℝ) ≤
    ((D * 177245385090551602729 + D * 177245385090551602729 / (2 * 10 ^ 17) : ℕ) : ℝ) := Nat.cast_le.2 h1
  have h2' : ((D * 177245385090551602731 : ℕ) : ℝ) ≤
    ((N * 2 ^ (n + 1) * 100 + D * 177245385090551602729 / (2 * 10 ^ 17) : ℕ) : ℝ) := Nat.cast_le.2 h2
  rw [Nat.cast_add] at h1' h2'
  generalize ((D * 177245385090551602729 / (2 * 10 ^ 17) : ℕ) : ℝ) = q at *
  push_cast at h1' h2'
  obtain ⟨b1, b2⟩ := sqrt_pi_bounds
  have hD : (0 : ℝ) ≤ D := Nat.cast_nonneg D
  have c1 := mul_le_mul_of_nonneg_left b1.le hD
  have c2 := mul_le_mul_of_nonneg_left b2.le hD
  have hp : (0 : ℝ) < 2 ^ (n + 1) := by positivity
  have e : (N : ℝ) / 10 ^ 18 = N * 2 ^ (n + 1) * 100 / 10 ^ 20 / 2 ^ (n + 1) := by
    field_simp
    norm_num
  rw [e, ← sub_div, abs_div, abs_of_pos hp, div_right_comm]
  refine div_le_div_of_nonneg_right ?_ hp.le
  rw [abs_le]
  constructor <;> linarith

end Simint
