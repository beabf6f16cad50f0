import Verif.Sort
import Verif.ShellLemmas
import Mathlib.GroupTheory.Perm.Basic
import Mathlib.Logic.Equiv.Basic

/-!
# Lemmas about the sort of primitives
-/

set_option autoImplicit false

namespace Simint

section
variable {F : Type}

/-- The swapped arrays read through a permutation of the indices. -/
def permMem (deriv : Bool) (σ : Equiv.Perm ℤ) (m : SMem F) : SMem F := fun a k =>
  if a ∈ swapArrs deriv then m a (σ k) else m a k

theorem permMem_one (deriv : Bool) (m : SMem F) : permMem deriv 1 m = m := by
  funext a k; unfold permMem; split <;> rfl

theorem permMem_mul (deriv : Bool) (σ τ : Equiv.Perm ℤ) (m : SMem F) :
    permMem deriv σ (permMem deriv τ m) = permMem deriv (τ * σ) m := by
  funext a k; unfold permMem; split <;> rfl

theorem swapOne_apply (m : SMem F) (a : Arr) (i j : ℤ) (b : Arr) (k : ℤ) :
    swapOne m a i j b k = if b = a then m b (Equiv.swap i j k) else m b k := by
  unfold swapOne
  simp only
  by_cases hb : b = a
  · subst hb
    simp only [true_and, if_true]
    by_cases h1 : k = j
    · subst h1; simp
    · by_cases h2 : k = i
      · subst h2; simp [h1]
      · rw [Equiv.swap_apply_of_ne_of_ne h2 h1]; simp [h1, h2]
  · simp [hb]

theorem swapFold_apply (l : List Arr) (hl : l.Nodup) (m : SMem F) (i j : ℤ) (b : Arr) (k : ℤ) :
    l.foldl (fun m a => swapOne m a i j) m b k = if b ∈ l then m b (Equiv.swap i j k) else m b k := by
  induction l generalizing m with
  | nil => rfl
  | cons a l ih =>
    obtain ⟨h1, h2⟩ := List.nodup_cons.1 hl
    rw [List.foldl_cons, ih h2]
    by_cases hb : b = a
    · subst hb
      rw [if_neg h1, if_pos (by simp), swapOne_apply, if_pos rfl]
    · simp only [swapOne_apply, List.mem_cons, hb, false_or, if_false]

theorem swapArrs_nodup (deriv : Bool) : (swapArrs deriv).Nodup := by
  unfold swapArrs dirList; cases deriv <;> decide

theorem swapAll_eq (deriv : Bool) (m : SMem F) (i j : ℤ) :
    swapAll deriv m i j = permMem deriv (Equiv.swap i j) m := by
  funext b k
  exact swapFold_apply _ (swapArrs_nodup deriv) m i j b k

theorem screen_mem_swap (deriv : Bool) : Arr.screen ∈ swapArrs deriv := by
  unfold swapArrs; simp

theorem permMem_screen (deriv : Bool) (σ : Equiv.Perm ℤ) (m : SMem F) (k : ℤ) :
    permMem deriv σ m .screen k = m .screen (σ k) := if_pos (screen_mem_swap deriv)

variable [LinearOrder F]

theorem scanUp_ok (s : ℤ → F) (mid : F) (lo hi : ℤ) (f : ℕ) (i k : ℤ) (h1 : lo ≤ i) (h2 : i ≤ k)
    (h3 : k ≤ hi) (h4 : s k ≤ mid) (hf : k - i < f) :
    ∃ r, scanUp s mid lo hi f i = some r ∧ i ≤ r ∧ r ≤ k ∧ s r ≤ mid ∧ ∀ t, i ≤ t → t < r → mid < s t := by
  induction f generalizing i with
  | zero => omega
  | succ f ih =>
    unfold scanUp
    rw [if_pos ⟨h1, by omega⟩]
    by_cases hs : s i > mid
    · rw [if_pos hs]
      have hne : i ≠ k := fun e => absurd h4 (by rw [← e]; exact not_le.2 hs)
      obtain ⟨r, e, a1, a2, a3, a4⟩ := ih (i + 1) (by omega) (by omega) (by push_cast at hf; omega)
      refine ⟨r, e, by omega, a2, a3, fun t ht1 ht2 => ?_⟩
      by_cases h : t = i
      · rw [h]; exact hs
      · exact a4 t (by omega) ht2
    · rw [if_neg hs]
      exact ⟨i, rfl, le_rfl, h2, not_lt.1 hs, fun t _ _ => by omega⟩

theorem scanDown_ok (s : ℤ → F) (mid : F) (lo hi : ℤ) (f : ℕ) (j k : ℤ) (h1 : j ≤ hi) (h2 : k ≤ j)
    (h3 : lo ≤ k) (h4 : mid ≤ s k) (hf : j - k < f) :
    ∃ r, scanDown s mid lo hi f j = some r ∧ r ≤ j ∧ k ≤ r ∧ mid ≤ s r ∧ ∀ t, t ≤ j → r < t → s t < mid := by
  induction f generalizing j with
  | zero => omega
  | succ f ih =>
    unfold scanDown
    rw [if_pos ⟨by omega, h1⟩]
    by_cases hs : s j < mid
    · rw [if_pos hs]
      have hne : j ≠ k := fun e => absurd h4 (by rw [← e]; exact not_le.2 hs)
      obtain ⟨r, e, a1, a2, a3, a4⟩ := ih (j - 1) (by omega) (by omega) (by push_cast at hf; omega)
      refine ⟨r, e, by omega, a2, a3, fun t ht1 ht2 => ?_⟩
      by_cases h : t = j
      · rw [h]; exact hs
      · exact a4 t (by omega) ht2
    · rw [if_neg hs]
      exact ⟨j, rfl, le_rfl, h2, not_lt.1 hs, fun t _ _ => by omega⟩

/-- `σ` moves only indices in `[lo, hi]`. -/
def Within (σ : Equiv.Perm ℤ) (lo hi : ℤ) : Prop := ∀ k, ¬ (lo ≤ k ∧ k ≤ hi) → σ k = k

theorem Within.mul {σ τ : Equiv.Perm ℤ} {lo hi : ℤ} (h1 : Within σ lo hi) (h2 : Within τ lo hi) :
    Within (σ * τ) lo hi := fun k hk => by
  rw [Equiv.Perm.mul_apply, h2 k hk, h1 k hk]

theorem Within.mono {σ : Equiv.Perm ℤ} {lo hi lo' hi' : ℤ} (h : Within σ lo hi) (h1 : lo' ≤ lo)
    (h2 : hi ≤ hi') : Within σ lo' hi' := fun k hk => h k (by omega)

/-- Values inside stay inside. -/
theorem Within.mem {σ : Equiv.Perm ℤ} {lo hi : ℤ} (h : Within σ lo hi) {k : ℤ} (hk : lo ≤ k ∧ k ≤ hi) :
    lo ≤ σ k ∧ σ k ≤ hi := by
  by_contra hc
  have := h (σ k) hc
  have := σ.injective this
  rw [this] at hc
  exact hc hk

theorem Within.swap {lo hi i j : ℤ} (hi' : lo ≤ i ∧ i ≤ hi) (hj : lo ≤ j ∧ j ≤ hi) :
    Within (Equiv.swap i j) lo hi := fun k hk =>
  Equiv.swap_apply_of_ne_of_ne (fun e => hk (e ▸ hi')) (fun e => hk (e ▸ hj))

/-- The partition loop. -/
theorem partLoop_ok (deriv : Bool) (mid : F) (lo hi : ℤ) (f : ℕ) (m : SMem F) (i j : ℤ)
    (hi1 : lo ≤ i) (hj1 : j ≤ hi) (hf : j - i + 1 < f) (hf0 : 0 < f)
    (hge : ∀ t, lo ≤ t → t < i → mid ≤ m .screen t)
    (hle : ∀ t, t ≤ hi → j < t → m .screen t ≤ mid)
    (hup : i ≤ j → ∃ k, i ≤ k ∧ k ≤ hi ∧ m .screen k ≤ mid)
    (hdn : i ≤ j → ∃ k, lo ≤ k ∧ k ≤ j ∧ mid ≤ m .screen k) :
    ∃ σ i' j', partLoop deriv mid lo hi f m i j = some (permMem deriv σ m, i', j') ∧
      Within σ lo hi ∧ j' < i' ∧ i ≤ i' ∧ j' ≤ j ∧
      (∀ t, lo ≤ t → t < i' → mid ≤ m .screen (σ t)) ∧
      (∀ t, t ≤ hi → j' < t → m .screen (σ t) ≤ mid) ∧
      ((∃ k, i ≤ k ∧ k ≤ j ∧ m .screen k = mid) → i < i' ∧ j' < j) := by
  induction f generalizing m i j with
  | zero => omega
  | succ f ih =>
    unfold partLoop
    by_cases hc : i ≤ j
    · rw [if_pos hc]
      obtain ⟨k1, a1, a2, a3⟩ := hup hc
      obtain ⟨k2, b1, b2, b3⟩ := hdn hc
      obtain ⟨r, er, r1, r2, r3, r4⟩ := scanUp_ok (m .screen) mid lo hi (hi - lo + 2).toNat i k1 hi1 a1 a2 a3
        (by omega)
      obtain ⟨q, eq, q1, q2, q3, q4⟩ := scanDown_ok (m .screen) mid lo hi (hi - lo + 2).toNat j k2 hj1 b2 b1
        b3 (by omega)
      rw [er, Option.bind_some, eq, Option.bind_some]
      by_cases hrq : r ≤ q
      · rw [if_pos hrq, swapAll_eq]
        have sr : permMem deriv (Equiv.swap r q) m .screen r = m .screen q := by
          rw [permMem_screen, Equiv.swap_apply_left]
        have sq : permMem deriv (Equiv.swap r q) m .screen q = m .screen r := by
          rw [permMem_screen, Equiv.swap_apply_right]
        have so : ∀ t, t ≠ r → t ≠ q → permMem deriv (Equiv.swap r q) m .screen t = m .screen t := by
          intro t h1 h2; rw [permMem_screen, Equiv.swap_apply_of_ne_of_ne h1 h2]
        obtain ⟨σ, i', j', e, w, c1, c2, c3, c4, c5, -⟩ := ih (permMem deriv (Equiv.swap r q) m) (r + 1) (q - 1)
          (by omega) (by omega) (by push_cast at hf; omega) (by push_cast at hf; omega)
          (by
            intro t h1 h2
            by_cases h : t = r
            · rw [h, sr]; exact q3
            · rw [so t h (by omega)]
              by_cases h' : t < i
              · exact hge t h1 h'
              · exact (r4 t (by omega) (by omega)).le)
          (by
            intro t h1 h2
            by_cases h : t = q
            · rw [h, sq]; exact r3
            · rw [so t (by omega) h]
              by_cases h' : j < t
              · exact hle t h1 h'
              · exact (q4 t (by omega) (by omega)).le)
          (fun h => ⟨q, by omega, by omega, by rw [sq]; exact r3⟩)
          (fun h => ⟨r, by omega, by omega, by rw [sr]; exact q3⟩)
        rw [e, permMem_mul]
        refine ⟨Equiv.swap r q * σ, i', j', rfl, Within.mul (Within.swap (by omega) (by omega)) w, c1,
          by omega, by omega, fun t h1 h2 => ?_, fun t h1 h2 => ?_, fun _ => ⟨by omega, by omega⟩⟩
        · have := c4 t h1 h2
          rw [permMem_screen] at this
          exact this
        · have := c5 t h1 h2
          rw [permMem_screen] at this
          exact this
      · rw [if_neg hrq]
        have hf1 : 0 < f := by push_cast at hf; omega
        cases f with
        | zero => omega
        | succ f =>
          unfold partLoop
          rw [if_neg hrq]
          refine ⟨1, r, q, by rw [permMem_one], fun _ _ => rfl, by omega, r1, q1, fun t h1 h2 => ?_,
            fun t h1 h2 => ?_, fun ⟨k, k1, k2, k3⟩ => ?_⟩
          · by_cases h' : t < i
            · exact hge t h1 h'
            · exact (r4 t (by omega) h2).le
          · by_cases h' : j < t
            · exact hle t h1 h'
            · exact (q4 t (by omega) h2).le
          · have l1 : r ≤ k := by
              by_contra h
              exact absurd (r4 k k1 (by omega)) (by rw [k3]; exact lt_irrefl _)
            have l2 : k ≤ q := by
              by_contra h
              exact absurd (q4 k k2 (by omega)) (by rw [k3]; exact lt_irrefl _)
            omega
    · rw [if_neg hc]
      exact ⟨1, i, j, by rw [permMem_one], fun _ _ => rfl, by omega, le_rfl, le_rfl, hge, hle,
        fun ⟨k, k1, k2, _⟩ => by omega⟩

/-- What a call for `[lo, hi]` does to the arrays. -/
def SortedBy (deriv : Bool) (m m' : SMem F) (lo hi : ℤ) : Prop :=
  ∃ σ, m' = permMem deriv σ m ∧ Within σ lo hi ∧
    ∀ t u, lo ≤ t → t ≤ u → u ≤ hi → m' .screen u ≤ m' .screen t

theorem SortedBy.short (deriv : Bool) (m : SMem F) {lo hi : ℤ} (h : hi ≤ lo) : SortedBy deriv m m lo hi :=
  ⟨1, (permMem_one _ _).symm, fun _ _ => rfl, fun t u h1 h2 h3 => by
    have : t = u := by omega
    rw [this]⟩

theorem tdiv_between {l r : ℤ} (h0 : 0 ≤ l) (h : l ≤ r) : l ≤ (l + r).tdiv 2 ∧ (l + r).tdiv 2 ≤ r := by
  rw [Int.tdiv_eq_ediv_of_nonneg (by omega)]
  omega

/-- The sort of one range. -/
theorem qsort_ok (deriv : Bool) (f : ℕ) (m : SMem F) (left right : ℤ) (h0 : 0 ≤ left) (h : left ≤ right)
    (hf : right - left < f) : ∃ m', qsort deriv f m left right = some m' ∧ SortedBy deriv m m' left right := by
  induction f generalizing m left right with
  | zero => omega
  | succ f ih =>
    have hp := tdiv_between h0 h
    unfold qsort
    simp only
    rw [if_pos hp]
    generalize (left + right).tdiv 2 = p at hp
    obtain ⟨σ, i, j, e, w, c1, c2, c3, c4, c5, c6⟩ := partLoop_ok deriv (m .screen p) left right
      (right - left + 2).toNat m left right le_rfl le_rfl (by omega) (by omega) (fun t _ _ => by omega)
      (fun t _ _ => by omega) (fun _ => ⟨p, hp.1, hp.2, le_rfl⟩) (fun _ => ⟨p, hp.1, hp.2, le_rfl⟩)
    obtain ⟨c7, c8⟩ := c6 ⟨p, hp.1, hp.2, rfl⟩
    rw [e, Option.bind_some]
    simp only
    have s1 : ∃ m1, (if i < right then qsort deriv f (permMem deriv σ m) i right
        else some (permMem deriv σ m)) = some m1 ∧ SortedBy deriv (permMem deriv σ m) m1 i right := by
      split
      · exact ih _ i right (by omega) (by omega) (by push_cast at hf; omega)
      · exact ⟨_, rfl, SortedBy.short _ _ (by omega)⟩
    obtain ⟨m1, e1, σ1, g1, w1, o1⟩ := s1
    rw [e1, Option.bind_some]
    have s2 : ∃ m2, (if left < j then qsort deriv f m1 left j else some m1) = some m2 ∧
        SortedBy deriv m1 m2 left j := by
      split
      · exact ih _ left j (by omega) (by omega) (by push_cast at hf; omega)
      · exact ⟨_, rfl, SortedBy.short _ _ (by omega)⟩
    obtain ⟨m2, e2, σ2, g2, w2, o2⟩ := s2
    refine ⟨m2, e2, σ * σ1 * σ2, by rw [g2, g1, permMem_mul, permMem_mul, mul_assoc], ?_, ?_⟩
    · exact (w.mul (w1.mono (by omega) le_rfl)).mul (w2.mono le_rfl (by omega))
    · intro t u ht htu hu
      have v1 : ∀ t, m1 .screen t = m .screen (σ (σ1 t)) := fun t => by
        rw [g1, permMem_screen, permMem_screen]
      have v2 : ∀ t, m2 .screen t = m1 .screen (σ2 t) := fun t => by rw [g2, permMem_screen]
      by_cases hA : u ≤ j
      · exact o2 t u ht htu hA
      · have fu : σ2 u = u := w2 u (by omega)
        by_cases hB : i ≤ t
        · have ft : σ2 t = t := w2 t (by omega)
          rw [v2, v2, fu, ft]
          exact o1 t u hB htu hu
        · refine le_trans (b := m .screen p) ?_ ?_
          · rw [v2, fu, v1]
            by_cases hb : i ≤ u
            · have := w1.mem ⟨hb, hu⟩
              exact c5 _ this.2 (by omega)
            · rw [w1 u (by omega)]
              exact c5 _ hu (by omega)
          · rw [v2, v1]
            by_cases ha : t ≤ j
            · have := w2.mem ⟨ht, ha⟩
              rw [w1 (σ2 t) (by omega)]
              exact c4 _ this.1 (by omega)
            · rw [w2 t (by omega), w1 t (by omega)]
              exact c4 _ ht (by omega)

end

end Simint
