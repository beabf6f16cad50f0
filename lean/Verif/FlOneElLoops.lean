import Verif.FlOneElSteps
import Verif.OneElLoops

/-! Lemmas for the loops of the one-electron integrals on doubles. -/

set_option autoImplicit false

namespace Simint.FlOneEl

open FlBoys FlPrim

/-- The elements selected by `W` hold values that satisfy `Q`. -/
def FillR (K nam1 nam2 : ℕ) (Q : ℕ → ℕ → ℕ → ℝ → Prop) (W : ℕ → ℕ → ℕ → Prop) (t : CBuf ℝ) : Prop :=
  t.size = K * nam1 * nam2 ∧ ∀ k i j, k < K → i < nam1 → j < nam2 → W k i j →
    Q k i j (t.val (termIdx nam1 nam2 k i j))

section
variable {K nam1 nam2 : ℕ} {Q : ℕ → ℕ → ℕ → ℝ → Prop} {W : ℕ → ℕ → ℕ → Prop} {t : CBuf ℝ}

theorem FillR.mono (h : FillR K nam1 nam2 Q W t) {W' : ℕ → ℕ → ℕ → Prop}
    (hW : ∀ k i j, k < K → i < nam1 → j < nam2 → W' k i j → W k i j) : FillR K nam1 nam2 Q W' t :=
  ⟨h.1, fun k i j hk hi hj w => h.2 k i j hk hi hj (hW k i j hk hi hj w)⟩

theorem FillR.get (h : FillR K nam1 nam2 Q W t) {k i j : ℕ} (hk : k < K) (hi : i < nam1) (hj : j < nam2)
    (hW : W k i j) : ∃ v, t.get (termIdx nam1 nam2 k i j) = some v ∧ Q k i j v :=
  ⟨_, CBuf.get_lt (by rw [h.1]; exact termIdx_lt hk hi hj), h.2 k i j hk hi hj hW⟩

theorem FillR.store (h : FillR K nam1 nam2 Q W t) {k i j : ℕ} (hk : k < K) (hi : i < nam1) (hj : j < nam2)
    {v : ℝ} (hv : Q k i j v) (W' : ℕ → ℕ → ℕ → Prop)
    (hW : ∀ k' i' j', k' < K → i' < nam1 → j' < nam2 → W' k' i' j' →
      W k' i' j' ∨ (k' = k ∧ i' = i ∧ j' = j)) :
    ∃ t', t.set (termIdx nam1 nam2 k i j) v = some t' ∧ FillR K nam1 nam2 Q W' t' := by
  rw [CBuf.set_lt (by rw [h.1]; exact termIdx_lt hk hi hj)]
  refine ⟨_, rfl, h.1, fun k' i' j' hk' hi' hj' w => ?_⟩
  simp only
  split_ifs with he
  · obtain ⟨rfl, rfl, rfl⟩ := termIdx_inj hi' hj' hi hj he
    exact hv
  · rcases hW k' i' j' hk' hi' hj' w with h1 | ⟨rfl, rfl, rfl⟩
    · exact h.2 k' i' j' hk' hi' hj' h1
    · exact absurd rfl he

end

section
variable {F : Arith} (hF : Sound F) {α β R : ℝ} (h : PrimIn α β R) {A B : Dir → ℝ} (hA : ∀ d, |A d| ≤ R)
  (hB : ∀ d, |B d| ≤ R)
include hF h hA hB

theorem overlapTerms_near {nam1 nam2 : ℕ} (hn1 : 0 < nam1) (hn2 : 0 < nam2) (ha1 : nam1 ≤ 19) (ha2 : nam2 ≤ 19)
    (t : CBuf ℝ) (hsz : t.size = 3 * nam1 * nam2) :
    ∃ t', overlapTerms F α A β B nam1 nam2 t = some t' ∧
      FillR 3 nam1 nam2 (fun k => OvlOK α A β B R (dirC k)) (fun _ _ _ => True) t' := by
  unfold overlapTerms
  simp only
  set P := oePar F α A β B with hP
  refine forLoop_then
    (I := fun d t => FillR 3 nam1 nam2 (fun k => OvlOK α A β B R (dirC k)) (fun k _ _ => k < d) t)
    (Nat.zero_le _) ⟨hsz, fun k i j _ _ _ w => absurd w (by omega)⟩ ?_
    fun t f => f.mono fun k _ _ hk _ _ _ => hk
  intro d t _ hd f0
  -- first element
  obtain ⟨t1, e1, f1⟩ := f0.store (k := d) (i := 0) (j := 0) hd hn1 hn2
    (ovl_first (d := dirC d) hF h hA hB) (fun k i j => k < d ∨ (k = d ∧ j = 0 ∧ i < 1)) (by omega)
  rw [e1, Option.bind_some]
  -- first column
  obtain ⟨t2, e2, f2⟩ := forLoop_then (lo := 1) (hi := nam1) (s := t1)
    (Q := FillR 3 nam1 nam2 (fun k => OvlOK α A β B R (dirC k))
      (fun k i j => k < d ∨ (k = d ∧ (j = 0 ∨ (i = 0 ∧ j < 1)))))
    (I := fun n t => FillR 3 nam1 nam2 (fun k => OvlOK α A β B R (dirC k))
      (fun k i j => k < d ∨ (k = d ∧ j = 0 ∧ i < n)) t)
    (body := fun i t =>
      (t.get (termIdx nam1 nam2 d (i - 1) 0)).bind fun s1 =>
      if 1 < i then
        (t.get (termIdx nam1 nam2 d (i - 2) 0)).bind fun s2 =>
        t.set (termIdx nam1 nam2 d i 0) (F.dot (P.PA (dirC d)) s1 (F.fl (((i - 1 : ℕ) : ℝ) * P.oo2p)) s2)
      else t.set (termIdx nam1 nam2 d i 0) (F.fl (P.PA (dirC d) * s1))) hn1 f1 (by
    intro i t hi1 hi2 f
    obtain ⟨s1, g1, q1⟩ := f.get (k := d) (i := i - 1) (j := 0) hd (by omega) hn2 (by omega)
    rw [g1, Option.bind_some]
    by_cases c : 1 < i
    · obtain ⟨s2, g2, q2⟩ := f.get (k := d) (i := i - 2) (j := 0) hd (by omega) hn2 (by omega)
      rw [if_pos c, g2, Option.bind_some]
      refine f.store hd hi2 hn2 ?_ _ (by omega)
      obtain ⟨i, rfl⟩ : ∃ n, i = n + 2 := ⟨i - 2, by omega⟩
      exact ovl_col hF h hA hB (by omega) q1 q2
    · obtain rfl : i = 1 := by omega
      rw [if_neg c]
      exact f.store hd hi2 hn2 (ovl_col1 hF h hA hB q1) _ (by omega))
    fun t f => f.mono (by omega)
  rw [e2, Option.bind_some]
  -- first row
  obtain ⟨t3, e3, f3⟩ := forLoop_then (lo := 1) (hi := nam2) (s := t2)
    (Q := FillR 3 nam1 nam2 (fun k => OvlOK α A β B R (dirC k))
      (fun k i j => k < d ∨ (k = d ∧ (j = 0 ∨ i < 1))))
    (I := fun n t => FillR 3 nam1 nam2 (fun k => OvlOK α A β B R (dirC k))
      (fun k i j => k < d ∨ (k = d ∧ (j = 0 ∨ (i = 0 ∧ j < n)))) t)
    (body := fun j t =>
      (t.get (termIdx nam1 nam2 d 0 (j - 1))).bind fun s1 =>
      if 1 < j then
        (t.get (termIdx nam1 nam2 d 0 (j - 2))).bind fun s2 =>
        t.set (termIdx nam1 nam2 d 0 j) (F.dot (P.PB (dirC d)) s1 (F.fl (((j - 1 : ℕ) : ℝ) * P.oo2p)) s2)
      else t.set (termIdx nam1 nam2 d 0 j) (F.fl (P.PB (dirC d) * s1))) hn2 f2 (by
    intro j t hj1 hj2 f
    obtain ⟨s1, g1, q1⟩ := f.get (k := d) (i := 0) (j := j - 1) hd hn1 (by omega) (by omega)
    rw [g1, Option.bind_some]
    by_cases c : 1 < j
    · obtain ⟨s2, g2, q2⟩ := f.get (k := d) (i := 0) (j := j - 2) hd hn1 (by omega) (by omega)
      rw [if_pos c, g2, Option.bind_some]
      refine f.store hd hn1 hj2 ?_ _ (by omega)
      obtain ⟨j, rfl⟩ : ∃ n, j = n + 2 := ⟨j - 2, by omega⟩
      exact ovl_row hF h hA hB (by omega) q1 q2
    · obtain rfl : j = 1 := by omega
      rw [if_neg c]
      exact f.store hd hn1 hj2 (ovl_row1 hF h hA hB q1) _ (by omega))
    fun t f => f.mono (by omega)
  rw [e3, Option.bind_some]
  -- the rest
  refine forLoop_then (lo := 1) (hi := nam1) (s := t3)
    (I := fun n t => FillR 3 nam1 nam2 (fun k => OvlOK α A β B R (dirC k))
      (fun k i j => k < d ∨ (k = d ∧ (j = 0 ∨ i < n))) t) hn1 f3 ?_ fun t f => f.mono (by omega)
  intro i t hi1 hi2 f
  refine forLoop_then (lo := 1) (hi := nam2) (s := t)
    (I := fun n t => FillR 3 nam1 nam2 (fun k => OvlOK α A β B R (dirC k))
      (fun k i' j => k < d ∨ (k = d ∧ (j = 0 ∨ i' < i ∨ (i' = i ∧ j < n)))) t)
    hn2 (f.mono (by omega)) ?_ fun t f => f.mono (by omega)
  clear f
  intro j t hj1 hj2 f
  obtain ⟨s1, g1, q1⟩ := f.get (k := d) (i := i) (j := j - 1) hd hi2 (by omega) (by omega)
  obtain ⟨s3, g3, q3⟩ := f.get (k := d) (i := i - 1) (j := j - 1) hd (by omega) (by omega) (by omega)
  rw [g1, Option.bind_some, g3, Option.bind_some]
  obtain ⟨i, rfl⟩ : ∃ n, i = n + 1 := ⟨i - 1, by omega⟩
  by_cases c : 1 < j
  · obtain ⟨s2, g2, q2⟩ := f.get (k := d) (i := i + 1) (j := j - 2) hd hi2 (by omega) (by omega)
    rw [if_pos c, g2, Option.bind_some]
    refine f.store hd hi2 hj2 ?_ _ (by omega)
    obtain ⟨j, rfl⟩ : ∃ n, j = n + 2 := ⟨j - 2, by omega⟩
    exact ovl_rest hF h hA hB (by omega) (by omega) q1 q3 q2
  · obtain rfl : j = 1 := by omega
    rw [if_neg c]
    exact f.store hd hi2 hj2 (ovl_rest1 hF h hA hB (by omega) q1 q3) _ (by omega)

/-- What the kinetic energy terms have to satisfy: `S` in blocks 0 to 2, `T` in blocks 3 to 5. -/
def KeQ (α : ℝ) (A : Dir → ℝ) (β : ℝ) (B : Dir → ℝ) (R : ℝ) (k i j : ℕ) (v : ℝ) : Prop :=
  if k < 3 then OvlOK α A β B R (dirC k) i j v else KinOK α A β B R (dirC (k - 3)) i j v

theorem keTerms_near {nam1 nam2 : ℕ} (hn1 : 0 < nam1) (hn2 : 0 < nam2) (ha1 : nam1 ≤ 19) (ha2 : nam2 ≤ 19)
    (t : CBuf ℝ) (hsz : t.size = 6 * nam1 * nam2) :
    ∃ t', keTerms F α A β B nam1 nam2 t = some t' ∧
      FillR 6 nam1 nam2 (KeQ α A β B R) (fun _ _ _ => True) t' := by
  unfold keTerms
  simp only
  set P := oePar F α A β B with hP
  set Q := KeQ α A β B R with hQ
  refine forLoop_then
    (I := fun d t => FillR 6 nam1 nam2 Q (fun k _ _ => k % 3 < d) t)
    (Nat.zero_le _) ⟨hsz, fun k i j _ _ _ w => absurd w (by omega)⟩ ?_
    fun t f => f.mono (by omega)
  intro d t _ hd f0
  have d6 : d < 6 := by omega
  have d36 : d + 3 < 6 := by omega
  have sS : ∀ i j v, Q d i j v ↔ OvlOK α A β B R (dirC d) i j v := fun i j v => by
    simp [hQ, KeQ, hd]
  have sT : ∀ i j v, Q (d + 3) i j v ↔ KinOK α A β B R (dirC d) i j v := fun i j v => by
    simp [hQ, KeQ]
  -- first elements
  obtain ⟨t1, e1, f1⟩ := f0.store (k := d) (i := 0) (j := 0) d6 hn1 hn2
    ((sS _ _ _).2 (ovl_first (d := dirC d) hF h hA hB))
    (fun k i j => k % 3 < d ∨ (k = d ∧ j = 0 ∧ i < 1)) (by omega)
  obtain ⟨s, g, q⟩ := f1.get (k := d) (i := 0) (j := 0) d6 hn1 hn2 (by omega)
  rw [e1, Option.bind_some, g, Option.bind_some]
  obtain ⟨t1', e1', f1'⟩ := f1.store (k := d + 3) (i := 0) (j := 0) d36 hn1 hn2
    ((sT _ _ _).2 (kin_first hF h hA hB ((sS _ _ _).1 q)))
    (fun k i j => k % 3 < d ∨ (k % 3 = d ∧ j = 0 ∧ i < 1)) (by omega)
  rw [e1', Option.bind_some]
  -- first column
  obtain ⟨t2, e2, f2⟩ := forLoop_then (lo := 1) (hi := nam1) (s := t1')
    (Q := FillR 6 nam1 nam2 Q (fun k i j => k % 3 < d ∨ (k % 3 = d ∧ (j = 0 ∨ (i = 0 ∧ j < 1)))))
    (I := fun n t => FillR 6 nam1 nam2 Q (fun k i j => k % 3 < d ∨ (k % 3 = d ∧ j = 0 ∧ i < n)) t)
    (body := fun i t =>
      (t.get (termIdx nam1 nam2 d (i - 1) 0)).bind fun s1 =>
      (if 1 < i then
        (t.get (termIdx nam1 nam2 d (i - 2) 0)).bind fun s2 =>
        t.set (termIdx nam1 nam2 d i 0) (F.dot (P.PA (dirC d)) s1 (F.fl (((i - 1 : ℕ) : ℝ) * P.oo2p)) s2)
      else t.set (termIdx nam1 nam2 d i 0) (F.fl (P.PA (dirC d) * s1))).bind fun t =>
      (t.get (termIdx nam1 nam2 (d + 3) (i - 1) 0)).bind fun t1 =>
      (t.get (termIdx nam1 nam2 d i 0)).bind fun s0 =>
      if 1 < i then
        (t.get (termIdx nam1 nam2 (d + 3) (i - 2) 0)).bind fun t2 =>
        (t.get (termIdx nam1 nam2 d (i - 2) 0)).bind fun s2 =>
        t.set (termIdx nam1 nam2 (d + 3) i 0) (F.fl (F.dot (P.PA (dirC d)) t1 (F.fl (2 * P.mu)) s0 +
          F.dot (F.fl (((i - 1 : ℕ) : ℝ) * P.oo2p)) t2
          (-F.fl (F.fl (β * P.oop) * ((i - 1 : ℕ) : ℝ))) s2))
      else t.set (termIdx nam1 nam2 (d + 3) i 0) (F.dot (P.PA (dirC d)) t1 (F.fl (2 * P.mu)) s0)) hn1 f1' (by
    intro i t hi1 hi2 f
    obtain ⟨s1, g1, q1⟩ := f.get (k := d) (i := i - 1) (j := 0) d6 (by omega) hn2 (by omega)
    rw [g1, Option.bind_some]
    by_cases c : 1 < i
    · obtain ⟨i, rfl⟩ : ∃ n, i = n + 2 := ⟨i - 2, by omega⟩
      obtain ⟨s2, g2, q2⟩ := f.get (k := d) (i := i + 2 - 2) (j := 0) d6 (by omega) hn2 (by omega)
      rw [if_pos c, g2, Option.bind_some]
      obtain ⟨ta, ea, fa⟩ := f.store (k := d) (i := i + 2) (j := 0) d6 hi2 hn2
        ((sS _ _ _).2 (ovl_col hF h hA hB (by omega) ((sS _ _ _).1 q1) ((sS _ _ _).1 q2)))
        (fun k i' j => k % 3 < d ∨ (k % 3 = d ∧ j = 0 ∧ (i' < i + 2 ∨ (k = d ∧ i' = i + 2)))) (by omega)
      obtain ⟨u1, h1, r1⟩ := fa.get (k := d + 3) (i := i + 2 - 1) (j := 0) d36 (by omega) hn2 (by omega)
      obtain ⟨u0, h0, r0⟩ := fa.get (k := d) (i := i + 2) (j := 0) d6 (by omega) hn2 (by omega)
      obtain ⟨u2, h2, r2⟩ := fa.get (k := d + 3) (i := i + 2 - 2) (j := 0) d36 (by omega) hn2 (by omega)
      obtain ⟨v2, k2, p2⟩ := fa.get (k := d) (i := i + 2 - 2) (j := 0) d6 (by omega) hn2 (by omega)
      erw [ea]
      rw [Option.bind_some, h1, Option.bind_some, h0, Option.bind_some, if_pos c, h2, Option.bind_some,
        k2, Option.bind_some]
      exact fa.store d36 hi2 hn2 ((sT _ _ _).2 (kin_col hF h hA hB (by omega) ((sT _ _ _).1 r1)
        ((sS _ _ _).1 r0) ((sT _ _ _).1 r2) ((sS _ _ _).1 p2))) _ (by omega)
    · obtain rfl : i = 1 := by omega
      rw [if_neg c]
      obtain ⟨ta, ea, fa⟩ := f.store (k := d) (i := 1) (j := 0) d6 hi2 hn2
        ((sS _ _ _).2 (ovl_col1 hF h hA hB ((sS _ _ _).1 q1)))
        (fun k i' j => k % 3 < d ∨ (k % 3 = d ∧ j = 0 ∧ (i' < 1 ∨ (k = d ∧ i' = 1)))) (by omega)
      obtain ⟨u1, h1, r1⟩ := fa.get (k := d + 3) (i := 1 - 1) (j := 0) d36 (by omega) hn2 (by omega)
      obtain ⟨u0, h0, r0⟩ := fa.get (k := d) (i := 1) (j := 0) d6 (by omega) hn2 (by omega)
      erw [ea]
      rw [Option.bind_some, h1, Option.bind_some, h0, Option.bind_some, if_neg c]
      exact fa.store d36 hi2 hn2 ((sT _ _ _).2 (kin_col1 hF h hA hB ((sT _ _ _).1 r1)
        ((sS _ _ _).1 r0))) _ (by omega))
    fun t f => f.mono (by omega)
  rw [e2, Option.bind_some]
  -- first row
  obtain ⟨t3, e3, f3⟩ := forLoop_then (lo := 1) (hi := nam2) (s := t2)
    (Q := FillR 6 nam1 nam2 Q (fun k i j => k % 3 < d ∨ (k % 3 = d ∧ (j = 0 ∨ i < 1))))
    (I := fun n t => FillR 6 nam1 nam2 Q
      (fun k i j => k % 3 < d ∨ (k % 3 = d ∧ (j = 0 ∨ (i = 0 ∧ j < n)))) t)
    (body := fun j t =>
      (t.get (termIdx nam1 nam2 d 0 (j - 1))).bind fun s1 =>
      (if 1 < j then
        (t.get (termIdx nam1 nam2 d 0 (j - 2))).bind fun s2 =>
        t.set (termIdx nam1 nam2 d 0 j) (F.dot (P.PB (dirC d)) s1 (F.fl (((j - 1 : ℕ) : ℝ) * P.oo2p)) s2)
      else t.set (termIdx nam1 nam2 d 0 j) (F.fl (P.PB (dirC d) * s1))).bind fun t =>
      (t.get (termIdx nam1 nam2 (d + 3) 0 (j - 1))).bind fun t1 =>
      (t.get (termIdx nam1 nam2 d 0 j)).bind fun s0 =>
      if 1 < j then
        (t.get (termIdx nam1 nam2 (d + 3) 0 (j - 2))).bind fun t2 =>
        (t.get (termIdx nam1 nam2 d 0 (j - 2))).bind fun s2 =>
        t.set (termIdx nam1 nam2 (d + 3) 0 j) (F.fl (F.dot (P.PB (dirC d)) t1 (F.fl (2 * P.mu)) s0 +
          F.dot (F.fl (((j - 1 : ℕ) : ℝ) * P.oo2p)) t2
          (-F.fl (F.fl (α * P.oop) * ((j - 1 : ℕ) : ℝ))) s2))
      else t.set (termIdx nam1 nam2 (d + 3) 0 j) (F.dot (P.PB (dirC d)) t1 (F.fl (2 * P.mu)) s0)) hn2 f2 (by
    intro j t hj1 hj2 f
    obtain ⟨s1, g1, q1⟩ := f.get (k := d) (i := 0) (j := j - 1) d6 hn1 (by omega) (by omega)
    rw [g1, Option.bind_some]
    by_cases c : 1 < j
    · obtain ⟨j, rfl⟩ : ∃ n, j = n + 2 := ⟨j - 2, by omega⟩
      obtain ⟨s2, g2, q2⟩ := f.get (k := d) (i := 0) (j := j + 2 - 2) d6 hn1 (by omega) (by omega)
      rw [if_pos c, g2, Option.bind_some]
      obtain ⟨ta, ea, fa⟩ := f.store (k := d) (i := 0) (j := j + 2) d6 hn1 hj2
        ((sS _ _ _).2 (ovl_row hF h hA hB (by omega) ((sS _ _ _).1 q1) ((sS _ _ _).1 q2)))
        (fun k i j' => k % 3 < d ∨ (k % 3 = d ∧ (j' = 0 ∨ (i = 0 ∧ (j' < j + 2 ∨ (k = d ∧ j' = j + 2))))))
        (by omega)
      obtain ⟨u1, h1, r1⟩ := fa.get (k := d + 3) (i := 0) (j := j + 2 - 1) d36 hn1 (by omega) (by omega)
      obtain ⟨u0, h0, r0⟩ := fa.get (k := d) (i := 0) (j := j + 2) d6 hn1 (by omega) (by omega)
      obtain ⟨u2, h2, r2⟩ := fa.get (k := d + 3) (i := 0) (j := j + 2 - 2) d36 hn1 (by omega) (by omega)
      obtain ⟨v2, k2, p2⟩ := fa.get (k := d) (i := 0) (j := j + 2 - 2) d6 hn1 (by omega) (by omega)
      erw [ea]
      rw [Option.bind_some, h1, Option.bind_some, h0, Option.bind_some, if_pos c, h2, Option.bind_some,
        k2, Option.bind_some]
      exact fa.store d36 hn1 hj2 ((sT _ _ _).2 (kin_row hF h hA hB (by omega) ((sT _ _ _).1 r1)
        ((sS _ _ _).1 r0) ((sT _ _ _).1 r2) ((sS _ _ _).1 p2))) _ (by omega)
    · obtain rfl : j = 1 := by omega
      rw [if_neg c]
      obtain ⟨ta, ea, fa⟩ := f.store (k := d) (i := 0) (j := 1) d6 hn1 hj2
        ((sS _ _ _).2 (ovl_row1 hF h hA hB ((sS _ _ _).1 q1)))
        (fun k i j' => k % 3 < d ∨ (k % 3 = d ∧ (j' = 0 ∨ (i = 0 ∧ (j' < 1 ∨ (k = d ∧ j' = 1)))))) (by omega)
      obtain ⟨u1, h1, r1⟩ := fa.get (k := d + 3) (i := 0) (j := 1 - 1) d36 hn1 (by omega) (by omega)
      obtain ⟨u0, h0, r0⟩ := fa.get (k := d) (i := 0) (j := 1) d6 hn1 (by omega) (by omega)
      erw [ea]
      rw [Option.bind_some, h1, Option.bind_some, h0, Option.bind_some, if_neg c]
      exact fa.store d36 hn1 hj2 ((sT _ _ _).2 (kin_row1 hF h hA hB ((sT _ _ _).1 r1)
        ((sS _ _ _).1 r0))) _ (by omega))
    fun t f => f.mono (by omega)
  rw [e3, Option.bind_some]
  -- the rest
  refine forLoop_then (lo := 1) (hi := nam1) (s := t3)
    (I := fun n t => FillR 6 nam1 nam2 Q
      (fun k i j => k % 3 < d ∨ (k % 3 = d ∧ (j = 0 ∨ i < n))) t) hn1 f3 ?_ fun t f => f.mono (by omega)
  intro i t hi1 hi2 f
  refine forLoop_then (lo := 1) (hi := nam2) (s := t)
    (I := fun n t => FillR 6 nam1 nam2 Q
      (fun k i' j => k % 3 < d ∨ (k % 3 = d ∧ (j = 0 ∨ i' < i ∨ (i' = i ∧ j < n)))) t)
    hn2 (f.mono (by omega)) ?_ fun t f => f.mono (by omega)
  clear f
  intro j t hj1 hj2 f
  obtain ⟨s1, g1, q1⟩ := f.get (k := d) (i := i) (j := j - 1) d6 hi2 (by omega) (by omega)
  obtain ⟨s3, g3, q3⟩ := f.get (k := d) (i := i - 1) (j := j - 1) d6 (by omega) (by omega) (by omega)
  rw [g1, Option.bind_some, g3, Option.bind_some]
  obtain ⟨i, rfl⟩ : ∃ n, i = n + 1 := ⟨i - 1, by omega⟩
  by_cases c : 1 < j
  · obtain ⟨j, rfl⟩ : ∃ n, j = n + 2 := ⟨j - 2, by omega⟩
    obtain ⟨s2, g2, q2⟩ := f.get (k := d) (i := i + 1) (j := j + 2 - 2) d6 hi2 (by omega) (by omega)
    rw [if_pos c, g2, Option.bind_some]
    obtain ⟨ta, ea, fa⟩ := f.store (k := d) (i := i + 1) (j := j + 2) d6 hi2 hj2
      ((sS _ _ _).2 (ovl_rest hF h hA hB (by omega) (by omega) ((sS _ _ _).1 q1) ((sS _ _ _).1 q3)
        ((sS _ _ _).1 q2)))
      (fun k i' j' => k % 3 < d ∨
        (k % 3 = d ∧ (j' = 0 ∨ i' < i + 1 ∨ (i' = i + 1 ∧ (j' < j + 2 ∨ (k = d ∧ j' = j + 2)))))) (by omega)
    obtain ⟨u1, h1, r1⟩ := fa.get (k := d + 3) (i := i + 1) (j := j + 2 - 1) d36 hi2 (by omega) (by omega)
    obtain ⟨u3, h3, r3⟩ := fa.get (k := d + 3) (i := i + 1 - 1) (j := j + 2 - 1) d36 (by omega) (by omega) (by omega)
    obtain ⟨u0, h0, r0⟩ := fa.get (k := d) (i := i + 1) (j := j + 2) d6 hi2 (by omega) (by omega)
    obtain ⟨u2, h2, r2⟩ := fa.get (k := d + 3) (i := i + 1) (j := j + 2 - 2) d36 hi2 (by omega) (by omega)
    obtain ⟨v2, k2, p2⟩ := fa.get (k := d) (i := i + 1) (j := j + 2 - 2) d6 hi2 (by omega) (by omega)
    erw [ea]
    rw [Option.bind_some, h1, Option.bind_some, h3, Option.bind_some, h0, Option.bind_some, if_pos c, h2,
      Option.bind_some, k2, Option.bind_some]
    exact fa.store d36 hi2 hj2 ((sT _ _ _).2 (kin_rest hF h hA hB (by omega) (by omega) ((sT _ _ _).1 r1)
      ((sT _ _ _).1 r3) ((sS _ _ _).1 r0) ((sT _ _ _).1 r2) ((sS _ _ _).1 p2))) _ (by omega)
  · obtain rfl : j = 1 := by omega
    rw [if_neg c]
    obtain ⟨ta, ea, fa⟩ := f.store (k := d) (i := i + 1) (j := 1) d6 hi2 hj2
      ((sS _ _ _).2 (ovl_rest1 hF h hA hB (by omega) ((sS _ _ _).1 q1) ((sS _ _ _).1 q3)))
      (fun k i' j' => k % 3 < d ∨
        (k % 3 = d ∧ (j' = 0 ∨ i' < i + 1 ∨ (i' = i + 1 ∧ (j' < 1 ∨ (k = d ∧ j' = 1)))))) (by omega)
    obtain ⟨u1, h1, r1⟩ := fa.get (k := d + 3) (i := i + 1) (j := 1 - 1) d36 hi2 (by omega) (by omega)
    obtain ⟨u3, h3, r3⟩ := fa.get (k := d + 3) (i := i + 1 - 1) (j := 1 - 1) d36 (by omega) (by omega) (by omega)
    obtain ⟨u0, h0, r0⟩ := fa.get (k := d) (i := i + 1) (j := 1) d6 hi2 (by omega) (by omega)
    erw [ea]
    rw [Option.bind_some, h1, Option.bind_some, h3, Option.bind_some, h0, Option.bind_some, if_neg c]
    exact fa.store d36 hi2 hj2 ((sT _ _ _).2 (kin_rest1 hF h hA hB (by omega) ((sT _ _ _).1 r1)
      ((sT _ _ _).1 r3) ((sS _ _ _).1 r0))) _ (by omega)

end

end Simint.FlOneEl
