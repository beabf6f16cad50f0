import Verif.OneEl
import Verif.OneElGauss
import Verif.GeneralHRRLemmas

/-! Lemmas for the loops of the one-electron integrals. -/

set_option autoImplicit false

namespace Simint

theorem forLoop_ok {σ : Type} {lo hi : ℕ} {body : ℕ → σ → Option σ} {s : σ} (I : ℕ → σ → Prop)
    (hle : lo ≤ hi) (h0 : I lo s)
    (hs : ∀ i s, lo ≤ i → i < hi → I i s → ∃ s', body i s = some s' ∧ I (i + 1) s') :
    ∃ s', forLoop lo hi body s = some s' ∧ I hi s' := by
  unfold forLoop
  obtain ⟨n, rfl⟩ := Nat.exists_eq_add_of_le hle
  rw [Nat.add_sub_cancel_left]
  clear hle
  induction n with
  | zero => exact ⟨s, by simp, h0⟩
  | succ n ih =>
    obtain ⟨s1, e1, i1⟩ := ih fun i s h1 h2 => hs i s h1 (by omega)
    obtain ⟨s2, e2, i2⟩ := hs (lo + n) s1 (by omega) (by omega) i1
    refine ⟨s2, ?_, i2⟩
    rw [List.range'_concat, List.foldl_append, e1]
    simpa using e2

section
variable {F : Type}

theorem CBuf.get_lt {b : CBuf F} {i : ℕ} (h : i < b.size) : b.get i = some (b.val i) := by
  simp [CBuf.get, h]

theorem CBuf.set_lt {b : CBuf F} {i : ℕ} (h : i < b.size) (v : F) :
    b.set i v = some ⟨b.size, fun k => if k = i then v else b.val k⟩ := by
  simp [CBuf.set, h]

end

theorem termIdx_eq (nam1 nam2 k i j : ℕ) : termIdx nam1 nam2 k i j = (k * nam1 + i) * nam2 + j := by
  unfold termIdx; ring

theorem row_lt {m n i j : ℕ} (hi : i < m) (hj : j < n) : i * n + j < m * n := by
  have : (i + 1) * n ≤ m * n := Nat.mul_le_mul_right n hi
  rw [Nat.add_mul, Nat.one_mul] at this
  omega

theorem row_inj {n i j i' j' : ℕ} (hj : j < n) (hj' : j' < n) (h : i * n + j = i' * n + j') :
    i = i' ∧ j = j' := by
  have h1 := congrArg (· / n) h
  simp only [Nat.add_comm (_ * n), Nat.add_mul_div_right _ _ (show 0 < n by omega),
    Nat.div_eq_of_lt hj, Nat.div_eq_of_lt hj', Nat.zero_add] at h1
  subst h1
  exact ⟨rfl, by omega⟩

theorem termIdx_lt {K nam1 nam2 k i j : ℕ} (hk : k < K) (hi : i < nam1) (hj : j < nam2) :
    termIdx nam1 nam2 k i j < K * nam1 * nam2 := by
  rw [termIdx_eq]
  exact row_lt (row_lt hk hi) hj

theorem termIdx_inj {nam1 nam2 k i j k' i' j' : ℕ} (hi : i < nam1) (hj : j < nam2) (hi' : i' < nam1)
    (hj' : j' < nam2) (h : termIdx nam1 nam2 k i j = termIdx nam1 nam2 k' i' j') :
    k = k' ∧ i = i' ∧ j = j' := by
  rw [termIdx_eq, termIdx_eq] at h
  obtain ⟨h1, h2⟩ := row_inj hj hj' h
  obtain ⟨h3, h4⟩ := row_inj hi hi' h1
  exact ⟨h3, h4, h2⟩

/-- The elements selected by `W` hold the values `S`. -/
def Fill (K nam1 nam2 : ℕ) (S : ℕ → ℕ → ℕ → ℝ) (W : ℕ → ℕ → ℕ → Prop) (t : CBuf ℝ) : Prop :=
  t.size = K * nam1 * nam2 ∧ ∀ k i j, k < K → i < nam1 → j < nam2 → W k i j →
    t.val (termIdx nam1 nam2 k i j) = S k i j

section
variable {K nam1 nam2 : ℕ} {S : ℕ → ℕ → ℕ → ℝ} {W : ℕ → ℕ → ℕ → Prop} {t : CBuf ℝ}

theorem Fill.mono (h : Fill K nam1 nam2 S W t) {W' : ℕ → ℕ → ℕ → Prop}
    (hW : ∀ k i j, k < K → i < nam1 → j < nam2 → W' k i j → W k i j) : Fill K nam1 nam2 S W' t :=
  ⟨h.1, fun k i j hk hi hj w => h.2 k i j hk hi hj (hW k i j hk hi hj w)⟩

theorem Fill.get (h : Fill K nam1 nam2 S W t) {k i j : ℕ} (hk : k < K) (hi : i < nam1) (hj : j < nam2)
    (hW : W k i j) : t.get (termIdx nam1 nam2 k i j) = some (S k i j) := by
  rw [CBuf.get_lt (by rw [h.1]; exact termIdx_lt hk hi hj), h.2 k i j hk hi hj hW]

theorem Fill.store (h : Fill K nam1 nam2 S W t) {k i j : ℕ} (hk : k < K) (hi : i < nam1) (hj : j < nam2)
    {v : ℝ} (hv : v = S k i j) (W' : ℕ → ℕ → ℕ → Prop)
    (hW : ∀ k' i' j', k' < K → i' < nam1 → j' < nam2 → W' k' i' j' →
      W k' i' j' ∨ (k' = k ∧ i' = i ∧ j' = j)) :
    ∃ t', t.set (termIdx nam1 nam2 k i j) v = some t' ∧ Fill K nam1 nam2 S W' t' := by
  rw [CBuf.set_lt (by rw [h.1]; exact termIdx_lt hk hi hj)]
  refine ⟨_, rfl, h.1, fun k' i' j' hk' hi' hj' w => ?_⟩
  simp only
  split_ifs with he
  · obtain ⟨rfl, rfl, rfl⟩ := termIdx_inj hi' hj' hi hj he
    exact hv
  · rcases hW k' i' j' hk' hi' hj' w with h1 | ⟨rfl, rfl, rfl⟩
    · exact h.2 k' i' j' hk' hi' hj' h1
    · exact absurd rfl he

theorem Fill.poke (h : Fill K nam1 nam2 S W t) {k i j : ℕ} (hk : k < K) (hi : i < nam1) (hj : j < nam2)
    (hn : ¬ W k i j) (v : ℝ) :
    ∃ t', t.set (termIdx nam1 nam2 k i j) v = some t' ∧ Fill K nam1 nam2 S W t' ∧
      t'.get (termIdx nam1 nam2 k i j) = some v := by
  have hlt : termIdx nam1 nam2 k i j < t.size := by rw [h.1]; exact termIdx_lt hk hi hj
  rw [CBuf.set_lt hlt]
  refine ⟨_, rfl, ⟨h.1, fun k' i' j' hk' hi' hj' w => ?_⟩, ?_⟩
  · simp only
    split_ifs with he
    · obtain ⟨rfl, rfl, rfl⟩ := termIdx_inj hi' hj' hi hj he
      exact absurd w hn
    · exact h.2 k' i' j' hk' hi' hj' w
  · rw [CBuf.get_lt (by simpa using hlt)]
    simp

end

/-- The functions of math.h in exact arithmetic. -/
noncomputable def realOE : OEOps ℝ := ⟨Real.sqrt, Real.exp, Real.pi⟩

/-- Values of the overlap terms. -/
noncomputable def ovlTab (a1 : ℝ) (A : Dir → ℝ) (a2 : ℝ) (B : Dir → ℝ) (k i j : ℕ) : ℝ :=
  ovl1 a1 (A (dirC k)) a2 (B (dirC k)) i j

theorem overlapTerms_ok {a1 a2 : ℝ} (h1 : 0 < a1) (h2 : 0 < a2) (A B : Dir → ℝ) {nam1 nam2 : ℕ}
    (hn1 : 0 < nam1) (hn2 : 0 < nam2) (t : CBuf ℝ) (hsz : t.size = 3 * nam1 * nam2) :
    ∃ t', overlapTerms realOE a1 A a2 B nam1 nam2 t = some t' ∧
      Fill 3 nam1 nam2 (ovlTab a1 A a2 B) (fun _ _ _ => True) t' := by
  have key := forLoop_ok (lo := 0) (hi := 3) (s := t)
    (I := fun d t => Fill 3 nam1 nam2 (ovlTab a1 A a2 B) (fun k _ _ => k < d) t)
    (body := fun d t =>
    let dd := dirC d
    let ix := termIdx nam1 nam2 d
    let AB := A dd - B dd
    let P := oePar a1 A a2 B
    let ops := realOE
    (t.set (ix 0 0) (ops.sqrt (ops.pi * P.oop) * ops.exp (-P.mu * (AB * AB)))).bind fun t =>
    (forLoop 1 nam1 (fun i t =>
      (t.get (ix (i - 1) 0)).bind fun s1 =>
      (t.set (ix i 0) (P.PA dd * s1)).bind fun t =>
      if 1 < i then
        (t.get (ix i 0)).bind fun s0 => (t.get (ix (i - 2) 0)).bind fun s2 =>
        t.set (ix i 0) (s0 + ((i - 1 : ℕ) : ℝ) * P.oo2p * s2)
      else some t) t).bind fun t =>
    (forLoop 1 nam2 (fun j t =>
      (t.get (ix 0 (j - 1))).bind fun s1 =>
      (t.set (ix 0 j) (P.PB dd * s1)).bind fun t =>
      if 1 < j then
        (t.get (ix 0 j)).bind fun s0 => (t.get (ix 0 (j - 2))).bind fun s2 =>
        t.set (ix 0 j) (s0 + ((j - 1 : ℕ) : ℝ) * P.oo2p * s2)
      else some t) t).bind fun t =>
    forLoop 1 nam1 (fun i t =>
      forLoop 1 nam2 (fun j t =>
        (t.get (ix i (j - 1))).bind fun s1 => (t.get (ix (i - 1) (j - 1))).bind fun s3 =>
        (t.set (ix i j) (P.PB dd * s1 + P.oo2p * (i : ℝ) * s3)).bind fun t =>
        if 1 < j then
          (t.get (ix i j)).bind fun s0 => (t.get (ix i (j - 2))).bind fun s2 =>
          t.set (ix i j) (s0 + P.oo2p * ((j - 1 : ℕ) : ℝ) * s2)
        else some t) t) t) (Nat.zero_le _) ⟨hsz, fun k i j _ _ _ w => absurd w (by omega)⟩ ?_
  · obtain ⟨t', e, hF⟩ := key
    exact ⟨t', e, hF.mono fun k _ _ hk _ _ _ => hk⟩
  intro d t _ hd hF
  simp only
  set S := ovlTab a1 A a2 B with hS
  set dd := dirC d with hdd
  have rI : ∀ i j, S d (i + 1) j = (oePar a1 A a2 B).PA dd * S d i j +
      (oePar a1 A a2 B).oo2p * ((i : ℝ) * S d (i - 1) j + (j : ℝ) * S d i (j - 1)) :=
    fun i j => ovl1_succ_left h1 h2 _ _ i j
  have rJ : ∀ i j, S d i (j + 1) = (oePar a1 A a2 B).PB dd * S d i j +
      (oePar a1 A a2 B).oo2p * ((i : ℝ) * S d (i - 1) j + (j : ℝ) * S d i (j - 1)) :=
    fun i j => ovl1_succ_right h1 h2 _ _ i j
  -- first element
  obtain ⟨t1, e1, f1⟩ := hF.store (k := d) (i := 0) (j := 0) hd hn1 hn2
    (v := realOE.sqrt (realOE.pi * (oePar a1 A a2 B).oop) *
      realOE.exp (-(oePar a1 A a2 B).mu * ((A dd - B dd) * (A dd - B dd))))
    (ovl1_zero h1 h2 _ _).symm (fun k i j => k < d ∨ (k = d ∧ j = 0 ∧ i < 1)) (by omega)
  rw [e1, Option.bind_some]
  -- first column
  have k2 := forLoop_ok (lo := 1) (hi := nam1) (s := t1)
    (I := fun n t => Fill 3 nam1 nam2 S (fun k i j => k < d ∨ (k = d ∧ j = 0 ∧ i < n)) t)
    (body := fun i t =>
      (t.get (termIdx nam1 nam2 d (i - 1) 0)).bind fun s1 =>
      (t.set (termIdx nam1 nam2 d i 0) ((oePar a1 A a2 B).PA dd * s1)).bind fun t =>
      if 1 < i then
        (t.get (termIdx nam1 nam2 d i 0)).bind fun s0 => (t.get (termIdx nam1 nam2 d (i - 2) 0)).bind fun s2 =>
        t.set (termIdx nam1 nam2 d i 0) (s0 + ((i - 1 : ℕ) : ℝ) * (oePar a1 A a2 B).oo2p * s2)
      else some t) hn1 f1 (by
    intro i t hi1 hi2 f
    have hr := rI (i - 1) 0
    rw [Nat.sub_add_cancel hi1] at hr
    rw [f.get hd (by omega) hn2 (by omega), Option.bind_some]
    obtain ⟨t', e', f', g'⟩ := f.poke (k := d) (i := i) (j := 0) hd hi2 hn2 (by omega)
      ((oePar a1 A a2 B).PA dd * S d (i - 1) 0)
    by_cases h : 1 < i
    · rw [e', Option.bind_some, if_pos h, g', Option.bind_some, f'.get hd (by omega) hn2 (by omega),
        Option.bind_some]
      refine f'.store hd hi2 hn2 ?_ _ (by omega)
      rw [hr, show i - 1 - 1 = i - 2 by omega]
      push_cast; ring
    · obtain rfl : i = 1 := by omega
      obtain ⟨t'', e'', f''⟩ := f.store (k := d) (i := 1) (j := 0) hd hi2 hn2
        (v := (oePar a1 A a2 B).PA dd * S d (1 - 1) 0) (by rw [hr]; simp)
        (fun k i j => k < d ∨ (k = d ∧ j = 0 ∧ i < 1 + 1)) (by omega)
      rw [e'', Option.bind_some, if_neg (by omega)]
      exact ⟨_, rfl, f''⟩)
  obtain ⟨t2, e2, f2⟩ := k2
  rw [e2, Option.bind_some]
  -- first row
  have k3 := forLoop_ok (lo := 1) (hi := nam2) (s := t2)
    (I := fun n t => Fill 3 nam1 nam2 S (fun k i j => k < d ∨ (k = d ∧ (j = 0 ∨ (i = 0 ∧ j < n)))) t)
    (body := fun j t =>
      (t.get (termIdx nam1 nam2 d 0 (j - 1))).bind fun s1 =>
      (t.set (termIdx nam1 nam2 d 0 j) ((oePar a1 A a2 B).PB dd * s1)).bind fun t =>
      if 1 < j then
        (t.get (termIdx nam1 nam2 d 0 j)).bind fun s0 => (t.get (termIdx nam1 nam2 d 0 (j - 2))).bind fun s2 =>
        t.set (termIdx nam1 nam2 d 0 j) (s0 + ((j - 1 : ℕ) : ℝ) * (oePar a1 A a2 B).oo2p * s2)
      else some t) hn2 (f2.mono (by omega)) (by
    intro j t hj1 hj2 f
    have hr := rJ 0 (j - 1)
    rw [Nat.sub_add_cancel hj1] at hr
    rw [f.get hd hn1 (by omega) (by omega), Option.bind_some]
    obtain ⟨t', e', f', g'⟩ := f.poke (k := d) (i := 0) (j := j) hd hn1 hj2 (by omega)
      ((oePar a1 A a2 B).PB dd * S d 0 (j - 1))
    by_cases h : 1 < j
    · rw [e', Option.bind_some, if_pos h, g', Option.bind_some, f'.get hd hn1 (by omega) (by omega),
        Option.bind_some]
      refine f'.store hd hn1 hj2 ?_ _ (by omega)
      rw [hr, show j - 1 - 1 = j - 2 by omega]
      push_cast; ring
    · obtain rfl : j = 1 := by omega
      obtain ⟨t'', e'', f''⟩ := f.store (k := d) (i := 0) (j := 1) hd hn1 hj2
        (v := (oePar a1 A a2 B).PB dd * S d 0 (1 - 1)) (by rw [hr]; simp)
        (fun k i j => k < d ∨ (k = d ∧ (j = 0 ∨ (i = 0 ∧ j < 1 + 1)))) (by omega)
      rw [e'', Option.bind_some, if_neg (by omega)]
      exact ⟨_, rfl, f''⟩)
  obtain ⟨t3, e3, f3⟩ := k3
  rw [e3, Option.bind_some]
  -- the rest
  have k4 := forLoop_ok (lo := 1) (hi := nam1) (s := t3)
    (I := fun n t => Fill 3 nam1 nam2 S (fun k i j => k < d ∨ (k = d ∧ (j = 0 ∨ i < n))) t)
    (body := fun i t =>
      forLoop 1 nam2 (fun j t =>
        (t.get (termIdx nam1 nam2 d i (j - 1))).bind fun s1 =>
        (t.get (termIdx nam1 nam2 d (i - 1) (j - 1))).bind fun s3 =>
        (t.set (termIdx nam1 nam2 d i j) ((oePar a1 A a2 B).PB dd * s1 + (oePar a1 A a2 B).oo2p * (i : ℝ) * s3)).bind fun t =>
        if 1 < j then
          (t.get (termIdx nam1 nam2 d i j)).bind fun s0 => (t.get (termIdx nam1 nam2 d i (j - 2))).bind fun s2 =>
          t.set (termIdx nam1 nam2 d i j) (s0 + (oePar a1 A a2 B).oo2p * ((j - 1 : ℕ) : ℝ) * s2)
        else some t) t) hn1 (f3.mono (by omega)) (by
    intro i t hi1 hi2 f
    have k5 := forLoop_ok (lo := 1) (hi := nam2) (s := t)
      (I := fun n t => Fill 3 nam1 nam2 S
        (fun k i' j => k < d ∨ (k = d ∧ (j = 0 ∨ i' < i ∨ (i' = i ∧ j < n)))) t)
      (body := fun j t =>
        (t.get (termIdx nam1 nam2 d i (j - 1))).bind fun s1 =>
        (t.get (termIdx nam1 nam2 d (i - 1) (j - 1))).bind fun s3 =>
        (t.set (termIdx nam1 nam2 d i j) ((oePar a1 A a2 B).PB dd * s1 + (oePar a1 A a2 B).oo2p * (i : ℝ) * s3)).bind fun t =>
        if 1 < j then
          (t.get (termIdx nam1 nam2 d i j)).bind fun s0 => (t.get (termIdx nam1 nam2 d i (j - 2))).bind fun s2 =>
          t.set (termIdx nam1 nam2 d i j) (s0 + (oePar a1 A a2 B).oo2p * ((j - 1 : ℕ) : ℝ) * s2)
        else some t) hn2 (f.mono (by omega)) (by
      intro j t hj1 hj2 f
      have hr := rJ i (j - 1)
      rw [Nat.sub_add_cancel hj1] at hr
      rw [f.get hd hi2 (by omega) (by omega), Option.bind_some,
        f.get hd (show i - 1 < nam1 by omega) (by omega) (by omega), Option.bind_some]
      obtain ⟨t', e', f', g'⟩ := f.poke (k := d) (i := i) (j := j) hd hi2 hj2 (by omega)
        ((oePar a1 A a2 B).PB dd * S d i (j - 1) + (oePar a1 A a2 B).oo2p * (i : ℝ) * S d (i - 1) (j - 1))
      by_cases h : 1 < j
      · rw [e', Option.bind_some, if_pos h, g', Option.bind_some, f'.get hd hi2 (by omega) (by omega),
          Option.bind_some]
        refine f'.store hd hi2 hj2 ?_ _ (by omega)
        rw [hr, show j - 1 - 1 = j - 2 by omega]
        push_cast; ring
      · obtain rfl : j = 1 := by omega
        obtain ⟨t'', e'', f''⟩ := f.store (k := d) (i := i) (j := 1) hd hi2 hj2
          (v := (oePar a1 A a2 B).PB dd * S d i (1 - 1) + (oePar a1 A a2 B).oo2p * (i : ℝ) * S d (i - 1) (1 - 1))
          (by rw [hr]; simp; ring)
          (fun k i' j => k < d ∨ (k = d ∧ (j = 0 ∨ i' < i ∨ (i' = i ∧ j < 1 + 1)))) (by omega)
        rw [e'', Option.bind_some, if_neg (by omega)]
        exact ⟨_, rfl, f''⟩)
    obtain ⟨t5, e5, f5⟩ := k5
    exact ⟨t5, e5, f5.mono (by omega)⟩)
  obtain ⟨t4, e4, f4⟩ := k4
  exact ⟨t4, e4, f4.mono (by omega)⟩

/-- Values of the kinetic energy terms: `S` in blocks 0 to 2, `T` in blocks 3 to 5. -/
noncomputable def keTab (a1 : ℝ) (A : Dir → ℝ) (a2 : ℝ) (B : Dir → ℝ) (k i j : ℕ) : ℝ :=
  if k < 3 then ovl1 a1 (A (dirC k)) a2 (B (dirC k)) i j
  else kin1 a1 (A (dirC (k - 3))) a2 (B (dirC (k - 3))) i j

theorem keTerms_ok {a1 a2 : ℝ} (h1 : 0 < a1) (h2 : 0 < a2) (A B : Dir → ℝ) {nam1 nam2 : ℕ}
    (hn1 : 0 < nam1) (hn2 : 0 < nam2) (t : CBuf ℝ) (hsz : t.size = 6 * nam1 * nam2) :
    ∃ t', keTerms realOE a1 A a2 B nam1 nam2 t = some t' ∧
      Fill 6 nam1 nam2 (keTab a1 A a2 B) (fun _ _ _ => True) t' := by
  unfold keTerms
  simp only
  suffices h : ∃ t', _ = some t' ∧
      Fill 6 nam1 nam2 (keTab a1 A a2 B) (fun k _ _ => k % 3 < 3) t' by
    obtain ⟨t', e, hF⟩ := h
    exact ⟨t', e, hF.mono (by omega)⟩
  refine forLoop_ok
    (I := fun d t => Fill 6 nam1 nam2 (keTab a1 A a2 B) (fun k _ _ => k % 3 < d) t)
    (Nat.zero_le _) ⟨hsz, fun k i j _ _ _ w => absurd w (by omega)⟩ ?_
  intro d t _ hd hF
  set S := keTab a1 A a2 B with hS
  set dd := dirC d with hdd
  set P := oePar a1 A a2 B with hP
  have sS : ∀ i j, S d i j = ovl1 a1 (A dd) a2 (B dd) i j := fun i j => by
    rw [hS]; simp [keTab, hd, hdd]
  have sT : ∀ i j, S (d + 3) i j = kin1 a1 (A dd) a2 (B dd) i j := fun i j => by
    rw [hS]; simp [keTab, hdd]
  have rI : ∀ i j, S d (i + 1) j = P.PA dd * S d i j +
      P.oo2p * ((i : ℝ) * S d (i - 1) j + (j : ℝ) * S d i (j - 1)) := fun i j => by
    simp only [sS]; exact ovl1_succ_left h1 h2 _ _ i j
  have rJ : ∀ i j, S d i (j + 1) = P.PB dd * S d i j +
      P.oo2p * ((i : ℝ) * S d (i - 1) j + (j : ℝ) * S d i (j - 1)) := fun i j => by
    simp only [sS]; exact ovl1_succ_right h1 h2 _ _ i j
  have qI : ∀ i j, S (d + 3) (i + 1) j = P.PA dd * S (d + 3) i j +
      P.oo2p * ((i : ℝ) * S (d + 3) (i - 1) j + (j : ℝ) * S (d + 3) i (j - 1)) +
      (2 * P.mu * S d (i + 1) j - a2 * P.oop * (i : ℝ) * S d (i - 1) j) := fun i j => by
    simp only [sS, sT]; exact kin1_succ_left h1 h2 _ _ i j
  have qJ : ∀ i j, S (d + 3) i (j + 1) = P.PB dd * S (d + 3) i j +
      P.oo2p * ((i : ℝ) * S (d + 3) (i - 1) j + (j : ℝ) * S (d + 3) i (j - 1)) +
      (2 * P.mu * S d i (j + 1) - a1 * P.oop * (j : ℝ) * S d i (j - 1)) := fun i j => by
    simp only [sS, sT]; exact kin1_succ_right h1 h2 _ _ i j
  have d6 : d < 6 := by omega
  have d36 : d + 3 < 6 := by omega
  -- first elements
  obtain ⟨t1, e1, f1⟩ := hF.store (k := d) (i := 0) (j := 0) d6 hn1 hn2
    (v := realOE.sqrt (realOE.pi * P.oop) *
      realOE.exp (-P.mu * ((A dd - B dd) * (A dd - B dd))))
    (by rw [sS]; exact (ovl1_zero h1 h2 _ _).symm)
    (fun k i j => k % 3 < d ∨ (k = d ∧ j = 0 ∧ i < 1)) (by omega)
  rw [e1, Option.bind_some, f1.get d6 hn1 hn2 (by omega), Option.bind_some]
  obtain ⟨t1', e1', f1'⟩ := f1.store (k := d + 3) (i := 0) (j := 0) d36 hn1 hn2
    (v := S d 0 0 * (a1 - 2 * a1 * a1 * (P.PA dd * P.PA dd + P.oo2p)))
    (by rw [sS, sT]; exact (kin1_zero h1 h2 _ _).symm)
    (fun k i j => k % 3 < d ∨ (k % 3 = d ∧ j = 0 ∧ i < 1)) (by omega)
  rw [e1', Option.bind_some]
  -- first column
  have k2 : ∃ t', _ = some t' ∧
      Fill 6 nam1 nam2 S (fun k i j => k % 3 < d ∨ (k % 3 = d ∧ j = 0 ∧ i < nam1)) t' :=
    forLoop_ok (lo := 1) (hi := nam1) (s := t1')
    (I := fun n t => Fill 6 nam1 nam2 S (fun k i j => k % 3 < d ∨ (k % 3 = d ∧ j = 0 ∧ i < n)) t)
    (body := fun i t =>
      (t.get (termIdx nam1 nam2 d (i - 1) 0)).bind fun s1 =>
      (t.set (termIdx nam1 nam2 d i 0) (P.PA dd * s1)).bind fun t =>
      (if 1 < i then
        (t.get (termIdx nam1 nam2 d i 0)).bind fun s0 => (t.get (termIdx nam1 nam2 d (i - 2) 0)).bind fun s2 =>
        t.set (termIdx nam1 nam2 d i 0) (s0 + ((i - 1 : ℕ) : ℝ) * P.oo2p * s2)
      else some t).bind fun t =>
      (t.get (termIdx nam1 nam2 (d + 3) (i - 1) 0)).bind fun t1 => (t.get (termIdx nam1 nam2 d i 0)).bind fun s0 =>
      (t.set (termIdx nam1 nam2 (d + 3) i 0) (P.PA dd * t1 + 2 * P.mu * s0)).bind fun t =>
      if 1 < i then
        (t.get (termIdx nam1 nam2 (d + 3) i 0)).bind fun t0 => (t.get (termIdx nam1 nam2 (d + 3) (i - 2) 0)).bind fun t2 =>
        (t.get (termIdx nam1 nam2 d (i - 2) 0)).bind fun s2 =>
        t.set (termIdx nam1 nam2 (d + 3) i 0) (t0 + (((i - 1 : ℕ) : ℝ) * P.oo2p * t2 - a2 * P.oop * ((i - 1 : ℕ) : ℝ) * s2))
      else some t) hn1 f1' (by
    intro i t hi1 hi2 f
    have hr := rI (i - 1) 0
    have hq := qI (i - 1) 0
    rw [Nat.sub_add_cancel hi1] at hr hq
    rw [f.get d6 (by omega) hn2 (by omega), Option.bind_some]
    by_cases h : 1 < i
    · obtain ⟨ta, ea, fa, ga⟩ := f.poke (k := d) (i := i) (j := 0) d6 hi2 hn2 (by omega)
        (P.PA dd * S d (i - 1) 0)
      rw [ea, Option.bind_some, if_pos h, ga, Option.bind_some, fa.get d6 (by omega) hn2 (by omega),
        Option.bind_some]
      obtain ⟨tb, eb, fb⟩ := fa.store (k := d) (i := i) (j := 0) d6 hi2 hn2
        (v := P.PA dd * S d (i - 1) 0 + ((i - 1 : ℕ) : ℝ) * P.oo2p * S d (i - 2) 0)
        (by rw [hr, show i - 1 - 1 = i - 2 by omega]; push_cast; ring)
        (fun k i' j => k % 3 < d ∨ (k % 3 = d ∧ j = 0 ∧ (i' < i ∨ (k = d ∧ i' = i)))) (by omega)
      rw [eb, Option.bind_some, fb.get d36 (by omega) hn2 (by omega), Option.bind_some,
        fb.get d6 hi2 hn2 (by omega), Option.bind_some]
      obtain ⟨tc, ec, fc, gc⟩ := fb.poke (k := d + 3) (i := i) (j := 0) d36 hi2 hn2 (by omega)
        (P.PA dd * S (d + 3) (i - 1) 0 + 2 * P.mu * S d i 0)
      rw [ec, Option.bind_some, if_pos h, gc, Option.bind_some, fc.get d36 (by omega) hn2 (by omega),
        Option.bind_some, fc.get d6 (show i - 2 < nam1 by omega) hn2 (by omega), Option.bind_some]
      refine fc.store d36 hi2 hn2 ?_ _ (by omega)
      rw [hq, show i - 1 - 1 = i - 2 by omega]
      push_cast; ring
    · obtain rfl : i = 1 := by omega
      obtain ⟨tb, eb, fb⟩ := f.store (k := d) (i := 1) (j := 0) d6 hi2 hn2
        (v := P.PA dd * S d (1 - 1) 0) (by rw [hr]; simp)
        (fun k i' j => k % 3 < d ∨ (k % 3 = d ∧ j = 0 ∧ (i' < 1 ∨ (k = d ∧ i' = 1)))) (by omega)
      rw [eb, Option.bind_some, if_neg (by omega), Option.bind_some,
        fb.get d36 (by omega) hn2 (by omega), Option.bind_some,
        fb.get d6 hi2 hn2 (by omega), Option.bind_some]
      obtain ⟨tc, ec, fc⟩ := fb.store (k := d + 3) (i := 1) (j := 0) d36 hi2 hn2
        (v := P.PA dd * S (d + 3) (1 - 1) 0 + 2 * P.mu * S d 1 0) (by rw [hq]; simp)
        (fun k i j => k % 3 < d ∨ (k % 3 = d ∧ j = 0 ∧ i < 1 + 1)) (by omega)
      rw [ec, Option.bind_some, if_neg (by omega)]
      exact ⟨_, rfl, fc⟩)
  obtain ⟨t2, e2, f2⟩ := k2
  rw [e2, Option.bind_some]
  -- first row
  have k3 : ∃ t', _ = some t' ∧
      Fill 6 nam1 nam2 S (fun k i j => k % 3 < d ∨ (k % 3 = d ∧ (j = 0 ∨ (i = 0 ∧ j < nam2)))) t' :=
    forLoop_ok (lo := 1) (hi := nam2) (s := t2)
    (I := fun n t => Fill 6 nam1 nam2 S
      (fun k i j => k % 3 < d ∨ (k % 3 = d ∧ (j = 0 ∨ (i = 0 ∧ j < n)))) t)
    (body := fun j t =>
      (t.get (termIdx nam1 nam2 d 0 (j - 1))).bind fun s1 =>
      (t.set (termIdx nam1 nam2 d 0 j) (P.PB dd * s1)).bind fun t =>
      (if 1 < j then
        (t.get (termIdx nam1 nam2 d 0 j)).bind fun s0 => (t.get (termIdx nam1 nam2 d 0 (j - 2))).bind fun s2 =>
        t.set (termIdx nam1 nam2 d 0 j) (s0 + ((j - 1 : ℕ) : ℝ) * P.oo2p * s2)
      else some t).bind fun t =>
      (t.get (termIdx nam1 nam2 (d + 3) 0 (j - 1))).bind fun t1 => (t.get (termIdx nam1 nam2 d 0 j)).bind fun s0 =>
      (t.set (termIdx nam1 nam2 (d + 3) 0 j) (P.PB dd * t1 + 2 * P.mu * s0)).bind fun t =>
      if 1 < j then
        (t.get (termIdx nam1 nam2 (d + 3) 0 j)).bind fun t0 => (t.get (termIdx nam1 nam2 (d + 3) 0 (j - 2))).bind fun t2 =>
        (t.get (termIdx nam1 nam2 d 0 (j - 2))).bind fun s2 =>
        t.set (termIdx nam1 nam2 (d + 3) 0 j) (t0 + (((j - 1 : ℕ) : ℝ) * P.oo2p * t2 - a1 * P.oop * ((j - 1 : ℕ) : ℝ) * s2))
      else some t) hn2 (f2.mono (by omega)) (by
    intro j t hj1 hj2 f
    have hr := rJ 0 (j - 1)
    have hq := qJ 0 (j - 1)
    rw [Nat.sub_add_cancel hj1] at hr hq
    rw [f.get d6 hn1 (by omega) (by omega), Option.bind_some]
    by_cases h : 1 < j
    · obtain ⟨ta, ea, fa, ga⟩ := f.poke (k := d) (i := 0) (j := j) d6 hn1 hj2 (by omega)
        (P.PB dd * S d 0 (j - 1))
      rw [ea, Option.bind_some, if_pos h, ga, Option.bind_some, fa.get d6 hn1 (by omega) (by omega),
        Option.bind_some]
      obtain ⟨tb, eb, fb⟩ := fa.store (k := d) (i := 0) (j := j) d6 hn1 hj2
        (v := P.PB dd * S d 0 (j - 1) + ((j - 1 : ℕ) : ℝ) * P.oo2p * S d 0 (j - 2))
        (by rw [hr, show j - 1 - 1 = j - 2 by omega]; push_cast; ring)
        (fun k i j' => k % 3 < d ∨ (k % 3 = d ∧ (j' = 0 ∨ (i = 0 ∧ (j' < j ∨ (k = d ∧ j' = j)))))) (by omega)
      rw [eb, Option.bind_some, fb.get d36 hn1 (by omega) (by omega), Option.bind_some,
        fb.get d6 hn1 hj2 (by omega), Option.bind_some]
      obtain ⟨tc, ec, fc, gc⟩ := fb.poke (k := d + 3) (i := 0) (j := j) d36 hn1 hj2 (by omega)
        (P.PB dd * S (d + 3) 0 (j - 1) + 2 * P.mu * S d 0 j)
      rw [ec, Option.bind_some, if_pos h, gc, Option.bind_some, fc.get d36 hn1 (by omega) (by omega),
        Option.bind_some, fc.get d6 hn1 (show j - 2 < nam2 by omega) (by omega), Option.bind_some]
      refine fc.store d36 hn1 hj2 ?_ _ (by omega)
      rw [hq, show j - 1 - 1 = j - 2 by omega]
      push_cast; ring
    · obtain rfl : j = 1 := by omega
      obtain ⟨tb, eb, fb⟩ := f.store (k := d) (i := 0) (j := 1) d6 hn1 hj2
        (v := P.PB dd * S d 0 (1 - 1)) (by rw [hr]; simp)
        (fun k i j' => k % 3 < d ∨ (k % 3 = d ∧ (j' = 0 ∨ (i = 0 ∧ (j' < 1 ∨ (k = d ∧ j' = 1)))))) (by omega)
      rw [eb, Option.bind_some, if_neg (by omega), Option.bind_some,
        fb.get d36 hn1 (by omega) (by omega), Option.bind_some,
        fb.get d6 hn1 hj2 (by omega), Option.bind_some]
      obtain ⟨tc, ec, fc⟩ := fb.store (k := d + 3) (i := 0) (j := 1) d36 hn1 hj2
        (v := P.PB dd * S (d + 3) 0 (1 - 1) + 2 * P.mu * S d 0 1) (by rw [hq]; simp)
        (fun k i j => k % 3 < d ∨ (k % 3 = d ∧ (j = 0 ∨ (i = 0 ∧ j < 1 + 1)))) (by omega)
      rw [ec, Option.bind_some, if_neg (by omega)]
      exact ⟨_, rfl, fc⟩)
  obtain ⟨t3, e3, f3⟩ := k3
  rw [e3, Option.bind_some]
  -- the rest
  suffices h : ∃ t', _ = some t' ∧
      Fill 6 nam1 nam2 S (fun k i j => k % 3 < d ∨ (k % 3 = d ∧ (j = 0 ∨ i < nam1))) t' by
    obtain ⟨t', e, f⟩ := h
    exact ⟨t', e, f.mono (by omega)⟩
  refine forLoop_ok (lo := 1) (hi := nam1) (s := t3)
    (I := fun n t => Fill 6 nam1 nam2 S (fun k i j => k % 3 < d ∨ (k % 3 = d ∧ (j = 0 ∨ i < n))) t)
    hn1 (f3.mono (by omega)) ?_
  intro i t hi1 hi2 f
  suffices h : ∃ t', _ = some t' ∧ Fill 6 nam1 nam2 S
      (fun k i' j => k % 3 < d ∨ (k % 3 = d ∧ (j = 0 ∨ i' < i ∨ (i' = i ∧ j < nam2)))) t' by
    obtain ⟨t', e, f⟩ := h
    exact ⟨t', e, f.mono (by omega)⟩
  refine forLoop_ok (lo := 1) (hi := nam2) (s := t)
    (I := fun n t => Fill 6 nam1 nam2 S
      (fun k i' j => k % 3 < d ∨ (k % 3 = d ∧ (j = 0 ∨ i' < i ∨ (i' = i ∧ j < n)))) t)
    hn2 (f.mono (by omega)) ?_
  clear f
  intro j t hj1 hj2 f
  have hr := rJ i (j - 1)
  have hq := qJ i (j - 1)
  rw [Nat.sub_add_cancel hj1] at hr hq
  rw [f.get d6 hi2 (by omega) (by omega), Option.bind_some,
    f.get d6 (show i - 1 < nam1 by omega) (by omega) (by omega), Option.bind_some]
  by_cases h : 1 < j
  · obtain ⟨ta, ea, fa, ga⟩ := f.poke (k := d) (i := i) (j := j) d6 hi2 hj2 (by omega)
      (P.PB dd * S d i (j - 1) + P.oo2p * (i : ℝ) * S d (i - 1) (j - 1))
    rw [ea, Option.bind_some, if_pos h, ga, Option.bind_some, fa.get d6 hi2 (by omega) (by omega),
      Option.bind_some]
    obtain ⟨tb, eb, fb⟩ := fa.store (k := d) (i := i) (j := j) d6 hi2 hj2
      (v := P.PB dd * S d i (j - 1) + P.oo2p * (i : ℝ) * S d (i - 1) (j - 1) +
        P.oo2p * ((j - 1 : ℕ) : ℝ) * S d i (j - 2))
      (by rw [hr, show j - 1 - 1 = j - 2 by omega]; push_cast; ring)
      (fun k i' j' => k % 3 < d ∨ (k % 3 = d ∧ (j' = 0 ∨ i' < i ∨ (i' = i ∧ (j' < j ∨ (k = d ∧ j' = j))))))
      (by omega)
    rw [eb, Option.bind_some, fb.get d36 hi2 (by omega) (by omega), Option.bind_some,
      fb.get d36 (show i - 1 < nam1 by omega) (by omega) (by omega), Option.bind_some,
      fb.get d6 hi2 hj2 (by omega), Option.bind_some]
    obtain ⟨tc, ec, fc, gc⟩ := fb.poke (k := d + 3) (i := i) (j := j) d36 hi2 hj2 (by omega)
      (P.PB dd * S (d + 3) i (j - 1) + P.oo2p * (i : ℝ) * S (d + 3) (i - 1) (j - 1) + 2 * P.mu * S d i j)
    rw [ec, Option.bind_some, if_pos h, gc, Option.bind_some, fc.get d36 hi2 (by omega) (by omega),
      Option.bind_some, fc.get d6 hi2 (show j - 2 < nam2 by omega) (by omega), Option.bind_some]
    refine fc.store d36 hi2 hj2 ?_ _ (by omega)
    rw [hq, show j - 1 - 1 = j - 2 by omega]
    push_cast; ring
  · obtain rfl : j = 1 := by omega
    obtain ⟨tb, eb, fb⟩ := f.store (k := d) (i := i) (j := 1) d6 hi2 hj2
      (v := P.PB dd * S d i (1 - 1) + P.oo2p * (i : ℝ) * S d (i - 1) (1 - 1)) (by rw [hr]; simp; ring)
      (fun k i' j' => k % 3 < d ∨ (k % 3 = d ∧ (j' = 0 ∨ i' < i ∨ (i' = i ∧ (j' < 1 ∨ (k = d ∧ j' = 1))))))
      (by omega)
    rw [eb, Option.bind_some, if_neg (by omega), Option.bind_some,
      fb.get d36 hi2 (by omega) (by omega), Option.bind_some,
      fb.get d36 (show i - 1 < nam1 by omega) (by omega) (by omega), Option.bind_some,
      fb.get d6 hi2 hj2 (by omega), Option.bind_some]
    obtain ⟨tc, ec, fc⟩ := fb.store (k := d + 3) (i := i) (j := 1) d36 hi2 hj2
      (v := P.PB dd * S (d + 3) i (1 - 1) + P.oo2p * (i : ℝ) * S (d + 3) (i - 1) (1 - 1) + 2 * P.mu * S d i 1)
      (by rw [hq]; simp; ring)
      (fun k i' j => k % 3 < d ∨ (k % 3 = d ∧ (j = 0 ∨ i' < i ∨ (i' = i ∧ j < 1 + 1)))) (by omega)
    rw [ec, Option.bind_some, if_neg (by omega)]
    exact ⟨_, rfl, fc⟩

end Simint
