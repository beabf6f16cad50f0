import Verif.OneElLoops

/-! Lemmas for the recursion of the potential integrals. -/

set_option autoImplicit false

namespace Simint

section
variable {F : Type}

/-- Storing one element of `amwork`. -/
def amUpd (w : AmWork F) (i j k : ℕ) (v : F) : AmWork F :=
  fun i' j' k' => if i' = i ∧ j' = j ∧ k' = k then v else w i' j' k'

theorem amUpd_same (w : AmWork F) (i j k : ℕ) (v : F) : amUpd w i j k v i j k = v := by simp [amUpd]

theorem amUpd_row {w : AmWork F} {i j k i' j' : ℕ} (v : F) (h : ¬ (i' = i ∧ j' = j)) (k' : ℕ) :
    amUpd w i j k v i' j' k' = w i' j' k' := by
  unfold amUpd
  rw [if_neg (fun hh => h ⟨hh.1, hh.2.1⟩)]

theorem amUpd_ne {w : AmWork F} {i j k k' : ℕ} (v : F) (h : k' ≠ k) :
    amUpd w i j k v i j k' = w i j k' := by
  unfold amUpd
  rw [if_neg (fun hh => h hh.2.2)]

theorem amUpd_upd (w : AmWork F) (i j k : ℕ) (v v' : F) :
    amUpd (amUpd w i j k v) i j k v' = amUpd w i j k v' := by
  funext i' j' k'
  unfold amUpd
  split_ifs <;> rfl

/-- Element of component `n` and `o` and order `m` in row `(i,j)`. -/
def amIdx (i j m n o : ℕ) : ℕ := (m * nc i + n) * nc j + o

theorem amIdx_inj {i j m n o m' n' o' : ℕ} (hn : n < nc i) (ho : o < nc j) (hn' : n' < nc i)
    (ho' : o' < nc j) (h : amIdx i j m n o = amIdx i j m' n' o') : m = m' ∧ n = n' ∧ o = o' := by
  obtain ⟨h1, h2⟩ := row_inj ho ho' h
  obtain ⟨h3, h4⟩ := row_inj hn hn' h1
  exact ⟨h3, h4, h2⟩

theorem nc_mono {a b : ℕ} (h : a ≤ b) : nc a ≤ nc b := by
  unfold nc
  exact Nat.div_le_div_right (Nat.mul_le_mul (by omega) (by omega))

theorem amIdx_lt {g : AmDim} {i j m n o : ℕ} (hi : i ≤ g.am1) (hj : j ≤ g.am2)
    (hm : m < g.am1 + 1 + (g.am2 + 1) + 1) (hn : n < nc i) (ho : o < nc j) :
    amIdx i j m n o < g.row := by
  unfold amIdx AmDim.row
  have h1 := row_lt (row_lt hm hn) ho
  have h2 : (g.am1 + 1 + (g.am2 + 1) + 1) * nc i * nc j ≤
      (g.am1 + 1 + (g.am2 + 1) + 1) * nc (g.am1 + 1) * nc (g.am2 + 1) :=
    Nat.mul_le_mul (Nat.mul_le_mul_left _ (nc_mono (by omega))) (nc_mono (by omega))
  have h3 : (g.am1 + 1 + (g.am2 + 1) + 1) * nc (g.am1 + 1) * nc (g.am2 + 1) =
    nc (g.am1 + 1) * nc (g.am2 + 1) * (g.am1 + 1 + (g.am2 + 1) + 1) := by ring
  omega

theorem am_get {g : AmDim} (w : AmWork F) {i j m n o : ℕ} {z : ℤ} (hi : i ≤ g.am1) (hj : j ≤ g.am2)
    (hm : m < g.am1 + 1 + (g.am2 + 1) + 1) (hn : n < nc i) (ho : o < nc j)
    (hz : z = (m * nc i + n) * nc j + o) : g.get w i j z = some (w i j (amIdx i j m n o)) := by
  have h := amIdx_lt hi hj hm hn ho
  have hz' : z = (amIdx i j m n o : ℕ) := by rw [hz]; unfold amIdx; push_cast; ring
  unfold AmDim.get
  rw [hz', if_pos ⟨hi, hj, by positivity, by exact_mod_cast h⟩, Int.toNat_natCast]

theorem am_set {g : AmDim} (w : AmWork F) {i j m n o : ℕ} {k : ℕ} (v : F) (hi : i ≤ g.am1)
    (hj : j ≤ g.am2) (hm : m < g.am1 + 1 + (g.am2 + 1) + 1) (hn : n < nc i) (ho : o < nc j)
    (hk : k = amIdx i j m n o) : g.set w i j k v = some (amUpd w i j k v) := by
  have h := amIdx_lt hi hj hm hn ho
  unfold AmDim.set
  rw [if_pos ⟨hi, hj, by rw [hk]; exact h⟩]
  rfl

theorem compAt_cidx {am : ℕ} {e : Exp} (h : IsComp am e) : compAt am (cidx psi4List e) = e := by
  obtain ⟨h1, h2⟩ := psi4_getElem_cidx h
  rw [compAt_get h1, h2]

theorem recAt_full {am n : ℕ} (ham : am ≤ 18) (hn : n < nc am) :
    ∃ r, recAt am n = some r ∧ r.ijk = compAt am n ∧ IsComp am (compAt am n) ∧
      (∀ d, 0 < (compAt am n).get d → ∃ k, r.m1 d = (k : ℕ) ∧ k < nc (am - 1) ∧
        compAt (am - 1) k = (compAt am n).step d (-1)) ∧
      (∀ d, 1 < (compAt am n).get d → ∃ k, r.m2 d = (k : ℕ) ∧ k < nc (am - 2) ∧
        compAt (am - 2) k = (compAt am n).step d (-2)) ∧
      (0 < am → ∃ d : Dir, dirOf r.dir = some d ∧ 0 < (compAt am n).get d) := by
  rw [← psi4_length] at hn
  obtain ⟨r, h1, h3, -, h4, -, h5, h2⟩ := recAt_psi4 ham hn
  have hc := (cidx_psi4_getElem hn).1
  rw [← compAt_get hn] at h2 h3 h4 h5 hc
  refine ⟨r, h1, h2, hc, fun d hd => ?_, fun d hd => ?_, fun h0 => ?_⟩
  · have hd' := isComp_down hc hd
    exact ⟨_, h3 d hd, cidx_psi4_lt hd', compAt_cidx hd'⟩
  · have hle := hc.valid.get_le_am d
    rw [hc.am_eq] at hle
    have hd' : IsComp (am - 2) ((compAt am n).step d (-2)) :=
      (isComp_step hc d (-2) (am - 2) (by omega)).2 (by omega)
    refine ⟨_, ?_, cidx_psi4_lt hd', compAt_cidx hd'⟩
    rw [h4, if_pos ((Exp.valid_step_iff _ _ _ hc.valid).2 (by omega))]
  · obtain ⟨d, h6, h7, -⟩ := h5 h0
    exact ⟨d, h6, dir_pos h7⟩

/-- The first `L i j` orders of row `(i,j)` hold the integrals `V`. -/
def RowsOK (V : ℕ → Exp → Exp → F) (L : ℕ → ℕ → ℕ) (w : AmWork F) : Prop :=
  ∀ i j m n o, m < L i j → n < nc i → o < nc j →
    w i j (amIdx i j m n o) = V m (compAt i n) (compAt j o)

theorem RowsOK.mono {V : ℕ → Exp → Exp → F} {L L' : ℕ → ℕ → ℕ} {w : AmWork F} (h : RowsOK V L w)
    (hL : ∀ i j, L' i j ≤ L i j) : RowsOK V L' w :=
  fun i j m n o hm => h i j m n o (hm.trans_le (hL i j))

/-- Row `(i,j)` is being filled; the other rows are those of `w0`. -/
structure RowInv (V : ℕ → Exp → Exp → F) (w0 : AmWork F) (i j M idx : ℕ) (w : AmWork F) : Prop where
  other : ∀ i' j' k, ¬ (i' = i ∧ j' = j) → w i' j' k = w0 i' j' k
  vals : ∀ m n o, m < M → n < nc i → o < nc j → amIdx i j m n o < idx →
    w i j (amIdx i j m n o) = V m (compAt i n) (compAt j o)

theorem RowInv.start (V : ℕ → Exp → Exp → F) (w : AmWork F) (i j M : ℕ) : RowInv V w i j M 0 w :=
  ⟨fun _ _ _ _ => rfl, fun _ _ _ _ _ _ h => absurd h (by omega)⟩

theorem RowInv.step {V : ℕ → Exp → Exp → F} {w0 w : AmWork F} {i j M m n o : ℕ}
    (h : RowInv V w0 i j M (amIdx i j m n o) w) (hn : n < nc i) (ho : o < nc j) {x : F}
    (hx : m < M → x = V m (compAt i n) (compAt j o)) :
    RowInv V w0 i j M (amIdx i j m n o + 1) (amUpd w i j (amIdx i j m n o) x) := by
  refine ⟨fun i' j' k hne => ?_, fun m' n' o' hm' hn' ho' hlt => ?_⟩
  · rw [amUpd_row x hne, h.other i' j' k hne]
  · by_cases e : amIdx i j m' n' o' = amIdx i j m n o
    · obtain ⟨rfl, rfl, rfl⟩ := amIdx_inj hn' ho' hn ho e
      rw [amUpd_same, hx hm']
    · rw [amUpd_ne x e, h.vals m' n' o' hm' hn' ho' (by omega)]

theorem RowInv.done {V : ℕ → Exp → Exp → F} {w0 w : AmWork F} {i j M idx : ℕ} {L : ℕ → ℕ → ℕ}
    (hw : RowsOK V L w0) (h : RowInv V w0 i j M idx w) (hidx : M * nc i * nc j ≤ idx) :
    RowsOK V (fun i' j' => if i' = i ∧ j' = j then M else L i' j') w := by
  intro i' j' m n o hm hn ho
  by_cases e : i' = i ∧ j' = j
  · obtain ⟨rfl, rfl⟩ := e
    simp only [and_self, if_true] at hm
    exact h.vals m n o hm hn ho ((row_lt (row_lt hm hn) ho).trans_le hidx)
  · simp only [e, if_false] at hm
    rw [h.other i' j' _ e, hw i' j' m n o hm hn ho]

end

section
variable {F : Type} [Field F]

/-- Recurrence on the first center. -/
def RecBra (V : ℕ → Exp → Exp → F) (P : OEPar F) (PC : Dir → F) : Prop :=
  ∀ n a d, a.Valid → V n (a.step d 1) ⟨0, 0, 0⟩ = P.PA d * V n a ⟨0, 0, 0⟩ - PC d * V (n + 1) a ⟨0, 0, 0⟩
    + P.oo2p * (a.get d : F) * (V n (a.step d (-1)) ⟨0, 0, 0⟩ - V (n + 1) (a.step d (-1)) ⟨0, 0, 0⟩)

/-- Recurrence on the second center. -/
def RecKet (V : ℕ → Exp → Exp → F) (P : OEPar F) (PC : Dir → F) : Prop :=
  ∀ n a b d, a.Valid → b.Valid → V n a (b.step d 1) = P.PB d * V n a b - PC d * V (n + 1) a b
    + P.oo2p * (a.get d : F) * (V n (a.step d (-1)) b - V (n + 1) (a.step d (-1)) b)
    + P.oo2p * (b.get d : F) * (V n a (b.step d (-1)) - V (n + 1) a (b.step d (-1)))

variable {g : AmDim} {P : OEPar F} {PC : Dir → F} {V : ℕ → Exp → Exp → F}

theorem compAt_zero : compAt 0 0 = ⟨0, 0, 0⟩ := by decide

theorem nc_zero : nc 0 = 1 := rfl

theorem Exp.step_back (e : Exp) (d : Dir) : (e.step d (-1)).step d 1 = e := by
  cases d <;> simp [Exp.step]

theorem Exp.step_two (e : Exp) (d : Dir) : (e.step d (-1)).step d (-1) = e.step d (-2) := by
  cases d <;> simp only [Exp.step, Exp.mk.injEq, true_and, and_true] <;> ring

theorem potBra_ok (h1 : g.am1 ≤ 18) (hV : RecBra V P PC) {i : ℕ} (hi : 0 < i) (hi1 : i ≤ g.am1)
    {L : ℕ → ℕ → ℕ} {w : AmWork F} (hw : RowsOK V L w)
    (hL1 : g.am1 + g.am2 - i + 1 < L (i - 1) 0) (hL2 : 1 < i → g.am1 + g.am2 - i + 1 < L (i - 2) 0) :
    ∃ w', potBra g P PC i w = some w' ∧
      RowsOK V (fun i' j' => if i' = i ∧ j' = 0 then g.am1 + g.am2 - i + 1 else L i' j') w' := by
  set M := g.am1 + g.am2 - i + 1 with hM
  unfold potBra
  simp only
  refine forLoop_map (I := fun m (st : AmWork F × ℕ) => st.2 = amIdx i 0 m 0 0 ∧
    RowInv V w i 0 M st.2 st.1) (Nat.zero_le _) ⟨by simp [amIdx], RowInv.start V w i 0 M⟩ ?_
    fun st h => RowInv.done hw h.2 (by rw [h.1]; simp [amIdx, hM])
  intro m st _ hm hI
  refine forLoop_then (I := fun n (st : AmWork F × ℕ) => st.2 = amIdx i 0 m n 0 ∧
    RowInv V w i 0 M st.2 st.1) (Nat.zero_le _) hI ?_ fun st h =>
      ⟨by rw [h.1]; unfold amIdx; ring, h.2⟩
  clear hI st
  intro n st _ hn hI
  obtain ⟨w', k⟩ := st
  obtain ⟨rfl, hR⟩ := hI
  simp only at hR ⊢
  obtain ⟨r, e1, e2, hc, q1, q2, q3⟩ := recAt_full (hi1.trans h1) hn
  obtain ⟨d, e3, hd⟩ := q3 hi
  obtain ⟨k1, e4, l4, c4⟩ := q1 d hd
  have zero_lt : 0 < nc 0 := by decide
  rw [e1, Option.bind_some, e3, Option.bind_some]
  rw [am_get w' (m := m) (n := k1) (o := 0) (by omega) (Nat.zero_le _) (by omega) l4 zero_lt
      (by rw [e4, nc_zero]; push_cast; ring), Option.bind_some,
    am_get w' (m := m + 1) (n := k1) (o := 0) (by omega) (Nat.zero_le _) (by omega) l4 zero_lt
      (by rw [e4, nc_zero]; push_cast; ring), Option.bind_some,
    am_set w' _ hi1 (Nat.zero_le _) (by omega) hn zero_lt rfl, Option.bind_some]
  have hne : ∀ s, 0 < s → ¬ (i - s = i ∧ 0 = 0) := fun s hs h => by omega
  have v1 : w' (i - 1) 0 (amIdx (i - 1) 0 m k1 0) = V m ((compAt i n).step d (-1)) ⟨0, 0, 0⟩ := by
    rw [hR.other _ _ _ (hne 1 (by omega)), hw _ _ _ _ _ (by omega) l4 zero_lt, c4, compAt_zero]
  have v4 : w' (i - 1) 0 (amIdx (i - 1) 0 (m + 1) k1 0) = V (m + 1) ((compAt i n).step d (-1)) ⟨0, 0, 0⟩ := by
    rw [hR.other _ _ _ (hne 1 (by omega)), hw _ _ _ _ _ (by omega) l4 zero_lt, c4, compAt_zero]
  have hval := (Exp.valid_step_iff _ d (-1) hc.valid).2 (by omega)
  have hrec := hV m ((compAt i n).step d (-1)) d hval
  rw [Exp.step_back, Exp.get_step_self, Exp.step_two] at hrec
  rw [v1, v4, e2]
  have hidx : amIdx i 0 m (n + 1) 0 = amIdx i 0 m n 0 + 1 := by unfold amIdx; rw [nc_zero]; ring
  by_cases h : 1 < (compAt i n).get d
  · obtain ⟨k2, e5, l5, c5⟩ := q2 d h
    have hle := hc.valid.get_le_am d
    rw [hc.am_eq] at hle
    rw [if_pos h, am_get _ (m := m) (n := n) (o := 0) hi1 (Nat.zero_le _) (by omega) hn zero_lt
        (by unfold amIdx; push_cast; ring), Option.bind_some, amUpd_same,
      am_get _ (m := m) (n := k2) (o := 0) (by omega) (Nat.zero_le _) (by omega) l5 zero_lt
        (by rw [e5, nc_zero, if_pos (by omega)]; push_cast; ring), Option.bind_some,
      am_get _ (m := m + 1) (n := k2) (o := 0) (by omega) (Nat.zero_le _) (by omega) l5 zero_lt
        (by rw [e5, nc_zero, if_pos (by omega)]; push_cast; ring), Option.bind_some,
      am_set _ _ hi1 (Nat.zero_le _) (by omega) hn zero_lt rfl, amUpd_upd,
      amUpd_row _ (hne 2 (by omega)), amUpd_row _ (hne 2 (by omega)),
      hR.other _ _ _ (hne 2 (by omega)), hR.other _ _ _ (hne 2 (by omega)),
      hw _ _ _ _ _ (by have := hL2 (by omega); omega) l5 zero_lt,
      hw _ _ _ _ _ (by have := hL2 (by omega); omega) l5 zero_lt, c5, compAt_zero]
    refine ⟨_, rfl, hidx.symm, ?_⟩
    refine hR.step hn zero_lt fun _ => ?_
    rw [compAt_zero, hrec]
    push_cast; ring
  · rw [if_neg h]
    refine ⟨_, rfl, hidx.symm, ?_⟩
    refine hR.step hn zero_lt fun _ => ?_
    rw [compAt_zero, hrec, show (compAt i n).get d + -1 = 0 by omega]
    push_cast; ring

theorem potKet_ok (h1 : g.am1 ≤ 18) (h2 : g.am2 ≤ 18) (hV : RecKet V P PC) {i j : ℕ} (hi1 : i ≤ g.am1)
    (hj : 0 < j) (hj1 : j ≤ g.am2) {L : ℕ → ℕ → ℕ} {w : AmWork F} (hw : RowsOK V L w)
    (hL1 : g.am2 - j + 1 < L i (j - 1)) (hL2 : 0 < i → g.am2 - j + 1 < L (i - 1) (j - 1))
    (hL3 : 1 < j → g.am2 - j + 1 < L i (j - 2)) :
    ∃ w', potKet g P PC i j w = some w' ∧
      RowsOK V (fun i' j' => if i' = i ∧ j' = j then g.am2 - j + 1 else L i' j') w' := by
  set M := g.am2 - j + 1 with hM
  unfold potKet
  simp only
  refine forLoop_map (I := fun m (st : AmWork F × ℕ) => st.2 = amIdx i j m 0 0 ∧
    RowInv V w i j M st.2 st.1) (Nat.zero_le _) ⟨by simp [amIdx], RowInv.start V w i j M⟩ ?_
    fun st h => RowInv.done hw h.2 (by
      rw [h.1, hM]; unfold amIdx
      have : (g.am2 - j + 1) * nc i ≤ (g.am2 - j + 1 + 1) * nc i + 0 := by
        rw [Nat.add_zero]; exact Nat.mul_le_mul_right _ (by omega)
      exact (Nat.mul_le_mul_right _ this).trans (Nat.le_add_right _ _))
  intro m st _ hm hI
  refine forLoop_map (I := fun n (st : (AmWork F × ℕ) × ℕ) => st.2 = n ∧ st.1.2 = amIdx i j m n 0 ∧
    RowInv V w i j M st.1.2 st.1.1) (Nat.zero_le _) ⟨rfl, hI⟩ ?_ fun st h =>
      ⟨by rw [h.2.1]; unfold amIdx; ring, h.2.2⟩
  clear hI st
  intro n st _ hn hI
  obtain ⟨⟨w', k⟩, n'⟩ := st
  simp only at hI ⊢
  obtain ⟨rfl, rfl, hR⟩ := hI
  obtain ⟨r1, e1, e2, hc1, q1, -, -⟩ := recAt_full (hi1.trans h1) hn
  rw [e1, Option.bind_some]
  refine forLoop_map (I := fun o (st : AmWork F × ℕ) => st.2 = amIdx i j m n' o ∧
    RowInv V w i j M st.2 st.1) (Nat.zero_le _) ⟨rfl, hR⟩ ?_ fun st h =>
      ⟨rfl, by rw [h.1]; unfold amIdx; ring, h.2⟩
  clear hR w'
  intro o st _ ho hI
  obtain ⟨w', k⟩ := st
  obtain ⟨rfl, hR⟩ := hI
  simp only at hR ⊢
  obtain ⟨r2, f1, f2, hc2, p1, p2, p3⟩ := recAt_full (hj1.trans h2) ho
  obtain ⟨d, f3, hd⟩ := p3 hj
  clear p3
  obtain ⟨k1, f4, l4, c4⟩ := p1 d hd
  rw [f1, Option.bind_some, f3, Option.bind_some]
  rw [am_get w' (m := m) (n := n') (o := k1) hi1 (by omega) (by omega) hn l4
      (by rw [f4]; push_cast; ring), Option.bind_some,
    am_get w' (m := m + 1) (n := n') (o := k1) hi1 (by omega) (by omega) hn l4
      (by rw [f4]; push_cast; ring), Option.bind_some,
    am_set w' _ hi1 hj1 (by omega) hn ho rfl, Option.bind_some, e2, f2]
  have hne : ∀ i' s, 0 < s → ¬ (i' = i ∧ j - s = j) := fun i' s hs h => by omega
  have hrec := hV m (compAt i n') ((compAt j o).step d (-1)) d hc1.valid
    ((Exp.valid_step_iff _ d (-1) hc2.valid).2 (by omega))
  rw [Exp.step_back, Exp.get_step_self, Exp.step_two] at hrec
  have v1 : m < M → w' i (j - 1) (amIdx i (j - 1) m n' k1) =
      V m (compAt i n') ((compAt j o).step d (-1)) := fun hm' => by
    rw [hR.other _ _ _ (hne i 1 (by omega)), hw _ _ _ _ _ (by omega) hn l4, c4]
  have v4 : m < M → w' i (j - 1) (amIdx i (j - 1) (m + 1) n' k1) =
      V (m + 1) (compAt i n') ((compAt j o).step d (-1)) := fun hm' => by
    rw [hR.other _ _ _ (hne i 1 (by omega)), hw _ _ _ _ _ (by omega) hn l4, c4]
  have hidx : amIdx i j m n' (o + 1) = amIdx i j m n' o + 1 := by unfold amIdx; ring
  have hle1 := hc1.valid.get_le_am d
  rw [hc1.am_eq] at hle1
  have hle2 := hc2.valid.get_le_am d
  rw [hc2.am_eq] at hle2
  have hge1 := (Exp.valid_iff _).1 hc1.valid d
  set y := w' i (j - 1) (amIdx i (j - 1) m n' k1)
  set y' := w' i (j - 1) (amIdx i (j - 1) (m + 1) n' k1)
  have mB : m < g.am1 + 1 + (g.am2 + 1) + 1 := by omega
  have mB' : m + 1 < g.am1 + 1 + (g.am2 + 1) + 1 := by omega
  have iB : i - 1 ≤ g.am1 := by omega
  have jB : j - 1 ≤ g.am2 := by omega
  have hi0 : 0 < (compAt i n').get d → 0 < i := by omega
  clear_value y y'
  -- contribution of the first exponent
  obtain ⟨x1, g1, g2⟩ : ∃ x1, (if 0 < (compAt i n').get d then
      (g.get (amUpd w' i j (amIdx i j m n' o) (P.PB d * y - PC d * y')) i j (amIdx i j m n' o)).bind fun v0 =>
      (g.get (amUpd w' i j (amIdx i j m n' o) (P.PB d * y - PC d * y')) (i - 1) (j - 1)
        (nc (j - 1) * (m * (if 0 < i then nc (i - 1) else 0 : ℕ) + r1.m1 d) + r2.m1 d)).bind fun v2 =>
      (g.get (amUpd w' i j (amIdx i j m n' o) (P.PB d * y - PC d * y')) (i - 1) (j - 1)
        (nc (j - 1) * ((m + 1) * (if 0 < i then nc (i - 1) else 0 : ℕ) + r1.m1 d) + r2.m1 d)).bind fun v5 =>
      g.set (amUpd w' i j (amIdx i j m n' o) (P.PB d * y - PC d * y')) i j (amIdx i j m n' o)
        (v0 + (P.oo2p * ((compAt i n').get d : F) * v2 - P.oo2p * ((compAt i n').get d : F) * v5))
      else some (amUpd w' i j (amIdx i j m n' o) (P.PB d * y - PC d * y'))) =
        some (amUpd w' i j (amIdx i j m n' o) x1) ∧
      (m < M → x1 = P.PB d * y - PC d * y' + P.oo2p * ((compAt i n').get d : F) *
        (V m ((compAt i n').step d (-1)) ((compAt j o).step d (-1)) -
          V (m + 1) ((compAt i n').step d (-1)) ((compAt j o).step d (-1)))) := by
    by_cases h : 0 < (compAt i n').get d
    · obtain ⟨k3, e6, l6, c6⟩ := q1 d h
      have hi0 := hi0 h
      rw [if_pos h, am_get _ (m := m) (n := n') (o := o) hi1 hj1 mB hn ho
          (by unfold amIdx; push_cast; ring), Option.bind_some, amUpd_same,
        am_get _ (m := m) (n := k3) (o := k1) iB jB mB l6 l4
          (by rw [e6, f4, if_pos hi0]; push_cast; ring), Option.bind_some,
        am_get _ (m := m + 1) (n := k3) (o := k1) iB jB mB' l6 l4
          (by rw [e6, f4, if_pos hi0]; push_cast; ring), Option.bind_some,
        am_set _ _ hi1 hj1 mB hn ho rfl, amUpd_upd]
      refine ⟨_, rfl, fun hm' => ?_⟩
      rw [amUpd_row _ (hne _ 1 Nat.one_pos), amUpd_row _ (hne _ 1 Nat.one_pos),
        hR.other _ _ _ (hne _ 1 Nat.one_pos), hR.other _ _ _ (hne _ 1 Nat.one_pos),
        hw _ _ _ _ _ (by have := hL2 hi0; omega) l6 l4,
        hw _ _ _ _ _ (by have := hL2 hi0; omega) l6 l4, c4, c6]
      ring
    · rw [if_neg h]
      refine ⟨_, rfl, fun _ => ?_⟩
      rw [show (compAt i n').get d = 0 by omega]
      push_cast; ring
  rw [g1, Option.bind_some]
  by_cases h : 1 < (compAt j o).get d
  · obtain ⟨k2, f5, l5, c5⟩ := p2 d h
    rw [if_pos h, am_get _ (m := m) (n := n') (o := o) hi1 hj1 (by omega) hn ho
        (by unfold amIdx; push_cast; ring), Option.bind_some, amUpd_same,
      am_get _ (m := m) (n := n') (o := k2) hi1 (by omega) (by omega) hn l5
        (by rw [f5, if_pos (by omega)]; push_cast; ring), Option.bind_some,
      am_get _ (m := m + 1) (n := n') (o := k2) hi1 (by omega) (by omega) hn l5
        (by rw [f5, if_pos (by omega)]; push_cast; ring), Option.bind_some,
      am_set _ _ hi1 hj1 (by omega) hn ho rfl, amUpd_upd]
    refine ⟨_, rfl, hidx.symm, ?_⟩
    refine hR.step hn ho fun hm' => ?_
    rw [amUpd_row _ (hne _ 2 (by omega)), amUpd_row _ (hne _ 2 (by omega)),
      hR.other _ _ _ (hne _ 2 (by omega)), hR.other _ _ _ (hne _ 2 (by omega)),
      hw _ _ _ _ _ (by have := hL3 (by omega); omega) hn l5,
      hw _ _ _ _ _ (by have := hL3 (by omega); omega) hn l5, c5, hrec, g2 hm', v1 hm', v4 hm']
    push_cast; ring
  · rw [if_neg h]
    refine ⟨_, rfl, hidx.symm, ?_⟩
    refine hR.step hn ho fun hm' => ?_
    rw [hrec, g2 hm', v1 hm', v4 hm', show (compAt j o).get d + -1 = 0 by omega]
    push_cast; ring

/-- Orders that are correct before iteration `i` of the outer loop. -/
def potL (g : AmDim) (i i' j' : ℕ) : ℕ :=
  if j' = 0 then (if i' < i ∨ i' = 0 then g.am1 + g.am2 + 1 - i' else 0)
  else if i' < i ∧ j' ≤ g.am2 then g.am2 + 1 - j' else 0

/-- ... and before iteration `j` of the inner loop. -/
def potL2 (g : AmDim) (i j i' j' : ℕ) : ℕ :=
  if j' = 0 then (if i' ≤ i then g.am1 + g.am2 + 1 - i' else 0)
  else if (i' < i ∧ j' ≤ g.am2) ∨ (i' = i ∧ j' < j) then g.am2 + 1 - j' else 0

theorem potPrim_ok {ops : OEOps F} {boys : ℕ → F → F} (h1 : g.am1 ≤ 18) (h2 : g.am2 ≤ 18) {a1 a2 : F}
    {A B C : Dir → F} {V : ℕ → Exp → Exp → F}
    (hB : RecBra V (oePar a1 A a2 B) fun d => (a1 * A d + a2 * B d) * (oePar a1 A a2 B).oop - C d)
    (hK : RecKet V (oePar a1 A a2 B) fun d => (a1 * A d + a2 * B d) * (oePar a1 A a2 B).oop - C d)
    (h0 : ∀ n, V n ⟨0, 0, 0⟩ ⟨0, 0, 0⟩ =
      boys n ((((a1 * A .x + a2 * B .x) * (oePar a1 A a2 B).oop - C .x) *
          ((a1 * A .x + a2 * B .x) * (oePar a1 A a2 B).oop - C .x) +
        ((a1 * A .y + a2 * B .y) * (oePar a1 A a2 B).oop - C .y) *
          ((a1 * A .y + a2 * B .y) * (oePar a1 A a2 B).oop - C .y) +
        ((a1 * A .z + a2 * B .z) * (oePar a1 A a2 B).oop - C .z) *
          ((a1 * A .z + a2 * B .z) * (oePar a1 A a2 B).oop - C .z)) * (a1 + a2)) * 2 * ops.pi *
        (oePar a1 A a2 B).oop * ops.exp (-(oePar a1 A a2 B).mu * ((A .x - B .x) * (A .x - B .x) +
          (A .y - B .y) * (A .y - B .y) + (A .z - B .z) * (A .z - B .z)))) (w : AmWork F) :
    ∃ w', potPrim ops boys g a1 A a2 B C w = some w' ∧
      ∀ n o, n < nc g.am1 → o < nc g.am2 →
        w' g.am1 g.am2 (n * nc g.am2 + o) = V 0 (compAt g.am1 n) (compAt g.am2 o) := by
  unfold potPrim
  simp only
  -- start values
  obtain ⟨w1, e1, f1⟩ : ∃ w1, _ = some w1 ∧ RowInv V w 0 0 (g.am1 + g.am2 + 1) (g.am1 + g.am2 + 1) w1 :=
    forLoop_ok (lo := 0) (hi := g.am1 + g.am2 + 1) (s := w)
    (body := fun i w => g.set w 0 0 i (boys i ((((a1 * A .x + a2 * B .x) * (oePar a1 A a2 B).oop - C .x) *
          ((a1 * A .x + a2 * B .x) * (oePar a1 A a2 B).oop - C .x) +
        ((a1 * A .y + a2 * B .y) * (oePar a1 A a2 B).oop - C .y) *
          ((a1 * A .y + a2 * B .y) * (oePar a1 A a2 B).oop - C .y) +
        ((a1 * A .z + a2 * B .z) * (oePar a1 A a2 B).oop - C .z) *
          ((a1 * A .z + a2 * B .z) * (oePar a1 A a2 B).oop - C .z)) * (a1 + a2)) * 2 * ops.pi *
        (oePar a1 A a2 B).oop * ops.exp (-(oePar a1 A a2 B).mu * ((A .x - B .x) * (A .x - B .x) +
          (A .y - B .y) * (A .y - B .y) + (A .z - B .z) * (A .z - B .z)))))
    (I := fun m w' => RowInv V w 0 0 (g.am1 + g.am2 + 1) m w') (Nat.zero_le _)
    (RowInv.start V w 0 0 _) (by
      intro m w' _ hm hR
      have em : m = amIdx 0 0 m 0 0 := by unfold amIdx; rw [nc_zero]; ring
      have z : 0 < nc 0 := by decide
      rw [am_set (m := m) (n := 0) (o := 0) w' _ (Nat.zero_le _) (Nat.zero_le _) (by omega) z z em]
      refine ⟨_, rfl, ?_⟩
      rw [em] at hR
      have := hR.step z z (x := V m ⟨0, 0, 0⟩ ⟨0, 0, 0⟩) (fun _ => by rw [compAt_zero])
      rw [← em, h0] at this
      exact this)
  rw [e1, Option.bind_some]
  have s1 : RowsOK V (potL g 0) w1 := by
    have h0' : RowsOK V (fun _ _ => 0) w := fun i j m n o hm => absurd hm (Nat.not_lt_zero m)
    refine (RowInv.done h0' f1 (by rw [nc_zero]; omega)).mono fun i j => ?_
    unfold potL
    split_ifs <;> omega
  refine forLoop_then (I := fun i w => RowsOK V (potL g i) w) (Nat.zero_le _) s1 ?_ ?_
  · clear f1 e1 s1 w1 w
    intro i w _ hi hw
    obtain ⟨w1, e1, f1⟩ : ∃ w1, (if 0 < i then potBra g (oePar a1 A a2 B)
        (fun d => (a1 * A d + a2 * B d) * (oePar a1 A a2 B).oop - C d) i w else some w) = some w1 ∧
        RowsOK V (potL2 g i 1) w1 := by
      by_cases h : 0 < i
      · rw [if_pos h]
        obtain ⟨w1, e1, f1⟩ := potBra_ok h1 hB h (by omega) hw
          (by simp only [potL, if_true]; rw [if_pos (by omega)]; omega)
          (fun h' => by simp only [potL, if_true]; rw [if_pos (by omega)]; omega)
        refine ⟨w1, e1, f1.mono fun i' j' => ?_⟩
        unfold potL potL2
        split_ifs <;> omega
      · rw [if_neg h]
        obtain rfl : i = 0 := by omega
        refine ⟨w, rfl, hw.mono fun i' j' => ?_⟩
        unfold potL potL2
        split_ifs <;> omega
    rw [e1, Option.bind_some]
    refine forLoop_then (I := fun j w => RowsOK V (potL2 g i j) w) (by omega) f1 ?_ fun w' h =>
      h.mono fun i' j' => by unfold potL potL2; split_ifs <;> omega
    intro j w' hj hj' hw'
    obtain ⟨w2, e2, f2⟩ := potKet_ok h1 h2 hK (i := i) (j := j) (by omega) (by omega) (by omega) hw'
      (by unfold potL2; split_ifs <;> omega) (fun _ => by unfold potL2; split_ifs <;> omega)
      (fun _ => by unfold potL2; split_ifs <;> omega)
    refine ⟨w2, e2, f2.mono fun i' j' => ?_⟩
    unfold potL2
    split_ifs <;> omega
  · intro w' h n o hn ho
    have := h g.am1 g.am2 0 n o (by unfold potL; split_ifs <;> omega) hn ho
    rw [← this]
    congr 1
    unfold amIdx; ring

end

end Simint
