import Verif.FlPot
import Verif.PotLemmas

/-! The loops of the potential integrals on doubles, for any property of the elements that the steps
preserve. -/

set_option autoImplicit false

namespace Simint.FlPot

open FlBoys (Arith)

/-- A property of values for row `(i,j)`, order `m` and two components. -/
abbrev ValP := ℕ → ℕ → ℕ → Exp → Exp → ℝ → Prop

/-- The first `L i j` orders of row `(i,j)` satisfy `Q`. -/
def RowsR (Q : ValP) (L : ℕ → ℕ → ℕ) (w : AmWork ℝ) : Prop :=
  ∀ i j m n o, m < L i j → n < nc i → o < nc j → Q i j m (compAt i n) (compAt j o) (w i j (amIdx i j m n o))

theorem RowsR.mono {Q : ValP} {L L' : ℕ → ℕ → ℕ} {w : AmWork ℝ} (h : RowsR Q L w)
    (hL : ∀ i j, L' i j ≤ L i j) : RowsR Q L' w :=
  fun i j m n o hm => h i j m n o (hm.trans_le (hL i j))

/-- Row `(i,j)` is being filled; the other rows are those of `w0`. -/
structure RowRInv (Q : ValP) (w0 : AmWork ℝ) (i j M idx : ℕ) (w : AmWork ℝ) : Prop where
  other : ∀ i' j' k, ¬ (i' = i ∧ j' = j) → w i' j' k = w0 i' j' k
  vals : ∀ m n o, m < M → n < nc i → o < nc j → amIdx i j m n o < idx →
    Q i j m (compAt i n) (compAt j o) (w i j (amIdx i j m n o))

theorem RowRInv.start (Q : ValP) (w : AmWork ℝ) (i j M : ℕ) : RowRInv Q w i j M 0 w :=
  ⟨fun _ _ _ _ => rfl, fun _ _ _ _ _ _ h => absurd h (by omega)⟩

theorem RowRInv.step {Q : ValP} {w0 w : AmWork ℝ} {i j M m n o : ℕ}
    (h : RowRInv Q w0 i j M (amIdx i j m n o) w) (hn : n < nc i) (ho : o < nc j) {x : ℝ}
    (hx : m < M → Q i j m (compAt i n) (compAt j o) x) :
    RowRInv Q w0 i j M (amIdx i j m n o + 1) (amUpd w i j (amIdx i j m n o) x) := by
  refine ⟨fun i' j' k hne => ?_, fun m' n' o' hm' hn' ho' hlt => ?_⟩
  · rw [amUpd_row x hne, h.other i' j' k hne]
  · by_cases e : amIdx i j m' n' o' = amIdx i j m n o
    · obtain ⟨rfl, rfl, rfl⟩ := amIdx_inj hn' ho' hn ho e
      rw [amUpd_same]
      exact hx hm'
    · rw [amUpd_ne x e]
      exact h.vals m' n' o' hm' hn' ho' (by omega)

theorem RowRInv.done {Q : ValP} {w0 w : AmWork ℝ} {i j M idx : ℕ} {L : ℕ → ℕ → ℕ}
    (hw : RowsR Q L w0) (h : RowRInv Q w0 i j M idx w) (hidx : M * nc i * nc j ≤ idx) :
    RowsR Q (fun i' j' => if i' = i ∧ j' = j then M else L i' j') w := by
  intro i' j' m n o hm hn ho
  by_cases e : i' = i ∧ j' = j
  · obtain ⟨rfl, rfl⟩ := e
    simp only [and_self, if_true] at hm
    exact h.vals m n o hm hn ho ((row_lt (row_lt hm hn) ho).trans_le hidx)
  · simp only [e, if_false] at hm
    rw [h.other i' j' _ e]
    exact hw i' j' m n o hm hn ho

/-- Steps on the first center preserve `Q`. -/
def BraStep (F : Arith) (g : AmDim) (P : OEPar ℝ) (PC : Dir → ℝ) (Q : ValP) : Prop :=
  ∀ i m c d v1 v4, 0 < i → i ≤ g.am1 → IsComp i c → 0 < c.get d →
    Q (i - 1) 0 m (c.step d (-1)) ⟨0, 0, 0⟩ v1 → Q (i - 1) 0 (m + 1) (c.step d (-1)) ⟨0, 0, 0⟩ v4 →
    (c.get d = 1 → Q i 0 m c ⟨0, 0, 0⟩ (F.dot (P.PA d) v1 (-PC d) v4)) ∧
    (1 < c.get d → ∀ v2 v5, Q (i - 2) 0 m (c.step d (-2)) ⟨0, 0, 0⟩ v2 →
      Q (i - 2) 0 (m + 1) (c.step d (-2)) ⟨0, 0, 0⟩ v5 →
      Q i 0 m c ⟨0, 0, 0⟩ (F.mac (F.fl (P.oo2p * ((c.get d - 1 : ℤ) : ℝ))) (F.fl (v2 - v5))
        (F.dot (P.PA d) v1 (-PC d) v4)))

/-- Terms 1, 2, 4 and 5 of a step on the second center. -/
def KetPart (F : Arith) (P : OEPar ℝ) (PC : Dir → ℝ) (Q : ValP) (i j m : ℕ) (a c : Exp) (d : Dir)
    (v1 v4 x : ℝ) : Prop :=
  (a.get d = 0 ∧ x = F.dot (P.PB d) v1 (-PC d) v4) ∨
  (0 < a.get d ∧ ∃ v2 v5, Q (i - 1) (j - 1) m (a.step d (-1)) (c.step d (-1)) v2 ∧
    Q (i - 1) (j - 1) (m + 1) (a.step d (-1)) (c.step d (-1)) v5 ∧
    x = F.fl (F.dot (P.PB d) v1 (-PC d) v4 + F.dot (F.fl (P.oo2p * (a.get d : ℝ))) v2
      (-F.fl (P.oo2p * (a.get d : ℝ))) v5))

/-- Steps on the second center preserve `Q`. -/
def KetStep (F : Arith) (g : AmDim) (P : OEPar ℝ) (PC : Dir → ℝ) (Q : ValP) : Prop :=
  ∀ i j m a c d v1 v4 x, i ≤ g.am1 → 0 < j → j ≤ g.am2 → IsComp i a → IsComp j c → 0 < c.get d →
    Q i (j - 1) m a (c.step d (-1)) v1 → Q i (j - 1) (m + 1) a (c.step d (-1)) v4 →
    KetPart F P PC Q i j m a c d v1 v4 x →
    (c.get d = 1 → Q i j m a c x) ∧
    (1 < c.get d → ∀ v3 v6, Q i (j - 2) m a (c.step d (-2)) v3 → Q i (j - 2) (m + 1) a (c.step d (-2)) v6 →
      Q i j m a c (F.mac (F.fl (P.oo2p * ((c.get d - 1 : ℤ) : ℝ))) (F.fl (v3 - v6)) x))

section
variable {F : Arith} {g : AmDim} {P : OEPar ℝ} {PC : Dir → ℝ} {Q : ValP}

theorem potBra_near (h1 : g.am1 ≤ 18) (hV : BraStep F g P PC Q) {i : ℕ} (hi : 0 < i) (hi1 : i ≤ g.am1)
    {L : ℕ → ℕ → ℕ} {w : AmWork ℝ} (hw : RowsR Q L w)
    (hL1 : g.am1 + g.am2 - i + 1 < L (i - 1) 0) (hL2 : 1 < i → g.am1 + g.am2 - i + 1 < L (i - 2) 0) :
    ∃ w', potBra F g P PC i w = some w' ∧
      RowsR Q (fun i' j' => if i' = i ∧ j' = 0 then g.am1 + g.am2 - i + 1 else L i' j') w' := by
  set M := g.am1 + g.am2 - i + 1 with hM
  unfold potBra
  simp only
  refine forLoop_map (I := fun m (st : AmWork ℝ × ℕ) => st.2 = amIdx i 0 m 0 0 ∧
    RowRInv Q w i 0 M st.2 st.1) (Nat.zero_le _) ⟨by simp [amIdx], RowRInv.start Q w i 0 M⟩ ?_
    fun st h => RowRInv.done hw h.2 (by rw [h.1]; simp [amIdx, hM])
  intro m st _ hm hI
  refine forLoop_then (I := fun n (st : AmWork ℝ × ℕ) => st.2 = amIdx i 0 m n 0 ∧
    RowRInv Q w i 0 M st.2 st.1) (Nat.zero_le _) hI ?_ fun st h =>
      ⟨by rw [h.1]; unfold amIdx; ring, h.2⟩
  clear hI st
  intro n st _ hn hI
  obtain ⟨w', k⟩ := st
  obtain ⟨rfl, hR⟩ := hI
  simp only at hR ⊢
  obtain ⟨r, e1, e2, hc, q1, q2, q3⟩ := recAt_full (hi1.trans h1) hn
  obtain ⟨d, e3, hd⟩ := q3 hi
  clear q3
  obtain ⟨k1, e4, l4, c4⟩ := q1 d hd
  have zero_lt : 0 < nc 0 := by decide
  rw [e1, Option.bind_some, e3, Option.bind_some]
  rw [am_get w' (m := m) (n := k1) (o := 0) (by omega) (Nat.zero_le _) (by omega) l4 zero_lt
      (by rw [e4, nc_zero]; push_cast; ring), Option.bind_some,
    am_get w' (m := m + 1) (n := k1) (o := 0) (by omega) (Nat.zero_le _) (by omega) l4 zero_lt
      (by rw [e4, nc_zero]; push_cast; ring), Option.bind_some,
    am_set w' _ hi1 (Nat.zero_le _) (by omega) hn zero_lt rfl, Option.bind_some]
  have hne : ∀ s, 0 < s → ¬ (i - s = i ∧ 0 = 0) := fun s hs h => by omega
  have v1 := hw (i - 1) 0 m k1 0 (by omega) l4 zero_lt
  have v4 := hw (i - 1) 0 (m + 1) k1 0 (by omega) l4 zero_lt
  rw [← hR.other _ _ _ (hne 1 (by omega)), c4, compAt_zero] at v1 v4
  have stp := hV i m (compAt i n) d _ _ hi hi1 hc hd v1 v4
  rw [e2]
  have hidx : amIdx i 0 m (n + 1) 0 = amIdx i 0 m n 0 + 1 := by unfold amIdx; rw [nc_zero]; ring
  by_cases h : 1 < (compAt i n).get d
  · obtain ⟨k2, e5, l5, c5⟩ := q2 d h
    have hle := hc.valid.get_le_am d
    rw [hc.am_eq] at hle
    rw [if_pos h, am_get _ (m := m) (n := n) (o := 0) hi1 (Nat.zero_le _) (by omega) hn zero_lt
        (by unfold amIdx; push_cast; ring), Option.bind_some, amUpd_same,
      am_get _ (m := m) (n := k2) (o := 0) (by omega) (Nat.zero_le _) (by omega) l5 zero_lt
        (by rw [e5, nc_zero, if_pos (by omega)]; push_cast; ring), Option.bind_some,
      am_get _ (m := m + 1) (n := k2) (o := 0) (by omega) (Nat.zero_le _) (by omega) l5 zero_lt
        (by rw [e5, nc_zero, if_pos (by omega)]; push_cast; ring), Option.bind_some,
      am_set _ _ hi1 (Nat.zero_le _) (by omega) hn zero_lt rfl, amUpd_upd,
      amUpd_row _ (hne 2 (by omega)), amUpd_row _ (hne 2 (by omega))]
    have v2 := hw (i - 2) 0 m k2 0 (by have := hL2 (by omega); omega) l5 zero_lt
    have v5 := hw (i - 2) 0 (m + 1) k2 0 (by have := hL2 (by omega); omega) l5 zero_lt
    rw [← hR.other _ _ _ (hne 2 (by omega)), c5, compAt_zero] at v2 v5
    refine ⟨_, rfl, hidx.symm, ?_⟩
    refine hR.step hn zero_lt fun _ => ?_
    rw [compAt_zero]
    exact stp.2 h _ _ v2 v5
  · rw [if_neg h]
    refine ⟨_, rfl, hidx.symm, ?_⟩
    refine hR.step hn zero_lt fun _ => ?_
    rw [compAt_zero]
    exact stp.1 (by omega)

theorem potKet_near (h1 : g.am1 ≤ 18) (h2 : g.am2 ≤ 18) (hV : KetStep F g P PC Q) {i j : ℕ} (hi1 : i ≤ g.am1)
    (hj : 0 < j) (hj1 : j ≤ g.am2) {L : ℕ → ℕ → ℕ} {w : AmWork ℝ} (hw : RowsR Q L w)
    (hL1 : g.am2 - j + 1 < L i (j - 1)) (hL2 : 0 < i → g.am2 - j + 1 < L (i - 1) (j - 1))
    (hL3 : 1 < j → g.am2 - j + 1 < L i (j - 2)) :
    ∃ w', potKet F g P PC i j w = some w' ∧
      RowsR Q (fun i' j' => if i' = i ∧ j' = j then g.am2 - j + 1 else L i' j') w' := by
  set M := g.am2 - j + 1 with hM
  unfold potKet
  simp only
  refine forLoop_map (I := fun m (st : AmWork ℝ × ℕ) => st.2 = amIdx i j m 0 0 ∧
    RowRInv Q w i j M st.2 st.1) (Nat.zero_le _) ⟨by simp [amIdx], RowRInv.start Q w i j M⟩ ?_
    fun st h => RowRInv.done hw h.2 (by
      rw [h.1, hM]; unfold amIdx
      have : (g.am2 - j + 1) * nc i ≤ (g.am2 - j + 1 + 1) * nc i + 0 := by
        rw [Nat.add_zero]; exact Nat.mul_le_mul_right _ (by omega)
      exact (Nat.mul_le_mul_right _ this).trans (Nat.le_add_right _ _))
  intro m st _ hm hI
  refine forLoop_map (I := fun n (st : (AmWork ℝ × ℕ) × ℕ) => st.2 = n ∧ st.1.2 = amIdx i j m n 0 ∧
    RowRInv Q w i j M st.1.2 st.1.1) (Nat.zero_le _) ⟨rfl, hI⟩ ?_ fun st h =>
      ⟨by rw [h.2.1]; unfold amIdx; ring, h.2.2⟩
  clear hI st
  intro n st _ hn hI
  obtain ⟨⟨w', k⟩, n'⟩ := st
  simp only at hI ⊢
  obtain ⟨rfl, rfl, hR⟩ := hI
  obtain ⟨r1, e1, e2, hc1, q1, -, -⟩ := recAt_full (hi1.trans h1) hn
  rw [e1, Option.bind_some]
  refine forLoop_map (I := fun o (st : AmWork ℝ × ℕ) => st.2 = amIdx i j m n' o ∧
    RowRInv Q w i j M st.2 st.1) (Nat.zero_le _) ⟨rfl, hR⟩ ?_ fun st h =>
      ⟨rfl, by rw [h.1]; unfold amIdx; ring, h.2⟩
  clear hR w'
  intro o st _ ho hI
  obtain ⟨w', k⟩ := st
  obtain ⟨rfl, hR⟩ := hI
  simp only at hR ⊢
  obtain ⟨r2, f1, f2, hc2, p1, p2, p3⟩ := recAt_full (hj1.trans h2) ho
  obtain ⟨d, f3, hd⟩ := p3 hj
  clear p3
  obtain ⟨k1, f4, l4, c4⟩ := p1 d hd
  rw [f1, Option.bind_some, f3, Option.bind_some]
  rw [am_get w' (m := m) (n := n') (o := k1) hi1 (by omega) (by omega) hn l4
      (by rw [f4]; push_cast; ring), Option.bind_some,
    am_get w' (m := m + 1) (n := n') (o := k1) hi1 (by omega) (by omega) hn l4
      (by rw [f4]; push_cast; ring), Option.bind_some,
    am_set w' _ hi1 hj1 (by omega) hn ho rfl, Option.bind_some, e2, f2]
  have hne : ∀ i' s, 0 < s → ¬ (i' = i ∧ j - s = j) := fun i' s hs h => by omega
  have v1 : m < M → Q i (j - 1) m (compAt i n') ((compAt j o).step d (-1))
      (w' i (j - 1) (amIdx i (j - 1) m n' k1)) := fun hm' => by
    have := hw i (j - 1) m n' k1 (by omega) hn l4
    rwa [← hR.other _ _ _ (hne i 1 (by omega)), c4] at this
  have v4 : m < M → Q i (j - 1) (m + 1) (compAt i n') ((compAt j o).step d (-1))
      (w' i (j - 1) (amIdx i (j - 1) (m + 1) n' k1)) := fun hm' => by
    have := hw i (j - 1) (m + 1) n' k1 (by omega) hn l4
    rwa [← hR.other _ _ _ (hne i 1 (by omega)), c4] at this
  have hidx : amIdx i j m n' (o + 1) = amIdx i j m n' o + 1 := by unfold amIdx; ring
  have hle1 := hc1.valid.get_le_am d
  rw [hc1.am_eq] at hle1
  have hle2 := hc2.valid.get_le_am d
  rw [hc2.am_eq] at hle2
  have hge1 := (Exp.valid_iff _).1 hc1.valid d
  set y := w' i (j - 1) (amIdx i (j - 1) m n' k1)
  set y' := w' i (j - 1) (amIdx i (j - 1) (m + 1) n' k1)
  have mB : m < g.am1 + 1 + (g.am2 + 1) + 1 := by omega
  have mB' : m + 1 < g.am1 + 1 + (g.am2 + 1) + 1 := by omega
  have iB : i - 1 ≤ g.am1 := by omega
  have jB : j - 1 ≤ g.am2 := by omega
  have hi0 : 0 < (compAt i n').get d → 0 < i := by omega
  clear_value y y'
  -- contribution of the first exponent
  obtain ⟨x1, g1, g2⟩ : ∃ x1, (if 0 < (compAt i n').get d then
      (g.get (amUpd w' i j (amIdx i j m n' o) (F.dot (P.PB d) y (-PC d) y')) i j (amIdx i j m n' o)).bind fun v0 =>
      (g.get (amUpd w' i j (amIdx i j m n' o) (F.dot (P.PB d) y (-PC d) y')) (i - 1) (j - 1)
        (nc (j - 1) * (m * (if 0 < i then nc (i - 1) else 0 : ℕ) + r1.m1 d) + r2.m1 d)).bind fun v2 =>
      (g.get (amUpd w' i j (amIdx i j m n' o) (F.dot (P.PB d) y (-PC d) y')) (i - 1) (j - 1)
        (nc (j - 1) * ((m + 1) * (if 0 < i then nc (i - 1) else 0 : ℕ) + r1.m1 d) + r2.m1 d)).bind fun v5 =>
      g.set (amUpd w' i j (amIdx i j m n' o) (F.dot (P.PB d) y (-PC d) y')) i j (amIdx i j m n' o)
        (F.fl (v0 + F.dot (F.fl (P.oo2p * ((compAt i n').get d : ℝ))) v2
          (-F.fl (P.oo2p * ((compAt i n').get d : ℝ))) v5))
      else some (amUpd w' i j (amIdx i j m n' o) (F.dot (P.PB d) y (-PC d) y'))) =
        some (amUpd w' i j (amIdx i j m n' o) x1) ∧
      (m < M → KetPart F P PC Q i j m (compAt i n') (compAt j o) d y y' x1) := by
    by_cases h : 0 < (compAt i n').get d
    · obtain ⟨k3, e6, l6, c6⟩ := q1 d h
      have hi0 := hi0 h
      rw [if_pos h, am_get _ (m := m) (n := n') (o := o) hi1 hj1 mB hn ho
          (by unfold amIdx; push_cast; ring), Option.bind_some, amUpd_same,
        am_get _ (m := m) (n := k3) (o := k1) iB jB mB l6 l4
          (by rw [e6, f4, if_pos hi0]; push_cast; ring), Option.bind_some,
        am_get _ (m := m + 1) (n := k3) (o := k1) iB jB mB' l6 l4
          (by rw [e6, f4, if_pos hi0]; push_cast; ring), Option.bind_some,
        am_set _ _ hi1 hj1 mB hn ho rfl, amUpd_upd]
      refine ⟨_, rfl, fun hm' => Or.inr ⟨h, _, _, ?_, ?_, rfl⟩⟩
      · rw [amUpd_row _ (hne _ 1 Nat.one_pos), hR.other _ _ _ (hne _ 1 Nat.one_pos)]
        have := hw (i - 1) (j - 1) m k3 k1 (by have := hL2 hi0; omega) l6 l4
        rwa [c4, c6] at this
      · rw [amUpd_row _ (hne _ 1 Nat.one_pos), hR.other _ _ _ (hne _ 1 Nat.one_pos)]
        have := hw (i - 1) (j - 1) (m + 1) k3 k1 (by have := hL2 hi0; omega) l6 l4
        rwa [c4, c6] at this
    · rw [if_neg h]
      exact ⟨_, rfl, fun _ => Or.inl ⟨by omega, rfl⟩⟩
  rw [g1, Option.bind_some]
  have stp := fun hm' : m < M => hV i j m (compAt i n') (compAt j o) d y y' x1 hi1 hj hj1 hc1 hc2 hd
    (v1 hm') (v4 hm') (g2 hm')
  by_cases h : 1 < (compAt j o).get d
  · obtain ⟨k2, f5, l5, c5⟩ := p2 d h
    rw [if_pos h, am_get _ (m := m) (n := n') (o := o) hi1 hj1 (by omega) hn ho
        (by unfold amIdx; push_cast; ring), Option.bind_some, amUpd_same,
      am_get _ (m := m) (n := n') (o := k2) hi1 (by omega) (by omega) hn l5
        (by rw [f5, if_pos (by omega)]; push_cast; ring), Option.bind_some,
      am_get _ (m := m + 1) (n := n') (o := k2) hi1 (by omega) (by omega) hn l5
        (by rw [f5, if_pos (by omega)]; push_cast; ring), Option.bind_some,
      am_set _ _ hi1 hj1 (by omega) hn ho rfl, amUpd_upd]
    refine ⟨_, rfl, hidx.symm, ?_⟩
    refine hR.step hn ho fun hm' => ?_
    rw [amUpd_row _ (hne _ 2 (by omega)), amUpd_row _ (hne _ 2 (by omega)),
      hR.other _ _ _ (hne _ 2 (by omega)), hR.other _ _ _ (hne _ 2 (by omega))]
    refine (stp hm').2 h _ _ ?_ ?_
    · have := hw i (j - 2) m n' k2 (by have := hL3 (by omega); omega) hn l5
      rwa [c5] at this
    · have := hw i (j - 2) (m + 1) n' k2 (by have := hL3 (by omega); omega) hn l5
      rwa [c5] at this
  · rw [if_neg h]
    refine ⟨_, rfl, hidx.symm, ?_⟩
    exact hR.step hn ho fun hm' => (stp hm').1 (by omega)

theorem potPrim_near {vec : Bool} {V : ℕ} (h1 : g.am1 ≤ 18) (h2 : g.am2 ≤ 18) {a1 a2 : ℝ} {A B C : Dir → ℝ}
    (hB : BraStep F g (FlOneEl.oePar F a1 A a2 B) (potPC F a1 A a2 B C) Q)
    (hK : KetStep F g (FlOneEl.oePar F a1 A a2 B) (potPC F a1 A a2 B C) Q)
    (h0 : ∀ n ≤ g.am1 + g.am2, ∃ y,
      FlBoys.split F vec V (fun _ => potArg F a1 A a2 B C) (g.am1 + g.am2) n 0 = some y ∧
      Q 0 0 n ⟨0, 0, 0⟩ ⟨0, 0, 0⟩ (F.fl (F.fl (F.fl (F.fl (y * 2) * F.fl FlOneEl.piLit) *
        (FlOneEl.oePar F a1 A a2 B).oop) * potExp F a1 A a2 B))) (w : AmWork ℝ) :
    ∃ w', potPrim F vec V g a1 A a2 B C w = some w' ∧
      ∀ n o, n < nc g.am1 → o < nc g.am2 →
        Q g.am1 g.am2 0 (compAt g.am1 n) (compAt g.am2 o) (w' g.am1 g.am2 (n * nc g.am2 + o)) := by
  unfold potPrim
  simp only
  -- start values
  obtain ⟨w1, e1, f1⟩ : ∃ w1, _ = some w1 ∧ RowRInv Q w 0 0 (g.am1 + g.am2 + 1) (g.am1 + g.am2 + 1) w1 :=
    forLoop_ok (lo := 0) (hi := g.am1 + g.am2 + 1) (s := w)
    (body := fun i w =>
      (FlBoys.split F vec V (fun _ => potArg F a1 A a2 B C) (g.am1 + g.am2) i 0).bind fun y =>
      g.set w 0 0 i (F.fl (F.fl (F.fl (F.fl (y * 2) * F.fl FlOneEl.piLit) *
        (FlOneEl.oePar F a1 A a2 B).oop) * potExp F a1 A a2 B)))
    (I := fun m w' => RowRInv Q w 0 0 (g.am1 + g.am2 + 1) m w') (Nat.zero_le _)
    (RowRInv.start Q w 0 0 _) (by
      intro m w' _ hm hR
      have em : m = amIdx 0 0 m 0 0 := by unfold amIdx; rw [nc_zero]; ring
      have z : 0 < nc 0 := by decide
      obtain ⟨y, ey, qy⟩ := h0 m (by omega)
      beta_reduce
      rw [ey, Option.bind_some,
        am_set (m := m) (n := 0) (o := 0) w' _ (Nat.zero_le _) (Nat.zero_le _) (by omega) z z em]
      refine ⟨_, rfl, ?_⟩
      rw [em] at hR
      have := hR.step z z (fun _ => by rw [compAt_zero]; exact qy)
      rw [← em] at this
      exact this)
  rw [e1, Option.bind_some]
  have s1 : RowsR Q (potL g 0) w1 := by
    have h0' : RowsR Q (fun _ _ => 0) w := fun i j m n o hm => absurd hm (Nat.not_lt_zero m)
    refine (RowRInv.done h0' f1 (by rw [nc_zero]; omega)).mono fun i j => ?_
    unfold potL
    split_ifs <;> omega
  refine forLoop_then (I := fun i w => RowsR Q (potL g i) w) (Nat.zero_le _) s1 ?_ ?_
  · clear f1 e1 s1 w1 w
    intro i w _ hi hw
    obtain ⟨w1, e1, f1⟩ : ∃ w1, (if 0 < i then potBra F g (FlOneEl.oePar F a1 A a2 B)
        (potPC F a1 A a2 B C) i w else some w) = some w1 ∧ RowsR Q (potL2 g i 1) w1 := by
      by_cases h : 0 < i
      · rw [if_pos h]
        obtain ⟨w1, e1, f1⟩ := potBra_near h1 hB h (by omega) hw
          (by simp only [potL, if_true]; rw [if_pos (by omega)]; omega)
          (fun h' => by simp only [potL, if_true]; rw [if_pos (by omega)]; omega)
        refine ⟨w1, e1, f1.mono fun i' j' => ?_⟩
        unfold potL potL2
        split_ifs <;> omega
      · rw [if_neg h]
        obtain rfl : i = 0 := by omega
        refine ⟨w, rfl, hw.mono fun i' j' => ?_⟩
        unfold potL potL2
        split_ifs <;> omega
    rw [e1, Option.bind_some]
    refine forLoop_then (I := fun j w => RowsR Q (potL2 g i j) w) (by omega) f1 ?_ fun w' h =>
      h.mono fun i' j' => by unfold potL potL2; split_ifs <;> omega
    intro j w' hj hj' hw'
    obtain ⟨w2, e2, f2⟩ := potKet_near h1 h2 hK (i := i) (j := j) (by omega) (by omega) (by omega) hw'
      (by unfold potL2; split_ifs <;> omega) (fun _ => by unfold potL2; split_ifs <;> omega)
      (fun _ => by unfold potL2; split_ifs <;> omega)
    refine ⟨w2, e2, f2.mono fun i' j' => ?_⟩
    unfold potL2
    split_ifs <;> omega
  · intro w' h n o hn ho
    have := h g.am1 g.am2 0 n o (by unfold potL; split_ifs <;> omega) hn ho
    rwa [show amIdx g.am1 g.am2 0 n o = n * nc g.am2 + o by unfold amIdx; ring] at this

end

end Simint.FlPot
