import Verif.Packed
import Verif.ScreenTestLemmas
import Verif.ScreenValueLemmas
import Verif.PermuteLemmas

/-!
# Lemmas for the example with packed integrals
-/

set_option autoImplicit false

open Real MeasureTheory

namespace Simint

/-! ### Symmetries of the integrals -/

/-- Exchange of the coordinates of the two electrons. -/
def swapEl : R6 ≃ᵐ R6 :=
  MeasurableEquiv.prodCongr MeasurableEquiv.prodComm
    (MeasurableEquiv.prodCongr MeasurableEquiv.prodComm MeasurableEquiv.prodComm)

theorem swapEl_measure : MeasurePreserving swapEl (volume : Measure R6) volume :=
  Measure.measurePreserving_swap.prod (Measure.measurePreserving_swap.prod Measure.measurePreserving_swap)

theorem coulomb_swap1234 (α β γ δ : ℝ) (A B C D : Dir → ℝ) (a b c d : Exp) :
    coulomb γ δ α β C D A B c d a b = coulomb α β γ δ A B C D a b c d := by
  unfold coulomb
  rw [← swapEl_measure.integral_comp' (g := fun w : R6 =>
    primG α A a w.fst * primG β B b w.fst * (primG γ C c w.snd * primG δ D d w.snd) / √(dist2 w.fst w.snd))]
  congr 1
  funext w
  have e1 : (swapEl w).fst = w.snd := by funext i; cases i <;> rfl
  have e2 : (swapEl w).snd = w.fst := by funext i; cases i <;> rfl
  simp only [e1, e2]
  rw [dist2_comm w.snd]
  ring

theorem shellERI_swap12 (A B C D : Shell ℝ) (a b c d : Exp) :
    shellERI B A C D b a c d = shellERI A B C D a b c d := by
  unfold shellERI
  rw [Finset.sum_comm]
  refine Finset.sum_congr rfl fun i _ => Finset.sum_congr rfl fun j _ => Finset.sum_congr rfl fun k _ =>
    Finset.sum_congr rfl fun l _ => ?_
  rw [coulomb_swap12]
  ring

theorem shellERI_swap34 (A B C D : Shell ℝ) (a b c d : Exp) :
    shellERI A B D C a b d c = shellERI A B C D a b c d := by
  unfold shellERI
  refine Finset.sum_congr rfl fun i _ => Finset.sum_congr rfl fun j _ => ?_
  rw [Finset.sum_comm]
  refine Finset.sum_congr rfl fun k _ => Finset.sum_congr rfl fun l _ => ?_
  rw [coulomb_swap34]
  ring

theorem shellERI_swap1234 (A B C D : Shell ℝ) (a b c d : Exp) :
    shellERI C D A B c d a b = shellERI A B C D a b c d := by
  unfold shellERI
  have e : ∀ f : ℕ → ℕ → ℕ → ℕ → ℝ, (∑ k ∈ Finset.range C.nprim, ∑ l ∈ Finset.range D.nprim,
      ∑ i ∈ Finset.range A.nprim, ∑ j ∈ Finset.range B.nprim, f i j k l) =
      ∑ i ∈ Finset.range A.nprim, ∑ j ∈ Finset.range B.nprim,
        ∑ k ∈ Finset.range C.nprim, ∑ l ∈ Finset.range D.nprim, f i j k l := by
    intro f
    simp only [← Finset.sum_product' (Finset.range A.nprim), ← Finset.sum_product' (Finset.range C.nprim)]
    rw [Finset.sum_comm]
  rw [← e fun i j k l => A.coef i * B.coef j * (C.coef k * D.coef l) *
    coulomb (A.alpha i) (B.alpha j) (C.alpha k) (D.alpha l) A.pos B.pos C.pos D.pos a b c d]
  refine Finset.sum_congr rfl fun k _ => Finset.sum_congr rfl fun l _ => Finset.sum_congr rfl fun i _ =>
    Finset.sum_congr rfl fun j _ => ?_
  rw [coulomb_swap1234]
  ring

/-! ### Packed numbers -/

theorem pk_tri_succ (a : ℕ) : (a + 1) * (a + 1 + 1) / 2 = a * (a + 1) / 2 + (a + 1) := by
  have : (a + 1) * (a + 1 + 1) = a * (a + 1) + (a + 1) * 2 := by ring
  rw [this, Nat.add_mul_div_right _ _ (by decide)]

theorem pk_tri_mono {a b : ℕ} (h : a ≤ b) : a * (a + 1) / 2 ≤ b * (b + 1) / 2 :=
  Nat.div_le_div_right (Nat.mul_le_mul h (by omega))

theorem pk_tri_lt {a b c : ℕ} (h : b ≤ a) (hac : a < c) : a * (a + 1) / 2 + b < c * (c + 1) / 2 := by
  have h1 := pk_tri_succ a
  have h2 : (a + 1) * (a + 1 + 1) / 2 ≤ c * (c + 1) / 2 := pk_tri_mono hac
  omega

theorem pk_tri_inj {a b c d : ℕ} (h : b ≤ a) (h' : d ≤ c) (e : a * (a + 1) / 2 + b = c * (c + 1) / 2 + d) :
    a = c ∧ b = d := by
  rcases Nat.lt_trichotomy a c with hl | rfl | hl
  · have := pk_tri_lt h hl; omega
  · omega
  · have := pk_tri_lt h' hl; omega

theorem packIdx_ge {a b : ℕ} (h : b ≤ a) : packIdx a b = a * (a + 1) / 2 + b := by
  unfold packIdx
  rw [if_neg (by omega)]

theorem packIdx_comm (a b : ℕ) : packIdx a b = packIdx b a := by
  unfold packIdx
  rcases Nat.lt_trichotomy a b with h | rfl | h
  · rw [if_pos h, if_neg (by omega)]
  · rfl
  · rw [if_pos h, if_neg (by omega)]

theorem packIdx_inj {a b c d : ℕ} (e : packIdx a b = packIdx c d) : (a = c ∧ b = d) ∨ (a = d ∧ b = c) := by
  rcases Nat.le_total b a with h | h <;> rcases Nat.le_total d c with h' | h'
  · rw [packIdx_ge h, packIdx_ge h'] at e
    exact Or.inl (pk_tri_inj h h' e)
  · rw [packIdx_comm c, packIdx_ge h, packIdx_ge h'] at e
    exact Or.inr (pk_tri_inj h h' e)
  · rw [packIdx_comm a, packIdx_ge h, packIdx_ge h'] at e
    exact Or.inr (pk_tri_inj h h' e).symm
  · rw [packIdx_comm a, packIdx_comm c, packIdx_ge h, packIdx_ge h'] at e
    exact Or.inl (pk_tri_inj h h' e).symm

theorem packIdx_lt {a b n : ℕ} (ha : a < n) (hb : b < n) : packIdx a b < n * (n + 1) / 2 := by
  rcases Nat.le_total b a with h | h
  · rw [packIdx_ge h]; exact pk_tri_lt h ha
  · rw [packIdx_comm, packIdx_ge h]; exact pk_tri_lt h hb

theorem packIdx_surj {n k : ℕ} (h : k < n * (n + 1) / 2) : ∃ a b, a < n ∧ b < n ∧ packIdx a b = k := by
  induction n with
  | zero => simp at h
  | succ n ih =>
    rw [pk_tri_succ] at h
    rcases Nat.lt_or_ge k (n * (n + 1) / 2) with h' | h'
    · obtain ⟨a, b, ha, hb, e⟩ := ih h'
      exact ⟨a, b, by omega, by omega, e⟩
    · refine ⟨n, k - n * (n + 1) / 2, by omega, by omega, ?_⟩
      rw [packIdx_ge (by omega)]
      omega

/-- The numbers of the pairs are visited in order. -/
theorem triLoop_tri (n : ℕ) : (triLoop n).map (fun t => t.1 * (t.1 + 1) / 2 + t.2) = List.range (n * (n + 1) / 2) := by
  induction n with
  | zero => rfl
  | succ n ih =>
    rw [triLoop_succ, List.map_append, ih, pk_tri_succ, List.range_add (n := n * (n + 1) / 2) (m := n + 1), List.map_map]
    rfl

theorem triLoop_nodup (n : ℕ) : (triLoop n).Nodup := by
  refine List.Nodup.of_map (fun t : ℕ × ℕ => t.1 * (t.1 + 1) / 2 + t.2) ?_
  rw [triLoop_tri]
  exact List.nodup_range

/-! ### Loops that may fail -/

theorem foldlM_inv {σ α : Type} (step : σ → α → Option σ) (Inv : List α → σ → Prop) (l : List α) :
    (∀ pre a, a ∈ l → ∀ s, Inv pre s → ∃ s', step s a = some s' ∧ Inv (pre ++ [a]) s') →
    ∀ pre s, Inv pre s → ∃ s', l.foldlM step s = some s' ∧ Inv (pre ++ l) s' := by
  induction l with
  | nil => intro _ pre s h; exact ⟨s, rfl, by rwa [List.append_nil]⟩
  | cons a l ih =>
    intro H pre s h
    obtain ⟨s1, e1, h1⟩ := H pre a List.mem_cons_self s h
    obtain ⟨s2, e2, h2⟩ := ih (fun p b hb => H p b (List.mem_cons_of_mem _ hb)) (pre ++ [a]) s1 h1
    refine ⟨s2, ?_, ?_⟩
    · rw [List.foldlM_cons, e1]; exact e2
    · rwa [List.append_assoc, List.singleton_append] at h2

/-! ### The inner loops -/

theorem range_prod {α : Type} (n m : ℕ) (f : ℕ → ℕ → α) :
    ((List.range n).flatMap fun i => (List.range m).map fun j => f i j) =
      (List.range (n * m)).map fun t => f (t / m) (t % m) := by
  rcases Nat.eq_zero_or_pos m with rfl | hm
  · simp
  induction n with
  | zero => simp
  | succ n ih =>
    rw [List.range_succ (n := n), List.flatMap_append, ih, Nat.succ_mul, List.range_add, List.map_append, List.map_map,
      List.flatMap_singleton]
    congr 1
    refine List.map_congr_left fun j hj => ?_
    have hj' := List.mem_range.1 hj
    simp only [Function.comp]
    rw [Nat.mul_comm n m, Nat.mul_add_div hm, Nat.mul_add_mod, Nat.div_eq_of_lt hj', Nat.mod_eq_of_lt hj',
      Nat.add_zero]

/-- Component numbers in iteration `t`. -/
def pkDecode (nj nk nl t : ℕ) : ℕ × ℕ × ℕ × ℕ :=
  (t / (nj * (nk * nl)), t % (nj * (nk * nl)) / (nk * nl), t % (nj * (nk * nl)) % (nk * nl) / nl,
    t % (nj * (nk * nl)) % (nk * nl) % nl)

theorem pkQuads_eq (ni nj nk nl : ℕ) :
    pkQuads ni nj nk nl = (List.range (ni * (nj * (nk * nl)))).map (pkDecode nj nk nl) := by
  unfold pkQuads
  simp only [range_prod nk nl, range_prod nj (nk * nl), range_prod ni (nj * (nk * nl))]
  rfl

theorem divmod_iff {n M t i j : ℕ} :
    (t < n * M ∧ t / M = i ∧ t % M = j) ↔ (i < n ∧ j < M ∧ t = i * M + j) := by
  constructor
  · rintro ⟨h, rfl, rfl⟩
    have hM : 0 < M := Nat.pos_of_ne_zero fun h0 => by rw [h0, Nat.mul_zero] at h; exact absurd h (Nat.not_lt_zero _)
    refine ⟨Nat.div_lt_of_lt_mul (by rwa [Nat.mul_comm]), Nat.mod_lt _ hM, ?_⟩
    rw [Nat.mul_comm]
    exact (Nat.div_add_mod t M).symm
  · rintro ⟨hi, hj, rfl⟩
    refine ⟨?_, ?_, ?_⟩
    · calc i * M + j < i * M + M := by omega
        _ = (i + 1) * M := by ring
        _ ≤ n * M := Nat.mul_le_mul_right _ hi
    · rw [Nat.mul_comm, Nat.mul_add_div (by omega), Nat.div_eq_of_lt hj, Nat.add_zero]
    · rw [Nat.mul_comm, Nat.mul_add_mod, Nat.mod_eq_of_lt hj]

/-- Iterations with their numbers: exactly the component numbers with their index in the buffer. -/
theorem mem_pkQuads {ni nj nk nl : ℕ} {m n o p t : ℕ} :
    ((m, n, o, p), t) ∈ (pkQuads ni nj nk nl).zipIdx ↔
      m < ni ∧ n < nj ∧ o < nk ∧ p < nl ∧ t = (m * nj + n) * (nk * nl) + (o * nl + p) := by
  rw [pkQuads_eq, List.mem_zipIdx_iff_getElem?]
  have e : (Option.map (pkDecode nj nk nl) (List.range (ni * (nj * (nk * nl))))[t]? = some (m, n, o, p)) ↔
      t < ni * (nj * (nk * nl)) ∧ pkDecode nj nk nl t = (m, n, o, p) := by
    rcases Nat.lt_or_ge t (ni * (nj * (nk * nl))) with h | h
    · rw [List.getElem?_eq_getElem (by rwa [List.length_range]), List.getElem_range, Option.map_some, Option.some_inj]
      exact ⟨fun a => ⟨h, a⟩, fun a => a.2⟩
    · rw [List.getElem?_eq_none (by rwa [List.length_range])]
      exact ⟨fun a => (by cases a), fun a => absurd a.1 (by omega)⟩
  rw [List.getElem?_map, e]
  unfold pkDecode
  simp only [Prod.mk.injEq]
  constructor
  · rintro ⟨h, h1, h2, h3, h4⟩
    obtain ⟨a1, a2, a3⟩ := divmod_iff.1 ⟨h, h1, rfl⟩
    obtain ⟨b1, b2, b3⟩ := divmod_iff.1 ⟨a2, h2, rfl⟩
    obtain ⟨c1, c2, c3⟩ := divmod_iff.1 ⟨b2, h3, h4⟩
    refine ⟨a1, b1, c1, c2, ?_⟩
    rw [a3, b3, c3]
    ring
  · rintro ⟨h1, h2, h3, h4, rfl⟩
    obtain ⟨c1, c2, c3⟩ := divmod_iff.2 ⟨h3, h4, rfl⟩
    obtain ⟨b1, b2, b3⟩ := divmod_iff.2 ⟨h2, c1, rfl⟩
    obtain ⟨a1, a2, a3⟩ := divmod_iff.2 ⟨h1, b1, rfl⟩
    have e : (m * nj + n) * (nk * nl) + (o * nl + p) = m * (nj * (nk * nl)) + (n * (nk * nl) + (o * nl + p)) := by ring
    rw [e]
    exact ⟨a1, a2, by rw [a3, b2], by rw [a3, b3, c2], by rw [a3, b3, c3]⟩

end Simint
