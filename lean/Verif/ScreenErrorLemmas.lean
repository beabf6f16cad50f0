import Verif.ScreenValueLemmas

/-!
# Error of screened integrals
-/

set_option autoImplicit false

namespace Simint

theorem contractedERI_fin (S T : ShellPair) (a b c d : Exp) :
    contractedERI S T a b c d = ∑ k : Fin S.prims.length, ∑ l : Fin T.prims.length,
      S.prims[k].coef * T.prims[l].coef *
        coulomb S.prims[k].α S.prims[k].β T.prims[l].α T.prims[l].β S.A S.B T.A T.B a b c d := by
  unfold contractedERI
  rw [← Fin.sum_univ_fun_getElem]
  refine Finset.sum_congr rfl fun k _ => ?_
  rw [← Fin.sum_univ_fun_getElem]
  rfl

/-- A product of two combinations is bounded by the product of the square roots of their bounds. -/
theorem term_bound (x y : PrimPair) (A B C D : Dir → ℝ) (a b c d : Exp) {m n u v t : ℝ} (hm : 0 ≤ m) (hn : 0 ≤ n)
    (hu : x.coef ^ 2 * coulomb x.α x.β x.α x.β A B A B a b a b ≤ m ^ 2 * u)
    (hv : y.coef ^ 2 * coulomb y.α y.β y.α y.β C D C D c d c d ≤ n ^ 2 * v)
    (ht : 0 ≤ t) (huv : u * v ≤ t ^ 2) :
    |x.coef * y.coef * coulomb x.α x.β y.α y.β A B C D a b c d| ≤ m * n * t := by
  refine abs_le_of_sq_le_sq ?_ (by positivity)
  have h := coulomb_schwarz x.hα x.hβ y.hα y.hβ A B C D a b c d
  have h1 := mul_nonneg (sq_nonneg x.coef) (coulomb_self_nonneg x.hα x.hβ A B a b)
  have h2 := mul_nonneg (sq_nonneg y.coef) (coulomb_self_nonneg y.hα y.hβ C D c d)
  calc (x.coef * y.coef * coulomb x.α x.β y.α y.β A B C D a b c d) ^ 2
      = x.coef ^ 2 * y.coef ^ 2 * coulomb x.α x.β y.α y.β A B C D a b c d ^ 2 := by ring
    _ ≤ x.coef ^ 2 * y.coef ^ 2 * (coulomb x.α x.β x.α x.β A B A B a b a b *
          coulomb y.α y.β y.α y.β C D C D c d c d) := mul_le_mul_of_nonneg_left h (by positivity)
    _ = (x.coef ^ 2 * coulomb x.α x.β x.α x.β A B A B a b a b) *
          (y.coef ^ 2 * coulomb y.α y.β y.α y.β C D C D c d c d) := by ring
    _ ≤ m ^ 2 * u * (n ^ 2 * v) := mul_le_mul hu hv h2 (h1.trans hu)
    _ = m ^ 2 * n ^ 2 * (u * v) := by ring
    _ ≤ m ^ 2 * n ^ 2 * t ^ 2 := mul_le_mul_of_nonneg_left huv (by positivity)
    _ = (m * n * t) ^ 2 := by ring

/-- Leaving out products whose bounds are small changes the contracted integral little. -/
theorem drop_bound (S T : ShellPair) (keep : ℕ → ℕ → Prop) [∀ i j, Decidable (keep i j)] (a b c d : Exp)
    (m n u v : ℕ → ℝ) {t : ℝ} (ht : 0 ≤ t) (hm : ∀ k, 0 ≤ m k) (hn : ∀ k, 0 ≤ n k)
    (hu : ∀ k : Fin S.prims.length, S.prims[k].coef ^ 2 *
      coulomb S.prims[k].α S.prims[k].β S.prims[k].α S.prims[k].β S.A S.B S.A S.B a b a b ≤ m k ^ 2 * u k)
    (hv : ∀ k : Fin T.prims.length, T.prims[k].coef ^ 2 *
      coulomb T.prims[k].α T.prims[k].β T.prims[k].α T.prims[k].β T.A T.B T.A T.B c d c d ≤ n k ^ 2 * v k)
    (hd : ∀ k : Fin S.prims.length, ∀ l : Fin T.prims.length, ¬ keep k l → u k * v l ≤ t ^ 2) :
    |(∑ k : Fin S.prims.length, ∑ l : Fin T.prims.length, if keep k l then
      S.prims[k].coef * T.prims[l].coef *
        coulomb S.prims[k].α S.prims[k].β T.prims[l].α T.prims[l].β S.A S.B T.A T.B a b c d else 0) -
      contractedERI S T a b c d| ≤
    (∑ k : Fin S.prims.length, m k) * (∑ l : Fin T.prims.length, n l) * t := by
  rw [contractedERI_fin, ← Finset.sum_sub_distrib, Finset.sum_mul_sum, Finset.sum_mul]
  refine (Finset.abs_sum_le_sum_abs _ _).trans (Finset.sum_le_sum fun k _ => ?_)
  rw [← Finset.sum_sub_distrib, Finset.sum_mul]
  refine (Finset.abs_sum_le_sum_abs _ _).trans (Finset.sum_le_sum fun l _ => ?_)
  split
  · rw [sub_self, abs_zero]
    exact mul_nonneg (mul_nonneg (hm _) (hn _)) ht
  · rename_i h
    rw [zero_sub, abs_neg]
    exact term_bound _ _ _ _ _ _ _ _ _ _ (hm k) (hn l) (hu k) (hv l) ht (hd k l h)

/-- How many pairs of primitives a stored combination stands for. -/
noncomputable def foldWeight (A B : Shell ℝ) (p : ℕ × ℕ) : ℝ :=
  if sameShell A B && decide (p.1 ≠ p.2) then 2 else 1

theorem foldWeight_nonneg (A B : Shell ℝ) (p : ℕ × ℕ) : 0 ≤ foldWeight A B p := by
  unfold foldWeight; split <;> norm_num

/-- All combinations together stand for all pairs. -/
theorem foldWeight_sum (A B : Shell ℝ) :
    ((primOrder A B).map (foldWeight A B)).sum = A.nprim * B.nprim := by
  by_cases h : sameShell A B = true
  · have := C40_symmetric h (fun _ _ => (1 : ℝ)) (fun _ _ => rfl)
    simp only [mul_one, Finset.sum_const, Finset.card_range, nsmul_eq_mul] at this
    rw [← this]
    congr 1
    refine List.map_congr_left fun p _ => ?_
    unfold foldWeight
    simp [h]
  · have h' : sameShell A B = false := by simpa using h
    have := primOrder_sum A B (fun _ _ => (1 : ℝ))
    rw [h'] at this
    simp only [Bool.false_eq_true, if_false, Finset.sum_const, Finset.card_range, nsmul_eq_mul, mul_one] at this
    rw [← this]
    congr 1
    refine List.map_congr_left fun p _ => ?_
    unfold foldWeight
    simp [h']

/-- `val` bounds the integrals `(xy|xy)` of the primitives. -/
def Bounding (val : Shell ℝ → Shell ℝ → ℕ → ℕ → ℝ) (A B : Shell ℝ) (x y : Exp) : Prop :=
  ∀ i < A.nprim, ∀ j < B.nprim, (A.coef i * B.coef j) ^ 2 *
    coulomb (A.alpha i) (B.alpha j) (A.alpha i) (B.alpha j) A.pos B.pos A.pos B.pos x y x y ≤ val A B i j

/-- The bound for a stored combination. -/
theorem storedPrim_bound {val : Shell ℝ → Shell ℝ → ℕ → ℕ → ℝ} {A B : Shell ℝ} {x y : Exp} (hA : A.OK) (hB : B.OK)
    (hf : Faithful A B) (h : Bounding val A B x y) {p : ℕ × ℕ} (hp : p ∈ primOrder A B) :
    (storedPrim A B p).coef ^ 2 * coulomb (storedPrim A B p).α (storedPrim A B p).β (storedPrim A B p).α
      (storedPrim A B p).β A.pos B.pos A.pos B.pos x y x y ≤ foldWeight A B p ^ 2 * val A B p.1 p.2 := by
  obtain ⟨h1, h2, -⟩ := (mem_primOrder A B p.1 p.2).1 hp
  have a1 := hA.2 _ h1
  have a2 := hB.2 _ h2
  have hb := h _ h1 _ h2
  unfold storedPrim foldWeight
  split
  · rename_i hc
    rw [Bool.and_eq_true] at hc
    have hpos := (hf hc.1).1
    have a3 : 0 < (A.alpha p.1 + B.alpha p.2) / 2 := by linarith
    rw [primPair_eq a3 a3]
    simp only
    rw [coulomb_bra_sum (α' := A.alpha p.1) (β' := B.alpha p.2) (by ring) _ _ hpos,
      coulomb_ket_sum (γ' := A.alpha p.1) (δ' := B.alpha p.2) (by ring) _ _ hpos]
    nlinarith
  · rw [primPair_eq a1 a2]
    simp only
    linarith

/-- Position, in a list with screening values, of the combinations of pair `s`. -/
structure HasScr (len : ℕ) (M : MSP ℝ) (s : ℕ) (A B : Shell ℝ) (val : Shell ℝ → Shell ℝ → ℕ → ℕ → ℝ)
    (o : List (ℕ × ℕ)) : Prop where
  perm : o.Perm (primOrder A B)
  count : M.nprim12 s = o.length
  screen : ∀ k (hk : k < o.length), M.screen (paddedStart len M.nprim12 s + k) = val A B o[k].1 o[k].2

theorem HasScr.weights {len : ℕ} {M : MSP ℝ} {s : ℕ} {A B : Shell ℝ} {val : Shell ℝ → Shell ℝ → ℕ → ℕ → ℝ}
    {o : List (ℕ × ℕ)} (h : HasScr len M s A B val o) :
    ∑ k : Fin (o.map (storedPrim A B)).length, foldWeight A B (o.getD k default) = A.nprim * B.nprim := by
  rw [← foldWeight_sum, ← (h.perm.map _).sum_eq, ← Fin.sum_univ_fun_getElem o (foldWeight A B)]
  refine Fintype.sum_equiv (finCongr (by simp)) _ _ fun k => ?_
  have hk : (k : ℕ) < o.length := by have := k.2; simpa using this
  rw [List.getD_eq_getElem _ _ hk]
  rfl

theorem HasScr.bound {len : ℕ} {M : MSP ℝ} {s : ℕ} {A B : Shell ℝ} {val : Shell ℝ → Shell ℝ → ℕ → ℕ → ℝ}
    {o : List (ℕ × ℕ)} (h : HasScr len M s A B val o) (hA : A.OK) (hB : B.OK) (hf : Faithful A B) {x y : Exp}
    (hb : Bounding val A B x y) (k : Fin (o.map (storedPrim A B)).length) :
    (o.map (storedPrim A B))[k].coef ^ 2 * coulomb (o.map (storedPrim A B))[k].α (o.map (storedPrim A B))[k].β
      (o.map (storedPrim A B))[k].α (o.map (storedPrim A B))[k].β A.pos B.pos A.pos B.pos x y x y ≤
    foldWeight A B (o.getD k default) ^ 2 * M.screen (paddedStart len M.nprim12 s + k) := by
  have hk : (k : ℕ) < o.length := by have := k.2; simpa using this
  rw [List.getD_eq_getElem _ _ hk, h.screen k hk]
  have e : (o.map (storedPrim A B))[k] = storedPrim A B o[(k : ℕ)] := by simp
  rw [e]
  exact storedPrim_bound hA hB hf hb (h.perm.mem_iff.1 (List.getElem_mem hk))

/-- Error of the screened sum over two pairs of shells. -/
theorem pair_error {len : ℕ} {P Q : MSP ℝ} {ab cd : ℕ} {A B C D : Shell ℝ}
    {val : Shell ℝ → Shell ℝ → ℕ → ℕ → ℝ} {o o' : List (ℕ × ℕ)} (hP : HasScr len P ab A B val o)
    (hQ : HasScr len Q cd C D val o') (hA : A.OK) (hB : B.OK) (hf : Faithful A B) (hC : C.OK) (hD : D.OK)
    (hf' : Faithful C D) {x y z w : Exp} (hb : Bounding val A B x y) (hb' : Bounding val C D z w)
    (keep : ℕ → ℕ → Prop) [∀ i j, Decidable (keep i j)] {t : ℝ} (ht : 0 ≤ t)
    (hd : ∀ k < o.length, ∀ l < o'.length, ¬ keep k l →
      P.screen (paddedStart len P.nprim12 ab + k) * Q.screen (paddedStart len Q.nprim12 cd + l) ≤ t ^ 2) :
    |(∑ k : Fin (o.map (storedPrim A B)).length, ∑ l : Fin (o'.map (storedPrim C D)).length, if keep k l then
      (o.map (storedPrim A B))[k].coef * (o'.map (storedPrim C D))[l].coef *
        coulomb (o.map (storedPrim A B))[k].α (o.map (storedPrim A B))[k].β (o'.map (storedPrim C D))[l].α
          (o'.map (storedPrim C D))[l].β A.pos B.pos C.pos D.pos x y z w else 0) - shellERI A B C D x y z w| ≤
    (A.nprim * B.nprim) * (C.nprim * D.nprim) * t := by
  have e : contractedERI ⟨A.pos, B.pos, o.map (storedPrim A B)⟩ ⟨C.pos, D.pos, o'.map (storedPrim C D)⟩ x y z w =
      shellERI A B C D x y z w := by
    rw [← contractedERI_full hA hB hC hD, ← C40_integrals hA hB hf hC hD hf']
    have s1 : ShellPair.Same ⟨A.pos, B.pos, o.map (storedPrim A B)⟩ (storedPair A B) := ⟨rfl, rfl, hP.perm.map _⟩
    have s2 : ShellPair.Same ⟨C.pos, D.pos, o'.map (storedPrim C D)⟩ (storedPair C D) := ⟨rfl, rfl, hQ.perm.map _⟩
    exact contractedERI_same s1 s2 x y z w
  rw [← hP.weights, ← hQ.weights, ← e]
  refine drop_bound ⟨A.pos, B.pos, o.map (storedPrim A B)⟩ ⟨C.pos, D.pos, o'.map (storedPrim C D)⟩ keep x y z w
    (fun k => foldWeight A B (o.getD k default)) (fun k => foldWeight C D (o'.getD k default))
    (fun k => P.screen (paddedStart len P.nprim12 ab + k)) (fun k => Q.screen (paddedStart len Q.nprim12 cd + k)) ht
    (fun _ => foldWeight_nonneg _ _ _) (fun _ => foldWeight_nonneg _ _ _) (hP.bound hA hB hf hb)
    (hQ.bound hC hD hf' hb') fun k l h => hd k ?_ l ?_ h
  · have := k.2; simpa using this
  · have := l.2; simpa using this

end Simint
