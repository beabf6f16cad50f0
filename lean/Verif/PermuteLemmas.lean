import Verif.Permute
import Verif.Props.Function

/-! Lemmas about permuted functions. -/

set_option autoImplicit false

open Real Finset

namespace Simint

/-! ## Nested loops as lists -/

theorem length_flatMap_const {α β : Type} {l : List α} {f : α → List β} {k : ℕ}
    (h : ∀ x ∈ l, (f x).length = k) : (l.flatMap f).length = l.length * k := by
  induction l with
  | nil => simp
  | cons a l ih =>
    rw [List.flatMap_cons, List.length_append, h a (by simp), ih fun x hx => h x (by simp [hx]),
      List.length_cons, Nat.succ_mul, Nat.add_comm]

theorem getElem?_flatMap_range {β : Type} {n k : ℕ} {f : ℕ → List β}
    (h : ∀ i < n, (f i).length = k) {i j : ℕ} (hi : i < n) (hj : j < k) :
    ((List.range n).flatMap f)[i * k + j]? = (f i)[j]? := by
  induction n with
  | zero => omega
  | succ n ih =>
    have hl : ((List.range n).flatMap f).length = n * k := by
      rw [length_flatMap_const (k := k) fun x hx => h x (by have := List.mem_range.1 hx; omega),
        List.length_range]
    rw [List.range_succ, List.flatMap_append]
    by_cases hin : i < n
    · have : i * k + j < n * k := by
        have : (i + 1) * k ≤ n * k := Nat.mul_le_mul_right _ hin
        rw [Nat.succ_mul] at this; omega
      rw [List.getElem?_append_left (by rw [hl]; exact this)]
      exact ih (fun i hi => h i (by omega)) hin
    · have e : i = n := by omega
      subst e
      rw [List.getElem?_append_right (by rw [hl]; omega), hl, Nat.add_sub_cancel_left]
      simp

/-- Position in four nested loops. -/
def pos4 (nb nc nd a b c d : ℕ) : ℕ := (a * nb + b) * (nc * nd) + (c * nd + d)

theorem loop4 {β : Type} {na nb nc nd : ℕ} (f : ℕ → ℕ → ℕ → ℕ → β) :
    ((List.range na).flatMap fun a => (List.range nb).flatMap fun b =>
      (List.range nc).flatMap fun c => (List.range nd).map fun d => f a b c d).length =
        na * nb * (nc * nd) ∧
    ∀ a < na, ∀ b < nb, ∀ c < nc, ∀ d < nd,
      ((List.range na).flatMap fun a => (List.range nb).flatMap fun b =>
        (List.range nc).flatMap fun c => (List.range nd).map fun d => f a b c d)[pos4 nb nc nd a b c d]? =
        some (f a b c d) := by
  have l1 : ∀ a b c, ((List.range nd).map fun d => f a b c d).length = nd := fun a b c => by simp
  have l2 : ∀ a b, ((List.range nc).flatMap fun c => (List.range nd).map fun d => f a b c d).length =
      nc * nd := fun a b => by
    rw [length_flatMap_const (k := nd) fun c _ => l1 a b c, List.length_range]
  have l3 : ∀ a, ((List.range nb).flatMap fun b => (List.range nc).flatMap fun c =>
      (List.range nd).map fun d => f a b c d).length = nb * (nc * nd) := fun a => by
    rw [length_flatMap_const (k := nc * nd) fun b _ => l2 a b, List.length_range]
  refine ⟨?_, ?_⟩
  · rw [length_flatMap_const (k := nb * (nc * nd)) fun a _ => l3 a, List.length_range, Nat.mul_assoc]
  · intro a ha b hb c hc d hd
    have h1 : c * nd + d < nc * nd := by
      have : (c + 1) * nd ≤ nc * nd := Nat.mul_le_mul_right _ hc
      rw [Nat.succ_mul] at this; omega
    have h2 : b * (nc * nd) + (c * nd + d) < nb * (nc * nd) := by
      have : (b + 1) * (nc * nd) ≤ nb * (nc * nd) := Nat.mul_le_mul_right _ hb
      rw [Nat.succ_mul] at this; omega
    have e : pos4 nb nc nd a b c d = a * (nb * (nc * nd)) + (b * (nc * nd) + (c * nd + d)) := by
      unfold pos4; ring
    rw [e, getElem?_flatMap_range (fun a _ => l3 a) ha h2, getElem?_flatMap_range (fun b _ => l2 a b) hb h1,
      getElem?_flatMap_range (fun c _ => l1 a b c) hc hd]
    simp [hd]

theorem pos4_lt {na nb nc nd a b c d : ℕ} (ha : a < na) (hb : b < nb) (hc : c < nc) (hd : d < nd) :
    pos4 nb nc nd a b c d < na * nb * (nc * nd) := by
  have h1 : c * nd + d < nc * nd := by
    have : (c + 1) * nd ≤ nc * nd := Nat.mul_le_mul_right _ hc
    rw [Nat.succ_mul] at this; omega
  have h2 : a * nb + b < na * nb := by
    have : (a + 1) * nb ≤ na * nb := Nat.mul_le_mul_right _ ha
    rw [Nat.succ_mul] at this; omega
  have : (a * nb + b + 1) * (nc * nd) ≤ na * nb * (nc * nd) := Nat.mul_le_mul_right _ h2
  rw [Nat.succ_mul] at this
  unfold pos4; omega

/-- Every position is the position of some components. -/
theorem pos4_surj {na nb nc nd k : ℕ} (hk : k < na * nb * (nc * nd)) :
    ∃ a < na, ∃ b < nb, ∃ c < nc, ∃ d < nd, k = pos4 nb nc nd a b c d := by
  obtain ⟨x, y, hx, hy, rfl⟩ := mix_surj hk
  obtain ⟨a, b, ha, hb, rfl⟩ := mix_surj hx
  obtain ⟨c, d, hc, hd, rfl⟩ := mix_surj hy
  exact ⟨a, ha, b, hb, c, hc, d, hd, rfl⟩

/-- Components in the order of the computed class. -/
def unperm {α : Type} (s12 s34 : Bool) (x y z w : α) : α × α × α × α :=
  (if s12 then y else x, if s12 then x else y, if s34 then w else z, if s34 then z else w)

section
variable {F : Type} [Field F]

theorem permBuffer_spec (am : QAM) (s12 s34 : Bool) (q : ℕ) (o : ℕ → F) :
    (permBuffer am s12 s34 q o).length = ncartQ am ∧
    ∀ a < ncart (permAM am s12 s34).a, ∀ b < ncart (permAM am s12 s34).b,
    ∀ c < ncart (permAM am s12 s34).c, ∀ d < ncart (permAM am s12 s34).d,
      (permBuffer am s12 s34 q o)[pos4 (ncart (permAM am s12 s34).b) (ncart (permAM am s12 s34).c)
        (ncart (permAM am s12 s34).d) a b c d]? =
      some (o (q * ncartQ am + pos4 (ncart am.b) (ncart am.c) (ncart am.d)
        (unperm s12 s34 a b c d).1 (unperm s12 s34 a b c d).2.1 (unperm s12 s34 a b c d).2.2.1
        (unperm s12 s34 a b c d).2.2.2)) := by
  unfold permBuffer
  simp only
  refine ⟨?_, ?_⟩
  · rw [(loop4 _).1]
    cases s12 <;> cases s34 <;> simp [permAM, ncartQ, Nat.mul_comm, Nat.mul_left_comm]
  · intro a ha b hb c hc d hd
    rw [(loop4 _).2 a ha b hb c hc d hd]
    congr 2
    cases s12 <;> cases s34 <;> simp only [unperm, pos4, if_true, if_false, Bool.false_eq_true] <;> ring

theorem permBuffer_congr (am : QAM) (s12 s34 : Bool) (q : ℕ) {o o' : ℕ → F}
    (h : ∀ k < ncartQ am, o (q * ncartQ am + k) = o' (q * ncartQ am + k)) :
    permBuffer am s12 s34 q o = permBuffer am s12 s34 q o' := by
  have h1 := permBuffer_spec am s12 s34 q o
  have h2 := permBuffer_spec am s12 s34 q o'
  have hn : ncart (permAM am s12 s34).a * ncart (permAM am s12 s34).b *
      (ncart (permAM am s12 s34).c * ncart (permAM am s12 s34).d) = ncartQ am := by
    cases s12 <;> cases s34 <;> simp [permAM, ncartQ, Nat.mul_comm, Nat.mul_left_comm]
  apply List.ext_getElem?
  intro k
  by_cases hk : k < ncartQ am
  · rw [← hn] at hk
    obtain ⟨a, ha, b, hb, c, hc, d, hd, rfl⟩ := pos4_surj hk
    rw [h1.2 a ha b hb c hc d hd, h2.2 a ha b hb c hc d hd, h]
    unfold ncartQ
    apply pos4_lt
    all_goals
      revert ha hb hc hd
      cases s12 <;> cases s34 <;> simp [permAM, unperm] <;> omega
  · rw [List.getElem?_eq_none (by omega), List.getElem?_eq_none (by omega)]

theorem permLoop_spec (am : QAM) (s12 s34 : Bool) (n : ℕ) (o : ℕ → F) :
    ∃ o', (List.range n).foldlM (fun o q => permQuartet am s12 s34 q o) o = some o' ∧
      (∀ q < n, ∀ k < ncartQ am, (permBuffer am s12 s34 q o)[k]? = some (o' (q * ncartQ am + k))) ∧
      ∀ k, n * ncartQ am ≤ k → o' k = o k := by
  induction n with
  | zero => exact ⟨o, rfl, fun q hq => absurd hq (by omega), fun k _ => rfl⟩
  | succ n ih =>
    obtain ⟨o1, e, h1, h2⟩ := ih
    have hb : permBuffer am s12 s34 n o1 = permBuffer am s12 s34 n o :=
      permBuffer_congr am s12 s34 n fun k _ => h2 _ (by omega)
    have hl := (permBuffer_spec am s12 s34 n o).1
    refine ⟨_, by
      rw [List.range_succ, List.foldlM_append, e]
      simp only [List.foldlM_cons, List.foldlM_nil, bind_pure, Option.bind_eq_bind, Option.bind_some]
      unfold permQuartet
      simp only
      rw [hb, if_pos hl], ?_, ?_⟩
    · intro q hq k hk
      by_cases hqn : q = n
      · subst hqn
        rw [if_pos ⟨by omega, by omega⟩, Nat.add_sub_cancel_left, List.getD_eq_getElem?_getD,
          List.getElem?_eq_getElem (by omega)]
        rfl
      · have hlt : q * ncartQ am + k < n * ncartQ am := by
          have : (q + 1) * ncartQ am ≤ n * ncartQ am := Nat.mul_le_mul_right _ (by omega)
          rw [Nat.succ_mul] at this; omega
        rw [if_neg (by omega)]
        exact h1 q (by omega) k hk
    · intro k hk
      rw [Nat.succ_mul] at hk
      rw [if_neg (by omega)]
      exact h2 k (by omega)

end

/-! ## Component positions -/

theorem index_pos4 (ord : ℕ → List Exp) (x y z w : Exp) :
    Qrt.index ord ⟨⟨x, y⟩, ⟨z, w⟩, 0⟩ =
      pos4 (ncart y.am) (ncart z.am) (ncart w.am) (cidx ord x) (cidx ord y) (cidx ord z) (cidx ord w) := by
  simp only [Qrt.index, Dbl.index, Dbl.ncart, pos4]

/-! ## Exchanging the centers of a pair -/

/-- The pair with both centers exchanged. -/
def ShellPair.swap (S : ShellPair) : ShellPair :=
  ⟨S.B, S.A, S.prims.map fun x => ⟨x.coef, x.β, x.α, x.hβ, x.hα⟩⟩

/-- Exchanged if `s`. -/
def ShellPair.swapIf (s : Bool) (S : ShellPair) : ShellPair := if s then S.swap else S

theorem dist2_comm (A B : Dir → ℝ) : dist2 A B = dist2 B A := by unfold dist2; ring

theorem Holds.swap {M : MSP ℝ} {start : ℕ → ℕ} {S : ℕ → ShellPair} (h : Holds M start S) {n : ℕ}
    (hn : M.nclip ≤ n) (junk : Dir → ℕ → ℝ) :
    Holds (swapMSP M n junk) start (fun s => (S s).swap) := by
  refine ⟨fun s hs => ?_, fun s hs d => ?_, fun s hs k hk => ?_⟩
  · show M.nprim12 s = _
    rw [h.count s hs]
    simp [ShellPair.swap]
  · have hs' : s < M.nclip := hs
    show (if s < n then -M.AB d s else junk d s) = _
    rw [if_pos (by omega), h.AB s hs']
    simp [ShellPair.swap]
  · have hk' : k < (S s).prims.length := by simpa [ShellPair.swap] using hk
    obtain ⟨h1, h2, h3, h4, h5⟩ := h.prims s hs k hk'
    have e : ((S s).swap.prims)[k] = ⟨((S s).prims[k]).coef, ((S s).prims[k]).β, ((S s).prims[k]).α,
        ((S s).prims[k]).hβ, ((S s).prims[k]).hα⟩ := by simp [ShellPair.swap]
    rw [e]
    refine ⟨?_, ?_, ?_, ?_, ?_⟩
    · show M.alpha _ = _
      rw [h1]; exact add_comm _ _
    · intro d
      show M.pos d _ = _
      rw [h2]
      simp only [ShellPair.swap]
      rw [add_comm (_ * _) (_ * _), add_comm ((S s).prims[k]).α]
    · exact h4
    · exact h3
    · show M.prefac _ = _
      rw [h5]
      simp only [ShellPair.swap]
      rw [mul_comm ((S s).prims[k]).α, add_comm ((S s).prims[k]).α, dist2_comm]

theorem coulomb_swap12 (α β γ δ : ℝ) (A B C D : Dir → ℝ) (a b c d : Exp) :
    coulomb β α γ δ B A C D b a c d = coulomb α β γ δ A B C D a b c d := by
  unfold coulomb
  congr 1
  funext w
  ring

theorem coulomb_swap34 (α β γ δ : ℝ) (A B C D : Dir → ℝ) (a b c d : Exp) :
    coulomb α β δ γ A B D C a b d c = coulomb α β γ δ A B C D a b c d := by
  unfold coulomb
  congr 1
  funext w
  ring

theorem sum_fin_len {n m : ℕ} (h : n = m) (f : Fin n → ℝ) (g : Fin m → ℝ)
    (hfg : ∀ i (h1 : i < n) (h2 : i < m), f ⟨i, h1⟩ = g ⟨i, h2⟩) : ∑ i, f i = ∑ i, g i := by
  subst h
  exact Finset.sum_congr rfl fun i _ => hfg i i.2 i.2

theorem screenedERI_perm (c c' : Call ℝ) (hk : ∀ i j, c.Kept i j ↔ c'.Kept i j) (i0 j0 : ℕ)
    (s12 s34 : Bool) (S T : ShellPair) (x y z w : Exp) :
    screenedERI c' i0 j0 (S.swapIf s12) (T.swapIf s34) (unperm s12 s34 x y z w).1
      (unperm s12 s34 x y z w).2.1 (unperm s12 s34 x y z w).2.2.1 (unperm s12 s34 x y z w).2.2.2 =
    screenedERI c i0 j0 S T x y z w := by
  unfold screenedERI
  have l1 : (S.swapIf s12).prims.length = S.prims.length := by
    unfold ShellPair.swapIf; split <;> simp [ShellPair.swap]
  have l2 : (T.swapIf s34).prims.length = T.prims.length := by
    unfold ShellPair.swapIf; split <;> simp [ShellPair.swap]
  refine sum_fin_len l1 _ _ fun k k1 k2 => sum_fin_len l2 _ _ fun l l3 l4 => ?_
  have hp : ((S.swapIf s12).prims[k]).coef * ((T.swapIf s34).prims[l]).coef *
      coulomb ((S.swapIf s12).prims[k]).α ((S.swapIf s12).prims[k]).β ((T.swapIf s34).prims[l]).α
        ((T.swapIf s34).prims[l]).β (S.swapIf s12).A (S.swapIf s12).B (T.swapIf s34).A
        (T.swapIf s34).B (unperm s12 s34 x y z w).1 (unperm s12 s34 x y z w).2.1
        (unperm s12 s34 x y z w).2.2.1 (unperm s12 s34 x y z w).2.2.2 =
      (S.prims[k]).coef * (T.prims[l]).coef * coulomb (S.prims[k]).α (S.prims[k]).β (T.prims[l]).α
        (T.prims[l]).β S.A S.B T.A T.B x y z w := by
    cases s12 <;> cases s34
    · rfl
    · simp only [ShellPair.swapIf, ShellPair.swap, unperm, if_true, Bool.false_eq_true, if_false,
        List.getElem_map]
      rw [coulomb_swap34]
    · simp only [ShellPair.swapIf, ShellPair.swap, unperm, if_true, Bool.false_eq_true, if_false,
        List.getElem_map]
      rw [coulomb_swap12]
    · simp only [ShellPair.swapIf, ShellPair.swap, unperm, if_true, List.getElem_map]
      rw [coulomb_swap12, coulomb_swap34]
  by_cases hK : c.Kept (i0 + k) (j0 + l)
  · rw [if_pos hK, if_pos ((hk _ _).1 hK)]
    exact hp
  · rw [if_neg hK, if_neg fun h => hK ((hk _ _).2 h)]

end Simint
