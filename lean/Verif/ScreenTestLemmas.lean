import Verif.ScreenTest
import Verif.ScreenLemmas
import Mathlib.Data.Multiset.Sym
import Mathlib.Data.Multiset.Bind
import Mathlib.Data.Nat.Choose.Basic

/-!
# Lemmas for screentest
-/

set_option autoImplicit false

namespace Simint

/-! ### Unordered pairs -/

theorem sym2_add {α : Type} (A B : Multiset α) :
    (A + B).sym2 = A.sym2 + B.sym2 + A.bind fun a => B.map fun b => s(a, b) := by
  induction A using Multiset.induction_on with
  | empty => simp
  | cons a A ih =>
    rw [Multiset.cons_add, Multiset.sym2_cons, ih, Multiset.sym2_cons, Multiset.cons_bind, ← Multiset.cons_add,
      Multiset.map_add]
    abel

theorem range_sym2 {α : Type} (f : ℕ → α) (n : ℕ) :
    ((Multiset.range n).bind fun p => (Multiset.range (p + 1)).map fun q => s(f p, f q)) =
      ((Multiset.range n).map f).sym2 := by
  induction n with
  | zero => simp
  | succ n ih =>
    rw [Multiset.range_succ, Multiset.cons_bind, ih, Multiset.map_cons, Multiset.sym2_cons, ← Multiset.map_cons,
      ← Multiset.range_succ, Multiset.map_map]
    rfl

theorem blocks_sym2 {α : Type} (np : ℕ → ℕ) (f : ℕ → ℕ → α) (n : ℕ) :
    ((Multiset.range n).bind fun i => (Multiset.range (i + 1)).bind fun k => (Multiset.range (np i)).bind fun p =>
      (Multiset.range (if i = k then p + 1 else np k)).map fun q => s(f i p, f k q)) =
      ((Multiset.range n).bind fun i => (Multiset.range (np i)).map (f i)).sym2 := by
  induction n with
  | zero => simp
  | succ n ih =>
    rw [Multiset.range_succ, Multiset.cons_bind, ih, Multiset.cons_bind, sym2_add, Multiset.range_succ,
      Multiset.cons_bind]
    simp only [if_true]
    have e : ((Multiset.range n).bind fun k => (Multiset.range (np n)).bind fun p =>
        (Multiset.range (if n = k then p + 1 else np k)).map fun q => s(f n p, f k q)) =
        (Multiset.range n).bind fun k => (Multiset.range (np n)).bind fun p =>
          (Multiset.range (np k)).map fun q => s(f n p, f k q) :=
      Multiset.bind_congr fun k hk => by
        have : n ≠ k := fun e => by rw [Multiset.mem_range] at hk; omega
        simp only [if_neg this]
    rw [range_sym2, Multiset.bind_map, e, Multiset.bind_bind]
    simp only [Multiset.map_bind, Multiset.map_map, Function.comp_def]
    abel

/-! ### Loops -/

theorem triLoop_succ (n : ℕ) : triLoop (n + 1) = triLoop n ++ (List.range (n + 1)).map fun j => (n, j) := by
  unfold triLoop
  rw [List.range_succ (n := n), List.flatMap_append, List.flatMap_singleton, ← List.range_succ]

theorem triLoop_length (n : ℕ) : (triLoop n).length = n * (n + 1) / 2 := by
  induction n with
  | zero => rfl
  | succ n ih =>
    rw [triLoop_succ, List.length_append, ih, List.length_map, List.length_range]
    have : (n + 1) * (n + 1 + 1) = n * (n + 1) + (n + 1) * 2 := by ring
    rw [this, Nat.add_mul_div_right _ _ (by norm_num)]

theorem mem_triLoop {n : ℕ} {t : ℕ × ℕ} : t ∈ triLoop n ↔ t.1 < n ∧ t.2 ≤ t.1 := by
  simp only [triLoop, List.mem_flatMap, List.mem_map, List.mem_range]
  constructor
  · rintro ⟨i, hi, j, hj, rfl⟩
    exact ⟨hi, by simpa using Nat.lt_succ_iff.1 hj⟩
  · rintro ⟨h1, h2⟩
    exact ⟨t.1, h1, t.2, Nat.lt_succ_of_le h2, rfl⟩

theorem triLoop_bind {α : Type} (n : ℕ) (f : ℕ × ℕ → Multiset α) :
    (triLoop n : Multiset (ℕ × ℕ)).bind f =
      (Multiset.range n).bind fun i => (Multiset.range (i + 1)).bind fun j => f (i, j) := by
  unfold triLoop
  rw [← Multiset.coe_bind, Multiset.bind_assoc]
  refine Multiset.bind_congr fun i _ => ?_
  rw [← Multiset.map_coe, Multiset.bind_map]
  rfl

theorem triLoop_map {α : Type} (n : ℕ) (f : ℕ × ℕ → α) :
    ((triLoop n).map f : Multiset α) =
      (Multiset.range n).bind fun i => (Multiset.range (i + 1)).map fun j => f (i, j) := by
  have h := triLoop_bind n fun t => {f t}
  rw [Multiset.bind_singleton, Multiset.map_coe] at h
  rw [h]
  exact Multiset.bind_congr fun i _ => Multiset.bind_singleton _ _

/-- Looping over the positions of a list. -/
theorem range_bind_getD {α β : Type} (l : List α) (d : α) (f : α → Multiset β) :
    ((Multiset.range l.length).bind fun k => f (l.getD k d)) = (l : Multiset α).bind f := by
  have h : (Multiset.range l.length).map (fun k => l.getD k d) = (l : Multiset α) := by
    show ((List.range l.length).map fun k => l.getD k d : Multiset α) = l
    congr 1
    refine List.ext_getElem (by simp) fun k h1 h2 => ?_
    rw [List.getElem_map, List.getElem_range]
    exact List.getD_eq_getElem _ _ h2
  rw [← h, Multiset.bind_map]

theorem range_map_getD {α : Type} (l : List α) (d : α) :
    (Multiset.range l.length).map (fun k => l.getD k d) = (l : Multiset α) := by
  have := range_bind_getD l d fun a => ({a} : Multiset α)
  rwa [Multiset.bind_singleton, Multiset.bind_singleton, Multiset.map_id'] at this

theorem stCount_eq (tol2 : ℝ) (l : List ℝ) :
    stCount tol2 l = ((l : Multiset ℝ).countP (· < tol2), (l : Multiset ℝ).countP (tol2 ≤ ·)) := by
  classical
  have key : ∀ c : ℕ × ℕ, l.foldl (fun c v => if v < tol2 then (c.1 + 1, c.2) else (c.1, c.2 + 1)) c =
      (c.1 + l.countP (· < tol2), c.2 + l.countP (tol2 ≤ ·)) := by
    induction l with
    | nil => intro c; rfl
    | cons a l ih =>
      intro c
      rw [List.foldl_cons, ih, List.countP_cons, List.countP_cons]
      by_cases h : a < tol2
      · have h' : ¬ tol2 ≤ a := not_le.2 h
        simp only [h, h', if_true, decide_true, decide_false, Bool.false_eq_true, if_false, Prod.mk.injEq]
        omega
      · have h' : tol2 ≤ a := not_lt.1 h
        simp only [h, h', if_true, decide_true, decide_false, Bool.false_eq_true, if_false, Prod.mk.injEq]
        omega
  have := key (0, 0)
  rw [zero_add, zero_add] at this
  unfold stCount
  refine Eq.trans ?_ (this.trans ?_)
  · congr
  · rw [Multiset.coe_countP, Multiset.coe_countP]

theorem stCount_total (tol2 : ℝ) (l : List ℝ) : (stCount tol2 l).1 + (stCount tol2 l).2 = l.length := by
  classical
  rw [stCount_eq]
  have := Multiset.card_eq_countP_add_countP (fun v => v < tol2) (l : Multiset ℝ)
  simp only [not_lt] at this
  rw [Multiset.coe_card] at this
  exact this.symm

/-! ### Pairs -/

theorem stCount_card (tol2 : ℝ) {l : List ℝ} {M : Multiset ℝ} (h : (l : Multiset ℝ) = M) :
    (stCount tol2 l).1 + (stCount tol2 l).2 = Multiset.card M := by
  rw [stCount_total, ← h, Multiset.coe_card]

theorem stPair_spec (sh : ShCfg) (hl : 0 < sh.len) (hsc : sh.screening = true) (big : ℝ) (mf : ℕ → ℝ)
    {A B : Shell ℝ} (hA : A.OK) (hB : B.OK) (hf : Faithful A B) :
    ∃ Q, stPair sh big mf A B = some Q ∧ Q.nprim = pairPrims A B ∧
      (Multiset.range (pairPrims A B)).map Q.screen =
        (((primOrder A B).map fun p => fastVal A B p.1 p.2 : List ℝ) : Multiset ℝ) ∧
      Q.screenMax = max big ((fastSchwarz fastVal A B).2) := by
  have hps : PairsOK [(A, B)] := by
    intro p hp
    rw [List.mem_singleton] at hp
    subst hp
    exact ⟨hA, hB, hf⟩
  obtain ⟨M, e, -, ⟨ord, o1, o2, o3⟩, h3⟩ := complete_listScr sh hl hsc (fastSchwarz fastVal) fastVal
    (fastSchwarz_exact _) big _ hps mf
  have hperm : (ord 0).Perm (primOrder A B) := o1 0 (by simp)
  have hlen : (ord 0).length = pairPrims A B := hperm.length_eq.trans (primOrder_length A B)
  refine ⟨_, by rw [stPair, e, Option.map_some], ?_, ?_, ?_⟩
  · obtain ⟨-, -, -, -, h⟩ := C37_fill_writes_allocation sh hl realShOps (fastSchwarz fastVal) fastVal
      (fun _ => fastSchwarz_exact _) big [(A, B)]
    rw [h]
    simp
  · dsimp only
    have e1 : (Multiset.range (pairPrims A B)).map M.1.screen =
        (((ord 0).map fun p => fastVal A B p.1 p.2 : List ℝ) : Multiset ℝ) := by
      show ((List.range (pairPrims A B)).map M.1.screen : Multiset ℝ) = _
      congr 1
      refine List.ext_getElem (by simp [hlen]) fun k k1 k2 => ?_
      rw [List.getElem_map, List.getElem_map, List.getElem_range]
      have hk : k < (ord 0).length := by simpa using k2
      have := o3 0 (by simp) k hk
      simpa [paddedStart] using this
    rw [e1]
    exact Multiset.coe_eq_coe.2 (hperm.map _)
  · dsimp only
    rw [h3]
    simp only [fillPairs, List.foldl_cons, List.foldl_nil, fillStep, hsc, if_true]
    rcases lt_or_ge big (fastSchwarz fastVal A B).2 with h | h
    · rw [if_pos h, max_eq_right h.le]
    · rw [if_neg (not_lt.2 h), max_eq_left h]

end Simint
