import Verif.Spec.Hsum
import Verif.FlSumLemmas

/-! The variants of `contract_all` on doubles beside `contract_all` on multisets of numbers. -/

set_option autoImplicit false

namespace Simint

open Finset
open FlBoys (Arith)

section
variable {F : Type} [AddCommMonoid F]

theorem SumTree.eval_eq (t : SumTree) (v : ℕ → F) : t.eval v = (t.lanes.map v).sum := by
  induction t with
  | leaf n => simp [SumTree.eval, SumTree.lanes]
  | node a b ha hb => rw [SumTree.eval, SumTree.lanes, Multiset.map_add, Multiset.sum_add, ha, hb]

theorem HSum.eval_eq {len : ℕ} (h : HSum len) (v : ℕ → F) : h.tree.eval v = ∑ n ∈ range len, v n := by
  rw [SumTree.eval_eq, h.ok]
  rfl

theorem pick_sum (n k : ℕ) (f : ℕ → F) :
    ∑ np ∈ range n, (if np = k then f np else 0) = if k < n then f k else 0 := by
  rw [sum_ite_eq']
  simp only [mem_range]

theorem blocked_sum (w n : ℕ) (f : ℕ → F) :
    ∑ x ∈ range n, f x = ∑ q ∈ range (n / w), ∑ r ∈ range w, f (q * w + r)
      + ∑ r ∈ range (n - n / w * w), f (n / w * w + r) := by
  have h1 : ∀ m, ∑ x ∈ range (m * w), f x = ∑ q ∈ range m, ∑ r ∈ range w, f (q * w + r) := by
    intro m
    induction m with
    | zero => simp
    | succ m ih => rw [Nat.succ_mul, sum_range_add, ih, sum_range_succ]
  rw [← h1, ← sum_range_add]
  congr 2
  have := Nat.div_mul_le_self n w
  omega

theorem range'_sum (s n : ℕ) (f : ℕ → F) :
    ((List.range' s n).map f).sum = ∑ i ∈ range n, f (s + i) := by
  rw [List.range'_eq_map_range, List.map_map, list_range_sum]
  rfl

/-- What a variant adds to component `k`. -/
theorem adds_sum {len : ℕ} (a : AllSum len) (ncart k : ℕ) (src : ℕ → ℕ → F) :
    ((a.adds ncart src).map fun e => if e.1 = k then e.2 else 0).sum
      = if k < ncart then ∑ n ∈ range len, src k n else 0 := by
  rw [← pick_sum ncart k fun np => ∑ n ∈ range len, src np n]
  cases a with
  | lanes len =>
    rw [AllSum.adds, List.map_flatMap, list_sum_flatMap]
    simp only [List.map_map, Function.comp_def, list_range_sum]
    rw [sum_comm]
    refine sum_congr rfl fun np _ => ?_
    by_cases h : np = k <;> simp [h]
  | avx =>
    rw [AllSum.adds, List.map_append, List.sum_append, List.map_flatMap, list_sum_flatMap]
    simp only [List.map_map, Function.comp_def, list_range_sum, range'_sum]
    rw [blocked_sum 4 ncart]
    congr 1
    · refine sum_congr rfl fun q _ => ?_
      simp only [List.map_cons, List.map_nil, List.sum_cons, List.sum_nil, hadd4, sum_range_succ,
        range_zero, sum_empty, zero_add, add_zero]
      simp only [← add_assoc]
    · refine sum_congr rfl fun r _ => ?_
      simp only [sum_range_succ, range_zero, sum_empty, zero_add]
  | avx512 h =>
    rw [AllSum.adds, List.map_append, List.sum_append, List.map_flatMap, list_sum_flatMap]
    simp only [List.map_map, Function.comp_def, list_range_sum, range'_sum, List.map_flatMap, list_sum_flatMap,
      HSum.eval_eq]
    rw [blocked_sum 8 ncart]
    congr 1
    refine sum_congr rfl fun q _ => ?_
    rw [sum_comm]
    refine sum_congr rfl fun j _ => ?_
    by_cases h : q * 8 + j = k <;> simp [h]
  | reduce len h =>
    rw [AllSum.adds]
    simp only [List.map_map, Function.comp_def, list_range_sum, HSum.eval_eq]

end

/-- The components a variant writes to. -/
theorem adds_lt {F : Type} [Add F] {len : ℕ} (a : AllSum len) (ncart : ℕ) (src : ℕ → ℕ → F) :
    ∀ e ∈ a.adds ncart src, e.1 < ncart := by
  intro e he
  have h4 := Nat.div_mul_le_self ncart 4
  have h8 := Nat.div_mul_le_self ncart 8
  cases a with
  | lanes len =>
    obtain ⟨n, _, he⟩ := List.mem_flatMap.1 he
    obtain ⟨np, h, rfl⟩ := List.mem_map.1 he
    exact List.mem_range.1 h
  | avx =>
    rcases List.mem_append.1 he with he | he
    · obtain ⟨it, hit, he⟩ := List.mem_flatMap.1 he
      have h1 := List.mem_range.1 hit
      simp only [List.mem_cons, List.not_mem_nil, or_false] at he
      rcases he with rfl | rfl | rfl | rfl <;> simp only <;> omega
    · obtain ⟨np, hnp, rfl⟩ := List.mem_map.1 he
      have := List.mem_range'_1.1 hnp
      simp only
      omega
  | avx512 h =>
    rcases List.mem_append.1 he with he | he
    · obtain ⟨it, hit, he⟩ := List.mem_flatMap.1 he
      obtain ⟨i, hi, he⟩ := List.mem_flatMap.1 he
      obtain ⟨j, hj, rfl⟩ := List.mem_map.1 he
      have h1 := List.mem_range.1 hit
      have h2 := List.mem_range.1 hj
      simp only
      omega
    · obtain ⟨np, hnp, rfl⟩ := List.mem_map.1 he
      have := List.mem_range'_1.1 hnp
      simp only
      omega
  | reduce len h =>
    obtain ⟨np, h, rfl⟩ := List.mem_map.1 he
    exact List.mem_range.1 h

/-- On exact numbers all variants add the sums over the lanes. -/
theorem contractAllBy_eq {F : Type} [AddCommMonoid F] {len : ℕ} (a : AllSum len) (size ncart : ℕ)
    (src : ℕ → ℕ → F) (ptr : ℕ) (b : ℕ → F) (h : ptr + ncart ≤ size) :
    contractAllBy a size ncart src ptr b = some fun k => b k +
      if ptr ≤ k ∧ k < ptr + ncart then ∑ n ∈ range len, src (k - ptr) n else 0 := by
  rw [contractAllBy, addList_eq]
  · congr 1
    funext k
    congr 1
    rw [List.map_map]
    by_cases hk : ptr ≤ k
    · have h1 := adds_sum a ncart (k - ptr) src
      rw [if_congr (show ptr ≤ k ∧ k < ptr + ncart ↔ k - ptr < ncart by omega) rfl rfl, ← h1]
      congr 1
      refine List.map_congr_left fun e _ => ?_
      simp only [Function.comp_def]
      exact if_congr (by omega) rfl rfl
    · rw [if_neg (by omega)]
      refine List.sum_eq_zero fun x hx => ?_
      obtain ⟨e, _, rfl⟩ := List.mem_map.1 hx
      simp only [Function.comp_def]
      exact if_neg (by omega)
  · intro e he
    obtain ⟨e, h1, rfl⟩ := List.mem_map.1 he
    have := adds_lt a ncart src e h1
    simp only
    omega

theorem addList_some {F : Type} [Add F] (size : ℕ) (l : List (ℕ × F)) :
    ∀ b r, addList size l b = some r → ∀ e ∈ l, e.1 < size := by
  induction l with
  | nil => intro b r _ e he; simp at he
  | cons a l ih =>
    intro b r h e he
    obtain ⟨i, v⟩ := a
    rw [addList] at h
    by_cases hi : i < size
    · rw [if_pos hi] at h
      rcases List.mem_cons.1 he with rfl | he
      · exact hi
      · exact ih _ r h e he
    · rw [if_neg hi] at h
      exact absurd h (by simp)

theorem addList_other {F : Type} [Add F] (size : ℕ) (l : List (ℕ × F)) :
    ∀ b r, addList size l b = some r → ∀ k, (∀ e ∈ l, e.1 ≠ k) → r k = b k := by
  induction l with
  | nil =>
    intro b r h k _
    rw [show b = r by simpa [addList] using h]
  | cons a l ih =>
    intro b r h k hk
    obtain ⟨i, v⟩ := a
    rw [addList] at h
    by_cases hi : i < size
    · rw [if_pos hi] at h
      rw [ih _ r h k fun e he => hk e (by simp [he])]
      exact if_neg (Ne.symm (hk (i, v) (by simp)))
    · rw [if_neg hi] at h
      exact absurd h (by simp)

section
variable {F : Arith}

theorem SumTree.eval_rel (t : SumTree) (v' : ℕ → Fd F) (v : ℕ → Tr F)
    (h : ∀ n ∈ t.lanes, SumOf F (v' n).val (v n).set) : SumOf F (t.eval v').val (t.eval v).set := by
  induction t with
  | leaf n => exact h n (by simp [SumTree.lanes])
  | node a b ha hb =>
    rw [SumTree.lanes] at h
    exact (ha fun n hn => h n (Multiset.mem_add.2 (Or.inl hn))).add
      (hb fun n hn => h n (Multiset.mem_add.2 (Or.inr hn)))

theorem HSum.eval_rel {len : ℕ} (h : HSum len) (v' : ℕ → Fd F) (v : ℕ → Tr F)
    (hv : ∀ n < len, SumOf F (v' n).val (v n).set) : SumOf F (h.tree.eval v').val (h.tree.eval v).set :=
  SumTree.eval_rel _ _ _ fun n hn => hv n (by rw [h.ok] at hn; exact Multiset.mem_range.1 hn)

theorem adds_rel {len : ℕ} (a : AllSum len) (ncart : ℕ) (src' : ℕ → ℕ → Fd F) (src : ℕ → ℕ → Tr F)
    (h : ∀ n < len, ∀ c < ncart, SumOf F (src' c n).val (src c n).set) :
    List.Forall₂ (fun a b => a.1 = b.1 ∧ SumOf F a.2.val b.2.set) (a.adds ncart src') (a.adds ncart src) := by
  have h4 := Nat.div_mul_le_self ncart 4
  have h8 := Nat.div_mul_le_self ncart 8
  cases a with
  | lanes len =>
    exact forall₂_flatMap _ _ _ _ fun n hn => forall₂_map _ _ _ _ fun c hc =>
      ⟨rfl, h n (List.mem_range.1 hn) c (List.mem_range.1 hc)⟩
  | avx =>
    refine List.rel_append (forall₂_flatMap _ _ _ _ fun n hn => ?_) (forall₂_map _ _ _ _ fun n hn => ⟨rfl, ?_⟩)
    · have hn := List.mem_range.1 hn
      have g : ∀ r < 4, ∀ l < 4, SumOf F (src' (n * 4 + r) l).val (src (n * 4 + r) l).set :=
        fun r hr l hl => h l hl _ (by omega)
      have q : ∀ r < 4, SumOf F ((src' (n * 4 + r) 0 + src' (n * 4 + r) 1)
            + (src' (n * 4 + r) 2 + src' (n * 4 + r) 3)).val
          ((src (n * 4 + r) 0 + src (n * 4 + r) 1) + (src (n * 4 + r) 2 + src (n * 4 + r) 3)).set :=
        fun r hr => ((g r hr 0 (by omega)).add (g r hr 1 (by omega))).add
          ((g r hr 2 (by omega)).add (g r hr 3 (by omega)))
      exact .cons ⟨rfl, q 0 (by omega)⟩ (.cons ⟨rfl, q 1 (by omega)⟩ (.cons ⟨rfl, q 2 (by omega)⟩
        (.cons ⟨rfl, q 3 (by omega)⟩ .nil)))
    · have hn := List.mem_range'_1.1 hn
      have g : ∀ l < 4, SumOf F (src' n l).val (src n l).set := fun l hl => h l hl _ (by omega)
      exact (((g 0 (by omega)).add (g 1 (by omega))).add (g 2 (by omega))).add (g 3 (by omega))
  | avx512 t =>
    refine List.rel_append ?_ (forall₂_map _ _ _ _ fun n hn => ⟨rfl, ?_⟩)
    · refine forall₂_flatMap _ _ _ _ fun n hn => forall₂_flatMap _ _ _ _ fun i hi =>
        forall₂_map _ _ _ _ fun j hj => ⟨rfl, ?_⟩
      have hn := List.mem_range.1 hn
      have hj := List.mem_range.1 hj
      exact h i (List.mem_range.1 hi) _ (by omega)
    · have hn := List.mem_range'_1.1 hn
      exact t.eval_rel _ _ fun l hl => h l hl _ (by omega)
  | reduce len t =>
    exact forall₂_map _ _ _ _ fun n hn => ⟨rfl, t.eval_rel _ _ fun l hl => h l hl _ (List.mem_range.1 hn)⟩

theorem contractAllBy_rel {len : ℕ} (a : AllSum len) (size ncart : ℕ) (src' : ℕ → ℕ → Fd F)
    (src : ℕ → ℕ → Tr F) (ptr : ℕ) (h : ∀ n < len, ∀ c < ncart, SumOf F (src' c n).val (src c n).set) :
    ∀ b' b r, Rel1 b' b → contractAllBy a size ncart src ptr b = some r →
      ∃ r', contractAllBy a size ncart src' ptr b' = some r' ∧ Rel1 r' r := by
  intro b' b r hb hr
  refine addList_rel size ?_ b' b r hb hr
  exact List.forall₂_map_left_iff.2 (List.forall₂_map_right_iff.2
    ((adds_rel a ncart src' src h).imp fun x y hxy => ⟨by rw [hxy.1], hxy.2⟩))

/-- The variant on doubles beside `contract_all` through `contract` on multisets. -/
theorem contractAllBy_rel_all {len : ℕ} (hlen : 0 < len) (a : AllSum len) (size ncart : ℕ)
    (src' : ℕ → ℕ → Fd F) (src : ℕ → ℕ → Tr F) (ptr : ℕ)
    (h : ∀ n < len, ∀ c < ncart, SumOf F (src' c n).val (src c n).set) :
    ∀ b' b r, Rel1 b' b → contractAll size len ncart src ptr b = some r →
      ∃ r', contractAllBy a size ncart src' ptr b' = some r' ∧ Rel1 r' r := by
  intro b' b r hb hr
  rcases Nat.eq_zero_or_pos ncart with h0 | h0
  · subst h0
    have e1 : ∀ l : List (ℕ × Tr F), (∀ e ∈ l, e.1 < 0) → l = [] := fun l hl => by
      cases l with
      | nil => rfl
      | cons e l => exact absurd (hl e (by simp)) (by omega)
    refine contractAllBy_rel a size 0 src' src ptr h b' b r hb ?_
    rw [contractAllBy, e1 _ (adds_lt a 0 src)]
    have : contractAll size len 0 src ptr b = addList size [] b := by
      unfold contractAll contract
      congr 1
      simp
    rw [this] at hr
    exact hr
  · have hs : ptr + ncart ≤ size := by
      have h1 := addList_some size _ b r hr (ptr + 0 * ncart + (ncart - 1), src (ncart - 1) 0)
        (List.mem_flatMap.2 ⟨0, List.mem_range.2 hlen, List.mem_map.2
          ⟨ncart - 1, List.mem_range.2 (by omega), rfl⟩⟩)
      simp only at h1
      omega
    refine contractAllBy_rel a size ncart src' src ptr h b' b r hb ?_
    rw [← hr, contractAllBy_eq a size ncart src ptr b hs, contractAll,
      contract_eq _ _ _ _ _ _ _ (by intro n _; simpa using hs)]
    congr 1
    funext k
    congr 1
    simp only [Nat.zero_mul, Nat.add_zero]
    rw [sum_comm]
    by_cases hk : ptr ≤ k
    · rw [if_congr (show ptr ≤ k ∧ k < ptr + ncart ↔ k - ptr < ncart by omega) rfl rfl,
        ← pick_sum ncart (k - ptr) fun np => ∑ n ∈ range len, src np n]
      refine sum_congr rfl fun np _ => ?_
      by_cases hnp : np = k - ptr
      · rw [if_pos hnp]
        exact sum_congr rfl fun n _ => (if_pos (by omega)).symm
      · rw [if_neg hnp]
        exact (sum_eq_zero fun n _ => if_neg (by omega)).symm
    · rw [if_neg (by omega)]
      exact (sum_eq_zero fun n _ => sum_eq_zero fun m _ => if_neg (by omega)).symm

variable {e : DEnv (Fd F)} {prim : ℕ → ℕ → Fd F → QAM → ℕ → Fd F} (hlen : 0 < e.len) (al : AllSum e.len)
include hlen

theorem accumulateBy_rel (offs : List ℕ) (last : ℕ) (ptr : QAM → ℕ)
    (src' : ℕ → QAM → ℕ → Fd F) (src : ℕ → QAM → ℕ → Tr F)
    (h : ∀ n < e.len, ∀ t ∈ e.tops, ∀ c < ncartQ t, SumOf F (src' n t c).val (src n t c).set) :
    ∀ m' m r, RelM m' m → accumulate (trEnv e) offs last ptr src m = some r →
      ∃ r', accumulateBy e al offs last ptr src' m' = some r' ∧ RelM r' r := by
  unfold accumulate accumulateBy
  refine foldlM_rel RelM _ _ _ fun t ht m' m r hm hr => ?_
  have ht : t ∈ e.tops := ht
  obtain ⟨b, hb, rfl⟩ := Option.map_eq_some_iff.1 hr
  have key : ∃ b', (if last = 0 then
        contractAllBy al (e.size t) (ncartQ t) (fun np n => src' n t np) (ptr t) (m' t)
      else
        contract (e.size t) e.len (ncartQ t) (fun n => offs.getD n 0) (fun np n => src' n t np)
          (ptr t) (m' t)) = some b' ∧ Rel1 b' b := by
    by_cases hl : last = 0
    · rw [if_pos hl] at hb ⊢
      exact contractAllBy_rel_all hlen al _ _ _ _ _ (fun n hn c hc => h n hn t ht c hc) _ _ _ (hm t) hb
    · rw [if_neg hl] at hb ⊢
      exact contract_rel _ _ _ _ _ _ _ (fun n hn c hc => h n hn t ht c hc) _ _ _ (hm t) hb
  obtain ⟨b', h1, h2⟩ := key
  refine ⟨Function.update m' t b', by rw [h1]; rfl, fun s => ?_⟩
  by_cases hs : s = t
  · subst hs; simpa using h2
  · rw [Function.update_of_ne hs, Function.update_of_ne hs]
    exact hm s

theorem vecStepBy_rel (hprim : LaneWise e prim) (cd nb jend i j : ℕ) (hi : i < e.P.alloc) (hd : e.len ∣ j) :
    ∀ s' s t, RelD s' s → vecStep (trEnv e) cd nb jend i s j = some t →
      ∃ t', vecStepBy e al cd nb jend i s' j = some t' ∧ RelD t' t := by
  rintro ⟨a1, a2, a3, a4, m'⟩ ⟨b1, b2, b3, b4, m⟩ t ⟨h1, h2, h3, h4, hm⟩ ht
  simp only at h1 h2 h3 h4 hm
  subst h1 h2 h3 h4
  unfold vecStep at ht
  unfold vecStepBy
  simp only at ht ⊢
  by_cases hj : j + e.len ≤ e.Q.alloc
  · rw [if_pos hj]
    rw [if_pos (show j + (trEnv e).len ≤ (trEnv e).Q.alloc from hj)] at ht
    by_cases hs : e.skipVec i j
    · rw [if_pos hs]
      rw [if_pos ((tr_skipVec e i j).2 hs)] at ht
      obtain rfl := Option.some.inj ht
      exact ⟨_, rfl, rfl, rfl, rfl, rfl, hm⟩
    · rw [if_neg hs]
      rw [if_neg fun h => hs ((tr_skipVec e i j).1 h)] at ht
      obtain ⟨src, e1, e2⟩ := Option.bind_eq_some_iff.1 ht
      obtain ⟨mem, e3, rfl⟩ := Option.map_eq_some_iff.1 e2
      obtain ⟨src', e4, e5⟩ := hprim.lane i j
        (maskLoad (if j + e.len < jend then e.len else jend - j) e.Q.prefac j) hi hd hj
      have hpf : (fun n => (⟨(maskLoad (if j + e.len < jend then e.len else jend - j)
          (trEnv e).Q.prefac j n).num⟩ : Fd F))
          = maskLoad (if j + e.len < jend then e.len else jend - j) e.Q.prefac j := by
        funext n
        unfold maskLoad
        split_ifs <;> rfl
      have e1 : (e.vec i j fun n => (⟨(maskLoad (if j + e.len < jend then e.len else jend - j)
          (trEnv e).Q.prefac j n).num⟩ : Fd F)).map _ = some src := e1
      rw [hpf, e4, Option.map_some] at e1
      obtain rfl := Option.some.inj e1
      rw [e4, Option.bind_some]
      obtain ⟨mem', e7, e8⟩ := accumulateBy_rel hlen al _ _ _ src' _ (by
        intro n hn t ht c hc
        by_cases hz : (maskLoad (if j + (trEnv e).len < jend then (trEnv e).len else jend - j)
          (trEnv e).Q.prefac j n).num = 0
        · rw [if_pos hz, e5 n hn t ht c hc]
          have : maskLoad (if j + e.len < jend then e.len else jend - j) e.Q.prefac j n = 0 := by
            rw [← hpf]
            exact Fd.val_injective hz
          rw [this, hprim.zero]
          exact .zero
        · rw [if_neg hz]
          exact .one _) m' m mem hm e3
      refine ⟨_, Option.map_eq_some_iff.2 ⟨mem', e7, rfl⟩,
        rfl, rfl, rfl, ?_, e8⟩
      rfl
  · rw [if_neg (show ¬ j + (trEnv e).len ≤ (trEnv e).Q.alloc from hj)] at ht
    exact absurd ht (by simp)

theorem braPrimBy_rel (hprim : LaneWise e prim) (abcd cd nb jstart jend i : ℕ) (hd : e.len ∣ jstart) :
    ∀ m' m r, RelM m' m → braPrim (trEnv e) abcd cd nb jstart jend m i = some r →
      ∃ r', braPrimBy e al abcd cd nb jstart jend m' i = some r' ∧ RelM r' r := by
  intro m' m r hm hr
  unfold braPrim at hr
  unfold braPrimBy
  by_cases hi : i < e.P.alloc
  · rw [if_pos hi]
    rw [if_pos (show i < (trEnv e).P.alloc from hi)] at hr
    by_cases hs : e.skipBra i
    · rw [if_pos hs]
      rw [if_pos ((tr_skipBra e i).2 hs)] at hr
      obtain rfl := Option.some.inj hr
      exact ⟨_, rfl, hm⟩
    · rw [if_neg hs]
      rw [if_neg fun h => hs ((tr_skipBra e i).1 h)] at hr
      obtain ⟨st, e1, rfl⟩ := Option.map_eq_some_iff.1 hr
      obtain ⟨st', e2, e3⟩ := foldlM_rel RelD
        (fun st v => vecStepBy e al cd nb jend i st (jstart + v * e.len)) _ _
        (fun v _ => vecStepBy_rel hlen al hprim cd nb jend i _ hi (hd.add (Dvd.intro_left v rfl))) ⟨0, 0, e.Q.nprim12 cd, fun t => abcd * ncartQ t, m'⟩
        _ _ ⟨rfl, rfl, rfl, rfl, hm⟩ e1
      exact ⟨st'.mem, Option.map_eq_some_iff.2 ⟨st', e2, rfl⟩, e3.mem⟩
  · rw [if_neg (show ¬ i < (trEnv e).P.alloc from hi)] at hr
    exact absurd hr (by simp)

theorem braPrimsBy_rel (hprim : LaneWise e prim) (abcd cd nb jstart jend istart iend : ℕ)
    (hd : e.len ∣ jstart) :
    ∀ m' m r, RelM m' m → braPrims (trEnv e) abcd cd nb jstart jend istart iend m = some r →
      ∃ r', braPrimsBy e al abcd cd nb jstart jend istart iend m' = some r' ∧ RelM r' r :=
  foldlM_rel RelM _ _ _ fun i _ => braPrimBy_rel hlen al hprim abcd cd nb jstart jend i hd

theorem batchDirectBy_rel (hprim : LaneWise e prim) (istart iend b : ℕ) :
    ∀ s' s t, RelB e.len s' s → batchDirect (trEnv e) istart iend s b = some t →
      ∃ t', batchDirectBy e al istart iend s' b = some t' ∧ RelB e.len t' t := by
  rintro ⟨a1, a2, m'⟩ ⟨b1, b2, m⟩ t ⟨h1, h2, hd, hm⟩ ht
  simp only at h1 h2 hd hm
  subst h1 h2
  unfold batchDirect at ht
  unfold batchDirectBy
  simp only at ht ⊢
  obtain ⟨r, e1, rfl⟩ := Option.map_eq_some_iff.1 ht
  obtain ⟨r', e2, e3⟩ := braPrimsBy_rel hlen al hprim _ _ _ _ _ _ _ hd m' m r hm e1
  exact ⟨_, Option.map_eq_some_iff.2 ⟨r', e2, rfl⟩, rfl, rfl, simdRound_dvd _ _, e3⟩

theorem runDirectBy_rel (hprim : LaneWise e prim) (final : QAM) (out' : ℕ → Fd F) (out : ℕ → Tr F)
    (ho : Rel1 out' out) (n : ℕ) (r : ℕ → Tr F) (h : runDirect (trEnv e) final out = some (n, r)) :
    ∃ r', runDirectBy e al final out' = some (n, r') ∧ Rel1 r' r := by
  unfold runDirect at h
  unfold runDirectBy
  simp only at h ⊢
  by_cases hs : e.P.nclip * e.Q.nclip * ncartQ final ≤ e.size final
  · rw [if_pos hs]
    rw [if_pos (show (trEnv e).P.nclip * (trEnv e).Q.nclip * ncartQ final ≤ (trEnv e).size final from hs)] at h
    obtain ⟨st, e1, e2⟩ := Option.map_eq_some_iff.1 h
    obtain ⟨rfl, rfl⟩ := Prod.mk.inj e2
    obtain ⟨st', e3, e4⟩ := foldlM_rel
      (fun (s' : ℕ × ℕ × (QAM → ℕ → Fd F)) (s : ℕ × ℕ × (QAM → ℕ → Tr F)) =>
        s'.1 = s.1 ∧ s'.2.1 = s.2.1 ∧ RelM s'.2.2 s.2.2) (bodyDirectBy e al) _ _
      (by
        rintro ab _ ⟨i', a', m'⟩ ⟨i, a, m⟩ t ⟨h1, h2, hm⟩ ht
        simp only at h1 h2 hm
        subst h1 h2
        unfold bodyDirect at ht
        unfold bodyDirectBy
        simp only at ht ⊢
        obtain ⟨q, g1, rfl⟩ := Option.map_eq_some_iff.1 ht
        obtain ⟨q', g2, g3⟩ := foldlM_rel (RelB e.len) (batchDirectBy e al i' (i' + e.P.nprim12 ab)) _ _
          (fun b _ => batchDirectBy_rel hlen al hprim _ _ b) ⟨a', 0, m'⟩ _ _ ⟨rfl, rfl, dvd_zero _, hm⟩ g1
        exact ⟨_, Option.map_eq_some_iff.2 ⟨q', g2, rfl⟩, rfl, g3.abcd, g3.mem⟩)
      (0, 0, fun _ k => if k < e.P.nclip * e.Q.nclip * ncartQ final then 0 else out' k) _ _
      ⟨rfl, rfl, fun t k => by
        show SumOf F (if k < e.P.nclip * e.Q.nclip * ncartQ final then (0 : Fd F) else out' k).val
          (if k < e.P.nclip * e.Q.nclip * ncartQ final then (0 : Tr F) else out k).set
        split_ifs
        · exact .zero
        · exact ho k⟩ e1
    exact ⟨_, Option.map_eq_some_iff.2 ⟨st', e3, rfl⟩, e4.2.2 final⟩
  · rw [if_neg (show ¬ (trEnv e).P.nclip * (trEnv e).Q.nclip * ncartQ final ≤ (trEnv e).size final from hs)] at h
    exact absurd h (by simp)


end

section
variable {F : Type} [Add F] [Zero F] [Mul F] [LinearOrder F]

/-! ## The horizontal stage -/

/-- What the horizontal stage finds: for each batch of ket shells the loops over primitives leave `X` in
the batch arrays. -/
def BatchOnBy (e : DEnv F) (al : AllSum e.len) (X : ℕ → ℕ → QAM → ℕ → F) : Prop :=
  ∀ ab < e.P.nclip, ∀ b, b * nshellSimd e.len < e.Q.nclip → ∃ mem,
    braPrimsBy e al 0 (b * nshellSimd e.len) (nshellBatch e.len e.Q.nclip (b * nshellSimd e.len))
        (paddedStart e.len e.Q.nprim12 (b * nshellSimd e.len))
        (batchEnd e.Q.nprim12 (b * nshellSimd e.len)
          (nshellBatch e.len e.Q.nclip (b * nshellSimd e.len))
          (paddedStart e.len e.Q.nprim12 (b * nshellSimd e.len)))
        (tightStart e.P.nprim12 ab) (tightStart e.P.nprim12 ab + e.P.nprim12 ab) (fun _ _ => 0) = some mem ∧
      ∀ t ∈ e.tops, ∀ s < nshellBatch e.len e.Q.nclip (b * nshellSimd e.len), ∀ i < ncartQ t,
        mem t (s * ncartQ t + i) = X ab (b * nshellSimd e.len + s) t i

theorem batchHrrBy_eq (e : DEnv F) (al : AllSum e.len) (h : HEnv F) (final : QAM) (hfin : 0 < h.blk)
    (X : ℕ → ℕ → QAM → ℕ → F) (hX : BatchOnBy e al X)
    (res : ℕ → ℕ → ℕ → F) (hh : HrrOn e h final X res) (hok : ListsOK e)
    (hout : e.P.nclip * e.Q.nclip * h.blk ≤ h.outSize) (init : ℕ → F)
    (ab b : ℕ) (hab : ab < e.P.nclip) (hb : b * nshellSimd e.len < e.Q.nclip)
    (st : HSt F) (h1 : st.realAbcd = doneCount e ab b)
    (h2 : st.jstart = paddedStart e.len e.Q.nprim12 (b * nshellSimd e.len))
    (h3 : st.out = outAfter (h.blk) (finalVal e res) init (doneCount e ab b)) :
    ∃ st', batchHrrBy e al h final ab (tightStart e.P.nprim12 ab)
        (tightStart e.P.nprim12 ab + e.P.nprim12 ab) st b = some st' ∧
      st'.realAbcd = doneCount e ab (b + 1) ∧
      ((b + 1) * nshellSimd e.len < e.Q.nclip →
        st'.jstart = paddedStart e.len e.Q.nprim12 ((b + 1) * nshellSimd e.len)) ∧
      st'.out = outAfter (h.blk) (finalVal e res) init (doneCount e ab (b + 1)) := by
  obtain ⟨d1, d2, d3⟩ := doneCount_step e hok.len ab b hb
  obtain ⟨n1, n2, n3, n4⟩ := nshellBatch_spec hok.len hb
  have d4 : doneCount e ab (b + 1) ≤ e.P.nclip * e.Q.nclip :=
    d3.trans (Nat.mul_le_mul_right _ hab)
  unfold batchHrrBy
  simp only
  obtain ⟨mem1, hm1, hmv⟩ := hX ab hab b hb
  rw [h2, hm1, Option.bind_some]
  set nb := nshellBatch e.len e.Q.nclip (b * nshellSimd e.len) with hnb
  have key := range_inv
    (hrrOne e h final ab (b * nshellSimd e.len))
    (fun s (x : HSt F) => x.realAbcd = doneCount e ab b + s ∧ x.mem = mem1 ∧
      x.jstart = simdRound e.len (batchEnd e.Q.nprim12 (b * nshellSimd e.len) nb
        (paddedStart e.len e.Q.nprim12 (b * nshellSimd e.len))) ∧
      x.out = outAfter (h.blk) (finalVal e res) init (doneCount e ab b + s)) nb ?_ nb
      le_rfl { st with
        jstart := simdRound e.len (batchEnd e.Q.nprim12 (b * nshellSimd e.len) nb
          (paddedStart e.len e.Q.nprim12 (b * nshellSimd e.len))), mem := mem1 }
      ⟨h1, rfl, rfl, h3⟩
  · obtain ⟨st', hs, g1, g2, g3, g4⟩ := key
    refine ⟨st', hs, by rw [g1, d2], fun hb' => ?_, by rw [g4, d2]⟩
    rw [g3]
    exact jstart_next e hok.len b hb'
  · rintro s x hs ⟨k1, k2, k3, k4⟩
    have hlt : doneCount e ab b + s < (ab + 1) * e.Q.nclip := by omega
    have hlt' : b * nshellSimd e.len + s < e.Q.nclip := by omega
    have hq : doneCount e ab b + s = e.Q.nclip * ab + (b * nshellSimd e.len + s) := by
      rw [Nat.mul_comm e.Q.nclip ab]; omega
    have e1 : (doneCount e ab b + s) / e.Q.nclip = ab := by
      rw [hq, Nat.mul_add_div (by omega), Nat.div_eq_of_lt hlt', Nat.add_zero]
    have e2 : (doneCount e ab b + s) % e.Q.nclip = b * nshellSimd e.len + s := by
      rw [hq, Nat.mul_add_mod, Nat.mod_eq_of_lt hlt']
    obtain ⟨x', hx, m1, m2, m3, m4⟩ := hrrOne_eq e h final X res hh ab
      (b * nshellSimd e.len) x s hab hlt'
      (by intro t ht i hi; rw [k2]; exact hmv t ht s hs i hi)
      (by rw [k1]; exact le_trans (Nat.mul_le_mul_right _ (by omega)) hout)
    refine ⟨x', hx, by rw [m1, k1]; omega, by rw [m3, k2], by rw [m2, k3], ?_⟩
    rw [m4, k4, k1, ← Nat.add_assoc, ← outAfter_succ _ hfin]
    funext k
    simp only [finalVal, e1, e2]

theorem runHrrBy_on (e : DEnv F) (al : AllSum e.len) (h : HEnv F) (final : QAM) (hfin : 0 < h.blk)
    (X : ℕ → ℕ → QAM → ℕ → F) (hX : BatchOnBy e al X)
    (res : ℕ → ℕ → ℕ → F) (hh : HrrOn e h final X res) (hok : ListsOK e)
    (hout : e.P.nclip * e.Q.nclip * h.blk ≤ h.outSize) (hmem : HMem F) (out : ℕ → F) :
    runHrrBy e al h final hmem out = some (e.P.nclip * e.Q.nclip,
      outAfter (h.blk) (finalVal e res) out (e.P.nclip * e.Q.nclip)) := by
  unfold runHrrBy
  have key := range_inv (bodyHrrBy e al h final)
    (fun ab (st : ℕ × HSt F) => st.1 = tightStart e.P.nprim12 ab ∧ st.2.realAbcd = ab * e.Q.nclip ∧
      st.2.out = outAfter (h.blk) (finalVal e res) out (ab * e.Q.nclip))
      e.P.nclip ?_ e.P.nclip le_rfl (0, ⟨0, 0, fun _ _ => 0, hmem, out⟩)
      ⟨by simp [tightStart], by simp, by funext idx; simp [outAfter]⟩
  · obtain ⟨st', hs, h1, h2, h3⟩ := key
    rw [hs, Option.map_some, h3]
  · rintro ab ⟨i0, x⟩ hab ⟨h1, h2, h3⟩
    simp only at h1 h2 h3
    subst h1
    have key := batches_inv (nshellSimd e.len) e.Q.nclip
      (nbatches e.len e.Q.nclip) (fun b => lt_nbatches hok.len)
      (batchHrrBy e al h final ab (tightStart e.P.nprim12 ab) (tightStart e.P.nprim12 ab + e.P.nprim12 ab))
      (fun b st => st.realAbcd = doneCount e ab b ∧
        (b * nshellSimd e.len < e.Q.nclip →
          st.jstart = paddedStart e.len e.Q.nprim12 (b * nshellSimd e.len)) ∧
        st.out = outAfter (h.blk) (finalVal e res) out (doneCount e ab b))
      ?_ (nbatches e.len e.Q.nclip) le_rfl { x with jstart := 0 }
        ⟨by rw [doneCount_zero]; exact h2, fun _ => by simp [paddedStart],
          by rw [doneCount_zero]; exact h3⟩
    · obtain ⟨st', hs, g1, g2, g3⟩ := key
      refine ⟨_, by unfold bodyHrrBy; simp only; rw [hs, Option.map_some], ?_, ?_, ?_⟩
      · simp only; rw [tightStart_succ]
      · simp only; rw [g1, doneCount_end e hok.len]
      · simp only; rw [g3, doneCount_end e hok.len]
    · rintro b st hb ⟨k1, k2, k3⟩
      exact batchHrrBy_eq e al h final hfin X hX res hh hok hout out ab b hab hb st k1
        (k2 hb) k3

/-- Result of the function with a horizontal stage, quartet by quartet. -/
theorem runHrrBy_some (e : DEnv F) (al : AllSum e.len) (h : HEnv F) (final : QAM) (hfin : 0 < h.blk)
    (X : ℕ → ℕ → QAM → ℕ → F) (hX : BatchOnBy e al X)
    (res : ℕ → ℕ → ℕ → F) (hh : HrrOn e h final X res) (hok : ListsOK e)
    (hout : e.P.nclip * e.Q.nclip * h.blk ≤ h.outSize) (hmem : HMem F) (out : ℕ → F) :
    ∃ o, runHrrBy e al h final hmem out = some (e.P.nclip * e.Q.nclip, o) ∧
      (∀ ab < e.P.nclip, ∀ cd < e.Q.nclip, ∀ c < h.blk,
        o ((ab * e.Q.nclip + cd) * h.blk + c) = res ab cd c) ∧
      ∀ k, e.P.nclip * e.Q.nclip * h.blk ≤ k → o k = out k := by
  refine ⟨_, runHrrBy_on e al h final hfin X hX res hh hok hout hmem out, ?_, ?_⟩
  · intro ab hab cd hcd c hc
    have hq : ab * e.Q.nclip + cd < e.P.nclip * e.Q.nclip := by
      have : (ab + 1) * e.Q.nclip ≤ e.P.nclip * e.Q.nclip := Nat.mul_le_mul_right _ hab
      rw [Nat.succ_mul] at this; omega
    have hlt : (ab * e.Q.nclip + cd) * h.blk + c < e.P.nclip * e.Q.nclip * h.blk := by
      have : (ab * e.Q.nclip + cd + 1) * h.blk ≤ e.P.nclip * e.Q.nclip * h.blk :=
        Nat.mul_le_mul_right _ hq
      rw [Nat.succ_mul] at this; omega
    have e1 : ((ab * e.Q.nclip + cd) * h.blk + c) / h.blk = ab * e.Q.nclip + cd := by
      rw [Nat.mul_comm, Nat.mul_add_div (by omega), Nat.div_eq_of_lt hc, Nat.add_zero]
    have e2 : ((ab * e.Q.nclip + cd) * h.blk + c) % h.blk = c := by
      rw [Nat.mul_comm, Nat.mul_add_mod, Nat.mod_eq_of_lt hc]
    have e3 : (ab * e.Q.nclip + cd) / e.Q.nclip = ab := by
      rw [Nat.mul_comm, Nat.mul_add_div (by omega), Nat.div_eq_of_lt hcd, Nat.add_zero]
    have e4 : (ab * e.Q.nclip + cd) % e.Q.nclip = cd := by
      rw [Nat.mul_comm, Nat.mul_add_mod, Nat.mod_eq_of_lt hcd]
    unfold outAfter
    rw [if_pos hlt, e1, e2]
    simp only [finalVal, e3, e4]
  · intro k hk
    unfold outAfter
    rw [if_neg (by omega)]

end

section
variable {F : Arith} {e : DEnv (Fd F)} {prim : ℕ → ℕ → Fd F → QAM → ℕ → Fd F}

/-- The contracted value of a quartet as the loops over primitives leave it in the batch array. -/
noncomputable def batchValueBy (e : DEnv (Fd F)) (al : AllSum e.len) (ab cd : ℕ) (t : QAM) (c : ℕ) : Fd F :=
  let b := cd / nshellSimd e.len
  ((braPrimsBy e al 0 (b * nshellSimd e.len) (nshellBatch e.len e.Q.nclip (b * nshellSimd e.len))
        (paddedStart e.len e.Q.nprim12 (b * nshellSimd e.len))
        (batchEnd e.Q.nprim12 (b * nshellSimd e.len)
          (nshellBatch e.len e.Q.nclip (b * nshellSimd e.len))
          (paddedStart e.len e.Q.nprim12 (b * nshellSimd e.len)))
        (tightStart e.P.nprim12 ab) (tightStart e.P.nprim12 ab + e.P.nprim12 ab) fun _ _ => 0).getD
      fun _ _ => 0) t (cd % nshellSimd e.len * ncartQ t + c)

theorem batchValueBy_on (hlen : 0 < e.len) (al : AllSum e.len) (hprim : LaneWise e prim) (hok : ListsOK e)
    (hsize : ∀ t ∈ e.tops, nshellSimd e.len * ncartQ t ≤ e.size t) :
    BatchOnBy e al (batchValueBy e al) ∧ ∀ ab < e.P.nclip, ∀ cd < e.Q.nclip, ∀ t ∈ e.tops, ∀ c < ncartQ t,
      SumOf F (batchValueBy e al ab cd t c).val (quartetValues e prim ab cd t c) := by
  have hN : 0 < nshellSimd e.len := by have := hok.len; unfold nshellSimd; omega
  have hon := batch_on (trEnv e) (trPrim prim) (tr_laneWise e prim hprim) (tr_lists e hok) hsize
  have key : ∀ ab < e.P.nclip, ∀ b, b * nshellSimd e.len < e.Q.nclip → ∃ mem,
      braPrimsBy e al 0 (b * nshellSimd e.len) (nshellBatch e.len e.Q.nclip (b * nshellSimd e.len))
        (paddedStart e.len e.Q.nprim12 (b * nshellSimd e.len))
        (batchEnd e.Q.nprim12 (b * nshellSimd e.len)
          (nshellBatch e.len e.Q.nclip (b * nshellSimd e.len))
          (paddedStart e.len e.Q.nprim12 (b * nshellSimd e.len)))
        (tightStart e.P.nprim12 ab) (tightStart e.P.nprim12 ab + e.P.nprim12 ab) (fun _ _ => 0) = some mem ∧
      ∀ t ∈ e.tops, ∀ s < nshellBatch e.len e.Q.nclip (b * nshellSimd e.len), ∀ i < ncartQ t,
        SumOf F (mem t (s * ncartQ t + i)).val (quartetValues e prim ab (b * nshellSimd e.len + s) t i) := by
    intro ab hab b hb
    obtain ⟨mem, h1, h2⟩ := hon ab hab b hb
    obtain ⟨mem', h3, h4⟩ := braPrimsBy_rel hlen al hprim _ _ _ _ _ _ _ (paddedStart_dvd _ _ _) (fun _ _ => 0) _ mem
      (fun t k => SumOf.zero) h1
    refine ⟨mem', h3, fun t ht s hs i hi => ?_⟩
    have := h4 t (s * ncartQ t + i)
    rw [h2 t ht s hs i hi, tr_contracted] at this
    exact this
  constructor
  · intro ab hab b hb
    obtain ⟨mem, h1, h2⟩ := key ab hab b hb
    refine ⟨mem, h1, fun t ht s hs i hi => ?_⟩
    have hs' : s < nshellSimd e.len := lt_of_lt_of_le hs (nshellBatch_spec hok.len hb).2.1
    have e1 : (b * nshellSimd e.len + s) / nshellSimd e.len = b := by
      rw [Nat.mul_comm, Nat.mul_add_div hN, Nat.div_eq_of_lt hs', Nat.add_zero]
    have e2 : (b * nshellSimd e.len + s) % nshellSimd e.len = s := by
      rw [Nat.mul_comm, Nat.mul_add_mod, Nat.mod_eq_of_lt hs']
    unfold batchValueBy
    simp only [e1, e2, h1, Option.getD_some]
  · intro ab hab cd hcd t ht c hc
    have hm := Nat.mod_add_div' cd (nshellSimd e.len)
    have hb : cd / nshellSimd e.len * nshellSimd e.len < e.Q.nclip := by omega
    have hml := Nat.mod_lt cd hN
    have hs : cd % nshellSimd e.len
        < nshellBatch e.len e.Q.nclip (cd / nshellSimd e.len * nshellSimd e.len) := by
      unfold nshellBatch
      split <;> omega
    obtain ⟨mem, h1, h2⟩ := key ab hab _ hb
    have := h2 t ht _ hs c hc
    rw [show cd / nshellSimd e.len * nshellSimd e.len + cd % nshellSimd e.len = cd by omega] at this
    unfold batchValueBy
    simp only [h1, Option.getD_some]
    exact this

/-! ## Delayed sums -/

/-- Additions on doubles beside the multisets of the numbers added. -/
theorem addList_sums (size : ℕ) (L : List (ℕ × Fd F × Multiset ℝ)) (b : ℕ → Fd F) (m : ℕ → Multiset ℝ)
    (hL : ∀ e ∈ L, e.1 < size ∧ SumOf F e.2.1.val e.2.2) (hb : ∀ k, SumOf F (b k).val (m k)) :
    ∃ r, addList size (L.map fun e => (e.1, e.2.1)) b = some r ∧
      ∀ k, SumOf F (r k).val (m k + (L.map fun e => if e.1 = k then e.2.2 else 0).sum) := by
  have h1 := addList_eq size (L.map fun e => (e.1, (⟨0, e.2.2⟩ : Tr F))) (fun k => ⟨0, m k⟩) (by
    intro e he
    obtain ⟨x, hx, rfl⟩ := List.mem_map.1 he
    exact (hL x hx).1)
  obtain ⟨r, h2, h3⟩ := addList_rel size (l' := L.map fun e => (e.1, e.2.1))
    (forall₂_map _ L _ _ fun e he => ⟨rfl, (hL e he).2⟩) b _ _ (fun k => hb k) h1
  refine ⟨r, h2, fun k => ?_⟩
  have h4 := h3 k
  have h5 : ∀ l : List (ℕ × Fd F × Multiset ℝ),
      (((l.map fun e => (e.1, (⟨0, e.2.2⟩ : Tr F))).map fun e : ℕ × Tr F => if e.1 = k then e.2 else 0).sum).set
        = (l.map fun e => if e.1 = k then e.2.2 else 0).sum := by
    intro l
    induction l with
    | nil => rfl
    | cons e l ih =>
      simp only [List.map_cons, List.sum_cons, Tr.add_set, ih]
      split_ifs <;> rfl
  simp only [Tr.add_set] at h4
  rw [h5] at h4
  exact h4

theorem range_getD {α : Type} (l : List α) (d : α) (n : ℕ) (h : l.length = n) :
    (List.range n).map (fun j => l.getD j d) = l := by
  subst h
  apply List.ext_getElem
  · simp
  · intro i h1 h2
    simp [h2]

/-- An entry of the buffer: element, vector, multisets of the numbers added in the lanes. -/
abbrev BufEntry (F : Arith) := ℕ × (ℕ → Fd F) × (ℕ → Multiset ℝ)

/-- What element `k` amounts to, with the buffer. -/
noncomputable def owedAt (m : ℕ → Multiset ℝ) (J : List (BufEntry F)) (k : ℕ) : Multiset ℝ :=
  m k + (J.map fun e => if e.1 = k then ∑ n ∈ range 8, e.2.2 n else 0).sum

/-- State of the accumulation block, with multisets. -/
structure BufOK (size : ℕ) (st : List (ℕ × (ℕ → Fd F)) × (ℕ → Fd F)) (m : ℕ → Multiset ℝ)
    (J : List (BufEntry F)) : Prop where
  buf : st.1 = J.map fun e => (e.1, e.2.1)
  short : J.length < 8
  entry : ∀ e ∈ J, e.1 < size ∧ ∀ n, SumOf F (e.2.1 n).val (e.2.2 n)
  out : ∀ k, SumOf F (st.2 k).val (m k)

/-- Emptying a full buffer. -/
theorem flush_sums (a : AllSum 8) (size : ℕ) (J : List (BufEntry F)) (hJ : J.length = 8)
    (hE : ∀ e ∈ J, e.1 < size ∧ ∀ n, SumOf F (e.2.1 n).val (e.2.2 n)) (b : ℕ → Fd F) (m : ℕ → Multiset ℝ)
    (hb : ∀ k, SumOf F (b k).val (m k)) :
    ∃ r, ((contractAllBy a 8 8 (fun np => ((J.map fun e => (e.1, e.2.1)).getD np (0, fun _ => 0)).2) 0
        fun _ => 0).bind fun res => addList size ((List.range 8).map fun jj =>
          (((J.map fun e => (e.1, e.2.1)).getD jj (0, fun _ => 0)).1, res jj)) b) = some r ∧
      ∀ k, SumOf F (r k).val (owedAt m J k) := by
  have hg : ∀ np, (J.map fun e => (e.1, e.2.1)).getD np (0, fun _ => 0)
      = ((J.getD np (0, (fun _ => 0), fun _ => 0)).1, (J.getD np (0, (fun _ => 0), fun _ => 0)).2.1) := by
    intro np
    exact List.getD_map J (0, (fun _ => 0), fun _ => 0) (fun e : BufEntry F => (e.1, e.2.1))
  have hmem : ∀ np < 8, J.getD np (0, (fun _ => 0), fun _ => 0) ∈ J := by
    intro np h
    rw [List.getD_eq_getElem _ _ (by omega)]
    exact List.getElem_mem _
  simp only [hg]
  set d : BufEntry F := (0, (fun _ => 0), fun _ => 0) with hd
  have h1 := contractAllBy_eq a 8 8 (fun np n => (⟨0, (J.getD np d).2.2 n⟩ : Tr F)) 0 (fun _ => 0) (by norm_num)
  obtain ⟨res, h2, h3⟩ := contractAllBy_rel a 8 8 (fun np n => (J.getD np d).2.1 n) _ 0
    (fun n _ c hc => (hE _ (hmem c hc)).2 n) (fun _ => 0) _ _ (fun k => SumOf.zero) h1
  have h3' : ∀ jj < 8, SumOf F (res jj).val (∑ n ∈ range 8, (J.getD jj d).2.2 n) := by
    intro jj hj
    have := h3 jj
    simp only at this
    rw [if_pos (by omega), zero_add, Nat.sub_zero] at this
    have h0 : (∑ n ∈ range 8, (⟨0, (J.getD jj d).2.2 n⟩ : Tr F)).set = ∑ n ∈ range 8, (J.getD jj d).2.2 n := by
      have h := map_sum (Tr.setHom (F := F)) (fun n => (⟨0, (J.getD jj d).2.2 n⟩ : Tr F)) (range 8)
      exact h
    rw [h0] at this
    exact this
  obtain ⟨r, h4, h5⟩ := addList_sums size
    ((List.range 8).map fun jj => ((J.getD jj d).1, res jj, ∑ n ∈ range 8, (J.getD jj d).2.2 n)) b m (by
      intro e he
      obtain ⟨jj, hj, rfl⟩ := List.mem_map.1 he
      have hj := List.mem_range.1 hj
      exact ⟨(hE _ (hmem jj hj)).1, h3' jj hj⟩) hb
  refine ⟨r, ?_, fun k => ?_⟩
  · rw [h2, Option.bind_some]
    rw [List.map_map] at h4
    exact h4
  · have h6 := h5 k
    rw [List.map_map] at h6
    have h7 : (List.map ((fun e : ℕ × Fd F × Multiset ℝ => if e.1 = k then e.2.2 else 0) ∘ fun jj =>
          ((J.getD jj d).1, res jj, ∑ n ∈ range 8, (J.getD jj d).2.2 n)) (List.range 8))
        = J.map fun e => if e.1 = k then ∑ n ∈ range 8, e.2.2 n else 0 := by
      conv_rhs => rw [← range_getD J d 8 hJ, List.map_map]
      rfl
    rw [h7] at h6
    exact h6

/-- The vector of a request. -/
def AccReq.lane {α : Type} : AccReq α → ℕ → α
  | .all _ v => v
  | .some _ _ v => v

/-- What a request adds to element `k` if lane `n` holds the numbers `w n`. -/
noncomputable def AccReq.termsW {α : Type} (w : ℕ → Multiset ℝ) (k : ℕ) : AccReq α → Multiset ℝ
  | .all idx _ => if idx = k then ∑ n ∈ range 8, w n else 0
  | .some off ptr _ => ∑ n ∈ range 8, if ptr + off n = k then w n else 0

/-- One execution of the accumulation block; `w' n` are the numbers in lane `n`. -/
theorem step_sumsW (a : AllSum 8) (size : ℕ) (st : List (ℕ × (ℕ → Fd F)) × (ℕ → Fd F)) (m : ℕ → Multiset ℝ)
    (J : List (BufEntry F)) (h : BufOK size st m J) (q : AccReq (Fd F)) (hq : q.Within size)
    (w' : ℕ → Multiset ℝ) (hv : ∀ n, SumOf F (q.lane n).val (w' n)) :
    ∃ st' m' J', AccReq.step a size st q = some st' ∧ BufOK size st' m' J' ∧
      ∀ k, owedAt m' J' k = owedAt m J k + q.termsW w' k := by
  obtain ⟨buf, b⟩ := st
  obtain ⟨h1, h2, h3, h4⟩ := h
  simp only at h1 h4
  cases q with
  | all idx v =>
    have hv : ∀ n, SumOf F (v n).val (w' n) := hv
    rcases List.eq_nil_or_concat J with rfl | ⟨I, ⟨i, w, s⟩, rfl⟩
    · refine ⟨([(idx, v)], b), m, [(idx, v, w')], ?_, ⟨rfl, by simp, ?_, h4⟩, fun k => ?_⟩
      · rw [h1]; rfl
      · intro e he
        obtain rfl := List.mem_singleton.1 he
        exact ⟨hq, hv⟩
      · simp [owedAt, AccReq.termsW]
    · rw [List.concat_eq_append] at *
      have hl : buf.getLast? = some (i, w) := by rw [h1]; simp
      by_cases hi : i = idx
      · subst hi
        refine ⟨(buf.dropLast ++ [(i, fun n => w n + v n)], b), m,
          I ++ [(i, (fun n => w n + v n), fun n => s n + w' n)], ?_, ⟨?_, ?_, ?_, h4⟩, fun k => ?_⟩
        · simp only [AccReq.step, hl, if_true]
        · simp [h1]
        · simpa using h2
        · intro e he
          rcases List.mem_append.1 he with he | he
          · exact h3 e (by simp [he])
          · obtain rfl := List.mem_singleton.1 he
            have := h3 (i, w, s) (by simp)
            exact ⟨hq, fun n => (this.2 n).add (hv n)⟩
        · simp only [owedAt, AccReq.termsW, List.map_append, List.sum_append, List.map_cons, List.map_nil,
            List.sum_cons, List.sum_nil, add_zero]
          split_ifs
          · rw [sum_add_distrib]
            simp only [add_assoc]
          · simp
      · have hJ : ∀ e ∈ (I ++ [(i, w, s)]) ++ [((idx, v, w') : BufEntry F)],
            e.1 < size ∧ ∀ n, SumOf F (e.2.1 n).val (e.2.2 n) := by
          intro e he
          rcases List.mem_append.1 he with he | he
          · exact h3 e he
          · obtain rfl := List.mem_singleton.1 he
            exact ⟨hq, hv⟩
        have hbuf : buf ++ [(idx, v)] = ((I ++ [(i, w, s)]) ++
            [((idx, v, w') : BufEntry F)]).map fun e => (e.1, e.2.1) := by
          rw [h1, List.map_append (l₁ := I ++ [(i, w, s)])]
          rfl
        have hterms : ∀ k, owedAt m ((I ++ [(i, w, s)]) ++ [((idx, v, w') : BufEntry F)]) k
            = owedAt m (I ++ [(i, w, s)]) k + (AccReq.all idx v).termsW w' k := by
          intro k
          unfold owedAt
          rw [List.map_append (l₂ := [((idx, v, w') : BufEntry F)]), List.sum_append, ← add_assoc]
          simp [AccReq.termsW]
        by_cases hlen : (buf ++ [(idx, v)]).length = 8
        · obtain ⟨r, e1, e2⟩ := flush_sums a size _ (by
            rw [hbuf, List.length_map] at hlen
            exact hlen) hJ b m h4
          refine ⟨([], r), owedAt m ((I ++ [(i, w, s)]) ++ [((idx, v, w') : BufEntry F)]), [],
            ?_, ⟨rfl, by simp, by simp, e2⟩, fun k => ?_⟩
          · obtain ⟨res, g1, g2⟩ := Option.bind_eq_some_iff.1 e1
            rw [← hbuf] at g1 g2
            simp only [AccReq.step, hl, hi, if_false, hlen, if_true]
            rw [g1, Option.bind_some, g2]
            rfl
          · rw [← hterms]
            simp [owedAt]
        · refine ⟨(buf ++ [(idx, v)], b), m, _, ?_, ⟨hbuf, ?_, hJ, h4⟩, hterms⟩
          · simp only [AccReq.step, hl, hi, if_false, hlen]
          · rw [hbuf, List.length_map] at hlen
            rw [List.length_append, List.length_singleton] at hlen ⊢
            omega
  | some off ptr v =>
    obtain ⟨r, e1, e2⟩ := addList_sums size ((List.range 8).map fun n =>
      (ptr + off n * 1 + 0, v n, w' n)) b m (by
        intro e he
        obtain ⟨n, hn, rfl⟩ := List.mem_map.1 he
        have := hq n (List.mem_range.1 hn)
        exact ⟨by simpa using this, hv n⟩) h4
    have hc : contract size 8 1 off (fun _ => v) ptr b = some r := by
      rw [← e1, contract]
      congr 1
    refine ⟨(buf, r), fun k => m k + (AccReq.some off ptr v).termsW w' k, J, ?_, ⟨h1, h2, h3, fun k => ?_⟩, fun k => ?_⟩
    · simp only [AccReq.step, hc]
      rfl
    · have := e2 k
      rw [List.map_map, list_range_sum] at this
      simpa [AccReq.termsW] using this
    · unfold owedAt
      rw [add_right_comm]

/-- One execution of the accumulation block. -/
theorem step_sums (a : AllSum 8) (size : ℕ) (st : List (ℕ × (ℕ → Fd F)) × (ℕ → Fd F)) (m : ℕ → Multiset ℝ)
    (J : List (BufEntry F)) (h : BufOK size st m J) (q : AccReq (Fd F)) (hq : q.Within size) :
    ∃ st' m' J', AccReq.step a size st q = some st' ∧ BufOK size st' m' J' ∧
      ∀ k, owedAt m' J' k = owedAt m J k + q.terms k := by
  obtain ⟨st', m', J', h1, h2, h3⟩ := step_sumsW a size st m J h q hq (fun n => {(q.lane n).val}) fun n => .one _
  refine ⟨st', m', J', h1, h2, fun k => (h3 k).trans ?_⟩
  cases q <;> rfl

theorem steps_sums (a : AllSum 8) (size : ℕ) (reqs : List (AccReq (Fd F))) :
    ∀ st m J, BufOK size st m J → (∀ q ∈ reqs, q.Within size) →
    ∃ st' m' J', reqs.foldlM (AccReq.step a size) st = some st' ∧ BufOK size st' m' J' ∧
      ∀ k, owedAt m' J' k = owedAt m J k + (reqs.map (AccReq.terms k)).sum := by
  induction reqs with
  | nil => intro st m J h _; exact ⟨st, m, J, rfl, h, fun k => by simp⟩
  | cons q r ih =>
    intro st m J h hq
    obtain ⟨s1, m1, J1, e1, e2, e3⟩ := step_sums a size st m J h q (hq q (by simp))
    obtain ⟨s2, m2, J2, e4, e5, e6⟩ := ih s1 m1 J1 e2 fun q hq' => hq q (by simp [hq'])
    refine ⟨s2, m2, J2, ?_, e5, fun k => ?_⟩
    · rw [List.foldlM_cons, e1]
      exact e4
    · rw [e6, e3, List.map_cons, List.sum_cons, add_assoc]

end

end Simint
