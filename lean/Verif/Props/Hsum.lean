import Verif.HsumLemmas
import Verif.Props.FlSum

/-!
# Property C103: doubles in builds with other orders of addition

The variants of `contract_all` of the vectorizations, and the delayed sums of the (ss|ss) function.
-/

set_option autoImplicit false

open Real Finset

namespace Simint

open FlBoys (Arith ieee u rn)

section
variable {F : Arith}

/-- **C103, `contract_all`.** In every variant, an element gets the values of the lanes of its component added to
it, each of them once, in some order and grouping, with a rounding after each addition; the other elements keep
their values; nothing outside the array is written. -/
theorem C103_contract_all {len : ℕ} (al : AllSum len) (size ncart : ℕ) (src : ℕ → ℕ → Fd F) (ptr : ℕ)
    (hs : ptr + ncart ≤ size) (b : ℕ → Fd F) (m : ℕ → Multiset ℝ) (hb : ∀ k, SumOf F (b k).val (m k)) :
    ∃ r, contractAllBy al size ncart src ptr b = some r ∧
      (∀ np < ncart, SumOf F (r (ptr + np)).val (m (ptr + np) + ∑ n ∈ range len, {(src np n).val})) ∧
      ∀ k, k < ptr ∨ ptr + ncart ≤ k → r k = b k := by
  have h1 := contractAllBy_eq al size ncart (fun np n => (⟨0, {(src np n).val}⟩ : Tr F)) ptr
    (fun k => ⟨0, m k⟩) hs
  obtain ⟨r, h2, h3⟩ := contractAllBy_rel al size ncart src _ ptr (fun n _ c _ => SumOf.one _) b _ _
    (fun k => hb k) h1
  refine ⟨r, h2, fun np hnp => ?_, fun k hk => ?_⟩
  · have h4 := h3 (ptr + np)
    simp only [Tr.add_set] at h4
    rw [if_pos ⟨by omega, by omega⟩, Nat.add_sub_cancel_left] at h4
    have h5 := map_sum (Tr.setHom (F := F)) (fun n => (⟨0, {(src np n).val}⟩ : Tr F)) (range len)
    rw [show (∑ n ∈ range len, (⟨0, {(src np n).val}⟩ : Tr F)).set = _ from h5] at h4
    exact h4
  · refine addList_other _ _ _ _ h2 k fun e he => ?_
    obtain ⟨x, hx, rfl⟩ := List.mem_map.1 he
    have := adds_lt al ncart src x hx
    simp only
    omega

/-- **C103, classes without horizontal stage**, see `C87_direct`. -/
theorem C103_direct (hS : Stable F) (e : DEnv (Fd F)) (al : AllSum e.len) (final : QAM)
    (prim : ℕ → ℕ → Fd F → QAM → ℕ → Fd F)
    (hprim : LaneWise e prim) (hok : ListsOK e) (htop : e.tops = [final])
    (hsize : e.P.nclip * e.Q.nclip * ncartQ final ≤ e.size final) (out : ℕ → Fd F)
    (hout : ∀ k, IsDouble F (out k).val) :
    ∃ res, runDirectBy e al final out = some (e.P.nclip * e.Q.nclip, res) ∧
      (∀ ab < e.P.nclip, ∀ cd < e.Q.nclip, ∀ c < ncartQ final,
        SumOf F (res ((ab * e.Q.nclip + cd) * ncartQ final + c)).val (quartetValues e prim ab cd final c)) ∧
      ∀ k, e.P.nclip * e.Q.nclip * ncartQ final ≤ k → res k = out k := by
  obtain ⟨r, h1, h2, h3⟩ := C25_direct (trEnv e) final (trPrim prim) (tr_laneWise e prim hprim)
    (tr_lists e hok) htop hsize (fun k => ⟨0, {(out k).val}⟩)
  obtain ⟨r', h4, h5⟩ := runDirectBy_rel hok.len al hprim final out _ (fun k => SumOf.one _) _ r h1
  refine ⟨r', h4, fun ab hab cd hcd c hc => ?_, fun k hk => ?_⟩
  · have h6 := h5 ((ab * e.Q.nclip + cd) * ncartQ final + c)
    have h7 := h2 ab hab cd hcd c hc
    rw [show r ((ab * e.Q.nclip + cd) * ncartQ final + c) = _ from h7, tr_contracted] at h6
    exact h6
  · have h6 := h5 k
    rw [h3 k hk] at h6
    exact Fd.val_injective (sumOf_single hS h6 (hout k) rfl)

/-- **C103, classes with a horizontal stage**, see `C87_hrr`. -/
theorem C103_hrr (e : DEnv (Fd F)) (al : AllSum e.len) (prim : ℕ → ℕ → Fd F → QAM → ℕ → Fd F)
    (hprim : LaneWise e prim) (hok : ListsOK e)
    (hsize : ∀ t ∈ e.tops, nshellSimd e.len * ncartQ t ≤ e.size t) :
    ∃ X : ℕ → ℕ → QAM → ℕ → Fd F,
      (∀ ab < e.P.nclip, ∀ cd < e.Q.nclip, ∀ t ∈ e.tops, ∀ c < ncartQ t,
        SumOf F (X ab cd t c).val (quartetValues e prim ab cd t c)) ∧
      ∀ (h : HEnv (Fd F)) (final : QAM) (res : ℕ → ℕ → ℕ → Fd F), 0 < h.blk → HrrOn e h final X res →
        e.P.nclip * e.Q.nclip * h.blk ≤ h.outSize → ∀ (hmem : HMem (Fd F)) (out : ℕ → Fd F),
        ∃ o, runHrrBy e al h final hmem out = some (e.P.nclip * e.Q.nclip, o) ∧
          (∀ ab < e.P.nclip, ∀ cd < e.Q.nclip, ∀ c < h.blk,
            o ((ab * e.Q.nclip + cd) * h.blk + c) = res ab cd c) ∧
          ∀ k, e.P.nclip * e.Q.nclip * h.blk ≤ k → o k = out k := by
  obtain ⟨h1, h2⟩ := batchValueBy_on hok.len al hprim hok hsize
  exact ⟨batchValueBy e al, h2, fun h final res hfin hh hout hmem out =>
    runHrrBy_some e al h final hfin _ h1 res hh hok hout hmem out⟩

/-- **C103, delayed sums.** The accumulation of a whole call of the (ss|ss) function with the buffer of AVX512
builds, for every sequence of executions of the accumulation block: nothing outside the output is written, and each
element is a sum of what it started with and of all lanes that belong to it, each of them once, in some order and
grouping, with a rounding after each addition. -/
theorem C103_delayed (al : AllSum 8) (h : HSum 8) (size : ℕ) (reqs : List (AccReq (Fd F)))
    (hq : ∀ q ∈ reqs, q.Within size) (out : ℕ → Fd F) (m : ℕ → Multiset ℝ)
    (ho : ∀ k, SumOf F (out k).val (m k)) :
    ∃ res, accDelayed al h size reqs out = some res ∧
      ∀ k, SumOf F (res k).val (m k + (reqs.map (AccReq.terms k)).sum) := by
  obtain ⟨st, m', J, e1, e2, e3⟩ := steps_sums al size reqs ([], out) m [] ⟨rfl, by simp, by simp, ho⟩ hq
  obtain ⟨r, e4, e5⟩ := addList_sums size
    (J.map fun e => (e.1, h.tree.eval e.2.1, ∑ n ∈ range 8, e.2.2 n)) st.2 m' (by
      intro x hx
      obtain ⟨e, he, rfl⟩ := List.mem_map.1 hx
      refine ⟨(e2.entry e he).1, ?_⟩
      have h1 := h.eval_rel e.2.1 (fun n => (⟨0, e.2.2 n⟩ : Tr F)) fun n _ => (e2.entry e he).2 n
      rw [HSum.eval_eq] at h1
      have h2 := map_sum (Tr.setHom (F := F)) (fun n => (⟨0, e.2.2 n⟩ : Tr F)) (range 8)
      rw [show (∑ n ∈ range 8, (⟨0, e.2.2 n⟩ : Tr F)).set = _ from h2] at h1
      exact h1) e2.out
  refine ⟨r, ?_, fun k => ?_⟩
  · unfold accDelayed
    rw [e1, Option.bind_some, e2.buf, List.map_map]
    rw [List.map_map] at e4
    exact e4
  · have h1 := e5 k
    rw [List.map_map] at h1
    have h2 := e3 k
    unfold owedAt at h2
    simp only [List.map_nil, List.sum_nil, add_zero] at h2
    rw [← h2]
    exact h1

/-- **C103, delayed sums, error.** If the output is cleared before, every element differs from the exact sum of
its lanes by at most one unit (`2^-52`) of the sum of their absolute values for each addition. -/
theorem C103_delayed_bound (hF : Sound F) (hS : Stable F) (al : AllSum 8) (h : HSum 8) (size : ℕ)
    (reqs : List (AccReq (Fd F))) (hq : ∀ q ∈ reqs, q.Within size) (k N : ℕ)
    (hd : ∀ y ∈ (reqs.map (AccReq.terms k)).sum, IsDouble F y)
    (hN : (reqs.map (AccReq.terms k)).sum.card ≤ N) (hN' : N ≤ 2 ^ 52)
    (hw : weight (reqs.map (AccReq.terms k)).sum ≤ 2 ^ 1022) :
    ∃ res, accDelayed al h size reqs (fun _ => 0) = some res ∧
      |(res k).val - (reqs.map (AccReq.terms k)).sum.sum|
        ≤ (N - 1 : ℕ) * (1 / 2 ^ 52) * weight (reqs.map (AccReq.terms k)).sum := by
  obtain ⟨res, h1, h2⟩ := C103_delayed al h size reqs hq (fun _ => 0) (fun _ => 0) fun _ => SumOf.zero
  refine ⟨res, h1, ?_⟩
  have h3 := h2 k
  rw [zero_add] at h3
  refine (sumOf_bound hF hS h3 hd (hN.trans hN') hw).trans (mul_le_mul_of_nonneg_right ?_ (weight_nonneg _))
  exact (γ_mono (by omega)).trans (γ_le (by omega))

end

/-! ### The variants differ -/

/-- The horizontal sum `((0 + 4) + (2 + 6)) + ((1 + 5) + (3 + 7))` of the lanes, as gcc expands
`_mm512_reduce_add_pd`. -/
def halves8 : HSum 8 where
  tree := .node (.node (.node (.leaf 0) (.leaf 4)) (.node (.leaf 2) (.leaf 6)))
    (.node (.node (.leaf 1) (.leaf 5)) (.node (.leaf 3) (.leaf 7)))
  ok := by decide

/-- Non-trivial case of delayed sums: two vectors for element 0 and one for element 1 that is still in the buffer at the
end, array of two elements. -/
example (F : Arith) (v w x : ℕ → Fd F) :
    ∃ res, accDelayed (.avx512 halves8) halves8 2 [.all 0 v, .all 0 w, .all 1 x] (fun _ => 0) = some res ∧
      SumOf F (res 0).val ((∑ n ∈ range 8, {(v n).val}) + ∑ n ∈ range 8, {(w n).val}) ∧
      SumOf F (res 1).val (∑ n ∈ range 8, {(x n).val}) := by
  obtain ⟨res, h1, h2⟩ := C103_delayed (.avx512 halves8) halves8 2 [.all 0 v, .all 0 w, .all 1 x] (by
    intro q hq
    simp only [List.mem_cons, List.not_mem_nil, or_false] at hq
    rcases hq with rfl | rfl | rfl <;> simp [AccReq.Within]) (fun _ => 0) (fun _ => 0) fun _ => SumOf.zero
  refine ⟨res, h1, ?_, ?_⟩
  · simpa [AccReq.terms] using h2 0
  · simpa [AccReq.terms] using h2 1

/-- C103: the variants do not store the same doubles: four components, lanes `-2^60`, `0`, `2^60`, `1`.  The loop over
the lanes gives the exact sum `1`, the horizontal sums of the AVX build give `0`. -/
theorem C103_differ (fused : Bool) : ∃ (v : ℕ → ℝ) (r r' : ℕ → Fd (ieee fused)),
    contractAllBy (.lanes 4) 4 4 (fun _ n => ⟨v n⟩) 0 (fun _ => 0) = some r ∧
    contractAllBy .avx 4 4 (fun _ n => ⟨v n⟩) 0 (fun _ => 0) = some r' ∧
    (r 0).val = 1 ∧ (r' 0).val = 0 ∧ v 0 + v 1 + v 2 + v 3 = 1 := by
  have r0 : rn (-2 ^ 60) = -2 ^ 60 := by
    have := rn_int (-1) 60 (by norm_num) (by norm_num)
    simpa using this
  have r1 : rn (2 ^ 60 + 1) = 2 ^ 60 := by
    have hl : Int.log 2 |(2 : ℝ) ^ 60 + 1| = 60 := by
      rw [abs_of_pos (by positivity)]
      refine le_antisymm ?_ ?_
      · refine Int.lt_add_one_iff.1 ((Int.lt_zpow_iff_log_lt (by norm_num) (by positivity)).1 ?_)
        norm_num
      · refine (Int.zpow_le_iff_le_log (by norm_num) (by positivity)).1 ?_
        norm_num
    have hp : FlBoys.lastPlace ((2 : ℝ) ^ 60 + 1) = 8 := by
      unfold FlBoys.lastPlace
      rw [hl]
      norm_num
    unfold FlBoys.rn
    rw [hp]
    have hr : round (((2 : ℝ) ^ 60 + 1) / 2 ^ (8 : ℤ)) = 2 ^ 52 := by
      rw [round_eq, Int.floor_eq_iff]
      norm_num
    rw [hr]
    norm_num
  have r3 : rn 1 = 1 := by
    have := rn_int 1 0 (by norm_num) (by norm_num)
    simpa using this
  refine ⟨fun i => [-2 ^ 60, 0, 2 ^ 60, 1].getD i 0, _, _, rfl, rfl, ?_, ?_, ?_⟩
  · show rn (rn (rn (rn (0 + -2 ^ 60) + 0) + 2 ^ 60) + 1) = 1
    rw [zero_add, r0, add_zero, r0, neg_add_cancel, rn_zero, zero_add, r3]
  · show rn (0 + rn (rn (-2 ^ 60 + 0) + rn (2 ^ 60 + 1))) = 0
    rw [r1, add_zero, r0, neg_add_cancel, rn_zero, zero_add, rn_zero]
  · show -(2 : ℝ) ^ 60 + 0 + 2 ^ 60 + 1 = 1
    norm_num

end Simint
