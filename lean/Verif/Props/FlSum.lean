import Verif.FlSumLemmas
import Verif.FlStable
import Verif.Props.Driver

/-!
# C87: contraction on doubles

The driver of a generated function run with rounded additions.
-/

set_option autoImplicit false

namespace Simint

open Finset
open FlBoys (Arith ieee rn)

section
variable {F : Arith}

/-- C87: the arithmetic of doubles satisfies the assumptions. -/
theorem C87_ieee (fused : Bool) : Sound (ieee fused) ∧ Stable (ieee fused) :=
  ⟨sound_ieee fused, stable_ieee fused⟩

/-- C87, classes without horizontal stage: the call succeeds; the value of a component of a quartet is the
sum of the values of its evaluated primitive quartets, each added once, in some order, with a rounding
after each addition; the elements behind the last quartet keep their values. -/
theorem C87_direct (hS : Stable F) (e : DEnv (Fd F)) (final : QAM)
    (prim : ℕ → ℕ → Fd F → QAM → ℕ → Fd F)
    (hprim : LaneWise e prim) (hok : ListsOK e) (htop : e.tops = [final])
    (hsize : e.P.nclip * e.Q.nclip * ncartQ final ≤ e.size final) (out : ℕ → Fd F)
    (hout : ∀ k, IsDouble F (out k).val) :
    ∃ res, runDirect e final out = some (e.P.nclip * e.Q.nclip, res) ∧
      (∀ ab < e.P.nclip, ∀ cd < e.Q.nclip, ∀ c < ncartQ final,
        SumOf F (res ((ab * e.Q.nclip + cd) * ncartQ final + c)).val (quartetValues e prim ab cd final c)) ∧
      ∀ k, e.P.nclip * e.Q.nclip * ncartQ final ≤ k → res k = out k := by
  obtain ⟨r, h1, h2, h3⟩ := C25_direct (trEnv e) final (trPrim prim) (tr_laneWise e prim hprim)
    (tr_lists e hok) htop hsize (fun k => ⟨0, {(out k).val}⟩)
  obtain ⟨r', h4, h5⟩ := runDirect_rel hprim final out _ (fun k => SumOf.one _) _ r h1
  refine ⟨r', h4, fun ab hab cd hcd c hc => ?_, fun k hk => ?_⟩
  · have h6 := h5 ((ab * e.Q.nclip + cd) * ncartQ final + c)
    have h7 := h2 ab hab cd hcd c hc
    rw [show r ((ab * e.Q.nclip + cd) * ncartQ final + c) = _ from h7, tr_contracted] at h6
    exact h6
  · have h6 := h5 k
    rw [h3 k hk] at h6
    exact Fd.val_injective (sumOf_single hS h6 (hout k) rfl)

/-- C87, classes with a horizontal stage: what the loops over primitives hand over to the horizontal stage
are such sums, and the call puts the results of the horizontal stage into the output. -/
theorem C87_hrr (e : DEnv (Fd F)) (prim : ℕ → ℕ → Fd F → QAM → ℕ → Fd F)
    (hprim : LaneWise e prim) (hok : ListsOK e)
    (hsize : ∀ t ∈ e.tops, nshellSimd e.len * ncartQ t ≤ e.size t) :
    ∃ X : ℕ → ℕ → QAM → ℕ → Fd F,
      (∀ ab < e.P.nclip, ∀ cd < e.Q.nclip, ∀ t ∈ e.tops, ∀ c < ncartQ t,
        SumOf F (X ab cd t c).val (quartetValues e prim ab cd t c)) ∧
      ∀ (h : HEnv (Fd F)) (final : QAM) (res : ℕ → ℕ → ℕ → Fd F), 0 < h.blk → HrrOn e h final X res →
        e.P.nclip * e.Q.nclip * h.blk ≤ h.outSize → ∀ (hmem : HMem (Fd F)) (out : ℕ → Fd F),
        ∃ o, runHrr e h final hmem out = some (e.P.nclip * e.Q.nclip, o) ∧
          (∀ ab < e.P.nclip, ∀ cd < e.Q.nclip, ∀ c < h.blk,
            o ((ab * e.Q.nclip + cd) * h.blk + c) = res ab cd c) ∧
          ∀ k, e.P.nclip * e.Q.nclip * h.blk ≤ k → o k = out k := by
  obtain ⟨h1, h2⟩ := batchValue_on hprim hok hsize
  exact ⟨batchValue e, h2, fun h final res hfin hh hout hmem out =>
    runHrr_some e h final hfin _ h1 res hh hok hout hmem out⟩

/-- C87: such a sum differs from the exact sum of the same numbers by at most one unit (`2^-52`) of the sum
of the absolute values for each addition. -/
theorem C87_bound (hF : Sound F) (hS : Stable F) (e : DEnv (Fd F))
    (prim : ℕ → ℕ → Fd F → QAM → ℕ → Fd F) (hprim : LaneWise e prim) (ab cd : ℕ) (t : QAM) (c : ℕ) (x : ℝ)
    (hx : SumOf F x (quartetValues e prim ab cd t c))
    (hd : ∀ i j, IsDouble F (prim i j (e.Q.prefac j) t c).val)
    (hn : e.P.nprim12 ab * e.Q.nprim12 cd ≤ 2 ^ 52)
    (hw : overPrims e ab cd (fun i j => |(prim i j (e.Q.prefac j) t c).val| + κ) ≤ 2 ^ 1022) :
    |x - overPrims e ab cd fun i j => (prim i j (e.Q.prefac j) t c).val|
      ≤ (e.P.nprim12 ab * e.Q.nprim12 cd - 1 : ℕ) * (1 / 2 ^ 52) *
        overPrims e ab cd fun i j => |(prim i j (e.Q.prefac j) t c).val| + κ := by
  obtain ⟨h1, h2, h3, h4⟩ := quartetValues_facts e prim hprim ab cd t c hd
  have h5 := sumOf_bound hF hS hx h4 (h2.trans hn) (h3.trans hw)
  rw [h1] at h5
  have h6 : γ ((quartetValues e prim ab cd t c).card - 1)
      ≤ (e.P.nprim12 ab * e.Q.nprim12 cd - 1 : ℕ) * (1 / 2 ^ 52) :=
    (γ_mono (by omega)).trans (γ_le (by omega))
  exact h5.trans (mul_le_mul h6 h3 (weight_nonneg _) (by positivity))

/-- C87: the same against exact values `y` of the primitive quartets, computed with errors of at most
`E`. -/
theorem C87_total (hF : Sound F) (hS : Stable F) (e : DEnv (Fd F))
    (prim : ℕ → ℕ → Fd F → QAM → ℕ → Fd F) (hprim : LaneWise e prim) (ab cd : ℕ) (t : QAM) (c : ℕ) (x : ℝ)
    (hx : SumOf F x (quartetValues e prim ab cd t c))
    (hd : ∀ i j, IsDouble F (prim i j (e.Q.prefac j) t c).val)
    (hn : e.P.nprim12 ab * e.Q.nprim12 cd ≤ 2 ^ 52) (y E : ℕ → ℕ → ℝ)
    (hy : ∀ a < e.P.nprim12 ab, ∀ b < e.Q.nprim12 cd,
      e.Kept (tightStart e.P.nprim12 ab + a) (paddedStart e.len e.Q.nprim12 cd + b) →
      |(prim (tightStart e.P.nprim12 ab + a) (paddedStart e.len e.Q.nprim12 cd + b)
          (e.Q.prefac (paddedStart e.len e.Q.nprim12 cd + b)) t c).val
        - y (tightStart e.P.nprim12 ab + a) (paddedStart e.len e.Q.nprim12 cd + b)|
        ≤ E (tightStart e.P.nprim12 ab + a) (paddedStart e.len e.Q.nprim12 cd + b))
    (hw : overPrims e ab cd (fun i j => |y i j| + E i j + κ) ≤ 2 ^ 1022) :
    |x - overPrims e ab cd y| ≤ overPrims e ab cd E
      + (e.P.nprim12 ab * e.Q.nprim12 cd - 1 : ℕ) * (1 / 2 ^ 52) *
        overPrims e ab cd fun i j => |y i j| + E i j + κ := by
  set v := fun i j => (prim i j (e.Q.prefac j) t c).val with hv
  have hle : overPrims e ab cd (fun i j => |v i j| + κ) ≤ overPrims e ab cd fun i j => |y i j| + E i j + κ := by
    refine sum_le_sum fun a ha => sum_le_sum fun b hb => ?_
    have h := hy a (mem_range.1 ha) b (mem_range.1 hb)
    split_ifs with hkept
    · replace h := h hkept
      have h2 := abs_add_le (v (tightStart e.P.nprim12 ab + a) (paddedStart e.len e.Q.nprim12 cd + b)
          - y (tightStart e.P.nprim12 ab + a) (paddedStart e.len e.Q.nprim12 cd + b))
        (y (tightStart e.P.nprim12 ab + a) (paddedStart e.len e.Q.nprim12 cd + b))
      rw [sub_add_cancel] at h2
      linarith
    · exact le_rfl
  have h1 := C87_bound hF hS e prim hprim ab cd t c x hx hd hn (hle.trans hw)
  have h2 : |overPrims e ab cd v - overPrims e ab cd y| ≤ overPrims e ab cd E := by
    unfold overPrims
    rw [← sum_sub_distrib]
    refine (abs_sum_le_sum_abs _ _).trans (sum_le_sum fun a ha => ?_)
    rw [← sum_sub_distrib]
    refine (abs_sum_le_sum_abs _ _).trans (sum_le_sum fun b hb => ?_)
    split_ifs with hkept
    · exact hy a (mem_range.1 ha) b (mem_range.1 hb) hkept
    · simp
  have h3 := abs_add_le (x - overPrims e ab cd v) (overPrims e ab cd v - overPrims e ab cd y)
  rw [sub_add_sub_cancel] at h3
  have h4 : (e.P.nprim12 ab * e.Q.nprim12 cd - 1 : ℕ) * (1 / 2 ^ 52)
      * overPrims e ab cd (fun i j => |v i j| + κ)
      ≤ (e.P.nprim12 ab * e.Q.nprim12 cd - 1 : ℕ) * (1 / 2 ^ 52)
        * overPrims e ab cd fun i j => |y i j| + E i j + κ :=
    mul_le_mul_of_nonneg_left hle (by positivity)
  linarith

end

/-! ## A concrete call -/

/-- One bra primitive, three ket primitives whose values are their prefactors. -/
noncomputable def threePrims (F : Arith) (v : ℕ → ℝ) : DEnv (Fd F) where
  len := 1
  tops := [ssss]
  P := ⟨1, fun _ => 1, 1, fun _ => ⟨1⟩, fun _ => 0, 0, fun _ => ⟨1⟩, fun _ _ => 0, fun _ _ => 0, fun _ _ => 0,
    fun _ _ => 0⟩
  Q := ⟨1, fun _ => 3, 3, fun j => ⟨v j⟩, fun _ => 0, 0, fun _ => ⟨1⟩, fun _ _ => 0, fun _ _ => 0, fun _ _ => 0,
    fun _ _ => 0⟩
  tol := 0
  size := fun _ => 1
  vec := fun _ _ pf => some fun n _ _ => pf n

theorem threePrims_skip (F : Arith) (v : ℕ → ℝ) : ¬ (threePrims F v).check :=
  lt_irrefl (0 : Fd F)

theorem threePrims_step (F : Arith) (v : ℕ → ℝ) (m : QAM → ℕ → Fd F) (j : ℕ) (hj : j < 3) :
    vecStep (threePrims F v) 0 1 3 0 ⟨0, j, 3, fun t => 0 * ncartQ t, m⟩ j
      = some ⟨0, j + 1, 3, fun t => 0 * ncartQ t, Function.update m ssss fun k =>
          if k = 0 then m ssss k + ⟨v j⟩ else m ssss k⟩ := by
  have h1 : ¬ (threePrims F v).skipVec 0 j := fun h => threePrims_skip F v h.1
  have hs : shellOffsets (threePrims F v).len (threePrims F v).Q.nprim12 0 1 0 j 3
      = ⟨[0], 0, false, 0, j + 1, 3⟩ := by interval_cases j <;> rfl
  unfold vecStep
  simp only [hs]
  rw [if_pos (show j + (threePrims F v).len ≤ (threePrims F v).Q.alloc from hj), if_neg h1]
  interval_cases j <;> rfl

theorem threePrims_run (F : Arith) (v : ℕ → ℝ) (out : ℕ → Fd F) :
    ∃ r, runDirect (threePrims F v) ssss out = some (1, r) ∧
      (r 0).val = F.fl (F.fl (F.fl (0 + v 0) + v 1) + v 2) := by
  have h0 : ¬ (threePrims F v).skipBra 0 := fun h => threePrims_skip F v h.1
  have hb : ∀ m, ∃ m', braPrim (threePrims F v) 0 0 1 0 3 m 0 = some m' ∧
      (m' ssss 0) = m ssss 0 + ⟨v 0⟩ + ⟨v 1⟩ + ⟨v 2⟩ := by
    intro m
    unfold braPrim
    rw [if_pos (show 0 < (threePrims F v).P.alloc from Nat.one_pos), if_neg h0]
    have : ∃ s, [0, 1, 2].foldlM (fun st w => vecStep (threePrims F v) 0 1 3 0 st (0 + w * 1))
        ⟨0, 0, 3, fun t => 0 * ncartQ t, m⟩ = some s ∧
        s.mem ssss 0 = m ssss 0 + ⟨v 0⟩ + ⟨v 1⟩ + ⟨v 2⟩ := by
      simp only [List.foldlM_cons, threePrims_step F v _ 0 (by decide), threePrims_step F v _ 1 (by decide),
        threePrims_step F v _ 2 (by decide), Nat.mul_one, Nat.zero_add, Option.bind_eq_bind, Option.bind_some,
        List.foldlM_nil]
      exact ⟨_, rfl, by simp⟩
    obtain ⟨s, e1, e2⟩ := this
    rw [show nvec (threePrims F v).len 0 3 = 3 from (by decide : nvec 1 0 3 = 3)]
    exact ⟨s.mem, Option.map_eq_some_iff.2 ⟨s, e1, rfl⟩, e2⟩
  obtain ⟨m', h2, h3⟩ := hb fun _ k => if k < 1 * 1 * ncartQ ssss then 0 else out k
  refine ⟨m' ssss, ?_, ?_⟩
  · unfold runDirect
    simp only
    rw [if_pos (show (threePrims F v).P.nclip * (threePrims F v).Q.nclip * ncartQ ssss
      ≤ (threePrims F v).size ssss from (by decide : 1 * 1 * ncartQ ssss ≤ 1))]
    show Option.map _ (List.foldlM (bodyDirect (threePrims F v)) _ [0]) = _
    refine Option.map_eq_some_iff.2 ⟨(1, 1, m'), ?_, rfl⟩
    rw [List.foldlM_cons]
    have : bodyDirect (threePrims F v) (0, 0, fun _ k => if k < 1 * 1 * ncartQ ssss then 0 else out k) 0
        = some (1, 1, m') := by
      unfold bodyDirect
      refine Option.map_eq_some_iff.2 ⟨⟨1, 3, m'⟩, ?_, rfl⟩
      rw [show nbatches (threePrims F v).len (threePrims F v).Q.nclip = 1 from (by decide : nbatches 1 1 = 1)]
      show List.foldlM (batchDirect (threePrims F v) 0 1) _ [0] = _
      rw [List.foldlM_cons]
      have : batchDirect (threePrims F v) 0 1 ⟨0, 0, fun _ k => if k < 1 * 1 * ncartQ ssss then 0 else out k⟩ 0
          = some ⟨1, 3, m'⟩ := by
        unfold batchDirect
        refine Option.map_eq_some_iff.2 ⟨m', ?_,
          congrArg (fun x => DirectSt.mk 1 x m') (by decide : simdRound 1 3 = 3)⟩
        unfold braPrims
        show List.foldlM _ _ [0] = _
        rw [List.foldlM_cons]
        erw [h2]
        rfl
      erw [this]
      rfl
    erw [this]
    rfl
  · rw [h3]
    rfl

/-- The hypotheses of `C87_direct` can be met. -/
example (F : Arith) (hS : Stable F) (v : ℕ → ℝ) (out : ℕ → Fd F) (hout : ∀ k, IsDouble F (out k).val) :
    ∃ res, runDirect (threePrims F v) ssss out = some (1, res) ∧ SumOf F (res 0).val
      (quartetValues (threePrims F v) (fun _ _ pf _ _ => pf) 0 0 ssss 0) := by
  obtain ⟨res, h1, h2, _⟩ := C87_direct hS (threePrims F v) ssss (fun _ _ pf _ _ => pf)
    ⟨fun i j pf _ _ _ => ⟨_, rfl, fun n _ t _ c _ => rfl⟩, fun _ _ _ _ => rfl⟩
    ⟨Nat.one_pos, fun _ _ => (by decide : 0 < 3), (by decide : tightStart (fun _ => 1) 1 ≤ 1), fun s hs => by
      obtain rfl : s = 0 := Nat.lt_one_iff.1 hs
      exact (by decide : simdRound 1 (paddedStart 1 (fun _ => 3) 0 + 3) ≤ 3), by simp [threePrims],
      fun t ht => by
      obtain rfl : t = ssss := by simpa [threePrims] using ht
      decide⟩ rfl (by decide : 1 * 1 * ncartQ ssss ≤ 1) out hout
  exact ⟨res, h1, h2 0 Nat.one_pos 0 Nat.one_pos 0 (by decide)⟩

/-- C87: a contracted value depends on the order of the primitives: for three primitive quartets with the
values `2^60`, `1`, `-2^60` (in this order) the function gives `0`, in the order `2^60`, `-2^60`, `1` it
gives the exact sum `1`. -/
theorem C87_order : ∃ v w : ℕ → ℝ, ({v 0, v 1, v 2} : Multiset ℝ) = {w 0, w 1, w 2} ∧
    ∀ fused out, ∃ r s, runDirect (threePrims (ieee fused) v) ssss out = some (1, r) ∧
      runDirect (threePrims (ieee fused) w) ssss out = some (1, s) ∧
      (r 0).val = 0 ∧ (s 0).val = 1 ∧ v 0 + v 1 + v 2 = 1 := by
  have r0 : rn (0 + 2 ^ 60) = 2 ^ 60 := by
    rw [zero_add]
    have := rn_int 1 60 (by norm_num) (by norm_num)
    simpa using this
  have r1 : rn (2 ^ 60 + 1) = 2 ^ 60 := by
    have hl : Int.log 2 |(2 : ℝ) ^ 60 + 1| = 60 := by
      rw [abs_of_pos (by positivity)]
      refine le_antisymm ?_ ?_
      · refine Int.lt_add_one_iff.1 ((Int.lt_zpow_iff_log_lt (by norm_num) (by positivity)).1 ?_)
        norm_num
      · refine (Int.zpow_le_iff_le_log (by norm_num) (by positivity)).1 ?_
        norm_num
    have hp : FlBoys.lastPlace ((2 : ℝ) ^ 60 + 1) = 8 := by
      unfold FlBoys.lastPlace
      rw [hl]
      norm_num
    unfold FlBoys.rn
    rw [hp]
    have hr : round (((2 : ℝ) ^ 60 + 1) / 2 ^ (8 : ℤ)) = 2 ^ 52 := by
      rw [round_eq, Int.floor_eq_iff]
      norm_num
    rw [hr]
    norm_num
  have r3 : rn (0 + 1) = 1 := by
    rw [zero_add]
    have := rn_int 1 0 (by norm_num) (by norm_num)
    simpa using this
  refine ⟨fun i => [2 ^ 60, 1, -2 ^ 60].getD i 0, fun i => [2 ^ 60, -2 ^ 60, 1].getD i 0, ?_, ?_⟩
  · show ((2 ^ 60 : ℝ) ::ₘ 1 ::ₘ {-2 ^ 60}) = (2 ^ 60 : ℝ) ::ₘ (-2 ^ 60) ::ₘ {1}
    congr 1
    exact Multiset.cons_swap _ _ 0
  · intro fused out
    obtain ⟨r, h1, h2⟩ := threePrims_run (ieee fused) (fun i => [2 ^ 60, 1, -2 ^ 60].getD i 0) out
    obtain ⟨s, h3, h4⟩ := threePrims_run (ieee fused) (fun i => [2 ^ 60, -2 ^ 60, 1].getD i 0) out
    refine ⟨r, s, h1, h3, ?_, ?_, ?_⟩
    · rw [h2]
      show rn (rn (rn (0 + 2 ^ 60) + 1) + -2 ^ 60) = 0
      rw [r0, r1, add_neg_cancel, rn_zero]
    · rw [h4]
      show rn (rn (rn (0 + 2 ^ 60) + -2 ^ 60) + 1) = 1
      rw [r0, add_neg_cancel, rn_zero, r3]
    · show (2 : ℝ) ^ 60 + 1 + -2 ^ 60 = 1
      ring

end Simint
