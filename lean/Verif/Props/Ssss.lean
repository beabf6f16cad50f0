import Verif.SsssLemmas
import Verif.Props.Driver

/-!
# The hand-written (ss|ss) function (C29, C57)

The generated functions read the shell-pair lists only (their model takes them as constants); the
hand-written function for four s shells writes to the screening values of its second list.
-/

set_option autoImplicit false

namespace Simint

open Finset

section
variable {F : Type} [CommRing F] [LinearOrder F]

theorem zeroed_laneWise {e : DEnv F} {prim : ℕ → ℕ → F → QAM → ℕ → F} (h : LaneWise e prim) :
    LaneWise (zeroed e) prim := ⟨h.lane, h.zero⟩

theorem zeroed_ok {e : DEnv F} (h : ListsOK e) : ListsOK (zeroed e) :=
  ⟨h.len, h.prims, h.bra, h.ket, h.tops, h.ncart⟩

/-- C29, what the hand-written function does: it succeeds, its output is the contracted value for
the list in which the lanes behind each batch have screening value zero, and the only change to
its input is that some of these lanes now hold zero. -/
theorem C29_ssss (e : DEnv F) (final : QAM) (hn : ncartQ final = 1)
    (prim : ℕ → ℕ → F → QAM → ℕ → F) (hprim : LaneWise e prim) (hok : ListsOK e)
    (htop : e.tops = [final]) (hsize : e.P.nclip * e.Q.nclip ≤ e.size final) (out : ℕ → F) :
    ∃ scr res, runSsss e final out = some (e.P.nclip * e.Q.nclip, scr, res) ∧
      (∀ ab < e.P.nclip, ∀ cd < e.Q.nclip,
        res (ab * e.Q.nclip + cd) = contractedPair (zeroed e) prim ab cd final 0) ∧
      (∀ k, e.P.nclip * e.Q.nclip ≤ k → res k = out k) ∧
      ∀ k, scr k = e.Q.screen k ∨ (Tail e k ∧ scr k = 0) := by
  obtain ⟨res, h1, h2, h3⟩ := C25_direct (zeroed e) final prim (zeroed_laneWise hprim)
    (zeroed_ok hok) htop (by rw [hn, Nat.mul_one]; exact hsize) out
  obtain ⟨scr, hs, hinv⟩ := runSsss_sim e final hn htop hok.len out _ _ h1
  refine ⟨scr, res, hs, fun ab hab cd hcd => ?_, fun k hk => h3 k ?_, hinv⟩
  · have := h2 ab hab cd hcd 0 (by omega)
    rw [hn, Nat.mul_one, Nat.add_zero] at this
    exact this
  · rw [hn, Nat.mul_one]; exact hk

/-- The primitives of the first shells are never among the lanes it overwrites. -/
theorem C29_own_data_safe (e : DEnv F) (hok : ListsOK e) (j : ℕ) (hj : e.KetReal j) : ¬ Tail e j :=
  real_not_tail e hok.len j hj

/-- C29, positive part: calling the function again with the same lists (as they are after the first
call) and the same clip gives the same result. -/
theorem C29_repeat_partial (e : DEnv F) (final : QAM) (hn : ncartQ final = 1)
    (prim : ℕ → ℕ → F → QAM → ℕ → F) (hprim : LaneWise e prim) (hok : ListsOK e)
    (htop : e.tops = [final]) (hsize : e.P.nclip * e.Q.nclip ≤ e.size final) (out : ℕ → F)
    (scr res : ℕ → F) (n : ℕ) (h : runSsss e final out = some (n, scr, res)) :
    ∃ scr', runSsss { e with Q := { e.Q with screen := scr } } final out = some (n, scr', res) := by
  classical
  obtain ⟨scr0, res0, h1, h2, h3, h4⟩ := C29_ssss e final hn prim hprim hok htop hsize out
  rw [h1] at h
  simp only [Option.some.injEq, Prod.mk.injEq] at h
  obtain ⟨hn1, hs1, hr1⟩ := h
  rw [← hs1, ← hn1, ← hr1]
  set e' : DEnv F := { e with Q := { e.Q with screen := scr0 } } with he'
  obtain ⟨res2, g1, g2, g3⟩ := C25_direct (zeroed e) final prim (zeroed_laneWise hprim)
    (zeroed_ok hok) htop (by rw [hn, Nat.mul_one]; exact hsize) out
  have heq : zeroed e' = zeroed e := by
    unfold zeroed
    have : (fun k => if Tail e' k then 0 else e'.Q.screen k)
        = fun k => if Tail e k then 0 else e.Q.screen k := by
      funext k
      have ht : Tail e' k ↔ Tail e k := Iff.rfl
      by_cases hk : Tail e k
      · rw [if_pos hk, if_pos (ht.2 hk)]
      · rw [if_neg hk, if_neg fun x => hk (ht.1 x)]
        rcases h4 k with h | h
        · exact h
        · exact absurd h.1 hk
    simp only
    congr 2
  obtain ⟨s', hs', _⟩ := runSsss_sim e' final hn htop hok.len out _ _ (heq ▸ g1)
  obtain ⟨s'', hs'', _⟩ := runSsss_sim e final hn htop hok.len out _ _ g1
  refine ⟨s', ?_⟩
  rw [hs''] at h1
  simp only [Option.some.injEq, Prod.mk.injEq] at h1
  rw [hs', h1.2.2]
  rfl

end

/-- Two ket shells with one primitive each; the first is negligible, the second is not. -/
def historyKet (n : ℕ) : MSP ℤ :=
  { nclip := n, nprim12 := fun _ => 1, alloc := 2, prefac := fun _ => 1
    screen := fun j => if j = 0 then 1 else 5, screenMax := 5
    alpha := fun _ => 1, pos := fun _ _ => 0, PA := fun _ _ => 0, PB := fun _ _ => 0
    AB := fun _ _ => 0 }

/-- C29 fails: after a call clipped to the first shell, the full call on the same list loses the
contribution of the second shell, whose bound is above the tolerance (1 before, 0 after). -/
theorem C29_history_matters :
    let P := { historyKet 1 with screen := fun _ => 1, screenMax := 1 }
    let final : QAM := ⟨0, 0, 0, 0, ""⟩
    let call := fun (n : ℕ) (scr : ℕ → ℤ) =>
      runSsss (demoEnv 2 P { historyKet n with screen := scr } 3) final (fun _ => 0)
    (call 2 (historyKet 2).screen).map (fun r => r.2.2 1) = some 1 ∧
    ((call 1 (historyKet 1).screen).bind fun r => (call 2 r.2.1).map fun r' => r'.2.2 1)
      = some 0 := by decide +kernel

/-! ## C57: delayed horizontal sums -/

/-- C57: for every sequence of accumulation requests, emptying the buffer at the end gives the same
array as processing each request at once; the buffer never exceeds its eight entries. -/
theorem C57_delayed_sums {F : Type} [CommRing F] (len : ℕ) (ops : List (AccOp F)) (b : ℕ → F) :
    let st := ops.foldl (AccOp.later len) ([], b)
    flush len st.1.reverse st.2 = ops.foldl (AccOp.now len) b ∧ st.1.length < 8 := by
  intro st
  have key : ∀ (ops : List (AccOp F)) st0 k, st0.1.length < 8 →
      (ops.foldl (AccOp.later len) st0).2 k + owed len k (ops.foldl (AccOp.later len) st0).1
        = st0.2 k + owed len k st0.1 + (ops.map (AccOp.part len k)).sum ∧
      (ops.foldl (AccOp.later len) st0).1.length < 8 := by
    intro ops
    induction ops with
    | nil => intro st0 k h; exact ⟨by simp, h⟩
    | cons o r ih =>
      intro st0 k h
      rw [List.foldl_cons]
      obtain ⟨h1, h2⟩ := ih (AccOp.later len st0 o) k (later_length len st0 o h)
      refine ⟨?_, h2⟩
      rw [h1, later_eq]
      simp [add_assoc]
  constructor
  · funext k
    rw [flush_eq, owed_reverse, foldl_now, (key ops ([], b) k (by simp)).1]
    simp [owed]
  · exact (key ops ([], b) 0 (by simp)).2

-- ten requests, more than the buffer holds, among them repeated ones and one with offsets
example : (let ops : List (AccOp ℤ) := (List.range 9).map (fun i => .all (i / 2 * 2 + i % 3) (fun n => n + i))
      ++ [.some (fun n => n) 3 (fun n => 100 + n)]
    let st := ops.foldl (AccOp.later 2) ([], fun _ => 0)
    (List.range 12).map (flush 2 st.1.reverse st.2)) =
    (let ops : List (AccOp ℤ) := (List.range 9).map (fun i => .all (i / 2 * 2 + i % 3) (fun n => n + i))
      ++ [.some (fun n => n) 3 (fun n => 100 + n)]
    (List.range 12).map (ops.foldl (AccOp.now 2) (fun _ => 0))) := by decide +kernel

end Simint
