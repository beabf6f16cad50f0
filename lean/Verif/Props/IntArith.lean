import Verif.IntArithLemmas
import Verif.FunctionLemmas
import Mathlib.Algebra.Order.Ring.Rat
import Mathlib.Tactic.NormNum

/-!
# C81: `int` arithmetic of the generated functions and of the allocation of lists

`2 ^ 31` is the first number an `int` cannot hold.
-/

set_option autoImplicit false

namespace Simint.IntArith

open Simint

theorem slots_le {len n : ℕ} (hd : len ∣ 2 ^ 31) (hn : len ∣ n) (h : n < 2 ^ 31) :
    n + len ≤ 2 ^ 31 := by
  obtain ⟨a, ha⟩ := hd
  obtain ⟨b, rfl⟩ := hn
  rw [ha] at h ⊢
  have : b + 1 ≤ a := Nat.lt_of_mul_lt_mul_left h
  calc len * b + len = len * (b + 1) := by rw [Nat.mul_succ]
    _ ≤ len * a := Nat.mul_le_mul_left _ this

/-- The numbers of pairs and of primitives of the two lists and the offsets inside one batch are
representable; `ns` are the numbers of primitives of the ket pairs. -/
structure ListsFit {F : Type} (e : DEnv F) (ns : List ℕ) : Prop where
  len : 0 < e.len ∧ e.len ∣ 2 ^ 31
  nprim : ∀ i < ns.length, e.Q.nprim12 i = ns.getD i 0
  clip : e.Q.nclip ≤ ns.length
  slots : countPrims e.len ns < 2 ^ 31
  pairs : e.Q.nclip + 2 * e.len ≤ 2 ^ 31
  bra : ∑ i ∈ Finset.range e.P.nclip, e.P.nprim12 i < 2 ^ 31
  braPairs : e.P.nclip < 2 ^ 31
  tops : ∀ t ∈ e.tops, 2 * e.len * ncartQ t < 2 ^ 31

theorem tight_sum (np : ℕ → ℕ) (n : ℕ) : tightStart np n = ∑ i ∈ Finset.range n, np i := by
  induction n with
  | zero => simp [tightStart]
  | succ n ih => rw [tightStart_succ, Finset.sum_range_succ, ih]

section
variable {F : Type} [CommRing F] [LinearOrder F]

theorem ListsFit.fits {e : DEnv F} {ns : List ℕ} (h : ListsFit e ns) : Fits (2 ^ 31) e ns where
  slots := slots_le h.len.2 (Align.countPrims_dvd h.len.1 ns) h.slots
  pairs := h.pairs
  bra := by rw [tight_sum]; exact h.bra
  braPairs := h.braPairs
  tops := h.tops

/-- A function that accumulates into the result: all `int` values are in range exactly if the number
of integrals is. -/
theorem C81_direct (e : DEnv F) (ns : List ℕ) (t : QAM) (hv : t.Valid) (hf : ListsFit e ns)
    (ht : e.tops = [t]) :
    (∀ x ∈ directInts e (ncartQ t), x < 2 ^ 31) ↔
      e.P.nclip * e.Q.nclip * ncartQ t < 2 ^ 31 := by
  have hpos : 0 < ncartQ t := ncartQ_pos hv
  constructor
  · intro h
    exact h _ (by unfold directInts memsetInts; simp)
  · intro h
    have h1 : e.P.nclip * e.Q.nclip < 2 ^ 31 :=
      Nat.lt_of_le_of_lt (Nat.le_mul_of_pos_right _ hpos) h
    show Below _ _
    unfold directInts memsetInts
    simp only [below_append, below_cons]
    refine ⟨⟨⟨h1, h, below_nil _⟩, ?_⟩, h1, below_nil _⟩
    refine loops_below hf.len.1 hf.fits hf.nprim hf.clip none h1 (fun _ t' ht' => ?_)
      (fun g hg => absurd hg (by simp)) (fun g hg => absurd hg (by simp))
    rw [ht, List.mem_singleton] at ht'
    rw [ht']
    exact h

/-- A function with a horizontal stage: all `int` values are in range exactly if the number of quartets
and the offset of the last one in the result are. -/
theorem C81_hrr (e : DEnv F) (ns : List ℕ) (g : HCfg) (hf : ListsFit e ns)
    (hb : 2 * e.len * g.bcont < 2 ^ 31) :
    (∀ x ∈ hrrCallInts e g, x < 2 ^ 31) ↔
      e.P.nclip * e.Q.nclip < 2 ^ 31 ∧
      (e.P.nclip * e.Q.nclip - 1) * (g.ncart * (if g.deriv then 12 else 1)) < 2 ^ 31 := by
  constructor
  · intro h
    have h1 : e.P.nclip * e.Q.nclip < 2 ^ 31 := h _ (by unfold hrrCallInts; simp)
    refine ⟨h1, ?_⟩
    by_cases h0 : e.P.nclip = 0
    · rw [h0]; simp
    by_cases h0' : e.Q.nclip = 0
    · rw [h0']; simp
    obtain ⟨c, real, abcd, hq, hmem⟩ := quartet_mem hf.len.1 hf.nprim hf.clip g
      (show e.P.nclip - 1 < e.P.nclip by omega) (show e.Q.nclip - 1 < e.Q.nclip by omega)
    have hq' : real + abcd = e.P.nclip * e.Q.nclip - 1 := by
      rw [hq]
      obtain ⟨a, ha⟩ : ∃ a, e.P.nclip = a + 1 := ⟨e.P.nclip - 1, by omega⟩
      rw [ha, Nat.succ_mul]
      simp only [Nat.add_sub_cancel]
      omega
    have hm : ∀ x ∈ hrrInts e g c real abcd, x < 2 ^ 31 := fun x hx =>
      h x (by unfold hrrCallInts; exact List.mem_append_left _ (hmem x hx))
    rw [← hq']
    split
    · rename_i hd
      rw [← Nat.mul_assoc]
      exact hm _ (by unfold hrrInts; simp [hd])
    · rw [Nat.mul_one]
      exact hm _ (by unfold hrrInts; simp)
  · rintro ⟨h1, h2⟩
    show Below _ _
    unfold hrrCallInts
    rw [below_append, below_cons]
    refine ⟨?_, h1, below_nil _⟩
    refine loops_below hf.len.1 hf.fits hf.nprim hf.clip (some g) h1 (fun hg => absurd hg (by simp))
      (fun g' hg => ?_) (fun g' hg => ?_)
    · obtain rfl := Option.some.inj hg
      exact hb
    · obtain rfl := Option.some.inj hg
      constructor
      · refine Nat.lt_of_le_of_lt (Nat.mul_le_mul_left _ ?_) h2
        split <;> omega
      · intro hd
        rw [if_pos hd, ← Nat.mul_assoc] at h2
        exact h2

end

/-- Allocation of a list: all `int` values are in range exactly if twice the number of pairs, the
products of the numbers of primitives and the number of slots are. -/
theorem C81_alloc {F : Type} (len : ℕ) (ps : List (Shell F × Shell F)) (hl : 0 < len)
    (hd : len ∣ 2 ^ 31) :
    (∀ x ∈ allocInts len ps, x < 2 ^ 31) ↔
      2 * ps.length < 2 ^ 31 ∧
      (∀ p ∈ ps, if sameShell p.1 p.2 then p.1.nprim * (p.1.nprim + 1) < 2 ^ 31
        else p.1.nprim * p.2.nprim < 2 ^ 31) ∧
      allocPrims len ps < 2 ^ 31 := by
  constructor
  · intro h
    by_cases h0 : ps.length = 0
    · have : ps = [] := List.length_eq_zero_iff.1 h0
      subst this
      refine ⟨by simp, by simp, ?_⟩
      show 0 < 2 ^ 31
      omega
    have hmem : ∀ {s : ℕ} (hs : s < ps.length), ∃ st : CountSt, st.i = s ∧
        (∀ x ∈ countInts len ps.length st ps[s].1 ps[s].2, x < 2 ^ 31) ∧
        (s + 1 = ps.length →
          allocPrims len ps = st.nprim + simdRound len (st.batch + pairPrims ps[s].1 ps[s].2)) := by
      intro s hs
      obtain ⟨st, h1, h2, h3⟩ := mem_allocInts hl ps hs
      exact ⟨st, h1, fun x hx => h x (h2 x hx), h3⟩
    obtain ⟨st, h1, h2, h3⟩ := hmem (show ps.length - 1 < ps.length by omega)
    refine ⟨?_, fun p hp => ?_, ?_⟩
    · have := h2 (2 * st.i + 2) (by unfold countInts; simp)
      omega
    · obtain ⟨s, hs, rfl⟩ := List.getElem_of_mem hp
      obtain ⟨st', -, k2, -⟩ := hmem hs
      split
      · rename_i hsame
        exact k2 _ (by unfold countInts pairInts; simp [hsame])
      · rename_i hsame
        exact k2 _ (by unfold countInts pairInts; simp [hsame])
    · rw [h3 (by omega)]
      refine h2 _ ?_
      have hc : (st.i + 1) % nshellSimd len = 0 ∨ ps.length ≤ st.i + 1 := Or.inr (by omega)
      unfold countInts
      simp only [if_pos hc]
      simp
  · rintro ⟨h1, h2, h3⟩
    refine allocInts_below hl ps h1 (fun p hp => ?_)
      (slots_le hd (Align.countPrims_dvd hl _) h3)
    have hp' := h2 p hp
    unfold pairInts
    split
    · rename_i hs
      rw [if_pos hs] at hp'
      simp only [below_cons]
      refine ⟨?_, hp', below_nil _⟩
      by_cases hz : p.1.nprim = 0
      · rw [hz]; omega
      · exact Nat.lt_of_le_of_lt (Nat.le_mul_of_pos_left _ (by omega)) hp'
    · rename_i hs
      rw [if_neg hs] at hp'
      exact below_cons.2 ⟨hp', below_nil _⟩

/-- With products that wrap, the result is cleared in full exactly if the number of integrals is
representable. -/
theorem C81_wrap (nP nQ nc : ℕ) (h : nP * nQ * nc < 2 ^ 60) :
    (memsetBytes nP nQ nc).toNat = 8 * (nP * nQ * nc) ↔ nP * nQ * nc < 2 ^ 31 := by
  unfold memsetBytes
  have e : BitVec.ofNat 32 nP * BitVec.ofNat 32 nQ * BitVec.ofNat 32 nc
      = BitVec.ofNat 32 (nP * nQ * nc) := by
    apply BitVec.eq_of_toNat_eq
    simp [Nat.mul_mod]
  rw [e]
  generalize nP * nQ * nc = p at h
  rw [BitVec.toNat_mul, BitVec.toNat_signExtend, BitVec.msb_eq_decide]
  simp only [BitVec.toNat_setWidth, BitVec.toNat_ofNat]
  by_cases hm : 2 ^ (32 - 1) ≤ p % 2 ^ 32
  · rw [if_pos (decide_eq_true hm)]
    omega
  · rw [if_neg (by simpa using hm)]
    omega

/-- Lists of `n` pairs of s shells with one primitive each, scalar code. -/
def ssEnv (n : ℕ) : DEnv ℚ where
  len := 1
  tops := [⟨0, 0, 0, 0, ""⟩]
  P := ⟨n, fun _ => 1, n, fun _ => 1, fun _ => 1, 1, fun _ => 1, fun _ _ => 0, fun _ _ => 0,
    fun _ _ => 0, fun _ _ => 0⟩
  Q := ⟨n, fun _ => 1, n, fun _ => 1, fun _ => 1, 1, fun _ => 1, fun _ _ => 0, fun _ _ => 0,
    fun _ _ => 0, fun _ _ => 0⟩
  tol := 0
  size := fun _ => 1
  vec := fun _ _ _ => none

theorem ssEnv_fit {n : ℕ} (h : n + 2 ≤ 2 ^ 31) : ListsFit (ssEnv n) (List.replicate n 1) where
  len := ⟨Nat.one_pos, one_dvd _⟩
  nprim := fun i hi => by
    rw [List.getD_eq_getElem _ _ hi, List.getElem_replicate]; rfl
  clip := by rw [List.length_replicate]; exact le_rfl
  slots := by show countPrims 1 _ < _; rw [countPrims_ones]; omega
  pairs := h
  bra := by
    show ∑ _i ∈ Finset.range n, 1 < 2 ^ 31
    rw [Finset.sum_const, Finset.card_range, smul_eq_mul]; omega
  braPairs := by show n < _; omega
  tops := by
    intro t ht
    obtain rfl := List.mem_singleton.1 ht
    show 2 * 1 * ncartQ ⟨0, 0, 0, 0, ""⟩ < 2 ^ 31
    decide

/-- The property is false of the code: two lists of 46341 pairs each, which can be allocated, give a
product that an `int` cannot hold. -/
theorem C81_direct_false : ∃ (n : ℕ), ListsFit (ssEnv n) (List.replicate n 1) ∧
    ¬ ∀ x ∈ directInts (ssEnv n) (ncartQ ⟨0, 0, 0, 0, ""⟩), x < 2 ^ 31 := by
  refine ⟨46341, ssEnv_fit (by norm_num), ?_⟩
  rw [C81_direct _ _ _ (by unfold QAM.Valid; decide) (ssEnv_fit (by norm_num)) rfl]
  have : ncartQ ⟨0, 0, 0, 0, ""⟩ = 1 := by decide
  rw [this]
  show ¬ (46341 * 46341 * 1 < 2 ^ 31)
  norm_num

/-- One pair fewer in each list fits. -/
example : ∀ x ∈ directInts (ssEnv 46340) (ncartQ ⟨0, 0, 0, 0, ""⟩), x < 2 ^ 31 := by
  rw [C81_direct _ _ _ (by unfold QAM.Valid; decide) (ssEnv_fit (by norm_num)) rfl]
  have : ncartQ ⟨0, 0, 0, 0, ""⟩ = 1 := by decide
  rw [this]
  show 46340 * 46340 * 1 < 2 ^ 31
  norm_num

/-- The values of a call with two pairs in each list. -/
example : directInts (ssEnv 2) 1 = [4, 4, 1, 1, 2, 0, 1, 1, 1, 2, 2, 1, 0, 1, 1, 1, 1, 2, 1, 2, 1, 2,
    1, 2, 2, 2, 2, 2, 2, 0, 1, 1, 1, 2, 2, 2, 2, 1, 1, 1, 1, 2, 1, 2, 1, 2, 1, 2, 2, 4, 4] := by
  decide +kernel

/-- With a horizontal stage: the offset of the last of `1288 * 1288` quartets of a (dd|dd) derivative. -/
example : ¬ ((1288 * 1288 - 1) * (1296 * 12) < 2 ^ 31) ∧ (371 * 371 - 1) * (1296 * 12) < 2 ^ 31 := by
  norm_num

/-- A product of `2 ^ 32` clears nothing, a product of `2 ^ 31` asks for almost the whole address
space. -/
example : (memsetBytes 65536 65536 1).toNat = 0 ∧
    (memsetBytes 65536 32768 1).toNat = 2 ^ 64 - 2 ^ 34 ∧ (memsetBytes 100 100 9).toNat = 720000 := by
  decide +kernel

end Simint.IntArith
