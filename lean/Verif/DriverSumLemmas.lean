import Verif.DriverLemmas

/-! Summation lemmas and the loops over bra primitives. -/

set_option autoImplicit false

namespace Simint

open Finset

theorem foldlM_snoc {α β : Type} (f : β → α → Option β) (s : β) (l : List α) (a : α) :
    (l ++ [a]).foldlM f s = (l.foldlM f s).bind fun s' => f s' a := by
  rw [List.foldlM_append]
  cases l.foldlM f s with
  | none => rfl
  | some s' =>
    show List.foldlM (m := Option) f s' [a] = f s' a
    rw [List.foldlM_cons]
    cases f s' a <;> rfl

theorem sum_blocks {F : Type} [AddCommMonoid F] (len nv : ℕ) (g : ℕ → F) :
    ∑ v ∈ range nv, ∑ n ∈ range len, g (v * len + n) = ∑ k ∈ range (nv * len), g k := by
  induction nv with
  | zero => simp
  | succ v ih => rw [sum_range_succ, ih, Nat.succ_mul, sum_range_add]

theorem sum_shells {F : Type} [AddCommMonoid F] (ns : ℕ → ℕ) (nb : ℕ) (g : ℕ → F) :
    ∑ k ∈ range (tightStart ns nb), g k
      = ∑ s ∈ range nb, ∑ p ∈ range (ns s), g (tightStart ns s + p) := by
  induction nb with
  | zero => simp [tightStart]
  | succ nb ih => rw [sum_range_succ, ← ih, tightStart_succ, sum_range_add]

theorem sum_owned {F : Type} [AddCommMonoid F] (ns : ℕ → ℕ) (nb : ℕ) (hnb : 0 < nb)
    (hpos : ∀ s < nb, 0 < ns s) {s : ℕ} (hs : s < nb) (g : ℕ → F) :
    ∑ k ∈ range (tightStart ns nb), (if owner ns nb k = s then g k else 0)
      = ∑ p ∈ range (ns s), g (tightStart ns s + p) := by
  rw [sum_shells]
  have hown : ∀ s' < nb, ∀ p < ns s', owner ns nb (tightStart ns s' + p) = s' := by
    intro s' hs' p hp
    have hm := tightStart_mono ns (show s' + 1 ≤ nb by omega)
    rw [tightStart_succ] at hm
    rw [owner_iff ns nb hnb hpos (by omega)]
    exact ⟨by show tightStart ns s' ≤ _; omega,
      by show _ < tightStart ns (s' + 1); rw [tightStart_succ]; omega⟩
  rw [sum_eq_single s]
  · apply sum_congr rfl
    intro p hp
    rw [if_pos (hown s hs p (mem_range.1 hp))]
  · intro s' hs' hne
    apply sum_eq_zero
    intro p hp
    rw [if_neg]
    rw [hown s' (mem_range.1 hs') p (mem_range.1 hp)]
    exact hne
  · intro h
    exact absurd (mem_range.2 hs) h

section
variable {F : Type} [AddCommMonoid F] [Mul F] [LinearOrder F]

theorem nvec_mul {len : ℕ} (jstart jend : ℕ) :
    nvec len jstart jend * len = simdRound len (jend - jstart) := rfl

/-- The fold over vectors. -/
theorem vecs_eq (e : DEnv F) (prim : ℕ → ℕ → F → QAM → ℕ → F) (hprim : LaneWise e prim)
    (htops : e.tops.Nodup) (hlen : 0 < e.len) (cd nb abcd jend i jstart : ℕ)
    (hnb : 0 < nb) (hi : i < e.P.alloc) (hdvd : e.len ∣ jstart)
    (hsize : ∀ t ∈ e.tops, (abcd + nb) * ncartQ t ≤ e.size t) (mem : QAM → ℕ → F)
    (ns : ℕ → ℕ) (hns : ns = fun s => e.Q.nprim12 (cd + s)) (nv : ℕ)
    (halloc : jstart + nv * e.len ≤ e.Q.alloc) :
    (List.range nv).foldlM (fun st v => vecStep e cd nb jend i st (jstart + v * e.len))
        (laneState ns nb abcd 0 mem)
      = some (laneState ns nb abcd (nv * e.len) fun t => if t ∈ e.tops then fun idx => mem t idx +
          ∑ v ∈ range nv, (if e.skipVec i (jstart + v * e.len) then 0
            else vecContrib e.len ns nb abcd (v * e.len)
            (fun n t c => prim i (jstart + v * e.len + n)
              (if jstart + v * e.len + n < jend then e.Q.prefac (jstart + v * e.len + n) else 0) t c) t idx)
          else mem t) := by
  induction nv with
  | zero => simp
  | succ v ih =>
    rw [Nat.succ_mul] at halloc
    rw [List.range_succ, foldlM_snoc, ih (by omega), Option.bind_some]
    rw [vecStep_eq e prim hprim htops hlen cd nb abcd jend i (jstart + v * e.len) (v * e.len) hnb hi
      (hdvd.add (Dvd.intro_left v rfl)) (by omega) hsize _ ns hns]
    rw [Nat.succ_mul]
    congr 2
    funext t
    by_cases ht : t ∈ e.tops
    · simp only [ht, if_true]
      funext idx
      rw [sum_range_succ, add_assoc]
    · simp only [ht, if_false]

/-- What one bra primitive adds to element `idx` of class `t`. -/
def primContrib (e : DEnv F) (prim : ℕ → ℕ → F → QAM → ℕ → F) (ns : ℕ → ℕ) (nb abcd jstart i : ℕ)
    (t : QAM) (idx : ℕ) : F :=
  if abcd * ncartQ t ≤ idx ∧ idx < (abcd + nb) * ncartQ t then
    ∑ p ∈ range (ns (idx / ncartQ t - abcd)),
      if e.Kept i (jstart + tightStart ns (idx / ncartQ t - abcd) + p) then
        prim i (jstart + tightStart ns (idx / ncartQ t - abcd) + p)
          (e.Q.prefac (jstart + tightStart ns (idx / ncartQ t - abcd) + p)) t (idx % ncartQ t)
      else 0
  else 0

theorem sum_comp_eq (nc a idx : ℕ) (h : ℕ → F) :
    ∑ c ∈ range nc, (if a * nc + c = idx then h c else 0)
      = if a * nc ≤ idx ∧ idx < a * nc + nc then h (idx % nc) else 0 := by
  by_cases hc : a * nc ≤ idx ∧ idx < a * nc + nc
  · rw [if_pos hc]
    have hm : idx % nc = idx - a * nc := by
      have e : idx = (idx - a * nc) + nc * a := by rw [Nat.mul_comm nc a]; omega
      conv_lhs => rw [e]
      rw [Nat.add_mul_mod_self_left, Nat.mod_eq_of_lt (by omega)]
    rw [sum_eq_single (idx - a * nc), if_pos (by omega), hm]
    · intro b _ hb
      rw [if_neg (by omega)]
    · intro hn
      exact absurd (mem_range.2 (by omega)) hn
  · rw [if_neg hc]
    apply sum_eq_zero
    intro c hcc
    have := mem_range.1 hcc
    rw [if_neg (by omega)]

theorem block_iff {nc : ℕ} (hnc : 0 < nc) (abcd s idx : ℕ) (hlo : abcd * nc ≤ idx) :
    ((abcd + s) * nc ≤ idx ∧ idx < (abcd + s) * nc + nc) ↔ s = idx / nc - abcd := by
  have h1 : abcd ≤ idx / nc := (Nat.le_div_iff_mul_le hnc).2 hlo
  rw [← Nat.le_div_iff_mul_le hnc, ← Nat.succ_mul, ← Nat.div_lt_iff_lt_mul hnc]
  omega

theorem braPrim_eq (e : DEnv F) (prim : ℕ → ℕ → F → QAM → ℕ → F) (hprim : LaneWise e prim)
    (htops : e.tops.Nodup) (hnc : ∀ t ∈ e.tops, 0 < ncartQ t)
    (hlen : 0 < e.len) (cd nb abcd jend i jstart : ℕ)
    (hnb : 0 < nb) (hi : i < e.P.alloc)
    (hsize : ∀ t ∈ e.tops, (abcd + nb) * ncartQ t ≤ e.size t) (mem : QAM → ℕ → F)
    (ns : ℕ → ℕ) (hns : ns = fun s => e.Q.nprim12 (cd + s)) (hpos : ∀ s < nb, 0 < ns s)
    (hdvd : e.len ∣ jstart) (hjend : jend = jstart + tightStart ns nb)
    (halloc : simdRound e.len jend ≤ e.Q.alloc) :
    braPrim e abcd cd nb jstart jend mem i
      = some fun t => if t ∈ e.tops then fun idx => mem t idx + primContrib e prim ns nb abcd jstart i t idx
          else mem t := by
  unfold braPrim
  rw [if_pos hi]
  by_cases hsk : e.skipBra i
  · rw [if_pos hsk]
    congr 1
    funext t
    have : ∀ j, ¬ e.Kept i j := fun j h => h.1 hsk
    by_cases ht : t ∈ e.tops
    · simp only [ht, if_true]
      funext idx
      unfold primContrib
      simp [this]
    · simp [ht]
  rw [if_neg hsk]
  have hround : simdRound e.len jend = jstart + simdRound e.len (tightStart ns nb) := by
    obtain ⟨z, rfl⟩ := hdvd
    rw [hjend]
    unfold simdRound
    rw [show e.len * z + tightStart ns nb + (e.len - 1) = tightStart ns nb + (e.len - 1) + e.len * z by ring,
      Nat.add_mul_div_left _ _ hlen]
    ring
  have hdiff : jend - jstart = tightStart ns nb := by omega
  have hinit : ({ icd := 0, iprim := 0, nprim := e.Q.nprim12 cd
                  ptr := fun t => abcd * ncartQ t, mem := mem } : DSt F)
      = laneState ns nb abcd 0 mem := by
    simp [laneState, before, tightStart, hns]
  rw [hinit, vecs_eq e prim hprim htops hlen cd nb abcd jend i jstart hnb hi hdvd hsize mem ns hns _
    (by rw [nvec_mul, hdiff]; omega)]
  simp only [Option.map_some, laneState, Option.some.injEq]
  funext t
  by_cases ht : t ∈ e.tops
  swap
  · simp only [ht, if_false]
  simp only [ht, if_true]
  funext idx
  congr 1
  have hn := hnc t ht
  -- one sum over all lanes of the batch
  set G : ℕ → F := fun k => if e.skipVec i (jstart + k / e.len * e.len) then 0 else
    ∑ c ∈ range (ncartQ t), (if (abcd + owner ns nb k) * ncartQ t + c = idx then
      prim i (jstart + k) (if jstart + k < jend then e.Q.prefac (jstart + k) else 0) t c else 0) with hG
  have hstep : ∀ v, (if e.skipVec i (jstart + v * e.len) then (0 : F)
      else vecContrib e.len ns nb abcd (v * e.len)
        (fun n t c => prim i (jstart + v * e.len + n)
          (if jstart + v * e.len + n < jend then e.Q.prefac (jstart + v * e.len + n) else 0) t c) t idx)
      = ∑ n ∈ range e.len, G (v * e.len + n) := by
    intro v
    have hd : ∀ n ∈ range e.len, (v * e.len + n) / e.len = v := by
      intro n hn
      rw [Nat.mul_comm, Nat.mul_add_div hlen, Nat.div_eq_of_lt (mem_range.1 hn), Nat.add_zero]
    by_cases hs : e.skipVec i (jstart + v * e.len)
    · rw [if_pos hs]
      symm
      apply sum_eq_zero
      intro n hn
      rw [hG]
      simp only [hd n hn, hs, if_true]
    · rw [if_neg hs]
      unfold vecContrib
      apply sum_congr rfl
      intro n hn
      rw [hG]
      simp only [hd n hn, hs, if_false, Nat.add_assoc]
  simp only [hstep]
  rw [sum_blocks, nvec_mul, hdiff]
  -- lanes beyond the last primitive add nothing
  have hcut : ∑ k ∈ range (simdRound e.len (tightStart ns nb)), G k
      = ∑ k ∈ range (tightStart ns nb), G k := by
    have hle := le_simdRound hlen (tightStart ns nb)
    rw [← sum_range_add_sum_Ico G hle]
    refine (congrArg (_ + ·) (sum_eq_zero fun k hk => ?_)).trans (add_zero _)
    have hk' := (mem_Ico.1 hk).1
    rw [hG]
    have : ¬ jstart + k < jend := by omega
    simp only [this, if_false, hprim.zero, ite_self, sum_const_zero]
  rw [hcut]
  have hG2 : ∀ k < tightStart ns nb, G k =
      if (abcd + owner ns nb k) * ncartQ t ≤ idx ∧ idx < (abcd + owner ns nb k) * ncartQ t + ncartQ t then
        (if e.Kept i (jstart + k) then prim i (jstart + k) (e.Q.prefac (jstart + k)) t (idx % ncartQ t) else 0)
      else 0 := by
    intro k hk
    rw [hG]
    have h1 : jstart + k < jend := by omega
    simp only [h1, if_true]
    rw [sum_comp_eq]
    have h2 : (jstart + k) / e.len * e.len = jstart + k / e.len * e.len := by
      obtain ⟨z, rfl⟩ := hdvd
      rw [Nat.mul_add_div hlen]; ring
    have h3 : e.Kept i (jstart + k) ↔ ¬ e.skipVec i (jstart + k / e.len * e.len) := by
      unfold DEnv.Kept
      rw [h2]
      exact ⟨fun h => h.2, fun h => ⟨hsk, h⟩⟩
    by_cases h4 : e.skipVec i (jstart + k / e.len * e.len)
    · have h5 : ¬ e.Kept i (jstart + k) := fun h => (h3.1 h) h4
      simp [h4, h5]
    · have h5 := h3.2 h4
      simp [h4, h5]
  rw [sum_congr rfl fun k hk => hG2 k (mem_range.1 hk)]
  unfold primContrib
  by_cases hin : abcd * ncartQ t ≤ idx ∧ idx < (abcd + nb) * ncartQ t
  · rw [if_pos hin]
    have hs : idx / ncartQ t - abcd < nb := by
      have := (Nat.div_lt_iff_lt_mul hn).2 hin.2
      omega
    simp only [block_iff hn abcd _ idx hin.1]
    rw [sum_owned ns nb hnb hpos hs]
    simp only [Nat.add_assoc]
  · rw [if_neg hin]
    apply sum_eq_zero
    intro k hk
    rw [if_neg]
    rintro ⟨h1, h2⟩
    apply hin
    have hlt := owner_lt ns hnb k
    constructor
    · exact le_trans (Nat.mul_le_mul_right _ (by omega)) h1
    · refine lt_of_lt_of_le h2 ?_
      rw [← Nat.succ_mul]
      exact Nat.mul_le_mul_right _ (by omega)

/-- The loop over bra primitives. -/
theorem braPrims_eq (e : DEnv F) (prim : ℕ → ℕ → F → QAM → ℕ → F) (hprim : LaneWise e prim)
    (htops : e.tops.Nodup) (hnc : ∀ t ∈ e.tops, 0 < ncartQ t)
    (hlen : 0 < e.len) (cd nb abcd jend istart iend jstart : ℕ)
    (hnb : 0 < nb) (hi : iend ≤ e.P.alloc)
    (hsize : ∀ t ∈ e.tops, (abcd + nb) * ncartQ t ≤ e.size t)
    (ns : ℕ → ℕ) (hns : ns = fun s => e.Q.nprim12 (cd + s)) (hpos : ∀ s < nb, 0 < ns s)
    (hdvd : e.len ∣ jstart) (hjend : jend = jstart + tightStart ns nb)
    (halloc : simdRound e.len jend ≤ e.Q.alloc) (mem : QAM → ℕ → F) (hie : istart ≤ iend) :
    braPrims e abcd cd nb jstart jend istart iend mem
      = some fun t => if t ∈ e.tops then fun idx => mem t idx +
          ∑ a ∈ range (iend - istart), primContrib e prim ns nb abcd jstart (istart + a) t idx
          else mem t := by
  have key : ∀ n, istart + n ≤ e.P.alloc →
      (List.range' istart n).foldlM (braPrim e abcd cd nb jstart jend) mem
      = some fun t => if t ∈ e.tops then fun idx => mem t idx +
          ∑ a ∈ range n, primContrib e prim ns nb abcd jstart (istart + a) t idx
          else mem t := by
    intro n
    induction n with
    | zero => intro _; simp
    | succ n ih =>
      intro hn
      rw [List.range'_concat, foldlM_snoc, ih (by omega), Option.bind_some]
      rw [Nat.one_mul, braPrim_eq e prim hprim htops hnc hlen cd nb abcd jend
        (istart + n) jstart hnb (by omega) hsize _ ns hns hpos hdvd hjend halloc]
      congr 1
      funext t
      by_cases ht : t ∈ e.tops
      · simp only [ht, if_true]
        funext idx
        rw [sum_range_succ, add_assoc]
      · simp only [ht, if_false]
  exact key _ (by omega)

end

end Simint
