import Verif.DriverSumLemmas

/-! Loops over batches and shells. -/

set_option autoImplicit false

namespace Simint

open Finset

theorem paddedStart_dvd (len : ℕ) (np : ℕ → ℕ) (b : ℕ) :
    len ∣ paddedStart len np (b * nshellSimd len) := by
  rcases Nat.eq_zero_or_pos (b * nshellSimd len) with h | h
  · rw [h]; exact Dvd.intro_left 0 (by simp [paddedStart])
  · obtain ⟨s, hs⟩ : ∃ s, b * nshellSimd len = s + 1 := ⟨b * nshellSimd len - 1, by omega⟩
    rw [hs, paddedStart, if_pos]
    · exact simdRound_dvd _ _
    · rw [← hs]
      exact Nat.mul_mod_left b (2 * len)

/-- Inside a batch shells follow each other without gaps. -/
theorem paddedStart_add (len : ℕ) (np : ℕ → ℕ) (b s : ℕ) (hs : s < nshellSimd len) :
    paddedStart len np (b * nshellSimd len + s) =
      paddedStart len np (b * nshellSimd len)
        + tightStart (fun k => np (b * nshellSimd len + k)) s := by
  induction s with
  | zero => simp [tightStart]
  | succ s ih =>
    rw [← Nat.add_assoc, paddedStart, if_neg, ih (by omega), tightStart_succ]
    · ring
    · rw [Nat.add_assoc]
      have : (b * nshellSimd len + (s + 1)) % nshellSimd len = s + 1 := by
        rw [Nat.mul_comm, Nat.mul_add_mod, Nat.mod_eq_of_lt hs]
      unfold nshellSimd at *
      omega

theorem paddedStart_next (len : ℕ) (np : ℕ → ℕ) (b : ℕ) (hlen : 0 < len) :
    paddedStart len np ((b + 1) * nshellSimd len) =
      simdRound len (paddedStart len np (b * nshellSimd len)
        + tightStart (fun k => np (b * nshellSimd len + k)) (nshellSimd len)) := by
  have hN : 0 < nshellSimd len := by unfold nshellSimd; omega
  obtain ⟨m, hm⟩ : ∃ m, nshellSimd len = m + 1 := ⟨nshellSimd len - 1, by omega⟩
  have e1 : (b + 1) * nshellSimd len = b * nshellSimd len + m + 1 := by
    rw [Nat.succ_mul]; omega
  rw [e1, paddedStart, if_pos, paddedStart_add len np b m (by omega)]
  · congr 1
    conv_rhs => rw [hm]
    rw [tightStart_succ]
    simp only [hm]
    ring
  · rw [← e1]
    exact Nat.mul_mod_left (b + 1) (2 * len)

theorem batchEnd_eq (np : ℕ → ℕ) (cd nb jstart : ℕ) :
    batchEnd np cd nb jstart = jstart + tightStart (fun s => np (cd + s)) nb := by
  unfold batchEnd
  induction nb with
  | zero => simp [tightStart]
  | succ n ih => rw [List.range_succ, List.foldl_append, ih, tightStart_succ]; simp; ring

theorem lt_nbatches {len nclip b : ℕ} (hlen : 0 < len) :
    b < nbatches len nclip ↔ b * nshellSimd len < nclip := by
  have hN : 0 < nshellSimd len := by unfold nshellSimd; omega
  unfold nbatches
  constructor
  · intro h
    have := (Nat.le_div_iff_mul_le hN).1 (show b + 1 ≤ _ from h)
    rw [Nat.succ_mul] at this
    omega
  · intro h
    have := (Nat.le_div_iff_mul_le hN (x := b + 1) (y := nclip + (nshellSimd len - 1))).2
      (by rw [Nat.succ_mul]; omega)
    omega

theorem nshellBatch_spec {len nclip cd : ℕ} (hlen : 0 < len) (h : cd < nclip) :
    0 < nshellBatch len nclip cd ∧ nshellBatch len nclip cd ≤ nshellSimd len ∧
      cd + nshellBatch len nclip cd ≤ nclip ∧
      cd + nshellBatch len nclip cd = min (cd + nshellSimd len) nclip := by
  have hN : 0 < nshellSimd len := by unfold nshellSimd; omega
  unfold nshellBatch
  split <;> omega

section
variable {F : Type} [AddCommMonoid F] [Mul F] [LinearOrder F]

theorem batch_val (e : DEnv F) (prim : ℕ → ℕ → F → QAM → ℕ → F) (hok : ListsOK e)
    (ab b abcd nb : ℕ) (hnb : nb ≤ nshellSimd e.len)
    (t : QAM) (ht : t ∈ e.tops) (idx : ℕ) :
    ∑ a ∈ range (e.P.nprim12 ab),
      primContrib e prim (fun s => e.Q.nprim12 (b * nshellSimd e.len + s)) nb abcd
        (paddedStart e.len e.Q.nprim12 (b * nshellSimd e.len))
        (tightStart e.P.nprim12 ab + a) t idx
      = if abcd * ncartQ t ≤ idx ∧ idx < (abcd + nb) * ncartQ t then
          contractedPair e prim ab (b * nshellSimd e.len + (idx / ncartQ t - abcd)) t (idx % ncartQ t)
        else 0 := by
  have hn := hok.ncart t ht
  unfold primContrib
  by_cases hin : abcd * ncartQ t ≤ idx ∧ idx < (abcd + nb) * ncartQ t
  · simp only [if_pos hin]
    have hs : idx / ncartQ t - abcd < nshellSimd e.len := by
      have := (Nat.div_lt_iff_lt_mul hn).2 hin.2
      have := (Nat.le_div_iff_mul_le hn).2 hin.1
      omega
    unfold contractedPair contracted
    rw [paddedStart_add _ _ _ _ hs]
  · simp only [if_neg hin, sum_const_zero]

/-- All batches of one bra shell: what `braPrims` delivers for batch `b`. -/
theorem batch_prims (e : DEnv F) (prim : ℕ → ℕ → F → QAM → ℕ → F) (hprim : LaneWise e prim)
    (hok : ListsOK e) (ab b abcd : ℕ) (hab : ab < e.P.nclip)
    (hb : b * nshellSimd e.len < e.Q.nclip)
    (hsize : ∀ t ∈ e.tops,
      (abcd + nshellBatch e.len e.Q.nclip (b * nshellSimd e.len)) * ncartQ t ≤ e.size t)
    (mem : QAM → ℕ → F) :
    braPrims e abcd (b * nshellSimd e.len) (nshellBatch e.len e.Q.nclip (b * nshellSimd e.len))
        (paddedStart e.len e.Q.nprim12 (b * nshellSimd e.len))
        (batchEnd e.Q.nprim12 (b * nshellSimd e.len)
          (nshellBatch e.len e.Q.nclip (b * nshellSimd e.len))
          (paddedStart e.len e.Q.nprim12 (b * nshellSimd e.len)))
        (tightStart e.P.nprim12 ab) (tightStart e.P.nprim12 ab + e.P.nprim12 ab) mem
      = some fun t => if t ∈ e.tops then fun idx => mem t idx +
          (if abcd * ncartQ t ≤ idx ∧
              idx < (abcd + nshellBatch e.len e.Q.nclip (b * nshellSimd e.len)) * ncartQ t then
            contractedPair e prim ab (b * nshellSimd e.len + (idx / ncartQ t - abcd)) t (idx % ncartQ t)
          else 0)
        else mem t := by
  obtain ⟨n1, n2, n3, n4⟩ := nshellBatch_spec hok.len hb
  set nb := nshellBatch e.len e.Q.nclip (b * nshellSimd e.len) with hnb
  set cd := b * nshellSimd e.len with hcd
  have hlast : paddedStart e.len e.Q.nprim12 cd + tightStart (fun s => e.Q.nprim12 (cd + s)) nb
      = paddedStart e.len e.Q.nprim12 (cd + (nb - 1)) + e.Q.nprim12 (cd + (nb - 1)) := by
    rw [hcd, paddedStart_add _ _ _ _ (by omega)]
    obtain ⟨m, hm⟩ : ∃ m, nb = m + 1 := ⟨nb - 1, by omega⟩
    rw [hm, tightStart_succ]
    simp only [Nat.add_sub_cancel]
    ring
  have hP : tightStart e.P.nprim12 ab + e.P.nprim12 ab ≤ e.P.alloc := by
    rw [← tightStart_succ]
    exact le_trans (tightStart_mono _ (by omega)) hok.bra
  rw [braPrims_eq e prim hprim hok.tops hok.ncart hok.len cd nb abcd _ _ _ _ n1 hP hsize
    (fun s => e.Q.nprim12 (cd + s)) rfl (fun s hs => hok.prims _ (by omega))
    (paddedStart_dvd _ _ _) (batchEnd_eq _ _ _ _)
    (by rw [batchEnd_eq, hlast]; exact hok.ket _ (by omega)) mem (by omega)]
  congr 1
  funext t
  by_cases ht : t ∈ e.tops
  · simp only [ht, if_true]
    funext idx
    congr 1
    rw [Nat.add_sub_cancel_left]
    exact batch_val e prim hok ab b abcd nb n2 t ht idx
  · simp only [ht, if_false]

end

section
variable {F : Type}

/-- `jstart` after batch `b` when another batch follows. -/
theorem jstart_next (e : DEnv F) (hlen : 0 < e.len) (b : ℕ)
    (hb : (b + 1) * nshellSimd e.len < e.Q.nclip) :
    simdRound e.len (batchEnd e.Q.nprim12 (b * nshellSimd e.len)
      (nshellBatch e.len e.Q.nclip (b * nshellSimd e.len))
      (paddedStart e.len e.Q.nprim12 (b * nshellSimd e.len)))
      = paddedStart e.len e.Q.nprim12 ((b + 1) * nshellSimd e.len) := by
  rw [Nat.succ_mul] at hb
  have : nshellBatch e.len e.Q.nclip (b * nshellSimd e.len) = nshellSimd e.len := by
    unfold nshellBatch; rw [if_neg (by omega)]
  rw [this, batchEnd_eq, paddedStart_next _ _ _ hlen]

/-- Number of quartets done after bra shells `< ab` and batches `< b`. -/
def doneCount (e : DEnv F) (ab b : ℕ) : ℕ := ab * e.Q.nclip + min (b * nshellSimd e.len) e.Q.nclip

theorem doneCount_step (e : DEnv F) (hlen : 0 < e.len) (ab b : ℕ)
    (hb : b * nshellSimd e.len < e.Q.nclip) :
    doneCount e ab b = ab * e.Q.nclip + b * nshellSimd e.len ∧
    doneCount e ab (b + 1)
      = doneCount e ab b + nshellBatch e.len e.Q.nclip (b * nshellSimd e.len) ∧
    doneCount e ab (b + 1) ≤ (ab + 1) * e.Q.nclip := by
  obtain ⟨n1, n2, n3, n4⟩ := nshellBatch_spec hlen hb
  unfold doneCount
  rw [Nat.succ_mul, Nat.succ_mul]
  omega

theorem doneCount_end (e : DEnv F) (hlen : 0 < e.len) (ab : ℕ) :
    doneCount e ab (nbatches e.len e.Q.nclip) = (ab + 1) * e.Q.nclip := by
  have : ¬ nbatches e.len e.Q.nclip < nbatches e.len e.Q.nclip := lt_irrefl _
  rw [lt_nbatches hlen] at this
  unfold doneCount
  rw [Nat.succ_mul]
  omega

theorem doneCount_zero (e : DEnv F) (ab : ℕ) : doneCount e ab 0 = ab * e.Q.nclip := by
  simp [doneCount]

/-! ## Without horizontal stage -/

/-- Output after `n` quartets: finished blocks, then the initial contents. -/
def outAfter (nf : ℕ) (val : ℕ → ℕ → F) (init : ℕ → F) (n : ℕ) : ℕ → F :=
  fun idx => if idx < n * nf then val (idx / nf) (idx % nf) else init idx

end

section
variable {F : Type} [AddCommMonoid F] [Mul F] [LinearOrder F]

theorem batchDirect_eq (e : DEnv F) (final : QAM) (prim : ℕ → ℕ → F → QAM → ℕ → F)
    (hprim : LaneWise e prim)
    (hok : ListsOK e) (htop : e.tops = [final])
    (hsize : e.P.nclip * e.Q.nclip * ncartQ final ≤ e.size final) (init : ℕ → F)
    (hinit : ∀ idx < e.P.nclip * e.Q.nclip * ncartQ final, init idx = 0)
    (ab b : ℕ) (hab : ab < e.P.nclip) (hb : b * nshellSimd e.len < e.Q.nclip)
    (st : DirectSt F) (h1 : st.abcd = doneCount e ab b)
    (h2 : st.jstart = paddedStart e.len e.Q.nprim12 (b * nshellSimd e.len))
    (h3 : st.mem final = outAfter (ncartQ final)
      (fun q c => contractedPair e prim (q / e.Q.nclip) (q % e.Q.nclip) final c) init
      (doneCount e ab b)) :
    ∃ st', batchDirect e (tightStart e.P.nprim12 ab) (tightStart e.P.nprim12 ab + e.P.nprim12 ab) st b
        = some st' ∧ st'.abcd = doneCount e ab (b + 1) ∧
      ((b + 1) * nshellSimd e.len < e.Q.nclip →
        st'.jstart = paddedStart e.len e.Q.nprim12 ((b + 1) * nshellSimd e.len)) ∧
      st'.mem final = outAfter (ncartQ final)
        (fun q c => contractedPair e prim (q / e.Q.nclip) (q % e.Q.nclip) final c) init
        (doneCount e ab (b + 1)) := by
  obtain ⟨d1, d2, d3⟩ := doneCount_step e hok.len ab b hb
  have hn := hok.ncart final (by simp [htop])
  have d4 : doneCount e ab (b + 1) ≤ e.P.nclip * e.Q.nclip :=
    d3.trans (Nat.mul_le_mul_right _ hab)
  have hsz : ∀ t ∈ e.tops,
      (st.abcd + nshellBatch e.len e.Q.nclip (b * nshellSimd e.len)) * ncartQ t ≤ e.size t := by
    intro t ht
    rw [htop, List.mem_singleton] at ht
    subst ht
    rw [h1, ← d2]
    exact le_trans (Nat.mul_le_mul_right _ d4) hsize
  unfold batchDirect
  simp only
  rw [h2, batch_prims e prim hprim hok ab b st.abcd hab hb hsz st.mem, Option.map_some]
  refine ⟨_, rfl, by simp only [h1, d2], fun hb' => jstart_next e hok.len b hb', ?_⟩
  simp only [htop, List.mem_singleton, if_true]
  funext idx
  rw [h3, h1, ← d2]
  unfold outAfter
  by_cases c1 : idx < doneCount e ab b * ncartQ final
  · have c2 : idx < doneCount e ab (b + 1) * ncartQ final :=
      lt_of_lt_of_le c1 (Nat.mul_le_mul_right _ (by omega))
    rw [if_pos c1, if_pos c2, if_neg (by omega), add_zero]
  · by_cases c2 : idx < doneCount e ab (b + 1) * ncartQ final
    · rw [if_neg c1, if_pos c2, if_pos ⟨by omega, c2⟩,
        hinit idx (lt_of_lt_of_le c2 (Nat.mul_le_mul_right _ d4)), zero_add]
      have hge : doneCount e ab b ≤ idx / ncartQ final := (Nat.le_div_iff_mul_le hn).2 (by omega)
      have hlt : idx / ncartQ final < doneCount e ab (b + 1) := (Nat.div_lt_iff_lt_mul hn).2 c2
      have hq : idx / ncartQ final = e.Q.nclip * ab +
          (b * nshellSimd e.len + (idx / ncartQ final - doneCount e ab b)) := by
        rw [Nat.mul_comm e.Q.nclip ab]; omega
      have hlt2 : b * nshellSimd e.len + (idx / ncartQ final - doneCount e ab b) < e.Q.nclip := by
        rw [Nat.succ_mul] at d3; omega
      have e1 : idx / ncartQ final / e.Q.nclip = ab := by
        rw [hq, Nat.mul_add_div (by omega), Nat.div_eq_of_lt hlt2, Nat.add_zero]
      have e2 : idx / ncartQ final % e.Q.nclip
          = b * nshellSimd e.len + (idx / ncartQ final - doneCount e ab b) := by
        conv_lhs => rw [hq]
        rw [Nat.mul_add_mod, Nat.mod_eq_of_lt hlt2]
      show _ = contractedPair e prim (idx / ncartQ final / e.Q.nclip)
        (idx / ncartQ final % e.Q.nclip) final (idx % ncartQ final)
      rw [e1, e2]
    · rw [if_neg c1, if_neg c2, if_neg (by omega), add_zero]

/-- Generic loop over batches: an invariant that each batch preserves. -/
theorem batches_inv {σ : Type} (N nclip nb : ℕ) (hlt : ∀ b, b < nb ↔ b * N < nclip)
    (f : σ → ℕ → Option σ) (Inv : ℕ → σ → Prop)
    (hstep : ∀ b st, b * N < nclip → Inv b st → ∃ st', f st b = some st' ∧ Inv (b + 1) st') :
    ∀ n ≤ nb, ∀ st, Inv 0 st → ∃ st', (List.range n).foldlM f st = some st' ∧ Inv n st' := by
  intro n
  induction n with
  | zero => intro _ st h; exact ⟨st, by simp, h⟩
  | succ n ih =>
    intro hn st h
    obtain ⟨st1, e1, h1⟩ := ih (by omega) st h
    obtain ⟨st2, e2, h2⟩ := hstep n st1 ((hlt n).1 (by omega)) h1
    exact ⟨st2, by rw [List.range_succ, foldlM_snoc, e1, Option.bind_some, e2], h2⟩

theorem range_inv {σ : Type} (f : σ → ℕ → Option σ) (Inv : ℕ → σ → Prop) (N : ℕ)
    (hstep : ∀ b st, b < N → Inv b st → ∃ st', f st b = some st' ∧ Inv (b + 1) st') :
    ∀ n ≤ N, ∀ st, Inv 0 st → ∃ st', (List.range n).foldlM f st = some st' ∧ Inv n st' :=
  batches_inv 1 N N (by simp) f Inv (by simpa using hstep)

theorem runDirect_eq (e : DEnv F) (final : QAM) (prim : ℕ → ℕ → F → QAM → ℕ → F)
    (hprim : LaneWise e prim) (hok : ListsOK e) (htop : e.tops = [final])
    (hsize : e.P.nclip * e.Q.nclip * ncartQ final ≤ e.size final) (out : ℕ → F) :
    runDirect e final out = some (e.P.nclip * e.Q.nclip, outAfter (ncartQ final)
      (fun q c => contractedPair e prim (q / e.Q.nclip) (q % e.Q.nclip) final c) out
      (e.P.nclip * e.Q.nclip)) := by
  unfold runDirect
  simp only
  rw [if_pos hsize]
  set init : ℕ → F := fun k => if k < e.P.nclip * e.Q.nclip * ncartQ final then 0 else out k with hi
  have hinit : ∀ idx < e.P.nclip * e.Q.nclip * ncartQ final, init idx = 0 := by
    intro idx h; rw [hi]; simp [h]
  have key := range_inv (bodyDirect e)
    (fun ab st => st.1 = tightStart e.P.nprim12 ab ∧ st.2.1 = ab * e.Q.nclip ∧
      st.2.2 final = outAfter (ncartQ final)
        (fun q c => contractedPair e prim (q / e.Q.nclip) (q % e.Q.nclip) final c) init
        (ab * e.Q.nclip)) e.P.nclip ?_ e.P.nclip le_rfl (0, 0, fun _ => init)
      ⟨by simp [tightStart], by simp, by funext idx; simp [outAfter]⟩
  · obtain ⟨st', hs, h1, h2, h3⟩ := key
    rw [hs, Option.map_some]
    congr 2
    rw [h3]
    funext idx
    unfold outAfter
    split
    · rfl
    · rename_i h
      rw [hi]; simp [h]
  · rintro ab ⟨i0, n0, m0⟩ hab ⟨h1, h2, h3⟩
    simp only at h1 h2 h3
    subst h1 h2
    have key := batches_inv (nshellSimd e.len) e.Q.nclip
      (nbatches e.len e.Q.nclip) (fun b => lt_nbatches hok.len)
      (batchDirect e (tightStart e.P.nprim12 ab) (tightStart e.P.nprim12 ab + e.P.nprim12 ab))
      (fun b st => st.abcd = doneCount e ab b ∧
        (b * nshellSimd e.len < e.Q.nclip →
          st.jstart = paddedStart e.len e.Q.nprim12 (b * nshellSimd e.len)) ∧
        st.mem final = outAfter (ncartQ final)
          (fun q c => contractedPair e prim (q / e.Q.nclip) (q % e.Q.nclip) final c) init
          (doneCount e ab b)) ?_ (nbatches e.len e.Q.nclip) le_rfl
        ⟨ab * e.Q.nclip, 0, m0⟩ ⟨(doneCount_zero e ab).symm, fun _ => by simp [paddedStart],
          by rw [doneCount_zero]; exact h3⟩
    · obtain ⟨st', hs, g1, g2, g3⟩ := key
      refine ⟨_, by unfold bodyDirect; simp only; rw [hs, Option.map_some], ?_, ?_, ?_⟩
      · simp only; rw [tightStart_succ]
      · simp only; rw [g1, doneCount_end e hok.len]
      · simp only; rw [g3, doneCount_end e hok.len]
    · rintro b st hb ⟨k1, k2, k3⟩
      exact batchDirect_eq e final prim hprim hok htop hsize init hinit ab b hab hb st k1 (k2 hb) k3

end

/-! ## With horizontal stage -/

section
variable {F : Type} [Add F] [Zero F] [Mul F] [LinearOrder F]

theorem HrrOK.on {e : DEnv F} {h : HEnv F} {final : QAM} {hspec : ℕ → ℕ → (QAM → ℕ → F) → ℕ → F}
    (hh : HrrOK e h final hspec) (X : ℕ → ℕ → QAM → ℕ → F) :
    HrrOn e h final X (fun ab cd => hspec ab cd (X ab cd)) :=
  fun ab _ cd _ view hv => hh ab cd view (X ab cd) hv

theorem hrrOne_eq (e : DEnv F) (h : HEnv F) (final : QAM)
    (X : ℕ → ℕ → QAM → ℕ → F) (res : ℕ → ℕ → ℕ → F) (hh : HrrOn e h final X res)
    (ab cd : ℕ) (st : HSt F) (s : ℕ) (hab : ab < e.P.nclip) (hcd : cd + s < e.Q.nclip)
    (hX : ∀ t ∈ e.tops, ∀ i < ncartQ t, st.mem t (s * ncartQ t + i) = X ab (cd + s) t i)
    (hout : (st.realAbcd + 1) * h.blk ≤ h.outSize) :
    ∃ st', hrrOne e h final ab cd st s = some st' ∧ st'.realAbcd = st.realAbcd + 1 ∧
      st'.jstart = st.jstart ∧ st'.mem = st.mem ∧
      st'.out = fun k => if st.realAbcd * h.blk ≤ k ∧
        k < st.realAbcd * h.blk + h.blk then
          res ab (cd + s) (k - st.realAbcd * h.blk) else st.out k := by
  unfold hrrOne
  simp only
  rw [if_pos hout]
  obtain ⟨m, hm, hc⟩ := hh ab hab (cd + s) hcd (fun q i =>
      if q ∈ e.tops then st.mem q (s * ncartQ q + i)
      else if q = final then st.out (st.realAbcd * h.blk + i)
      else st.hmem q i) (by intro t ht i hi; simp only [ht, if_true]; exact hX t ht i hi)
  rw [hm, Option.map_some]
  refine ⟨_, rfl, rfl, rfl, rfl, ?_⟩
  funext k
  by_cases hk : st.realAbcd * h.blk ≤ k ∧ k < st.realAbcd * h.blk + h.blk
  · simp only [hk, and_self, if_true]
    exact hc _ (by omega)
  · simp only [if_neg hk]

theorem outAfter_succ (nf : ℕ) (hn : 0 < nf) (val : ℕ → ℕ → F) (init : ℕ → F) (n : ℕ) :
    (fun k => if n * nf ≤ k ∧ k < n * nf + nf then val n (k - n * nf)
      else outAfter nf val init n k) = outAfter nf val init (n + 1) := by
  funext k
  unfold outAfter
  rw [Nat.succ_mul]
  by_cases h1 : k < n * nf
  · rw [if_neg (by omega), if_pos h1, if_pos (by omega)]
  · by_cases h2 : k < n * nf + nf
    · rw [if_pos ⟨by omega, h2⟩, if_pos h2]
      have e : k = nf * n + (k - n * nf) := by rw [Nat.mul_comm nf n]; omega
      have e1 : k / nf = n := by
        rw [e, Nat.mul_add_div hn, Nat.div_eq_of_lt (by omega), Nat.add_zero]
      have e2 : k % nf = k - n * nf := by
        conv_lhs => rw [e]
        rw [Nat.mul_add_mod, Nat.mod_eq_of_lt (by omega)]
      rw [e1, e2]
    · rw [if_neg (by omega), if_neg h1, if_neg h2]

/-- Final value of a component of the quartet with number `q`. -/
def finalVal (e : DEnv F) (res : ℕ → ℕ → ℕ → F) (q c : ℕ) : F :=
  res (q / e.Q.nclip) (q % e.Q.nclip) c

/-- What the horizontal stage finds: for each batch of ket shells the loops over primitives leave `X` in
the batch arrays. -/
def BatchOn (e : DEnv F) (X : ℕ → ℕ → QAM → ℕ → F) : Prop :=
  ∀ ab < e.P.nclip, ∀ b, b * nshellSimd e.len < e.Q.nclip → ∃ mem,
    braPrims e 0 (b * nshellSimd e.len) (nshellBatch e.len e.Q.nclip (b * nshellSimd e.len))
        (paddedStart e.len e.Q.nprim12 (b * nshellSimd e.len))
        (batchEnd e.Q.nprim12 (b * nshellSimd e.len)
          (nshellBatch e.len e.Q.nclip (b * nshellSimd e.len))
          (paddedStart e.len e.Q.nprim12 (b * nshellSimd e.len)))
        (tightStart e.P.nprim12 ab) (tightStart e.P.nprim12 ab + e.P.nprim12 ab) (fun _ _ => 0) = some mem ∧
      ∀ t ∈ e.tops, ∀ s < nshellBatch e.len e.Q.nclip (b * nshellSimd e.len), ∀ i < ncartQ t,
        mem t (s * ncartQ t + i) = X ab (b * nshellSimd e.len + s) t i

theorem batchHrr_eq (e : DEnv F) (h : HEnv F) (final : QAM) (hfin : 0 < h.blk)
    (X : ℕ → ℕ → QAM → ℕ → F) (hX : BatchOn e X)
    (res : ℕ → ℕ → ℕ → F) (hh : HrrOn e h final X res) (hok : ListsOK e)
    (hout : e.P.nclip * e.Q.nclip * h.blk ≤ h.outSize) (init : ℕ → F)
    (ab b : ℕ) (hab : ab < e.P.nclip) (hb : b * nshellSimd e.len < e.Q.nclip)
    (st : HSt F) (h1 : st.realAbcd = doneCount e ab b)
    (h2 : st.jstart = paddedStart e.len e.Q.nprim12 (b * nshellSimd e.len))
    (h3 : st.out = outAfter (h.blk) (finalVal e res) init (doneCount e ab b)) :
    ∃ st', batchHrr e h final ab (tightStart e.P.nprim12 ab)
        (tightStart e.P.nprim12 ab + e.P.nprim12 ab) st b = some st' ∧
      st'.realAbcd = doneCount e ab (b + 1) ∧
      ((b + 1) * nshellSimd e.len < e.Q.nclip →
        st'.jstart = paddedStart e.len e.Q.nprim12 ((b + 1) * nshellSimd e.len)) ∧
      st'.out = outAfter (h.blk) (finalVal e res) init (doneCount e ab (b + 1)) := by
  obtain ⟨d1, d2, d3⟩ := doneCount_step e hok.len ab b hb
  obtain ⟨n1, n2, n3, n4⟩ := nshellBatch_spec hok.len hb
  have d4 : doneCount e ab (b + 1) ≤ e.P.nclip * e.Q.nclip :=
    d3.trans (Nat.mul_le_mul_right _ hab)
  unfold batchHrr
  simp only
  obtain ⟨mem1, hm1, hmv⟩ := hX ab hab b hb
  rw [h2, hm1, Option.bind_some]
  set nb := nshellBatch e.len e.Q.nclip (b * nshellSimd e.len) with hnb
  have key := range_inv
    (hrrOne e h final ab (b * nshellSimd e.len))
    (fun s (x : HSt F) => x.realAbcd = doneCount e ab b + s ∧ x.mem = mem1 ∧
      x.jstart = simdRound e.len (batchEnd e.Q.nprim12 (b * nshellSimd e.len) nb
        (paddedStart e.len e.Q.nprim12 (b * nshellSimd e.len))) ∧
      x.out = outAfter (h.blk) (finalVal e res) init (doneCount e ab b + s)) nb ?_ nb
      le_rfl { st with
        jstart := simdRound e.len (batchEnd e.Q.nprim12 (b * nshellSimd e.len) nb
          (paddedStart e.len e.Q.nprim12 (b * nshellSimd e.len))), mem := mem1 }
      ⟨h1, rfl, rfl, h3⟩
  · obtain ⟨st', hs, g1, g2, g3, g4⟩ := key
    refine ⟨st', hs, by rw [g1, d2], fun hb' => ?_, by rw [g4, d2]⟩
    rw [g3]
    exact jstart_next e hok.len b hb'
  · rintro s x hs ⟨k1, k2, k3, k4⟩
    have hlt : doneCount e ab b + s < (ab + 1) * e.Q.nclip := by omega
    have hlt' : b * nshellSimd e.len + s < e.Q.nclip := by omega
    have hq : doneCount e ab b + s = e.Q.nclip * ab + (b * nshellSimd e.len + s) := by
      rw [Nat.mul_comm e.Q.nclip ab]; omega
    have e1 : (doneCount e ab b + s) / e.Q.nclip = ab := by
      rw [hq, Nat.mul_add_div (by omega), Nat.div_eq_of_lt hlt', Nat.add_zero]
    have e2 : (doneCount e ab b + s) % e.Q.nclip = b * nshellSimd e.len + s := by
      rw [hq, Nat.mul_add_mod, Nat.mod_eq_of_lt hlt']
    obtain ⟨x', hx, m1, m2, m3, m4⟩ := hrrOne_eq e h final X res hh ab
      (b * nshellSimd e.len) x s hab hlt'
      (by intro t ht i hi; rw [k2]; exact hmv t ht s hs i hi)
      (by rw [k1]; exact le_trans (Nat.mul_le_mul_right _ (by omega)) hout)
    refine ⟨x', hx, by rw [m1, k1]; omega, by rw [m3, k2], by rw [m2, k3], ?_⟩
    rw [m4, k4, k1, ← Nat.add_assoc, ← outAfter_succ _ hfin]
    funext k
    simp only [finalVal, e1, e2]

theorem runHrr_on (e : DEnv F) (h : HEnv F) (final : QAM) (hfin : 0 < h.blk)
    (X : ℕ → ℕ → QAM → ℕ → F) (hX : BatchOn e X)
    (res : ℕ → ℕ → ℕ → F) (hh : HrrOn e h final X res) (hok : ListsOK e)
    (hout : e.P.nclip * e.Q.nclip * h.blk ≤ h.outSize) (hmem : HMem F) (out : ℕ → F) :
    runHrr e h final hmem out = some (e.P.nclip * e.Q.nclip,
      outAfter (h.blk) (finalVal e res) out (e.P.nclip * e.Q.nclip)) := by
  unfold runHrr
  have key := range_inv (bodyHrr e h final)
    (fun ab (st : ℕ × HSt F) => st.1 = tightStart e.P.nprim12 ab ∧ st.2.realAbcd = ab * e.Q.nclip ∧
      st.2.out = outAfter (h.blk) (finalVal e res) out (ab * e.Q.nclip))
      e.P.nclip ?_ e.P.nclip le_rfl (0, ⟨0, 0, fun _ _ => 0, hmem, out⟩)
      ⟨by simp [tightStart], by simp, by funext idx; simp [outAfter]⟩
  · obtain ⟨st', hs, h1, h2, h3⟩ := key
    rw [hs, Option.map_some, h3]
  · rintro ab ⟨i0, x⟩ hab ⟨h1, h2, h3⟩
    simp only at h1 h2 h3
    subst h1
    have key := batches_inv (nshellSimd e.len) e.Q.nclip
      (nbatches e.len e.Q.nclip) (fun b => lt_nbatches hok.len)
      (batchHrr e h final ab (tightStart e.P.nprim12 ab) (tightStart e.P.nprim12 ab + e.P.nprim12 ab))
      (fun b st => st.realAbcd = doneCount e ab b ∧
        (b * nshellSimd e.len < e.Q.nclip →
          st.jstart = paddedStart e.len e.Q.nprim12 (b * nshellSimd e.len)) ∧
        st.out = outAfter (h.blk) (finalVal e res) out (doneCount e ab b))
      ?_ (nbatches e.len e.Q.nclip) le_rfl { x with jstart := 0 }
        ⟨by rw [doneCount_zero]; exact h2, fun _ => by simp [paddedStart],
          by rw [doneCount_zero]; exact h3⟩
    · obtain ⟨st', hs, g1, g2, g3⟩ := key
      refine ⟨_, by unfold bodyHrr; simp only; rw [hs, Option.map_some], ?_, ?_, ?_⟩
      · simp only; rw [tightStart_succ]
      · simp only; rw [g1, doneCount_end e hok.len]
      · simp only; rw [g3, doneCount_end e hok.len]
    · rintro b st hb ⟨k1, k2, k3⟩
      exact batchHrr_eq e h final hfin X hX res hh hok hout out ab b hab hb st k1
        (k2 hb) k3

/-- Result of the function with a horizontal stage, quartet by quartet. -/
theorem runHrr_some (e : DEnv F) (h : HEnv F) (final : QAM) (hfin : 0 < h.blk)
    (X : ℕ → ℕ → QAM → ℕ → F) (hX : BatchOn e X)
    (res : ℕ → ℕ → ℕ → F) (hh : HrrOn e h final X res) (hok : ListsOK e)
    (hout : e.P.nclip * e.Q.nclip * h.blk ≤ h.outSize) (hmem : HMem F) (out : ℕ → F) :
    ∃ o, runHrr e h final hmem out = some (e.P.nclip * e.Q.nclip, o) ∧
      (∀ ab < e.P.nclip, ∀ cd < e.Q.nclip, ∀ c < h.blk,
        o ((ab * e.Q.nclip + cd) * h.blk + c) = res ab cd c) ∧
      ∀ k, e.P.nclip * e.Q.nclip * h.blk ≤ k → o k = out k := by
  refine ⟨_, runHrr_on e h final hfin X hX res hh hok hout hmem out, ?_, ?_⟩
  · intro ab hab cd hcd c hc
    have hq : ab * e.Q.nclip + cd < e.P.nclip * e.Q.nclip := by
      have : (ab + 1) * e.Q.nclip ≤ e.P.nclip * e.Q.nclip := Nat.mul_le_mul_right _ hab
      rw [Nat.succ_mul] at this; omega
    have hlt : (ab * e.Q.nclip + cd) * h.blk + c < e.P.nclip * e.Q.nclip * h.blk := by
      have : (ab * e.Q.nclip + cd + 1) * h.blk ≤ e.P.nclip * e.Q.nclip * h.blk :=
        Nat.mul_le_mul_right _ hq
      rw [Nat.succ_mul] at this; omega
    have e1 : ((ab * e.Q.nclip + cd) * h.blk + c) / h.blk = ab * e.Q.nclip + cd := by
      rw [Nat.mul_comm, Nat.mul_add_div (by omega), Nat.div_eq_of_lt hc, Nat.add_zero]
    have e2 : ((ab * e.Q.nclip + cd) * h.blk + c) % h.blk = c := by
      rw [Nat.mul_comm, Nat.mul_add_mod, Nat.mod_eq_of_lt hc]
    have e3 : (ab * e.Q.nclip + cd) / e.Q.nclip = ab := by
      rw [Nat.mul_comm, Nat.mul_add_div (by omega), Nat.div_eq_of_lt hcd, Nat.add_zero]
    have e4 : (ab * e.Q.nclip + cd) % e.Q.nclip = cd := by
      rw [Nat.mul_comm, Nat.mul_add_mod, Nat.mod_eq_of_lt hcd]
    unfold outAfter
    rw [if_pos hlt, e1, e2]
    simp only [finalVal, e3, e4]
  · intro k hk
    unfold outAfter
    rw [if_neg (by omega)]

end

section
variable {F : Type} [AddCommMonoid F] [Mul F] [LinearOrder F]

/-- The loops over primitives put the contracted values into the batch arrays. -/
theorem batch_on (e : DEnv F) (prim : ℕ → ℕ → F → QAM → ℕ → F) (hprim : LaneWise e prim) (hok : ListsOK e)
    (hsize : ∀ t ∈ e.tops, nshellSimd e.len * ncartQ t ≤ e.size t) :
    BatchOn e (contractedPair e prim) := by
  intro ab hab b hb
  obtain ⟨n1, n2, n3, n4⟩ := nshellBatch_spec hok.len hb
  refine ⟨_, batch_prims e prim hprim hok ab b 0 hab hb
    (fun t ht => by rw [Nat.zero_add]; exact le_trans (Nat.mul_le_mul_right _ n2) (hsize t ht)) _, ?_⟩
  set nb := nshellBatch e.len e.Q.nclip (b * nshellSimd e.len) with hnb
  intro t ht s hs i hi
  have hlt : s * ncartQ t + i < (0 + nb) * ncartQ t := by
    rw [Nat.zero_add]
    exact lt_of_lt_of_le (by omega : _ < s * ncartQ t + ncartQ t)
      (by rw [← Nat.succ_mul]; exact Nat.mul_le_mul_right _ hs)
  simp only [ht, if_true]
  rw [if_pos ⟨by omega, hlt⟩, zero_add, Nat.sub_zero]
  have e1 : (s * ncartQ t + i) / ncartQ t = s := by
    rw [Nat.mul_comm, Nat.mul_add_div (by omega), Nat.div_eq_of_lt hi, Nat.add_zero]
  have e2 : (s * ncartQ t + i) % ncartQ t = i := by
    rw [Nat.mul_comm, Nat.mul_add_mod, Nat.mod_eq_of_lt hi]
  rw [e1, e2]

theorem runHrr_eq (e : DEnv F) (h : HEnv F) (final : QAM) (hfin : 0 < h.blk)
    (prim : ℕ → ℕ → F → QAM → ℕ → F) (hprim : LaneWise e prim)
    (res : ℕ → ℕ → ℕ → F) (hh : HrrOn e h final (contractedPair e prim) res) (hok : ListsOK e)
    (hsize : ∀ t ∈ e.tops, nshellSimd e.len * ncartQ t ≤ e.size t)
    (hout : e.P.nclip * e.Q.nclip * h.blk ≤ h.outSize) (hmem : HMem F) (out : ℕ → F) :
    runHrr e h final hmem out = some (e.P.nclip * e.Q.nclip,
      outAfter (h.blk) (finalVal e res) out (e.P.nclip * e.Q.nclip)) :=
  runHrr_on e h final hfin _ (batch_on e prim hprim hok hsize) res hh hok hout hmem out

end

end Simint
