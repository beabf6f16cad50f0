import Verif.IntArith
import Verif.AlignLemmas

/-! Lemmas about the `int` values of a call. -/

set_option autoImplicit false

namespace Simint.IntArith

open Simint Simint.Align

/-- All values of a list are below a bound. -/
def Below (M : ℕ) (l : List ℕ) : Prop := ∀ x ∈ l, x < M

theorem below_nil (M : ℕ) : Below M [] := fun _ h => absurd h List.not_mem_nil

theorem below_append {M : ℕ} {a b : List ℕ} : Below M (a ++ b) ↔ Below M a ∧ Below M b := by
  unfold Below
  simp only [List.mem_append]
  exact ⟨fun h => ⟨fun x hx => h x (Or.inl hx), fun x hx => h x (Or.inr hx)⟩,
    fun h x hx => hx.elim (h.1 x) (h.2 x)⟩

theorem below_cons {M a : ℕ} {b : List ℕ} : Below M (a :: b) ↔ a < M ∧ Below M b := by
  unfold Below
  simp

theorem below_flatMap {α : Type} {M : ℕ} {l : List α} {f : α → List ℕ}
    (h : ∀ a ∈ l, Below M (f a)) : Below M (l.flatMap f) := by
  intro x hx
  obtain ⟨a, ha, hx⟩ := List.mem_flatMap.1 hx
  exact h a ha x hx

theorem below_map {α : Type} {M : ℕ} {l : List α} {f : α → ℕ}
    (h : ∀ a ∈ l, f a < M) : Below M (l.map f) := by
  intro x hx
  obtain ⟨a, ha, rfl⟩ := List.mem_map.1 hx
  exact h a ha

/-! ## Lanes -/

/-- What holds before each lane. -/
structure LInv (ns : ℕ → ℕ) (nb : ℕ) (s : OffSt) : Prop where
  icd : s.icd < nb
  nprim : s.nprim = tightStart ns (s.icd + 1)
  last : s.last ≤ s.icd
  offs : s.offs.getLastD 0 ≤ s.last

theorem LInv.step {nprim12 : ℕ → ℕ} {cd nb : ℕ} {s : OffSt}
    (h : LInv (fun i => nprim12 (cd + i)) nb s) :
    LInv (fun i => nprim12 (cd + i)) nb (offStep nprim12 cd nb s) ∧
      (offStep nprim12 cd nb s).iprim = s.iprim + 1 := by
  obtain ⟨h1, h2, h3, h4⟩ := h
  unfold offStep
  split
  · rename_i hc
    refine ⟨⟨hc.2, ?_, ?_, ?_⟩, rfl⟩
    · simp only
      rw [h2, ← tightStart_succ (fun i => nprim12 (cd + i))]
    · simp only; omega
    · simp only [List.getLastD_concat]; omega
  · refine ⟨⟨h1, h2, h3, ?_⟩, rfl⟩
    simp only [List.getLastD_concat]; exact h4

theorem lanesInts_below {M : ℕ} {nprim12 : ℕ → ℕ} {cd nb : ℕ} (hnb : cd + nb < M)
    (hT : tightStart (fun i => nprim12 (cd + i)) nb < M) (m : ℕ) (s : OffSt)
    (h : LInv (fun i => nprim12 (cd + i)) nb s) (hi : s.iprim + m < M) :
    Below M (lanesInts nprim12 cd nb m s) := by
  induction m generalizing s with
  | zero => exact below_nil M
  | succ m ih =>
    obtain ⟨k1, k2⟩ := h.step
    obtain ⟨h1, h2, h3, h4⟩ := h
    rw [lanesInts, below_append]
    refine ⟨?_, ih _ k1 (by omega)⟩
    unfold laneInts
    rw [below_append, below_cons, below_cons]
    refine ⟨⟨by omega, by omega, below_nil M⟩, ?_⟩
    split
    · rename_i hc
      have hm := tightStart_mono (fun i => nprim12 (cd + i)) (show s.icd + 1 + 1 ≤ nb from hc.2)
      rw [tightStart_succ, ← h2] at hm
      simp only [below_cons]
      exact ⟨by omega, by omega, by omega, by omega, below_nil M⟩
    · exact below_nil M

theorem offsetInts_below {M len : ℕ} {nprim12 : ℕ → ℕ} {cd nb icd iprim nprim : ℕ}
    (hl : 0 < len) (hnb : cd + nb < M) (hT : tightStart (fun i => nprim12 (cd + i)) nb < M)
    (hicd : icd < nb) (hnp : nprim = tightStart (fun i => nprim12 (cd + i)) (icd + 1))
    (hi : iprim + len < M) : Below M (offsetInts len nprim12 cd nb icd iprim nprim) := by
  unfold offsetInts
  rw [below_cons]
  refine ⟨hi, ?_⟩
  split
  · simp only [below_append, below_cons]
    refine ⟨⟨⟨by omega, by omega, below_nil M⟩, ?_⟩, ?_⟩
    · split
      · rename_i hc
        have hc' := of_decide_eq_true hc
        have hm := tightStart_mono (fun i => nprim12 (cd + i)) (show icd + 1 + 1 ≤ nb from hc'.2)
        rw [tightStart_succ, ← hnp] at hm
        simp only [below_cons]
        exact ⟨by omega, by omega, below_nil M⟩
      · exact below_nil M
    · refine lanesInts_below hnb hT _ _ ?_ ?_
      · split
        · rename_i hc
          have hc' := of_decide_eq_true hc
          refine ⟨hc'.2, ?_, Nat.zero_le _, Nat.le_refl _⟩
          simp only
          rw [hnp, ← tightStart_succ (fun i => nprim12 (cd + i))]
        · exact ⟨hicd, hnp, Nat.zero_le _, Nat.le_refl _⟩
      · split <;> simp only <;> omega
  · exact below_nil M

section
variable {F : Type} [CommRing F] [LinearOrder F]

/-! ## Vectors and primitives of the bra -/

/-- State before vector `v`. -/
theorem vec_state {e : DEnv F} (hl : 0 < e.len) (cd nb jend i jstart : ℕ) (hnb : 0 < nb) (v : ℕ) :
    ∃ l, (List.range v).foldl (fun st v => vecStepInts e cd nb jend i st (jstart + v * e.len))
      ⟨0, 0, e.Q.nprim12 cd, []⟩ =
      ⟨before (fun i => e.Q.nprim12 (cd + i)) nb (v * e.len), v * e.len,
        tightStart (fun i => e.Q.nprim12 (cd + i))
          (before (fun i => e.Q.nprim12 (cd + i)) nb (v * e.len) + 1), l⟩ := by
  induction v with
  | zero =>
    refine ⟨[], ?_⟩
    simp only [List.range_zero, List.foldl_nil, Nat.zero_mul, before]
    rw [tightStart_succ]
    simp [tightStart]
  | succ v ih =>
    obtain ⟨l, h⟩ := ih
    rw [List.range_succ, List.foldl_append, h, List.foldl_cons, List.foldl_nil]
    have k := shellOffsets_eq hl e.Q.nprim12 cd nb (v * e.len) _ rfl
    simp only at k
    obtain ⟨-, -, -, k1, k2, k3, -⟩ := k
    refine ⟨l ++ vecInts e cd nb jend i (before (fun i => e.Q.nprim12 (cd + i)) nb (v * e.len))
      (v * e.len) (tightStart (fun i => e.Q.nprim12 (cd + i))
          (before (fun i => e.Q.nprim12 (cd + i)) nb (v * e.len) + 1)) (jstart + v * e.len), ?_⟩
    unfold vecStepInts
    simp only
    rw [k1, k2, k3, Nat.succ_mul]

theorem vecInts_below {M : ℕ} {e : DEnv F} (hl : 0 < e.len) {cd nb jend i j k : ℕ}
    (hnb : 0 < nb) (hcd : cd + nb < M)
    (hT : tightStart (fun i => e.Q.nprim12 (cd + i)) nb < M) (hjend : jend < M) (hj : j + e.len < M)
    (hk : k + e.len < M) (htop : ∀ t ∈ e.tops, nb * ncartQ t < M) :
    Below M (vecInts e cd nb jend i (before (fun i => e.Q.nprim12 (cd + i)) nb k) k
      (tightStart (fun i => e.Q.nprim12 (cd + i))
          (before (fun i => e.Q.nprim12 (cd + i)) nb k + 1)) j) := by
  have q := shellOffsets_eq hl e.Q.nprim12 cd nb k _ rfl
  simp only at q
  obtain ⟨q1, q2, -⟩ := q
  have ho : ∀ n, owner (fun i => e.Q.nprim12 (cd + i)) nb n < nb := owner_lt _ hnb
  have hlast : ∀ t ∈ e.tops, ∀ c, c < nb → c * ncartQ t < M := fun t ht c hc =>
    Nat.lt_of_le_of_lt (Nat.mul_le_mul_right _ hc.le) (htop t ht)
  unfold vecInts
  simp only [below_append]
  refine ⟨⟨⟨below_cons.2 ⟨hj, below_nil M⟩, ?_⟩, ?_⟩, ?_⟩
  · split
    · exact below_nil M
    · exact below_cons.2 ⟨by omega, below_nil M⟩
  · exact offsetInts_below hl hcd hT (before_lt _ hnb _) rfl hk
  · rw [q2]
    have h2 : owner (fun i => e.Q.nprim12 (cd + i)) nb (k + (e.len - 1))
        - owner (fun i => e.Q.nprim12 (cd + i)) nb k < nb := by
      have := ho (k + (e.len - 1)); omega
    split
    · exact below_map fun t ht => hlast t ht _ h2
    · split
      · exact below_nil M
      · refine below_flatMap fun t ht => below_append.2 ⟨below_map fun n hn => ?_,
          below_cons.2 ⟨hlast t ht _ h2, below_nil M⟩⟩
        rw [q1 n (List.mem_range.1 hn)]
        have := ho (k + n)
        exact hlast t ht _ (by omega)

theorem braInts_below {M : ℕ} {e : DEnv F} (hl : 0 < e.len) {abcd cd nb jstart jend i n : ℕ}
    (hi : i + 1 < M) (hnb : 0 < nb) (hcd : cd + nb < M)
    (hjend : jend = jstart + tightStart (fun i => e.Q.nprim12 (cd + i)) nb)
    (hjs : e.len ∣ jstart) (hn : e.len ∣ n) (hle : jend ≤ n) (hnM : n < M)
    (htop : ∀ t ∈ e.tops, nb * ncartQ t < M) (habcd : ∀ t ∈ e.tops, abcd * ncartQ t < M) :
    Below M (braInts e abcd cd nb jstart jend i) := by
  unfold braInts
  rw [below_cons]
  refine ⟨hi, ?_⟩
  split
  · exact below_nil M
  rw [below_append]
  refine ⟨below_map habcd, ?_⟩
  suffices h : ∀ v ≤ nvec e.len jstart jend, Below M ((List.range v).foldl
      (fun st v => vecStepInts e cd nb jend i st (jstart + v * e.len))
      ⟨0, 0, e.Q.nprim12 cd, []⟩).ints from h _ le_rfl
  intro v
  induction v with
  | zero => exact fun _ => below_nil M
  | succ v ih =>
    intro hv
    obtain ⟨l, hst⟩ := vec_state (e := e) hl cd nb jend i jstart hnb v
    have ih' := ih (by omega)
    rw [List.range_succ, List.foldl_append, List.foldl_cons, List.foldl_nil]
    rw [hst] at ih' ⊢
    have hj := vec_le hl hjs hn hle (show v < nvec e.len jstart jend by omega)
    exact below_append.2 ⟨ih', vecInts_below hl hnb hcd (by omega) (by omega) (by omega) (by omega)
      htop⟩

/-! ## Batches -/

/-- Numbers that have to be representable apart from those of the result: `ns` are the numbers of
primitives of the ket pairs. -/
structure Fits (M : ℕ) (e : DEnv F) (ns : List ℕ) : Prop where
  slots : countPrims e.len ns + e.len ≤ M
  pairs : e.Q.nclip + nshellSimd e.len ≤ M
  bra : tightStart e.P.nprim12 e.P.nclip < M
  braPairs : e.P.nclip < M
  tops : ∀ t ∈ e.tops, nshellSimd e.len * ncartQ t < M

theorem batchEnd_mono (np : ℕ → ℕ) (cd js : ℕ) {a b : ℕ} (h : a ≤ b) :
    batchEnd np cd a js ≤ batchEnd np cd b js := by
  rw [batchEnd_eq, batchEnd_eq]
  exact Nat.add_le_add_left (tightStart_mono _ h) _

/-- The part of a batch that does not depend on the kind of the function. -/
theorem batch_common {M : ℕ} {e : DEnv F} (hl : 0 < e.len) {ns : List ℕ} (hf : Fits M e ns)
    (hnp : ∀ i < ns.length, e.Q.nprim12 i = npOf ns i) (hc : e.Q.nclip ≤ ns.length)
    {is ie b : ℕ} (hie : ie < M) (hb : b < nbatches e.len e.Q.nclip) (h : Option HCfg) (cnt : ℕ)
    (hcnt : h = none → ∀ t ∈ e.tops, cnt * ncartQ t < M)
    (hbc : ∀ g, h = some g → nshellSimd e.len * g.bcont < M)
    (hdir : h = none → cnt + nshellBatch e.len e.Q.nclip (b * nshellSimd e.len) < M)
    (hhrr : ∀ g, h = some g → ∀ abcd < nshellBatch e.len e.Q.nclip (b * nshellSimd e.len),
      (cnt + abcd) * g.ncart < M ∧ (g.deriv = true → (cnt + abcd) * g.ncart * 12 < M) ∧
      cnt + abcd + 1 < M) :
    Below M (batchInts e h is ie cnt (paddedStart e.len (npOf ns) (b * nshellSimd e.len)) b) := by
  have hbc' : b * nshellSimd e.len < e.Q.nclip := (lt_nbatches hl).1 hb
  obtain ⟨n1, n2, n3, -⟩ := nshellBatch_spec hl hbc'
  have hpairs := hf.pairs
  have hslots := hf.slots
  have hjs := paddedStart_dvd e.len (npOf ns) b
  set js := paddedStart e.len (npOf ns) (b * nshellSimd e.len) with hjsdef
  set cd := b * nshellSimd e.len with hcddef
  set nb := nshellBatch e.len e.Q.nclip cd with hnbdef
  have hts : tightStart (fun i => e.Q.nprim12 (cd + i)) nb
      = tightStart (fun s => npOf ns (cd + s)) nb :=
    tightStart_congr fun i hi => hnp _ (by omega)
  have hend : batchEnd e.Q.nprim12 cd nb js ≤ countPrims e.len ns := by
    rw [batchEnd_eq, hts]
    exact batch_le hl ns hc hbc'
  have htop : ∀ t ∈ e.tops, ∀ c ≤ nb, c * ncartQ t < M := fun t ht c hc =>
    Nat.lt_of_le_of_lt (Nat.mul_le_mul_right _ (by omega)) (hf.tops t ht)
  unfold batchInts
  simp only [← hcddef, ← hnbdef, below_append]
  refine ⟨⟨⟨⟨⟨⟨below_cons.2 ⟨by omega, below_nil M⟩, ?_⟩, ?_⟩, ?_⟩, ?_⟩,
    below_cons.2 ⟨by omega, below_nil M⟩⟩, ?_⟩
  · split
    · exact below_cons.2 ⟨by omega, below_nil M⟩
    · exact below_nil M
  · refine below_flatMap fun i hi => ?_
    have hi := List.mem_range.1 hi
    have := batchEnd_mono e.Q.nprim12 cd js (show i + 1 ≤ nb from hi)
    simp only [below_cons]
    exact ⟨by omega, by omega, by omega, below_nil M⟩
  · cases h with
    | none => exact below_nil M
    | some g => exact below_cons.2 ⟨hbc g rfl, below_nil M⟩
  · refine below_flatMap fun i hi => ?_
    rw [List.mem_range'_1] at hi
    refine braInts_below hl (by omega) n1 (by omega) (batchEnd_eq _ _ _ _) hjs
      (countPrims_dvd hl ns) hend (by omega) (fun t ht => htop t ht _ le_rfl) ?_
    cases h with
    | none => exact hcnt rfl
    | some g => intro t ht; simp only [Nat.zero_mul]; omega
  · cases h with
    | none => exact below_cons.2 ⟨hdir rfl, below_nil M⟩
    | some g =>
      refine below_flatMap fun abcd ha => ?_
      have ha := List.mem_range.1 ha
      obtain ⟨m1, m2, m3⟩ := hhrr g rfl abcd ha
      unfold hrrInts
      simp only [below_append, below_cons]
      refine ⟨⟨⟨⟨⟨by omega, below_nil M⟩, below_map fun t ht => htop t ht _ ha.le⟩, m1, below_nil M⟩,
        ?_⟩, by omega, m3, below_nil M⟩
      split
      · rename_i hd
        exact below_cons.2 ⟨m2 hd, below_nil M⟩
      · exact below_nil M

/-- State of the loop over batches after `k` of them. -/
theorem batch_state {e : DEnv F} (hl : 0 < e.len) {ns : List ℕ} 
    (hnp : ∀ i < ns.length, e.Q.nprim12 i = npOf ns i) (hc : e.Q.nclip ≤ ns.length)
    (h : Option HCfg) (is ie cnt : ℕ) (acc : List ℕ) (k : ℕ) (hk : k ≤ nbatches e.len e.Q.nclip) :
    ∃ js l, (List.range k).foldl (batchStepInts e h is ie) ⟨cnt, 0, acc⟩ =
      ⟨cnt + min (k * nshellSimd e.len) e.Q.nclip, js, l⟩ ∧
      (k < nbatches e.len e.Q.nclip → js = paddedStart e.len (npOf ns) (k * nshellSimd e.len)) := by
  induction k with
  | zero => exact ⟨0, acc, by simp, fun _ => by simp [paddedStart]⟩
  | succ k ih =>
    obtain ⟨js, l, h1, h2⟩ := ih (by omega)
    have hjs := h2 (by omega)
    have hkb : k * nshellSimd e.len < e.Q.nclip := (lt_nbatches hl).1 (by omega)
    obtain ⟨-, -, n3, n4⟩ := nshellBatch_spec hl hkb
    rw [List.range_succ, List.foldl_append, h1, List.foldl_cons, List.foldl_nil]
    refine ⟨simdRound e.len (batchEnd e.Q.nprim12 (k * nshellSimd e.len)
        (nshellBatch e.len e.Q.nclip (k * nshellSimd e.len)) js),
      l ++ batchInts e h is ie (cnt + min (k * nshellSimd e.len) e.Q.nclip) js k, ?_, ?_⟩
    · unfold batchStepInts
      simp only [BSt.mk.injEq, and_true]
      rw [Nat.succ_mul]
      omega
    · intro hk'
      have hfull : (k + 1) * nshellSimd e.len < e.Q.nclip := (lt_nbatches hl).1 hk'
      have hnb' : nshellBatch e.len e.Q.nclip (k * nshellSimd e.len) = nshellSimd e.len := by
        rw [Nat.succ_mul] at hfull
        unfold nshellBatch
        rw [if_neg (by omega)]
      rw [batchEnd_eq, hnb', hjs, paddedStart_next _ _ _ hl]
      congr 2
      exact tightStart_congr fun i hi => hnp _ (by rw [Nat.succ_mul] at hfull; omega)

/-- The batches cover the list. -/
theorem nbatches_ge {len nclip : ℕ} (hl : 0 < len) : nclip ≤ nbatches len nclip * nshellSimd len := by
  by_contra h
  exact absurd ((lt_nbatches hl).2 (by omega : nbatches len nclip * nshellSimd len < nclip)) (by omega)

/-- State of the loop over bra shells. -/
theorem shell_state {e : DEnv F} (hl : 0 < e.len) {ns : List ℕ}
    (hnp : ∀ i < ns.length, e.Q.nprim12 i = npOf ns i) (hc : e.Q.nclip ≤ ns.length)
    (h : Option HCfg) (k : ℕ) :
    ∃ l, (List.range k).foldl (shellStepInts e h) ⟨0, 0, []⟩ =
      ⟨tightStart e.P.nprim12 k, k * e.Q.nclip, l⟩ := by
  induction k with
  | zero => exact ⟨[], by simp [tightStart]⟩
  | succ k ih =>
    obtain ⟨l, h1⟩ := ih
    rw [List.range_succ, List.foldl_append, h1, List.foldl_cons, List.foldl_nil]
    unfold shellStepInts
    simp only
    obtain ⟨js, l', h2, -⟩ := batch_state hl hnp hc h (tightStart e.P.nprim12 k)
      (tightStart e.P.nprim12 k + e.P.nprim12 k) (k * e.Q.nclip)
      (l ++ [tightStart e.P.nprim12 k + e.P.nprim12 k, k + 1]) _ le_rfl
    rw [h2]
    refine ⟨l', ?_⟩
    rw [tightStart_succ, min_eq_right (nbatches_ge hl), Nat.succ_mul]

/-- All values of the loops are in range if all values that depend on the number of the quartet are. -/
theorem loops_below {M : ℕ} {e : DEnv F} (hl : 0 < e.len) {ns : List ℕ} (hf : Fits M e ns)
    (hnp : ∀ i < ns.length, e.Q.nprim12 i = npOf ns i) (hc : e.Q.nclip ≤ ns.length)
    (h : Option HCfg) (hQ : e.P.nclip * e.Q.nclip < M)
    (hcnt : h = none → ∀ t ∈ e.tops, e.P.nclip * e.Q.nclip * ncartQ t < M)
    (hbc : ∀ g, h = some g → nshellSimd e.len * g.bcont < M)
    (hhrr : ∀ g, h = some g → (e.P.nclip * e.Q.nclip - 1) * g.ncart < M ∧
      (g.deriv = true → (e.P.nclip * e.Q.nclip - 1) * g.ncart * 12 < M)) :
    Below M ((List.range e.P.nclip).foldl (shellStepInts e h) ⟨0, 0, []⟩).ints := by
  suffices hs : ∀ k ≤ e.P.nclip,
      Below M ((List.range k).foldl (shellStepInts e h) ⟨0, 0, []⟩).ints from hs _ le_rfl
  intro k
  induction k with
  | zero => exact fun _ => below_nil M
  | succ k ih =>
    intro hk
    obtain ⟨l, h1⟩ := shell_state hl hnp hc h k
    have ih' := ih (by omega)
    rw [List.range_succ, List.foldl_append, List.foldl_cons, List.foldl_nil]
    rw [h1] at ih' ⊢
    unfold shellStepInts
    simp only
    have hie : tightStart e.P.nprim12 k + e.P.nprim12 k < M := by
      have := tightStart_mono e.P.nprim12 hk
      rw [tightStart_succ] at this
      exact Nat.lt_of_le_of_lt this hf.bra
    have hbp := hf.braPairs
    have hmul : (k + 1) * e.Q.nclip ≤ e.P.nclip * e.Q.nclip := Nat.mul_le_mul_right _ hk
    rw [Nat.succ_mul] at hmul
    suffices hs : ∀ b ≤ nbatches e.len e.Q.nclip,
        Below M ((List.range b).foldl (batchStepInts e h (tightStart e.P.nprim12 k)
          (tightStart e.P.nprim12 k + e.P.nprim12 k))
          ⟨k * e.Q.nclip, 0, l ++ [tightStart e.P.nprim12 k + e.P.nprim12 k, k + 1]⟩).ints from
      hs _ le_rfl
    intro b
    induction b with
    | zero =>
      intro _
      refine below_append.2 ⟨ih', ?_⟩
      simp only [below_cons]
      exact ⟨hie, by omega, below_nil M⟩
    | succ b ihb =>
      intro hb
      obtain ⟨js, l', h2, h3⟩ := batch_state hl hnp hc h (tightStart e.P.nprim12 k)
        (tightStart e.P.nprim12 k + e.P.nprim12 k) (k * e.Q.nclip)
        (l ++ [tightStart e.P.nprim12 k + e.P.nprim12 k, k + 1]) b (by omega)
      have ihb' := ihb (by omega)
      rw [List.range_succ, List.foldl_append, List.foldl_cons, List.foldl_nil]
      rw [h2] at ihb' ⊢
      have hjs := h3 (by omega)
      subst hjs
      have hbc' : b * nshellSimd e.len < e.Q.nclip := (lt_nbatches hl).1 (by omega)
      obtain ⟨n1, n2, n3, -⟩ := nshellBatch_spec hl hbc'
      have hmin : min (b * nshellSimd e.len) e.Q.nclip = b * nshellSimd e.len := by omega
      refine below_append.2 ⟨ihb', ?_⟩
      simp only
      refine batch_common hl hf hnp hc hie (by omega) h _ ?_ hbc ?_ ?_
      · intro hn t ht
        refine Nat.lt_of_le_of_lt (Nat.mul_le_mul_right _ ?_) (hcnt hn t ht)
        omega
      · intro _; omega
      · intro g hg abcd ha
        obtain ⟨m1, m2⟩ := hhrr g hg
        have hle : k * e.Q.nclip + min (b * nshellSimd e.len) e.Q.nclip + abcd
            ≤ e.P.nclip * e.Q.nclip - 1 := by omega
        have h4 := Nat.mul_le_mul_right g.ncart hle
        refine ⟨Nat.lt_of_le_of_lt h4 m1, fun hd => ?_, by omega⟩
        exact Nat.lt_of_le_of_lt (Nat.mul_le_mul_right 12 h4) (m2 hd)

/-! ## The last quartet is visited -/

theorem foldl_ints_mono {σ : Type} (ints : σ → List ℕ) (f : σ → ℕ → σ)
    (hf : ∀ st b, ∀ x ∈ ints st, x ∈ ints (f st b)) (bs : List ℕ) (st : σ) :
    ∀ x ∈ ints st, x ∈ ints (bs.foldl f st) := by
  induction bs generalizing st with
  | nil => exact fun _ h => h
  | cons b bs ih => intro x h; exact ih _ x (hf st b x h)

theorem mem_foldl_ints {σ : Type} (ints : σ → List ℕ) (f : σ → ℕ → σ)
    (hf : ∀ st b, ∀ x ∈ ints st, x ∈ ints (f st b)) (st : σ) {n k : ℕ} (hk : k < n) :
    ∀ x ∈ ints (f ((List.range k).foldl f st) k), x ∈ ints ((List.range n).foldl f st) := by
  intro x h
  obtain ⟨m, rfl⟩ : ∃ m, n = k + 1 + m := ⟨n - (k + 1), by omega⟩
  rw [List.range_add, List.foldl_append, List.range_succ, List.foldl_append]
  exact foldl_ints_mono ints f hf _ _ x h

theorem batchStep_mono (e : DEnv F) (h : Option HCfg) (is ie : ℕ) (st : BSt) (b : ℕ) :
    ∀ x ∈ st.ints, x ∈ (batchStepInts e h is ie st b).ints :=
  fun _ hx => List.mem_append_left _ hx

theorem shellStep_mono (e : DEnv F) (h : Option HCfg) (st : SSt) (ab : ℕ) :
    ∀ x ∈ st.ints, x ∈ (shellStepInts e h st ab).ints := by
  intro x hx
  exact foldl_ints_mono BSt.ints _ (batchStep_mono e h _ _) _ _ x (List.mem_append_left _ hx)

/-- Every quartet of pairs passes through the horizontal stage with its own number. -/
theorem quartet_mem {e : DEnv F} (hl : 0 < e.len) {ns : List ℕ}
    (hnp : ∀ i < ns.length, e.Q.nprim12 i = npOf ns i) (hc : e.Q.nclip ≤ ns.length)
    (g : HCfg) {ab cd : ℕ} (hab : ab < e.P.nclip) (hcd : cd < e.Q.nclip) :
    ∃ c real abcd, real + abcd = ab * e.Q.nclip + cd ∧ ∀ x ∈ hrrInts e g c real abcd,
      x ∈ ((List.range e.P.nclip).foldl (shellStepInts e (some g)) ⟨0, 0, []⟩).ints := by
  have hN : 0 < nshellSimd e.len := by unfold nshellSimd; omega
  set b := cd / nshellSimd e.len with hb
  set r := cd % nshellSimd e.len with hr
  have hrN : r < nshellSimd e.len := Nat.mod_lt _ hN
  have hcdr : cd = b * nshellSimd e.len + r := by
    rw [hb, hr, Nat.mul_comm]; exact (Nat.div_add_mod _ _).symm
  have hbc : b * nshellSimd e.len < e.Q.nclip := by omega
  have hbn : b < nbatches e.len e.Q.nclip := (lt_nbatches hl).2 hbc
  obtain ⟨-, -, -, h4⟩ := nshellBatch_spec hl hbc
  obtain ⟨l, h1⟩ := shell_state hl hnp hc (some g) ab
  obtain ⟨js, l', h2, -⟩ := batch_state hl hnp hc (some g) (tightStart e.P.nprim12 ab)
    (tightStart e.P.nprim12 ab + e.P.nprim12 ab) (ab * e.Q.nclip)
    (l ++ [tightStart e.P.nprim12 ab + e.P.nprim12 ab, ab + 1]) b hbn.le
  refine ⟨b * nshellSimd e.len, ab * e.Q.nclip + min (b * nshellSimd e.len) e.Q.nclip, r, by omega,
    fun x hx => ?_⟩
  refine mem_foldl_ints SSt.ints _ (shellStep_mono e (some g)) _ hab x ?_
  rw [h1]
  unfold shellStepInts
  simp only
  refine mem_foldl_ints BSt.ints _ (batchStep_mono e (some g) _ _) _ hbn x ?_
  rw [h2]
  refine List.mem_append_right _ ?_
  unfold batchInts
  refine List.mem_append_right _ (List.mem_flatMap.2 ⟨r, ?_, hx⟩)
  rw [List.mem_range]
  omega

end

/-! ## Allocation -/

section
variable {F : Type}

theorem count_fold_fst (len npair : ℕ) (ps : List (Shell F × Shell F)) (st : CountSt × List ℕ) :
    (ps.foldl (countStepInts len npair) st).1 =
      (ps.map fun p => pairPrims p.1 p.2).foldl (countStep len npair) st.1 := by
  induction ps generalizing st with
  | nil => rfl
  | cons p ps ih => rw [List.foldl_cons, ih, List.map_cons, List.foldl_cons]; rfl

/-- What the counting loop has computed after `s` pairs. -/
theorem count_state {len : ℕ} (hl : 0 < len) (ps : List (Shell F × Shell F)) (s : ℕ)
    (hs : s ≤ ps.length) :
    ∃ st l, (ps.take s).foldl (countStepInts len ps.length) (⟨0, 0, 0⟩, []) = (st, l) ∧
      st.i = s ∧ st.nprim + st.batch = fillIdx len (ps.map fun p => pairPrims p.1 p.2) s ∧
      st.nprim + st.batch ≤ allocPrims len ps := by
  have hlen : (ps.map fun p => pairPrims p.1 p.2).length = ps.length := List.length_map _
  obtain ⟨st, e, h1, -, h3, -⟩ := count_inv hl (ps.map fun p => pairPrims p.1 p.2) s (by omega)
  refine ⟨st, _, Prod.ext ?_ rfl, h1, h3, ?_⟩
  · rw [count_fold_fst, ← e, List.map_take, hlen]
  · unfold allocPrims
    rw [h3, countPrims_eq hl]
    exact fillIdx_le hl _ (by omega) le_rfl

theorem allocInts_below {M len : ℕ} (hl : 0 < len) (ps : List (Shell F × Shell F))
    (h1 : 2 * ps.length < M) (h2 : ∀ p ∈ ps, Below M (pairInts p.1 p.2))
    (h3 : allocPrims len ps + len ≤ M) : Below M (allocInts len ps) := by
  suffices h : ∀ s ≤ ps.length,
      Below M ((ps.take s).foldl (countStepInts len ps.length) (⟨0, 0, 0⟩, [])).2 by
    have := h _ le_rfl
    rwa [List.take_length] at this
  intro s
  induction s with
  | zero => exact fun _ => below_nil M
  | succ s ih =>
    intro hs
    have ih' := ih (by omega)
    obtain ⟨st, l, e, k1, -, -⟩ := count_state hl ps s (by omega)
    obtain ⟨st', l', e', -, -, k4⟩ := count_state hl ps (s + 1) hs
    have htake : ps.take (s + 1) = ps.take s ++ [ps[s]] := (List.take_concat_get' ps s hs).symm
    rw [htake, List.foldl_append, List.foldl_cons, List.foldl_nil, e] at e'
    rw [htake, List.foldl_append, List.foldl_cons, List.foldl_nil]
    rw [e] at ih' ⊢
    have e2 := congrArg Prod.fst e'
    simp only [countStepInts] at e2
    refine below_append.2 ⟨ih', ?_⟩
    simp only
    have hr := le_simdRound' hl (st.batch + pairPrims ps[s].1 ps[s].2)
    unfold countStep at e2
    simp only at e2
    unfold countInts
    simp only [below_append, below_cons]
    by_cases hc : (st.i + 1) % nshellSimd len = 0 ∨ ps.length ≤ st.i + 1
    · rw [if_pos hc] at e2
      rw [if_pos hc]
      subst e2
      simp only at k4
      simp only [below_cons]
      exact ⟨⟨⟨⟨⟨by omega, below_nil M⟩, h2 _ (List.getElem_mem _)⟩, by omega, by omega, below_nil M⟩,
        by omega, by omega, below_nil M⟩, by omega, below_nil M⟩
    · rw [if_neg hc] at e2
      rw [if_neg hc]
      subst e2
      simp only at k4
      exact ⟨⟨⟨⟨⟨by omega, below_nil M⟩, h2 _ (List.getElem_mem _)⟩, by omega, by omega, below_nil M⟩,
        below_nil M⟩, by omega, below_nil M⟩

/-- The values of one pair are among those of the loop. -/
theorem mem_allocInts {len : ℕ} (hl : 0 < len) (ps : List (Shell F × Shell F)) {s : ℕ}
    (hs : s < ps.length) : ∃ st : CountSt, st.i = s ∧
      (∀ x ∈ countInts len ps.length st ps[s].1 ps[s].2, x ∈ allocInts len ps) ∧
      (s + 1 = ps.length →
        allocPrims len ps = st.nprim + simdRound len (st.batch + pairPrims ps[s].1 ps[s].2)) := by
  obtain ⟨st, l, e, k1, -, -⟩ := count_state hl ps s hs.le
  have hsplit : ps = ps.take s ++ ps[s] :: ps.drop (s + 1) := by
    rw [← List.drop_eq_getElem_cons hs, List.take_append_drop]
  have hmono : ∀ (qs : List (Shell F × Shell F)) (t : CountSt × List ℕ), ∀ x ∈ t.2,
      x ∈ (qs.foldl (countStepInts len ps.length) t).2 := by
    intro qs
    induction qs with
    | nil => exact fun _ _ h => h
    | cons q qs ih => intro t x h; exact ih _ x (List.mem_append_left _ h)
  refine ⟨st, k1, fun x hx => ?_, fun hlast => ?_⟩
  · unfold allocInts
    have : ps.foldl (countStepInts len ps.length) (⟨0, 0, 0⟩, []) =
        (ps.drop (s + 1)).foldl (countStepInts len ps.length)
          (countStepInts len ps.length (st, l) ps[s]) := by
      conv_lhs => rw [hsplit]
      rw [List.foldl_append, List.foldl_cons, ← hsplit, e]
    rw [this]
    exact hmono _ _ x (List.mem_append_right _ hx)
  · have h1 := count_fold_fst len ps.length ps (⟨0, 0, 0⟩, [])
    have htake : ps = ps.take s ++ [ps[s]] := by
      conv_lhs => rw [hsplit, List.drop_eq_nil_of_le (by omega)]
    have h2 : ps.foldl (countStepInts len ps.length) (⟨0, 0, 0⟩, []) =
        countStepInts len ps.length (st, l) ps[s] := by
      conv_lhs => rw [htake]
      rw [List.foldl_append, List.foldl_cons, List.foldl_nil, ← htake, e]
    rw [h2] at h1
    unfold allocPrims countPrims
    rw [List.length_map, ← h1]
    unfold countStepInts countStep
    simp only
    rw [if_pos (Or.inr (by omega))]

end

theorem countPrims_ones (n : ℕ) : countPrims 1 (List.replicate n 1) = n := by
  have h1 : ∀ x, simdRound 1 x = x := fun x => by unfold simdRound; omega
  suffices h : ∀ s ≤ n, fillIdx 1 (List.replicate n 1) s = s by
    rw [countPrims_eq Nat.one_pos, List.length_replicate]
    exact h n le_rfl
  intro s
  induction s with
  | zero => exact fun _ => fillIdx_zero _ _ Nat.one_pos
  | succ s ih =>
    intro hs
    have hnp : npOf (List.replicate n 1) s = 1 := by
      unfold npOf
      rw [List.getD_eq_getElem _ _ (by rw [List.length_replicate]; omega), List.getElem_replicate]
    rw [fillIdx_succ Nat.one_pos _ (by rw [List.length_replicate]; omega), h1, ih (by omega), hnp,
      ite_self]

end Simint.IntArith
