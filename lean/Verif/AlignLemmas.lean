import Verif.Align
import Verif.ShellLemmas
import Verif.DriverLoopLemmas

/-! Lemmas about the addresses of vector loads. -/

set_option autoImplicit false

namespace Simint.Align

open Simint

theorem paddedStart_congr {len : ℕ} {f g : ℕ → ℕ} {s : ℕ} (h : ∀ i < s, f i = g i) :
    paddedStart len f s = paddedStart len g s := by
  induction s with
  | zero => rfl
  | succ s ih =>
    simp only [paddedStart]
    rw [ih fun i hi => h i (by omega), h s (by omega)]

theorem tightStart_congr {f g : ℕ → ℕ} {s : ℕ} (h : ∀ i < s, f i = g i) :
    tightStart f s = tightStart g s := by
  induction s with
  | zero => rfl
  | succ s ih => rw [tightStart_succ, tightStart_succ, ih fun i hi => h i (by omega), h s (by omega)]

theorem countPrims_dvd {len : ℕ} (hl : 0 < len) (ns : List ℕ) : len ∣ countPrims len ns := by
  rw [countPrims_eq hl]
  unfold fillIdx
  rw [if_pos rfl]
  exact simdRound_dvd _ _

/-- A batch (cut at `nclip`) ends inside the allocated slots. -/
theorem batch_le {len : ℕ} (hl : 0 < len) (ns : List ℕ) {nclip b : ℕ} (hc : nclip ≤ ns.length)
    (hb : b * nshellSimd len < nclip) :
    paddedStart len (npOf ns) (b * nshellSimd len)
      + tightStart (fun s => npOf ns (b * nshellSimd len + s))
          (nshellBatch len nclip (b * nshellSimd len)) ≤ countPrims len ns := by
  obtain ⟨h1, h2, h3, -⟩ := nshellBatch_spec hl hb
  set nb := nshellBatch len nclip (b * nshellSimd len)
  obtain ⟨m, hm⟩ : ∃ m, nb = m + 1 := ⟨nb - 1, by omega⟩
  have hlast : b * nshellSimd len + m < ns.length := by omega
  have e := paddedStart_add len (npOf ns) b m (by omega)
  have k1 := fillIdx_mono hl ns hlast
  have k2 := fillIdx_le hl ns (s := b * nshellSimd len + m + 1) (t := ns.length) (by omega) le_rfl
  rw [fillIdx_eq_padded hlast, e] at k1
  rw [countPrims_eq hl, hm, tightStart_succ]
  omega

/-- All vectors of a batch lie inside the allocated slots. -/
theorem vec_le {len : ℕ} (hl : 0 < len) {js je n v : ℕ} (hjs : len ∣ js) (hn : len ∣ n)
    (hle : je ≤ n) (hv : v < nvec len js je) : js + v * len + len ≤ n := by
  unfold nvec at hv
  have h1 := (Nat.le_div_iff_mul_le hl).1 (show v + 1 ≤ _ from hv)
  rw [Nat.succ_mul] at h1
  obtain ⟨a, rfl⟩ := hjs
  obtain ⟨c, rfl⟩ := hn
  have h2 : len * a + v * len < len * c := by omega
  have e : len * a + v * len = len * (a + v) := by ring
  rw [e] at h2
  have h3 := Nat.lt_of_mul_lt_mul_left h2
  have h4 := Nat.mul_le_mul_left len (show a + v + 1 ≤ c from h3)
  have e2 : len * (a + v + 1) = len * a + v * len + len := by ring
  omega

section
variable {F : Type} [CommRing F] [LinearOrder F]

/-- What is known about every load of a call. -/
def Good (e : DEnv F) (c : LoadCfg) (n : ℕ) (l : Load) : Prop :=
  ((l.1 = .screen ∧ e.check) ∨ l.1 ∈ computeArrs c) ∧ e.len ∣ l.2 ∧ l.2 + e.len ≤ n

theorem vecLoads_good {e : DEnv F} {c : LoadCfg} {n i j : ℕ} (hd : e.len ∣ j)
    (hj : j + e.len ≤ n) : ∀ l ∈ vecLoads e c i j, Good e c n l := by
  intro l hl
  unfold vecLoads at hl
  rcases List.mem_append.1 hl with h | h
  · split at h
    · rename_i hc
      rw [List.mem_singleton] at h
      subst h
      exact ⟨Or.inl ⟨rfl, hc⟩, hd, hj⟩
    · exact absurd h (List.not_mem_nil)
  · split at h
    · exact absurd h (List.not_mem_nil)
    · obtain ⟨a, ha, rfl⟩ := List.mem_map.1 h
      exact ⟨Or.inr ha, hd, hj⟩

theorem braLoads_good {e : DEnv F} {c : LoadCfg} (hl : 0 < e.len) {n js je i : ℕ}
    (hjs : e.len ∣ js) (hn : e.len ∣ n) (hle : je ≤ n) :
    ∀ l ∈ braLoads e c js je i, Good e c n l := by
  intro l h
  unfold braLoads at h
  split at h
  · exact absurd h (List.not_mem_nil)
  · obtain ⟨v, hv, h⟩ := List.mem_flatMap.1 h
    exact vecLoads_good (Nat.dvd_add hjs (Dvd.intro_left v rfl))
      (vec_le hl hjs hn hle (List.mem_range.1 hv)) l h

/-- `jstart` of batch `b` is the padded start of its first shell. -/
theorem batches_good {e : DEnv F} {c : LoadCfg} (hl : 0 < e.len) (ns : List ℕ)
    (hnp : ∀ i < ns.length, e.Q.nprim12 i = npOf ns i) (hc : e.Q.nclip ≤ ns.length)
    (is ie : ℕ) (acc : List Load) (hacc : ∀ l ∈ acc, Good e c (countPrims e.len ns) l) (k : ℕ)
    (hk : k ≤ nbatches e.len e.Q.nclip) :
    (k < nbatches e.len e.Q.nclip →
      ((List.range k).foldl (batchLoads e c is ie) (0, acc)).1
        = paddedStart e.len (npOf ns) (k * nshellSimd e.len)) ∧
    ∀ l ∈ ((List.range k).foldl (batchLoads e c is ie) (0, acc)).2,
      Good e c (countPrims e.len ns) l := by
  induction k with
  | zero => exact ⟨fun _ => by simp [paddedStart], hacc⟩
  | succ k ih =>
    obtain ⟨h1, h2⟩ := ih (by omega)
    have hkb : k * nshellSimd e.len < e.Q.nclip := (lt_nbatches hl).1 (by omega)
    have hjs := h1 (by omega)
    obtain ⟨-, -, hnb, -⟩ := nshellBatch_spec hl hkb
    rw [List.range_succ, List.foldl_append, List.foldl_cons, List.foldl_nil]
    set st := (List.range k).foldl (batchLoads e c is ie) (0, acc)
    have hend : batchEnd e.Q.nprim12 (k * nshellSimd e.len)
        (nshellBatch e.len e.Q.nclip (k * nshellSimd e.len)) st.1
        = paddedStart e.len (npOf ns) (k * nshellSimd e.len)
          + tightStart (fun s => npOf ns (k * nshellSimd e.len + s))
              (nshellBatch e.len e.Q.nclip (k * nshellSimd e.len)) := by
      rw [batchEnd_eq, hjs]
      congr 1
      exact tightStart_congr fun i hi => hnp _ (by omega)
    constructor
    · intro hk'
      have hfull : (k + 1) * nshellSimd e.len < e.Q.nclip := (lt_nbatches hl).1 hk'
      have hnb' : nshellBatch e.len e.Q.nclip (k * nshellSimd e.len) = nshellSimd e.len := by
        rw [Nat.succ_mul] at hfull
        unfold nshellBatch
        rw [if_neg (by omega)]
      show simdRound e.len (batchEnd _ _ _ _) = _
      rw [hend, hnb', paddedStart_next _ _ _ hl]
    · intro l hm
      have hm' : l ∈ st.2 ++ (List.range' is (ie - is)).flatMap
          (braLoads e c st.1 (batchEnd e.Q.nprim12 (k * nshellSimd e.len)
            (nshellBatch e.len e.Q.nclip (k * nshellSimd e.len)) st.1)) := hm
      rcases List.mem_append.1 hm' with hm' | hm'
      · exact h2 l hm'
      · obtain ⟨i, -, hi⟩ := List.mem_flatMap.1 hm'
        refine braLoads_good hl ?_ (countPrims_dvd hl ns) ?_ l hi
        · rw [hjs]; exact paddedStart_dvd _ _ _
        · rw [hend]; exact batch_le hl ns hc hkb

theorem runLoads_good {e : DEnv F} {c : LoadCfg} (hl : 0 < e.len) (ns : List ℕ)
    (hnp : ∀ i < ns.length, e.Q.nprim12 i = npOf ns i) (hc : e.Q.nclip ≤ ns.length) :
    ∀ l ∈ runLoads e c, Good e c (countPrims e.len ns) l := by
  unfold runLoads
  suffices h : ∀ k, ∀ l ∈ ((List.range k).foldl (shellLoads e c) (0, [])).2,
      Good e c (countPrims e.len ns) l from h _
  intro k
  induction k with
  | zero => intro l hm; exact absurd hm (List.not_mem_nil)
  | succ k ih =>
    rw [List.range_succ, List.foldl_append, List.foldl_cons, List.foldl_nil]
    exact (batches_good hl ns hnp hc _ _ _ ih _ le_rfl).2

theorem foldl_snd_mono {α β : Type} (f : ℕ × List α → β → ℕ × List α)
    (hf : ∀ st b, ∀ l ∈ st.2, l ∈ (f st b).2) (bs : List β) (st : ℕ × List α) :
    ∀ l ∈ st.2, l ∈ (bs.foldl f st).2 := by
  induction bs generalizing st with
  | nil => exact fun _ h => h
  | cons b bs ih => intro l h; exact ih _ l (hf st b l h)

theorem batchLoads_mono (e : DEnv F) (c : LoadCfg) (is ie : ℕ) (st : ℕ × List Load) (b : ℕ) :
    ∀ l ∈ st.2, l ∈ (batchLoads e c is ie st b).2 := by
  intro l h
  exact List.mem_append_left _ h

theorem shellLoads_mono (e : DEnv F) (c : LoadCfg) (st : ℕ × List Load) (ab : ℕ) :
    ∀ l ∈ st.2, l ∈ (shellLoads e c st ab).2 := by
  intro l h
  exact foldl_snd_mono _ (batchLoads_mono e c _ _) _ _ l h

/-- The state before step `k` of a fold over `range n`. -/
theorem mem_foldl_range {α : Type} (f : ℕ × List α → ℕ → ℕ × List α)
    (hf : ∀ st b, ∀ l ∈ st.2, l ∈ (f st b).2) (st : ℕ × List α) {n k : ℕ} (hk : k < n) :
    ∀ l ∈ (f ((List.range k).foldl f st) k).2, l ∈ ((List.range n).foldl f st).2 := by
  intro l h
  obtain ⟨m, rfl⟩ : ∃ m, n = k + 1 + m := ⟨n - (k + 1), by omega⟩
  rw [List.range_add, List.foldl_append, List.range_succ, List.foldl_append]
  exact foldl_snd_mono f hf _ _ l h

theorem mem_vecLoads {e : DEnv F} {c : LoadCfg} (hs : ¬ e.check) (i j : ℕ) :
    (Arr.prefac, j) ∈ vecLoads e c i j := by
  unfold vecLoads
  rw [if_neg hs, if_neg fun h => hs h.1]
  simp [computeArrs]

theorem cover {e : DEnv F} {c : LoadCfg} (hl : 0 < e.len) (ns : List ℕ)
    (hnp : ∀ i < ns.length, e.Q.nprim12 i = npOf ns i) (hc : e.Q.nclip ≤ ns.length)
    (hs : ¬ e.check) {ab : ℕ} (hab : ab < e.P.nclip) (hpos : 0 < e.P.nprim12 ab)
    {cd k : ℕ} (hcd : cd < e.Q.nclip) (hk : k < npOf ns cd) :
    ∃ j, (Arr.prefac, j) ∈ runLoads e c ∧
      j ≤ paddedStart e.len (npOf ns) cd + k ∧ paddedStart e.len (npOf ns) cd + k < j + e.len := by
  have hN : 0 < nshellSimd e.len := by unfold nshellSimd; omega
  set b := cd / nshellSimd e.len with hb
  set r := cd % nshellSimd e.len with hr
  have hrN : r < nshellSimd e.len := Nat.mod_lt _ hN
  have hcdr : cd = b * nshellSimd e.len + r := by
    rw [hb, hr, Nat.mul_comm]; exact (Nat.div_add_mod _ _).symm
  have hbc : b * nshellSimd e.len < e.Q.nclip := by omega
  have hbn : b < nbatches e.len e.Q.nclip := (lt_nbatches hl).2 hbc
  obtain ⟨-, -, h3, h4⟩ := nshellBatch_spec hl hbc
  have hrb : r < nshellBatch e.len e.Q.nclip (b * nshellSimd e.len) := by omega
  set js := paddedStart e.len (npOf ns) (b * nshellSimd e.len) with hjs
  have hslot : paddedStart e.len (npOf ns) cd
      = js + tightStart (fun s => npOf ns (b * nshellSimd e.len + s)) r := by
    rw [hcdr]; exact paddedStart_add _ _ _ _ hrN
  set x := tightStart (fun s => npOf ns (b * nshellSimd e.len + s)) r + k with hx
  set nb := nshellBatch e.len e.Q.nclip (b * nshellSimd e.len) with hnb
  have hxend : x < tightStart (fun s => npOf ns (b * nshellSimd e.len + s)) nb := by
    have h1 := tightStart_mono (fun s => npOf ns (b * nshellSimd e.len + s))
      (show r + 1 ≤ nb from hrb)
    rw [tightStart_succ] at h1
    have h2 : npOf ns (b * nshellSimd e.len + r) = npOf ns cd := by rw [← hcdr]
    omega
  refine ⟨js + x / e.len * e.len, ?_, ?_, ?_⟩
  · refine mem_foldl_range _ (shellLoads_mono e c) _ hab _ ?_
    refine mem_foldl_range _ (batchLoads_mono e c _ _) _ hbn _ ?_
    refine List.mem_append_right _ ?_
    set st := (List.range ab).foldl (shellLoads e c) (0, [])
    have hst : ∀ l ∈ st.2, Good e c (countPrims e.len ns) l := by
      intro l hm
      have : ∀ m, ∀ l ∈ ((List.range m).foldl (shellLoads e c) (0, [])).2,
          Good e c (countPrims e.len ns) l := by
        intro m
        induction m with
        | zero => intro l hm; exact absurd hm (List.not_mem_nil)
        | succ m ih =>
          rw [List.range_succ, List.foldl_append, List.foldl_cons, List.foldl_nil]
          exact (batches_good hl ns hnp hc _ _ _ ih _ le_rfl).2
      exact this ab l hm
    have e1 := (batches_good hl ns hnp hc st.1 (st.1 + e.P.nprim12 ab) st.2 hst b hbn.le).1 hbn
    rw [e1]
    refine List.mem_flatMap.2 ⟨st.1, ?_, ?_⟩
    · rw [List.mem_range'_1]; omega
    · unfold braLoads
      rw [if_neg fun h => hs h.1]
      refine List.mem_flatMap.2 ⟨x / e.len, ?_, mem_vecLoads hs _ _⟩
      rw [List.mem_range, batchEnd_eq]
      have e2 : tightStart (fun s => e.Q.nprim12 (b * nshellSimd e.len + s)) nb
          = tightStart (fun s => npOf ns (b * nshellSimd e.len + s)) nb :=
        tightStart_congr fun i hi => hnp _ (by omega)
      rw [e2]
      unfold nvec
      refine (Nat.le_div_iff_mul_le hl).2 ?_
      have h5 := Nat.div_mul_le_self x e.len
      rw [Nat.succ_mul]
      omega
  · have := Nat.div_mul_le_self x e.len
    omega
  · have h5 := Nat.div_add_mod x e.len
    have h6 := Nat.mod_lt x hl
    rw [Nat.mul_comm] at h5
    omega

end

/-- The arrays of one double per primitive start at a multiple of the size of such an array. -/
theorem offset_dvd {g : ShCfg} {npair nprim off : ℕ} {a : Arr} (h : a.num g ≠ none)
    (ho : a.offset g npair nprim = some off) : nprim * 8 ∣ off := by
  have hh : ∃ k, off = k * (nprim * 8) := by
    cases a <;> simp only [Arr.offset, Arr.num, ne_eq, not_true_eq_false] at h ho
    all_goals first
      | (simp only [Option.map_some, Option.some.injEq] at ho; exact ⟨_, ho.symm⟩)
      | (split at ho
         · simp only [Option.map_some, Option.some.injEq] at ho; exact ⟨_, ho.symm⟩
         · simp at ho)
  obtain ⟨k, rfl⟩ := hh
  exact Dvd.intro_left k rfl

end Simint.Align
