import Verif.WorkspaceLemmas

/-!
# C21-C23: the work buffer
-/

set_option autoImplicit false

namespace Simint

/-! ## C23 -/

/-- `y` is the least multiple of `len` that is not below `x`. -/
def IsRoundUp (len x y : ℕ) : Prop := len ∣ y ∧ x ≤ y ∧ ∀ z, len ∣ z → x ≤ z → y ≤ z

/-- The macro in `w`-bit arithmetic, for every power-of-two length `2^k` that fits, is the least
multiple not below the count, whenever that computation does not wrap around
(`int`: keep below `2^31`; `size_t`: `2^64`). -/
theorem C23_round {w k : ℕ} (x : BitVec w) (hk : k < w) (hx : x.toNat + (2 ^ k - 1) < 2 ^ w) :
    IsRoundUp (2 ^ k) x.toNat (simdRoundBV (BitVec.ofNat w (2 ^ k)) x).toNat := by
  have hk0 : 0 < 2 ^ k := Nat.two_pow_pos k
  rw [simdRoundBV_toNat x hk hx]
  exact ⟨simdRound_dvd _ _, le_simdRound hk0 _, fun z h1 h2 => simdRound_le_of_dvd hk0 h1 h2⟩

/-- The form used elsewhere in the model agrees with the macro. -/
theorem C23_round_model {w k : ℕ} (x : BitVec w) (hk : k < w)
    (hx : x.toNat + (2 ^ k - 1) < 2 ^ w) :
    (simdRoundBV (BitVec.ofNat w (2 ^ k)) x).toNat = simdRound (2 ^ k) x.toNat :=
  simdRoundBV_toNat x hk hx

/-- Lengths that are not powers of two are not rounded correctly by the bit mask. -/
theorem C23_not_power_of_two :
    ¬ IsRoundUp 3 1 (simdRoundBV (BitVec.ofNat 32 3) 1#32).toNat := by
  rintro ⟨h, -, -⟩
  revert h
  decide

example : (simdRoundBV (BitVec.ofNat 32 4) 9#32).toNat = 12 := by decide
example : (simdRoundBV (BitVec.ofNat 64 8) 16#64).toNat = 16 := by decide

/-! ## C21 -/

/-- Two arrays share no element. -/
def WArr.Disjoint (a b : WArr) : Prop := a.off + a.size ≤ b.off ∨ b.off + b.size ≤ a.off

/-- What a generated function needs from its work buffer: arrays pairwise disjoint, every array
of every class present with its full size, vector arrays start at a vector boundary, and
everything (including the region cleared by `memset`) lies in the first `size` doubles. -/
structure WorkOK (len size : ℕ) (final : QAM) (top all : List QAM) (mreq : QAM → ℤ)
    (inter : List QAM) (l : List WArr) : Prop where
  disjoint : l.Pairwise WArr.Disjoint
  names : (l.map WArr.name).Nodup
  inside : ∀ a ∈ l, a.off + a.size ≤ size
  top_size : ∀ q ∈ top, q ≠ final → ∃ a ∈ l, a.name = .arr q ∧
    a.size = nshellSimd len * ncartQ q
  prim_size : ∀ q ∈ all, ∃ a ∈ l, a.name = .prim q ∧ a.size = len * ((mreq q + 1).toNat * ncartQ q)
  hrr_size : ∀ q ∈ inter, ∃ a ∈ l, a.name = .hrr q ∧ a.size = ncartQ q
  aligned : ∀ a ∈ l, ∀ q, a.name = .prim q → len ∣ a.off
  cleared : nshellSimd len * (top.map ncartQ).sum ≤ size
  top_cleared : ∀ a ∈ l, ∀ q, a.name = .arr q →
    a.off + a.size ≤ nshellSimd len * (top.map ncartQ).sum

/-- The partition is sound for a buffer that holds the three printed numbers. -/
theorem C21_partition (len size : ℕ) (final : QAM) (top all : List QAM) (mreq : QAM → ℤ)
    (inter : List QAM) (htop : top.Nodup) (hall : all.Nodup) (hint : inter.Nodup)
    (hsize : nshellSimd len * (workNumbers top all mreq inter).bcont
      + len * (workNumbers top all mreq inter).prim + (workNumbers top all mreq inter).cont ≤ size) :
    WorkOK len size final top all mreq inter (partitionWork len final top all mreq inter) := by
  have h0 := total_topEntries_le final top
  have h0' := Nat.mul_le_mul_left (nshellSimd len) h0
  have h1 := total_primEntries mreq all
  have h2 := total_hrrEntries inter
  simp only [workNumbers] at hsize
  have bT := carve_bounds 0 (nshellSimd len) (topEntries final top) 0
  have bP := carve_bounds (nshellSimd len * total (topEntries final top)) len
    (primEntries mreq all) 0
  have bH := carve_bounds (nshellSimd len * total (topEntries final top)
    + len * total (primEntries mreq all)) 1 (hrrEntries inter) 0
  have dT := carve_disjoint 0 (nshellSimd len) (topEntries final top) 0
  have dP := carve_disjoint (nshellSimd len * total (topEntries final top)) len
    (primEntries mreq all) 0
  have dH := carve_disjoint (nshellSimd len * total (topEntries final top)
    + len * total (primEntries mreq all)) 1 (hrrEntries inter) 0
  simp only [Nat.mul_zero, Nat.add_zero, Nat.zero_add, Nat.one_mul, Nat.sub_zero] at bT bP bH
  constructor
  · rw [partitionWork]
    rw [List.pairwise_append, List.pairwise_append]
    refine ⟨⟨dT.imp fun h => Or.inl h, dP.imp fun h => Or.inl h, fun a ha b hb => Or.inl ?_⟩,
      dH.imp fun h => Or.inl h, fun a ha b hb => Or.inl ?_⟩
    · exact (bT a ha).2.1.trans (bP b hb).1
    · rcases List.mem_append.1 ha with ha | ha
      · have := (bT a ha).2.1; have := (bH b hb).1; omega
      · exact (bP a ha).2.1.trans (bH b hb).1
  · simp only [partitionWork, List.map_append, carve_names]
    rw [List.nodup_append, List.nodup_append]
    simp only [topEntries, primEntries, hrrEntries, List.map_map, Function.comp_def]
    refine ⟨⟨?_, ?_, ?_⟩, ?_, ?_⟩
    · exact (htop.filter _).map (fun _ _ h => by simpa using h)
    · exact hall.map (fun _ _ h => by simpa using h)
    · intro a ha b hb
      obtain ⟨q, _, rfl⟩ := List.mem_map.1 ha
      obtain ⟨q', _, rfl⟩ := List.mem_map.1 hb
      simp
    · exact hint.map (fun _ _ h => by simpa using h)
    · intro a ha b hb
      obtain ⟨q', _, rfl⟩ := List.mem_map.1 hb
      rcases List.mem_append.1 ha with ha | ha <;> obtain ⟨q, _, rfl⟩ := List.mem_map.1 ha <;> simp
  · intro a ha
    rcases List.mem_append.1 ha with ha | ha
    · rcases List.mem_append.1 ha with ha | ha
      · have := (bT a ha).2.1; omega
      · have := (bP a ha).2.1; rw [h1] at this; omega
    · have := (bH a ha).2.1; rw [h1, h2] at this; omega
  · intro q hq hne
    obtain ⟨a, ha, e1, e2⟩ := carve_mem 0 (nshellSimd len) (topEntries final top) 0 (.arr q)
      (ncartQ q) (List.mem_map.2 ⟨q, List.mem_filter.2 ⟨hq, by simpa using hne⟩, rfl⟩)
    exact ⟨a, by simp [partitionWork, ha], e1, e2⟩
  · intro q hq
    obtain ⟨a, ha, e1, e2⟩ := carve_mem (nshellSimd len * total (topEntries final top)) len
      (primEntries mreq all) 0 (.prim q) (primVecs mreq q) (List.mem_map.2 ⟨q, hq, rfl⟩)
    exact ⟨a, by simp [partitionWork, ha], e1, e2⟩
  · intro q hq
    obtain ⟨a, ha, e1, e2⟩ := carve_mem (nshellSimd len * total (topEntries final top)
      + len * total (primEntries mreq all)) 1 (hrrEntries inter) 0 (.hrr q) (ncartQ q)
      (List.mem_map.2 ⟨q, hq, rfl⟩)
    exact ⟨a, by simp [partitionWork, ha], e1, by simpa using e2⟩
  · intro a ha q hq
    rcases List.mem_append.1 ha with ha | ha
    · rcases List.mem_append.1 ha with ha | ha
      · obtain ⟨_, _, _, s, hs, _⟩ := bT a ha
        rw [hq] at hs
        simp [topEntries] at hs
      · obtain ⟨hlo, _, hd, _⟩ := bP a ha
        have hb : len ∣ nshellSimd len * total (topEntries final top) :=
          Dvd.dvd.mul_right (Dvd.intro_left 2 rfl) _
        have := Nat.dvd_add hd hb
        rwa [Nat.sub_add_cancel hlo] at this
    · obtain ⟨_, _, _, s, hs, _⟩ := bH a ha
      rw [hq] at hs
      simp [hrrEntries] at hs
  · omega
  · intro a ha q hq
    rcases List.mem_append.1 ha with ha | ha
    · rcases List.mem_append.1 ha with ha | ha
      · exact (bT a ha).2.1.trans h0'
      · obtain ⟨_, _, _, s, hs, _⟩ := bP a ha
        rw [hq] at hs
        simp [primEntries] at hs
    · obtain ⟨_, _, _, s, hs, _⟩ := bH a ha
      rw [hq] at hs
      simp [hrrEntries] at hs

/-! ## C22 -/

/-- Doubles a class needs. -/
def WorkNumbers.need (len : ℕ) (w : WorkNumbers) : ℕ :=
  nshellSimd len * w.bcont + len * w.prim + w.cont

/-- Every generated class with all AMs at most `l` fits in the size reported for `l`. -/
theorem C22_sufficient (len : ℕ) (hlen : 0 < len)
    (logs : List ((ℕ × ℕ × ℕ × ℕ) × WorkNumbers)) (l : ℕ) :
    ∀ e ∈ logs, e.1.1 ≤ l → e.1.2.1 ≤ l → e.1.2.2.1 ≤ l → e.1.2.2.2 ≤ l →
      e.2.need len ≤ worksizeEntry len (workTables logs) l := by
  intro e he h1 h2 h3 h4
  have hm : maxAM e.1 ≤ l := max_le (max_le h1 h2) (max_le h3 h4)
  obtain ⟨c1, c2, c3⟩ := logWork_covers logs WorkTables.init e he
  have d1 := Nat.mul_le_mul_left (nshellSimd len) (c1.trans (le_prefixMax _ hm))
  have d2 := Nat.mul_le_mul_left len (c2.trans (le_prefixMax _ hm))
  have d3 := c3.trans (le_prefixMax _ hm)
  have r1 := le_simdRound hlen
    (nshellSimd len * prefixMax (workTables logs).bcont l)
  have r2 := le_simdRound hlen (prefixMax (workTables logs).cont l)
  unfold WorkNumbers.need worksizeEntry
  unfold workTables at *
  omega

/-- The reported size does not decrease with the AM. -/
theorem C22_monotone (len : ℕ) (hlen : 0 < len) (t : WorkTables) {l l' : ℕ} (h : l ≤ l') :
    worksizeEntry len t l ≤ worksizeEntry len t l' := by
  have a1 := simdRound_mono hlen (Nat.mul_le_mul_left (nshellSimd len) (prefixMax_mono t.bcont h))
  have a2 := simdRound_mono hlen (prefixMax_mono t.cont h)
  have a3 := Nat.mul_le_mul_left len (prefixMax_mono t.prim h)
  unfold worksizeEntry
  omega

/-- The reported size keeps a following vector array aligned. -/
theorem C22_multiple (len : ℕ) (t : WorkTables) (l : ℕ) : len ∣ worksizeEntry len t l :=
  Nat.dvd_add (Nat.dvd_add (simdRound_dvd _ _) (simdRound_dvd _ _)) (Nat.dvd_mul_right _ _)

/-- C21 with the library's own size: if the log of every generated class records the numbers of
that class, the partition of class `q` is sound for a buffer of the size reported for any
`l ≥ max(q)`. -/
theorem C21_reported (len : ℕ) (hlen : 0 < len)
    (logs : List ((ℕ × ℕ × ℕ × ℕ) × WorkNumbers)) (l : ℕ) (q : ℕ × ℕ × ℕ × ℕ) (final : QAM)
    (top all : List QAM) (mreq : QAM → ℤ) (inter : List QAM)
    (hlog : (q, workNumbers top all mreq inter) ∈ logs)
    (h1 : q.1 ≤ l) (h2 : q.2.1 ≤ l) (h3 : q.2.2.1 ≤ l) (h4 : q.2.2.2 ≤ l)
    (htop : top.Nodup) (hall : all.Nodup) (hint : inter.Nodup) :
    WorkOK len (worksizeEntry len (workTables logs) l) final top all mreq inter
      (partitionWork len final top all mreq inter) :=
  C21_partition len _ final top all mreq inter htop hall hint
    (C22_sufficient len hlen logs l _ hlog h1 h2 h3 h4)

/-- Every class the horizontal stage computes has exactly one place: the batch array of a class
handed over by the vertical stage, the output (final class of an integral function), or an
intermediate array.  In a derivative function (`0 < deriv`) the output holds derivatives, so also
the class itself needs an array. -/
theorem C21_intermediates (deriv : ℕ) (final : QAM) (order top : List QAM) :
    (getIntermediates deriv final order top).Nodup ∧
    (∀ q ∈ order, q ∈ top ∨ q ∈ getIntermediates deriv final order top ∨ (deriv = 0 ∧ q = final)) ∧
    ∀ q ∈ getIntermediates deriv final order top,
      q ∈ order ∧ q ∉ top ∧ ¬ (deriv = 0 ∧ q = final) := by
  refine ⟨List.nodup_dedup _, fun q hq => ?_, fun q hq => ?_⟩
  · by_cases h1 : q ∈ top
    · exact Or.inl h1
    by_cases h2 : deriv = 0 ∧ q = final
    · exact Or.inr (Or.inr h2)
    refine Or.inr (Or.inl ?_)
    simp only [getIntermediates, List.mem_dedup, List.mem_filter, decide_eq_true_eq]
    refine ⟨hq, h1, ?_⟩
    by_cases h3 : q = final
    · exact Or.inl (by have : deriv ≠ 0 := fun h => h2 ⟨h, h3⟩; omega)
    · exact Or.inr h3
  · simp only [getIntermediates, List.mem_dedup, List.mem_filter, decide_eq_true_eq] at hq
    refine ⟨hq.1, hq.2.1, fun ⟨h1, h2⟩ => ?_⟩
    rcases hq.2.2 with h | h
    · omega
    · exact h h2

/-! ## Concrete cases -/

example : getIntermediates 1 ⟨1, 1, 0, 0, ""⟩ [⟨1, 1, 0, 0, ""⟩, ⟨2, 1, 0, 0, ""⟩] [⟨2, 0, 0, 0, ""⟩] =
    [⟨1, 1, 0, 0, ""⟩, ⟨2, 1, 0, 0, ""⟩] := by decide +kernel

example : getIntermediates 0 ⟨1, 1, 0, 0, ""⟩ [⟨1, 1, 0, 0, ""⟩, ⟨2, 1, 0, 0, ""⟩] [⟨2, 0, 0, 0, ""⟩] =
    [⟨2, 1, 0, 0, ""⟩] := by decide +kernel

/-- (ps|ps) shape: two top classes with a horizontal stage, three primitive arrays. -/
example : (partitionWork 4 ⟨1, 1, 0, 0, ""⟩ [⟨1, 0, 0, 0, ""⟩, ⟨2, 0, 0, 0, ""⟩]
    [⟨0, 0, 0, 0, ""⟩, ⟨1, 0, 0, 0, ""⟩, ⟨2, 0, 0, 0, ""⟩] (fun q => 2 - q.a) []).map
      (fun a => (a.off, a.size)) =
    [(0, 24), (24, 48), (72, 12), (84, 24), (108, 24)] := by decide +kernel

example : worksizeEntry 4 (workTables [((0, 0, 0, 0), ⟨1, 1, 0⟩), ((1, 0, 0, 0), ⟨3, 5, 0⟩),
    ((1, 1, 0, 0), ⟨9, 15, 0⟩), ((2, 0, 0, 0), ⟨6, 10, 7⟩)]) 1 = 72 + 0 + 60 := by decide +kernel

example : worksizeEntry 4 (workTables [((0, 0, 0, 0), ⟨1, 1, 0⟩), ((1, 0, 0, 0), ⟨3, 5, 0⟩),
    ((1, 1, 0, 0), ⟨9, 15, 0⟩), ((2, 0, 0, 0), ⟨6, 10, 7⟩)]) 2 = 72 + 8 + 60 := by decide +kernel

end Simint
