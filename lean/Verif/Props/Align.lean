import Verif.AlignLemmas
import Verif.Props.Workspace
import Mathlib.Algebra.Order.Ring.Rat
import Mathlib.Tactic.NormNum

/-!
# C80: addresses of vector loads

The addresses are those of the `align`ed load instructions; the statement about them uses only
divisibility and the bounds of the array and of the block.
-/

set_option autoImplicit false

namespace Simint.Align

open Simint

/-- `posix_memalign` accepts the alignment of the library exactly for vectors of a power of two
doubles. -/
theorem C80_alloc (len : ℕ) : memalignAccepts (alignDbl len) ↔ ∃ k, len = 2 ^ k := by
  unfold memalignAccepts alignDbl
  constructor
  · rintro ⟨⟨k, hk⟩, -⟩
    have h8 : (8 : ℕ) = 2 ^ 3 := rfl
    have hd : 2 ^ 3 ∣ 2 ^ k := by rw [← hk]; exact Dvd.intro_left len rfl
    have h3 : 3 ≤ k := (Nat.pow_dvd_pow_iff_le_right (by omega)).1 hd
    refine ⟨k - 3, ?_⟩
    have : 2 ^ k = 2 ^ (k - 3) * 8 := by rw [h8, ← pow_add]; congr 1; omega
    omega
  · rintro ⟨k, rfl⟩
    exact ⟨⟨k + 3, by rw [pow_add]; rfl⟩, Dvd.intro_left _ rfl⟩

section
variable {F : Type} [CommRing F] [LinearOrder F]

/-- Every vector load of a call: the array exists, the address is a multiple of the size of a vector
and the vector lies inside the array, which lies inside the block.  `ns` are the numbers of
primitives of the pairs of the ket list. -/
theorem C80_loads (e : DEnv F) (c : LoadCfg) (g : ShCfg) (ns : List ℕ) (base : ℕ) (hl : 0 < e.len)
    (hnp : ∀ i < ns.length, e.Q.nprim12 i = ns.getD i 0) (hclip : e.Q.nclip ≤ ns.length)
    (hscreen : e.tol > 0 → g.screening = true) (hderiv : c.deriv = true → g.deriv = true)
    (hbase : 8 * e.len ∣ base) :
    ∀ l ∈ runLoads e c, ∃ off addr,
      l.1.offset g ns.length (countPrims e.len ns) = some off ∧
      elemAddr g ns.length (countPrims e.len ns) base l = some addr ∧
      8 * e.len ∣ addr ∧ base + off ≤ addr ∧
      addr + 8 * e.len ≤ base + off + l.1.bytes ns.length (countPrims e.len ns) ∧
      off + l.1.bytes ns.length (countPrims e.len ns) ≤ g.need ns.length (countPrims e.len ns) := by
  intro l hm
  obtain ⟨hwhich, hd, hin⟩ := runLoads_good hl ns hnp hclip l hm
  obtain ⟨a, j⟩ := l
  simp only at hwhich hd hin ⊢
  set n := countPrims e.len ns with hn
  have hex : ∃ k, a.num g = some k ∧ k < g.narr := by
    have hmem : (a = .screen ∧ e.check) ∨ a ∈ computeArrs c := hwhich
    have hnarr : g.narr = 11 + (if g.screening then 1 else 0) + (if g.deriv then 2 else 0) := rfl
    rcases hmem with ⟨rfl, hck⟩ | hmem
    · have := hscreen hck
      refine ⟨11, by simp [Arr.num, this], ?_⟩
      rw [hnarr, if_pos this]; omega
    · unfold computeArrs at hmem
      simp only [List.mem_append, List.mem_singleton] at hmem
      rcases hmem with (((rfl | h) | h) | h) | rfl
      · exact ⟨9, rfl, by omega⟩
      · split at h
        · rename_i hder
          have hg := hderiv hder
          rw [if_pos hg] at hnarr
          simp only [List.mem_cons, List.not_mem_nil, or_false] at h
          rcases h with rfl | rfl
          · exact ⟨_, by simp only [Arr.num]; rw [if_pos hg], by omega⟩
          · exact ⟨_, by simp only [Arr.num]; rw [if_pos hg], by omega⟩
        · exact absurd h (List.not_mem_nil)
      · obtain ⟨d, -, rfl⟩ := List.mem_map.1 h
        exact ⟨_, rfl, by cases d <;> simp only [Dir.idx] <;> omega⟩
      · split at h
        · exact absurd h (List.not_mem_nil)
        · obtain ⟨d, -, rfl⟩ := List.mem_map.1 h
          exact ⟨_, rfl, by cases d <;> simp only [Dir.idx] <;> omega⟩
        · obtain ⟨d, -, rfl⟩ := List.mem_map.1 h
          exact ⟨_, rfl, by cases d <;> simp only [Dir.idx] <;> omega⟩
      · exact ⟨10, rfl, by omega⟩
  obtain ⟨k, hk, hkn⟩ := hex
  have hoff : a.offset g ns.length n = some (k * (n * 8)) := by
    cases a <;> simp only [Arr.offset, hk, Option.map_some] <;> simp [Arr.num] at hk
  have hbytes : a.bytes ns.length n = n * 8 := by
    cases a <;> simp only [Arr.bytes] <;> simp [Arr.num] at hk
  have hn8 : 8 * e.len ∣ n * 8 := by
    rw [Nat.mul_comm n]; exact Nat.mul_dvd_mul_left 8 (countPrims_dvd hl ns)
  refine ⟨k * (n * 8), base + k * (n * 8) + 8 * j, hoff, ?_, ?_, by omega, ?_, ?_⟩
  · unfold elemAddr
    simp only [hoff, Option.map_some]
  · exact Nat.dvd_add (Nat.dvd_add hbase (Dvd.dvd.mul_left hn8 k)) (Nat.mul_dvd_mul_left 8 hd)
  · rw [hbytes]; omega
  · rw [hbytes]
    unfold ShCfg.need
    have h1 := Nat.mul_le_mul_right (n * 8) (show k + 1 ≤ g.narr from hkn)
    rw [Nat.succ_mul] at h1
    rw [Nat.mul_comm (n * 8)]
    omega

/-- The loads are complete: without screening, every slot of a primitive of a ket pair is in a vector
of prefactors that is loaded, as soon as the bra has one primitive. -/
theorem C80_cover (e : DEnv F) (c : LoadCfg) (ns : List ℕ) (hl : 0 < e.len)
    (hnp : ∀ i < ns.length, e.Q.nprim12 i = ns.getD i 0) (hclip : e.Q.nclip ≤ ns.length)
    (hs : ¬ e.tol > 0) (ab : ℕ) (hab : ab < e.P.nclip) (hpos : 0 < e.P.nprim12 ab)
    (cd k : ℕ) (hcd : cd < e.Q.nclip) (hk : k < ns.getD cd 0) :
    ∃ j, (Arr.prefac, j) ∈ runLoads e c ∧
      j ≤ paddedStart e.len (npOf ns) cd + k ∧ paddedStart e.len (npOf ns) cd + k < j + e.len :=
  cover hl ns hnp hclip hs hab hpos hcd hk

/-- A list made without screening has no array of screening values; a call with a positive tolerance
loads from it: the address is computed from the null pointer.  (`hbra`: some primitive of the first bra
pair is not skipped; its own screening value is read from the bra list.) -/
theorem C80_null_screen (e : DEnv F) (c : LoadCfg) (g : ShCfg) (npair nprim base : ℕ)
    (hg : g.screening = false) (htol : e.tol > 0)
    (hP : 0 < e.P.nclip) (hQ : 0 < e.Q.nclip) (hl : 0 < e.len) (hq : 0 < e.Q.nprim12 0)
    (i : ℕ) (hi : i < e.P.nprim12 0) (hbra : ¬ e.P.screen i * e.Q.screenMax < e.tol) :
    (Arr.screen, 0) ∈ runLoads e c ∧ elemAddr g npair nprim base (Arr.screen, 0) = none := by
  refine ⟨?_, by simp [elemAddr, Arr.offset, Arr.num, hg]⟩
  have hb : 0 < nbatches e.len e.Q.nclip := (lt_nbatches hl).2 (by simpa using hQ)
  refine mem_foldl_range _ (shellLoads_mono e c) _ hP _ ?_
  refine mem_foldl_range _ (batchLoads_mono e c _ _) _ hb _ ?_
  refine List.mem_append_right _ (List.mem_flatMap.2 ⟨i, ?_, ?_⟩)
  · rw [List.mem_range'_1]
    simp only [List.range_zero, List.foldl_nil]
    omega
  · unfold braLoads
    rw [if_neg fun h => hbra h.2]
    refine List.mem_flatMap.2 ⟨0, ?_, ?_⟩
    · rw [List.mem_range, batchEnd_eq]
      obtain ⟨h1, -, -, -⟩ := nshellBatch_spec (len := e.len) (nclip := e.Q.nclip)
        (cd := 0 * nshellSimd e.len) hl (by simpa using hQ)
      have h2 := tightStart_mono (fun s => e.Q.nprim12 (0 * nshellSimd e.len + s))
        (show 1 ≤ nshellBatch e.len e.Q.nclip (0 * nshellSimd e.len) from h1)
      have h3 : tightStart (fun s => e.Q.nprim12 (0 * nshellSimd e.len + s)) 1 = e.Q.nprim12 0 := by
        rw [tightStart_succ]
        simp [tightStart]
      rw [h3] at h2
      unfold nvec
      refine (Nat.le_div_iff_mul_le hl).2 ?_
      simp only [List.range_zero, List.foldl_nil]
      omega
    · unfold vecLoads
      rw [if_pos (show e.check from htol)]
      simp

end

/-- The arrays of vectors in the work buffer: if the buffer is aligned, so is every vector of every
such array, also in the piece of the buffer that the test programs hand to thread `ithread`. -/
theorem C80_workspace (len size : ℕ) (final : QAM) (top all : List QAM) (mreq : QAM → ℤ)
    (inter : List QAM) (t : WorkTables) (lmax base ithread : ℕ)
    (htop : top.Nodup) (hall : all.Nodup) (hint : inter.Nodup) (hbase : 8 * len ∣ base)
    (hsize : nshellSimd len * (workNumbers top all mreq inter).bcont
      + len * (workNumbers top all mreq inter).prim + (workNumbers top all mreq inter).cont ≤ size) :
    ∀ a ∈ partitionWork len final top all mreq inter, ∀ q, a.name = .prim q → ∀ v,
      8 * len ∣ threadWork len t lmax base ithread + 8 * a.off + 8 * len * v := by
  intro a ha q hq v
  have hok := C21_partition len size final top all mreq inter htop hall hint hsize
  have h1 : 8 * len ∣ 8 * (ithread * worksizeEntry len t lmax) :=
    Nat.mul_dvd_mul_left 8 (Dvd.dvd.mul_left (C22_multiple len t lmax) ithread)
  exact Nat.dvd_add (Nat.dvd_add (Nat.dvd_add hbase h1)
    (Nat.mul_dvd_mul_left 8 (hok.aligned a ha q hq))) (Nat.dvd_mul_right _ _)

/-- The pieces of the result buffer that the test programs hand to their threads are aligned — which
the generated functions tell the Intel compiler they are (`SIMINT_ASSUME_ALIGN_DBL`,
OSTEI_Writer.cpp:410) — exactly if the size of a piece is a multiple of the vector length. -/
theorem C80_results (len maxsize base nthread : ℕ) (hbase : 8 * len ∣ base) (hn : 2 ≤ nthread) :
    (∀ i < nthread, 8 * len ∣ threadRes maxsize base i) ↔ len ∣ maxsize := by
  unfold threadRes
  constructor
  · intro h
    have h1 := (Nat.dvd_add_right hbase).1 (h 1 (by omega))
    rw [Nat.one_mul] at h1
    exact Nat.dvd_of_mul_dvd_mul_left (by omega) h1
  · intro h i _
    exact Nat.dvd_add hbase (Nat.mul_dvd_mul_left 8 (Dvd.dvd.mul_left h i))

/-- Three p shells and vectors of four doubles: the second thread gets a misaligned piece. -/
theorem C80_results_false : ∃ maxel maxam, ¬ 8 * 4 ∣ threadRes (maxSize maxel maxam) 0 1 :=
  ⟨9, 1, by decide⟩

/-- `contract_all` of the AVX-512 header loads vectors from a local array of doubles that asks for no
alignment.  The loads are aligned exactly if the array happens to be; the x86-64 calling convention
gives such arrays a multiple of 16. -/
theorem C80_tmp (tmp i : ℕ) : 64 ∣ tmpLoad tmp i ↔ 64 ∣ tmp := by
  unfold tmpLoad
  omega

/-- An array at a multiple of 16 whose loads are all misaligned. -/
theorem C80_tmp_false : ∃ tmp, 16 ∣ tmp ∧ ∀ i < 8, ¬ 64 ∣ tmpLoad tmp i :=
  ⟨16, by decide, by decide⟩

/-! ## A concrete case -/

/-- Ket list of three pairs with 3, 2 and 1 primitives, bra of one pair with 2 primitives, vectors of
two doubles. -/
def exEnv : DEnv ℚ where
  len := 2
  tops := []
  P := ⟨1, fun _ => 2, 2, fun _ => 0, fun _ => 1, 1, fun _ => 0, fun _ _ => 0, fun _ _ => 0,
    fun _ _ => 0, fun _ _ => 0⟩
  Q := ⟨3, fun i => [3, 2, 1].getD i 0, 6, fun _ => 0, fun _ => 1, 1, fun _ => 0, fun _ _ => 0,
    fun _ _ => 0, fun _ _ => 0, fun _ _ => 0⟩
  tol := 0
  size := fun _ => 0
  vec := fun _ _ _ => none

/-- Six slots, three vectors for each of the two primitives of the bra, eight loads each. -/
example : countPrims 2 [3, 2, 1] = 6 ∧
    (runLoads exEnv ⟨some true, false⟩).length = 48 ∧
    (runLoads exEnv ⟨some true, false⟩).take 9 = [(.alpha, 0), (.pos .x, 0), (.pos .y, 0),
      (.pos .z, 0), (.PA .x, 0), (.PA .y, 0), (.PA .z, 0), (.prefac, 0), (.alpha, 2)] := by
  decide +kernel

/-- The theorem applies to it: a block at address 64. -/
example : ∀ l ∈ runLoads exEnv ⟨some true, false⟩, ∃ off addr,
    l.1.offset ⟨2, false, false⟩ 3 6 = some off ∧
    elemAddr ⟨2, false, false⟩ 3 6 64 l = some addr ∧ 16 ∣ addr ∧ 64 + off ≤ addr ∧
    addr + 16 ≤ 64 + off + l.1.bytes 3 6 ∧
    off + l.1.bytes 3 6 ≤ ShCfg.need ⟨2, false, false⟩ 3 6 := by
  have h := C80_loads exEnv ⟨some true, false⟩ ⟨2, false, false⟩ [3, 2, 1] 64 (by decide)
    (fun _ _ => rfl) (by decide) (fun h => absurd h (by simp [exEnv])) (by simp) (by decide)
  have e : countPrims exEnv.len [3, 2, 1] = 6 := by decide +kernel
  rw [e] at h
  exact h

/-- The prefactors of the last vector are at byte `10·48 + 32` of the block. -/
example : elemAddr ⟨2, false, false⟩ 3 6 64 (.prefac, 4) = some 576 := by decide

end Simint.Align
