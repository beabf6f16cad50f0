import Verif.Shell
import Verif.Workspace

/-!
# Addresses of vector loads

`SIMINT_DBLLOAD` and `mask_load` are `_mm_load_pd`, `_mm256_load_pd`, `_mm512_load_pd`
(intrinsics_sse.h:43 and 157, intrinsics_avx.h:53 and 220, intrinsics_avx512.h:53 and 211): they
fault unless the address is a multiple of the size of the vector.  This file lists, in the order of
the generated text, the loads that a generated integral function makes from the list of shell pairs
of the ket (generator/ostei/OSTEI_Writer.cpp:470-741 and OSTEIDeriv1_Writer.cpp:690-930), with the
same control flow as `runDirect` and `runHrr` (Driver.lean).  Addresses are natural numbers.
-/

set_option autoImplicit false

namespace Simint.Align

open Simint

/-- `SIMINT_SIMD_ALIGN_DBL`, vectorization.h:24: bytes of a vector. -/
def alignDbl (len : ℕ) : ℕ := len * 8

/-- Alignments that `posix_memalign` accepts: powers of two that are multiples of
`sizeof(void *)`; for others it stores nothing and `simint_malloc_aligned` (vectorization.h:48-53)
returns `NULL`. -/
def memalignAccepts (a : ℕ) : Prop := (∃ k, a = 2 ^ k) ∧ 8 ∣ a

/-- What decides which arrays are loaded: `ket` is `none` without vertical recurrence on the ket,
`some true` if the recurrence works on the third index (`HasVRR_K`: `Q.PA_*`), `some false` for the
fourth (`Q.PB_*`), OSTEI_Writer.cpp:630-650; `deriv` for the derivative functions,
OSTEIDeriv1_Writer.cpp:800-801. -/
structure LoadCfg where
  ket : Option Bool
  deriv : Bool

/-- A load of the vector that starts at element `j` of an array of the ket list. -/
abbrev Load := Arr × ℕ

section
variable {F : Type} [CommRing F] [LinearOrder F]

/-- Arrays that are loaded for a vector that is computed, OSTEI_Writer.cpp:595-688. -/
def computeArrs (c : LoadCfg) : List Arr :=
  [.alpha] ++ (if c.deriv then [.alpha2, .beta2] else []) ++ dirList.map .pos ++
    (match c.ket with
      | none => []
      | some true => dirList.map .PA
      | some false => dirList.map .PB) ++ [.prefac]

/-- Loads of one pass of the loop over `j`, OSTEI_Writer.cpp:569-688. -/
def vecLoads (e : DEnv F) (c : LoadCfg) (i j : ℕ) : List Load :=
  (if e.check then [(.screen, j)] else []) ++
    if e.skipVec i j then [] else (computeArrs c).map fun a => (a, j)

/-- Loads for one primitive of the bra, OSTEI_Writer.cpp:499-708. -/
def braLoads (e : DEnv F) (c : LoadCfg) (jstart jend i : ℕ) : List Load :=
  if e.skipBra i then []
  else (List.range (nvec e.len jstart jend)).flatMap fun v => vecLoads e c i (jstart + v * e.len)

/-- One batch of ket shells, OSTEI_Writer.cpp:481-719. State: `jstart` and the loads so far. -/
def batchLoads (e : DEnv F) (c : LoadCfg) (istart iend : ℕ) (st : ℕ × List Load) (b : ℕ) :
    ℕ × List Load :=
  let cd := b * nshellSimd e.len
  let nb := nshellBatch e.len e.Q.nclip cd
  let jend := batchEnd e.Q.nprim12 cd nb st.1
  (simdRound e.len jend,
    st.2 ++ (List.range' istart (iend - istart)).flatMap (braLoads e c st.1 jend))

/-- One bra shell, OSTEI_Writer.cpp:470-741. State: `istart` and the loads so far. -/
def shellLoads (e : DEnv F) (c : LoadCfg) (st : ℕ × List Load) (ab : ℕ) : ℕ × List Load :=
  let iend := st.1 + e.P.nprim12 ab
  (iend, ((List.range (nbatches e.len e.Q.nclip)).foldl (batchLoads e c st.1 iend) (0, st.2)).2)

/-- All loads of a call. -/
def runLoads (e : DEnv F) (c : LoadCfg) : List Load :=
  ((List.range e.P.nclip).foldl (shellLoads e c) (0, [])).2

end

/-- Address of element `j` of an array of a list of `npair` pairs with `nprim` slots whose block is
at `base`; `none` if the array is the null pointer. -/
def elemAddr (g : ShCfg) (npair nprim base : ℕ) (l : Load) : Option ℕ :=
  (l.1.offset g npair nprim).map fun off => base + off + 8 * l.2

/-- `work + ithread * simint_ostei_worksize(der, maxam)` of the test programs, test_eri.cpp:133 and
test_eri_deriv1.cpp:133, in bytes. -/
def threadWork (len : ℕ) (t : WorkTables) (l base ithread : ℕ) : ℕ :=
  base + 8 * (ithread * worksizeEntry len t l)

/-- `all_res_simint + ithread * maxsize`, test_eri.cpp:132, in bytes. -/
def threadRes (maxsize base ithread : ℕ) : ℕ := base + 8 * (ithread * maxsize)

/-- `maxsize`, test_eri.cpp:58-61: `maxel` is the largest number of functions of one angular
momentum (`FindMaxParams`, Common.cpp:178-199), `maxam` the largest angular momentum. -/
def maxSize (maxel maxam : ℕ) : ℕ :=
  let ncart := (maxam + 1) * (maxam + 2) / 2
  maxel * maxel * ncart * ncart

/-- Address of the `i`-th load from the local array `double tmp[64]` of `contract_all`,
intrinsics_avx512.h:105-119. -/
def tmpLoad (tmp i : ℕ) : ℕ := tmp + 8 * (i * 8)

end Simint.Align
