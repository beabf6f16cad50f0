import Verif.Align

/-!
# The `int` arithmetic of the generated functions

The driver model (Driver.lean) and the shell pair model (Shell.lean) count with natural numbers; the
C code uses `int` for every counter and computes products of counters before they meet a `size_t`
or a pointer.  This file lists the value of every `int` sum, difference and product that a call
computes, with the same control flow as the driver model, and likewise for the allocation of a list of
shell pairs.  An `int` has 32 bits: a value of `2^31` or more is undefined behaviour.

Not listed: the loops inside `contract`, `contract_all` and the recurrence functions over the
components of one class (counters up to the number of components), and constants.
-/

set_option autoImplicit false

namespace Simint.IntArith

open Simint

section
variable {F : Type} [CommRing F] [LinearOrder F]

/-- One lane of `WriteShellOffsets` after the first, OSTEI_Writer.cpp:51-60. -/
def laneInts (nprim12 : ℕ → ℕ) (cd nb : ℕ) (s : OffSt) : List ℕ :=
  [s.icd + 1, s.iprim + 1] ++
    if s.iprim ≥ s.nprim ∧ s.icd + 1 < nb then
      [s.offs.getLastD 0 + 1, s.last + 1, cd + (s.icd + 1), s.nprim + nprim12 (cd + (s.icd + 1))]
    else []

/-- The lanes after the first. -/
def lanesInts (nprim12 : ℕ → ℕ) (cd nb : ℕ) : ℕ → OffSt → List ℕ
  | 0, _ => []
  | m + 1, s => laneInts nprim12 cd nb s ++ lanesInts nprim12 cd nb m (offStep nprim12 cd nb s)

/-- `WriteShellOffsets` for one vector, OSTEI_Writer.cpp:26-64; the first lane: 38-47. -/
def offsetInts (len : ℕ) (nprim12 : ℕ → ℕ) (cd nb icd iprim nprim : ℕ) : List ℕ :=
  (iprim + len) ::
    if iprim + len ≥ nprim then
      let adv := decide (iprim ≥ nprim ∧ icd + 1 < nb)
      let s0 : OffSt :=
        if adv then ⟨[0], 0, icd + 1, iprim + 1, nprim + nprim12 (cd + (icd + 1))⟩
        else ⟨[0], 0, icd, iprim + 1, nprim⟩
      [icd + 1, iprim + 1] ++
        (if adv then [cd + (icd + 1), nprim + nprim12 (cd + (icd + 1))] else []) ++
        lanesInts nprim12 cd nb (len - 1) s0
    else []

/-- One pass of the loop over `j`, OSTEI_Writer.cpp:564-708: `nlane`, the shell offsets, the advance of
the pointers (583-584 and 94-95), `offsets[n]*ncart` of `contract`, and `j += SIMINT_SIMD_LEN`. -/
def vecInts (e : DEnv F) (cd nb jend i icd iprim nprim j : ℕ) : List ℕ :=
  let r := shellOffsets e.len e.Q.nprim12 cd nb icd iprim nprim
  [j + e.len] ++ (if j + e.len < jend then [] else [jend - j]) ++
    offsetInts e.len e.Q.nprim12 cd nb icd iprim nprim ++
    (if e.skipVec i j then e.tops.map fun t => r.last * ncartQ t
     else if r.last = 0 then []
     else e.tops.flatMap fun t =>
      ((List.range e.len).map fun n => r.offs.getD n 0 * ncartQ t) ++ [r.last * ncartQ t])

/-- State of the loop over vectors: `icd`, `iprimcd`, `nprim_icd` and the values so far. -/
structure VSt where
  icd : ℕ
  iprim : ℕ
  nprim : ℕ
  ints : List ℕ

def vecStepInts (e : DEnv F) (cd nb jend i : ℕ) (st : VSt) (j : ℕ) : VSt :=
  let r := shellOffsets e.len e.Q.nprim12 cd nb st.icd st.iprim st.nprim
  ⟨r.icd, r.iprim, r.nprim, st.ints ++ vecInts e cd nb jend i st.icd st.iprim st.nprim j⟩

/-- One primitive of the bra, OSTEI_Writer.cpp:499-709; `abcd * ncart` is OSTEI_Writer_Base.cpp:27-28. -/
def braInts (e : DEnv F) (abcd cd nb jstart jend i : ℕ) : List ℕ :=
  (i + 1) ::
    if e.skipBra i then []
    else
      (e.tops.map fun t => abcd * ncartQ t) ++
      ((List.range (nvec e.len jstart jend)).foldl
        (fun st v => vecStepInts e cd nb jend i st (jstart + v * e.len))
        ⟨0, 0, e.Q.nprim12 cd, []⟩).ints

/-- What a function with a horizontal stage computes in addition: `bcont` is the number printed in the
`memset` of the work buffer (OSTEI_Writer.cpp:493), `ncart` the number of components of the class,
`deriv` for the additional factor 12 (OSTEI_HRR_Writer.cpp:143-146). -/
structure HCfg where
  bcont : ℕ
  ncart : ℕ
  deriv : Bool

/-- One quartet of the horizontal stage, OSTEI_HRR_Writer.cpp:132-146. -/
def hrrInts (e : DEnv F) (h : HCfg) (cd real abcd : ℕ) : List ℕ :=
  [cd + abcd] ++ (e.tops.map fun t => abcd * ncartQ t) ++ [(real + abcd) * h.ncart] ++
    (if h.deriv then [(real + abcd) * h.ncart * 12] else []) ++ [abcd + 1, real + abcd + 1]

/-- One batch of ket shells, OSTEI_Writer.cpp:480-732. `cnt` is `abcd` without and `real_abcd` with a
horizontal stage (before the batch). -/
def batchInts (e : DEnv F) (h : Option HCfg) (istart iend cnt jstart b : ℕ) : List ℕ :=
  let cd := b * nshellSimd e.len
  let nb := nshellBatch e.len e.Q.nclip cd
  let jend := batchEnd e.Q.nprim12 cd nb jstart
  [cd + nshellSimd e.len] ++ (if cd + nshellSimd e.len > e.Q.nclip then [e.Q.nclip - cd] else []) ++
    ((List.range nb).flatMap fun i => [cd + i, batchEnd e.Q.nprim12 cd (i + 1) jstart, i + 1]) ++
    (match h with | none => [] | some h => [nshellSimd e.len * h.bcont]) ++
    ((List.range' istart (iend - istart)).flatMap
      (braInts e (match h with | none => cnt | some _ => 0) cd nb jstart jend)) ++
    [jend + (e.len - 1)] ++
    (match h with
      | none => [cnt + nb]
      | some h => (List.range nb).flatMap (hrrInts e h cd cnt))

/-- State of the loop over batches: `cnt`, `jstart` and the values so far. -/
structure BSt where
  cnt : ℕ
  jstart : ℕ
  ints : List ℕ

def batchStepInts (e : DEnv F) (h : Option HCfg) (istart iend : ℕ) (st : BSt) (b : ℕ) : BSt :=
  let cd := b * nshellSimd e.len
  let nb := nshellBatch e.len e.Q.nclip cd
  let jend := batchEnd e.Q.nprim12 cd nb st.jstart
  ⟨st.cnt + nb, simdRound e.len jend, st.ints ++ batchInts e h istart iend st.cnt st.jstart b⟩

/-- State of the loop over bra shells: `istart`, `cnt` and the values so far. -/
structure SSt where
  istart : ℕ
  cnt : ℕ
  ints : List ℕ

/-- One bra shell, OSTEI_Writer.cpp:470-744. -/
def shellStepInts (e : DEnv F) (h : Option HCfg) (st : SSt) (ab : ℕ) : SSt :=
  let iend := st.istart + e.P.nprim12 ab
  let r := (List.range (nbatches e.len e.Q.nclip)).foldl (batchStepInts e h st.istart iend)
    ⟨st.cnt, 0, st.ints ++ [iend, ab + 1]⟩
  ⟨iend, r.cnt, r.ints⟩

/-- The products in front of `sizeof(double)` in the `memset` of a function without horizontal stage,
OSTEI_Writer.cpp:418-421: `P.nshell12_clip * Q.nshell12_clip * ncart`, from left to right. -/
def memsetInts (nP nQ ncart : ℕ) : List ℕ := [nP * nQ, nP * nQ * ncart]

/-- All `int` values of a call of a function without horizontal stage that accumulates into the
result of `ncart` components. -/
def directInts (e : DEnv F) (ncart : ℕ) : List ℕ :=
  memsetInts e.P.nclip e.Q.nclip ncart ++
    ((List.range e.P.nclip).foldl (shellStepInts e none) ⟨0, 0, []⟩).ints ++
    [e.P.nclip * e.Q.nclip]

/-- All `int` values of a call of a function with a horizontal stage. -/
def hrrCallInts (e : DEnv F) (h : HCfg) : List ℕ :=
  ((List.range e.P.nclip).foldl (shellStepInts e (some h)) ⟨0, 0, []⟩).ints ++
    [e.P.nclip * e.Q.nclip]

end

/-! ## Allocation of a list -/

section
variable {F : Type}

/-- The number of pairs of primitives, shell.c:362-365. -/
def pairInts (A B : Shell F) : List ℕ :=
  if sameShell A B then [A.nprim + 1, A.nprim * (A.nprim + 1)] else [A.nprim * B.nprim]

/-- One pass of the counting loop, shell.c:360-379; `ij` is `2 * i`. -/
def countInts (len npair : ℕ) (st : CountSt) (A B : Shell F) : List ℕ :=
  let batch := st.batch + pairPrims A B
  [2 * st.i + 1] ++ pairInts A B ++ [batch, st.i + 1] ++
    (if (st.i + 1) % nshellSimd len = 0 ∨ npair ≤ st.i + 1 then
      [batch + (len - 1), st.nprim + simdRound len batch] else []) ++ [2 * st.i + 2]

def countStepInts (len npair : ℕ) (st : CountSt × List ℕ) (p : Shell F × Shell F) :
    CountSt × List ℕ :=
  (countStep len npair st.1 (pairPrims p.1 p.2), st.2 ++ countInts len npair st.1 p.1 p.2)

/-- `simint_allocate_multi_shellpair2`, shell.c:352-382. -/
def allocInts (len : ℕ) (ps : List (Shell F × Shell F)) : List ℕ :=
  (ps.foldl (countStepInts len ps.length) (⟨0, 0, 0⟩, [])).2

end

/-! ## What a compiler that wraps makes of the `memset` -/

/-- The third argument of the `memset` with wrapping 32-bit products, converted to `size_t` (sign
extension) and multiplied by `sizeof(double)`. -/
def memsetBytes (nP nQ ncart : ℕ) : BitVec 64 :=
  ((BitVec.ofNat 32 nP * BitVec.ofNat 32 nQ * BitVec.ofNat 32 ncart).signExtend 64) * 8#64

end Simint.IntArith
