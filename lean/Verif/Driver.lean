import Verif.Simd

/-!
# Driver loops of a generated integral function

Model of the text written by `Write_Full_` (generator/ostei/OSTEI_Writer.cpp:321-754) together
with `WriteShellOffsets` (26-64), `WriteAccumulation` (67-99) and `DeclarePrimPointers`
(OSTEI_Writer_Base.cpp:21-31).  The primitive stage (Boys function and vertical recurrence) and
the horizontal stage are parameters; they are modelled in `VRR.lean` and `HRR.lean`.

Counters are natural numbers (the C code uses `int`; overflow is not modelled).
-/

set_option autoImplicit false

namespace Simint

/-- `struct simint_multi_shellpair`, skel/simint/shell/shell.h:42-84: the members the integral
functions read.  `alloc` is the number of elements of each per-primitive array. -/
structure MSP (F : Type) where
  nclip : ℕ
  nprim12 : ℕ → ℕ
  alloc : ℕ
  prefac : ℕ → F
  screen : ℕ → F
  screenMax : F
  alpha : ℕ → F
  pos : Dir → ℕ → F
  PA : Dir → ℕ → F
  PB : Dir → ℕ → F
  AB : Dir → ℕ → F

/-- Variables of `WriteShellOffsets` while it walks through the lanes of a vector:
`shelloffsets` (entries written so far), `lastoffset`, `icd`, `iprimcd`, `nprim_icd`. -/
structure OffSt where
  offs : List ℕ
  last : ℕ
  icd : ℕ
  iprim : ℕ
  nprim : ℕ

/-- Loop body for lanes `n ≥ 1`, OSTEI_Writer.cpp:49-59. -/
def offStep (nprim12 : ℕ → ℕ) (cd nbatch : ℕ) (s : OffSt) : OffSt :=
  if s.iprim ≥ s.nprim ∧ s.icd + 1 < nbatch then
    { offs := s.offs ++ [s.offs.getLastD 0 + 1]
      last := s.last + 1
      icd := s.icd + 1
      nprim := s.nprim + nprim12 (cd + (s.icd + 1))
      iprim := s.iprim + 1 }
  else { s with offs := s.offs ++ [s.offs.getLastD 0], iprim := s.iprim + 1 }

/-- Result of the shell-offset computation for one vector. `adv` tells whether the first lane
opens a new shell, in which case every `PRIM_PTR` is advanced by one shell (lines 44-45). -/
structure OffRes where
  offs : List ℕ
  last : ℕ
  adv : Bool
  icd : ℕ
  iprim : ℕ
  nprim : ℕ

/-- `WriteShellOffsets`, OSTEI_Writer.cpp:26-64. -/
def shellOffsets (len : ℕ) (nprim12 : ℕ → ℕ) (cd nbatch icd iprim nprim : ℕ) : OffRes :=
  if iprim + len ≥ nprim then
    let adv := decide (iprim ≥ nprim ∧ icd + 1 < nbatch)
    let s0 : OffSt :=
      if adv then ⟨[0], 0, icd + 1, iprim + 1, nprim + nprim12 (cd + (icd + 1))⟩
      else ⟨[0], 0, icd, iprim + 1, nprim⟩
    let s := (offStep nprim12 cd nbatch)^[len - 1] s0
    ⟨s.offs, s.last, adv, s.icd, s.iprim, s.nprim⟩
  else ⟨List.replicate len 0, 0, false, icd, iprim + len, nprim⟩

/-- State carried through the loop over ket vectors: bookkeeping, the pointers `PRIM_PTR` (as
element offsets into the arrays they point into) and the accumulation arrays. -/
structure DSt (F : Type) where
  icd : ℕ
  iprim : ℕ
  nprim : ℕ
  ptr : QAM → ℕ
  mem : QAM → ℕ → F

/-- Everything that does not change during a call.
* `size t`: number of elements of accumulation array `t`;
* `vec i j pf`: the primitive stage on one vector: bra primitive `i`, ket primitives
  `j … j+len-1`, ket prefactors `pf` already masked; result lane → class → component → value;
* `tol`: `screen_tol` (already squared), checked only when positive (line 427). -/
structure DEnv (F : Type) where
  len : ℕ
  tops : List QAM
  P : MSP F
  Q : MSP F
  tol : F
  size : QAM → ℕ
  vec : ℕ → ℕ → (ℕ → F) → Option (ℕ → QAM → ℕ → F)

section
variable {F : Type} [Add F] [Zero F] [Mul F] [LinearOrder F]

/-- `WriteAccumulation`, OSTEI_Writer.cpp:67-99, the calls for all classes handed over. -/
def accumulate (e : DEnv F) (offs : List ℕ) (last : ℕ) (ptr : QAM → ℕ)
    (src : ℕ → QAM → ℕ → F) (mem : QAM → ℕ → F) : Option (QAM → ℕ → F) :=
  e.tops.foldlM (fun m t =>
    (if last = 0 then
        contractAll (e.size t) e.len (ncartQ t) (fun np n => src n t np) (ptr t) (m t)
      else
        contract (e.size t) e.len (ncartQ t) (fun n => offs.getD n 0) (fun np n => src n t np)
          (ptr t) (m t)).map fun b => Function.update m t b) mem

/-- `check_screen`, OSTEI_Writer.cpp:428. -/
def DEnv.check (e : DEnv F) : Prop := e.tol > 0

instance (e : DEnv F) : Decidable e.check := inferInstanceAs (Decidable (e.tol > 0))

/-- The vector is skipped: `vector_max(P.screen[i] * Q.screen[j..]) < screen_tol`,
OSTEI_Writer.cpp:570-587. -/
def DEnv.skipVec (e : DEnv F) (i j : ℕ) : Prop :=
  e.check ∧ vectorMax e.len (fun n => e.P.screen i * e.Q.screen (j + n)) < e.tol

instance (e : DEnv F) (i j : ℕ) : Decidable (e.skipVec i j) := inferInstanceAs (Decidable (_ ∧ _))

/-- The whole bra primitive is skipped, OSTEI_Writer.cpp:501-518. -/
def DEnv.skipBra (e : DEnv F) (i : ℕ) : Prop := e.check ∧ e.P.screen i * e.Q.screenMax < e.tol

instance (e : DEnv F) (i : ℕ) : Decidable (e.skipBra i) := inferInstanceAs (Decidable (_ ∧ _))

/-- Body of the loop over `j`, OSTEI_Writer.cpp:564-712, for the vector that starts at `j`. -/
def vecStep (e : DEnv F) (cd nbatch jend i : ℕ) (st : DSt F) (j : ℕ) : Option (DSt F) :=
  let r := shellOffsets e.len e.Q.nprim12 cd nbatch st.icd st.iprim st.nprim
  let nlane := if j + e.len < jend then e.len else jend - j
  let ptr := fun t => if r.adv then st.ptr t + ncartQ t else st.ptr t
  let ptr' := fun t => ptr t + r.last * ncartQ t
  if j + e.len ≤ e.Q.alloc then
    if e.skipVec i j then some ⟨r.icd, r.iprim, r.nprim, ptr', st.mem⟩
    else
      (e.vec i j (maskLoad nlane e.Q.prefac j)).bind fun src =>
      (accumulate e r.offs r.last ptr src st.mem).map fun mem =>
        ⟨r.icd, r.iprim, r.nprim, if r.last = 0 then ptr else ptr', mem⟩
  else none

/-- Number of iterations of `for(j = jstart; j < jend; j += SIMINT_SIMD_LEN)`. -/
def nvec (len jstart jend : ℕ) : ℕ := (jend - jstart + (len - 1)) / len

/-- Body of the loop over bra primitives, OSTEI_Writer.cpp:499-713. -/
def braPrim (e : DEnv F) (abcd cd nbatch jstart jend : ℕ) (mem : QAM → ℕ → F) (i : ℕ) :
    Option (QAM → ℕ → F) :=
  if i < e.P.alloc then
    if e.skipBra i then some mem
    else
      ((List.range (nvec e.len jstart jend)).foldlM
        (fun st v => vecStep e cd nbatch jend i st (jstart + v * e.len))
        { icd := 0, iprim := 0, nprim := e.Q.nprim12 cd
          ptr := fun t => abcd * ncartQ t, mem := mem }).map DSt.mem
  else none

/-- Loop over bra primitives, OSTEI_Writer.cpp:499. -/
def braPrims (e : DEnv F) (abcd cd nbatch jstart jend istart iend : ℕ) (mem : QAM → ℕ → F) :
    Option (QAM → ℕ → F) :=
  (List.range' istart (iend - istart)).foldlM (braPrim e abcd cd nbatch jstart jend) mem

/-- `nshellbatch`, OSTEI_Writer.cpp:482. -/
def nshellBatch (len nclip cd : ℕ) : ℕ :=
  if cd + nshellSimd len > nclip then nclip - cd else nshellSimd len

/-- `jend`, OSTEI_Writer.cpp:484-486. -/
def batchEnd (nprim12 : ℕ → ℕ) (cd nbatch jstart : ℕ) : ℕ :=
  (List.range nbatch).foldl (fun s i => s + nprim12 (cd + i)) jstart

/-! ## Function without horizontal stage: accumulate directly into the output -/

/-- State of the loops over shells without a horizontal stage. -/
structure DirectSt (F : Type) where
  abcd : ℕ
  jstart : ℕ
  mem : QAM → ℕ → F

/-- Body of the batch loop, OSTEI_Writer.cpp:480-720 with `hashrr` false. -/
def batchDirect (e : DEnv F) (istart iend : ℕ) (st : DirectSt F) (b : ℕ) : Option (DirectSt F) :=
  let cd := b * nshellSimd e.len
  let nb := nshellBatch e.len e.Q.nclip cd
  let jend := batchEnd e.Q.nprim12 cd nb st.jstart
  (braPrims e st.abcd cd nb st.jstart jend istart iend st.mem).map fun mem =>
    ⟨st.abcd + nb, simdRound e.len jend, mem⟩

/-- Number of iterations of `for(cd = 0; cd < Q.nshell12_clip; cd += SIMINT_NSHELL_SIMD)`. -/
def nbatches (len nclip : ℕ) : ℕ := (nclip + (nshellSimd len - 1)) / nshellSimd len

/-- Loop over bra shells, OSTEI_Writer.cpp:470-736 with `hashrr` false.
State: `(istart, abcd, mem)`. -/
def bodyDirect (e : DEnv F) (st : ℕ × ℕ × (QAM → ℕ → F)) (ab : ℕ) :
    Option (ℕ × ℕ × (QAM → ℕ → F)) :=
  let iend := st.1 + e.P.nprim12 ab
  ((List.range (nbatches e.len e.Q.nclip)).foldlM (batchDirect e st.1 iend)
    ⟨st.2.1, 0, st.2.2⟩).map fun r => (iend, r.abcd, r.mem)

/-- The function for a class without horizontal stage: the output array (`tops = [final]`) is
cleared first (OSTEI_Writer.cpp:419-421). Result: number of quartets and output. -/
def runDirect (e : DEnv F) (final : QAM) (out : ℕ → F) : Option (ℕ × (ℕ → F)) :=
  let n := e.P.nclip * e.Q.nclip * ncartQ final
  if n ≤ e.size final then
    let mem0 : QAM → ℕ → F := fun _ k => if k < n then 0 else out k
    ((List.range e.P.nclip).foldlM (bodyDirect e) (0, 0, mem0)).map fun r =>
      (e.P.nclip * e.Q.nclip, r.2.2 final)
  else none

/-! ## Function with horizontal stage -/

/-- Parameters of the horizontal stage: `hrr ab cd` runs the emitted statements for the quartet
of bra shell `ab` and ket shell `cd` on the arrays `HRR_...`; `blk` is the number of output elements
per quartet (`NCART` of the class, in derivative functions `12 * NCART`,
OSTEI_HRR_Writer.cpp:141-144). -/
structure HEnv (F : Type) where
  hrr : ℕ → ℕ → HMem F → Option (HMem F)
  blk : ℕ
  outSize : ℕ

/-- State of the loops over shells with a horizontal stage: batch arrays, intermediate arrays,
output. -/
structure HSt (F : Type) where
  realAbcd : ℕ
  jstart : ℕ
  mem : QAM → ℕ → F
  hmem : HMem F
  out : ℕ → F

/-- Body of the loop over the quartets of a batch, OSTEI_HRR_Writer.cpp:132-146 and the end of
the block: the handed-over arrays are seen from element `abcd * NCART` on, the final array is a
block of the output. -/
def hrrOne (e : DEnv F) (h : HEnv F) (final : QAM) (ab cd : ℕ) (st : HSt F) (abcd : ℕ) :
    Option (HSt F) :=
  let nf := h.blk
  if (st.realAbcd + 1) * nf ≤ h.outSize then
    let view : HMem F := fun q i =>
      if q ∈ e.tops then st.mem q (abcd * ncartQ q + i)
      else if q = final then st.out (st.realAbcd * nf + i)
      else st.hmem q i
    (h.hrr ab (cd + abcd) view).map fun m =>
      { st with
        realAbcd := st.realAbcd + 1
        hmem := m
        out := fun k =>
          if st.realAbcd * nf ≤ k ∧ k < st.realAbcd * nf + nf then m final (k - st.realAbcd * nf)
          else st.out k }
  else none

/-- Body of the batch loop, OSTEI_Writer.cpp:480-731 with `hashrr` true: the batch arrays are
cleared, filled, and the horizontal stage runs on each quartet. -/
def batchHrr (e : DEnv F) (h : HEnv F) (final : QAM) (ab istart iend : ℕ) (st : HSt F) (b : ℕ) :
    Option (HSt F) :=
  let cd := b * nshellSimd e.len
  let nb := nshellBatch e.len e.Q.nclip cd
  let jend := batchEnd e.Q.nprim12 cd nb st.jstart
  (braPrims e 0 cd nb st.jstart jend istart iend (fun _ _ => 0)).bind fun mem =>
    (List.range nb).foldlM (hrrOne e h final ab cd)
      { st with jstart := simdRound e.len jend, mem := mem }

/-- Loop over bra shells with a horizontal stage. State: `(istart, rest)`; `jstart` restarts at
zero (OSTEI_Writer.cpp:476-477). -/
def bodyHrr (e : DEnv F) (h : HEnv F) (final : QAM) (st : ℕ × HSt F) (ab : ℕ) :
    Option (ℕ × HSt F) :=
  let iend := st.1 + e.P.nprim12 ab
  ((List.range (nbatches e.len e.Q.nclip)).foldlM (batchHrr e h final ab st.1 iend)
    { st.2 with jstart := 0 }).map fun r => (iend, r)

/-- The function for a class with horizontal stage. -/
def runHrr (e : DEnv F) (h : HEnv F) (final : QAM) (hmem : HMem F) (out : ℕ → F) :
    Option (ℕ × (ℕ → F)) :=
  ((List.range e.P.nclip).foldlM (bodyHrr e h final)
    (0, ⟨0, 0, fun _ _ => 0, hmem, out⟩)).map fun r => (e.P.nclip * e.Q.nclip, r.2.out)

end

end Simint
