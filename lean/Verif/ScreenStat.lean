import Verif.Driver

/-!
# Statistics of primitive screening

The blocks under `SIMINT_PRIM_SCREEN_STAT` of a generated integral function
(generator/ostei/OSTEI_Writer.cpp:454-456, 509-513, 579-582, 588-593, 739-745; the same blocks are in
skel/ostei_s_s_s_s.c:54-56, 135-139, 216-219, 224-229, 327-333), in the loops of `Verif/Driver.lean`.
The four counters are `(calc_nprim, skip_nprim, calc_nvec, skip_nvec)`.

Simplified: counters are natural numbers (`int` in the code); stored counters are kept as natural
numbers (`double` in the code).
-/

set_option autoImplicit false

namespace Simint.Stat

/-- `calc_nprim, skip_nprim, calc_nvec, skip_nvec`. -/
abbrev Counts := ℕ × ℕ × ℕ × ℕ

section
variable {F : Type} [Add F] [Zero F] [Mul F] [LinearOrder F]

/-- `prim_screen_res`, OSTEI_Writer.cpp:569-575: zero without screening. -/
def screenRes (e : DEnv F) (i j n : ℕ) : F :=
  if e.check then e.P.screen i * e.Q.screen (j + n) else 0

/-- `count_prim_screen_survival`, intrinsics_avx.h:228-235, intrinsics_avx512.h:219-226,
intrinsics_asimd.h:154-161, intrinsics_sve.h:188-195. -/
def survivors (len : ℕ) (v : ℕ → F) (tol : F) : ℕ :=
  (List.range len).foldl (fun res n => if v n ≥ tol then res + 1 else res) 0

/-- One pass of the loop over `j`, OSTEI_Writer.cpp:569-593. -/
def vecStat (e : DEnv F) (i : ℕ) (c : Counts) (j : ℕ) : Counts :=
  if e.skipVec i j then (c.1, c.2.1 + e.len, c.2.2.1, c.2.2.2 + 1)
  else
    let k := survivors e.len (screenRes e i j) e.tol
    (c.1 + k, c.2.1 + (e.len - k), c.2.2.1 + 1, c.2.2.2)

/-- One primitive of the bra, OSTEI_Writer.cpp:497-593. -/
def braStat (e : DEnv F) (jstart jend : ℕ) (c : Counts) (i : ℕ) : Counts :=
  if e.skipBra i then
    let jLen := jend - jstart
    (c.1, c.2.1 + jLen, c.2.2.1, c.2.2.2 + (jLen + e.len - 1) / e.len)
  else (List.range (nvec e.len jstart jend)).foldl (fun c v => vecStat e i c (jstart + v * e.len)) c

/-- One batch of ket shells, OSTEI_Writer.cpp:479-719. State: `jstart` and the counters. -/
def batchStat (e : DEnv F) (istart iend : ℕ) (st : ℕ × Counts) (b : ℕ) : ℕ × Counts :=
  let cd := b * nshellSimd e.len
  let nb := nshellBatch e.len e.Q.nclip cd
  let jend := batchEnd e.Q.nprim12 cd nb st.1
  (simdRound e.len jend, (List.range' istart (iend - istart)).foldl (braStat e st.1 jend) st.2)

/-- One bra shell, OSTEI_Writer.cpp:470-736. State: `istart` and the counters. -/
def shellStat (e : DEnv F) (st : ℕ × Counts) (ab : ℕ) : ℕ × Counts :=
  let iend := st.1 + e.P.nprim12 ab
  (iend, ((List.range (nbatches e.len e.Q.nclip)).foldl (batchStat e st.1 iend) (0, st.2)).2)

/-- The counters at the end of a call. -/
def runStat (e : DEnv F) : Counts :=
  ((List.range e.P.nclip).foldl (shellStat e) (0, (0, 0, 0, 0))).2

end

/-- A store to element `k` of an output array of `size` elements; outside the array is undefined. -/
def put (size : ℕ) (mem : ℕ → ℕ) (k v : ℕ) : Option (ℕ → ℕ) :=
  if k < size then some (Function.update mem k v) else none

/-- The stores at the end of a call, OSTEI_Writer.cpp:739-745: `ncart` integrals for each pair of a
bra and a ket shell, then the four counters. -/
def storeStat (size ncart nbra nket : ℕ) (c : Counts) (mem : ℕ → ℕ) : Option (ℕ → ℕ) :=
  let pos := ncart * nbra * nket
  (put size mem pos c.1).bind fun mem =>
  (put size mem (pos + 1) c.2.1).bind fun mem =>
  (put size mem (pos + 2) c.2.2.1).bind fun mem =>
  put size mem (pos + 3) c.2.2.2

end Simint.Stat
