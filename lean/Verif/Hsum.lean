import Verif.Driver
import Mathlib.Data.Multiset.Range

/-!
# The orders of addition of the vectorizations

The functions `contract_all` of skel/simint/vectorization/intrinsics_*.h add the lanes of a vector in different
orders.  On exact numbers the order does not matter (`Verif/Simd.lean`, C30); on doubles it does.  Here every
variant is written down with its own order of additions, for any type of numbers with an addition, and the loops of
`Verif/Driver.lean` are repeated with the variant as a parameter.

Horizontal sums in one instruction or intrinsic (`_mm512_reduce_add_pd`, `vaddvq_f64`, `svaddv_f64`) add in an order
that depends on compiler and hardware: any binary tree over the lanes.

Simplified as in `Verif/Simd.lean` and `Verif/Driver.lean`.
-/

set_option autoImplicit false

namespace Simint

/-- An order of addition: a binary tree with lane numbers at its leaves. -/
inductive SumTree where
  | leaf (n : ℕ)
  | node (a b : SumTree)

namespace SumTree

/-- The lanes. -/
def lanes : SumTree → Multiset ℕ
  | leaf n => {n}
  | node a b => a.lanes + b.lanes

/-- The sum in this order. -/
def eval {F : Type} [Add F] : SumTree → (ℕ → F) → F
  | leaf n, v => v n
  | node a b, v => a.eval v + b.eval v

end SumTree

/-- A horizontal sum of vectors with `len` lanes: every lane once. -/
structure HSum (len : ℕ) where
  tree : SumTree
  ok : tree.lanes = Multiset.range len

/-- The variants of `contract_all`, by vector length.
* `lanes`: through `contract`, intrinsics_scalar.h:51-57, intrinsics_sse.h:94-101, intrinsics_avx.h:130-136 (gcc),
  intrinsics_avx512.h:133-138;
* `avx`: intrinsics_avx.h:108-128 (clang, Intel);
* `avx512`: intrinsics_avx512.h:103-131;
* `reduce`: intrinsics_asimd.h:85-91, intrinsics_sve.h:127-133. -/
inductive AllSum : ℕ → Type where
  | lanes (len : ℕ) : AllSum len
  | avx : AllSum 4
  | avx512 (h : HSum 8) : AllSum 8
  | reduce (len : ℕ) (h : HSum len) : AllSum len

section
variable {F : Type} [Add F]

/-- The statements `dest[np] += value` of a variant, in their order. -/
def AllSum.adds : {len : ℕ} → AllSum len → ℕ → (ℕ → ℕ → F) → List (ℕ × F)
  | _, .lanes len, ncart, src =>
    (List.range len).flatMap fun n => (List.range ncart).map fun np => (np, src np n)
  | _, .avx, ncart, src =>
    ((List.range (ncart / 4)).flatMap fun n =>
        let n4 := n * 4
        let t1 := hadd4 (src n4) (src (n4 + 1))
        let t2 := hadd4 (src (n4 + 2)) (src (n4 + 3))
        [(n4, t1 0 + t1 2), (n4 + 1, t1 1 + t1 3), (n4 + 2, t2 0 + t2 2), (n4 + 3, t2 1 + t2 3)])
      ++ (List.range' (ncart / 4 * 4) (ncart - ncart / 4 * 4)).map fun n =>
        (n, src n 0 + src n 1 + src n 2 + src n 3)
  | _, .avx512 h, ncart, src =>
    ((List.range (ncart / 8)).flatMap fun it => (List.range 8).flatMap fun i => (List.range 8).map fun j =>
        (it * 8 + j, src (it * 8 + j) i))
      ++ (List.range' (ncart / 8 * 8) (ncart - ncart / 8 * 8)).map fun np => (np, h.tree.eval (src np))
  | _, .reduce _ h, ncart, src => (List.range ncart).map fun np => (np, h.tree.eval (src np))

/-- `contract_all(ncart, src, dest)`; `dest` points at element `ptr` of an array of `size` elements. -/
def contractAllBy {len : ℕ} (a : AllSum len) (size ncart : ℕ) (src : ℕ → ℕ → F) (ptr : ℕ) (b : ℕ → F) :
    Option (ℕ → F) :=
  addList size ((a.adds ncart src).map fun e => (ptr + e.1, e.2)) b

end

section
variable {F : Type} [Add F] [Zero F] [Mul F] [LinearOrder F]

/-- `accumulate` with a variant of `contract_all`, OSTEI_Writer.cpp:67-99. -/
def accumulateBy (e : DEnv F) (a : AllSum e.len) (offs : List ℕ) (last : ℕ) (ptr : QAM → ℕ)
    (src : ℕ → QAM → ℕ → F) (mem : QAM → ℕ → F) : Option (QAM → ℕ → F) :=
  e.tops.foldlM (fun m t =>
    (if last = 0 then contractAllBy a (e.size t) (ncartQ t) (fun np n => src n t np) (ptr t) (m t)
      else
        contract (e.size t) e.len (ncartQ t) (fun n => offs.getD n 0) (fun np n => src n t np)
          (ptr t) (m t)).map fun b => Function.update m t b) mem

/-- `vecStep` with a variant of `contract_all`, OSTEI_Writer.cpp:564-712. -/
def vecStepBy (e : DEnv F) (a : AllSum e.len) (cd nbatch jend i : ℕ) (st : DSt F) (j : ℕ) : Option (DSt F) :=
  let r := shellOffsets e.len e.Q.nprim12 cd nbatch st.icd st.iprim st.nprim
  let nlane := if j + e.len < jend then e.len else jend - j
  let ptr := fun t => if r.adv then st.ptr t + ncartQ t else st.ptr t
  let ptr' := fun t => ptr t + r.last * ncartQ t
  if j + e.len ≤ e.Q.alloc then
    if e.skipVec i j then some ⟨r.icd, r.iprim, r.nprim, ptr', st.mem⟩
    else
      (e.vec i j (maskLoad nlane e.Q.prefac j)).bind fun src =>
      (accumulateBy e a r.offs r.last ptr src st.mem).map fun mem =>
        ⟨r.icd, r.iprim, r.nprim, if r.last = 0 then ptr else ptr', mem⟩
  else none

/-- `braPrim` with a variant of `contract_all`, OSTEI_Writer.cpp:499-713. -/
def braPrimBy (e : DEnv F) (a : AllSum e.len) (abcd cd nbatch jstart jend : ℕ) (mem : QAM → ℕ → F) (i : ℕ) :
    Option (QAM → ℕ → F) :=
  if i < e.P.alloc then
    if e.skipBra i then some mem
    else
      ((List.range (nvec e.len jstart jend)).foldlM
        (fun st v => vecStepBy e a cd nbatch jend i st (jstart + v * e.len))
        { icd := 0, iprim := 0, nprim := e.Q.nprim12 cd
          ptr := fun t => abcd * ncartQ t, mem := mem }).map DSt.mem
  else none

/-- `braPrims` with a variant of `contract_all`, OSTEI_Writer.cpp:499. -/
def braPrimsBy (e : DEnv F) (a : AllSum e.len) (abcd cd nbatch jstart jend istart iend : ℕ)
    (mem : QAM → ℕ → F) : Option (QAM → ℕ → F) :=
  (List.range' istart (iend - istart)).foldlM (braPrimBy e a abcd cd nbatch jstart jend) mem

/-- `batchDirect` with a variant of `contract_all`, OSTEI_Writer.cpp:480-720. -/
def batchDirectBy (e : DEnv F) (a : AllSum e.len) (istart iend : ℕ) (st : DirectSt F) (b : ℕ) :
    Option (DirectSt F) :=
  let cd := b * nshellSimd e.len
  let nb := nshellBatch e.len e.Q.nclip cd
  let jend := batchEnd e.Q.nprim12 cd nb st.jstart
  (braPrimsBy e a st.abcd cd nb st.jstart jend istart iend st.mem).map fun mem =>
    ⟨st.abcd + nb, simdRound e.len jend, mem⟩

/-- `bodyDirect` with a variant of `contract_all`, OSTEI_Writer.cpp:470-736. -/
def bodyDirectBy (e : DEnv F) (a : AllSum e.len) (st : ℕ × ℕ × (QAM → ℕ → F)) (ab : ℕ) :
    Option (ℕ × ℕ × (QAM → ℕ → F)) :=
  let iend := st.1 + e.P.nprim12 ab
  ((List.range (nbatches e.len e.Q.nclip)).foldlM (batchDirectBy e a st.1 iend)
    ⟨st.2.1, 0, st.2.2⟩).map fun r => (iend, r.abcd, r.mem)

/-- `runDirect` with a variant of `contract_all`: the function of a class without horizontal stage. -/
def runDirectBy (e : DEnv F) (a : AllSum e.len) (final : QAM) (out : ℕ → F) : Option (ℕ × (ℕ → F)) :=
  let n := e.P.nclip * e.Q.nclip * ncartQ final
  if n ≤ e.size final then
    let mem0 : QAM → ℕ → F := fun _ k => if k < n then 0 else out k
    ((List.range e.P.nclip).foldlM (bodyDirectBy e a) (0, 0, mem0)).map fun r =>
      (e.P.nclip * e.Q.nclip, r.2.2 final)
  else none

/-- `batchHrr` with a variant of `contract_all`, OSTEI_Writer.cpp:480-731. -/
def batchHrrBy (e : DEnv F) (a : AllSum e.len) (h : HEnv F) (final : QAM) (ab istart iend : ℕ) (st : HSt F)
    (b : ℕ) : Option (HSt F) :=
  let cd := b * nshellSimd e.len
  let nb := nshellBatch e.len e.Q.nclip cd
  let jend := batchEnd e.Q.nprim12 cd nb st.jstart
  (braPrimsBy e a 0 cd nb st.jstart jend istart iend (fun _ _ => 0)).bind fun mem =>
    (List.range nb).foldlM (hrrOne e h final ab cd)
      { st with jstart := simdRound e.len jend, mem := mem }

/-- `bodyHrr` with a variant of `contract_all`. -/
def bodyHrrBy (e : DEnv F) (a : AllSum e.len) (h : HEnv F) (final : QAM) (st : ℕ × HSt F) (ab : ℕ) :
    Option (ℕ × HSt F) :=
  let iend := st.1 + e.P.nprim12 ab
  ((List.range (nbatches e.len e.Q.nclip)).foldlM (batchHrrBy e a h final ab st.1 iend)
    { st.2 with jstart := 0 }).map fun r => (iend, r)

/-- `runHrr` with a variant of `contract_all`: the function of a class with horizontal stage. -/
def runHrrBy (e : DEnv F) (a : AllSum e.len) (h : HEnv F) (final : QAM) (hmem : HMem F) (out : ℕ → F) :
    Option (ℕ × (ℕ → F)) :=
  ((List.range e.P.nclip).foldlM (bodyHrrBy e a h final)
    (0, ⟨0, 0, fun _ _ => 0, hmem, out⟩)).map fun r => (e.P.nclip * e.Q.nclip, r.2.out)

/-! ## Delayed sums of the hand-written (ss|ss) function -/

/-- One execution of the accumulation block, ostei_s_s_s_s.c:277-308: `all`: all lanes belong to element `idx`;
`some`: through `contract` with offsets. -/
inductive AccReq (F : Type) where
  | all (idx : ℕ) (v : ℕ → F)
  | some (off : ℕ → ℕ) (ptr : ℕ) (v : ℕ → F)

/-- The accumulation block of AVX512 builds of the (ss|ss) function, ostei_s_s_s_s.c:277-308.  State: the entries
of the buffer `ca_buf` with their elements `ca_res_idx`, oldest first, and the output array.  A vector for the
element of the newest entry is added to that entry; an eighth entry empties the buffer through `contract_all` on
the array `ca_res`, which is cleared before. -/
def AccReq.step (a : AllSum 8) (size : ℕ) (st : List (ℕ × (ℕ → F)) × (ℕ → F)) :
    AccReq F → Option (List (ℕ × (ℕ → F)) × (ℕ → F))
  | .all idx v =>
    match st.1.getLast? with
    | .some (i, w) =>
      if i = idx then .some (st.1.dropLast ++ [(i, fun n => w n + v n)], st.2)
      else
        let buf := st.1 ++ [(idx, v)]
        if buf.length = 8 then
          (contractAllBy a 8 8 (fun np => (buf.getD np (0, fun _ => 0)).2) 0 fun _ => 0).bind fun res =>
            (addList size ((List.range 8).map fun jj => ((buf.getD jj (0, fun _ => 0)).1, res jj)) st.2).map
              fun b => ([], b)
        else .some (buf, st.2)
    | none => .some ([(idx, v)], st.2)
  | .some off ptr v => (contract size 8 1 off (fun _ => v) ptr st.2).map fun b => (st.1, b)

/-- The accumulation of a whole call of the (ss|ss) function of an AVX512 build, with the loop that empties the
buffer at the end, ostei_s_s_s_s.c:320-323. -/
def accDelayed (a : AllSum 8) (h : HSum 8) (size : ℕ) (reqs : List (AccReq F)) (out : ℕ → F) :
    Option (ℕ → F) :=
  (reqs.foldlM (AccReq.step a size) ([], out)).bind fun st =>
    addList size (st.1.map fun e => (e.1, h.tree.eval e.2)) st.2

end

end Simint
