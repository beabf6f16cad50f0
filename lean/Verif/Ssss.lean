import Verif.Hsum

/-!
# The hand-written (ss|ss) function, skel/ostei_s_s_s_s.c

Differences to a generated function: shell offsets are computed once per batch (lines 83-121);
when screening is on, screening values in the lanes behind the last primitive of a batch are
overwritten in the input (lines 206-211); in AVX512 builds the horizontal sums are delayed in a
buffer of eight vectors (lines 268-300, 320-323).
-/

set_option autoImplicit false

namespace Simint

section
variable {F : Type} [Add F] [Zero F] [Mul F] [LinearOrder F]

/-- `ostei_s_s_s_s.c:92-121`: the counters before vector `v` when the offsets of a batch are
computed in advance. -/
def ssssCounters (len : ℕ) (nprim12 : ℕ → ℕ) (cd nb : ℕ) : ℕ → ℕ × ℕ × ℕ
  | 0 => (0, 0, nprim12 cd)
  | v + 1 =>
    let s := ssssCounters len nprim12 cd nb v
    let r := shellOffsets len nprim12 cd nb s.1 s.2.1 s.2.2
    (r.icd, r.iprim, r.nprim)

/-- `offset_info` of vector `v`. -/
def offsetInfo (len : ℕ) (nprim12 : ℕ → ℕ) (cd nb v : ℕ) : OffRes :=
  let s := ssssCounters len nprim12 cd nb v
  shellOffsets len nprim12 cd nb s.1 s.2.1 s.2.2

/-- State of the loop over ket vectors: the screening array of the ket list, the output pointer,
the output. -/
structure SSt (F : Type) where
  screen : ℕ → F
  ptr : ℕ
  mem : ℕ → F

/-- `Q.screen[n] = 0.` for `n` from `jend` to `j + len - 1`, ostei_s_s_s_s.c:207-211. -/
def zeroTail (len j jend : ℕ) (screen : ℕ → F) : ℕ → F :=
  if jend - j < len then fun k => if jend ≤ k ∧ k < j + len then 0 else screen k else screen

/-- Body of the loop over ket vectors, ostei_s_s_s_s.c:163-307. -/
def ssssVec (e : DEnv F) (al : AllSum e.len) (final : QAM) (cd nb jstart jend i : ℕ) (st : SSt F) (v : ℕ) :
    Option (SSt F) :=
  let j := jstart + v * e.len
  let r := offsetInfo e.len e.Q.nprim12 cd nb v
  let nlane := if j + e.len < jend then e.len else jend - j
  let ptr := if r.adv then st.ptr + 1 else st.ptr
  if j + e.len ≤ e.Q.alloc then
    let screen := if e.check then zeroTail e.len j jend st.screen else st.screen
    if e.check ∧ vectorMax e.len (fun n => e.P.screen i * screen (j + n)) < e.tol then
      some ⟨screen, ptr + r.last, st.mem⟩
    else
      (e.vec i j (maskLoad nlane e.Q.prefac j)).bind fun src =>
      (if r.last = 0 then
          contractAllBy al (e.size final) 1 (fun np n => src n final np) ptr st.mem
        else
          contract (e.size final) e.len 1 (fun n => r.offs.getD n 0) (fun np n => src n final np)
            ptr st.mem).map fun mem =>
        ⟨screen, if r.last = 0 then ptr else ptr + r.last, mem⟩
  else none

/-- Body of the loop over bra primitives, ostei_s_s_s_s.c:124-308. State: screening array,
output. -/
def ssssPrim (e : DEnv F) (al : AllSum e.len) (final : QAM) (abcd cd nb jstart jend : ℕ) (st : (ℕ → F) × (ℕ → F))
    (i : ℕ) : Option ((ℕ → F) × (ℕ → F)) :=
  if i < e.P.alloc then
    if e.skipBra i then some st
    else
      ((List.range (nvec e.len jstart jend)).foldlM (ssssVec e al final cd nb jstart jend i)
        ⟨st.1, abcd, st.2⟩).map fun s => (s.screen, s.mem)
  else none

/-- Body of the batch loop, ostei_s_s_s_s.c:69-315. State: `abcd`, `jstart`, screening array,
output. -/
def ssssBatch (e : DEnv F) (al : AllSum e.len) (final : QAM) (istart iend : ℕ) (st : ℕ × ℕ × (ℕ → F) × (ℕ → F))
    (b : ℕ) : Option (ℕ × ℕ × (ℕ → F) × (ℕ → F)) :=
  let cd := b * nshellSimd e.len
  let nb := nshellBatch e.len e.Q.nclip cd
  let jend := batchEnd e.Q.nprim12 cd nb st.2.1
  ((List.range' istart (iend - istart)).foldlM (ssssPrim e al final st.1 cd nb st.2.1 jend)
    st.2.2).map fun s => (st.1 + nb, simdRound e.len jend, s)

/-- Loop over bra shells, ostei_s_s_s_s.c:62-318. -/
def ssssBody (e : DEnv F) (al : AllSum e.len) (final : QAM) (st : ℕ × ℕ × (ℕ → F) × (ℕ → F)) (ab : ℕ) :
    Option (ℕ × ℕ × (ℕ → F) × (ℕ → F)) :=
  let iend := st.1 + e.P.nprim12 ab
  ((List.range (nbatches e.len e.Q.nclip)).foldlM (ssssBatch e al final st.1 iend)
    (st.2.1, 0, st.2.2)).map fun r => (iend, r.1, r.2.2)

/-- `ostei_s_s_s_s` with a variant of `contract_all`: count, screening array of the ket list after the call,
output. -/
def runSsssBy (e : DEnv F) (al : AllSum e.len) (final : QAM) (out : ℕ → F) : Option (ℕ × (ℕ → F) × (ℕ → F)) :=
  let n := e.P.nclip * e.Q.nclip * 1
  if n ≤ e.size final then
    ((List.range e.P.nclip).foldlM (ssssBody e al final)
      (0, 0, e.Q.screen, fun k => if k < n then 0 else out k)).map fun r =>
        (e.P.nclip * e.Q.nclip, r.2.2.1, r.2.2.2)
  else none

/-- `ostei_s_s_s_s` with the loop over the lanes. -/
def runSsss (e : DEnv F) (final : QAM) (out : ℕ → F) : Option (ℕ × (ℕ → F) × (ℕ → F)) :=
  runSsssBy e (.lanes e.len) final out

end

/-! ## Delayed horizontal sums of the AVX512 build -/

section
variable {F : Type} [CommRing F]

/-- One accumulation request: all lanes to one element, or lane `n` to element `ptr + off n`. -/
inductive AccOp (F : Type) where
  | all (idx : ℕ) (v : ℕ → F)
  | some (off : ℕ → ℕ) (ptr : ℕ) (v : ℕ → F)

/-- Immediate processing of a request on `len` lanes. -/
def AccOp.now (len : ℕ) (b : ℕ → F) : AccOp F → ℕ → F
  | .all idx v => fun k => b k + if k = idx then ((List.range len).map v).sum else 0
  | .some off ptr v => fun k =>
      b k + ((List.range len).map fun n => if ptr + off n = k then v n else 0).sum

/-- `INT[ca_res_idx[jj]] += ca_res[jj]` for the whole buffer. -/
def flush (len : ℕ) (buf : List (ℕ × (ℕ → F))) (b : ℕ → F) : ℕ → F :=
  buf.foldl (fun b e => fun k => b k + if k = e.1 then ((List.range len).map e.2).sum else 0) b

/-- Buffered processing, ostei_s_s_s_s.c:268-305: the buffer holds at most eight entries; a request
for the element of the newest entry is added to that entry; a full buffer is emptied. The newest
entry is the head of the list. -/
def AccOp.later (len : ℕ) (st : List (ℕ × (ℕ → F)) × (ℕ → F)) :
    AccOp F → List (ℕ × (ℕ → F)) × (ℕ → F)
  | .all idx v =>
    match st.1 with
    | (i, w) :: r =>
      if i = idx then ((i, fun n => w n + v n) :: r, st.2)
      else
        let buf := (idx, v) :: st.1
        if buf.length = 8 then ([], flush len buf.reverse st.2) else (buf, st.2)
    | [] => ([(idx, v)], st.2)
  | .some off ptr v => (st.1, AccOp.now len st.2 (.some off ptr v))

end

end Simint
