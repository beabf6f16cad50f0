import Verif.Ssss

/-!
# The hand-written (ss|ss) function of AVX512 builds

skel/ostei_s_s_s_s.c with the branches under `SIMINT_AVX512 || SIMINT_MICAVX512`: the loops of `Verif/Ssss.lean`, with
vectors that belong to one element collected in a buffer (`AccReq.step` of `Verif/Hsum.lean`) and the rest of the
buffer added behind the loops.  The vector length of these builds is eight.  Simplified: as in `Verif/Ssss.lean`.
-/

set_option autoImplicit false

namespace Simint

section
variable {F : Type} [Add F] [Zero F] [Mul F] [LinearOrder F]

/-- State of the loop over ket vectors: the screening array of the ket list, the output pointer, the buffer and the
output. -/
structure SStD (F : Type) where
  screen : ℕ → F
  ptr : ℕ
  acc : List (ℕ × (ℕ → F)) × (ℕ → F)

/-- Body of the loop over ket vectors, ostei_s_s_s_s.c:163-308. -/
def ssssVecD (e : DEnv F) (al : AllSum 8) (final : QAM) (cd nb jstart jend i : ℕ) (st : SStD F) (v : ℕ) :
    Option (SStD F) :=
  let j := jstart + v * e.len
  let r := offsetInfo e.len e.Q.nprim12 cd nb v
  let nlane := if j + e.len < jend then e.len else jend - j
  let ptr := if r.adv then st.ptr + 1 else st.ptr
  if j + e.len ≤ e.Q.alloc then
    let screen := if e.check then zeroTail e.len j jend st.screen else st.screen
    if e.check ∧ vectorMax e.len (fun n => e.P.screen i * screen (j + n)) < e.tol then
      some ⟨screen, ptr + r.last, st.acc⟩
    else
      (e.vec i j (maskLoad nlane e.Q.prefac j)).bind fun src =>
      (AccReq.step al (e.size final) st.acc (if r.last = 0 then .all ptr fun n => src n final 0
        else .some (fun n => r.offs.getD n 0) ptr fun n => src n final 0)).map fun acc =>
        ⟨screen, if r.last = 0 then ptr else ptr + r.last, acc⟩
  else none

/-- Body of the loop over bra primitives, ostei_s_s_s_s.c:124-309. -/
def ssssPrimD (e : DEnv F) (al : AllSum 8) (final : QAM) (abcd cd nb jstart jend : ℕ)
    (st : (ℕ → F) × List (ℕ × (ℕ → F)) × (ℕ → F)) (i : ℕ) : Option ((ℕ → F) × List (ℕ × (ℕ → F)) × (ℕ → F)) :=
  if i < e.P.alloc then
    if e.skipBra i then some st
    else
      ((List.range (nvec e.len jstart jend)).foldlM (ssssVecD e al final cd nb jstart jend i)
        ⟨st.1, abcd, st.2⟩).map fun s => (s.screen, s.acc)
  else none

/-- Body of the batch loop, ostei_s_s_s_s.c:69-315. -/
def ssssBatchD (e : DEnv F) (al : AllSum 8) (final : QAM) (istart iend : ℕ)
    (st : ℕ × ℕ × (ℕ → F) × List (ℕ × (ℕ → F)) × (ℕ → F)) (b : ℕ) :
    Option (ℕ × ℕ × (ℕ → F) × List (ℕ × (ℕ → F)) × (ℕ → F)) :=
  let cd := b * nshellSimd e.len
  let nb := nshellBatch e.len e.Q.nclip cd
  let jend := batchEnd e.Q.nprim12 cd nb st.2.1
  ((List.range' istart (iend - istart)).foldlM (ssssPrimD e al final st.1 cd nb st.2.1 jend)
    st.2.2).map fun s => (st.1 + nb, simdRound e.len jend, s)

/-- Loop over bra shells, ostei_s_s_s_s.c:62-318. -/
def ssssBodyD (e : DEnv F) (al : AllSum 8) (final : QAM)
    (st : ℕ × ℕ × (ℕ → F) × List (ℕ × (ℕ → F)) × (ℕ → F)) (ab : ℕ) :
    Option (ℕ × ℕ × (ℕ → F) × List (ℕ × (ℕ → F)) × (ℕ → F)) :=
  let iend := st.1 + e.P.nprim12 ab
  ((List.range (nbatches e.len e.Q.nclip)).foldlM (ssssBatchD e al final st.1 iend)
    (st.2.1, 0, st.2.2)).map fun r => (iend, r.1, r.2.2)

/-- `ostei_s_s_s_s` of an AVX512 build: count, screening array of the ket list after the call, output.  `h` is the
order of `_mm512_reduce_add_pd` in lines 320-323. -/
def runSsssDelayed (e : DEnv F) (al : AllSum 8) (h : HSum 8) (final : QAM) (out : ℕ → F) :
    Option (ℕ × (ℕ → F) × (ℕ → F)) :=
  let n := e.P.nclip * e.Q.nclip * 1
  if n ≤ e.size final then
    ((List.range e.P.nclip).foldlM (ssssBodyD e al final)
      (0, 0, e.Q.screen, [], fun k => if k < n then 0 else out k)).bind fun r =>
        (addList (e.size final) (r.2.2.2.1.map fun x => (x.1, h.tree.eval x.2)) r.2.2.2.2).map fun o =>
          (e.P.nclip * e.Q.nclip, r.2.2.1, o)
  else none

end

end Simint
