import Verif.VRR

/-!
# Work buffer of an integral function

Model of `PartitionWorkspace` (generator/ostei/OSTEI_Writer.cpp:248-318, the same text in
generator/ostei/OSTEIDeriv1_Writer.cpp:262-331), of the sizes printed by `Write_Full_`, of the
tables built by create.py and of `SIMINT_SIMD_ROUND`.

Offsets and sizes are in doubles; a vector (`SIMINT_DBLTYPE`) is `len` doubles.
`UseStack()` is the constant `false` (generator/ostei/OSTEI_GeneratorInfo.hpp:13-19), so only the
heap branches are modelled.
-/

set_option autoImplicit false

namespace Simint

/-! ## Rounding -/

/-- `SIMINT_SIMD_ROUND(x)`, skel/simint/vectorization/vectorization.h:71, in `w`-bit two's
complement arithmetic: `(x + (LEN-1)) & ~(LEN-1)`. -/
def simdRoundBV {w : ℕ} (len x : BitVec w) : BitVec w := (x + (len - 1#w)) &&& ~~~(len - 1#w)

/-- The same macro on unbounded naturals (no overflow), used in the models below.
`Props/Workspace.lean` (C23) relates the two. -/
def simdRound (len x : ℕ) : ℕ := (x + (len - 1)) / len * len

/-- `SIMINT_NSHELL_SIMD`, skel/simint/vectorization/vectorization.h:81. -/
def nshellSimd (len : ℕ) : ℕ := 2 * len

/-! ## Partition -/

/-- The three name spaces of the arrays: `ArrVarName`, `PrimVarName`, `HRRVarName`. -/
inductive WName | arr (q : QAM) | prim (q : QAM) | hrr (q : QAM)
  deriving DecidableEq

/-- An array carved out of the work buffer. -/
structure WArr where
  name : WName
  off : ℕ
  size : ℕ

/-- One of the three loops with running index `ptidx`: array `i` starts at
`base + unit * ptidx` and the index grows by its element count.
OSTEI_Writer.cpp:256-263 (`unit = SIMINT_NSHELL_SIMD`), 287-294 (`unit` = one vector),
311-315 (`unit` = one double). -/
def carve (base unit : ℕ) : ℕ → List (WName × ℕ) → List WArr
  | _, [] => []
  | pt, (n, s) :: r => ⟨n, base + unit * pt, unit * s⟩ :: carve base unit (pt + s) r

/-- Final value of `ptidx`. -/
def total (l : List (WName × ℕ)) : ℕ := (l.map Prod.snd).sum

/-- Number of vectors of a primitive array: `(GetMReq(am)+1) * NCART(am)`,
OSTEI_Writer.cpp:293. -/
def primVecs (mreq : QAM → ℤ) (q : QAM) : ℕ := (mreq q + 1).toNat * ncartQ q

def topEntries (final : QAM) (top : List QAM) : List (WName × ℕ) :=
  (top.filter fun q => q ≠ final).map fun q => (.arr q, ncartQ q)
def primEntries (mreq : QAM → ℤ) (all : List QAM) : List (WName × ℕ) :=
  all.map fun q => (.prim q, primVecs mreq q)
def hrrEntries (inter : List QAM) : List (WName × ℕ) :=
  inter.map fun q => (.hrr q, ncartQ q)

/-- `PartitionWorkspace`, OSTEI_Writer.cpp:248-318. -/
def partitionWork (len : ℕ) (final : QAM) (top all : List QAM) (mreq : QAM → ℤ)
    (inter : List QAM) : List WArr :=
  let primwork := nshellSimd len * total (topEntries final top)
  let hrrwork := primwork + len * total (primEntries mreq all)
  carve 0 (nshellSimd len) 0 (topEntries final top)
    ++ carve primwork len 0 (primEntries mreq all)
    ++ carve hrrwork 1 0 (hrrEntries inter)

/-- The three numbers of a `WORK SIZE` line. -/
structure WorkNumbers where
  bcont : ℕ
  prim : ℕ
  cont : ℕ

/-- `bcont_nelements`, `prim_nelements`, `cont_nelements` of `Write_Full_`,
OSTEI_Writer.cpp:347-369 and 753 (OSTEIDeriv1_Writer.cpp:565-587 and 943). -/
def workNumbers (top all : List QAM) (mreq : QAM → ℤ) (inter : List QAM) : WorkNumbers :=
  ⟨(top.map ncartQ).sum, (all.map (primVecs mreq)).sum, (inter.map ncartQ).sum⟩

/-- `GetIntermediates`, OSTEI_HRR_Algorithm_Base.cpp:356-366. -/
def getIntermediates (deriv : ℕ) (final : QAM) (order top : List QAM) : List QAM :=
  (order.filter fun q => q ∉ top ∧ (0 < deriv ∨ q ≠ final)).dedup

/-! ## create.py: tables and the reported size -/

/-- Largest of the four AMs, `max(q)`. -/
def maxAM (q : ℕ × ℕ × ℕ × ℕ) : ℕ := max (max q.1 q.2.1) (max q.2.2.1 q.2.2.2)

/-- `worksize_bcont[d]`, `worksize_prim[d]`, `worksize_cont[d]` as functions of the AM. -/
structure WorkTables where
  bcont : ℕ → ℕ
  prim : ℕ → ℕ
  cont : ℕ → ℕ

/-- Initial tables, create.py:209-211. -/
def WorkTables.init : WorkTables := ⟨fun _ => 0, fun _ => 0, fun _ => 0⟩

/-- `table[mq] = max(table[mq], v)`. -/
def tabMax (t : ℕ → ℕ) (mq v : ℕ) : ℕ → ℕ := fun l => if l = mq then max (t mq) v else t l

/-- Effect of the `WORK SIZE` line of one log file, create.py:267-270 (first derivatives 368-371). -/
def logWork (t : WorkTables) (e : (ℕ × ℕ × ℕ × ℕ) × WorkNumbers) : WorkTables :=
  ⟨tabMax t.bcont (maxAM e.1) e.2.bcont, tabMax t.prim (maxAM e.1) e.2.prim,
    tabMax t.cont (maxAM e.1) e.2.cont⟩

/-- All log files of one derivative order, in any order. -/
def workTables (logs : List ((ℕ × ℕ × ℕ × ℕ) × WorkNumbers)) : WorkTables :=
  logs.foldl logWork WorkTables.init

/-- `max(table[:l+1])`. -/
def prefixMax (t : ℕ → ℕ) (l : ℕ) : ℕ := ((List.range (l + 1)).map t).foldr max 0

/-- Entry `[d][l]` of `simint_ostei_worksize`, create.py:440-445. -/
def worksizeEntry (len : ℕ) (t : WorkTables) (l : ℕ) : ℕ :=
  simdRound len (nshellSimd len * prefixMax t.bcont l) + simdRound len (prefixMax t.cont l)
    + len * prefixMax t.prim l

end Simint
