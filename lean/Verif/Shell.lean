import Verif.Driver
import Mathlib.Algebra.Field.Defs

/-!
# Shells and lists of shell pairs

Model of skel/simint/shell/shell.c: allocation, filling, sorting, concatenating and copying.  Sizes
are natural numbers (no overflow of `int`), `sizeof(double) = 8`, `sizeof(int) = 4`; allocation
succeeds.  The values that are stored are a parameter (`ShOps`).
-/

set_option autoImplicit false

namespace Simint

/-! ## Shells -/

/-- `struct simint_shell`, skel/simint/shell/shell.h:16-30: identity of the memory block, AM, number of
primitives, position, exponents and coefficients. -/
structure Shell (F : Type) where
  ptr : ℕ
  am : ℕ
  nprim : ℕ
  pos : Dir → F
  alpha : ℕ → F
  coef : ℕ → F

/-- `compare_shell`, skel/simint/shell/shell.h:89-94. -/
def sameShell {F : Type} (A B : Shell F) : Bool := decide (A.nprim = B.nprim) && decide (A.ptr = B.ptr)

/-- Bookkeeping of one malloc'd block: `memsize` and the true size of the block `ptr` points to
(0 for `NULL`). -/
structure Block where
  memsize : ℕ
  size : ℕ
deriving DecidableEq

/-- `simint_initialize_shell`, `simint_initialize_multi_shellpair`, shell.c:189-193, 305-309. -/
def Block.init : Block := ⟨0, 0⟩

/-- `simint_free_shell`, `simint_free_multi_shellpair`, shell.c:219-225, 385-391. -/
def Block.free (_ : Block) : Block := Block.init

/-- Reallocation if the present block is too small, shell.c:207-212 and 151-156. -/
def Block.ensure (b : Block) (need : ℕ) : Block :=
  if b.memsize < need then ⟨need, need⟩ else b

/-- `simint_allocate_shell`, shell.c:203-216: the block; `alpha` is at offset 0, `coef` at
`nprim*sizeof(double)`. -/
def allocShell (nprim : ℕ) (b : Block) : Block := b.ensure (2 * nprim * 8)

/-- `simint_copy_shell`, shell.c:233-245: the block of the destination and the number of bytes that
`memcpy` reads at `src->ptr` and writes at `dest->ptr`. -/
def copyShell (srcNprim : ℕ) (dest : Block) : Block × ℕ :=
  let d := allocShell srcNprim dest
  (d, d.memsize)

/-! ## Arrays of a list of shell pairs -/

/-- The arrays, shell.h:47-80. -/
inductive Arr
  | pos (d : Dir) | PA (d : Dir) | PB (d : Dir) | alpha | prefac | screen | alpha2 | beta2
  | AB (d : Dir) | nprim12
deriving DecidableEq

/-- Build and call options that decide which arrays exist: screening method given, and
`SIMINT_OSTEI_MAXDER > 0`. -/
structure ShCfg where
  len : ℕ
  screening : Bool
  deriv : Bool

/-- Number of the array among those with one double per primitive, shell.c:158-179; `none` if the
array does not exist or has one entry per pair. -/
def Arr.num (g : ShCfg) : Arr → Option ℕ
  | .pos d => some d.idx
  | .PA d => some (3 + d.idx)
  | .PB d => some (6 + d.idx)
  | .alpha => some 9
  | .prefac => some 10
  | .screen => if g.screening then some 11 else none
  | .alpha2 => if g.deriv then some (11 + (if g.screening then 1 else 0)) else none
  | .beta2 => if g.deriv then some (12 + (if g.screening then 1 else 0)) else none
  | .AB _ => none
  | .nprim12 => none

/-- Final value of `dcount`, which is also `nprim_arr`, shell.c:139-145 and 158-179. -/
def ShCfg.narr (g : ShCfg) : ℕ := 11 + (if g.screening then 1 else 0) + (if g.deriv then 2 else 0)

/-- Offset in bytes of an array from `P->ptr`, shell.c:158-184. -/
def Arr.offset (g : ShCfg) (npair nprim : ℕ) : Arr → Option ℕ
  | .AB d => some (g.narr * (nprim * 8) + d.idx * (npair * 8))
  | .nprim12 => some (g.narr * (nprim * 8) + 3 * (npair * 8))
  | a => (a.num g).map fun k => k * (nprim * 8)

/-- Size of an array in bytes. -/
def Arr.bytes (npair nprim : ℕ) : Arr → ℕ
  | .AB _ => npair * 8
  | .nprim12 => npair * 4
  | _ => nprim * 8

/-- `memsize`, shell.c:147. -/
def ShCfg.need (g : ShCfg) (npair nprim : ℕ) : ℕ :=
  nprim * 8 * g.narr + npair * 8 * 3 + npair * 4

/-- `simint_allocate_multi_shellpair_base`, shell.c:131-185: the block. -/
def allocBase (g : ShCfg) (npair nprim : ℕ) (b : Block) : Block := b.ensure (g.need npair nprim)

section
variable {F : Type}

/-- Number of pairs of primitives of a pair of shells, shell.c:366-369 and 532. -/
def pairPrims (A B : Shell F) : ℕ :=
  if sameShell A B then A.nprim * (A.nprim + 1) / 2 else A.nprim * B.nprim

/-- State of the counting loop of `simint_allocate_multi_shellpair2`. -/
structure CountSt where
  i : ℕ
  nprim : ℕ
  batch : ℕ

/-- Loop body, shell.c:366-378 (the same text in `simint_cat_multi_shellpair`, 626-635, for given
numbers of primitives). -/
def countStep (len npair : ℕ) (st : CountSt) (n : ℕ) : CountSt :=
  let batch := st.batch + n
  let ip1 := st.i + 1
  if ip1 % nshellSimd len = 0 ∨ npair ≤ ip1 then ⟨ip1, st.nprim + simdRound len batch, 0⟩
  else ⟨ip1, st.nprim, batch⟩

/-- Number of primitive slots that are allocated for pairs with the given numbers of primitives. -/
def countPrims (len : ℕ) (ns : List ℕ) : ℕ :=
  (ns.foldl (countStep len ns.length) ⟨0, 0, 0⟩).nprim

/-- Number of primitive slots, `simint_allocate_multi_shellpair2`, shell.c:356-382. -/
def allocPrims (len : ℕ) (ps : List (Shell F × Shell F)) : ℕ :=
  countPrims len (ps.map fun p => pairPrims p.1 p.2)

/-- The pairs of `simint_allocate_multi_shellpair` and `simint_fill_multi_shellpair`,
shell.c:341-348 and 410-417. -/
def allPairs (A B : List (Shell F)) : List (Shell F × Shell F) :=
  A.flatMap fun a => B.map fun b => (a, b)

/-! ## Filling -/

/-- A store `P->arr[i] = v`. -/
abbrev Store (F : Type) := Arr × ℕ × F

/-- Arithmetic of the fill routine: values stored for two primitives of two shells, and difference of
two coordinates.  `ShOps.exact` without rounding, `FlPrim.shOps` (`Verif/FlShells.lean`) with it. -/
structure ShOps (F : Type) where
  prim : Shell F → Shell F → ℕ → ℕ → Arr → F
  sub : F → F → F

variable [Field F]

/-- `Xab`, shell.c:466-469. -/
def shXab (A B : Shell F) : F :=
  let X := fun d => A.pos d - B.pos d
  X .x * X .x + X .y * X .y + X .z * X .z

/-- The values stored for primitives `i`, `j`, shell.c:472-526. -/
def primValue (exp : F → F) (const : F) (A B : Shell F) (i j : ℕ) : Arr → F :=
  let ai := A.alpha i
  let aj := B.alpha j
  let sum := ai + aj
  let mul := ai * aj
  let fold : Bool := sameShell A B && decide (i ≠ j)
  let x := fun d => (A.pos d * ai + aj * B.pos d) / sum
  fun
  | .prefac =>
    let v := A.coef i * B.coef j * exp (-shXab A B * mul / sum) * const / sum
    if fold then v * 2 else v
  | .pos d => x d
  | .PA d => x d - A.pos d
  | .PB d => x d - B.pos d
  | .alpha => sum
  | .alpha2 => if fold then ai + aj else 2 * ai
  | .beta2 => if fold then ai + aj else 2 * aj
  | _ => 0

/-- Exact arithmetic with an exponential function and a value of the constant `SQRT_TWO_PI_52`
(constants.h:9). -/
def ShOps.exact (exp : F → F) (const : F) : ShOps F := ⟨primValue exp const, fun x y => x - y⟩

/-- Values of padding elements, shell.c:545-566. -/
def padValue : Arr → F
  | .alpha => 1
  | .alpha2 => 1
  | .beta2 => 1
  | _ => 0

def dirList : List Dir := [.x, .y, .z]

/-- The arrays written for each pair of primitives (`screen` is written elsewhere). -/
def primArrs (g : ShCfg) : List Arr :=
  [.prefac] ++ dirList.map .pos ++ dirList.map .PA ++ dirList.map .PB ++ [.alpha] ++
    (if g.deriv then [.alpha2, .beta2] else [])

/-- The arrays written in padding elements. -/
def padArrs (g : ShCfg) : List Arr :=
  primArrs g ++ (if g.screening then [.screen] else [])

/-- Order in which the pairs of primitives are visited, shell.c:472-483. -/
def primOrder (A B : Shell F) : List (ℕ × ℕ) :=
  (List.range A.nprim).flatMap fun i =>
    (List.range (if sameShell A B then i + 1 else B.nprim)).map fun j => (i, j)

/-- State of `simint_fill_multi_shellpair2`: position, stores so far, `nprim12`, `nprim`,
`screen_max`. -/
structure FillSt (F : Type) where
  sasb : ℕ
  idx : ℕ
  log : List (Store F)
  nprim12 : List ℕ
  nprim : ℕ
  screenMax : F

/-- Stores for all pairs of primitives of one pair of shells from element `idx` on. -/
def primStores (g : ShCfg) (ops : ShOps F) (A B : Shell F) (idx : ℕ) : List (Store F) :=
  (primOrder A B).zipIdx.flatMap fun p =>
    (primArrs g).map fun a => (a, idx + p.2, ops.prim A B p.1.1 p.1.2 a)

/-- Padding loop `while(idx < SIMINT_SIMD_ROUND(idx))`, shell.c:543-569. -/
def padStores (g : ShCfg) (idx : ℕ) : List (Store F) :=
  (List.range (simdRound g.len idx - idx)).flatMap fun k =>
    (padArrs g).map fun a => (a, idx + k, padValue a)

/-- What `simint_primscreen` does for one pair: stores into the array it is given (element numbers
relative to its argument), and the maximum it returns. -/
abbrev PrimScreen (F : Type) := Shell F → Shell F → List (ℕ × F) × F

variable [LinearOrder F]

/-- Loop body of `simint_fill_multi_shellpair2`, shell.c:447-576. -/
def fillStep (g : ShCfg) (ops : ShOps F) (scr : PrimScreen F) (npair : ℕ) (st : FillSt F)
    (p : Shell F × Shell F) : FillSt F :=
  let A := p.1
  let B := p.2
  let log1 := if g.screening then (scr A B).1.map fun s => (Arr.screen, st.idx + s.1, s.2) else []
  let smax := if g.screening then (if (scr A B).2 > st.screenMax then (scr A B).2 else st.screenMax)
    else st.screenMax
  let log2 := primStores g ops A B st.idx
  let idx := st.idx + (primOrder A B).length
  let log3 := dirList.map fun d => (Arr.AB d, st.sasb, ops.sub (A.pos d) (B.pos d))
  let edge := (st.sasb + 1) % nshellSimd g.len = 0 ∨ npair ≤ st.sasb + 1
  let log4 := if edge then padStores g idx else []
  let n := pairPrims A B
  { sasb := st.sasb + 1
    idx := if edge then idx + (simdRound g.len idx - idx) else idx
    log := st.log ++ (log1 ++ log2 ++ log3 ++ log4)
    nprim12 := st.nprim12 ++ [n]
    nprim := st.nprim + n
    screenMax := smax }

/-- `simint_fill_multi_shellpair2` without the final sort, shell.c:425-577. `big` is `1.e99`. -/
def fillPairs (g : ShCfg) (ops : ShOps F) (scr : PrimScreen F) (big : F)
    (ps : List (Shell F × Shell F)) : FillSt F :=
  ps.foldl (fillStep g ops scr ps.length) ⟨0, 0, [], [], 0, big⟩

/-! ## Primitive screening values -/

/-- `simint_primscreen_fastschwarz`, shell_screen.c:231-270; `val A B i j` is the value computed for a
pair of primitives. -/
def fastSchwarz (val : Shell F → Shell F → ℕ → ℕ → F) : PrimScreen F := fun A B =>
  ((primOrder A B).zipIdx.map fun p => (p.2, val A B p.1.1 p.1.2),
    (primOrder A B).foldl (fun m p => if val A B p.1 p.2 > m then val A B p.1 p.2 else m) 0)

/-- State of the loops of `simint_primscreen_schwarz`. -/
structure SchwarzSt (F : Type) where
  idx : ℕ
  ij : ℕ
  out : List (ℕ × F)
  max : F

/-- Loop body, shell_screen.c:163-212. -/
def schwarzStep (len : ℕ) (val : Shell F → Shell F → ℕ → ℕ → F) (A B : Shell F) (st : SchwarzSt F)
    (p : ℕ × ℕ) : SchwarzSt F :=
  let v := val A B p.1 p.2
  let ij := st.ij + 1
  let idx := st.idx + 1
  let pad := if ij % nshellSimd len = 0 ∨ A.nprim * B.nprim ≤ ij then simdRound len idx - idx else 0
  { idx := idx + pad
    ij := ij
    out := st.out ++ [(st.idx, v)] ++ (List.range pad).map fun k => (idx + k, 0)
    max := if v > st.max then v else st.max }

/-- `simint_primscreen_schwarz`, shell_screen.c:124-224. -/
def schwarz (len : ℕ) (val : Shell F → Shell F → ℕ → ℕ → F) : PrimScreen F := fun A B =>
  let st := (primOrder A B).foldl (schwarzStep len val A B) ⟨0, 0, [], 0⟩
  (st.out, st.max)

end

/-! ## Memory -/

section
variable {F : Type}

/-- Apply stores to separate arrays. -/
def applyStores (log : List (Store F)) (m : Arr → ℕ → F) : Arr → ℕ → F :=
  log.foldl (fun m s a i => if a = s.1 ∧ i = s.2.1 then s.2.2 else m a i) m

/-- Element of the buffer (counted in doubles) at which a store lands; a store may be outside the
array it names. -/
def flatAddr (g : ShCfg) (npair nprim : ℕ) (a : Arr) (i : ℕ) : Option ℕ :=
  (a.offset g npair nprim).map fun o => o / 8 + i

/-- Apply stores to the buffer as it is laid out in memory. -/
def applyFlat (g : ShCfg) (npair nprim : ℕ) (log : List (Store F)) (m : ℕ → F) : ℕ → F :=
  log.foldl (fun m s k => if flatAddr g npair nprim s.1 s.2.1 = some k then s.2.2 else m k) m

/-- The structure passed to the integral functions, given the contents of the arrays. -/
def mspOf [Zero F] (m : Arr → ℕ → F) (alloc : ℕ) (nprim12 : List ℕ) (screenMax : F) : MSP F where
  nclip := nprim12.length
  nprim12 := fun s => nprim12.getD s 0
  alloc := alloc
  prefac := m .prefac
  screen := m .screen
  screenMax := screenMax
  alpha := m .alpha
  pos := fun d => m (.pos d)
  PA := fun d => m (.PA d)
  PB := fun d => m (.PB d)
  AB := fun d => m (.AB d)

end

end Simint
