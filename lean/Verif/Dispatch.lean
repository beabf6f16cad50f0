import Verif.DerivPermute
import Verif.Permute
import Verif.Ssss
import Verif.Tables.Init

/-!
# The public functions for two-electron integrals

`simint_compute_ostei` and `simint_compute_ostei_deriv` (skel/simint/ostei/ostei.c) look up a function
pointer in the array `simint_osteifunc_array`, which `simint_init` fills
(skel/simint/simint_init.c, ostei/ostei_init.c, ostei/ostei_deriv1_init.c, written by
python/gen_fill.py), and call it.  `simint_compute_eri` (skel/simint/simint_eri.c:4-21) passes its
arguments on.

The array is a partial function from index tuples to function names; a null pointer or an index
outside of the array gives `none`.  Index tuples and names are coded as in `Tables/Init.lean`.
-/

set_option autoImplicit false

namespace Simint

/-! ## The array -/

/-- Code of the index tuple `[D][a][b][c][d]` (all indices below 16). -/
def cellCode (D a b c d : ℕ) : ℕ := (((D * 16 + a) * 16 + b) * 16 + c) * 16 + d

/-- Code of four letters. -/
def lettersCode (a b c d : Char) : ℕ := ((a.toNat * 256 + b.toNat) * 256 + c.toNat) * 256 + d.toNat

/-- Code of the letters in the name of the function of a class, OSTEI_Writer.cpp:101-108 and
OSTEIDeriv1_Writer.cpp:96-103. -/
def nameCode (am : QAM) : Option ℕ :=
  let ch : ℤ → Option Char := fun i => if 0 ≤ i then amchar[i.toNat]? else none
  (ch am.a).bind fun a => (ch am.b).bind fun b => (ch am.c).bind fun c => (ch am.d).map fun d =>
    lettersCode a b c d

/-- The assignments for maximum AM `L` that gen_fill.py writes, python/gen_fill.py:47-60 and 95-114:
`sorted` restores the order of the loops. -/
def fillBlock (D maxam L : ℕ) : List (ℕ × ℕ) :=
  ((allQuartets maxam).filter fun q => maxQ q = (L : ℤ)).filterMap fun q => (nameCode q).map fun s =>
    (cellCode D q.a.toNat q.b.toNat q.c.toNat q.d.toNat, s)

/-- All blocks that gen_fill.py writes for the options `-l maxam -d D`. -/
def fillBlocks (D maxam : ℕ) : List (ℕ × List (ℕ × ℕ)) :=
  (List.range (maxam + 1)).map fun L => (L, fillBlock D maxam L)

/-- Contents of the array by code of the index tuple; `none` is a null pointer. -/
abbrev FnTable := ℕ → Option ℕ

/-- The index tuple is inside of the array with `DERSIZE = maxder + 1` and `AMSIZE = use + 1`,
ostei.c:5-7. -/
def inTable (maxder use cell : ℕ) : Bool :=
  cell / 16 ^ 4 ≤ maxder && cell / 16 ^ 3 % 16 ≤ use && cell / 16 ^ 2 % 16 ≤ use &&
    cell / 16 % 16 ≤ use && cell % 16 ≤ use

/-- One assignment. -/
def assignFn (maxder use : ℕ) (t : FnTable) (e : ℕ × ℕ) : Option FnTable :=
  if inTable maxder use e.1 then some (Function.update t e.1 (some e.2)) else none

/-- An init function: the assignments of the blocks whose `#if` condition holds. `bound` is the value of
`SIMINT_OSTEI_MAXAM` or `SIMINT_OSTEI_DERIV1_MAXAM`. -/
def runInit (maxder use : ℕ) (bound : ℤ) (blocks : List (ℕ × List (ℕ × ℕ))) (t : FnTable) :
    Option FnTable :=
  blocks.foldlM (fun t b => if (b.1 : ℤ) ≤ bound then b.2.foldlM (assignFn maxder use) t else some t) t

/-- `simint_init`, simint_init.c:4-8, for `SIMINT_MAXAM = use` and `SIMINT_MAXDER = maxder`
(ostei_config.h.in:5-7): a static array starts with null pointers. -/
def simintInit (maxder use : ℕ) : Option FnTable :=
  (runInit maxder use use Tables.init0 fun _ => none).bind
    (runInit maxder use (if maxder > 0 then (use : ℤ) else -1) Tables.init1)

/-- `simint_osteifunc_array[D][am1][am2][am3][am4]`. -/
def fnPtr (maxder use : ℕ) (t : FnTable) (D : ℕ) (am : QAM) : Option ℕ :=
  if D ≤ maxder ∧ (0 ≤ am.a ∧ am.a ≤ use) ∧ (0 ≤ am.b ∧ am.b ≤ use) ∧ (0 ≤ am.c ∧ am.c ≤ use) ∧
      (0 ≤ am.d ∧ am.d ≤ use) then
    if am.a < 16 ∧ am.b < 16 ∧ am.c < 16 ∧ am.d < 16 then
      t (cellCode D am.a.toNat am.b.toNat am.c.toNat am.d.toNat)
    else none
  else none

/-! ## The functions -/

/-- Exchanges of the centers for which `WriteFile` defines a function, OSTEI_Writer.cpp:757-790 and
OSTEIDeriv1_Writer.cpp:947-982. -/
def variants (am : QAM) (finalPermute : Bool) : List (Bool × Bool) :=
  (false, false) :: if finalPermute then
    [(true, false), (false, true), (true, true)].filter fun s => !permSkipped am s.1 s.2 else []

/-- A generated library: options of the generator, order of the runs, options `-l` and `-p` of
create.py, and the limits chosen for the build. -/
structure LibCfg where
  gen : GenCfg
  enum : List QAM → List QAM
  maxam : ℕ
  p : ℤ
  maxder : ℕ
  use : ℕ

/-- A function of the library: the class of the generator run and the exchange of centers. -/
structure LibFn where
  run : QAM
  s12 : Bool
  s34 : Bool

/-- Class of the function. -/
def LibFn.am (f : LibFn) : QAM := permAM f.run f.s12 f.s34

/-- All functions of derivative order 0 (and those of order 1 if derivatives were generated). -/
def LibCfg.fns (L : LibCfg) : List LibFn :=
  (L.enum (validQuartets L.maxam L.p)).flatMap fun q =>
    (variants q (finalPermute L.p q)).map fun s => ⟨q, s.1, s.2⟩

/-- The function with a given name. -/
def LibCfg.find (L : LibCfg) (code : ℕ) : Option LibFn :=
  L.fns.find? fun f => nameCode f.am = some code

section
variable {F : Type} [Field F] [LinearOrder F]

/-- Environment of the loops of the hand-written function, skel/ostei_s_s_s_s.c:223-270: the same
loop variables as in generated code; no arrays besides the output. -/
def ssssEnv (ops : FOps F) (c : Call F) : DEnv F where
  len := c.len
  tops := [ssss]
  P := c.P
  Q := c.Q
  tol := c.tol
  size := fun _ => c.outSize
  vec := fun i j pf => some fun n _ _ =>
    ops.boys 0 (distR2 c.P c.Q i (j + n) * redAlpha (c.P.alpha i) (c.Q.alpha (j + n))) *
      (c.P.prefac i * pf n * ops.sqrt (1 / (c.P.alpha i + c.Q.alpha (j + n))))

/-- Result of a public function: return value, screening values of the second list afterwards, output. -/
structure PubRes (F : Type) where
  ret : ℤ
  screenQ : ℕ → F
  out : ℕ → F

/-- Calling a function of derivative order 0.  create.py:299 replaces the file of `(ss|ss)` by the
hand-written one. -/
def LibCfg.callFn (L : LibCfg) (ops : FOps F) (f : LibFn) (c : PermCall F) (hmem : HMem F) (out : ℕ → F) :
    Option (PubRes F) :=
  if f.run = ssss then
    (runSsss (ssssEnv ops c.toCall) ssss out).map fun r => ⟨r.1, r.2.1, r.2.2⟩
  else
    (if f.s12 || f.s34 then permFunction L.gen ops f.run f.s12 f.s34 c hmem out
      else genFunction L.gen ops f.run c.toCall hmem out).map fun r => ⟨r.1, c.Q.screen, r.2⟩

/-- Calling a function of derivative order 1. -/
def LibCfg.callDeriv (L : LibCfg) (ops : FOps F) (f : LibFn) (c : DPermCall F) (hmem : HMem F)
    (out : ℕ → F) : Option (PubRes F) :=
  (if f.s12 || f.s34 then dPermFunction L.gen ops f.run f.s12 f.s34 c hmem out
    else derivFunction L.gen ops f.run c.toDerivCall hmem out).map fun r => ⟨r.1, c.Q.screen, r.2⟩

/-- `simint_compute_ostei`, ostei.c:10-24. `am` holds `am1` and `am2` of both lists, `c.tol` the
argument `screen_tol`. -/
def LibCfg.computeOstei (L : LibCfg) (ops : FOps F) (am : QAM) (c : PermCall F) (hmem : HMem F)
    (out : ℕ → F) : Option (PubRes F) :=
  (simintInit L.maxder L.use).bind fun t =>
  let tol2 := c.tol * c.tol
  if 0 < c.tol ∧ c.P.screenMax * c.Q.screenMax < tol2 then some ⟨-1, c.Q.screen, out⟩
  else (fnPtr L.maxder L.use t 0 am).bind fun s => (L.find s).bind fun f =>
    L.callFn ops f { c with tol := tol2 } hmem out

/-- `simint_compute_ostei_deriv`, ostei.c:27-42, for `deriv = 1`. -/
def LibCfg.computeOsteiDeriv (L : LibCfg) (ops : FOps F) (am : QAM) (c : DPermCall F) (hmem : HMem F)
    (out : ℕ → F) : Option (PubRes F) :=
  (simintInit L.maxder L.use).bind fun t =>
  let tol2 := c.tol * c.tol
  if 0 < c.tol ∧ c.P.screenMax * c.Q.screenMax < tol2 then some ⟨-1, c.Q.screen, out⟩
  else (fnPtr L.maxder L.use t 1 am).bind fun s => (L.find s).bind fun f =>
    L.callDeriv ops f { c with tol := tol2 } hmem out

end

end Simint
