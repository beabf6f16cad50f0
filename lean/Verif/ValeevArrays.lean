import Verif.Valeev
import Verif.Shell
import Verif.Spec.Deriv

/-!
# The arrays of reference values of the tests: skel/test/ValeevRef.cpp:71-93, 436-797

Arithmetic is over the reals: the conversions between `double` and `long double` are not modelled, and the sums
over primitives are nested instead of one running sum.  The values do not depend on the contents of the
output array, so they are computed first and then stored in the order of the code.  A store outside of
the output array and a read outside of a table of `ValeevRef_eri` give `none`.
-/

set_option autoImplicit false

namespace Simint

/-! ## Loops over Cartesian components -/

/-- `ValidGaussian`, skel/test/Common.cpp:14-17. -/
def refValid (g : Exp) : Bool := decide (0 ≤ g.x ∧ 0 ≤ g.y ∧ 0 ≤ g.z)

/-- `IterateGaussian`, skel/test/Common.cpp:20-33; `none` is the return value `false`. -/
def refNext (g : Exp) : Option Exp :=
  let am := g.x + g.y + g.z
  if g.z = am then none
  else
    let g' : Exp := if g.z < am - g.x then ⟨g.x, g.y - 1, g.z + 1⟩ else ⟨g.x - 1, am - g.x + 1, 0⟩
    if refValid g' then some g' else none

/-- The values of `g` in the turns of `do { … } while(IterateGaussian(g))`, at most `fuel` turns. -/
def refDo : ℕ → Exp → List Exp
  | 0, _ => []
  | f + 1, g => g :: (match refNext g with
    | some g' => refDo f g'
    | none => [])

/-- The loop that starts at `{am, 0, 0}`, ValeevRef.cpp:466-467, 500 and so on.  `refDo_fuel` shows that
more fuel makes no difference. -/
def refOrder (am : ℕ) : List Exp := refDo (ncart am + 1) ⟨am, 0, 0⟩

/-! ## Contracted values -/

/-- Four things, one for each center. -/
def four {α : Type} (a b c d : α) : RRType → α
  | .I => a
  | .J => b
  | .K => c
  | .L => d

/-- The call of `ValeevRef_eri` for the primitives `m` of the shells `S` and the components `g`,
ValeevRef.cpp:486-489. -/
noncomputable def refEri (bf : ℕ → ℝ → Option (List ℝ)) (S : RRType → Shell ℝ) (norm : Bool)
    (m : RRType → ℕ) (g : RRType → Exp) : Option ℝ :=
  valeevEri bf (fun i => ((g .I).get i).toNat) ((S .I).alpha (m .I)) (S .I).pos
    (fun i => ((g .J).get i).toNat) ((S .J).alpha (m .J)) (S .J).pos
    (fun i => ((g .K).get i).toNat) ((S .K).alpha (m .K)) (S .K).pos
    (fun i => ((g .L).get i).toNat) ((S .L).alpha (m .L)) (S .L).pos norm

/-- The loops over the primitives, ValeevRef.cpp:480-483, 551-554. -/
noncomputable def refPrims (S : RRType → Shell ℝ) (f : (RRType → ℕ) → Option ℝ) : Option ℝ :=
  osum (S .I).nprim fun m => osum (S .J).nprim fun n => osum (S .K).nprim fun o => osum (S .L).nprim fun p =>
    f (four m n o p)

/-- `myint`, ValeevRef.cpp:478-492. -/
noncomputable def refInt (bf : ℕ → ℝ → Option (List ℝ)) (S : RRType → Shell ℝ) (norm : Bool)
    (g : RRType → Exp) : Option ℝ :=
  refPrims S fun m => do
    let val ← refEri bf S norm m g
    pure (val * (S .I).coef (m .I) * (S .J).coef (m .J) * (S .K).coef (m .K) * (S .L).coef (m .L))

/-- `valm` before it is scaled: computed for valid components only, ValeevRef.cpp:570, 577-581. -/
noncomputable def refLow (bf : ℕ → ℝ → Option (List ℝ)) (S : RRType → Shell ℝ) (norm : Bool) (m : RRType → ℕ)
    (g : RRType → Exp) (t : RRType) (d : Dir) : Option ℝ :=
  let gm := (g t).step d (-1)
  if refValid gm then refEri bf S norm m (Function.update g t gm) else pure 0

/-- `myints[t*3+d]` for one of the first three centers, ValeevRef.cpp:556-587, 591-612, 616-637: the code has
one copy for each of the three centers. -/
noncomputable def refGrad (bf : ℕ → ℝ → Option (List ℝ)) (S : RRType → Shell ℝ) (norm : Bool)
    (g : RRType → Exp) (t : RRType) (d : Dir) : Option ℝ :=
  refPrims S fun m => do
    let prefac := (S .I).coef (m .I) * (S .J).coef (m .J) * (S .K).coef (m .K) * (S .L).coef (m .L)
    let valp ← refEri bf S norm m (Function.update g t ((g t).step d 1))
    let valm ← refLow bf S norm m g t d
    pure ((valp * (2 * (S t).alpha (m t)) - valm * (g t).get d) * prefac)

/-- The three directions in the order of the code. -/
def refDirs : List Dir := [.x, .y, .z]

/-- `myints`, ValeevRef.cpp:549-643. -/
noncomputable def refTwelve (bf : ℕ → ℝ → Option (List ℝ)) (S : RRType → Shell ℝ) (norm : Bool)
    (g : RRType → Exp) : Option (List ℝ) := do
  let a ← refDirs.mapM (refGrad bf S norm g .I)
  let b ← refDirs.mapM (refGrad bf S norm g .J)
  let c ← refDirs.mapM (refGrad bf S norm g .K)
  pure (a ++ b ++ c ++ (List.range 3).map fun d => -(a.getD d 0 + b.getD d 0 + c.getD d 0))

/-! ## Output arrays -/

/-- Stores to an array with `size` elements. -/
noncomputable def putAll (size : ℕ) : (ℕ → ℝ) → List (ℕ × ℝ) → Option (ℕ → ℝ)
  | mem, [] => some mem
  | mem, (a, v) :: l => if a < size then putAll size (Function.update mem a v) l else none

/-- Four arrays of shells with their lengths. -/
structure RefArgs where
  sh : RRType → ℕ → Shell ℝ
  n : RRType → ℕ

namespace RefArgs

variable (r : RefArgs)

/-- `am1` to `am4`: taken from the first shell, ValeevRef.cpp:445-448, 514-517, 668-671. -/
def am (t : RRType) : ℕ := (r.sh t 0).am

/-- `NCART(am1) * NCART(am2) * NCART(am3) * NCART(am4)`; `NCART` is skel/test/Common.hpp:16. -/
def ncart : ℕ := Simint.ncart (r.am .I) * Simint.ncart (r.am .J) * Simint.ncart (r.am .K) * Simint.ncart (r.am .L)

/-- `n234`, ValeevRef.cpp:450, 519. -/
def n234 : ℕ := r.n .J * r.n .K * r.n .L * r.ncart

/-- The loops over components, ValeevRef.cpp:466-500. -/
def comps : List (RRType → Exp) :=
  (refOrder (r.am .I)).flatMap fun g1 => (refOrder (r.am .J)).flatMap fun g2 =>
    (refOrder (r.am .K)).flatMap fun g3 => (refOrder (r.am .L)).map fun g4 => four g1 g2 g3 g4

/-- The loops over the shells of the last three arrays, ValeevRef.cpp:457-459, 526-528. -/
def shells (i : ℕ) : List (RRType → Shell ℝ) :=
  (List.range (r.n .J)).flatMap fun j => (List.range (r.n .K)).flatMap fun k =>
    (List.range (r.n .L)).map fun l => four (r.sh .I i) (r.sh .J j) (r.sh .K k) (r.sh .L l)

/-- The values that one turn of the loop over the first array stores, in order: `val` gives those of one
combination of shells and components. -/
noncomputable def row (val : (RRType → Shell ℝ) → (RRType → Exp) → Option (List ℝ)) (i : ℕ) : Option (List ℝ) := do
  let vs ← ((r.shells i).flatMap fun S => r.comps.map fun g => (S, g)).mapM fun p => val p.1 p.2
  pure vs.flatten

/-- The stores of the rows: `idx` counts from `idxstart`, ValeevRef.cpp:454-455, 494-495, 523-524, 646-647. -/
def stores (rows : List (List ℝ)) : List (ℕ × ℝ) :=
  rows.zipIdx.flatMap fun p => p.1.zipIdx.map fun v => (p.2 * r.n234 + v.2, v.1)

/-- `ValeevRef_Deriv0`, ValeevRef.cpp:437-503. -/
noncomputable def deriv0 (bf : ℕ → ℝ → Option (List ℝ)) (norm : Bool) (size : ℕ) (mem : ℕ → ℝ) : Option (ℕ → ℝ) := do
  let rows ← (List.range (r.n .I)).mapM (r.row fun S g => (refInt bf S norm g).map fun v => [v])
  putAll size mem (r.stores rows)

/-- `ValeevRef_Deriv1`, ValeevRef.cpp:506-656.  `idxstart` is `i * n234` here too (line 523), although a row has
`12 * n234` values. -/
noncomputable def deriv1 (bf : ℕ → ℝ → Option (List ℝ)) (norm : Bool) (size : ℕ) (mem : ℕ → ℝ) : Option (ℕ → ℝ) := do
  let rows ← (List.range (r.n .I)).mapM (r.row fun S g => refTwelve bf S norm g)
  putAll size mem (r.stores rows)

end RefArgs

/-! ## Numerical derivatives -/

/-- `copy_gaussian_move`, ValeevRef.cpp:73-84. -/
noncomputable def copyMove (s : Shell ℝ) (d : Dir) (delta : ℝ) : Shell ℝ :=
  { s with pos := Function.update s.pos d (s.pos d + delta) }

/-- `delta`, ValeevRef.cpp:667. -/
noncomputable def refDelta : ℝ := 1e-8

/-- `ValeevRef_Deriv0` on one shell of each kind into a buffer of `ncart_abcd` elements with contents `junk`,
ValeevRef.cpp:673-674, 691-692; the buffer is then read by `FormDeriv`. -/
noncomputable def oneQuartet (bf : ℕ → ℝ → Option (List ℝ)) (norm : Bool) (junk : ℕ → ℝ) (S : RRType → Shell ℝ)
    (size : ℕ) : Option (ℕ → ℝ) :=
  RefArgs.deriv0 ⟨fun t _ => S t, fun _ => 1⟩ bf norm size junk

namespace RefArgs

variable (r : RefArgs)

/-- The stores of `FormDeriv` for center `t` and direction `d`, ValeevRef.cpp:87-93, 689-693 (and the eleven
other copies of these lines): block number `blk` behind `ptr`. -/
noncomputable def formDeriv (bf : ℕ → ℝ → Option (List ℝ)) (norm : Bool) (junk : ℕ → ℝ) (S : RRType → Shell ℝ)
    (ptr blk : ℕ) (t : RRType) (d : Dir) : Option (List (ℕ × ℝ)) := do
  let bufp ← oneQuartet bf norm junk (Function.update S t (copyMove (S t) d refDelta)) r.ncart
  let bufm ← oneQuartet bf norm junk (Function.update S t (copyMove (S t) d (-refDelta))) r.ncart
  pure ((List.range r.ncart).map fun i => (ptr + blk * r.ncart + i, (bufp i - bufm i) / (2 * refDelta)))

/-- The twelve blocks in the order of the code, ValeevRef.cpp:688-770. -/
def refBlocks : List (ℕ × RRType × Dir) :=
  [(0, .I, .x), (1, .I, .y), (2, .I, .z), (3, .J, .x), (4, .J, .y), (5, .J, .z),
   (6, .K, .x), (7, .K, .y), (8, .K, .z), (9, .L, .x), (10, .L, .y), (11, .L, .z)]

/-- All combinations of shells, ValeevRef.cpp:683-686. -/
def quartets : List (RRType → Shell ℝ) := (List.range (r.n .I)).flatMap r.shells

/-- `ValeevRef_NumDeriv1`, ValeevRef.cpp:660-778.  The buffers `buf_p`, `buf_m` are taken to hold `junk` before each
use. -/
noncomputable def numDeriv1 (bf : ℕ → ℝ → Option (List ℝ)) (norm : Bool) (junk : ℕ → ℝ) (size : ℕ) (mem : ℕ → ℝ) :
    Option (ℕ → ℝ) := do
  let st ← r.quartets.zipIdx.mapM fun q => do
    let bs ← refBlocks.mapM fun b => r.formDeriv bf norm junk q.1 (q.2 * (r.ncart * 12)) b.1 b.2.1 b.2.2
    pure bs.flatten
  putAll size mem st.flatten

/-- `ValeevRef_Integrals`, ValeevRef.cpp:780-797; `none` also stands for the exception. -/
noncomputable def integrals (bf : ℕ → ℝ → Option (List ℝ)) (norm : Bool) (deriv : ℤ) (junk : ℕ → ℝ) (size : ℕ)
    (mem : ℕ → ℝ) : Option (ℕ → ℝ) :=
  if deriv = 0 then r.deriv0 bf norm size mem
  else if deriv = 1 then r.deriv1 bf norm size mem
  else if deriv = -1 then r.numDeriv1 bf norm junk size mem
  else none

end RefArgs

end Simint
