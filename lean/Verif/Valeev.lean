import Verif.Spec.ERI

/-!
# Model of the reference program of the tests

skel/test/ValeevRef.cpp: factorial tables, Boys function and one electron repulsion integral of
four primitive Gaussians (formula of Taketa, Huzinaga and O-ohata).

Simplifications.  `long double` is ℝ, `expl`, `erfl`, `sqrtl`, `powl` are the real functions;
the constant `K` of `Valeev_F` is `√π / 2` and `M_PI` is `π` (`C73_constants` bounds the distance of
the literals).  Accumulation `result += ...` over nested loops is a nested sum, which for reals is
the same.  Every read of a table or of an array is checked: an index outside of the array, or an
entry that was never assigned, gives `none`.  Allocation succeeds.
-/

set_option autoImplicit false

open MeasureTheory Real

namespace Simint

/-- `MAXFAC`, skel/test/ValeevRef.hpp:3. -/
def MAXFAC : ℕ := 200

/-- `EPS`, skel/test/ValeevRef.hpp:4. -/
noncomputable def EPS : ℝ := 1e-17

/-- `fac` after `n` entries are filled, ValeevRef.cpp:403-406. -/
noncomputable def facTab : ℕ → List ℝ
  | 0 => []
  | n + 1 => facTab n ++ [if n = 0 then 1 else (facTab n).getD (n - 1) 0 * n]

/-- `df` after `n` entries are filled, ValeevRef.cpp:408-413. -/
noncomputable def dfTab : ℕ → List ℝ
  | 0 => []
  | n + 1 => dfTab n ++ [if n ≤ 2 then 1 else ((n : ℝ) - 1) * (dfTab n).getD (n - 2) 0]

/-- Read of a list of numbers with a C index. -/
def rdAt (l : List ℝ) (i : ℤ) : Option ℝ := if 0 ≤ i then l[i.toNat]? else none

/-- `fac[i]`. -/
noncomputable def facAt (i : ℤ) : Option ℝ := rdAt (facTab MAXFAC) i

/-- `df[i]`. -/
noncomputable def dfAt (i : ℤ) : Option ℝ := rdAt (dfTab (2 * MAXFAC)) i

/-- `bc[i][j]`, ValeevRef.cpp:415-421; only `j <= i` is assigned. -/
noncomputable def bcAt (i j : ℕ) : Option ℝ :=
  if i < MAXFAC ∧ j ≤ i then do
    let a ← facAt i
    let b ← facAt ((i : ℤ) - j)
    let c ← facAt j
    pure (a / (b * c))
  else none

/-- `for(i = 0; i < n; i++) s += f(i)` with `s = 0` before. -/
noncomputable def osum : ℕ → (ℕ → Option ℝ) → Option ℝ
  | 0, _ => some 0
  | n + 1, f => do
    let s ← osum n f
    let t ← f n
    pure (s + t)

/-! ## Boys function -/

/-- Error function (`erfl`). -/
noncomputable def erfR (y : ℝ) : ℝ := 2 / √π * ∫ t in (0 : ℝ)..y, exp (-t ^ 2)

/-- `F[0]`, ..., `F[n]` by upward recursion, ValeevRef.cpp:115-118. -/
noncomputable def fUp (et t2 F0 : ℝ) : ℕ → List ℝ
  | 0 => [F0]
  | m + 1 => fUp et t2 F0 m ++ [((2 * m + 1) * (fUp et t2 F0 m).getD m 0 - et) / t2]

/-- The series, ValeevRef.cpp:132-139: the body runs at least once, and again while
`fabsl(term1) > EPS && i < MAXFAC`.  The first argument bounds the number of turns (`MAXFAC` turns
suffice because `i` grows). -/
noncomputable def fSeries (t2 : ℝ) (m2 : ℕ) : ℕ → ℕ → ℝ → ℝ → Option ℝ
  | 0, _, _, _ => none
  | fuel + 1, i, num, sum => do
    let i := i + 1
    let num := num * t2
    let d ← dfAt (m2 + 2 * i + 2)
    let term1 := num / d
    let sum := sum + term1
    if |term1| > EPS ∧ i < MAXFAC then fSeries t2 m2 fuel i num sum else pure sum

/-- `F[0]`, ..., `F[n]` by downward recursion from `F[n] = f`, ValeevRef.cpp:141-144. -/
noncomputable def fDown (et t2 : ℝ) : ℕ → ℝ → List ℝ
  | 0, f => [f]
  | m + 1, f => fDown et t2 m ((t2 * f + et) / (2 * m + 1)) ++ [f]

/-- `Valeev_F`, ValeevRef.cpp:97-146. -/
noncomputable def valeevF (n : ℕ) (x : ℝ) : Option (List ℝ) :=
  if x > 20 then
    some (fUp (exp (-x)) (2 * x) (√π / 2 * erfR (√x) / √x) n)
  else do
    let num ← dfAt (2 * n)
    let sum ← fSeries (2 * x) (2 * n) MAXFAC 0 num (1 / (2 * n + 1))
    pure (fDown (exp (-x)) (2 * x) n (sum * exp (-x)))

/-! ## One integral -/

/-- `norm_const`, ValeevRef.cpp:50-55. -/
noncomputable def normConst (l : Dir → ℕ) (α : ℝ) : Option ℝ := do
  let a ← dfAt (2 * l .x)
  let b ← dfAt (2 * l .y)
  let c ← dfAt (2 * l .z)
  pure ((2 * α / π) ^ (0.75 : ℝ) * (4 * α) ^ (0.5 * ((l .x : ℝ) + l .y + l .z)) / √(a * b * c))

/-- The arrays `flp`, `fmp`, `fnp`, `flq`, `fmq`, `fnq`, ValeevRef.cpp:218-301 (six copies of the same
loops with other variables). -/
noncomputable def fArr (l1 l2 : ℕ) (PA PB : ℝ) : Option (List ℝ) :=
  (List.range (l1 + l2 + 1)).mapM fun k => osum (min k l1 + 1) fun i =>
    let j := k - i
    if j > l2 then some 0 else do
      let b1 ← bcAt l1 i
      let b2 ← bcAt l2 j
      let tmp := b1 * b2
      let tmp := if l1 - i > 0 then tmp * PA ^ (l1 - i) else tmp
      let tmp := if l2 - j > 0 then tmp * PB ^ (l2 - j) else tmp
      pure tmp

/-- `Gx`, `Gy`, `Gz`, ValeevRef.cpp:311-314, 323-328 and 337-343. -/
noncomputable def gFac (fp fq : List ℝ) (gammap gammaq gammapq : ℝ) (lp lq u1 u2 : ℕ) : Option ℝ := do
  let a ← rdAt fp lp
  let b ← rdAt fq lq
  let c ← facAt lp
  let d ← facAt lq
  let e ← facAt ((lp : ℤ) + lq - 2 * u1 - 2 * u2)
  let f ← facAt u1
  let g ← facAt u2
  let h ← facAt ((lp : ℤ) - 2 * u1)
  let i ← facAt ((lq : ℤ) - 2 * u2)
  pure ((-1) ^ lp * a * b * c * d * gammap ^ ((u1 : ℤ) - lp) * gammaq ^ ((u2 : ℤ) - lq) * e *
    gammapq ^ ((lp : ℤ) + lq - 2 * u1 - 2 * u2) / (f * g * h * i))

/-- The term added to `result`, ValeevRef.cpp:351-374. -/
noncomputable def valTerm (F : List ℝ) (Gx Gy Gz PQx PQy PQz gammapq : ℝ)
    (lp lq u1 u2 mp mq v1 v2 np nq w1 w2 tx ty tz : ℕ) : Option ℝ := do
  let zeta : ℤ := (lp : ℤ) + lq + mp + mq + np + nq - 2 * u1 - 2 * u2 - 2 * v1 - 2 * v2 - 2 * w1 - 2 * w2 -
    tx - ty - tz
  let f ← rdAt F zeta
  let a ← facAt ((lp : ℤ) + lq - 2 * u1 - 2 * u2 - 2 * tx)
  let b ← facAt tx
  let c ← facAt ((mp : ℤ) + mq - 2 * v1 - 2 * v2 - 2 * ty)
  let d ← facAt ty
  let e ← facAt ((np : ℤ) + nq - 2 * w1 - 2 * w2 - 2 * tz)
  let g ← facAt tz
  pure (Gx * Gy * Gz * f * (-1) ^ (tx + ty + tz) * PQx ^ ((lp : ℤ) + lq - 2 * u1 - 2 * u2 - 2 * tx) *
    PQy ^ ((mp : ℤ) + mq - 2 * v1 - 2 * v2 - 2 * ty) * PQz ^ ((np : ℤ) + nq - 2 * w1 - 2 * w2 - 2 * tz) /
    (4 ^ (u1 + u2 + tx + v1 + v2 + ty + w1 + w2 + tz) * gammapq ^ tx * gammapq ^ ty * gammapq ^ tz *
      a * b * c * d * e * g))

/-- The loops, ValeevRef.cpp:303-381.  `nb`, `nk` are the upper limits `l1 + l2`, `l3 + l4` of the
three directions, `fb`, `fk` the arrays. -/
noncomputable def valSum (F : List ℝ) (nb nk : Dir → ℕ) (fb fk : Dir → List ℝ) (gammap gammaq gammapq : ℝ)
    (PQ : Dir → ℝ) : Option ℝ :=
  osum (nb .x + 1) fun lp => osum (nk .x + 1) fun lq =>
  osum (lp / 2 + 1) fun u1 => osum (lq / 2 + 1) fun u2 => do
    let Gx ← gFac (fb .x) (fk .x) gammap gammaq gammapq lp lq u1 u2
    osum (nb .y + 1) fun mp => osum (nk .y + 1) fun mq =>
    osum (mp / 2 + 1) fun v1 => osum (mq / 2 + 1) fun v2 => do
      let Gy ← gFac (fb .y) (fk .y) gammap gammaq gammapq mp mq v1 v2
      osum (nb .z + 1) fun np => osum (nk .z + 1) fun nq =>
      osum (np / 2 + 1) fun w1 => osum (nq / 2 + 1) fun w2 => do
        let Gz ← gFac (fb .z) (fk .z) gammap gammaq gammapq np nq w1 w2
        osum ((lp + lq - 2 * u1 - 2 * u2) / 2 + 1) fun tx =>
        osum ((mp + mq - 2 * v1 - 2 * v2) / 2 + 1) fun ty =>
        osum ((np + nq - 2 * w1 - 2 * w2) / 2 + 1) fun tz =>
          valTerm F Gx Gy Gz (PQ .x) (PQ .y) (PQ .z) gammapq lp lq u1 u2 mp mq v1 v2 np nq w1 w2 tx ty tz

/-- `l1 + m1 + n1`. -/
def lTot (l : Dir → ℕ) : ℕ := l .x + l .y + l .z

/-- Normalisation of the prefactor, ValeevRef.cpp:206-212. -/
noncomputable def normPfac (normFlag : Bool) (pfac : ℝ) (l1 : Dir → ℕ) (alpha1 : ℝ) (l2 : Dir → ℕ) (alpha2 : ℝ)
    (l3 : Dir → ℕ) (alpha3 : ℝ) (l4 : Dir → ℕ) (alpha4 : ℝ) : Option ℝ :=
  if normFlag then do
    let n1 ← normConst l1 alpha1
    let n2 ← normConst l2 alpha2
    let n3 ← normConst l3 alpha3
    let n4 ← normConst l4 alpha4
    pure (pfac * n1 * n2 * n3 * n4)
  else pure pfac

/-- `ValeevRef_eri`, ValeevRef.cpp:148-392.  `l1`, `l2`, `l3`, `l4` hold the three powers of each
function (`l1`, `m1`, `n1` of the code and so on).  `bf` is the routine for the Boys function. -/
noncomputable def valeevEri (bf : ℕ → ℝ → Option (List ℝ)) (l1 : Dir → ℕ) (alpha1 : ℝ) (A : Dir → ℝ)
    (l2 : Dir → ℕ) (alpha2 : ℝ) (B : Dir → ℝ) (l3 : Dir → ℕ) (alpha3 : ℝ) (C : Dir → ℝ)
    (l4 : Dir → ℕ) (alpha4 : ℝ) (D : Dir → ℝ) (normFlag : Bool) : Option ℝ := do
  let gammap := alpha1 + alpha2
  let P : Dir → ℝ := fun i => (alpha1 * A i + alpha2 * B i) / gammap
  let AB2 := (A .x - B .x) * (A .x - B .x) + (A .y - B .y) * (A .y - B .y) + (A .z - B .z) * (A .z - B .z)
  let gammaq := alpha3 + alpha4
  let gammapq := gammap * gammaq / (gammap + gammaq)
  let Q : Dir → ℝ := fun i => (alpha3 * C i + alpha4 * D i) / gammaq
  let CD2 := (C .x - D .x) * (C .x - D .x) + (C .y - D .y) * (C .y - D .y) + (C .z - D .z) * (C .z - D .z)
  let PQ : Dir → ℝ := fun i => P i - Q i
  let PQ2 := PQ .x * PQ .x + PQ .y * PQ .y + PQ .z * PQ .z
  let K1 := exp (-alpha1 * alpha2 * AB2 / gammap)
  let K2 := exp (-alpha3 * alpha4 * CD2 / gammaq)
  let pfac := 2 * π ^ (2.5 : ℝ) * K1 * K2 / (gammap * gammaq * √(gammap + gammaq))
  let pfac ← normPfac normFlag pfac l1 alpha1 l2 alpha2 l3 alpha3 l4 alpha4
  let F ← bf (lTot l1 + lTot l2 + lTot l3 + lTot l4) (PQ2 * gammapq)
  let flp ← fArr (l1 .x) (l2 .x) (P .x - A .x) (P .x - B .x)
  let fmp ← fArr (l1 .y) (l2 .y) (P .y - A .y) (P .y - B .y)
  let fnp ← fArr (l1 .z) (l2 .z) (P .z - A .z) (P .z - B .z)
  let flq ← fArr (l3 .x) (l4 .x) (Q .x - C .x) (Q .x - D .x)
  let fmq ← fArr (l3 .y) (l4 .y) (Q .y - C .y) (Q .y - D .y)
  let fnq ← fArr (l3 .z) (l4 .z) (Q .z - C .z) (Q .z - D .z)
  let result ← valSum F (fun i => l1 i + l2 i) (fun i => l3 i + l4 i)
    (fun | .x => flp | .y => fmp | .z => fnp) (fun | .x => flq | .y => fmq | .z => fnq)
    gammap gammaq gammapq PQ
  pure (result * pfac)

end Simint
