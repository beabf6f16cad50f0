import Verif.OneEl
import Verif.BoysTable

/-!
# Boys function

Model of skel/simint/boys (boys.h, boys_long.h, boys_taylor.h).  Arithmetic is that of a field;
`sqrt`, `exp`, `pow`, the conversion to `int` and the comparison are parameters.  An access outside a
row of the table `boys_shortgrid`, outside `boys_longfac` or outside the output is `none`.  The
tables hold the decimal literals of the source, not their roundings to doubles.
-/

set_option autoImplicit false

namespace Simint

/-- Operations on doubles beside those of a field. -/
structure BoysOps (F : Type) where
  sqrt : F → F
  exp : F → F
  pow : F → F → F
  /-- Conversion to `int`. -/
  trunc : F → ℤ
  lt : F → F → Bool

/-- Entry `[i][j]` of `boys_shortgrid`, multiplied by 10^34 (boys_shortgrid.c:14-382). -/
def boysGridN (i j : ℕ) : ℕ := boysGridRows.getD i 0 / 10 ^ (35 * (31 - j)) % 10 ^ 35

section
variable {F : Type} [Field F]

/-- `boys_shortgrid[i][j]`; 366 rows (BOYS_SHORTGRID_NPOINT) of 32 entries (BOYS_SHORTGRID_MAXN + 1),
boys_shortgrid.h:3-6. -/
def gridGet (i : ℤ) (j : ℕ) : Option F :=
  if 0 ≤ i ∧ i < 366 ∧ j < 32 then some ((boysGridN i.toNat j : F) / 10 ^ 34) else none

/-- `boys_longfac[n]`, boys_longfac.h:15-49. -/
def longfacGet (n : ℕ) : Option F :=
  if n < 32 then some ((boysLongfacN.getD n 0 : F) / 10 ^ 18) else none

/-- BOYS_SHORTGRID_MAXX, boys_shortgrid.h:4. -/
def boysMaxX : F := 73 / 2

variable (ops : BoysOps F) (V : ℕ)

/-- Expression of boys_taylor.h:30-38, 51-59, 88-96, 124-132 with the entries `g k` of the table. -/
def taylorSum (dx : F) (g : ℕ → Option F) : Option F :=
  (g 0).bind fun g0 => (g 1).bind fun g1 => (g 2).bind fun g2 => (g 3).bind fun g3 =>
  (g 4).bind fun g4 => (g 5).bind fun g5 => (g 6).bind fun g6 => (g 7).map fun g7 =>
    g0 + dx * (g1 + dx * ((1 / 2) * g2 + dx * ((1 / 6) * g3 + dx * ((1 / 24) * g4
      + dx * ((1 / 120) * g5 + dx * ((1 / 720) * g6 + dx * ((1 / 5040) * g7)))))))

/-- `lookup_idx`, boys_taylor.h:17, 45, 78, 118. -/
def lookupIdx (x : F) : ℤ := ops.trunc (10 * (x + 1 / 20))

/-- Value of order `i` at `x` (`boys_F_taylor_single`, boys_taylor.h:42-60; also the statements
17-21, 28-38 of `boys_F_taylor` and the same statements of the vector functions). -/
def taylorAt (x : F) (i : ℕ) : Option F :=
  let idx := lookupIdx ops x
  let xi := (idx : F) * (1 / 10)
  let dx := xi - x
  taylorSum dx fun k => gridGet idx (i + k)

/-- `boys_F_taylor(Fd + v, x, n)`, boys_taylor.h:13-40. -/
def boysTaylor (v : ℕ) (x : F) (n : ℕ) (Fd : CBuf F) : Option (CBuf F) :=
  forLoop 0 (n + 1) (fun i Fd => (taylorAt ops x i).bind fun y => Fd.set (v + i * V) y) Fd

/-- `boys_F_taylor_vec`, boys_taylor.h:62-99. -/
def boysTaylorVec (x : ℕ → F) (n : ℕ) (Fd : CBuf F) : Option (CBuf F) :=
  forLoop 0 V (fun v Fd =>
    forLoop 0 (n + 1) (fun i Fd => (taylorAt ops (x v) i).bind fun y => Fd.set (i * V + v) y) Fd) Fd

/-- `F[n] = boys_F_taylor_single_vec(x, n)`, boys_taylor.h:101-136. -/
def boysTaylorSingleVec (x : ℕ → F) (n : ℕ) (Fd : CBuf F) : Option (CBuf F) :=
  forLoop 0 V (fun v Fd => (taylorAt ops (x v) n).bind fun y => Fd.set (n * V + v) y) Fd

/-- `boys_F_long(Fd + v, x, n)`, boys_long.h:13-25; the second component is `x2`. -/
def boysLong (v : ℕ) (x : F) (n : ℕ) (Fd : CBuf F) : Option (CBuf F) :=
  let x1 := 1 / x
  (forLoop 0 (n + 1) (fun i (st : CBuf F × F) =>
    (longfacGet i).bind fun lfac => (st.1.set (v + i * V) (lfac * st.2)).map fun Fd =>
      (Fd, st.2 * x1)) (Fd, ops.sqrt x1)).map Prod.fst

/-- `boys_F_long_single`, boys_long.h:27-33. -/
def longSingle (x : F) (n : ℕ) : Option F :=
  (longfacGet n).map fun lfac => lfac * ops.sqrt (ops.pow x (-((2 * n + 1 : ℕ) : F)))

/-- Assignment of a vector to `F[i]`. -/
def storeVec (i : ℕ) (y : ℕ → F) (Fd : CBuf F) : Option (CBuf F) :=
  forLoop 0 V (fun v Fd => Fd.set (i * V + v) (y v)) Fd

/-- `boys_F_long_vec`, boys_long.h:35-49. -/
def boysLongVec (x : ℕ → F) (n : ℕ) (Fd : CBuf F) : Option (CBuf F) :=
  let x1 := fun v => 1 / x v
  (forLoop 0 (n + 1) (fun i (st : CBuf F × (ℕ → F)) =>
    (longfacGet i).bind fun lfac => (storeVec V i (fun v => lfac * st.2 v) st.1).map fun Fd =>
      (Fd, fun v => st.2 v * x1 v)) (Fd, fun v => ops.sqrt (x1 v))).map Prod.fst

/-- `F[n] = boys_F_long_single_vec(x, n)`, boys_long.h:51-58. -/
def boysLongSingleVec (x : ℕ → F) (n : ℕ) (Fd : CBuf F) : Option (CBuf F) :=
  (longfacGet n).bind fun lfac =>
    storeVec V n (fun v => lfac * ops.pow (x v) (-((n : F) + 1 / 2))) Fd

/-- `vector_min` and `vector_max`, e.g. intrinsics_avx.h:196-218. -/
def laneMin (x : ℕ → F) : F :=
  (List.range' 1 (V - 1)).foldl (fun m n => if ops.lt (x n) m then x n else m) (x 0)

def laneMax (x : ℕ → F) : F :=
  (List.range' 1 (V - 1)).foldl (fun m n => if ops.lt m (x n) then x n else m) (x 0)

/-- `boys_F_split_small_n`, boys.h:14-40.  `vec` is false if SIMINT_BOYS_NOVECTOR is defined. -/
def splitSmall (vec : Bool) (x : ℕ → F) (n : ℕ) (Fd : CBuf F) : Option (CBuf F) :=
  if vec && ops.lt boysMaxX (laneMin ops V x) then boysLongVec ops V x n Fd
  else if vec && ops.lt (laneMax ops V x) boysMaxX then boysTaylorVec ops V x n Fd
  else
    forLoop 0 V (fun i Fd =>
      if ops.lt (x i) boysMaxX then boysTaylor ops V i (x i) n Fd
      else boysLong ops V i (x i) n Fd) Fd

/-- Assignment of the highest order, boys.h:50-68. -/
def splitTop (vec : Bool) (x : ℕ → F) (n : ℕ) (Fd : CBuf F) : Option (CBuf F) :=
  if vec && ops.lt boysMaxX (laneMin ops V x) then boysLongSingleVec ops V x n Fd
  else if vec && ops.lt (laneMax ops V x) boysMaxX then boysTaylorSingleVec ops V x n Fd
  else
    forLoop 0 V (fun i Fd =>
      if ops.lt (x i) boysMaxX then (taylorAt ops (x i) n).bind fun y => Fd.set (n * V + i) y
      else (longSingle ops (x i) n).bind fun y => Fd.set (n * V + i) y) Fd

/-- Statement of the downward recursion for order `n2`, boys.h:74-80: the vector `F[n2+1]` is read,
then `F[n2]` is assigned. -/
def recurDown (x : ℕ → F) (n2 : ℕ) (Fd : CBuf F) : Option (CBuf F) :=
  let den : F := 1 / (2 * (n2 : F) + 1)
  forLoop 0 V (fun v Fd =>
    (Fd.get ((n2 + 1) * V + v)).bind fun f =>
      Fd.set (n2 * V + v) (den * (2 * x v * f + ops.exp (-(x v))))) Fd

/-- `boys_F_split_large_n`, boys.h:43-81.  Iteration `k` of the loop has `n2 = n - 1 - k`. -/
def splitLarge (vec : Bool) (x : ℕ → F) (n : ℕ) (Fd : CBuf F) : Option (CBuf F) :=
  (splitTop ops V vec x n Fd).bind fun Fd =>
    forLoop 0 n (fun k Fd => recurDown ops V x (n - 1 - k) Fd) Fd

/-- `boys_F_split`, boys.h:83-92. -/
def boysSplit (vec : Bool) (x : ℕ → F) (n : ℕ) (Fd : CBuf F) : Option (CBuf F) :=
  if n < 4 then splitSmall ops V vec x n Fd else splitLarge ops V vec x n Fd

end

end Simint
