import Verif.GeneralHRR
import Verif.Shell

/-!
# One-electron integrals

Model of skel/simint/osoei (overlap, kinetic energy and potential).  Arithmetic is that of a field;
`sqrt`, `exp`, `PI` and the Boys function are parameters.  Work arrays start with arbitrary
contents; an access outside an array is `none`.
-/

set_option autoImplicit false

namespace Simint

/-- `for(int i = lo; i < hi; i++) body` on a state; `none` is an access outside an array. -/
def forLoop {σ : Type} (lo hi : ℕ) (body : ℕ → σ → Option σ) (s : σ) : Option σ :=
  (List.range' lo (hi - lo)).foldl (fun s i => s.bind (body i)) (some s)

/-- A C array of doubles. -/
structure CBuf (F : Type) where
  size : ℕ
  val : ℕ → F

section
variable {F : Type}

def CBuf.get (b : CBuf F) (i : ℕ) : Option F := if i < b.size then some (b.val i) else none

def CBuf.set (b : CBuf F) (i : ℕ) (v : F) : Option (CBuf F) :=
  if i < b.size then some ⟨b.size, fun k => if k = i then v else b.val k⟩ else none

/-- Functions used from math.h and `PI` of constants.h. -/
structure OEOps (F : Type) where
  sqrt : F → F
  exp : F → F
  pi : F

variable [Field F]

/-- Variables computed before the loops of the recursions, osoei_terms.c:14-42 (and 87-117,
osoei_potential.c:52-69). -/
structure OEPar (F : Type) where
  oop : F
  mu : F
  oo2p : F
  PA : Dir → F
  PB : Dir → F

def oePar (a1 : F) (A : Dir → F) (a2 : F) (B : Dir → F) : OEPar F :=
  let oop := 1 / (a1 + a2)
  let P := fun d => (a1 * A d + a2 * B d) * oop
  { oop := oop
    mu := a1 * a2 * oop
    oo2p := 1 / 2 * oop
    PA := fun d => P d - A d
    PB := fun d => P d - B d }

/-- `double[3]` subscript `d`. -/
def dirC (d : ℕ) : Dir := if d = 0 then .x else if d = 1 then .y else .z

/-- `S_IJ(i,j)` (`k = d`) and `T_IJ(i,j)` (`k = d + 3`): element of `terms`, osoei_terms.c:5-6, 48-49,
127-128. -/
def termIdx (nam1 nam2 k i j : ℕ) : ℕ := k * nam1 * nam2 + (i * nam2 + j)

/-- `simint_osoei_overlap_terms`, osoei_terms.c:8-80. -/
def overlapTerms (ops : OEOps F) (a1 : F) (A : Dir → F) (a2 : F) (B : Dir → F) (nam1 nam2 : ℕ)
    (terms : CBuf F) : Option (CBuf F) :=
  let P := oePar a1 A a2 B
  forLoop 0 3 (fun d t =>
    let dd := dirC d
    let ix := termIdx nam1 nam2 d
    let AB := A dd - B dd
    (t.set (ix 0 0) (ops.sqrt (ops.pi * P.oop) * ops.exp (-P.mu * (AB * AB)))).bind fun t =>
    (forLoop 1 nam1 (fun i t =>
      (t.get (ix (i - 1) 0)).bind fun s1 =>
      (t.set (ix i 0) (P.PA dd * s1)).bind fun t =>
      if 1 < i then
        (t.get (ix i 0)).bind fun s0 => (t.get (ix (i - 2) 0)).bind fun s2 =>
        t.set (ix i 0) (s0 + ((i - 1 : ℕ) : F) * P.oo2p * s2)
      else some t) t).bind fun t =>
    (forLoop 1 nam2 (fun j t =>
      (t.get (ix 0 (j - 1))).bind fun s1 =>
      (t.set (ix 0 j) (P.PB dd * s1)).bind fun t =>
      if 1 < j then
        (t.get (ix 0 j)).bind fun s0 => (t.get (ix 0 (j - 2))).bind fun s2 =>
        t.set (ix 0 j) (s0 + ((j - 1 : ℕ) : F) * P.oo2p * s2)
      else some t) t).bind fun t =>
    forLoop 1 nam1 (fun i t =>
      forLoop 1 nam2 (fun j t =>
        (t.get (ix i (j - 1))).bind fun s1 => (t.get (ix (i - 1) (j - 1))).bind fun s3 =>
        (t.set (ix i j) (P.PB dd * s1 + P.oo2p * (i : F) * s3)).bind fun t =>
        if 1 < j then
          (t.get (ix i j)).bind fun s0 => (t.get (ix i (j - 2))).bind fun s2 =>
          t.set (ix i j) (s0 + P.oo2p * ((j - 1 : ℕ) : F) * s2)
        else some t) t) t) terms

/-- `simint_osoei_ke_terms`, osoei_terms.c:83-166. -/
def keTerms (ops : OEOps F) (a1 : F) (A : Dir → F) (a2 : F) (B : Dir → F) (nam1 nam2 : ℕ)
    (terms : CBuf F) : Option (CBuf F) :=
  let P := oePar a1 A a2 B
  let a1sq := 2 * a1 * a1
  forLoop 0 3 (fun d t =>
    let dd := dirC d
    let ix := termIdx nam1 nam2 d
    let tx := termIdx nam1 nam2 (d + 3)
    let AB := A dd - B dd
    (t.set (ix 0 0) (ops.sqrt (ops.pi * P.oop) * ops.exp (-P.mu * (AB * AB)))).bind fun t =>
    (t.get (ix 0 0)).bind fun s =>
    (t.set (tx 0 0) (s * (a1 - a1sq * (P.PA dd * P.PA dd + P.oo2p)))).bind fun t =>
    (forLoop 1 nam1 (fun i t =>
      (t.get (ix (i - 1) 0)).bind fun s1 =>
      (t.set (ix i 0) (P.PA dd * s1)).bind fun t =>
      (if 1 < i then
        (t.get (ix i 0)).bind fun s0 => (t.get (ix (i - 2) 0)).bind fun s2 =>
        t.set (ix i 0) (s0 + ((i - 1 : ℕ) : F) * P.oo2p * s2)
      else some t).bind fun t =>
      (t.get (tx (i - 1) 0)).bind fun t1 => (t.get (ix i 0)).bind fun s0 =>
      (t.set (tx i 0) (P.PA dd * t1 + 2 * P.mu * s0)).bind fun t =>
      if 1 < i then
        (t.get (tx i 0)).bind fun t0 => (t.get (tx (i - 2) 0)).bind fun t2 =>
        (t.get (ix (i - 2) 0)).bind fun s2 =>
        t.set (tx i 0) (t0 + (((i - 1 : ℕ) : F) * P.oo2p * t2 - a2 * P.oop * ((i - 1 : ℕ) : F) * s2))
      else some t) t).bind fun t =>
    (forLoop 1 nam2 (fun j t =>
      (t.get (ix 0 (j - 1))).bind fun s1 =>
      (t.set (ix 0 j) (P.PB dd * s1)).bind fun t =>
      (if 1 < j then
        (t.get (ix 0 j)).bind fun s0 => (t.get (ix 0 (j - 2))).bind fun s2 =>
        t.set (ix 0 j) (s0 + ((j - 1 : ℕ) : F) * P.oo2p * s2)
      else some t).bind fun t =>
      (t.get (tx 0 (j - 1))).bind fun t1 => (t.get (ix 0 j)).bind fun s0 =>
      (t.set (tx 0 j) (P.PB dd * t1 + 2 * P.mu * s0)).bind fun t =>
      if 1 < j then
        (t.get (tx 0 j)).bind fun t0 => (t.get (tx 0 (j - 2))).bind fun t2 =>
        (t.get (ix 0 (j - 2))).bind fun s2 =>
        t.set (tx 0 j) (t0 + (((j - 1 : ℕ) : F) * P.oo2p * t2 - a1 * P.oop * ((j - 1 : ℕ) : F) * s2))
      else some t) t).bind fun t =>
    forLoop 1 nam1 (fun i t =>
      forLoop 1 nam2 (fun j t =>
        (t.get (ix i (j - 1))).bind fun s1 => (t.get (ix (i - 1) (j - 1))).bind fun s3 =>
        (t.set (ix i j) (P.PB dd * s1 + P.oo2p * (i : F) * s3)).bind fun t =>
        (if 1 < j then
          (t.get (ix i j)).bind fun s0 => (t.get (ix i (j - 2))).bind fun s2 =>
          t.set (ix i j) (s0 + P.oo2p * ((j - 1 : ℕ) : F) * s2)
        else some t).bind fun t =>
        (t.get (tx i (j - 1))).bind fun t1 => (t.get (tx (i - 1) (j - 1))).bind fun t3 =>
        (t.get (ix i j)).bind fun s0 =>
        (t.set (tx i j) (P.PB dd * t1 + P.oo2p * (i : F) * t3 + 2 * P.mu * s0)).bind fun t =>
        if 1 < j then
          (t.get (tx i j)).bind fun t0 => (t.get (tx i (j - 2))).bind fun t2 =>
          (t.get (ix i (j - 2))).bind fun s2 =>
          t.set (tx i j) (t0 + (P.oo2p * ((j - 1 : ℕ) : F) * t2 - a1 * P.oop * ((j - 1 : ℕ) : F) * s2))
        else some t) t) t) terms

/-- `memset(integrals, 0, n*sizeof(double))`. -/
def zeroBuf (n : ℕ) (b : CBuf F) : Option (CBuf F) :=
  if n ≤ b.size then some ⟨b.size, fun k => if k < n then 0 else b.val k⟩ else none

/-- `work[k*nam12 + ijk1[d]*nam2 + ijk2[d]]`, osoei_overlap.c:48-54, osoei_ke.c:50-56.  The exponents
are `int8_t`. -/
def workAt (nam2 nam12 : ℕ) (work : CBuf F) (k : ℕ) (x y : ℤ) : Option F :=
  let i : ℤ := k * nam12 + (x * nam2 + y)
  if 0 ≤ i then work.get i.toNat else none

/-- The loops over Cartesian components, osoei_overlap.c:43-61: `val` is the expression computed for
a pair of components. -/
def addComponents (am1 am2 : ℕ) (prefac : F) (val : RecurInfo → RecurInfo → Option F) (out : CBuf F) :
    Option (CBuf F) :=
  (forLoop 0 (nc am1) (fun n st =>
    forLoop 0 (nc am2) (fun m (st : CBuf F × ℕ) =>
      (recAt am1 n).bind fun r1 => (recAt am2 m).bind fun r2 =>
      (val r1 r2).bind fun v => (st.1.get st.2).bind fun o =>
      (st.1.set st.2 (o + prefac * v)).map fun b => (b, st.2 + 1)) st) (out, 0)).map Prod.fst

/-- `simint_compute_osoei_overlap`, osoei_overlap.c:9-67.  `work0` is the uninitialised array. -/
def osoeiOverlap (ops : OEOps F) (sh1 sh2 : Shell F) (work0 : ℕ → F) (integrals : CBuf F) :
    Option (CBuf F) :=
  let nam1 := sh1.am + 1
  let nam2 := sh2.am + 1
  let nam12 := nam1 * nam2
  (zeroBuf (nc sh1.am * nc sh2.am) integrals).bind fun out =>
  (forLoop 0 sh1.nprim (fun i st =>
    forLoop 0 sh2.nprim (fun j (st : CBuf F × CBuf F) =>
      (overlapTerms ops (sh1.alpha i) sh1.pos (sh2.alpha j) sh2.pos nam1 nam2 st.1).bind fun work =>
      (addComponents sh1.am sh2.am (sh1.coef i * sh2.coef j) (fun r1 r2 =>
        (workAt nam2 nam12 work 0 r1.ijk.x r2.ijk.x).bind fun wx =>
        (workAt nam2 nam12 work 1 r1.ijk.y r2.ijk.y).bind fun wy =>
        (workAt nam2 nam12 work 2 r1.ijk.z r2.ijk.z).map fun wz => wx * wy * wz) st.2).map fun out =>
      (work, out)) st) (⟨3 * nam12, work0⟩, out)).map Prod.snd

/-- `simint_compute_osoei_ke`, osoei_ke.c:10-69. -/
def osoeiKe (ops : OEOps F) (sh1 sh2 : Shell F) (work0 : ℕ → F) (integrals : CBuf F) :
    Option (CBuf F) :=
  let nam1 := sh1.am + 1
  let nam2 := sh2.am + 1
  let nam12 := nam1 * nam2
  (zeroBuf (nc sh1.am * nc sh2.am) integrals).bind fun out =>
  (forLoop 0 sh1.nprim (fun i st =>
    forLoop 0 sh2.nprim (fun j (st : CBuf F × CBuf F) =>
      (keTerms ops (sh1.alpha i) sh1.pos (sh2.alpha j) sh2.pos nam1 nam2 st.1).bind fun work =>
      (addComponents sh1.am sh2.am (sh1.coef i * sh2.coef j) (fun r1 r2 =>
        (workAt nam2 nam12 work 0 r1.ijk.x r2.ijk.x).bind fun sx =>
        (workAt nam2 nam12 work 1 r1.ijk.y r2.ijk.y).bind fun sy =>
        (workAt nam2 nam12 work 2 r1.ijk.z r2.ijk.z).bind fun sz =>
        (workAt nam2 nam12 work 3 r1.ijk.x r2.ijk.x).bind fun tx =>
        (workAt nam2 nam12 work 4 r1.ijk.y r2.ijk.y).bind fun ty =>
        (workAt nam2 nam12 work 5 r1.ijk.z r2.ijk.z).map fun tz =>
          tx * sy * sz + sx * ty * sz + sx * sy * tz) st.2).map fun out =>
      (work, out)) st) (⟨6 * nam12, work0⟩, out)).map Prod.snd

/-! ## Potential -/

/-- `amwork[nam1][nam2][n]`. -/
abbrev AmWork (F : Type) := ℕ → ℕ → ℕ → F

/-- Bounds of `amwork`: `am1`, `am2` and the length of a row, osoei_potential.c:37. -/
structure AmDim where
  am1 : ℕ
  am2 : ℕ

def AmDim.row (g : AmDim) : ℕ := nc (g.am1 + 1) * nc (g.am2 + 1) * (g.am1 + 1 + (g.am2 + 1) + 1)

def AmDim.get (g : AmDim) (w : AmWork F) (i j : ℕ) (k : ℤ) : Option F :=
  if i ≤ g.am1 ∧ j ≤ g.am2 ∧ 0 ≤ k ∧ k < g.row then some (w i j k.toNat) else none

def AmDim.set (g : AmDim) (w : AmWork F) (i j k : ℕ) (v : F) : Option (AmWork F) :=
  if i ≤ g.am1 ∧ j ≤ g.am2 ∧ k < g.row then
    some fun i' j' k' => if i' = i ∧ j' = j ∧ k' = k then v else w i' j' k'
  else none

/-- `(i,0)` from `(i-1,0)` and `(i-2,0)`, osoei_potential.c:100-141. -/
def potBra (g : AmDim) (P : OEPar F) (PC : Dir → F) (i : ℕ) (w : AmWork F) : Option (AmWork F) :=
  let incart := nc i
  let incart_1 := nc (i - 1)
  let incart_2 := if 1 < i then nc (i - 2) else 0
  (forLoop 0 (g.am1 + g.am2 - i + 1) (fun m st =>
    let offset_1 := m * incart_1
    let offset_4 := offset_1 + incart_1
    let offset_2 := m * incart_2
    let offset_5 := offset_2 + incart_2
    forLoop 0 incart (fun n (st : AmWork F × ℕ) =>
      (recAt i n).bind fun r => (dirOf r.dir).bind fun d =>
      let e := r.ijk.get d
      (g.get st.1 (i - 1) 0 (offset_1 + r.m1 d)).bind fun v1 =>
      (g.get st.1 (i - 1) 0 (offset_4 + r.m1 d)).bind fun v4 =>
      (g.set st.1 i 0 st.2 (P.PA d * v1 - PC d * v4)).bind fun w =>
      (if 1 < e then
        (g.get w i 0 st.2).bind fun v0 =>
        (g.get w (i - 2) 0 (offset_2 + r.m2 d)).bind fun v2 =>
        (g.get w (i - 2) 0 (offset_5 + r.m2 d)).bind fun v5 =>
        g.set w i 0 st.2 (v0 + P.oo2p * ((e - 1 : ℤ) : F) * (v2 - v5))
      else some w).map fun w => (w, st.2 + 1)) st) (w, 0)).map Prod.fst

/-- `(i,j)` from `(i,j-1)`, `(i-1,j-1)` and `(i,j-2)`, osoei_potential.c:144-210. -/
def potKet (g : AmDim) (P : OEPar F) (PC : Dir → F) (i j : ℕ) (w : AmWork F) : Option (AmWork F) :=
  let incart := nc i
  let incart_1 := if 0 < i then nc (i - 1) else 0
  let jncart := nc j
  let jncart_1 := nc (j - 1)
  let jncart_2 := if 1 < j then nc (j - 2) else 0
  (forLoop 0 (g.am2 - j + 1 + 1) (fun m st =>
    (forLoop 0 incart (fun n (st : (AmWork F × ℕ) × ℕ) =>
      (recAt i n).bind fun r1 =>
      let offset1 := jncart_1 * (m * incart + st.2)
      let offset4 := jncart_1 * ((m + 1) * incart + st.2)
      let offset3 := jncart_2 * (m * incart + st.2)
      let offset6 := jncart_2 * ((m + 1) * incart + st.2)
      let offset2 : Dir → ℤ := fun d => jncart_1 * (m * incart_1 + r1.m1 d)
      let offset5 : Dir → ℤ := fun d => jncart_1 * ((m + 1) * incart_1 + r1.m1 d)
      (forLoop 0 jncart (fun o (st : AmWork F × ℕ) =>
        (recAt j o).bind fun r2 => (dirOf r2.dir).bind fun d =>
        let e1 := r1.ijk.get d
        let e2 := r2.ijk.get d
        (g.get st.1 i (j - 1) (offset1 + r2.m1 d)).bind fun v1 =>
        (g.get st.1 i (j - 1) (offset4 + r2.m1 d)).bind fun v4 =>
        (g.set st.1 i j st.2 (P.PB d * v1 - PC d * v4)).bind fun w =>
        (if 0 < e1 then
          (g.get w i j st.2).bind fun v0 =>
          (g.get w (i - 1) (j - 1) (offset2 d + r2.m1 d)).bind fun v2 =>
          (g.get w (i - 1) (j - 1) (offset5 d + r2.m1 d)).bind fun v5 =>
          g.set w i j st.2 (v0 + (P.oo2p * (e1 : F) * v2 - P.oo2p * (e1 : F) * v5))
        else some w).bind fun w =>
        (if 1 < e2 then
          (g.get w i j st.2).bind fun v0 =>
          (g.get w i (j - 2) (offset3 + r2.m2 d)).bind fun v3 =>
          (g.get w i (j - 2) (offset6 + r2.m2 d)).bind fun v6 =>
          g.set w i j st.2 (v0 + P.oo2p * ((e2 - 1 : ℤ) : F) * (v3 - v6))
        else some w).map fun w => (w, st.2 + 1)) st.1).map fun s => (s, st.2 + 1)) (st, 0)).map
      Prod.fst) (w, 0)).map Prod.fst

/-- One center and one pair of primitives up to the loop that adds to the output,
osoei_potential.c:46-212.  `boys n x` is the value stored by `boys_F_split`. -/
def potPrim (ops : OEOps F) (boys : ℕ → F → F) (g : AmDim) (a1 : F) (A : Dir → F) (a2 : F) (B : Dir → F)
    (C : Dir → F) (w : AmWork F) : Option (AmWork F) :=
  let AB := fun d => A d - B d
  let AB2 := AB .x * AB .x + AB .y * AB .y + AB .z * AB .z
  let P := oePar a1 A a2 B
  let PC := fun d => (a1 * A d + a2 * B d) * P.oop - C d
  let PC2 := PC .x * PC .x + PC .y * PC .y + PC .z * PC .z
  let T := PC2 * (a1 + a2)
  (forLoop 0 (g.am1 + g.am2 + 1) (fun i w =>
    g.set w 0 0 i (boys i T * 2 * ops.pi * P.oop * ops.exp (-P.mu * AB2))) w).bind fun w =>
  forLoop 0 (g.am1 + 1) (fun i w =>
    (if 0 < i then potBra g P PC i w else some w).bind fun w =>
    forLoop 1 (g.am2 + 1) (fun j w => potKet g P PC i j w) w) w

/-- `simint_compute_osoei_potential`, osoei_potential.c:11-220.  The centers are a list of charges and
positions. -/
def osoeiPotential (ops : OEOps F) (boys : ℕ → F → F) (centers : List (F × (Dir → F)))
    (sh1 sh2 : Shell F) (work0 : AmWork F) (integrals : CBuf F) : Option (CBuf F) :=
  let g : AmDim := ⟨sh1.am, sh2.am⟩
  let ncart12 := nc sh1.am * nc sh2.am
  (zeroBuf ncart12 integrals).bind fun out =>
  (centers.foldl (fun st c => st.bind fun st =>
    forLoop 0 sh1.nprim (fun a st =>
      forLoop 0 sh2.nprim (fun b (st : AmWork F × CBuf F) =>
        (potPrim ops boys g (sh1.alpha a) sh1.pos (sh2.alpha b) sh2.pos c.2 st.1).bind fun w =>
        (forLoop 0 ncart12 (fun i out =>
          (g.get w sh1.am sh2.am i).bind fun v => (out.get i).bind fun o =>
          out.set i (o - v * c.1 * sh1.coef a * sh2.coef b)) st.2).map fun out => (w, out)) st) st)
    (some (work0, out))).map Prod.snd

end

end Simint
