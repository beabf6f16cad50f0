import Verif.FlOneEl

/-!
# Potential integrals on doubles

`potPrim` and `osoeiPotential` of `Verif/OneEl.lean` once more, now on doubles: the values are real
numbers and `fl` of `FlBoys.Arith` rounds them after each operation; the Boys function is the one of
`Verif/FlBoys.lean`, with the same argument in all lanes.

Simplified: elements that were not initialised are real numbers; subscripts converted to doubles are
exact; the center of the product is rounded or fused with the subtraction that uses it.
-/

set_option autoImplicit false

namespace Simint.FlPot

open FlBoys (Arith)
open FlOneEl (piLit)

section
variable (F : Arith)

/-- `(i,0)` from `(i-1,0)` and `(i-2,0)`, osoei_potential.c:100-141. -/
noncomputable def potBra (g : AmDim) (P : OEPar ℝ) (PC : Dir → ℝ) (i : ℕ) (w : AmWork ℝ) :
    Option (AmWork ℝ) :=
  let incart := nc i
  let incart_1 := nc (i - 1)
  let incart_2 := if 1 < i then nc (i - 2) else 0
  (forLoop 0 (g.am1 + g.am2 - i + 1) (fun m st =>
    let offset_1 := m * incart_1
    let offset_4 := offset_1 + incart_1
    let offset_2 := m * incart_2
    let offset_5 := offset_2 + incart_2
    forLoop 0 incart (fun n (st : AmWork ℝ × ℕ) =>
      (recAt i n).bind fun r => (dirOf r.dir).bind fun d =>
      let e := r.ijk.get d
      (g.get st.1 (i - 1) 0 (offset_1 + r.m1 d)).bind fun v1 =>
      (g.get st.1 (i - 1) 0 (offset_4 + r.m1 d)).bind fun v4 =>
      (g.set st.1 i 0 st.2 (F.dot (P.PA d) v1 (-PC d) v4)).bind fun w =>
      (if 1 < e then
        (g.get w i 0 st.2).bind fun v0 =>
        (g.get w (i - 2) 0 (offset_2 + r.m2 d)).bind fun v2 =>
        (g.get w (i - 2) 0 (offset_5 + r.m2 d)).bind fun v5 =>
        g.set w i 0 st.2 (F.mac (F.fl (P.oo2p * ((e - 1 : ℤ) : ℝ))) (F.fl (v2 - v5)) v0)
      else some w).map fun w => (w, st.2 + 1)) st) (w, 0)).map Prod.fst

/-- `(i,j)` from `(i,j-1)`, `(i-1,j-1)` and `(i,j-2)`, osoei_potential.c:144-210. -/
noncomputable def potKet (g : AmDim) (P : OEPar ℝ) (PC : Dir → ℝ) (i j : ℕ) (w : AmWork ℝ) :
    Option (AmWork ℝ) :=
  let incart := nc i
  let incart_1 := if 0 < i then nc (i - 1) else 0
  let jncart := nc j
  let jncart_1 := nc (j - 1)
  let jncart_2 := if 1 < j then nc (j - 2) else 0
  (forLoop 0 (g.am2 - j + 1 + 1) (fun m st =>
    (forLoop 0 incart (fun n (st : (AmWork ℝ × ℕ) × ℕ) =>
      (recAt i n).bind fun r1 =>
      let offset1 := jncart_1 * (m * incart + st.2)
      let offset4 := jncart_1 * ((m + 1) * incart + st.2)
      let offset3 := jncart_2 * (m * incart + st.2)
      let offset6 := jncart_2 * ((m + 1) * incart + st.2)
      let offset2 : Dir → ℤ := fun d => jncart_1 * (m * incart_1 + r1.m1 d)
      let offset5 : Dir → ℤ := fun d => jncart_1 * ((m + 1) * incart_1 + r1.m1 d)
      (forLoop 0 jncart (fun o (st : AmWork ℝ × ℕ) =>
        (recAt j o).bind fun r2 => (dirOf r2.dir).bind fun d =>
        let e1 := r1.ijk.get d
        let e2 := r2.ijk.get d
        (g.get st.1 i (j - 1) (offset1 + r2.m1 d)).bind fun v1 =>
        (g.get st.1 i (j - 1) (offset4 + r2.m1 d)).bind fun v4 =>
        (g.set st.1 i j st.2 (F.dot (P.PB d) v1 (-PC d) v4)).bind fun w =>
        (if 0 < e1 then
          (g.get w i j st.2).bind fun v0 =>
          (g.get w (i - 1) (j - 1) (offset2 d + r2.m1 d)).bind fun v2 =>
          (g.get w (i - 1) (j - 1) (offset5 d + r2.m1 d)).bind fun v5 =>
          g.set w i j st.2 (F.fl (v0 + F.dot (F.fl (P.oo2p * (e1 : ℝ))) v2 (-F.fl (P.oo2p * (e1 : ℝ))) v5))
        else some w).bind fun w =>
        (if 1 < e2 then
          (g.get w i j st.2).bind fun v0 =>
          (g.get w i (j - 2) (offset3 + r2.m2 d)).bind fun v3 =>
          (g.get w i (j - 2) (offset6 + r2.m2 d)).bind fun v6 =>
          g.set w i j st.2 (F.mac (F.fl (P.oo2p * ((e2 - 1 : ℤ) : ℝ))) (F.fl (v3 - v6)) v0)
        else some w).map fun w => (w, st.2 + 1)) st.1).map fun s => (s, st.2 + 1)) (st, 0)).map
      Prod.fst) (w, 0)).map Prod.fst

/-- Distance to the charge, osoei_potential.c:56-69. -/
noncomputable def potPC (a1 : ℝ) (A : Dir → ℝ) (a2 : ℝ) (B C : Dir → ℝ) (d : Dir) : ℝ :=
  F.mac (F.dot a1 (A d) a2 (B d)) (FlOneEl.oePar F a1 A a2 B).oop (-C d)

/-- `T`, osoei_potential.c:70-73. -/
noncomputable def potArg (a1 : ℝ) (A : Dir → ℝ) (a2 : ℝ) (B C : Dir → ℝ) : ℝ :=
  let PC := potPC F a1 A a2 B C
  F.fl (F.mac (PC .z) (PC .z) (F.dot (PC .x) (PC .x) (PC .y) (PC .y)) * F.fl (a1 + a2))

/-- `exp(-mu*AB2)`, osoei_potential.c:31-32 and 84. -/
noncomputable def potExp (a1 : ℝ) (A : Dir → ℝ) (a2 : ℝ) (B : Dir → ℝ) : ℝ :=
  let AB := fun d => F.fl (A d - B d)
  F.exp (F.fl (-(FlOneEl.oePar F a1 A a2 B).mu * F.mac (AB .z) (AB .z) (F.dot (AB .x) (AB .x) (AB .y) (AB .y))))

/-- One center and one pair of primitives up to the loop that adds to the output,
osoei_potential.c:46-208.  `vec` and `V` are the variant and the number of lanes of `boys_F_split`. -/
noncomputable def potPrim (vec : Bool) (V : ℕ) (g : AmDim) (a1 : ℝ) (A : Dir → ℝ) (a2 : ℝ) (B C : Dir → ℝ)
    (w : AmWork ℝ) : Option (AmWork ℝ) :=
  let P := FlOneEl.oePar F a1 A a2 B
  let PC := potPC F a1 A a2 B C
  (forLoop 0 (g.am1 + g.am2 + 1) (fun i w =>
    (FlBoys.split F vec V (fun _ => potArg F a1 A a2 B C) (g.am1 + g.am2) i 0).bind fun y =>
    g.set w 0 0 i (F.fl (F.fl (F.fl (F.fl (y * 2) * F.fl piLit) * P.oop) * potExp F a1 A a2 B))) w).bind fun w =>
  forLoop 0 (g.am1 + 1) (fun i w =>
    (if 0 < i then potBra F g P PC i w else some w).bind fun w =>
    forLoop 1 (g.am2 + 1) (fun j w => potKet F g P PC i j w) w) w

/-- `simint_compute_osoei_potential`, osoei_potential.c:11-220. -/
noncomputable def osoeiPotential (vec : Bool) (V : ℕ) (centers : List (ℝ × (Dir → ℝ)))
    (sh1 sh2 : Shell ℝ) (work0 : AmWork ℝ) (integrals : CBuf ℝ) : Option (CBuf ℝ) :=
  let g : AmDim := ⟨sh1.am, sh2.am⟩
  let ncart12 := nc sh1.am * nc sh2.am
  (zeroBuf ncart12 integrals).bind fun out =>
  (centers.foldl (fun st c => st.bind fun st =>
    forLoop 0 sh1.nprim (fun a st =>
      forLoop 0 sh2.nprim (fun b (st : AmWork ℝ × CBuf ℝ) =>
        (potPrim F vec V g (sh1.alpha a) sh1.pos (sh2.alpha b) sh2.pos c.2 st.1).bind fun w =>
        (forLoop 0 ncart12 (fun i out =>
          (g.get w sh1.am sh2.am i).bind fun v => (out.get i).bind fun o =>
          out.set i (F.mac (-F.fl (F.fl (v * c.1) * sh1.coef a)) (sh2.coef b) o)) st.2).map
        fun out => (w, out)) st) st) (some (work0, out))).map Prod.snd

end

end Simint.FlPot
