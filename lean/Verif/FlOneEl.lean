import Verif.OneEl
import Verif.FlPrim

/-!
# Overlap and kinetic energy integrals on doubles

`overlapTerms`, `keTerms`, `osoeiOverlap` and `osoeiKe` of `Verif/OneEl.lean` once more, now on doubles:
the values are real numbers and `fl` of `FlBoys.Arith` rounds them after each operation.

Simplified: where an element is assigned and then incremented (`S_IJ(i,0) = ...; if(i > 1) S_IJ(i,0) += ...`)
only the second value is stored, so that the first product may also be the one that is fused; subscripts
converted to doubles are exact.
-/

set_option autoImplicit false

namespace Simint.FlOneEl

open FlBoys (Arith)

/-- `PI`, skel/simint/constants.h:3, before it is rounded. -/
noncomputable def piLit : ℝ :=
  3141592653589793238462643383279502884197169399375105820974944592 / 10 ^ 63

section
variable (F : Arith)

/-- Variables computed before the loops, osoei_terms.c:29-42. -/
noncomputable def oePar (a1 : ℝ) (A : Dir → ℝ) (a2 : ℝ) (B : Dir → ℝ) : OEPar ℝ :=
  let oop := F.fl (1 / F.fl (a1 + a2))
  let s := fun d => F.dot a1 (A d) a2 (B d)
  { oop := oop
    mu := F.fl (F.fl (a1 * a2) * oop)
    oo2p := F.fl (1 / 2 * oop)
    PA := fun d => F.mac (s d) oop (-A d)
    PB := fun d => F.mac (s d) oop (-B d) }

/-- `sqrt(PI * oop) * exp(-mu * AB2[d])`, osoei_terms.c:13-14, 51 and 130. -/
noncomputable def start (P : OEPar ℝ) (A B : ℝ) : ℝ :=
  let AB := F.fl (A - B)
  F.fl (F.fl √(F.fl (F.fl piLit * P.oop)) * F.exp (F.fl (-P.mu * F.fl (AB * AB))))

/-- `simint_osoei_overlap_terms`, osoei_terms.c:8-80. -/
noncomputable def overlapTerms (a1 : ℝ) (A : Dir → ℝ) (a2 : ℝ) (B : Dir → ℝ) (nam1 nam2 : ℕ)
    (terms : CBuf ℝ) : Option (CBuf ℝ) :=
  let P := oePar F a1 A a2 B
  forLoop 0 3 (fun d t =>
    let dd := dirC d
    let ix := termIdx nam1 nam2 d
    (t.set (ix 0 0) (start F P (A dd) (B dd))).bind fun t =>
    (forLoop 1 nam1 (fun i t =>
      (t.get (ix (i - 1) 0)).bind fun s1 =>
      if 1 < i then
        (t.get (ix (i - 2) 0)).bind fun s2 =>
        t.set (ix i 0) (F.dot (P.PA dd) s1 (F.fl (((i - 1 : ℕ) : ℝ) * P.oo2p)) s2)
      else t.set (ix i 0) (F.fl (P.PA dd * s1))) t).bind fun t =>
    (forLoop 1 nam2 (fun j t =>
      (t.get (ix 0 (j - 1))).bind fun s1 =>
      if 1 < j then
        (t.get (ix 0 (j - 2))).bind fun s2 =>
        t.set (ix 0 j) (F.dot (P.PB dd) s1 (F.fl (((j - 1 : ℕ) : ℝ) * P.oo2p)) s2)
      else t.set (ix 0 j) (F.fl (P.PB dd * s1))) t).bind fun t =>
    forLoop 1 nam1 (fun i t =>
      forLoop 1 nam2 (fun j t =>
        (t.get (ix i (j - 1))).bind fun s1 => (t.get (ix (i - 1) (j - 1))).bind fun s3 =>
        let v := F.dot (P.PB dd) s1 (F.fl (P.oo2p * (i : ℝ))) s3
        if 1 < j then
          (t.get (ix i (j - 2))).bind fun s2 =>
          t.set (ix i j) (F.mac (F.fl (P.oo2p * ((j - 1 : ℕ) : ℝ))) s2 v)
        else t.set (ix i j) v) t) t) terms

/-- `simint_osoei_ke_terms`, osoei_terms.c:83-166. -/
noncomputable def keTerms (a1 : ℝ) (A : Dir → ℝ) (a2 : ℝ) (B : Dir → ℝ) (nam1 nam2 : ℕ)
    (terms : CBuf ℝ) : Option (CBuf ℝ) :=
  let P := oePar F a1 A a2 B
  let a1sq := F.fl (F.fl (2 * a1) * a1)
  let mu2 := F.fl (2 * P.mu)
  forLoop 0 3 (fun d t =>
    let dd := dirC d
    let ix := termIdx nam1 nam2 d
    let tx := termIdx nam1 nam2 (d + 3)
    (t.set (ix 0 0) (start F P (A dd) (B dd))).bind fun t =>
    (t.get (ix 0 0)).bind fun s =>
    (t.set (tx 0 0) (F.fl (s * F.mac (-a1sq) (F.mac (P.PA dd) (P.PA dd) P.oo2p) a1))).bind fun t =>
    (forLoop 1 nam1 (fun i t =>
      (t.get (ix (i - 1) 0)).bind fun s1 =>
      (if 1 < i then
        (t.get (ix (i - 2) 0)).bind fun s2 =>
        t.set (ix i 0) (F.dot (P.PA dd) s1 (F.fl (((i - 1 : ℕ) : ℝ) * P.oo2p)) s2)
      else t.set (ix i 0) (F.fl (P.PA dd * s1))).bind fun t =>
      (t.get (tx (i - 1) 0)).bind fun t1 => (t.get (ix i 0)).bind fun s0 =>
      let v := F.dot (P.PA dd) t1 mu2 s0
      if 1 < i then
        (t.get (tx (i - 2) 0)).bind fun t2 => (t.get (ix (i - 2) 0)).bind fun s2 =>
        t.set (tx i 0) (F.fl (v + F.dot (F.fl (((i - 1 : ℕ) : ℝ) * P.oo2p)) t2
          (-F.fl (F.fl (a2 * P.oop) * ((i - 1 : ℕ) : ℝ))) s2))
      else t.set (tx i 0) v) t).bind fun t =>
    (forLoop 1 nam2 (fun j t =>
      (t.get (ix 0 (j - 1))).bind fun s1 =>
      (if 1 < j then
        (t.get (ix 0 (j - 2))).bind fun s2 =>
        t.set (ix 0 j) (F.dot (P.PB dd) s1 (F.fl (((j - 1 : ℕ) : ℝ) * P.oo2p)) s2)
      else t.set (ix 0 j) (F.fl (P.PB dd * s1))).bind fun t =>
      (t.get (tx 0 (j - 1))).bind fun t1 => (t.get (ix 0 j)).bind fun s0 =>
      let v := F.dot (P.PB dd) t1 mu2 s0
      if 1 < j then
        (t.get (tx 0 (j - 2))).bind fun t2 => (t.get (ix 0 (j - 2))).bind fun s2 =>
        t.set (tx 0 j) (F.fl (v + F.dot (F.fl (((j - 1 : ℕ) : ℝ) * P.oo2p)) t2
          (-F.fl (F.fl (a1 * P.oop) * ((j - 1 : ℕ) : ℝ))) s2))
      else t.set (tx 0 j) v) t).bind fun t =>
    forLoop 1 nam1 (fun i t =>
      forLoop 1 nam2 (fun j t =>
        (t.get (ix i (j - 1))).bind fun s1 => (t.get (ix (i - 1) (j - 1))).bind fun s3 =>
        let v := F.dot (P.PB dd) s1 (F.fl (P.oo2p * (i : ℝ))) s3
        (if 1 < j then
          (t.get (ix i (j - 2))).bind fun s2 =>
          t.set (ix i j) (F.mac (F.fl (P.oo2p * ((j - 1 : ℕ) : ℝ))) s2 v)
        else t.set (ix i j) v).bind fun t =>
        (t.get (tx i (j - 1))).bind fun t1 => (t.get (tx (i - 1) (j - 1))).bind fun t3 =>
        (t.get (ix i j)).bind fun s0 =>
        let v := F.mac mu2 s0 (F.dot (P.PB dd) t1 (F.fl (P.oo2p * (i : ℝ))) t3)
        if 1 < j then
          (t.get (tx i (j - 2))).bind fun t2 => (t.get (ix i (j - 2))).bind fun s2 =>
          t.set (tx i j) (F.fl (v + F.dot (F.fl (P.oo2p * ((j - 1 : ℕ) : ℝ))) t2
            (-F.fl (F.fl (a1 * P.oop) * ((j - 1 : ℕ) : ℝ))) s2))
        else t.set (tx i j) v) t) t) terms

/-- The loops over Cartesian components, osoei_overlap.c:43-61. -/
noncomputable def addComponents (am1 am2 : ℕ) (prefac : ℝ) (val : RecurInfo → RecurInfo → Option ℝ)
    (out : CBuf ℝ) : Option (CBuf ℝ) :=
  (forLoop 0 (nc am1) (fun n st =>
    forLoop 0 (nc am2) (fun m (st : CBuf ℝ × ℕ) =>
      (recAt am1 n).bind fun r1 => (recAt am2 m).bind fun r2 =>
      (val r1 r2).bind fun v => (st.1.get st.2).bind fun o =>
      (st.1.set st.2 (F.mac prefac v o)).map fun b => (b, st.2 + 1)) st) (out, 0)).map Prod.fst

/-- `simint_compute_osoei_overlap`, osoei_overlap.c:9-67. -/
noncomputable def osoeiOverlap (sh1 sh2 : Shell ℝ) (work0 : ℕ → ℝ) (integrals : CBuf ℝ) :
    Option (CBuf ℝ) :=
  let nam1 := sh1.am + 1
  let nam2 := sh2.am + 1
  let nam12 := nam1 * nam2
  (zeroBuf (nc sh1.am * nc sh2.am) integrals).bind fun out =>
  (forLoop 0 sh1.nprim (fun i st =>
    forLoop 0 sh2.nprim (fun j (st : CBuf ℝ × CBuf ℝ) =>
      (overlapTerms F (sh1.alpha i) sh1.pos (sh2.alpha j) sh2.pos nam1 nam2 st.1).bind fun work =>
      (addComponents F sh1.am sh2.am (F.fl (sh1.coef i * sh2.coef j)) (fun r1 r2 =>
        (workAt nam2 nam12 work 0 r1.ijk.x r2.ijk.x).bind fun wx =>
        (workAt nam2 nam12 work 1 r1.ijk.y r2.ijk.y).bind fun wy =>
        (workAt nam2 nam12 work 2 r1.ijk.z r2.ijk.z).map fun wz => F.fl (F.fl (wx * wy) * wz)) st.2).map
      fun out => (work, out)) st) (⟨3 * nam12, work0⟩, out)).map Prod.snd

/-- `simint_compute_osoei_ke`, osoei_ke.c:10-69. -/
noncomputable def osoeiKe (sh1 sh2 : Shell ℝ) (work0 : ℕ → ℝ) (integrals : CBuf ℝ) :
    Option (CBuf ℝ) :=
  let nam1 := sh1.am + 1
  let nam2 := sh2.am + 1
  let nam12 := nam1 * nam2
  (zeroBuf (nc sh1.am * nc sh2.am) integrals).bind fun out =>
  (forLoop 0 sh1.nprim (fun i st =>
    forLoop 0 sh2.nprim (fun j (st : CBuf ℝ × CBuf ℝ) =>
      (keTerms F (sh1.alpha i) sh1.pos (sh2.alpha j) sh2.pos nam1 nam2 st.1).bind fun work =>
      (addComponents F sh1.am sh2.am (F.fl (sh1.coef i * sh2.coef j)) (fun r1 r2 =>
        (workAt nam2 nam12 work 0 r1.ijk.x r2.ijk.x).bind fun sx =>
        (workAt nam2 nam12 work 1 r1.ijk.y r2.ijk.y).bind fun sy =>
        (workAt nam2 nam12 work 2 r1.ijk.z r2.ijk.z).bind fun sz =>
        (workAt nam2 nam12 work 3 r1.ijk.x r2.ijk.x).bind fun tx =>
        (workAt nam2 nam12 work 4 r1.ijk.y r2.ijk.y).bind fun ty =>
        (workAt nam2 nam12 work 5 r1.ijk.z r2.ijk.z).map fun tz =>
          F.mac (F.fl (sx * sy)) tz (F.dot (F.fl (tx * sy)) sz (F.fl (sx * ty)) sz)) st.2).map fun out =>
      (work, out)) st) (⟨6 * nam12, work0⟩, out)).map Prod.snd

end

end Simint.FlOneEl
