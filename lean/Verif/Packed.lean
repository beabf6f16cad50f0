import Verif.Screen
import Verif.ScreenTest

/-!
# The example that stores packed integrals

Model of the loops of skel/examples/example_packed.c:142-197 for any number of shells.  The arrays
`shell_start` and `shell_nbf` and the two sizes are parameters (in the program they are written down for
water in a minimal basis set).  Overwriting memory outside of `target` or `integrals` is `none`.
`int` does not overflow in the model.
-/

set_option autoImplicit false

namespace Simint

variable {F : Type}

/-- `a < b ? (b*(b+1))/2 + a : (a*(a+1))/2 + b`, example_packed.c:188-190. -/
def packIdx (a b : ℕ) : ℕ := if a < b then b * (b + 1) / 2 + a else a * (a + 1) / 2 + b

/-- What the calls find in memory that was not initialised. -/
structure PkMem (F : Type) where
  buf : ℕ → F
  junk : VPar F
  scratch : ℕ → ℕ → ℕ → VMem F
  junkAB : Dir → ℕ → F
  hmem : HMem F

/-- The arrays and sizes that the program writes down, example_packed.c:30-108. -/
structure PkProg (F : Type) where
  n : ℕ
  shell : ℕ → Shell F
  start : ℕ → ℕ
  nbf : ℕ → ℕ
  size : ℕ
  nInt : ℕ

/-- `target`, `integrals`, `ncomputed_shell`, `ncomputed_integrals`. -/
structure PkSt (F : Type) where
  target : ℕ → F
  ints : ℕ → F
  nshell : ℕ
  nints : ℕ

/-- The iterations of the four inner loops, example_packed.c:178-181. -/
def pkQuads (ni nj nk nl : ℕ) : List (ℕ × ℕ × ℕ × ℕ) :=
  (List.range ni).flatMap fun m => (List.range nj).flatMap fun n => (List.range nk).flatMap fun o =>
    (List.range nl).map fun p => (m, n, o, p)

/-- `mnop_idx`, example_packed.c:183-190. -/
def PkProg.pos (p : PkProg F) (i j k l : ℕ) (q : ℕ × ℕ × ℕ × ℕ) : ℕ :=
  let m_idx := p.start i + q.1
  let n_idx := p.start j + q.2.1
  let o_idx := p.start k + q.2.2.1
  let p_idx := p.start l + q.2.2.2
  packIdx (packIdx m_idx n_idx) (packIdx o_idx p_idx)

/-- `integrals[mnop_idx] = target[target_idx]; target_idx++`, example_packed.c:175-195. -/
def PkProg.store (p : PkProg F) (i j k l : ℕ) (target ints : ℕ → F) : Option (ℕ → F) :=
  (pkQuads (p.nbf i) (p.nbf j) (p.nbf k) (p.nbf l)).zipIdx.foldlM (fun v e =>
    if e.2 < p.size ∧ p.pos i j k l e.1 < p.nInt then
      some (Function.update v (p.pos i j k l e.1) (target e.2))
    else none) ints

variable [Field F] [LinearOrder F]

/-- The body of the loops over `k`, `l`, example_packed.c:158-195. -/
noncomputable def LibCfg.pkQuartet (L : LibCfg) (ops : FOps F) (sops : ShOps F) (sh : ShCfg) (big : F)
    (p : PkProg F) (w : PkMem F) (P : MSP F) (i j k l : ℕ) (st : PkSt F) : Option (PkSt F) :=
  (completeList { sh with screening := false } sops noScreen big [(p.shell k, p.shell l)] w.buf).bind fun Q =>
    (L.computeOstei ops ⟨(p.shell i).am, (p.shell j).am, (p.shell k).am, (p.shell l).am, ""⟩
      ⟨⟨sh.len, P, Q.1, 0, p.size, w.junk, w.scratch⟩, 1, 1, w.junkAB⟩ w.hmem st.target).bind fun r =>
      (p.store i j k l r.out st.ints).map fun v =>
        ⟨r.out, v, st.nshell + 1, st.nints + p.nbf i * p.nbf j * p.nbf k * p.nbf l⟩

/-- The body of the loops over `i`, `j`, example_packed.c:145-196. -/
noncomputable def LibCfg.pkRow (L : LibCfg) (ops : FOps F) (sops : ShOps F) (sh : ShCfg) (big : F)
    (p : PkProg F) (wl : ℕ × ℕ → ℕ → F) (wr : ℕ × ℕ → ℕ × ℕ → PkMem F) (st : PkSt F) (ij : ℕ × ℕ) :
    Option (PkSt F) :=
  (completeList { sh with screening := false } sops noScreen big [(p.shell ij.1, p.shell ij.2)] (wl ij)).bind
    fun P => (triLoop p.n).foldlM (fun st kl =>
      if ij.1 * (ij.1 + 1) / 2 + ij.2 < kl.1 * (kl.1 + 1) / 2 + kl.2 then some st
      else L.pkQuartet ops sops sh big p (wr ij kl) P.1 ij.1 ij.2 kl.1 kl.2 st) st

/-- The loops, example_packed.c:142-197. -/
noncomputable def LibCfg.packed (L : LibCfg) (ops : FOps F) (sops : ShOps F) (sh : ShCfg) (big : F)
    (p : PkProg F) (wl : ℕ × ℕ → ℕ → F) (wr : ℕ × ℕ → ℕ × ℕ → PkMem F) (target ints : ℕ → F) :
    Option (PkSt F) :=
  (triLoop p.n).foldlM (L.pkRow ops sops sh big p wl wr) ⟨target, ints, 0, 0⟩

end Simint
