import Verif.Dispatch
import Verif.Spec.Sort

/-!
# Screening values

Model of skel/simint/shell/shell_screen.c: the values for pairs of primitives and for pairs of shells.
The loops of `simint_primscreen_schwarz` and `simint_primscreen_fastschwarz` around the values are in
Verif/Shell.lean (`schwarz`, `fastSchwarz`).  The list of shell pairs is passed to the integral function
twice (`&P, &P`); the model passes two copies (with tolerance zero its screening values are not read).
-/

set_option autoImplicit false

namespace Simint

section
variable {F : Type}

/-- What the functions find in memory that was not initialised, and the addresses of the data of the
two temporary shells. -/
structure ScrMem (F : Type) where
  ptrA : ℕ
  ptrB : ℕ
  buf : ℕ → F
  junk : VPar F
  scratch : ℕ → ℕ → ℕ → VMem F
  junkAB : Dir → ℕ → F
  hmem : HMem F
  out : ℕ → F

/-- `simint_create_shell(1, A->am, …, A->alpha + i, A->coef + i, …)`, shell.c:281-294 and
shell_screen.c:160-162, 169-171. -/
def oneShell (ptr : ℕ) (A : Shell F) (i : ℕ) : Shell F :=
  ⟨ptr, A.am, 1, A.pos, fun _ => A.alpha i, fun _ => A.coef i⟩

/-- `((am+1) * (am+2))/2`, shell_screen.c:55-56, 131-132. -/
def scrNcart (A : Shell F) : ℕ := (A.am + 1) * (A.am + 2) / 2

variable [Field F] [LinearOrder F]

/-- `max = 0; … max = ( abint > max ? abint : max )`. -/
def maxLoop (l : List F) : F := l.foldl (fun m v => if v > m then v else m) 0

/-- A fill with `screen_method = 0` computes no screening values. -/
def noScreen : PrimScreen F := fun _ _ => ([], 0)

/-- The integrals `(ab|ab)`: create a list with one pair without screening, compute with tolerance 0
into an array of `ncart1234 + 8` elements, shell_screen.c:57-69 and 133-138, 175-178.  `simint_compute_eri` is
`simint_compute_ostei` (simint_eri.c:4-11). -/
noncomputable def LibCfg.selfInts (L : LibCfg) (ops : FOps F) (sops : ShOps F) (sh : ShCfg) (big : F)
    (w : ScrMem F) (A B : Shell F) : Option (ℕ → F) :=
  (completeList { sh with screening := false } sops noScreen big [(A, B)] w.buf).bind fun P =>
    (L.computeOstei ops ⟨A.am, B.am, A.am, B.am, ""⟩
      ⟨⟨sh.len, P.1, P.1, 0, scrNcart A * scrNcart B * (scrNcart A * scrNcart B) + 8, w.junk, w.scratch⟩, 1, 1,
        w.junkAB⟩ w.hmem w.out).map PubRes.out

/-- Value of a pair of primitives in `simint_primscreen_schwarz`, shell_screen.c:169-200. -/
noncomputable def LibCfg.primVal (L : LibCfg) (ops : FOps F) (sops : ShOps F) (sh : ShCfg) (big : F)
    (w : ScrMem F) (A B : Shell F) (i j : ℕ) : Option F :=
  (L.selfInts ops sops sh big w (oneShell w.ptrA A i) (oneShell w.ptrB B j)).map fun o =>
    let n1 := scrNcart A
    let n2 := scrNcart B
    maxLoop ((List.range n1).flatMap fun m => (List.range n2).map fun n =>
      |o (m * n2 * n1 * n2 + m * n2 + n * n1 * n2 + n)|)

/-- The values, as the argument of the loops; a value that is not computed (null pointer) does not
occur in the theorems. -/
noncomputable def LibCfg.primVals (L : LibCfg) (ops : FOps F) (sops : ShOps F) (sh : ShCfg) (big : F)
    (w : Shell F → Shell F → ℕ → ℕ → ScrMem F) : Shell F → Shell F → ℕ → ℕ → F := fun A B i j =>
  (L.primVal ops sops sh big (w A B i j) A B i j).getD 0

/-- `simint_shellscreen_schwarz`, shell_screen.c:47-83. -/
noncomputable def LibCfg.shellscreen (L : LibCfg) (ops : FOps F) (sops : ShOps F) (sh : ShCfg) (big : F)
    (w : ScrMem F) (A B : Shell F) : Option F :=
  (L.selfInts ops sops sh big w A B).map fun o =>
    maxLoop ((List.range (scrNcart A * scrNcart B * (scrNcart A * scrNcart B))).map fun n => |o n|)

end

/-- `SQRT_TWO_TIMES_PI_52 * pow(oop, 2.5) * exp(-2.0 * rho * R2)` times the coefficients,
shell_screen.c:100-112 and 244-256; the constant (constants.h:12) stands for `√2 π^(5/2)`. -/
noncomputable def fastVal (A B : Shell ℝ) (i j : ℕ) : ℝ :=
  let a := A.alpha i
  let b := B.alpha j
  let p := a + b
  let oop := 1 / p
  let rho := a * b / p
  let r := fun d => A.pos d - B.pos d
  let R2 := r .x * r .x + r .y * r .y + r .z * r .z
  √2 * Real.pi ^ ((5 : ℝ) / 2) * oop ^ ((5 : ℝ) / 2) * Real.exp (-2 * rho * R2) *
    (A.coef i * A.coef i * B.coef j * B.coef j)

/-- `simint_shellscreen_fastschwarz`, shell_screen.c:86-118. -/
noncomputable def fastShell (A B : Shell ℝ) : ℝ :=
  (primOrder A B).foldl (fun v p => v + fastVal A B p.1 p.2) 0

end Simint
