import Verif.Spec.Shell
import Verif.Spec.Deriv

/-!
# The shell pairs that a list of pairs of shells stands for
-/

set_option autoImplicit false

open Real

namespace Simint

/-- A pair of primitives with given product of coefficients and exponents (exponents that are not
positive do not occur). -/
noncomputable def primPair (c α β : ℝ) : PrimPair :=
  if h : 0 < α ∧ 0 < β then ⟨c, α, β, h.1, h.2⟩ else ⟨0, 1, 1, one_pos, one_pos⟩

/-- All combinations of the primitives of two shells. -/
noncomputable def fullPair (A B : Shell ℝ) : ShellPair where
  A := A.pos
  B := B.pos
  prims := (List.range A.nprim).flatMap fun i => (List.range B.nprim).map fun j =>
    primPair (A.coef i * B.coef j) (A.alpha i) (B.alpha j)

/-- Exponential function and `SQRT_TWO_PI_52`, skel/simint/constants.h:9. -/
noncomputable def realShOps : ShOps ℝ := .exact Real.exp (√2 * π ^ ((5 : ℝ) / 4))

/-- Contracted integral over four shells for four components. -/
noncomputable def shellERI (A B C D : Shell ℝ) (a b c d : Exp) : ℝ :=
  ∑ i ∈ Finset.range A.nprim, ∑ j ∈ Finset.range B.nprim, ∑ k ∈ Finset.range C.nprim,
    ∑ l ∈ Finset.range D.nprim, A.coef i * B.coef j * (C.coef k * D.coef l) *
      coulomb (A.alpha i) (B.alpha j) (C.alpha k) (D.alpha l) A.pos B.pos C.pos D.pos a b c d

/-- The same with coordinate `i` of center `t` moved to `v`. -/
noncomputable def movedERI (A B C D : Shell ℝ) (a b c d : Exp) (t : RRType) (i : Dir) (v : ℝ) : ℝ :=
  let mv (s : RRType) (X : Shell ℝ) : Shell ℝ :=
    if s = t then { X with pos := Function.update X.pos i v } else X
  shellERI (mv .I A) (mv .J B) (mv .K C) (mv .L D) a b c d

/-- Position of center `t` of four shells. -/
def shellCenter (A B C D : Shell ℝ) : RRType → Dir → ℝ
  | .I => A.pos
  | .J => B.pos
  | .K => C.pos
  | .L => D.pos

/-- A shell that can be used: exponents are positive. -/
def Shell.OK (A : Shell ℝ) : Prop := 0 < A.nprim ∧ ∀ i < A.nprim, 0 < A.alpha i

/-- The two arguments name the same shell only if they hold the same data (`compare_shell` looks at
the address of the data only). -/
def Faithful {F : Type} (A B : Shell F) : Prop :=
  sameShell A B = true → A.pos = B.pos ∧ ∀ i < A.nprim, A.alpha i = B.alpha i ∧ A.coef i = B.coef i

/-- Contents of the arrays when the buffer holds `mf`. -/
def bufView {F : Type} [Zero F] (g : ShCfg) (npair nprim : ℕ) (mf : ℕ → F) (a : Arr) (i : ℕ) : F :=
  match flatAddr g npair nprim a i with
  | some k => mf k
  | none => 0

/-- The list that results from filling the buffer `mf` with the given pairs. -/
noncomputable def filledList {F : Type} [Field F] [LinearOrder F] (g : ShCfg) (ops : ShOps F) (scr : PrimScreen F)
    (big : F) (ps : List (Shell F × Shell F)) (mf : ℕ → F) : MSP F :=
  let st := fillPairs g ops scr big ps
  let n := allocPrims g.len ps
  mspOf (bufView g ps.length n (applyFlat g ps.length n st.log mf)) n st.nprim12 st.screenMax

/-- The arrays `alpha2` and `beta2` of that list. -/
noncomputable def filledExps {F : Type} [Field F] [LinearOrder F] (g : ShCfg) (ops : ShOps F) (scr : PrimScreen F)
    (big : F) (ps : List (Shell F × Shell F)) (mf : ℕ → F) : (ℕ → F) × (ℕ → F) :=
  let st := fillPairs g ops scr big ps
  let n := allocPrims g.len ps
  let v := bufView g ps.length n (applyFlat g ps.length n st.log mf)
  (v .alpha2, v .beta2)

end Simint
