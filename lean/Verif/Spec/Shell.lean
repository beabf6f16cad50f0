import Verif.Shell

/-!
# What allocation and filling of shell pairs are supposed to do

Intervals of memory, histories of a buffer, and which elements of which arrays exist.
-/

set_option autoImplicit false

namespace Simint

/-- What may have happened to a structure before: allocations of any size and options, and frees. -/
inductive BlockOp
  | alloc (g : ShCfg) (npair nprim : ℕ)
  | free

/-- The buffer after a history that starts with the initialisation. -/
def blockAfter (h : List BlockOp) : Block :=
  h.foldl (fun b op => match op with
    | .alloc g npair nprim => allocBase g npair nprim b
    | .free => b.free) Block.init

/-- The shell buffer after a history of allocations (`some n`) and frees (`none`). -/
def shellAfter (h : List (Option ℕ)) : Block :=
  h.foldl (fun b op => match op with
    | some n => allocShell n b
    | none => b.free) Block.init

/-- Arrays with one entry per primitive slot; which ones exist depends on the options. -/
def PerPrim (g : ShCfg) : Arr → Prop
  | .pos _ | .PA _ | .PB _ | .alpha | .prefac => True
  | .screen => g.screening = true
  | .alpha2 | .beta2 => g.deriv = true
  | .AB _ | .nprim12 => False

/-- Elements of the arrays of doubles, including the three arrays with one entry per pair. -/
def IsElem (g : ShCfg) (npair nprim : ℕ) (a : Arr) (i : ℕ) : Prop :=
  (i < nprim ∧ PerPrim g a) ∨ (i < npair ∧ ∃ d, a = .AB d)

/-- Two intervals `[o, o+n)` do not meet. -/
def Apart (o n o' n' : ℕ) : Prop := o + n ≤ o' ∨ o' + n' ≤ o

end Simint
