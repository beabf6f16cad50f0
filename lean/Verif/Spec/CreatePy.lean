import Verif.CreatePy
import Verif.Spec.CommandLine
import Verif.Spec.Function

/-! Statements about create.py: configurations, complete sets of files. -/

set_option autoImplicit false

namespace Simint

/-- The configurations covered: the sets are iterated in some order, the thresholds fit into an `int`
of the generator programs, and every AM number that occurs has a letter. -/
structure PyCfg.OK (cfg : PyCfg) : Prop where
  D : EnumOK cfg.enumD
  Q : EnumOK cfg.enumQ
  V : EnumOK cfg.enumV
  S : EnumOK cfg.enumS
  ve : IntOK cfg.T.ve
  vg : IntOK cfg.T.vg
  he : IntOK cfg.T.he
  hg : IntOK cfg.T.hg
  am : 2 * cfg.maxam + 1 < 60

/-- Classes for which a function of derivative order `d` is generated. -/
def PyCfg.Generated (cfg : PyCfg) (d : ℕ) (q : QAM) : Prop :=
  (d = 0 ∨ d = 1 ∧ 1 ≤ cfg.der) ∧ q.tag = "" ∧ (0 ≤ q.a ∧ 0 ≤ q.b ∧ 0 ≤ q.c ∧ 0 ≤ q.d) ∧
    (q.a ≤ cfg.maxam ∧ q.b ≤ cfg.maxam ∧ q.c ≤ cfg.maxam ∧ q.d ≤ cfg.maxam) ∧
    (q.b ≤ q.a ∧ q.d ≤ q.c ∨ q.a < cfg.T.p ∧ q.b < cfg.T.p ∧ q.c < cfg.T.p ∧ q.d < cfg.T.p)

/-! File names of the helper routines -/

/-- Name of the file of a routine. -/
def Routine.base : Routine → Option String
  | .vrr t am => vrrBase t.letter am
  | .hrr t p => hrrBase t.letter p

/-- File name of a routine. -/
def Routine.file (r : Routine) : String := (r.base.getD "") ++ ".c"

/-- Does a set of files define every helper routine that one of them calls? -/
def CallsDefined (fs : List GenFile) : Prop := ∀ f ∈ fs, ∀ r ∈ f.calls, ∃ f' ∈ fs, r ∈ f'.defines

/-- The sequence of routines entered when helper `(t, am)` is called: each one that does not compute
itself calls the next. -/
def callChain (t : RRType) (am : QAM) : ℕ → RRType × QAM
  | 0 => (t, am)
  | n + 1 => (toCallStep (callChain t am n).1, toCall (callChain t am n).2)

end Simint
