import Verif.Spec.CreatePy

/-! Statements about the file lists of create.py. -/

set_option autoImplicit false

namespace Simint

/-- The file is one of the source files in the output directory after the run. -/
def PyCfg.Written (cfg : PyCfg) (st : PySt) (f : GenFile) : Prop :=
  (∃ d q, cfg.Generated d q ∧ cfg.fnRun d q = some f) ∨ ∃ fs, cfg.helpers st = some fs ∧ f ∈ fs

/-- Compiling the files named in `L` leaves no undefined helper routine. -/
def PyCfg.Links (cfg : PyCfg) (st : PySt) (L : List String) : Prop :=
  ∀ f, cfg.Written st f → f.name ∈ L → ∀ r ∈ f.calls, ∃ f', cfg.Written st f' ∧ f'.name ∈ L ∧ r ∈ f'.defines

end Simint
