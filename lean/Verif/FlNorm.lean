import Verif.FlBoys
import Verif.Norm

/-!
# Normalisation of shells on doubles

`normalizeShell` of `Verif/Norm.lean` once more, now on doubles: the values are real numbers and `fl` of
`FlBoys.Arith` rounds them after each operation.  The angular momentum plus 1.5 and half of that are
doubles, so these two operations are exact.
-/

set_option autoImplicit false

namespace Simint.FlNorm

open FlBoys (Arith)

section
variable (F : Arith)

/-- The term for primitives `j` and `k`, shell.c:261-268. -/
noncomputable def normTerm (sh : Shell ℝ) (j k : ℕ) : ℝ :=
  let m : ℝ := (sh.am : ℝ) + 3 / 2
  let m2 : ℝ := 1 / 2 * m
  let a1 := sh.alpha j
  let c1 := sh.coef j
  let a2 := sh.alpha k
  let c2 := sh.coef k
  F.fl (F.fl (F.fl (c1 * c2) * F.pow (F.fl (a1 * a2)) m2) / F.pow (F.fl (a1 + a2)) m)

/-- `sum` after the loops, shell.c:257-270. -/
noncomputable def normSum (sh : Shell ℝ) : ℝ :=
  (List.range sh.nprim).foldl (fun sum j =>
    (List.range sh.nprim).foldl (fun sum k => F.fl (sum + normTerm F sh j k)) sum) 0

/-- `norm`, shell.c:272. -/
noncomputable def norm (sh : Shell ℝ) (fac : ℝ) : ℝ := F.fl (1 / F.fl √(F.fl (normSum F sh * fac)))

/-- One iteration of the loop over shells, shell.c:252-277. -/
noncomputable def normalizeShell (sh : Shell ℝ) : Option (Shell ℝ) :=
  let m : ℝ := (sh.am : ℝ) + 3 / 2
  let m2 : ℝ := 1 / 2 * m
  (normFacGet sh.am).map fun fac =>
    { sh with
      coef := fun j =>
        if j < sh.nprim then F.fl (sh.coef j * F.fl (norm F sh (F.fl fac) * F.pow (sh.alpha j) m2))
        else sh.coef j }

/-- `simint_normalize_shells`, shell.c:248-278. -/
noncomputable def normalizeShells (G : List (Shell ℝ)) : Option (List (Shell ℝ)) :=
  G.mapM (normalizeShell F)

end

end Simint.FlNorm
