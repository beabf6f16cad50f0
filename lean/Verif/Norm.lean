import Verif.Boys
import Verif.Shell

/-!
# Normalisation of shells

Model of `simint_normalize_shells` (skel/simint/shell/shell.c).  The shells of the array own separate
blocks of memory.
-/

set_option autoImplicit false

namespace Simint

/-- `norm_fac`, skel/simint/shell/shell_constants.c:14-37, every entry multiplied by 10^17. -/
def normFacN : List ℕ := [
  556832799683170785,
  278416399841585392,
  417624599762378088,
  1044061499405945220,
  3654215247920808270,
  16443968615643637200,
  90441827386040004800,
  587871878009260031000,
  4409039085069450230000,
  37476832223090327000000,
  356029906119358106000000,
  3738314014253260120000000,
  42990611163912491300000000,
  537382639548906142000000000,
  7254665633910232910000000000,
  105192651691698377000000000000,
  1630486101221324850000000000000,
  26903020670151860000000000000000,
  470802861727657550000000000000000,
  8709852941961664670000000000000000,
  169842132368252461000000000000000000]

section
variable {F : Type} [Field F]

/-- `norm_fac[am]`; the array has 21 entries. -/
def normFacGet (am : ℕ) : Option F :=
  if am < 21 then some ((normFacN.getD am 0 : F) / 10 ^ 17) else none

/-- `sum` after the loops, shell.c:257-270. -/
def normSum (ops : BoysOps F) (sh : Shell F) : F :=
  let m : F := (sh.am : F) + 3 / 2
  let m2 : F := 1 / 2 * m
  (List.range sh.nprim).foldl (fun sum j =>
    let a1 := sh.alpha j
    let c1 := sh.coef j
    (List.range sh.nprim).foldl (fun sum k =>
      let a2 := sh.alpha k
      let c2 := sh.coef k
      sum + (c1 * c2 * ops.pow (a1 * a2) m2) / ops.pow (a1 + a2) m) sum) 0

/-- One iteration of the loop over shells, shell.c:252-277. -/
def normalizeShell (ops : BoysOps F) (sh : Shell F) : Option (Shell F) :=
  let m : F := (sh.am : F) + 3 / 2
  let m2 : F := 1 / 2 * m
  (normFacGet sh.am).map fun fac =>
    let norm := 1 / ops.sqrt (normSum ops sh * fac)
    { sh with
      coef := fun j => if j < sh.nprim then sh.coef j * (norm * ops.pow (sh.alpha j) m2) else sh.coef j }

/-- `simint_normalize_shells`, shell.c:248-278. -/
def normalizeShells (ops : BoysOps F) (G : List (Shell F)) : Option (List (Shell F)) :=
  G.mapM (normalizeShell ops)

end

end Simint
