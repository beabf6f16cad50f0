import Verif.Screen

/-!
# The program that counts what the screening leaves

Model of skel/test/screentest.cpp.  The shells are those of the basis set file after the normalisation, in the
order of the map; shell `i` is `s i`.  Numbers of shells and primitives are natural numbers (no overflow),
arithmetic is that of the real numbers.  `completeList` is the complete fill of a list with one pair; `mf` is what
its buffer contained before.  The percentages are not modelled.
-/

set_option autoImplicit false

namespace Simint

/-- The exceptions of the program, screentest.cpp:60, 102 and 104 and 136 (one text), 161, 205, 244. -/
inductive STError where
  | shellPairs
  | contracted
  | prims
  | shellQuartets
  | primQuartets
deriving DecidableEq

/-- What is printed. -/
structure STReport where
  nshell : ℕ
  nshellpair : ℕ
  shellMax : ℝ
  primMax : ℝ
  pairSig : ℕ
  pairInsig : ℕ
  primPair : ℕ
  primPairSig : ℕ
  primPairInsig : ℕ
  quartet : ℕ
  quartetSig : ℕ
  quartetInsig : ℕ
  primQuartet : ℕ
  primQuartetSig : ℕ
  primQuartetInsig : ℕ

/-- `for(i = 0; i < n; i++) for(j = 0; j <= i; j++)`, screentest.cpp:44-45, 84-85, 192-193, 221-222. -/
def triLoop (n : ℕ) : List (ℕ × ℕ) :=
  (List.range n).flatMap fun i => (List.range (i + 1)).map fun j => (i, j)

/-- The members of a list of shell pairs that are read. -/
structure STPair where
  nprim : ℕ
  screen : ℕ → ℝ
  screenMax : ℝ

/-- `simint_create_multi_shellpair(1, A, 1, B, &P, SIMINT_SCREEN)`, screentest.cpp:47-49 with shell.c:585-592;
`SIMINT_SCREEN` is 2, the fast method. -/
noncomputable def stPair (sh : ShCfg) (big : ℝ) (mf : ℕ → ℝ) (A B : Shell ℝ) : Option STPair :=
  (completeList sh realShOps (fastSchwarz fastVal) big [(A, B)] mf).map fun M =>
    ⟨(fillPairs sh realShOps (fastSchwarz fastVal) big [(A, B)]).nprim, M.1.screen, M.1.screenMax⟩

open Classical in
/-- `if(val < SIMINT_SCREEN_TOL2) insig++; else sig++;` for all values (not significant, significant),
screentest.cpp:125-133, 163-170, 195-199, 232-236. -/
noncomputable def stCount (tol2 : ℝ) (l : List ℝ) : ℕ × ℕ :=
  l.foldl (fun c v => if v < tol2 then (c.1 + 1, c.2) else (c.1, c.2 + 1)) (0, 0)

/-- Values of the pairs of primitives times the largest, screentest.cpp:153-171. -/
noncomputable def stPrimVals (np : List ℕ) (P : List STPair) (m : ℝ) : List ℝ :=
  (List.range P.length).flatMap fun ij =>
    (List.range (np.getD ij 0)).map fun p => (P.getD ij ⟨0, fun _ => 0, 0⟩).screen p * m

/-- Values of the quartets of shells, screentest.cpp:192-195. -/
noncomputable def stShellQuartets (npair : ℕ) (scr : List ℝ) : List ℝ :=
  (triLoop npair).map fun t => scr.getD t.1 0 * scr.getD t.2 0

/-- Values of the quartets of primitives, screentest.cpp:221-232. -/
noncomputable def stPrimQuartets (np : List ℕ) (P : List STPair) : List ℝ :=
  (triLoop P.length).flatMap fun t =>
    (List.range (np.getD t.1 0)).flatMap fun p =>
      (List.range (if t.1 = t.2 then p + 1 else np.getD t.2 0)).map fun q =>
        (P.getD t.1 ⟨0, fun _ => 0, 0⟩).screen p * (P.getD t.2 ⟨0, fun _ => 0, 0⟩).screen q

/-- `shellpair_nprim`, screentest.cpp:89-92. -/
def stNprim (s : ℕ → Shell ℝ) (t : ℕ × ℕ) : ℕ :=
  let nprimA := (s t.1).nprim
  let nprimB := (s t.2).nprim
  if t.1 = t.2 then nprimA * (nprimA + 1) / 2 else nprimA * nprimB

/-- What is printed if there is no exception, screentest.cpp:53-251, when the pairs are `P`. -/
noncomputable def stCounts (tol2 : ℝ) (n : ℕ) (s : ℕ → Shell ℝ) (P : List STPair) : STReport :=
  let np := (triLoop n).map (stNprim s)
  let scr := (triLoop n).map fun t => fastShell (s t.1) (s t.2)
  let shellMax := scr.foldl max 0
  let primMax := P.foldl (fun m p => max m p.screenMax) 0
  let c1 := stCount tol2 (scr.map fun v => v * shellMax)
  let c2 := stCount tol2 (stPrimVals np P primMax)
  let c3 := stCount tol2 (stShellQuartets P.length scr)
  let c4 := stCount tol2 (stPrimQuartets np P)
  { nshell := n
    nshellpair := n * (n + 1) / 2
    shellMax := shellMax
    primMax := primMax
    pairSig := c1.2
    pairInsig := c1.1
    primPair := c2.1 + c2.2
    primPairSig := c2.2
    primPairInsig := c2.1
    quartet := c3.1 + c3.2
    quartetSig := c3.2
    quartetInsig := c3.1
    primQuartet := c4.1 + c4.2
    primQuartetSig := c4.2
    primQuartetInsig := c4.1 }

/-- The same with the exceptions, screentest.cpp:59-60, 101-104, 135-136, 160-161, 204-205, 243-244. -/
noncomputable def stReport (len : ℕ) (tol2 : ℝ) (n : ℕ) (s : ℕ → Shell ℝ) (P : List STPair) :
    Except STError STReport :=
  let R := stCounts tol2 n s P
  if R.nshellpair ≠ P.length then .error .shellPairs
  else if ((triLoop n).map fun t => fastShell (s t.1) (s t.2)).length ≠ R.nshellpair then .error .contracted
  else if ((triLoop n).map (stNprim s)).length ≠ R.nshellpair then .error .contracted
  else if R.pairInsig + R.pairSig ≠ R.nshellpair then .error .contracted
  else if (List.range P.length).any fun ij =>
    simdRound len (((triLoop n).map (stNprim s)).getD ij 0) != (P.getD ij ⟨0, fun _ => 0, 0⟩).nprim then .error .prims
  else if R.quartet ≠ R.nshellpair * (R.nshellpair + 1) / 2 then .error .shellQuartets
  else if R.primQuartet ≠ R.primPair * (R.primPair + 1) / 2 then .error .primQuartets
  else .ok R

/-- `main` of screentest.cpp from line 42 on; `none` is undefined behaviour in the sort of a list. -/
noncomputable def screenTest (sh : ShCfg) (big tol2 : ℝ) (mf : ℕ × ℕ → ℕ → ℝ) (n : ℕ) (s : ℕ → Shell ℝ) :
    Option (Except STError STReport) := do
  let P ← (triLoop n).mapM fun t => stPair sh big (mf t) (s t.1) (s t.2)
  pure (stReport sh.len tol2 n s P)

end Simint
