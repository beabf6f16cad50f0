import Verif.Shell

/-!
# Concatenation of lists of shell pairs

Model of skel/simint/shell/shell.c:606-873 (`simint_cat_multi_shellpair`, `simint_cat_shellpairs`).
-/

set_option autoImplicit false

namespace Simint

section
variable {F : Type}

/-- The members of a list of shell pairs that concatenation reads: arrays, numbers of primitives of
the pairs, `nprim`, `screen_max`. -/
structure PairList (F : Type) where
  arr : Arr → ℕ → F
  nprim12 : List ℕ
  nprim : ℕ
  screenMax : F

/-- State of the copy loops: position, stores so far, `nprim12`, `nprim`, `screen_max`. -/
structure CatSt (F : Type) where
  sasb : ℕ
  idx : ℕ
  log : List (Store F)
  nprim12 : List ℕ
  nprim : ℕ
  screenMax : F

variable [Zero F] [One F]

/-- Values of padding elements, shell.c:701-716 and 846-861. -/
def catPad : Arr → F
  | .alpha => 1
  | .alpha2 => 1
  | .beta2 => 1
  | _ => 0

variable [LinearOrder F]

/-- Copy of pair `j` of list `P`, shell.c:657-723 and 795-866.  `always`: `screen_max` is updated
outside the loop over primitives (shell.c:833) and not inside (shell.c:684).  Elements `0, 1, …` of the
arrays of `P` are read whatever `j` is. -/
def catPair (g : ShCfg) (always : Bool) (npair : ℕ) (st : CatSt F) (P : PairList F) (j : ℕ) : CatSt F :=
  let n := P.nprim12.getD j 0
  let log1 := (List.range n).flatMap fun p => (padArrs g).map fun a => (a, st.idx + p, P.arr a p)
  let smax := if (always ∨ 0 < n) ∧ P.screenMax > st.screenMax then P.screenMax else st.screenMax
  let idx := st.idx + n
  let log2 := dirList.map fun d => (Arr.AB d, st.sasb, P.arr (.AB d) j)
  let edge := (st.sasb + 1) % nshellSimd g.len = 0 ∨ npair ≤ st.sasb + 1
  let log3 := if edge then (List.range (simdRound g.len idx - idx)).flatMap fun k =>
    (primArrs g).map fun a => (a, idx + k, catPad a) else []
  { sasb := st.sasb + 1
    idx := if edge then idx + (simdRound g.len idx - idx) else idx
    log := st.log ++ (log1 ++ log2 ++ log3)
    nprim12 := st.nprim12 ++ [n]
    nprim := st.nprim
    screenMax := smax }

/-- `simint_cat_multi_shellpair`, shell.c:606-729; `old` is the value of `Pout->nprim` before the
call. -/
def catMulti (g : ShCfg) (old : ℕ) (ins : List (PairList F)) : CatSt F :=
  let npair := (ins.map fun P => P.nprim12.length).sum
  ins.foldl (fun st P =>
    let st := (List.range P.nprim12.length).foldl (fun st j => catPair g false npair st P j) st
    { st with nprim := st.nprim + P.nprim }) ⟨0, 0, [], [], old, 0⟩

/-- Number of slots, shell.c:619-641. -/
def catMultiAlloc (len : ℕ) (ins : List (PairList F)) : ℕ := countPrims len (ins.flatMap PairList.nprim12)

/-- `simint_cat_shellpairs`, shell.c:733-873. -/
def catSingle (g : ShCfg) (old : ℕ) (ins : List (PairList F)) : CatSt F :=
  ins.foldl (fun st P =>
    let st := catPair g true ins.length st P 0
    { st with nprim := st.nprim + P.nprim }) ⟨0, 0, [], [], old, 0⟩

/-- Number of slots, shell.c:743-755: a loop over batches. -/
def catSingleAlloc (len : ℕ) (ins : List (PairList F)) : ℕ :=
  let ns := ins.map fun P => P.nprim12.getD 0 0
  let b := nshellSimd len
  (List.range ((ns.length + (b - 1)) / b)).foldl (fun n i =>
    n + simdRound len ((ns.drop (i * b)).take b).sum) 0

end

end Simint
