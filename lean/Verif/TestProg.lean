import Mathlib.Data.List.Basic

/-!
# The test programs and the benchmark: buffers, threads, missing angular momenta

`test_eri`, `test_eri_deriv1`, `test_ke`, `test_overlap`, `test_potential` and `benchmark_eri` hold the
shells in a `std::map` from angular momentum to a vector, give every thread a piece of one buffer and
loop over angular momenta.  The model lists the memory accesses of every iteration of the parallel
loops and the angular momenta with which the library is called.

Simplified: of a shell only its angular momentum matters, so the map stores numbers of shells; the
accesses of the reference code and of the library are those to the result (first to last element) and to
the work buffer; reading the shells (never written in a parallel loop) is not listed.
-/

set_option autoImplicit false

namespace Simint.TestProg

/-- `ShellMap` (Common.hpp:74-78): angular momentum and number of shells. -/
abbrev SMap := List (ℕ × ℕ)

def SMap.has (m : SMap) (am : ℕ) : Bool := m.any fun kv => kv.1 == am

/-- `shellmap[am].size()`. -/
def SMap.count (m : SMap) (am : ℕ) : ℕ := ((m.find? fun kv => kv.1 == am).map (·.2)).getD 0

/-- `std::map::operator[]` inserts an empty vector if the key is missing. -/
def SMap.touch (m : SMap) (am : ℕ) : SMap := if m.has am then m else m ++ [(am, 0)]

/-- `NCART`, Common.hpp:16. -/
def nc (am : ℕ) : ℕ := (am + 2) * (am + 1) / 2

/-- `FindMaxParams`, Common.cpp:178-199. -/
def findMax (m : SMap) : ℕ × ℕ :=
  m.foldl (fun st kv =>
    (if kv.1 > st.1 then kv.1 else st.1,
     if nc kv.1 * kv.2 > st.2 then nc kv.1 * kv.2 else st.2)) (0, 0)

/-- `maxam` of the two-electron programs, test_eri.cpp:59; `libMax` is `SIMINT_OSTEI_MAXAM`. -/
def eriMaxam (libMax : ℕ) (m : SMap) : ℕ :=
  if (findMax m).1 > libMax then libMax else (findMax m).1

/-- `maxsize` of the two-electron programs: test_eri.cpp:60-61, benchmark_eri.cpp:53-54 (`fac = 1`),
test_eri_deriv1.cpp:60-61 (`fac = 12`). -/
def eriMaxsize (libMax fac : ℕ) (m : SMap) : ℕ :=
  let maxnc := (eriMaxam libMax m + 1) * (eriMaxam libMax m + 2) / 2
  (findMax m).2 * (findMax m).2 * maxnc * maxnc * fac

/-- `maxsize` of the one-electron programs, test_ke.cpp:52-54, test_overlap.cpp:52-54,
test_potential.cpp:54-56. -/
def oneMaxsize (m : SMap) : ℕ :=
  (findMax m).2 * (((findMax m).1 + 1) * ((findMax m).1 + 2) / 2)

/-! ## Memory accesses -/

/-- Objects that threads share: the tree of the map, elements of the result, reference and work
buffers, the error map, the counters (`std::atomic`), standard output. -/
inductive Loc where
  | map
  | res (n : ℕ)
  | ref (n : ℕ)
  | work (n : ℕ)
  | errors
  | counters
  | stdout
  deriving DecidableEq

/-- An access; `guarded` inside `omp critical` or to an atomic. -/
structure Acc where
  loc : Loc
  write : Bool
  guarded : Bool

/-- A parallel loop: number of iterations, accesses of an iteration on a thread. -/
structure Region where
  n : ℕ
  iter : ℕ → ℕ → List Acc

/-- Two iterations on different threads conflict; `σ` assigns iterations to threads. -/
def Region.Race (r : Region) (σ : ℕ → ℕ) : Prop :=
  ∃ p < r.n, ∃ q < r.n, σ p ≠ σ q ∧ ∃ x ∈ r.iter p (σ p), ∃ y ∈ r.iter q (σ q),
    x.loc = y.loc ∧ (x.write = true ∨ y.write = true) ∧ ¬ (x.guarded = true ∧ y.guarded = true)

/-- `shellmap[am]`: a search in the tree, an insertion if the key is missing. -/
def lookup (m : SMap) (am : ℕ) : List Acc := [⟨.map, !m.has am, false⟩]

/-- Writing elements `first` to `first + n - 1`. -/
def fill (mk : ℕ → Loc) (first n : ℕ) : List Acc :=
  (List.range n).map fun k => ⟨mk (first + k), true, false⟩

/-! ## One-electron programs -/

/-- One iteration of the parallel loop over `i`, test_ke.cpp:71-106 (the same in test_overlap.cpp and
test_potential.cpp:83-122). -/
def oneIter (m : SMap) (i t : ℕ) : List Acc :=
  (List.range ((findMax m).1 + 1)).flatMap fun j =>
    lookup m i ++ (List.range (m.count i)).flatMap fun _ =>
      lookup m j ++ (List.range (m.count j)).flatMap fun _ =>
        lookup m i ++ lookup m j ++ fill .res (t * oneMaxsize m) (nc i * nc j) ++
          [⟨.stdout, true, true⟩]

def oneRegion (m : SMap) : Region := ⟨(findMax m).1 + 1, oneIter m⟩

/-! ## Two-electron programs -/

structure Quartet where
  i : ℕ
  j : ℕ
  k : ℕ
  l : ℕ
  deriving DecidableEq

/-- The four loops, test_eri.cpp:103-106. -/
def quartets (maxam : ℕ) : List Quartet :=
  (List.range (maxam + 1)).flatMap fun i => (List.range (maxam + 1)).flatMap fun j =>
    (List.range (maxam + 1)).flatMap fun k => (List.range (maxam + 1)).map fun l => ⟨i, j, k, l⟩

/-- Number of values of one call, test_eri.cpp:148-150 (times 12 for derivatives). -/
def ncont (m : SMap) (fac : ℕ) (q : Quartet) : ℕ :=
  m.count q.k * m.count q.l * (nc q.i * nc q.j * nc q.k * nc q.l) * fac

/-- Sizes: of the piece of the result and of the work buffer of a thread, and what a call uses of the
latter. -/
structure Sizes where
  maxsize : ℕ
  worksize : ℕ
  used : Quartet → ℕ

/-- One iteration over `a` for a quartet, test_eri.cpp:124-216; `m` is the map when the loop starts. -/
def eriIter (m : SMap) (fac : ℕ) (s : Sizes) (q : Quartet) (t : ℕ) : List Acc :=
  lookup m q.j ++ (List.range (m.count q.j)).flatMap fun _ =>
    lookup m q.i ++ lookup m q.j ++ lookup m q.i ++ lookup m q.j ++ lookup m q.k ++ lookup m q.l ++
      fill .ref (t * s.maxsize) (ncont m fac q) ++ fill .work (t * s.worksize) (s.used q) ++
      fill .res (t * s.maxsize) (ncont m fac q) ++ [⟨.errors, true, true⟩, ⟨.counters, true, true⟩]

/-- One quartet, test_eri.cpp:107-219: `shellmap[k]`, `shellmap[l]` before the loop, `shellmap[i]` in its
bound.  State: the map and the parallel loops so far. -/
def eriStep (fac : ℕ) (s : Sizes) (st : SMap × List Region) (q : Quartet) : SMap × List Region :=
  let m := ((st.1.touch q.k).touch q.l).touch q.i
  (if 0 < m.count q.i then m.touch q.j else m,
    st.2 ++ [⟨m.count q.i, fun _ t => eriIter m fac s q t⟩])

/-- All parallel loops of `test_eri` (`fac = 1`) and `test_eri_deriv1` (`fac = 12`). -/
def eriRegions (libMax fac : ℕ) (s : Sizes) (m : SMap) : List Region :=
  ((quartets (eriMaxam libMax m)).foldl (eriStep fac s) (m, [])).2

/-- One iteration over `ab` of the benchmark, benchmark_eri.cpp:138-218: no use of the map; `valid` with
`BENCHMARK_VALIDATE`. -/
def benchIter (m : SMap) (valid : Bool) (s : Sizes) (q : Quartet) (t : ℕ) : List Acc :=
  [⟨.counters, true, true⟩] ++ fill .work (t * s.worksize) (s.used q) ++
    fill .res (t * s.maxsize) (ncont m 1 q) ++
    (if valid then fill .ref (t * s.maxsize) (ncont m 1 q) ++ [⟨.errors, true, true⟩] else [])

/-- `qam_to_test`, benchmark_eri.cpp:80. -/
def benchQuartets : List Quartet := [⟨0, 0, 0, 0⟩, ⟨2, 2, 2, 2⟩, ⟨3, 1, 3, 0⟩, ⟨2, 2, 3, 0⟩]

/-- One quartet of the benchmark, benchmark_eri.cpp:83-222. -/
def benchStep (valid : Bool) (s : Sizes) (st : SMap × List Region) (q : Quartet) :
    SMap × List Region :=
  let m := (((st.1.touch q.k).touch q.l).touch q.i).touch q.j
  (m, st.2 ++ [⟨m.count q.i * m.count q.j, fun _ t => benchIter m valid s q t⟩])

def benchRegions (valid : Bool) (s : Sizes) (m : SMap) : List Region :=
  (benchQuartets.foldl (benchStep valid s) (m, [])).2

/-! ## Calls of the library -/

/-- `am1` and `am2` of a list made from `n1` shells and `n2` shells: `simint_fill_multi_shellpair2`
stores them for every pair (shell.c:462-463); nothing else stores them, so that they have no value in
the list of no pairs. -/
def listAm (am1 n1 am2 n2 : ℕ) : Option (ℕ × ℕ) :=
  ((List.range n1).flatMap fun _ => (List.range n2).map fun _ => (am1, am2)).foldl
    (fun _ p => some p) none

/-- `simint_osteifunc_array[0][P->am1][P->am2][Q->am1][Q->am2]`, ostei.c:6-24: `none` if an index has no
value or is outside of the table of `libMax + 1` entries per index. -/
def callIdx (libMax : ℕ) (P Q : Option (ℕ × ℕ)) : Option (ℕ × ℕ × ℕ × ℕ) :=
  P.bind fun p => Q.bind fun q =>
    if p.1 ≤ libMax ∧ p.2 ≤ libMax ∧ q.1 ≤ libMax ∧ q.2 ≤ libMax then some (p.1, p.2, q.1, q.2)
    else none

/-- `&shellmap[am][0]`: `none` for an empty vector. -/
def first (m : SMap) (am : ℕ) : Option Unit := if m.count am = 0 then none else some ()

/-- The call for one pair of bra shells, test_eri.cpp:141-168. -/
def eriCall (libMax : ℕ) (m : SMap) (q : Quartet) : Option (ℕ × ℕ × ℕ × ℕ) :=
  (first m q.k).bind fun _ => (first m q.l).bind fun _ =>
    callIdx libMax (listAm q.i 1 q.j 1) (listAm q.k (m.count q.k) q.l (m.count q.l))

/-- All calls of `test_eri` are defined. -/
def EriDefined (libMax : ℕ) (m : SMap) : Prop :=
  ∀ q ∈ quartets (eriMaxam libMax m), ∀ a < m.count q.i, ∀ b < m.count q.j,
    (eriCall libMax m q).isSome

/-- All calls of the benchmark are defined, benchmark_eri.cpp:102-103 and 138-177. -/
def BenchDefined (libMax : ℕ) (m : SMap) : Prop :=
  ∀ q ∈ benchQuartets, (first m q.k).isSome ∧ (first m q.l).isSome ∧
    ∀ ab < m.count q.i * m.count q.j,
      (callIdx libMax (listAm q.i 1 q.j 1) (listAm q.k (m.count q.k) q.l (m.count q.l))).isSome

end Simint.TestProg
