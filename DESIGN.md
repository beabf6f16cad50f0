# Formal model of simint-generator: design

Source: `/repo` (simint-chem/simint-generator, pinned commit).  Everything is a
Lean 4 model read from the text of the sources; nothing was compiled or run.

## Trusted base

* The Lean 4.33.0 kernel and the Mathlib that ships with the image.
* Axioms: only `propext`, `Classical.choice`, `Quot.sound`
  (`lean/Verif/Axioms.lean` prints them per theorem during the build).
  No own axioms, no `sorry`, no `native_decide`, no `bv_decide`.
* The reading of the C++/C/python text into Lean.  Each definition cites the
  file and lines it models and says where it simplifies.
* Floating point is *not* modelled except in C83 (Boys function), C84 (horizontal stage), C85 (vertical stage), C86
  (shell pairs, primitive loop), C87 (contraction), C88 (complete functions), C89 (shells to integrals), C90 (derivative functions), C91 (shells to derivatives), C92 and C93 (one-electron integrals), C95 (normalisation; `pow` of the C library is assumed to be at most 4 units in the last place off, `FlNorm.PowOK`), C96, C98 and C99 (basis sets to integrals and gradients), C100 and C101 (screening), C102 (the hand-written function), C103 and C104 (vector sums, AVX512 builds), C105 and C106 (basis sets to screened integrals): arithmetic is over a commutative
  ring, a field or the reals.  Claims are therefore about exact arithmetic.  C83 to C93, C95, C96 and C98 to C106 trust that the
  operations have the error bounds listed in `Rounds` (overflow and NaN are not values).
* The tables of the Boys function are copied by `tools/boys_table.py` into
  `lean/Verif/BoysTable.lean` (decimal literals, not their roundings to doubles).  C49, C59, C61 and
  C62 take the exact Boys function; C65 says how far `boys_F_split` is from it.
* Integers are unbounded except in C81, which lists the `int` values of a call and of list
  allocation.  Threads appear in C75 and C82 (loops of the test programs) as
  sets of accesses per iteration; the OpenMP runtime itself is not modelled.
* malloc failure, stdio, the text form of the emitted C (we model the emitted statements, not the
  characters), the C compiler and the SIMD instruction semantics below "lane-wise operation" are not
  modelled.

## Conventions of the model

* `Exp` = exponent triple with integer entries (`Gaussian::ijk`), so invalid
  (negative) triples exist exactly as in the C++.
* A Cartesian order is a parameter `ord` with the hypothesis that each `am`
  lists each component once (`OrdOK`); Psi4 and GAMESS tables are instances.
* `std::set` is a duplicate-free list; iteration visits its members in an arbitrary
  order (an enumeration parameter), so the theorems do not depend on the order of
  the set.  C05 shows that every `operator<` used as set order is a strict total order.
* Loops that the C++ writes with `while`/recursion use a fuel argument, and a
  theorem shows the fuel given is enough (termination).
* Memory of generated code: one array per integral class; an access outside the
  array is a distinct outcome (`none`).  Contents of memory before the stage
  are universally quantified, so a theorem about the result also says that no
  uninitialised value influences it.

## Specifications (kept apart from the model, files `*Spec.lean`)

* HRR: a linear functional on products of four shifted monomials.
* VRR: a family of numbers satisfying the eight-term Obara-Saika recurrence on
  all four centers; real Gaussian integrals are shown to be such a family.
* Contracted integrals: plain double sum over primitive pairs of a shell
  quartet.
* One-electron: Lebesgue integrals over the real line (Mathlib).
* Layout: disjointness of intervals; permutation/sortedness from Mathlib.

## Per property

| id | modelled | proof method |
|----|----------|--------------|
| C01 | `IteratePsi4`, `GenerateMap` | induction on the enumeration; closed form |
| C02 | both table files embedded as data | whole (finite) table checked by the kernel |
| C03 | `HashExpList` | arithmetic; witness for the 256 collision |
| C04 | `index`, `Generate*Targets` | mixed radix, list membership/nodup |
| C05 | every `operator<` | case analysis |
| C06 | Makowski direction (C++), python direction | case analysis, both equal the spec |
| C07 | python record builder, C table | closed form; finite table by kernel |
| C08 | `DoubletStep_`, emitted statement | ring identity for a linear functional |
| C09 | `HRRDoubletLoop_`, `PruneDoublets_` | loop invariant, measure |
| C10 | `AMOrder_AddWithDependencies_` | recursion invariant |
| C11 | `WriteHRR` statements run on memory | invariant over the order |
| C12 | `ostei_general_hrr_{I,J,K,L}` | loop invariant, index arithmetic |
| C13 | `VRRStep_`, emitted statement | recurrence spec, case analysis |
| C14 | `Create_WithOrder`, `Create_Single_` | invariant, measure |
| C15 | `vrrmreq_max_` | pure-x reachability argument |
| C16 | VRR `AMOrder_AddWithDependencies_` | recursion invariant |
| C17 | `WriteVRR` statements run on memory | invariant over the order |
| C18 | `maxint_`, `GetConstants` | invariant |
| C19 | `ostei_general_vrr*` | loop invariant, index arithmetic |
| C20 | Gaussian integrals | integration by parts in Mathlib |
| C21, C22 | `PartitionWorkspace`, create.py worksize | interval arithmetic |
| C23 | `SIMINT_SIMD_ROUND` | bit arithmetic |
| C24-C28 | driver loops of `Write_Full_` | simulation of lane bookkeeping |
| C29 | driver, ssss special file | frame property / counterexample |
| C30 | `contract*` | induction |
| C31 | permutation stubs, `UniqueQuartet` | case analysis |
| C32, C33 | `Write_Permute_` | index arithmetic |
| C34-C36 | `OSTEIDeriv1_Writer`, deriv generator main | differentiation under the integral sign, index arithmetic |
| C37-C39 | allocate/fill loops | loop invariant |
| C40 | fill prefactors | finite sums |
| C41 | `simint_sort_multi_shellpair` (quicksort) | partition invariant, permutation, fuel from the length |
| C42-C45 | cat/copy/primscreen | theorem or counterexample plus restricted theorem |
| C46, C47 | `simint_osoei_overlap_terms`, `simint_osoei_ke_terms` | integration by parts gives the recurrences; loop invariant on the array |
| C48 | `simint_compute_osoei_overlap`, `..._ke` | Fubini, sums over primitives, loop invariant |
| C49 | `simint_compute_osoei_potential` | `1/r` as integral over Gaussians; rows valid up to an order |
| C50, C51 | `boys_F_split` and the functions it calls | floor arithmetic; loop invariant; integration by parts |
| C52 | `valid` of create.py | list reasoning |
| C53-C55 | create.py: logs, `filelists` (list of references), `reqext_*`, closure, helper runs; calls in the generated text; `WriteVRRFile`, `WriteHRRFile` | state of the script as a function of the calls; searches for any valid classes; command lines from C56 |
| C56 | `GetNextArg`, `GetIArg` (with `stoi`), `ParseCommonOptions`, option loops of the four programs, `cmdline` lists of create.py | parser is equivalent to an inductive meaning of argument lists; printed numbers read back |
| C57 | AVX512 buffer of ostei_s_s_s_s.c | sum invariant |
| C58 | driver bra addressing against fill layout | exact condition, counterexample; public function with several batches |
| C59 | complete function: main of ostei_generator, `Write_Full_` | composition of C10-C20, C25 |
| C60 | declarations of the primitive loop | step types reachable by the search |
| C61 | complete derivative function | C59 machinery with tagged classes; differentiation under the integral sign |
| C62 | shells to integrals: fill, function | composition of C39, C40, C59, C61 |
| C63 | `simint_normalize_shells` | Gaussian moments, linear independence of Gaussians, positivity of the overlap |
| C64 | `simint_init`, both init files (all 8192 assignments), `gen_fill.py`, `simint_compute_ostei`, `simint_compute_ostei_deriv` | table equals the generated one (kernel); distinct index tuples and names; composition of C29, C31, C32, C35, C59, C61, C62 |
| C65 | accuracy of the Boys tables and of `boys_F_split` | interval arithmetic with natural numbers over the whole table, checked by the kernel; Taylor remainder; tail integral |
| C66 | file lists of create.py against calls in the listed files | exact class sets of C67, names of files are different |
| C67 | searches of both stages | closure under the recursions in both directions |
| C68 | `simint_primscreen_schwarz` values, lists filled with them, screened calls | Schwarz inequality for the Coulomb form from its Gaussian transform (integral over `u` of products of Gaussian averages, a positive kernel); each dropped quartet is at most the tolerance; folded pairs counted twice |
| C69 | `simint_shellscreen_schwarz`, `simint_shellscreen_fastschwarz` | Schwarz inequality for sums over primitives; explicit shells for the negation |
| C70 | `simint_primscreen_fastschwarz` values | `(ss\|ss)` and `(xs\|xs)` in closed form from the start values and the vertical recurrence |
| C71 | `ArrVarName` and its variants, `HRRVarName`, `PrimVarName`, `PrimPtrName`, function names of the writers, wrapper of the bra routines | names as strings; the four letters are read off the end, the kind off the beginning |
| C72 | `ValeevRef_Init`, `ValeevRef_eri`, `norm_const` of the test oracle | moments of two coupled Gaussians satisfy the recursion of Hermite-like polynomials, which have closed sums; the product of the three directions is a polynomial in `u²/(ρ+u²)`, integrated term by term |
| C73 | `Valeev_F`, its use in `ValeevRef_eri` | series with exact remainder; a term below `EPS` forces ratio 1/2; downward recursion keeps the relative error |
| C74 | `ValeevRef_Deriv0`, `ValeevRef_Deriv1`, `ValeevRef_NumDeriv1`, `ValeevRef_Integrals`, `IterateGaussian`, `ValidGaussian` of the tests | list of stores of the loops; positions by nested-loop lemmas; derivatives by differentiation under the integral and translational invariance; mean value theorem for the differences |
| C75 | `CalcError`, `FindMaxParams`, `UniqueQuartet` of the tests, `UpdateErrorMap` and the loops of `test_eri`, `test_eri_deriv1` | running maxima of real numbers with NaN; greatest element of a set, hence independent of the order of the threads; sizes by monotonicity |
| C76 | `simint.f90`: types, interface block, procedures; the C declarations; Fortran flags of DefaultFlags.cmake | layout function for any platform; tables compared as a whole; calls evaluated for any arguments |
| C77 | `screentest.cpp`: creation of the pairs (complete fill with the fast method), the four counting loops and the exceptions | multisets of unordered pairs (`Multiset.sym2`), independent of the order that the sort leaves; totals by their cardinality |
| C78 | `example_packed.c`: all loops, for any number of shells | invariant: visited places hold the integral of any four functions with that packed number; symmetry of the integrals (exchange of the electrons by a measure preserving map); composition with C64 |
| C79 | `ReadBasis` of the tests and gen_mol.py, character by character | texts as words laid out with white space; every reader consumes one word; readers do not look ahead; lines, strip and split of the script; composition |
| C80 | list of all vector loads of a call in the order of the generated text; arrays of a list in its block; pieces of the work and result buffers | padded starts of batches and sizes of arrays are multiples of the vector length; vectors of a cut batch end inside the padding; covering of all slots |
| C81 | list of the values of all `int` expressions of a call, in the control flow of the driver model, and of the counting loop of the allocation | exact bounds of all counters; the last quartet attains the largest offset; wrapped product in the `memset` |
| C82 | accesses of every iteration of the parallel loops of the test programs; `std::map::operator[]` with insertion; angular momenta of lists of no pairs | pieces of different threads are disjoint; all keys are inserted before a loop of `test_eri` uses them (order of the quartets); exact conditions for races and defined calls |
| C83 | the functions of C50 for one lane with a rounding after every operation; `Rounds` = error bounds of doubles with gradual underflow, fused or not; instance: rounding to nearest | rounded index in the table; Horner scheme relative to the largest entry, shift of the argument by the error of `idx*0.1`; recursion step adds at most 6e-16; relative errors of products and roots; underflow of `pow` |
| C84 | the statements of C11 with `v0 ± fl(h*v1)` or `v0 ± h*v1` rounded, choice per statement (`C84_external`) and, in the loops of the files of the general functions, per direction (`C84_general`); differences of centers rounded once | `run_orderP`: any property of (tag, component quadruple, value) that one statement carries from sources to target holds at the end; `Approx k x' x X` calculus (`Verif/FlApprox.lean`); majorant in closed form by Pascal's rule; the bound is not relative to the integral: witness with total cancellation |
| C85 | the code of C17 (inline, external, generic) over an arbitrary arithmetic `VOps` (product, multiply-add, integer constants), instantiated with rounded operations, multiply-add fused or not | `vertical_closed`: any property of (order, quartet, value) kept by the recurrence as evaluated (`vform`: order of the terms, constants with factor 1 not multiplied inline) holds at the end; `Approx` calculus; closed majorant `B ∏ (1 + w + j v)`; the bound is not relative to the integral: witness with total cancellation |
| C86 | the fill loop of C39, C40 (values of one pair) and the primitive loop of C59 (one lane) with every operation rounded, the Boys function of C83 and the vertical stage of C85 | `Rl`: positive quantities with relative errors, no underflow in the range of exponents given; `Approx` for differences; the Boys function has slope at most one; the literal of constants.h is within half a unit of √2 π^(5/4); C85 in closed form; witness for underflow of the prefactor |
| C87 | the loops of C25 (the same definitions, on the type `Fd F` of doubles, whose sums and products are rounded) | second run of the same loops on pairs of a number and the multiset of its addends, which form a commutative monoid, so that C25 applies; a relation between the two runs; error bound by induction on the tree of additions; witness with 2^60, 1, -2^60 |
| C88 | `flFunction`: `genFunction` of C59 with the primitive loop of C86, the loops of C87 and the horizontal stage of C84 (external and generic routines included) | lanes give doubles and zero for a zero prefactor (`run_closed`: a property that the operations keep); result of the horizontal stage depends only on the arrays handed over (`runHRROp_det`); C86 for each primitive, C87 for the sum, majorant `size(l) (2+2R)^n` for C84; powers of two for the absence of overflow |
| C89 | the fill loops of C39 with the operations as a parameter (`ShOps`), on doubles with the values of C86; then `flFunction` | the loop invariants of C37-C39 do not depend on the operations; coordinates are multiples of 2^-1074, so that differences have no underflow; sums over stored primitives are sums over all primitives for a symmetric summand; sizes of C88 |
| C90 | `flDerivFunction`: `flFunction`'s stages for the classes of `derivNeeded`, rounded products with twice the exponents (`contract_fac`), rounded lines of `WriteFormDeriv` (`formDeriv` takes its operations as a parameter, `FormOps`, in C34, C61 and here) | C86-C88 for the classes with tags; C84 bounds the exact values of intermediate classes as well as the errors; raising and lowering of the exact integrals is their derivative (C34), translational invariance for the missing center |
| C91 | complete fills (C89) with the arrays `alpha2`, `beta2`, then `flDerivFunction` (C90); nothing new is modelled | the stored factor is one rounding away from twice the exponent, or from the sum of both exponents for folded pairs; at one center an integral depends on the sum of the two exponents only, and the derivative of a folded pair with the mean exponent on both centers is half that of the two pairs it stands for (C40) |
| C92 | `FlOneEl.osoeiOverlap`, `FlOneEl.osoeiKe` (osoei_terms.c, osoei_overlap.c, osoei_ke.c with rounded operations) | every element of the recursion is measured with the moment of a Gaussian around the largest distance, which satisfies the same recursion with equality, so that the counts of roundings add up linearly; kinetic energies with that times a factor linear in the exponents; products and sums over primitives with the counts of C86 |
| C93 | `FlPot.osoeiPotential` (osoei_potential.c with rounded operations and `FlBoys.split`) | errors measured with moments of a Gaussian around twice the largest distance, times a factor linear in the exponents for the argument of the Boys function; `boysF` changes by at most the change of its argument; the Boys values of C83 at the computed argument |
| C94 | `Stat.runStat`, `Stat.storeStat` (blocks under `SIMINT_PRIM_SCREEN_STAT` of OSTEI_Writer.cpp and ostei_s_s_s_s.c) | each loop adds what its body adds to zero, so the counters are a sum over bra primitives and batches; batches of full vectors are consecutive lanes |
| C95 | `FlNorm.normalizeShells` (simint_normalize_shells on doubles) | the relative error of `pow` is magnified by the exponent; terms of the sum are bounded with absolute values, and the quotient `K` of the two sums turns this into a relative error of the norm |
| C96 | `FlNorm.normalizeShells`, then the fill and the function of C89 | the shells after normalisation are the exact ones with other coefficients; C89 gives the integrals over them, and relative errors of coefficients carry over to each term of the contraction |
| C97 | loops of the python scripts with lists that may hold `None`; grid points with the rounding of mpmath (`mpRound`, `dpsToPrec`), values over the reals | substitution `t = x s^2` in the incomplete gamma function; invariants of the fill loop and of the search for cutoffs, whose error is `boysTail` (decreasing in the argument, increasing in the order); the committed grid by the kernel |
| C98 | `FlNorm.normalizeShell`, then the routines of C92 and C93 | the integrals are bilinear in the coefficients (`Bilinear`): relative errors of coefficients carry over to each term; norms by C95 |
| C99 | `FlNorm.normalizeShells`, then the fill and the derivative function of C91 | the derivative of the contracted integral is the sum of coefficients times derivatives of primitive integrals (`gradERI`), so that the argument of C96 applies |
| C100 | `flOstei`, `flPrimVal`, `flPrimVals` over `flFunction` and `completeList` | Schwarz inequality for the exact integrals; the values are near the exact ones by C89 for shells with one primitive (`oneShell`), so a quartet that is left out is at most `dropMax`; what is kept is the exact sum over the kept quartets by C88 |
| C101 | `FlFast.value`, `FlFast.shell`, then the call of C100 | relative errors through the formula; the exponential has a relative error as long as its argument is above -2048, below that it is nothing; the literal by bounds on π |
| C102 | `flSsss`, `flOsteiSsss` (skel/ostei_s_s_s_s.c on doubles) | the searches give four s shells no horizontal and no vertical step, so the generated function runs the same primitive stage; simulation of the loops (C29) for any type with addition, multiplication and order; what padding holds after a fill |
| C103 | `AllSum`, `contractAllBy`, `runDirectBy`, `runHrrBy`, `accDelayed` (contract_all of the vector headers and the delayed sums of ostei_s_s_s_s.c on doubles), `Build.all` | the bounds need only that each element is a rounded sum of the right multiset of numbers (`SumOf`); traces carry that multiset through the loops. Simplified: one variant for all arrays of a function (the gradient functions of AVX512 builds use the transposition in `contract_all` and the reduction in `contract_all_fac`) |
| C104 | `runSsssDelayed`, `flSsssDelayed` (the complete ostei_s_s_s_s.c with the branches of AVX512 builds) | simulation of the loops with buffer (`runSsssDelayed_rel`) by the loops without it on traces: at each point each element plus the buffer is a rounded sum of the trace. Simplified as in `runSsss` (C57); vector length 8 |
| C105 | as in C96, C101, C102 and C104 | coefficients grow by at most 9/8, so exact fast values of the rounded shells are at most twice those of the exact ones; an error is split into the part of C96 and the part of screening (`DropError`) |
| C106 | as in C96 and C100; the stores of screening values stay in their array (false in general, C44) | coefficients grow by at most 9/8, so the bounds of C100 at most double; whether the stores stay in the array depends on numbers of primitives only; errors are split as in C105 (`ClassDropError`) |

## Places where the code does not do what the property says

Each is a theorem with a concrete witness; the restricted theorem is kept beside it.

* C03: exponents of 256 and more collide in the hash.
* C17: in external mode, writing the helper file of a class with steps on both
  bra centers (or both ket centers) does not terminate
  (`C17_external_two_sided_diverges`).
* C23: the rounding macro is wrong for vector lengths that are not powers of two.
* C24: a ket shell without primitives shifts all later lanes of its batch by one shell.
* C26: screening values in padding lanes influence which vectors are skipped.
* C29: the hand-written (ss|ss) function overwrites screening values of the
  shells behind the clip; a later unclipped call then drops contributions above
  the tolerance.
* C42: `simint_cat_multi_shellpair` reads the primitives of every pair `j` of an input list
  from element 0 on, so each pair after the first gets the primitives of the first pair
  (`C42_multi_wrong`); both concatenation functions add to `nprim` of the output, which no
  initialisation sets (`C42_multi_negation`). Proved for lists of one pair each and for
  whatever `nprim` was before (`C42_multi_partial`, `C42_shellpairs_partial`). The
  screening value of padding is not written by either function.
* C43: copying a shell into one that once was larger reads beyond the block of the source.
* C44: `simint_primscreen_schwarz` pads relative to the start of its pair; in a list of
  several pairs it writes beyond the screening array, in builds without derivatives
  over the differences of centers of earlier pairs (`C44_overrun`).
* C68, C69: for angular momenta above 7 both Schwarz routines call a null pointer (C64).
* C69: `simint_shellscreen_fastschwarz` adds `(ij|ij)` over the pairs of primitives and leaves out all
  products of different pairs. For a shell of `n` equal s primitives and one of one primitive its value
  is too small by a factor of `n` (`C69_fast`).
* C70: shell_screen.h says `(00|00) >= (ab|cd) if all other parameters are the same`. This is false:
  `(xs|xs) = (ss|ss) / (12 p)` on one center, so the value is too small for exponents with sum
  `p < 1/12` (`C70_iff`), by any factor (`C70_not_bound`). A call with these values can store 0 for an
  integral that exceeds the tolerance by any factor (`C70_lost`).
* C45 holds, but `screen_max` starts at 1.e99 and only grows, so the test on the whole
  call never skips anything (`C45_never_skipped`).
* C50: the Taylor expansion reads columns `n, …, n+7` of a row of 32 entries, so orders above 24
  read outside the row (`C50_outside`, `C50_iff`). Order 25 is requested by derivative functions of
  classes with total angular momentum 24, order 28 by class (7 7|7 7) (`C50_false`), and orders up
  to 36 by the potential integrals.
* C65: for `x >= 36.5` the downward recursion starts with the integral over `(0, ∞)` instead of
  `(0, 1)` and still adds `exp(-x)` in each step. The error of the top order is multiplied on the way
  down (`C65_long_large_partial` gives it exactly). At `x = 36.5` the value of order 0 has a relative error
  of more than 1e-9 if order 8 is requested, more than 1e-7 for order 12, more than 1e-3 for order 24
  (`C65_long_false`). Below 36.5 the relative error is at most 1.2e-15 for all orders.
* C64: create.py copies `ostei_init.c` and `ostei_deriv1_init.c`, which stop at angular momentum 7, whatever
  `-l` is. In a build for a larger limit every class with a larger angular momentum has a null pointer
  (`C64_missing`) although its function is in the library (`C64_missing_exists`). A negative tolerance does
  not turn screening off; it is squared and acts like a positive one (`C64_negative`).
* C53: `[{...}]*(derorder+1)` makes all entries of `filelists` the same dictionary. With
  derivatives the lists of order 0 and 1 are equal, and `filelist_d0_*` has the derivative
  sources (`C53_lists_shared`). CMake reads only the list of the highest order, which
  needs the files of order 0, so the build depends on this.
* C55: `VRR_I_p_p_s_s` calls itself (`C55_self_call`); exactly the classes with angular momentum on
  both centers of a pair do (`C55_self_call_iff`, `C55_terminates_iff`). create.py never asks for
  them (`C55_create`).
* C66: with derivatives the lists miss files. The file `vrr_J_s_<2l+1>_s_s.c` is in every list of limit
  `l` and calls `VRR_I_<2l+1>_s_s_s`, whose file is in none of them (`C66_incomplete`; it is the case if
  `ve <= 2l+1 < vg`). Without derivatives all lists are complete (`C66_complete_partial`).
* C58: bra primitives are read without gaps, but stored with gaps after each
  batch of `2*LEN` shells; lists with more than one batch of bra shells are read
  at the wrong place unless each batch holds a multiple of `LEN` primitives.  For every `LEN` above one there are
  lists for which the public function stores 0 for a positive integral (`C64_bra_false`).  The sixteen bra pairs of
  skel/examples/example1.c are affected with SSE and AVX (`C58_example1`).  All theorems about complete calls
  (C59, C61, C62, C64, C68, C70, C89, C91, C96, C99-C106 where lists are read) have exactly this condition on the bra pairs
  (`BatchesFull`, Spec/Batches.lean); it holds for one batch and for every list if `LEN = 1`.

Assumption of C41: every pair has at least one primitive. With `nprim12 = 0` the quicksort is
called with `right = left - 1` and reads the element between, which belongs to another pair.
The sort is modelled on separate arrays (C38 shows that they are).
* C74: `ValeevRef_Deriv1` starts the values of shell `i` of the first array at `i * n234` although each
  shell has `12 * n234` of them, so for two or more shells they overwrite each other
  (`C74_gradients_false`; what is left is given by `C74_gradients_overlap`).  With `normalize` the
  raised and lowered functions are scaled with their own norms instead of the norm of the function that is
  differentiated (`C74_gradients_norm_false`).  The tests use one shell and no normalisation.
  `ValeevRef_NumDeriv1` stores coordinates outside and components inside, the other way round from
  `ValeevRef_Deriv1` and the library (`C74_numeric_layout`).
* C75: `CalcError` compares with `>`, so an element that is NaN changes neither error and is never reported
  (`C75_nan_false`).  The relative error of an element with a reference below 1e-15 is taken as zero, and a line
  is only marked if both errors are large, so wrong values where the integral is zero are not marked
  (`C75_zero_false`).  The two errors are maxima over all elements, so a line may be marked although every
  element agrees (`C75_mark_false`).  The programs return 0 in all cases.  The number of elements of the buffers
  of all threads is a product of `int`s; `C75_alloc` gives the exact condition for it to fit, and for
  dat/R-camphor.aug-cc-pvqz.mol it does not with two threads in test_eri_deriv1 or 23 in test_eri
  (`C75_alloc_false`).
* C76: `simint.f90` has an `#if` around the members `alpha2`, `beta2`, but the flags for GNU and Clang do not turn on
  the preprocessor and the suffix is lower case, so gfortran skips the `#` lines and always declares the two
  members.  For a library without derivatives every later member then has a wrong offset
  (`C76_pair`, `C76_pair_false`: `prefac` of Fortran is `screen_max` of C), and arrays of shell pairs have a wrong stride.
  The work space sizes pass through a `C_INT` (`C76_worksize`).  Also, `simint_create_multi_shellpair2` declares
  `AB(npair)`, while the C function reads `2 * npair` shells (read only, not modelled).
* C77: screentest.cpp:160 compares the padded number of pairs of primitives with `P.nprim`, which is not padded
  (shell.h:51, shell.c:573), so the program throws unless every pair of shells fills whole vectors
  (`C77_throws`; `C77_throws_false`: always for STO-3G with vectors of four elements, and for any basis set with a
  shell of one primitive).  `screen_max` starts at 1.e99, so no pair of primitives is reported as never
  significant (`C77_primMax`, `C77_never_false`).
* C97: gen_boys_shortgrid.py writes the multiples of the spacing *below* the largest argument, but declares
  `floor(max/spacing) + 1` rows. If the largest argument is a multiple of the spacing, one row is missing (`C97_rows`,
  `C97_rows_false`), C fills it with zeros, and the Boys function is zero in the last half step (`C97_lastRow`). In
  the committed table (0.1 up to 36.5) the row is there because the sum of 365 tenths, rounded to 854 bits, is
  below 36.5 (`C97_committed_partial`); with 15 digits it is not. gen_shellconstants.py ends with an exception for
  `--max-am 0` (`C97_normfac`).
* C79: `ReadBasis` looks up the letters of a shell type with
  `ammap[*itg]` (skel/test/Common.cpp:142). For a character that is not in the table `operator[]` inserts
  0, so a small letter or a misspelt type silently becomes an s shell (`C79_unknown_letter`, for every
  such character). Everything that gen_mol.py writes from basis sets with known letters is read correctly
  (`C79_roundtrip`), and a file whose last number is not followed by white space is rejected (`C79_eof`).
  The fourth number of an atom in these files is meant to count general contractions as several primitives
  (gen_mol.py:45); the script multiplies by `len(shell)`, the number of keys of a dictionary (always 3)
  instead of the number of primitives (`C79_nprim2_false`). Nothing reads that number.
* C80: `contract_all` in intrinsics_avx512.h:98-137 fills a local array `double tmp[64]` and loads it with
  `_mm512_load_pd`, which requires a multiple of 64; nothing asks for that alignment (the x86-64 convention
  gives such arrays 16). The loads are aligned exactly if the compiler happens to place the array so
  (`C80_tmp`, `C80_tmp_false`); compilers that keep the array in registers hide this. The test programs give
  thread `i` the results at `i * maxsize`; the generated functions declare that pointer as aligned to the
  Intel compiler (`SIMINT_ASSUME_ALIGN_DBL`), which is true for all threads exactly if the vector length
  divides `maxsize` (`C80_results`, `C80_results_false`). A list made without screening used with a positive
  tolerance is read through a null pointer (`C80_null_screen`).
* C81: the generated functions compute `P.nshell12_clip * Q.nshell12_clip * ncart` and `real_abcd * ncart`
  (times 12 for derivatives) as `int`. Everything is in range exactly if these are (`C81_direct`, `C81_hrr`);
  46341 pairs of s shells in each list are too many (`C81_direct_false`). If the products wrap, the
  `memset` clears the right number of bytes exactly if the product is below `2^31` (`C81_wrap`); a product of
  `2^32` clears nothing, so the integrals are added to what was in the buffer. Below these bounds the natural
  numbers of the driver model are the `int`s of the code.
* C82: `test_ke`, `test_overlap` and `test_potential` use `shellmap[i]` and `shellmap[j]` inside a parallel loop;
  `std::map::operator[]` inserts missing keys, so a file that lacks an angular momentum below the largest one
  gives a data race as soon as two threads take part (`C82_one_race`, `C82_one_race_false`). For such a file
  `test_eri` and `test_eri_deriv1` make a list of no pairs, whose `am1` and `am2` are never stored, and
  index the function table with them (`C82_eri_defined`, `C82_eri_defined_false`). `benchmark_eri` always runs
  (ss|ss), (dd|dd), (fp|fs) and (dd|fs): it is defined exactly for files with s, d and f shells and a
  library up to f (`C82_bench_defined`, `C82_bench_defined_false`).
* C83: `boys_F_long_single` computes `sqrt(pow(x, -(2n+1)))`. The power underflows to zero when `x^(2n+1)` is above
  2^1075 (for n = 24 from about 4e6 on), although its root is far inside the range of doubles. The downward
  recursion then stores zero for all orders, also for order 0 (`C83_scalar_false`). The function is used if
  SIMINT_BOYS_NOVECTOR is defined or if the lanes of a vector lie on both sides of 36.5, so the result of
  a lane depends on its neighbours (`C83_lanes_differ`); the vector function computes `pow(x, -(n+0.5))` and
  has no such problem.

* C94: with `SIMINT_PRIM_SCREEN_STAT` the generated functions store four counters behind the integrals, past the
  end of an array that has room for the integrals (`C94_store_false`). `skip_nprim` counts the lanes that only
  fill up a vector, but not in rows that are skipped as a whole, so that the counters of primitives do not
  add up to the number of pairs of primitives (`C94_total_false`); without screening these lanes are
  counted as computed (`C94_calc_false`).

Not modelled but noticed while reading: the macro names of the AVX512 branches in ostei_s_s_s_s.c and the
header differ.
