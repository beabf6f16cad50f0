{"id": "C01", "title": "Cartesian order is a bijection", "statement": "For every angular momentum the enumeration of Cartesian components visits every (i,j,k) with i+j+k=am exactly once, so component numbers 0..ncart-1 are in one-to-one correspondence with components, and the component number of (i,j,k) is (j+k)(j+k+1)/2+k.", "quantifier": "every angular momentum am >= 0 and every component", "why_tests_cant": "am is unbounded; shipped tables stop at 24 and tests only touch the compiled maximum", "anchors": ["python/ordering_common/ordering_psi4.py:IteratePsi4", "python/ordering_common/generate.py:GenerateMap", "generator/Ordering_Psi4.cpp", "generator/Types.cpp:GaussianOrder"]}
{"id": "C02", "title": "Shipped ordering tables are complete", "statement": "For both selectable orderings (Psi4 and GAMESS) and every tabulated angular momentum, the table lists each Cartesian component exactly once and the two lookup directions (component to number, number to component) are mutually inverse.", "quantifier": "both orderings, all am in the tables, all components", "why_tests_cant": "the tables are several thousand literals, a test only looks at the handful a given basis set uses", "anchors": ["generator/Ordering_Psi4.cpp", "generator/Ordering_GAMESS.cpp", "generator/Types.cpp:AllGaussiansForAM"]}
{"id": "C03", "title": "Exponent hash never collides", "statement": "Two different exponent triples never share the lookup key used for component numbers, for all exponents the key format supports (0..255); at 256 collisions do exist.", "quantifier": "all pairs of exponent triples with entries below 256", "why_tests_cant": "256^6 pairs of triples", "anchors": ["generator/Types.hpp:HashExpList"]}
{"id": "C04", "title": "Flat index of doublets and quartets is a bijection", "statement": "The position of a component quadruple inside an integral block is a bijection between component quadruples of the block and 0..ncart(block)-1, row-major in (a,b,c,d); the list of targets generated for a block contains every component quadruple exactly once.", "quantifier": "all angular momenta and both orderings, all component tuples", "why_tests_cant": "quantifies over all blocks; collisions show only for specific large blocks", "anchors": ["generator/Types.hpp:Doublet::index", "generator/Types.hpp:Quartet::index", "generator/Types.cpp:GenerateQuartetTargets", "generator/Types.cpp:GenerateDoubletTargets"]}
{"id": "C05", "title": "Container orderings are strict total orders", "statement": "The comparison used to keep Gaussians, doublets, quartets and AM keys in ordered sets is irreflexive, transitive and trichotomous, and two keys are equivalent only if they denote the same integral; so no two distinct integrals are ever merged and none is lost.", "quantifier": "all pairs/triples of keys", "why_tests_cant": "a broken comparator corrupts sets only for particular insertion histories", "anchors": ["generator/Types.hpp:operator<", "generator/Types.hpp:Gaussian", "generator/Types.hpp:Doublet", "generator/Types.hpp:Quartet", "generator/Types.hpp:QAM"]}
{"id": "C06", "title": "Recursion direction is always usable", "statement": "The Cartesian direction selected for a recursion step always has a positive exponent in the component being lowered, is the smallest positive exponent, ties going to the right-most direction; the generator and the run-time lookup table always agree on it.", "quantifier": "every component with positive total angular momentum", "why_tests_cant": "infinite set of components; two independent implementations in C++ and python must agree everywhere", "anchors": ["generator/ostei/Makowski.hpp:VRRStep_", "generator/ostei/Makowski.hpp:DoubletStep_", "python/gen_recurinfo.py"]}
{"id": "C07", "title": "Run-time recursion table is correct", "statement": "Every entry of the run-time recursion table gives, for each direction, the component number of the lowered, twice lowered and raised component, or -1 exactly when that component does not exist; the per-AM start offsets are right.", "quantifier": "all angular momenta and components (the shipped table up to am 18)", "why_tests_cant": "1330 records of 13 numbers, each used only by specific high-AM code paths", "anchors": ["skel/simint/recur_lookup.c:recurinfo_array", "skel/simint/recur_lookup.c:am_recur_map", "python/gen_recurinfo.py"]}
{"id": "C08", "title": "HRR step is an identity of integrals", "statement": "Each horizontal-recurrence step emitted (target = source0 +/- AB_dir * source1, either center, bra or ket) is an exact identity between the integrals it names for every geometry, and both sources are valid integrals with strictly smaller angular momentum on the stepped center.", "quantifier": "all target doublets, all step types, all geometries, all linear functionals of the charge distributions", "why_tests_cant": "real-valued identity over all geometries", "anchors": ["generator/ostei/Makowski.hpp:DoubletStep_", "generator/ostei/OSTEI_HRR_Writer.cpp:WriteBraSteps_", "generator/ostei/OSTEI_HRR_Writer.cpp:WriteKetSteps_"]}
{"id": "C09", "title": "HRR search terminates and is closed", "statement": "For any set of requested integral classes the horizontal search terminates and, for each integral it decided to form, every source is either formed as well or belongs to the classes handed to the vertical stage.", "quantifier": "any finite set of classes, any direction choice", "why_tests_cant": "termination and closure over all inputs", "anchors": ["generator/ostei/OSTEI_HRR_Algorithm_Base.cpp:HRRDoubletLoop_", "generator/ostei/OSTEI_HRR_Algorithm_Base.cpp:PruneDoublets_"]}
{"id": "C10", "title": "HRR order is a topological order", "statement": "The computed order of integral classes for the horizontal stage lists each class once, lists every requested class that needs the stage, and lists each class after all the classes it is formed from.", "quantifier": "any finite set of requested classes", "why_tests_cant": "all inputs; ordering bugs appear only for particular AM sets", "anchors": ["generator/ostei/OSTEI_HRR_Algorithm_Base.cpp:AMOrder_AddWithDependencies_"]}
{"id": "C11", "title": "Horizontal stage computes the requested integrals", "statement": "Running the emitted horizontal stage on memory whose top classes hold the right contracted integrals leaves the exact requested integrals in every element of the output block, reads no element outside an array, and does not depend on the previous contents of any other memory.", "quantifier": "all requested class sets, directions, orderings, geometries, memory contents", "why_tests_cant": "end-to-end correctness over all geometries and initial memories", "anchors": ["generator/ostei/OSTEI_HRR_Writer.cpp:WriteHRR", "generator/ostei/OSTEI_HRR_Algorithm_Base.cpp:Create"]}
{"id": "C12", "title": "Generic run-time HRR routines", "statement": "The four generic horizontal routines compute, for all angular momenta within the lookup tables, every element of the output block equal to the exact integral when their inputs hold exact integrals, and access no element outside the documented block sizes.", "quantifier": "all angular momenta, all four centers, all geometries and inputs", "why_tests_cant": "parametric in four AMs; only large AM builds reach them", "anchors": ["skel/simint/ostei/ostei_general_hrr.c"]}
{"id": "C13", "title": "VRR step is an identity of auxiliary integrals", "statement": "Each vertical-recurrence step emitted is an instance of the Obara-Saika eight-term recurrence for its center and direction, with the right integer factors, shifts and auxiliary indices, so it holds for any family of auxiliary integrals satisfying that recurrence.", "quantifier": "all targets, all four centers, all families", "why_tests_cant": "real identity for all geometry and exponents", "anchors": ["generator/ostei/Makowski.hpp:VRRStep_", "generator/ostei/OSTEI_VRR_Writer.cpp:WriteVRRSteps_"]}
{"id": "C14", "title": "VRR search terminates and is closed", "statement": "For any set of targets the vertical search terminates and each auxiliary integral it decides to form has all its needed sources formed too or is an (ss|ss) integral.", "quantifier": "any finite set of target quartets and any permutation of center priorities", "why_tests_cant": "all inputs", "anchors": ["generator/ostei/OSTEI_VRR_Algorithm_Base.cpp:Create_WithOrder", "generator/ostei/OSTEI_VRR_Algorithm_Base.cpp:Create_Single_", "generator/ostei/OSTEI_VRR_Algorithm_Base.cpp:PruneQuartets_"]}
{"id": "C15", "title": "Auxiliary-order bookkeeping is sufficient", "statement": "The number of auxiliary orders stored for each class is enough: every read of order n or n+1 of a source class made while forming a class at order n lies inside the source class's storage, and (ss|ss) is stored up to the total angular momentum.", "quantifier": "all requested class sets, all steps, all orders", "why_tests_cant": "depends on the whole dependency graph of arbitrary targets", "anchors": ["generator/ostei/OSTEI_VRR_Algorithm_Base.cpp:Create_WithOrder", "generator/ostei/OSTEI_VRR_Algorithm_Base.cpp:GetMReq"]}
{"id": "C16", "title": "VRR order is a topological order", "statement": "The vertical stage forms each class once, after every class it reads from.", "quantifier": "any set of targets", "why_tests_cant": "all inputs", "anchors": ["generator/ostei/OSTEI_VRR_Algorithm_Base.cpp:AMOrder_AddWithDependencies_"]}
{"id": "C17", "title": "Vertical stage computes the requested auxiliary integrals", "statement": "Running the emitted vertical stage on memory whose (ss|ss) array holds the scaled Boys values leaves the exact integrals in every requested element, with all accesses in bounds and no dependence on the previous contents of the work arrays.", "quantifier": "all requested class sets, exponents, geometries, memory contents", "why_tests_cant": "end-to-end over all inputs", "anchors": ["generator/ostei/OSTEI_VRR_Writer.cpp:WriteVRR", "generator/ostei/OSTEI_VRR_Algorithm_Base.cpp:Create"]}
{"id": "C18", "title": "All integer constants used by the vertical stage are declared", "statement": "Each integer factor that appears in an emitted vertical step is among the constants the writer declares beforehand.", "quantifier": "all target sets", "why_tests_cant": "a missing constant breaks compilation only for particular quartets", "anchors": ["generator/ostei/OSTEI_VRR_Algorithm_Base.cpp:Create_WithOrder", "generator/ostei/OSTEI_VRR_Writer.cpp:GetConstants"]}
{"id": "C19", "title": "Generic run-time VRR routines", "statement": "The generic vertical routines (one per center, plus the specialised ones for zero partner angular momentum) compute exact auxiliary integrals for every element and order when their inputs are exact, access only in-range elements, and the specialised routines agree with the general ones.", "quantifier": "all angular momenta, all orders, all inputs", "why_tests_cant": "parametric in four AMs and the auxiliary range; only large AM builds reach them", "anchors": ["skel/simint/ostei/ostei_general_vrr.c"]}
{"id": "C20", "title": "Recurrence hypotheses are met by real integrals", "statement": "The family of Gaussian auxiliary integrals satisfies the horizontal and vertical recurrences assumed by the other claims (they are not vacuous).", "quantifier": "all exponents and geometries", "why_tests_cant": "integrals over the reals", "anchors": ["generator/ostei/OSTEI_VRR_Writer.cpp:WriteVRRSteps_", "generator/ostei/OSTEI_Writer.cpp:Write_Full_"]}
{"id": "C21", "title": "Work buffer is partitioned without overlap", "statement": "The arrays an integral function carves out of the caller's work buffer are pairwise disjoint, suitably aligned for vector access, and end at or before the size the library reports for the AM.", "quantifier": "all integral classes up to the maximum AM, all vector lengths", "why_tests_cant": "overlap or overflow depends on the class set and vector length", "anchors": ["generator/ostei/OSTEI_Writer.cpp:PartitionWorkspace", "create.py", "skel/simint/ostei/ostei.h:simint_ostei_worksize"]}
{"id": "C22", "title": "Reported work size is sufficient and monotone", "statement": "The reported work size for a maximum AM is at least the need of every integral class with all AMs up to it and does not decrease with AM.", "quantifier": "all generated class sets and AM limits", "why_tests_cant": "requires the maximum over all classes", "anchors": ["create.py", "skel/simint/ostei/ostei.h"]}
{"id": "C23", "title": "Vector length rounding", "statement": "Rounding a count up to a vector boundary gives the least multiple of the vector length not below the count, for every power-of-two vector length.", "quantifier": "all counts and all power-of-two lengths", "why_tests_cant": "infinitely many counts", "anchors": ["skel/simint/vectorization/vectorization.h:SIMINT_SIMD_ROUND"]}
{"id": "C24", "title": "Each vector lane is credited to the right shell", "statement": "While sweeping the primitives of a ket batch in vectors, the shell to which each lane's contribution is added is exactly the shell that owns that primitive, for every distribution of primitive counts and every vector length; the running output pointer and shell counter stay consistent from vector to vector.", "quantifier": "all batches of shells with at least one primitive each, all vector lengths", "why_tests_cant": "combinatorially many boundary alignments", "anchors": ["generator/ostei/OSTEI_Writer.cpp:WriteShellOffsets", "generator/ostei/OSTEI_Writer.cpp:WriteAccumulation"]}
{"id": "C25", "title": "Contracted result equals the sum over primitives", "statement": "For every shell quartet and component the contracted value produced equals the sum of the primitive contributions of exactly that quartet, independent of the vector length and the batching of shells.", "quantifier": "all shell-pair lists, primitive counts, vector lengths and primitive values", "why_tests_cant": "combinatorial in batch and lane layout; values real", "anchors": ["generator/ostei/OSTEI_Writer.cpp:Write_Full_", "skel/simint/vectorization/intrinsics_avx.h:contract"]}
{"id": "C26", "title": "Padding and masked lanes contribute nothing", "statement": "Lanes beyond the last primitive of a batch never change any output, whatever data is stored in them.", "quantifier": "all data in padding lanes", "why_tests_cant": "arbitrary memory contents", "anchors": ["generator/ostei/OSTEI_Writer.cpp:Write_Full_", "skel/simint/shell/shell.c:simint_fill_multi_shellpair2"]}
{"id": "C27", "title": "Clipping computes a prefix", "statement": "With a clipped ket list exactly the quartets of the first shells are computed, written at the same relative positions as an independent list of those shells, and the returned count is the number of quartets written.", "quantifier": "all clip values", "why_tests_cant": "all batch-boundary/clip combinations", "anchors": ["generator/ostei/OSTEI_Writer.cpp:Write_Full_", "skel/simint/shell/shell.h:nshell12_clip"]}
{"id": "C28", "title": "Screening only drops negligible primitives", "statement": "With primitive screening at tolerance t the result differs from the unscreened one by a sum of contributions whose bound is below t each, and no contribution with bound at or above t is dropped; bookkeeping stays aligned after skipped vectors.", "quantifier": "all screening values, tolerances and layouts", "why_tests_cant": "any pattern of skipped vectors", "anchors": ["generator/ostei/OSTEI_Writer.cpp:Write_Full_", "skel/simint/ostei/ostei.c:simint_compute_ostei"]}
{"id": "C29", "title": "Computing integrals does not change its inputs", "statement": "Computing integrals leaves the shell-pair data unchanged, so results do not depend on previous calls.", "quantifier": "all call histories", "why_tests_cant": "needs all interleavings/histories of calls", "anchors": ["skel/ostei_s_s_s_s.c", "generator/ostei/OSTEI_Writer.cpp:Write_Full_"]}
{"id": "C30", "title": "Vector contraction primitives", "statement": "Each contraction helper adds to each destination element exactly the lanes assigned to it (single destination, per-lane offsets, with or without a factor), for any vector length and component count.", "quantifier": "all vector lengths, component counts, offsets, values", "why_tests_cant": "all offset patterns", "anchors": ["skel/simint/vectorization/intrinsics_avx.h", "skel/simint/vectorization/intrinsics_avx512.h", "skel/simint/vectorization/intrinsics_scalar.h"]}
{"id": "C31", "title": "Every class has exactly one implementation", "statement": "For every maximum AM, each of the (maxam+1)^4 integral classes is defined by exactly one generated function, none twice.", "quantifier": "all maximum AMs and all classes", "why_tests_cant": "number of classes grows without bound; duplicate definitions appear only at link time for a given build", "anchors": ["create.py:UniqueQuartet", "generator/ostei/OSTEI_Writer.cpp:Write_Permutations_", "generator/ostei/OSTEI_Writer.cpp:Write_Permute_"]}
{"id": "C32", "title": "Permuted functions return the permuted integrals", "statement": "A function defined by swapping centers returns, in its own component order, the integrals of the requested class for the original shell pairs, including the sign change of AB and exchange of PA/PB; the in-place reorder is an exact permutation.", "quantifier": "all classes, shell pairs, counts and values", "why_tests_cant": "all index combinations", "anchors": ["generator/ostei/OSTEI_Writer.cpp:Write_Permute_"]}
{"id": "C33", "title": "Reorder may be skipped only when it is the identity", "statement": "Whenever the reorder step is omitted for a permuted class, the two component layouts coincide.", "quantifier": "all classes", "why_tests_cant": "all classes", "anchors": ["generator/ostei/OSTEI_Writer.cpp:IsSpecialPermutation_"]}
{"id": "C34", "title": "Gradient formation", "statement": "The first-derivative blocks produced equal the derivatives of the primitive product with respect to each center (raise with twice the exponent minus lower with the power), and the fourth center follows from translational invariance.", "quantifier": "all classes, centers, directions, components", "why_tests_cant": "identity over the reals for all exponents", "anchors": ["generator/ostei/OSTEIDeriv1_Writer.cpp:WriteFormDeriv"]}
{"id": "C35", "title": "Gradient permutations", "statement": "For permuted gradient functions the twelve derivative blocks are returned in the order of the caller's centers and directions, with components reordered.", "quantifier": "all classes and swaps", "why_tests_cant": "all index combinations", "anchors": ["generator/ostei/OSTEIDeriv1_Writer.cpp:Write_Permute_"]}
{"id": "C36", "title": "Gradient class set is sufficient", "statement": "All raised and lowered classes needed for the gradient of a class are among the classes computed by the horizontal stage.", "quantifier": "all classes", "why_tests_cant": "all classes", "anchors": ["generator/ostei/ostei_deriv1_generator.cpp", "generator/ostei/OSTEIDeriv1_Writer.cpp:WriteFormDeriv"]}
{"id": "C37", "title": "Shell-pair fill stays inside its allocation", "statement": "Filling a multi shell pair writes exactly the number of primitive slots that was allocated for it, for every list of shells, whether or not pairs repeat a shell.", "quantifier": "all shell lists and vector lengths", "why_tests_cant": "all combinations of counts", "anchors": ["skel/simint/shell/shell.c:simint_allocate_multi_shellpair2", "skel/simint/shell/shell.c:simint_fill_multi_shellpair2"]}
{"id": "C38", "title": "Shell-pair arrays do not overlap", "statement": "The arrays inside a multi shell pair are pairwise disjoint and within the allocated buffer, also when a larger old buffer is reused.", "quantifier": "all sizes and reuse histories", "why_tests_cant": "all allocation histories", "anchors": ["skel/simint/shell/shell.c:simint_allocate_multi_shellpair_base"]}
{"id": "C39", "title": "Shell-pair primitive layout", "statement": "After filling, the primitives of the s-th pair occupy the consecutive slots that the integral driver attributes to that pair, with the data of each (i,j) primitive combination appearing exactly once and padding slots having zero prefactor.", "quantifier": "all shell lists, vector lengths", "why_tests_cant": "all layouts", "anchors": ["skel/simint/shell/shell.c:simint_fill_multi_shellpair2", "generator/ostei/OSTEI_Writer.cpp:Write_Full_"]}
{"id": "C40", "title": "Identical-shell folding is exact", "statement": "For a pair formed from one shell twice, storing only i>=j with a doubled off-diagonal prefactor gives the same contracted sum as all primitive pairs.", "quantifier": "all shells and any symmetric primitive function", "why_tests_cant": "all reals", "anchors": ["skel/simint/shell/shell.c:simint_fill_multi_shellpair2"]}
{"id": "C41", "title": "Primitive sort is a per-shell permutation", "statement": "Sorting the primitives of a multi shell pair by screening value terminates, stays within each pair's slots, permutes all per-primitive arrays consistently, and leaves each pair's values in descending order.", "quantifier": "all shell pair data", "why_tests_cant": "quicksort correctness over all inputs", "anchors": ["skel/simint/shell/shell.c:simint_sort_multi_shellpair", "skel/simint/shell/shell.c:quicksort"]}
{"id": "C42", "title": "Concatenating multi shell pairs preserves their contents", "statement": "Concatenating shell-pair lists yields a list whose s-th pair has the data of the corresponding input pair, and whose counts are the totals.", "quantifier": "all inputs", "why_tests_cant": "all input shapes", "anchors": ["skel/simint/shell/shell.c:simint_cat_multi_shellpair", "skel/simint/shell/shell.c:simint_cat_shellpairs"]}
{"id": "C43", "title": "Copying a shell reads and writes only owned memory", "statement": "Copying a shell touches only memory belonging to source and destination for every prior state of the destination.", "quantifier": "all histories of the destination", "why_tests_cant": "depends on allocation history", "anchors": ["skel/simint/shell/shell.c:simint_copy_shell"]}
{"id": "C44", "title": "Screening values are written inside their array", "statement": "Computing primitive screening values writes only inside the screening array of the shell pair.", "quantifier": "all shell lists, vector lengths", "why_tests_cant": "depends on count alignment", "anchors": ["skel/simint/shell/shell_screen.c:simint_primscreen_schwarz"]}
{"id": "C45", "title": "Recorded maximum screening value is an upper bound", "statement": "The recorded screening maximum of a shell pair is at least each primitive's screening value, so that quartet-level skipping never drops a significant quartet.", "quantifier": "all shell pairs", "why_tests_cant": "all values", "anchors": ["skel/simint/shell/shell.c:simint_fill_multi_shellpair2", "skel/simint/ostei/ostei.c"]}
{"id": "C46", "title": "Overlap recursion gives overlap integrals", "statement": "The one-dimensional overlap recursion yields the integral over the real line of the product of the two primitive Gaussians' polynomial factors and exponentials, for all orders.", "quantifier": "all exponents > 0, all centers, all orders", "why_tests_cant": "integrals over the reals, all parameters", "anchors": ["skel/simint/osoei/osoei_terms.c:simint_osoei_overlap_terms"]}
{"id": "C47", "title": "Kinetic recursion gives kinetic integrals", "statement": "The one-dimensional kinetic recursion yields -1/2 times the integral with the second derivative, for all orders.", "quantifier": "all exponents > 0, centers, orders", "why_tests_cant": "integrals over the reals", "anchors": ["skel/simint/osoei/osoei_terms.c:simint_osoei_ke_terms"]}
{"id": "C48", "title": "One-electron assembly is exact", "statement": "The overlap and kinetic routines fill every element of the output block with the product combination of the one-dimensional terms for that component pair, summed over all primitive pairs.", "quantifier": "all AMs and shells", "why_tests_cant": "all components", "anchors": ["skel/simint/osoei/osoei_overlap.c", "skel/simint/osoei/osoei_ke.c"]}
{"id": "C49", "title": "Nuclear attraction recursion is in bounds and exact", "statement": "The nuclear-attraction routine accesses only its work arrays' elements and its result depends only on initialised values and equals the Obara-Saika one-center recursion.", "quantifier": "all AMs, centers, exponents", "why_tests_cant": "parametric in AM; reads of uninitialised memory may be silent", "anchors": ["skel/simint/osoei/osoei_potential.c"]}
{"id": "C50", "title": "Boys table lookups are in bounds", "statement": "Each access to the tabulated Boys function is inside the table for every argument and every order the library can request.", "quantifier": "all arguments x >= 0 and all orders up to the largest requested", "why_tests_cant": "real argument; orders depend on the build", "anchors": ["skel/simint/boys/boys_taylor.h", "skel/simint/boys/boys_shortgrid.h"]}
{"id": "C51", "title": "Boys downward recursion and long-range forms", "statement": "The downward recursion reproduces the exact Boys function at lower orders from an exact top value, and the different long-range formulas used agree with each other.", "quantifier": "all x > 0 and all orders", "why_tests_cant": "real functions", "anchors": ["skel/simint/boys/boys.h", "skel/simint/boys/boys_long.h"]}
{"id": "C52", "title": "Work list covers all classes", "statement": "The build script enqueues exactly one generator run for each symmetry-unique class up to the maximum AM.", "quantifier": "all maximum AMs", "why_tests_cant": "all AM limits", "anchors": ["create.py:UniqueQuartet"]}
{"id": "C53", "title": "Derivative file lists stay separate", "statement": "The per-derivative-order lists of files produced by the build script are independent.", "quantifier": "all derivative orders and runs", "why_tests_cant": "aliasing visible only for derivative builds", "anchors": ["create.py:filelists"]}
{"id": "C54", "title": "External helper routines are all generated", "statement": "Every external vertical or horizontal helper routine called by a generated function (also indirectly through permuted helpers) is generated.", "quantifier": "all AM limits and thresholds", "why_tests_cant": "missing ones show up at link time of some configurations only", "anchors": ["create.py", "generator/ostei/OSTEI_VRR_Writer.cpp:WriteVRRFile", "generator/ostei/OSTEI_HRR_Writer.cpp:WriteHRRFile"]}
{"id": "C55", "title": "Generated helper routines terminate", "statement": "No generated vertical helper routine calls itself with unchanged arguments.", "quantifier": "all AM quadruples the helper generator accepts", "why_tests_cant": "all accepted inputs", "anchors": ["generator/ostei/OSTEI_VRR_Writer.cpp:WriteVRRFile"]}
{"id": "C56", "title": "Option parsing", "statement": "Each recognised command-line option consumes its argument, unknown ones are returned in order, and a missing argument is an error.", "quantifier": "all argument vectors", "why_tests_cant": "all argument vectors", "anchors": ["generator/CommandLine.cpp"]}
{"id": "C57", "title": "Delayed horizontal sums lose nothing", "statement": "In the AVX512 build of the hand-written (ss|ss) function, collecting vectors in a buffer of eight entries, merging requests for the same element and emptying the buffer when full and at the end gives the same output as adding every vector at once; the buffer never overflows.", "quantifier": "all sequences of accumulation requests", "why_tests_cant": "all interleavings of merged, delayed and direct requests", "anchors": ["skel/ostei_s_s_s_s.c:ostei_s_s_s_s"]}
{"id": "C58", "title": "Bra primitives are read where the fill routines put them", "statement": "For every bra list the position at which the driver reads the first primitive of a shell is the position at which the fill routine stored it.", "quantifier": "all lists, primitive counts and vector lengths", "why_tests_cant": "appears only for lists longer than one batch with unaligned primitive counts", "anchors": ["generator/ostei/OSTEI_Writer.cpp:Write_Full_", "skel/simint/shell/shell.c:simint_fill_multi_shellpair2", "skel/ostei_s_s_s_s.c"]}
{"id": "C59", "title": "A generated function returns contracted electron repulsion integrals", "statement": "For every integral class, every combination of the inline/external/generic thresholds and every pair of shell-pair lists, the complete generated function (searches, start values, both recurrences, loops, screening, contraction, output layout) runs without an access outside its arrays, returns the number of quartets and writes for each quartet and component the contracted integral over the primitives that pass the screening.", "quantifier": "all classes in table range, thresholds, set orders, lists, vector lengths, previous memory contents", "why_tests_cant": "classes times thresholds times list shapes; errors that cancel in one stage appear only in combination", "anchors": ["generator/ostei/ostei_generator.cpp:main", "generator/ostei/OSTEI_Writer.cpp:Write_Full_"]}
{"id": "C60", "title": "No undeclared variable is used", "statement": "Write_Full_ declares the distance vectors and scaled exponents of the primitive loop only if the vertical algorithm has steps of certain types; no recurrence statement or call written for the class uses a variable that was not declared.", "quantifier": "all classes, thresholds and set orders", "why_tests_cant": "depends on the directions the search picked for the class", "anchors": ["generator/ostei/OSTEI_Writer.cpp:Write_Full_", "generator/ostei/OSTEI_VRR_Writer.cpp"]}
{"id": "C61", "title": "A generated derivative function returns derivatives", "statement": "The complete generated first-derivative function, run on lists of shell pairs, returns the number of quartets and writes, for each quartet, component, center and direction, the derivative of the contracted electron repulsion integral with respect to that coordinate of that center, and nothing else.", "quantifier": "all classes covered by the run-time tables, all thresholds and set orders, all calls, exponents and positions", "why_tests_cant": "identity over the reals for all inputs; every class", "anchors": ["generator/ostei/ostei_deriv1_generator.cpp", "generator/ostei/OSTEIDeriv1_Writer.cpp:WriteFormDeriv", "generator/ostei/OSTEI_Writer.cpp:Write_Full_"]}
{"id": "C62", "title": "From shells to integrals", "statement": "Filling two lists of shell pairs from arbitrary pairs of shells (also pairs of a shell with itself) and calling the generated function of a class gives, for every quartet and component, the sum over all primitives of the four shells of the electron repulsion integrals; the derivative functions give the derivatives of that sum.", "quantifier": "all shells, pairings, vector lengths, prior memory contents, classes covered by the run-time tables, thresholds and set orders", "why_tests_cant": "composition of the layout of lists, folding of identical shells and the generated code, for all inputs", "anchors": ["skel/simint/shell/shell.c:simint_fill_multi_shellpair2", "generator/ostei/OSTEI_Writer.cpp:Write_Full_"]}
{"id": "C65", "title": "Boys tables and stored values are accurate", "statement": "Every entry of the tables boys_shortgrid and boys_longfac is the exact value rounded to 18 digits, and the values stored by boys_F_split (in exact arithmetic with these tables) have a relative error of at most 1e-10 for every order and argument.", "quantifier": "all 366 x 32 grid entries, all 32 factors, all real x >= 0, all requested orders up to 24 and all orders below", "why_tests_cant": "real argument; the exact values are integrals; the error of the long range depends on the requested order", "anchors": ["skel/simint/boys/boys.h", "skel/simint/boys/boys_shortgrid.c", "skel/simint/boys/boys_longfac.h", "skel/simint/boys/boys_taylor.h"]}
{"id": "C63", "title": "simint_normalize_shells normalises", "statement": "For every array of shells with positive distinct exponents and a coefficient that is not zero, simint_normalize_shells multiplies the coefficients by the norms of the primitives and one positive factor per shell such that the overlap of component (l,0,0) with itself is 1 (relative error at most 1e-17 from the constants), and the overlap of component (i,j,k) with itself is (2i-1)!!(2j-1)!!(2k-1)!!/(2l-1)!!. The table norm_fac is pi^(3/2)(2l-1)!!/2^l to 17 digits; angular momentum above 20 reads outside of it.", "quantifier": "all numbers of primitives, real exponents and coefficients, positions, l <= 20, all Cartesian components", "why_tests_cant": "real parameters and any number of primitives; overlap is an integral over space", "anchors": ["skel/simint/shell/shell.c", "skel/simint/shell/shell_constants.c"]}
{"id": "C64", "title": "The public functions reach the right function and return its integrals", "statement": "After simint_init, a call of simint_compute_ostei (or simint_compute_ostei_deriv of order 1) for any four angular momenta up to the limit of the build goes through a non-null pointer to a function of exactly that class, generated or obtained by exchanging centers; it returns -1 and changes nothing if the bound of the lists is below the tolerance, otherwise it returns the number of quartets and stores the integrals (screened with the square of the tolerance, all of them for tolerance zero) in the documented order, and nothing else is written.", "quantifier": "all limits of generation and build, all thresholds and iteration orders, all classes, all shell-pair lists, all tolerances, all contents of memory", "why_tests_cant": "the tables have 8192 entries that differ in one letter, most classes are never called, and the contents of lists and memory are unbounded", "anchors": ["skel/simint/ostei/ostei.c", "skel/simint/ostei/ostei_init.c", "skel/simint/ostei/ostei_deriv1_init.c", "skel/simint/simint_init.c", "python/gen_fill.py", "create.py"]}
{"id": "C66", "title": "The file lists name everything that must be compiled", "statement": "For every limit l, the source files named in filelist_d<d>_<l>, which is all that cmake compiles, define every VRR and HRR helper routine that one of these files calls.", "quantifier": "all maxam, derivative orders, thresholds, limits l, iteration orders of the sets", "why_tests_cant": "a missing file shows only as a link error for some combinations of thresholds and limits", "anchors": ["create.py", "skel/simint/CMakeLists.txt", "generator/ostei/OSTEI_VRR_Writer.cpp"]}
{"id": "C67", "title": "Both stages form exactly the classes of the two-step scheme", "statement": "For the class (ab|cd) the horizontal stage asks for exactly the classes (e0|f0) with a<=e<=a+b and c<=f<=c+d (centers exchanged if a<b or c<d), forms exactly the classes between these and the result, and the vertical stage forms exactly the classes below them that the recursion needs, each once. For derivatives the sets are unions over the needed classes.", "quantifier": "all angular momenta, all iteration orders of the sets", "why_tests_cant": "superfluous or missing classes do not change results as long as they are consistent; all classes are meant", "anchors": ["generator/ostei/OSTEI_HRR_Algorithm_Base.cpp", "generator/ostei/OSTEI_VRR_Algorithm_Base.cpp"]}
{"id": "C68", "title": "Schwarz screening of primitives loses at most the tolerance per quartet", "statement": "The value simint_primscreen_schwarz computes for a pair of primitives is the largest of their integrals (xy|xy). If two lists are filled with these values and simint_compute_ostei is called with a tolerance t > 0, every stored integral differs from the exact contracted integral by at most t times the number of quartets of primitives; if it returns -1, every integral is at most that large. Off-diagonal pairs of a shell with itself are stored once with a factor of two, while their value has no such factor.", "quantifier": "all shells, exponents, coefficients, centers, numbers of primitives, lists, tolerances, vector lengths, contents of uninitialised memory", "why_tests_cant": "a wrong bound loses contributions only for particular combinations of exponents and tolerances, and the loss is close to the tolerance", "anchors": ["skel/simint/shell/shell_screen.c", "skel/simint/shell/shell.c", "skel/simint/ostei/ostei.c", "generator/ostei/OSTEI_Writer.cpp"]}
{"id": "C69", "title": "Values for pairs of shells bound the integrals", "statement": "For every four shells the product of the values of simint_shellscreen_schwarz for the two pairs is at least the square of every integral over the four shells; the same for simint_shellscreen_fastschwarz.", "quantifier": "all shells, exponents, coefficients, centers, numbers of primitives", "why_tests_cant": "a bound over all shells; random shells rarely come close to it", "anchors": ["skel/simint/shell/shell_screen.c", "skel/simint/shell/shell_screen.h"]}
{"id": "C70", "title": "The fast screening value bounds the integrals of all angular momenta", "statement": "simint_primscreen_fastschwarz computes (ss|ss) from the exponents, centers and coefficients; as its documentation says, this is at least as large as the integrals of the same primitives with higher angular momentum, so that screening with it loses at most the tolerance per quartet of primitives.", "quantifier": "all shells, exponents, coefficients, centers, lists, tolerances", "why_tests_cant": "it fails only for diffuse functions; usual test molecules have larger exponents", "anchors": ["skel/simint/shell/shell_screen.c", "skel/simint/shell/shell_screen.h", "skel/simint/constants.h"]}
{"id": "C71", "title": "Names in the generated code are unambiguous", "statement": "Two arrays of a generated function get the same name only if they are of the same kind (contracted, horizontal, primitive, pointer) and hold the same class with the same tag; the horizontal steps name the same array as the declarations; no two functions written by the generator share a name; calls use the name of the definition; the routine of a bra pair runs its loop exactly once with the number of ket components given.", "quantifier": "all classes with angular momenta that have a letter, all tags, all kinds, all functions", "why_tests_cant": "a clash shows only for particular combinations of tags and angular momenta, and shadowing compiles silently", "anchors": ["generator/Naming.hpp", "generator/StringBuilder.hpp", "generator/Types.hpp", "generator/ostei/OSTEI_HRR_Writer.cpp", "generator/ostei/OSTEI_VRR_Writer.cpp", "generator/ostei/OSTEI_Writer.cpp", "generator/ostei/OSTEIDeriv1_Writer.cpp"]}
{"id": "C72", "title": "The reference program of the tests computes the electron repulsion integral", "statement": "ValeevRef_eri, given exact values of the Boys function, returns the six-dimensional integral of the four primitive Gaussians over 1/r12, and with norm_flag this integral times the constants that give each primitive norm one; it reads its tables and arrays only inside their bounds.", "quantifier": "all positive exponents, all centers, all powers with total below 200", "why_tests_cant": "it is the oracle of the tests; an error in it would be compared with itself or blamed on the generated code", "anchors": ["skel/test/ValeevRef.cpp", "skel/test/ValeevRef.hpp"]}
{"id": "C73", "title": "Accuracy of the Boys function in the reference program", "statement": "Valeev_F stops, stays inside the table df and returns all orders 0..n with relative error at most (2n+1)*1e-17 (exact above 20); the error of ValeevRef_eri is at most that factor times the sum of the absolute values of its terms.", "quantifier": "all orders up to 98, all arguments, all exponents, centers and powers", "why_tests_cant": "the stopping rule is a condition on a term, not on the remainder; the remainder is not observable", "anchors": ["skel/test/ValeevRef.cpp", "skel/test/ValeevRef.hpp"]}
{"id": "C74", "title": "The arrays of reference values hold the integrals and derivatives in the order of the library", "statement": "ValeevRef_Integrals with derivative order 0 stores for every combination of shells and components the contracted integral, with order 1 the twelve first derivatives of it with respect to the coordinates of the four centers, at the positions where the generated functions store them, and writes nothing else; order -1 stores central differences with step 1e-8, each of which is the derivative at a point less than 1e-8 away.", "quantifier": "all numbers of shells and primitives, all angular momenta with total (plus one) below 200, all exponents, coefficients and positions, all sizes and previous contents of the array", "why_tests_cant": "these arrays are the expected values of the tests; they are only ever called with one shell in the first two arrays and without normalisation", "anchors": ["skel/test/ValeevRef.cpp", "skel/test/Common.cpp", "skel/test/Common.hpp"]}
{"id": "C75", "title": "The test programs report every wrong integral, independently of the threads", "statement": "test_eri and test_eri_deriv1 print one line for each quartet of angular momenta with the largest absolute and the largest relative error over all shells and elements, in every order in which the threads report; a line carries no mark only if every element agrees with the reference to 1e-14 absolutely or 1e-8 relatively; the buffers are large enough for every call; UniqueQuartet accepts exactly one of the eight equivalent orders of a quartet.", "quantifier": "all basis sets, all values including NaN, all orders of the threads, all quartets", "why_tests_cant": "this is the code that decides whether a test passed; nothing tests it", "anchors": ["skel/test/Common.cpp", "skel/test/Common.hpp", "skel/test/test_eri.cpp", "skel/test/test_eri_deriv1.cpp"]}
{"id": "C76", "title": "The Fortran module describes the C library", "statement": "The two derived types of simint.f90 have the members of the C structures at the same offsets and the same size; every binding of the interface block has the parameters and the result of the C function of that name; every module procedure calls the C function of its own name with its own arguments in order; sizes are handed back unchanged.", "quantifier": "all platforms (sizes and alignments of the C types), all supported compilers, all maximum derivative orders, all argument values", "why_tests_cant": "the Fortran interface is switched off by default and its only example uses one call; a wrong offset depends on compiler and configuration", "anchors": ["skel/simint/simint.f90", "skel/simint/shell/shell.h", "skel/simint/simint_eri.h", "skel/simint/simint_oneelectron.h", "skel/cmake/DefaultFlags.cmake", "skel/simint/CMakeLists.txt"]}
{"id": "C77", "title": "The screening report counts every pair and quartet once", "statement": "screentest throws none of its logic errors; the numbers that it prints are the numbers of shell pairs, primitive pairs, and unordered pairs of them, and the significant ones are those whose product of screening values reaches the squared tolerance; a pair is reported as never significant exactly if it is significant with no partner.", "quantifier": "all basis sets (numbers of shells and primitives, exponents, coefficients, positions), all vector lengths, all previous contents of the buffers", "why_tests_cant": "the program prints numbers that nothing compares; its checks depend on the vector length of the build and on the basis set", "anchors": ["skel/test/screentest.cpp", "skel/simint/shell/shell.c:425-582", "skel/simint/shell/shell_screen.c:86-118,227-270"]}
{"id": "C78", "title": "The packed example stores every integral of the basis set", "statement": "The loops of the packed example overrun no buffer; afterwards every integral over four functions of the basis set is found at the packed number of its four functions, also for the quartets that were skipped; every place below the number of packed integrals holds one of them; exactly one quartet of shells of each set of equivalent ones is computed.", "quantifier": "all basis sets that the arrays of the program describe (numbers of shells, angular momenta up to 7, primitives, exponents, coefficients, positions), all vector lengths, all orders of the recurrences, all previous contents of memory", "why_tests_cant": "the example compares nothing; that skipped quartets need not be computed rests on the symmetry of the integrals and the order of the components inside the shells", "anchors": ["skel/examples/example_packed.c:86-197", "skel/simint/shell/shell.c", "skel/simint/ostei/ostei.c"]}
{"id": "C79", "title": "The molecule files of the tests are written and read without loss", "statement": "What gen_mol.py writes from a geometry and a basis set file is read by ReadBasis as exactly that molecule: atoms in order, and for every angular momentum the shells in the order of the file with the exponents, the coefficients of their general contraction and the angular momentum of their type letter (letters used in turn). However the words of such a file are separated by white space the result is the same. A file that is cut off or has a type that is not an angular momentum is rejected.", "quantifier": "all geometries and basis sets (any numbers of atoms, shells, primitives, general contractions within int), all layouts of white space, comments and line ends, all decimal numbers", "why_tests_cant": "the files are the input of the tests: a shell that is read wrongly is compared with a reference computed from the same wrong shell", "anchors": ["skel/test/Common.cpp:83-174", "skel/test/dat/gen/gen_mol.py"]}
{"id": "C80", "title": "Vector loads are aligned and inside their arrays", "statement": "Every vector load that a generated integral function makes from a list of shell pairs (screening values, exponents, positions, PA or PB, derivative exponents, masked prefactors) is at an address that is a multiple of the size of a vector and reads only elements of that array; every vector of the work buffer is aligned, also in the pieces given to the threads of the tests; the result pointers that the functions declare as aligned are aligned; vectors loaded from local arrays are aligned.", "quantifier": "all vector lengths, all lists of shell pairs made by the library (any numbers of pairs and primitives, any clipping, with or without screening arrays and derivative arrays), all screening outcomes, all classes, all aligned blocks", "why_tests_cant": "a load from a misaligned address faults or not depending on instruction selection and on where the allocator and the stack happen to place an array; the tests see one placement", "anchors": ["skel/simint/vectorization/vectorization.h:24-81", "skel/simint/shell/shell.c:131-185", "generator/ostei/OSTEI_Writer.cpp:470-741", "generator/ostei/OSTEIDeriv1_Writer.cpp:770-930", "skel/simint/vectorization/intrinsics_avx512.h:98-137", "skel/test/test_eri.cpp:61-134"]}
{"id": "C81", "title": "The int arithmetic of a call does not overflow", "statement": "No sum, difference or product of ints that a generated integral function computes (loop counters, ends of batches, shell offsets, offsets into the work buffer and into the result, the size in the memset of the result) and none that the allocation of a list of shell pairs computes exceeds the range of a 32-bit int.", "quantifier": "all lists of shell pairs that can be allocated, all vector lengths that divide 2^31, all classes, with and without horizontal stage, energies and derivatives", "why_tests_cant": "the overflow needs lists with billions of integrals; the tests use a few pairs per call, and a wrapped size in memset leaves part of the result uncleared without a crash", "anchors": ["generator/ostei/OSTEI_Writer.cpp:26-64", "generator/ostei/OSTEI_Writer.cpp:417-421", "generator/ostei/OSTEI_Writer.cpp:470-744", "generator/ostei/OSTEI_HRR_Writer.cpp:132-146", "skel/simint/shell/shell.c:352-382"]}
{"id": "C82", "title": "Buffers, threads and calls of the test programs", "statement": "The pieces of the result, reference and work buffers that the test programs and the benchmark give to their threads are large enough and do not overlap, two iterations of a parallel loop on different threads never access the same object unsynchronised with at least one of them writing, and the library is only called with angular momenta that have a value and are inside its function table.", "quantifier": "all basis set files (any numbers of shells of any angular momenta, any of them missing), all maximum angular momenta of the library, all numbers of threads, all assignments of iterations to threads", "why_tests_cant": "a race or the use of an uninitialised field shows up only for files that lack an angular momentum, with several threads, and only sometimes; these programs are the tests", "anchors": ["skel/test/Common.cpp:178-199", "skel/test/test_eri.cpp:56-219", "skel/test/test_eri_deriv1.cpp:56-219", "skel/test/test_ke.cpp:50-108", "skel/test/test_overlap.cpp:50-108", "skel/test/test_potential.cpp:52-124", "skel/test/benchmark_eri.cpp:50-222", "skel/simint/shell/shell.c:425-463", "skel/simint/ostei/ostei.c:4-24"]}
{"id": "C83", "title": "Rounding errors of the Boys function", "statement": "In the arithmetic of doubles (rounding after every operation, products in sums fused or not, library functions with an error of up to 4 units in the last place) boys_F_split looks up a row inside the table, and rounding changes no stored value by more than a relative 2.5e-14; below 36.5 this is the distance from the exact Boys function.", "quantifier": "all arguments from 0 to 1e8 in any combination of lanes, all requested orders up to 24 and all orders below, all arithmetics with the error bounds of IEEE doubles", "why_tests_cant": "uncountably many arguments; the error depends on the compiler, the instruction set and the neighbouring lanes", "anchors": ["skel/simint/boys/boys.h:14-92", "skel/simint/boys/boys_long.h:13-58", "skel/simint/boys/boys_taylor.h:13-136", "skel/simint/boys/boys_shortgrid.h:3-8"]}
{"id": "C84", "title": "Rounding errors of the horizontal stage", "statement": "In the arithmetic of doubles, with or without contraction of each statement, the horizontal stage computes (ab|cd) with an error of at most (k0 + 3n) 2^-52 times the sum of the absolute values of the terms of the binomial expansion of (ab|cd) in the integrals handed over (apart from underflow), n being the angular momentum on the stepped centers and k0 the number of roundings behind the values handed over; nothing overflows unless this bound does.", "quantifier": "all requested classes, all Cartesian orders, all ways to enumerate sets, all centers, all input values, all arithmetics with the error bounds of IEEE doubles, all choices of contraction per statement", "why_tests_cant": "tests compare a few molecules with reference values; the error depends on the compiler and on cancellation in the particular geometry", "anchors": ["generator/ostei/OSTEI_HRR_Writer.cpp:29-97", "generator/ostei/OSTEI_HRR_Writer.cpp:146-179", "skel/simint/shell/shell.c:466-468", "skel/simint/shell/shell.c:534-536"]}
{"id": "C85", "title": "Rounding errors of the vertical stage", "statement": "In the arithmetic of doubles, with or without fused multiply-add, the vertical stage computes an auxiliary integral of total angular momentum l with an error of at most (k0 + (2 kp + 8) l) 2^-52 times any majorant of the recurrence (the recurrence with absolute values, apart from underflow), where k0 and kp are the numbers of roundings behind the (ss|ss) integrals and behind the parameters; this holds for inline code, external functions and the generic routines, and nothing overflows unless these bounds do.", "quantifier": "all requested classes, all Cartesian orders, all ways to enumerate sets, all choices of inline, external and generic code, all parameters and input values, all arithmetics with the error bounds of IEEE doubles", "why_tests_cant": "tests compare a few molecules with reference values; the error depends on the instruction set and on cancellation in the particular geometry", "anchors": ["generator/ostei/OSTEI_VRR_Writer.cpp:44-126", "generator/ostei/OSTEI_VRR_Writer.cpp:128-290", "skel/simint/ostei/ostei_general_vrr.c", "skel/simint/vectorization/intrinsics_avx.h:58-67"]}
{"id": "C86", "title": "Rounding errors of shell pairs and of the primitive loop", "statement": "For shells of moderate size (exponents and products of coefficients between 2^-100 and 2^100, coordinates up to R <= 2^100) and doubles rounded to nearest, with or without fused multiply-add: the exponent, center, distances and prefactor stored for a pair of primitives have errors of at most 1, 5, 6 and 39 times 2^-52 (the prefactor relative to (1 + g) times itself, g the exponent of its Gaussian factor); the variables of the primitive loop have errors of at most 19 roundings; and the integrals over primitives of one lane, from the shells on, are coefficients times electron repulsion integrals with an error of at most (336 + 46 l) 2^-52 startMax prod_{j<l} (1 + w + j v) for total angular momentum l, if the argument of the Boys function is below 36.5.", "quantifier": "all shells in range, all primitives, all classes the generated code supports, all code modes, all contents of undeclared variables and scratch memory, all arithmetics with the error bounds of IEEE doubles", "why_tests_cant": "tests compare a few molecules with reference values; error bounds concern all exponents and geometries and all instruction sets", "anchors": ["skel/simint/shell/shell.c:466-526", "generator/ostei/OSTEI_Writer.cpp:596-706", "skel/simint/constants.h:9"]}
{"id": "C87", "title": "Rounding errors of the contraction", "statement": "In the arithmetic of doubles a generated function evaluates and adds the same primitive quartets as in exact arithmetic with the screening decided on rounded products; the contracted value of every component is the sum of the values of its evaluated primitive quartets, each of them once, with a rounding after each addition; it differs from the exact sum by at most (n - 1) 2^-52 times the sum of the absolute values (n primitive quartets) plus what underflows; lanes that are masked off, and primitives with a zero prefactor, add nothing, not even a rounding error.  The value depends on the order of the primitives: no order-independent result is promised, and a witness shows two orders with different results.", "quantifier": "all shell pair lists, vector lengths, numbers of primitives, screening tolerances, primitive stages that work lane by lane, arithmetics with the error bounds of IEEE doubles", "why_tests_cant": "tests compare a few molecules with reference values and a tolerance; padding, masks and batches differ with every list of shells", "anchors": ["generator/ostei/OSTEI_Writer.cpp:461-560", "generator/ostei/OSTEI_Writer.cpp:596-760", "skel/simint/vectorization/intrinsics_scalar.h", "skel/simint/vectorization/intrinsics_avx.h"]}
{"id": "C88", "title": "Rounding errors of complete generated functions", "statement": "In the arithmetic of doubles a complete generated function (shell pairs as stored by the fill routine, screening, primitive loop, Boys function, vertical stage, contraction, horizontal stage, output) runs for every class with total angular momentum up to 24, returns the number of quartets, writes every integral to its place with an error of at most (2 (kb + 110 + 46 L + 3 (N - 1)) + 3 n) 2^-52 times the sum of the a priori bounds of the evaluated primitives times (2 + 2R)^n, and leaves the rest of the output alone, provided that the Boys function of the evaluated primitives has a relative error of kb roundings and the bounds themselves do not overflow.  L: total angular momentum, N: pairs of primitives, n: angular momentum on the stepped centers, R: largest coordinate.  kb is 226 for arguments below 36.5, and 9910 up to 10^8 if L < 4.  With exponents between 2^-10 and 2^30, coordinates up to 2^10 and products of coefficients up to 2^60 nothing overflows.", "quantifier": "all classes up to L = 24, all thresholds of external and generic routines, all set iteration orders, all choices of contracted expressions, all lists and batches, all previous contents of memory, all arithmetics with the error bounds of IEEE doubles", "why_tests_cant": "the test programs compare a few molecules with reference values; errors depend on geometry, exponents, compiler and on all stages together", "anchors": ["generator/ostei/OSTEI_Writer.cpp:423-786", "generator/ostei/OSTEI_HRR_Writer.cpp:29-97", "generator/ostei/OSTEI_VRR_Writer.cpp", "skel/simint/shell/shell.c:440-560", "skel/simint/boys/boys.h"]}
{"id": "C89", "title": "From shells to integrals on doubles", "statement": "In the arithmetic of doubles, filling the two lists of shell pairs from shells of moderate size (exponents between 2^-10 and 2^30, coefficients up to 2^30, coordinates R up to 2^10; pairs of a shell with itself included, with their primitives folded) and calling the generated function of any class up to a total angular momentum of 24 without screening gives every contracted integral of the four shells with an error of at most (672 + 92 L + 6 (N - 1) + 3 n) 2^-52 times the sum of the a priori bounds of the stored primitives times (2 + 2R)^n, if the arguments of the Boys function stay below 36.5; with 9910 roundings for the Boys function if they stay below 10^8 and L < 4.  Nothing overflows.", "quantifier": "all lists of shells of moderate size (bra pairs in full batches: each complete batch that is followed by another pair ends at a multiple of the vector length of primitives; any list for vector length 1), all contents of memory, classes, thresholds, set iteration orders, contracted expressions, SIMD lengths; doubles with and without fused operations", "why_tests_cant": "the test programs sample a few molecules and compare with reference values", "anchors": ["skel/simint/shell/shell.c:281-560", "generator/ostei/OSTEI_Writer.cpp:423-786", "skel/simint/boys/boys.h"]}
{"id": "C90", "title": "Error of complete derivative functions on doubles", "statement": "In the arithmetic of doubles, the generated first-derivative function of any class up to a total angular momentum L of 23 runs, returns the number of quartets, leaves the rest of the output alone and writes at position 12 * component + 3 * center + direction a number that differs from the derivative of the exact integral over the evaluated primitives (with the mean of the two exponents for a stored pair that stands for two pairs of one shell with itself) with respect to that coordinate of that center (also for the center whose derivatives it gets from the other three) by at most (2 (kb + 114 + 46 (L + 1) + 3 (N - 1)) + 3 n + 4) 2^-52 times L + 2 (for that center 3 L + 7) times the bounds of the primitives of the raised class weighted with one plus twice the exponents, times (2 + 2R)^n, if the Boys function has an error of kb roundings and nothing overflows.  For IEEE doubles, sizes as in C88 and arguments of the Boys function below 36.5, kb is 226 and nothing overflows.", "quantifier": "all classes, calls, contents of memory, thresholds, set iteration orders, contracted expressions (also in the lines that form the derivatives), SIMD lengths, lists of shell pairs; every arithmetic with the error bounds of IEEE doubles", "why_tests_cant": "the test programs compare a few gradients with reference values up to a tolerance", "anchors": ["generator/ostei/OSTEIDeriv1_Writer.cpp:330-520", "generator/ostei/OSTEI_Writer.cpp:423-786", "skel/simint/vectorization/intrinsics_avx.h:141-156"]}
{"id": "C91", "title": "From shells to derivatives on doubles", "statement": "Fill two lists of pairs from shells of moderate size (exponents between 2^-10 and 2^30, coefficients up to 2^30, coordinates up to R <= 2^10, which are doubles; a shell may be paired with itself, for which the fill stores every unordered pair of primitives once, with the rounded sum of both exponents as factor), on IEEE doubles, with derivatives compiled in, and call the generated first-derivative function of a class up to a total angular momentum L of 23 without screening. If the arguments of the Boys function are below 36.5, every step runs, and each number written differs from the derivative of the sum over all primitives of the four shells with respect to its coordinate of its center by at most (776 + 92 L + 6 (N - 1) + 3 n) 2^-52 times L + 2 (for the center the function gets from the other three 3 L + 7) times the bounds of the primitives of the raised class weighted with one plus twice the exponents, times (2 + 2R)^n; N is the number of pairs of stored primitives, n the angular momentum on the stepped centers plus one. For L up to 2 and arguments up to 10^8 the same holds with 226 replaced by 9910 as the number of roundings of the Boys function.", "quantifier": "all shells and lists of pairs of moderate size (bra pairs in full batches: each complete batch that is followed by another pair ends at a multiple of the vector length of primitives; any list for vector length 1), classes, previous contents of memory, with or without screening values and the sort by them, thresholds, set iteration orders, contracted expressions, SIMD lengths", "why_tests_cant": "the test programs compare gradients of a few molecules with reference values up to a tolerance", "anchors": ["skel/simint/shell/shell.c:404-570", "generator/ostei/OSTEIDeriv1_Writer.cpp:330-520", "generator/ostei/OSTEI_Writer.cpp:423-786"]}
{"id": "C92", "title": "Overlap and kinetic energy integrals on doubles", "statement": "simint_compute_osoei_overlap and simint_compute_osoei_ke, run on IEEE doubles (every operation rounds; products may be fused with sums or not), for shells with angular momenta up to 18, exponents between 2^-20 and 2^40, coordinates up to R <= 2^15, products of coefficients up to 2^100 and at most 2^19 pairs of primitives, read and write inside their arrays, do not overflow, leave elements past the output alone, and write numbers that differ from the exact integrals over the contracted shells by at most (118 + 11 (l1 + l2) + n1 n2) 2^-52 (kinetic energy: 152 instead of 118) times a bound of the integrals: the sum over pairs of primitives of the products of one-dimensional integrals in which all distances are replaced by 2R + 2^-20.", "quantifier": "all shells of moderate size, previous contents of the work and output arrays, all roundings within the IEEE bounds, fused or separate multiply and add", "why_tests_cant": "the test programs for one-electron integrals print numbers and compare nothing; a test would compare some shells with reference values up to a tolerance", "anchors": ["skel/simint/osoei/osoei_terms.c:8-166", "skel/simint/osoei/osoei_overlap.c:9-67", "skel/simint/osoei/osoei_ke.c:10-69"]}
{"id": "C93", "title": "Potential integrals on doubles", "statement": "simint_compute_osoei_potential, run on IEEE doubles (every operation rounds; products may be fused with sums or not; the Boys function is the library's own boys_F_split on doubles), for shells with angular momenta up to 18, exponents between 2^-20 and 2^40, coordinates up to R <= 2^15, coefficients up to 2^50, charges up to 2^20 and at most 2^19 terms, reads and writes inside its arrays, leaves elements past the output alone, and writes numbers that differ from the exact integrals over space of the contracted shells in the field of the charges by at most (kb + 64 + 11 (l1 + l2) + number of terms) 2^-52 times a bound of the terms, where kb is the number of roundings in the values of the Boys function: 226 for arguments up to 36 and l1 + l2 <= 24; 9910 for arguments up to 10^7 and l1 + l2 <= 3.", "quantifier": "all shells and charges of moderate size, previous contents of the work and output arrays, all roundings within the IEEE bounds, fused or separate multiply and add, scalar and vector variants of the Boys function with any number of lanes", "why_tests_cant": "the test programs for one-electron integrals print numbers and compare nothing; a test would compare some shells with reference values up to a tolerance", "anchors": ["skel/simint/osoei/osoei_potential.c:11-220", "skel/simint/boys/boys.h:84-92", "skel/simint/boys/boys_shortgrid.h"]}
{"id": "C94", "title": "Statistics of primitive screening", "statement": "With SIMINT_PRIM_SCREEN_STAT defined, every vector of ket primitives is counted exactly once as computed or skipped, every pair of a bra and a ket primitive exactly once as computed (its product of screening values reaches the tolerance, or there is no screening) or skipped, and the four counters are stored inside the array of the caller.", "quantifier": "all lists of shell pairs, screening values, tolerances and vector lengths", "why_tests_cant": "the macro is commented out in every header, so nothing compiles or runs these blocks", "anchors": ["generator/ostei/OSTEI_Writer.cpp:454-456", "generator/ostei/OSTEI_Writer.cpp:509-513", "generator/ostei/OSTEI_Writer.cpp:579-593", "generator/ostei/OSTEI_Writer.cpp:739-745", "skel/simint/vectorization/intrinsics_avx.h:226-235"]}
{"id": "C95", "title": "Rounding errors of normalised shells", "statement": "simint_normalize_shells on doubles gives coefficients whose relative error is a small multiple of the unit roundoff, and the overlap of each component of a normalised shell with itself is 1 (times the ratio of its double factorials) up to such a multiple; the multiple grows with the number of primitives, the angular momentum and the amount of cancellation between primitives.", "quantifier": "all shells of moderate size (angular momentum up to 20, any number of primitives), all roundings of a sound arithmetic, with or without fused operations", "why_tests_cant": "a test sees a few basis sets and cannot bound the error for all exponents and coefficients", "anchors": ["skel/simint/shell/shell.c:248-278", "skel/simint/shell/shell_constants.c:14-37"]}
{"id": "C96", "title": "From basis sets to integrals on doubles", "statement": "In the arithmetic of doubles, normalising the shells of a basis set, filling two lists of pairs of them and calling the generated function of any class up to a total angular momentum of 24 without screening gives every integral over the exactly normalised shells, with the error of C89 (times two) plus the sum of the errors of the four sets of coefficients (C95) times the integral with absolute values of its terms.  Nothing overflows.", "quantifier": "all basis sets of moderate size, all lists of pairs of their shells (bra pairs in full batches: each complete batch that is followed by another pair ends at a multiple of the vector length of primitives; any list for vector length 1), all contents of memory, classes, SIMD lengths; doubles with and without fused operations", "why_tests_cant": "the test programs compare a few molecules with reference values; errors of the coefficients act on all integrals alike", "anchors": ["skel/simint/shell/shell.c:248-278", "skel/simint/shell/shell.c:281-560", "generator/ostei/OSTEI_Writer.cpp:423-786", "skel/simint/boys/boys.h"]}
{"id": "C97", "title": "Scripts that write the tables of constants", "statement": "For any options, gen_boys_shortgrid.py writes as many rows as it declares, one for each multiple of the spacing up to the largest argument; BoysValue is the Boys function and BoysValue_Asymptotic the integral to infinity; gen_boys_longfac.py and gen_shellconstants.py write the factors (2n-1)!! sqrt(pi) / 2^(n+1) and (2l-1)!! pi^(3/2) / 2^l; cutoff_finder.py ends, and each cutoff it prints is the first multiple of the spacing from which on the asymptotic formula is off by less than the bound.", "quantifier": "all spacings, largest arguments, orders, angular momenta and bounds", "why_tests_cant": "the scripts are run by hand once; the tables are committed", "anchors": ["python/boys/gen_boys_shortgrid.py:27-42", "python/boys/gen_boys_longfac.py:37-42", "python/boys/boys_common/boys.py:10-38", "python/boys/cutoff_finder.py:26-47", "python/gen_shellconstants.py:36-42"]}
{"id": "C98", "title": "From basis sets to one-electron integrals on doubles", "statement": "In the arithmetic of doubles, simint_normalize_shells followed by simint_compute_osoei_overlap, simint_compute_osoei_ke or simint_compute_osoei_potential gives every integral over the exactly normalised shells, with the error of C92 or C93 (times two) plus the sum of the errors of the two sets of coefficients (C95) times the integral with absolute values of its terms.  The computed overlap of a component of a normalised shell with itself is 1 for (l,0,0), and for other components the known ratio of double factorials, up to the errors stated.  Nothing overflows.", "quantifier": "all shells and charges of moderate size, all contents of work and output arrays, all roundings within the IEEE bounds", "why_tests_cant": "the test programs for one-electron integrals print numbers and compare nothing", "anchors": ["skel/simint/shell/shell.c:248-278", "skel/simint/osoei/osoei_overlap.c:9-67", "skel/simint/osoei/osoei_ke.c:10-69", "skel/simint/osoei/osoei_potential.c:11-220"]}
{"id": "C99", "title": "From basis sets to gradients on doubles", "statement": "In the arithmetic of doubles, normalising the shells of a basis set, filling two lists of pairs of them and calling the generated first-derivative function of any class up to a total angular momentum of 23 without screening gives the derivatives of every integral over the exactly normalised shells with respect to all twelve coordinates of the four centers, with the error of C91 (times two) plus the sum of the errors of the four sets of coefficients (C95) times the derivative with absolute values of its terms.  Nothing overflows.", "quantifier": "all basis sets of moderate size, all lists of pairs of their shells (bra pairs in full batches: each complete batch that is followed by another pair ends at a multiple of the vector length of primitives; any list for vector length 1), all contents of memory, classes, SIMD lengths; doubles with and without fused operations", "why_tests_cant": "the test programs compare gradients of a few molecules with reference values up to a tolerance", "anchors": ["skel/simint/shell/shell.c:248-278", "skel/simint/shell/shell.c:404-570", "generator/ostei/OSTEIDeriv1_Writer.cpp:330-520", "generator/ostei/OSTEI_Writer.cpp:423-786"]}
{"id": "C100", "title": "Primitive screening on doubles", "statement": "In the arithmetic of doubles, simint_primscreen_schwarz gives every pair of primitives a value that is not negative and is the largest integral (xy|xy) of the pair up to the error of C89.  Filling two lists of pairs with such values (where the stores of the fill stay in the array, C44) and calling simint_compute_ostei with a tolerance t > 0 always runs.  If the call returns -1, the output is untouched and all the integrals it would have computed are small; otherwise every integral differs from the full sum over primitives by at most the error without screening (C89) plus, for each quartet of primitives, a term that is t up to rounding, the errors of the values and the tolerance squared rounding down.  With 1.e99 as the starting maximum and a smaller tolerance the call never returns -1.", "quantifier": "all lists of pairs of shells of moderate size (bra pairs in full batches: each complete batch that is followed by another pair ends at a multiple of the vector length of primitives; any list for vector length 1) with a total angular momentum of at most 12 in each, all tolerances up to 2^500, contents of memory, SIMD lengths; doubles with and without fused operations; arguments of the Boys function below 36.5, for a total angular momentum of at most 3 up to 10^8", "why_tests_cant": "tests compare screened integrals of a few molecules with unscreened ones up to a tolerance", "anchors": ["skel/simint/shell/shell_screen.c:169-200", "skel/simint/shell/shell.c:470-570", "skel/simint/ostei/ostei.c:11-26", "generator/ostei/OSTEI_Writer.cpp:423-786"]}
{"id": "C101", "title": "Fast screening values on doubles", "statement": "In the arithmetic of doubles, the value that simint_primscreen_fastschwarz computes for a pair of primitives is the exact value (C70) up to a relative error of 2^-34, and that of simint_shellscreen_fastschwarz is the exact sum up to a relative error of less than 2^-32; nothing overflows, and exact values below about 2^-700 may be off by that much.  With these values the screened call of simint_compute_ostei for s shells gives every integral with the error without screening (C89) plus, for each quartet of primitives, the tolerance times 1 + 2^-32 plus 2^-197 of the size of the values; where it returns -1 all the integrals are at most that.", "quantifier": "all shells of moderate size with up to 2^19 pairs of primitives; for the screened call all lists of pairs of s shells (bra pairs in full batches: each complete batch that is followed by another pair ends at a multiple of the vector length of primitives; any list for vector length 1), all positive tolerances up to 2^500, contents of memory, SIMD lengths, doubles with and without fused operations, arguments of the Boys function up to 10^8", "why_tests_cant": "tests do not look at the screening values; they compare integrals of a few molecules", "anchors": ["skel/simint/shell/shell_screen.c:86-118", "skel/simint/shell/shell_screen.c:231-270", "skel/simint/constants.h:12", "skel/simint/ostei/ostei.c:11-26"]}
{"id": "C102", "title": "The hand-written (ss|ss) function stores the same doubles as a generated one", "statement": "The library has a hand-written function in the place of the generated function for four s shells.  In the arithmetic of doubles (builds without the AVX512 branches) it returns and stores, bit for bit, what the generated function would, and leaves the lists unchanged, whenever nothing is screened or the screening values between the pairs of the second list are zero; lists that were filled completely have this property, for every tolerance.  For other lists it stores what the generated function stores for some other screening values between the pairs.  So the error bounds from basis sets to integrals and with fast screening hold for the library.", "quantifier": "all lists, tolerances, outputs, SIMD lengths, iteration orders of the generator, rules of rounding; for the bounds as in C96 and C101", "why_tests_cant": "tests compare integrals of a few molecules with reference values up to a threshold and do not have a generated function for this class to compare with", "anchors": ["skel/ostei_s_s_s_s.c:62-318", "skel/ostei_s_s_s_s.c:206-211", "create.py:299", "generator/ostei/OSTEI_Writer.cpp:470-736", "skel/simint/ostei/ostei.c:11-26"]}
{"id": "C103", "title": "The error bounds hold for every order of addition of the vector builds", "statement": "The builds add the lanes of a vector to the output in different orders: one lane after another, with the horizontal additions of AVX, with the transposition and the vector additions of AVX512, or with a reduction whose order is the compiler's choice.  Each of them, and the sums that the AVX512 build of the hand-written (ss|ss) function delays, stores in each element a rounded sum of the old value and exactly the lanes that belong there, in some order and grouping, with one addition per number.  So the error bounds for the integrals of complete functions, gradients, shells and basis sets hold for all these builds, and two builds of the same vector length differ by at most twice the bound; they need not agree.", "quantifier": "all variants of contract_all, including every order of a reduction; all contents of the lists, tolerances, classes, iteration orders of the generator, rules of rounding", "why_tests_cant": "tests run one build on one machine and compare with a threshold; they cannot try every order that a compiler may choose for a reduction", "anchors": ["skel/simint/vectorization/intrinsics_avx.h:104-136", "skel/simint/vectorization/intrinsics_avx512.h:99-138", "skel/simint/vectorization/intrinsics_sse.h:94-101", "skel/ostei_s_s_s_s.c:277-308", "skel/simint/vectorization/intrinsics_asimd.h:85-91", "skel/simint/vectorization/intrinsics_sve.h:127-133", "skel/ostei_s_s_s_s.c:320-323", "generator/ostei/OSTEI_Writer.cpp:470-736"]}
{"id": "C104", "title": "The complete hand-written (ss|ss) function of AVX512 builds has the error bound of the other builds", "statement": "In AVX512 builds the hand-written (ss|ss) function does not add each vector to the output at once: it keeps a buffer of up to eight vectors with the elements they belong to, adds a vector to the last one in the buffer if both belong to the same element, empties the buffer when it holds eight, and adds what remains in it behind all loops.  The complete function, with its screening, batches, pointers and this buffer, always succeeds within its arrays, leaves the lists unchanged, and stores for each pair of pairs a rounded sum of exactly the values of its evaluated primitive quartets, each once.  So its integrals over moderate shells and basis sets have the error bound of generated functions.", "quantifier": "all lists that fit, tolerances, contents of memory, orders of the horizontal sums and rules of rounding; from shells with and without screening and from basis sets without screening; arguments of the Boys function up to 10^8", "why_tests_cant": "the number of vectors per element, and so the moment at which the buffer is emptied, depends on the contraction of the shells and on screening; a test tries a few combinations on one compiler", "anchors": ["skel/ostei_s_s_s_s.c:40-60", "skel/ostei_s_s_s_s.c:62-318", "skel/ostei_s_s_s_s.c:277-308", "skel/ostei_s_s_s_s.c:320-323", "skel/simint/vectorization/intrinsics_avx512.h:99-138"]}
{"id": "C105", "title": "From a basis set to screened (ss|ss) integrals on doubles", "statement": "Normalising a basis with simint_normalize_shells, filling two lists of pairs of its s shells with the fast screening values and calling simint_compute_ostei with a positive tolerance, everything on doubles, always runs.  Either the call returns the number of quartets, and each stored number is the integral over exactly normalised shells up to the errors without screening (C96) and at most the number of quartets of primitives times a little more than the tolerance; or it returns -1, leaves the output alone, and zero has these errors.  This holds for the hand-written function of all builds, also the one of AVX512 builds that adds vectors later.", "quantifier": "all basis sets of moderate size, pairs of s shells (bra pairs in full batches), positive tolerances up to 2^500, contents of memory, builds, orders of addition; arguments of the Boys function up to 10^8", "why_tests_cant": "what screening leaves out depends on the tolerance and on every pair of primitives; a test compares a few molecules with a threshold", "anchors": ["skel/simint/shell/shell.c:248-279", "skel/simint/shell/shell.c:425-583", "skel/simint/shell/shell_screen.c:225-270", "skel/simint/ostei/ostei.c:11-26", "skel/ostei_s_s_s_s.c:1-337"]}
{"id": "C106", "title": "From a basis set to integrals of any class on doubles, screened with computed Schwarz values", "statement": "Normalising a basis with simint_normalize_shells, filling two lists of pairs of its shells with simint_primscreen_schwarz (which itself computes integrals) and calling simint_compute_ostei of a class with a positive tolerance, everything on doubles, always runs when the stores of the screening values stay in their array (C44).  Either the call returns the number of quartets, and each stored number is the integral over exactly normalised shells up to the errors without screening (C96) and the number of quartets of primitives times a bound made of the tolerance and the errors of the screening values; or it returns -1, leaves the output alone, and zero has these errors.", "quantifier": "all classes with at most 12 on each side, basis sets of moderate size, pairs of shells (bra pairs in full batches), positive tolerances up to 2^500, contents of memory, builds, generator options; arguments of the Boys function up to 36.5, or up to 10^8 for total angular momentum below 4", "why_tests_cant": "rounding of the coefficients, of the screening values and of the integrals act together for every basis and tolerance; a test compares a few molecules with a threshold", "anchors": ["skel/simint/shell/shell.c:248-279", "skel/simint/shell/shell.c:425-583", "skel/simint/shell/shell_screen.c:125-223", "skel/simint/ostei/ostei.c:11-26"]}
