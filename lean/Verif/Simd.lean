import Verif.Workspace

/-!
# Vector helpers (skel/simint/vectorization/intrinsics_*.h)

A vector is a function of the lane number; only lanes below `len` exist.  An array of vectors
`src` is `component → lane → value`.  Destination arrays are `ℕ → F` of a given size; an access
at or beyond the size is undefined behaviour, outcome `none`.  The values are of any type with an addition
(exact numbers in most theorems, doubles with rounded addition in C87).
-/

set_option autoImplicit false

namespace Simint

section
variable {F : Type} [Add F] [Zero F] [Mul F]

/-- A sequence of `dest[i] += v` on an array of `size` elements. -/
def addList (size : ℕ) : List (ℕ × F) → (ℕ → F) → Option (ℕ → F)
  | [], b => some b
  | (i, v) :: r, b => if i < size then addList size r (fun k => if k = i then b k + v else b k) else none

/-- `contract`, intrinsics_scalar.h:32-48, intrinsics_sse.h:74-90, intrinsics_avx.h:84-100,
intrinsics_avx512.h:79-95, intrinsics_asimd.h:65-81, intrinsics_sve.h:107-123 (same text): lanes outside,
components inside. `dest` points at element `ptr`. -/
def contract (size len ncart : ℕ) (off : ℕ → ℕ) (src : ℕ → ℕ → F) (ptr : ℕ) (b : ℕ → F) :
    Option (ℕ → F) :=
  addList size ((List.range len).flatMap fun n => (List.range ncart).map fun np =>
    (ptr + off n * ncart + np, src np n)) b

/-- `contract_all` of the scalar, SSE and gcc/AVX builds: all offsets zero.
intrinsics_scalar.h:51-57, intrinsics_sse.h:94-101, intrinsics_avx.h:129-135. -/
def contractAll (size len ncart : ℕ) (src : ℕ → ℕ → F) (ptr : ℕ) (b : ℕ → F) : Option (ℕ → F) :=
  contract size len ncart (fun _ => 0) src ptr b

/-- `_mm256_hadd_pd(a, b)`: `(a0+a1, b0+b1, a2+a3, b2+b3)`. -/
def hadd4 (a b : ℕ → F) : ℕ → F
  | 0 => a 0 + a 1
  | 1 => b 0 + b 1
  | 2 => a 2 + a 3
  | _ => b 2 + b 3

/-- `contract_all` of the clang/Intel AVX build, intrinsics_avx.h:108-127: blocks of four
components through horizontal adds, then the remainder. -/
def contractAllAvx (size ncart : ℕ) (src : ℕ → ℕ → F) (ptr : ℕ) (b : ℕ → F) : Option (ℕ → F) :=
  addList size
    (((List.range (ncart / 4)).flatMap fun n =>
        let n4 := 4 * n
        let t1 := hadd4 (src n4) (src (n4 + 1))
        let t2 := hadd4 (src (n4 + 2)) (src (n4 + 3))
        -- set_m128d(high = t2[0..1] + t2[2..3], low = t1[0..1] + t1[2..3])
        [(ptr + n4, t1 0 + t1 2), (ptr + n4 + 1, t1 1 + t1 3), (ptr + n4 + 2, t2 0 + t2 2),
          (ptr + n4 + 3, t2 1 + t2 3)])
      ++ (List.range' (ncart - ncart % 4) (ncart % 4)).map fun n =>
        (ptr + n, src n 0 + src n 1 + src n 2 + src n 3)) b

/-- `contract_all` of the AVX512 build, intrinsics_avx512.h:99-139: 8x8 transposition blocks
(`tmp[i*8+j] = src_ptr[j*8+i]`), then `_mm512_reduce_add_pd` on the remainder. The alignment of
the local array `tmp` is not modelled. -/
def contractAllAvx512 (size ncart : ℕ) (src : ℕ → ℕ → F) (ptr : ℕ) (b : ℕ → F) :
    Option (ℕ → F) :=
  addList size
    (((List.range (ncart / 8)).flatMap fun it => (List.range 8).map fun j =>
        (ptr + it * 8 + j, ((List.range 8).map fun i => src (it * 8 + j) i).sum))
      ++ (List.range' (ncart / 8 * 8) (ncart - ncart / 8 * 8)).map fun np =>
        (ptr + np, ((List.range 8).map fun i => src np i).sum)) b

/-- `contract_all` of the SVE and ASIMD builds (`svaddv_f64`, intrinsics_sve.h:127-133;
`vaddvq_f64`, intrinsics_asimd.h:85-91): one horizontal sum
per component. -/
def contractAllReduce (size len ncart : ℕ) (src : ℕ → ℕ → F) (ptr : ℕ) (b : ℕ → F) :
    Option (ℕ → F) :=
  addList size ((List.range ncart).map fun np =>
    (ptr + np, ((List.range len).map fun n => src np n).sum)) b

/-- `contract_fac` of the scalar build, intrinsics_scalar.h:60-77 (lanes outside). -/
def contractFacScalar (size len ncart : ℕ) (fac : ℕ → F) (off : ℕ → ℕ) (src : ℕ → ℕ → F)
    (ptr : ℕ) (b : ℕ → F) : Option (ℕ → F) :=
  addList size ((List.range len).flatMap fun n => (List.range ncart).map fun np =>
    (ptr + off n * ncart + np, fac n * src np n)) b

/-- `contract_fac` of the vector builds, intrinsics_sse.h:104-117, intrinsics_avx.h:141-154,
intrinsics_avx512.h:143-156 (components outside). -/
def contractFac (size len ncart : ℕ) (fac : ℕ → F) (off : ℕ → ℕ) (src : ℕ → ℕ → F) (ptr : ℕ)
    (b : ℕ → F) : Option (ℕ → F) :=
  addList size ((List.range ncart).flatMap fun np => (List.range len).map fun n =>
    (ptr + off n * ncart + np, src np n * fac n)) b

/-- `contract_all_fac` through `contract_fac`, intrinsics_scalar.h:80-87, intrinsics_sse.h:121-129,
intrinsics_avx.h:185-192. -/
def contractAllFac (size len ncart : ℕ) (fac : ℕ → F) (src : ℕ → ℕ → F) (ptr : ℕ) (b : ℕ → F) :
    Option (ℕ → F) :=
  contractFac size len ncart fac (fun _ => 0) src ptr b

/-- `contract_all_fac` of the clang/Intel AVX build, intrinsics_avx.h:158-183. -/
def contractAllFacAvx (size ncart : ℕ) (fac : ℕ → F) (src : ℕ → ℕ → F) (ptr : ℕ) (b : ℕ → F) :
    Option (ℕ → F) :=
  contractAllAvx size ncart (fun np n => fac n * src np n) ptr b

/-- `contract_all_fac` of the AVX512, SVE and ASIMD builds, intrinsics_avx512.h:160-176. -/
def contractAllFacReduce (size len ncart : ℕ) (fac : ℕ → F) (src : ℕ → ℕ → F) (ptr : ℕ)
    (b : ℕ → F) : Option (ℕ → F) :=
  contractAllReduce size len ncart (fun np n => fac n * src np n) ptr b

/-- `mask_load(nlane, memaddr)`, intrinsics_sse.h:155-161, intrinsics_avx.h:218-224, etc.: lanes
at or beyond `nlane` are set to zero. -/
def maskLoad (nlane : ℕ) (a : ℕ → F) (j : ℕ) : ℕ → F := fun n => if n < nlane then a (j + n) else 0

end

section
variable {F : Type} [Zero F] [LinearOrder F]

/-- `vector_max`, intrinsics_avx.h:208-215, intrinsics_asimd.h:134-141 (start with lane 0). -/
def vectorMax (len : ℕ) (v : ℕ → F) : F :=
  (List.range' 1 (len - 1)).foldl (fun m n => if v n > m then v n else m) (v 0)

/-- `vector_max` of the SSE build, intrinsics_sse.h:144-151 (start with `0.0`). -/
def vectorMaxSse (len : ℕ) (v : ℕ → F) : F :=
  (List.range len).foldl (fun m n => if v n > m then v n else m) 0

end

end Simint
