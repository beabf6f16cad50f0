import Verif.Function

/-!
# Functions for permuted classes

`Write_Permute_` and `Write_Permutations_` (generator/ostei/OSTEI_Writer.cpp:125-245, 757-775): a
function for a class with the centers of the bra and/or the ket exchanged is a wrapper around the
function of the original class.  `WriteFile` (778-790) writes the wrappers if `-p` was given, and
create.py decides which classes are generated, and which with `-p`.
-/

set_option autoImplicit false

namespace Simint

/-- `IsSpecialPermutation_`, OSTEI_Writer.cpp:12-24. -/
def isSpecialPerm (am : QAM) : Bool :=
  if (am.a = 0 ∧ am.b > 0) ∧ (am.c = 0 ∨ am.d = 0) then true
  else if (am.c = 0 ∧ am.d > 0) ∧ (am.a = 0 ∨ am.b = 0) then true
  else false

/-- `permuted`, OSTEI_Writer.cpp:127-131. -/
def permAM (am : QAM) (s12 s34 : Bool) : QAM :=
  let p := if s12 then { am with a := am.b, b := am.a } else am
  if s34 then { p with c := p.d, d := p.c } else p

/-- The early returns of `Write_Permute_`, OSTEI_Writer.cpp:133-139: nothing is written. -/
def permSkipped (am : QAM) (s12 s34 : Bool) : Bool :=
  let p := permAM am s12 s34
  if s34 && !s12 && decide (p.c = p.d) then true
  else if s12 && !s34 && decide (p.a = p.b) then true
  else if s12 && s34 && (decide (p.a = p.b) || decide (p.c = p.d)) then true
  else false

/-- Classes for which `WriteFile` defines a function, in the order in which they are written,
OSTEI_Writer.cpp:757-790. -/
def definedBy (am : QAM) (finalPermute : Bool) : List QAM :=
  am :: if finalPermute then
    ([(true, false), (false, true), (true, true)].filter fun s => !permSkipped am s.1 s.2).map
      fun s => permAM am s.1 s.2
  else []

section
variable {F : Type} [Field F]

/-- `P_tmp` of OSTEI_Writer.cpp:147-164: distances exchanged, center differences negated. The new
array has `nshell` entries per direction, the rest is not initialised (`junk`). -/
def swapMSP (M : MSP F) (nshell : ℕ) (junk : Dir → ℕ → F) : MSP F :=
  { M with
    PA := M.PB
    PB := M.PA
    AB := fun d i => if i < nshell then -M.AB d i else junk d i }

/-- Loops over the components of one quartet, OSTEI_Writer.cpp:207-231: the values are collected in
the order of the permuted class. `am` is the class that was computed. -/
def permBuffer (am : QAM) (s12 s34 : Bool) (q : ℕ) (o : ℕ → F) : List F :=
  let p := permAM am s12 s34
  let nbcd := ncart am.b * ncart am.c * ncart am.d
  let ncd := ncart am.c * ncart am.d
  (List.range (ncart p.a)).flatMap fun a => (List.range (ncart p.b)).flatMap fun b =>
    (List.range (ncart p.c)).flatMap fun c => (List.range (ncart p.d)).map fun d =>
      let va := if s12 then b else a
      let vb := if s12 then a else b
      let vc := if s34 then d else c
      let vd := if s34 then c else d
      o (q * ncartQ am + va * nbcd + vb * ncd + vc * ncart am.d + vd)

/-- Body of the loop over the quartets with the `memcpy`, OSTEI_Writer.cpp:220-235. The buffer has
`NCART(am)` elements; filling more, or copying elements that were not filled, is an error. -/
def permQuartet (am : QAM) (s12 s34 : Bool) (q : ℕ) (o : ℕ → F) : Option (ℕ → F) :=
  let buf := permBuffer am s12 s34 q o
  if buf.length = ncartQ am then
    some fun k => if q * ncartQ am ≤ k ∧ k < q * ncartQ am + ncartQ am then
      buf.getD (k - q * ncartQ am) 0 else o k
  else none

variable [LinearOrder F]

/-- A call with the numbers of shell pairs of both lists (`nshell12`). -/
structure PermCall (F : Type) extends Call F where
  nP : ℕ
  nQ : ℕ
  junkAB : Dir → ℕ → F

/-- Arguments of the inner call. -/
def PermCall.inner (c : PermCall F) (s12 s34 : Bool) : Call F :=
  { c.toCall with
    P := if s12 then swapMSP c.P c.nP c.junkAB else c.P
    Q := if s34 then swapMSP c.Q c.nQ c.junkAB else c.Q }

/-- The function for class `permAM am s12 s34`, OSTEI_Writer.cpp:141-242. An array of length zero
(`double P_AB[3*P.nshell12]`) is not allowed in C.  The reorder reads and writes the output array
only at quartets below `ret`. -/
def permFunction (g : GenCfg) (ops : FOps F) (am : QAM) (s12 s34 : Bool) (c : PermCall F)
    (hmem : HMem F) (out : ℕ → F) : Option (ℕ × (ℕ → F)) :=
  if (s12 && decide (c.nP = 0)) || (s34 && decide (c.nQ = 0)) then none
  else (genFunction g ops am (c.inner s12 s34) hmem out).bind fun r =>
    if isSpecialPerm (permAM am s12 s34) then some r
    else if r.1 * ncartQ am ≤ c.outSize then
      ((List.range r.1).foldlM (fun o q => permQuartet am s12 s34 q o) r.2).map fun o => (r.1, o)
    else none

end

/-! ## create.py: which classes are generated -/

/-- `UniqueQuartet`, create.py:13-26. -/
def uniqueQuartet (q : QAM) : Bool := if q.a < q.b then false else if q.c < q.d then false else true

/-- `max(q)`. -/
def maxQ (q : QAM) : ℤ := max (max (max q.a q.b) q.c) q.d

/-- All classes in the nested loops, create.py:183-187. `range(0, maxam+1)` is empty for negative
`maxam`. -/
def allQuartets (maxam : ℤ) : List QAM :=
  let r := (List.range (maxam + 1).toNat).map fun (i : ℕ) => (i : ℤ)
  r.flatMap fun i => r.flatMap fun j => r.flatMap fun k => r.map fun l => ⟨i, j, k, l, ""⟩

/-- `valid`, create.py:183-191 (and 320-331 for derivatives). -/
def validQuartets (maxam p : ℤ) : List QAM :=
  (allQuartets maxam).filter fun q => uniqueQuartet q || decide (maxQ q < p)

/-- Option `-p` of the generator run for `q`, create.py:52-53. -/
def finalPermute (p : ℤ) (q : QAM) : Bool := decide (maxQ q ≥ p)

/-- All functions defined by the generated files; `enum` is the iteration order of the set. -/
def allDefined (enum : List QAM → List QAM) (maxam p : ℤ) : List QAM :=
  (enum (validQuartets maxam p)).flatMap fun q => definedBy q (finalPermute p q)

/-- `amchar`, create.py:83 and generator/Types.hpp. -/
def amchar : List Char := "spdfghiklmnoqrtuvwxyzabceSPDFGHIKLMNOQRTUVWXYZABCE0123456789".toList

/-- `FunctionName_`, OSTEI_Writer.cpp:101-108. -/
def functionName (am : QAM) : Option (List Char) :=
  let ch : ℤ → Option Char := fun i => if 0 ≤ i then amchar[i.toNat]? else none
  (ch am.a).bind fun a => (ch am.b).bind fun b => (ch am.c).bind fun c => (ch am.d).map fun d =>
    "ostei_".toList ++ [a, '_', b, '_', c, '_', d]

end Simint
