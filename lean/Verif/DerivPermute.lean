import Verif.Deriv
import Verif.Permute

/-!
# Derivative functions of permuted classes

`OSTEIDeriv1_Writer::Write_Permute_` (generator/ostei/OSTEIDeriv1_Writer.cpp:120-257).  Which
permutations are written is decided as for the integrals (120-137 and 948-980 are the same text as
OSTEI_Writer.cpp:125-139 and 757-790, `definedBy` in Permute.lean).
-/

set_option autoImplicit false

namespace Simint

section
variable {F : Type} [Field F]

/-- The twelve values copied for one component from position `src`, OSTEIDeriv1_Writer.cpp:222-237:
blocks of three values exchanged where centers are exchanged. -/
def dPermBlock (s12 s34 : Bool) (o : ℕ → F) (src : ℕ) : List F :=
  (if s12 then (List.range 3).map (fun k => o (src + 3 + k)) ++ (List.range 3).map fun k => o (src + 0 + k)
    else (List.range 6).map fun k => o (src + 0 + k)) ++
  (if s34 then (List.range 3).map (fun k => o (src + 9 + k)) ++ (List.range 3).map fun k => o (src + 6 + k)
    else (List.range 6).map fun k => o (src + 6 + k))

/-- Loops over the components of quartet `q`, OSTEIDeriv1_Writer.cpp:203-240. `am` is the class that
was computed. -/
def dPermBuffer (am : QAM) (s12 s34 : Bool) (q : ℕ) (o : ℕ → F) : List F :=
  let p := permAM am s12 s34
  let nbcd := ncart am.b * ncart am.c * ncart am.d
  let ncd := ncart am.c * ncart am.d
  (List.range (ncart p.a)).flatMap fun a => (List.range (ncart p.b)).flatMap fun b =>
    (List.range (ncart p.c)).flatMap fun c => (List.range (ncart p.d)).flatMap fun d =>
      let va := if s12 then b else a
      let vb := if s12 then a else b
      let vc := if s34 then d else c
      let vd := if s34 then c else d
      dPermBlock s12 s34 o (12 * (q * ncartQ am + va * nbcd + vb * ncd + vc * ncart am.d + vd))

/-- Body of the loop over the quartets with the final `memcpy`, OSTEIDeriv1_Writer.cpp:213-243. The
buffer has `12 * NCART(am)` elements; filling more, or copying elements that were not filled, is an
error. -/
def dPermQuartet (am : QAM) (s12 s34 : Bool) (q : ℕ) (o : ℕ → F) : Option (ℕ → F) :=
  let buf := dPermBuffer am s12 s34 q o
  if buf.length = 12 * ncartQ am then
    some fun k => if q * 12 * ncartQ am ≤ k ∧ k < q * 12 * ncartQ am + 12 * ncartQ am then
      buf.getD (k - q * 12 * ncartQ am) 0 else o k
  else none

variable [LinearOrder F]

/-- A call with the numbers of shell pairs of both lists (`nshell12`). -/
structure DPermCall (F : Type) extends DerivCall F where
  nP : ℕ
  nQ : ℕ
  junkAB : Dir → ℕ → F

/-- Arguments of the inner call, OSTEIDeriv1_Writer.cpp:145-181: in addition to the distances, the
arrays of exponents are exchanged. -/
def DPermCall.inner (c : DPermCall F) (s12 s34 : Bool) : DerivCall F :=
  { c.toDerivCall with
    P := if s12 then swapMSP c.P c.nP c.junkAB else c.P
    Q := if s34 then swapMSP c.Q c.nQ c.junkAB else c.Q
    alpha2P := if s12 then c.beta2P else c.alpha2P
    beta2P := if s12 then c.alpha2P else c.beta2P
    alpha2Q := if s34 then c.beta2Q else c.alpha2Q
    beta2Q := if s34 then c.alpha2Q else c.beta2Q }

/-- The derivative function for class `permAM am s12 s34`, OSTEIDeriv1_Writer.cpp:138-253. An array
of length zero is not allowed in C. -/
def dPermFunction (g : GenCfg) (ops : FOps F) (am : QAM) (s12 s34 : Bool) (c : DPermCall F)
    (hmem : HMem F) (out : ℕ → F) : Option (ℕ × (ℕ → F)) :=
  if (s12 && decide (c.nP = 0)) || (s34 && decide (c.nQ = 0)) then none
  else (derivFunction g ops am (c.inner s12 s34) hmem out).bind fun r =>
    if r.1 * (12 * ncartQ am) ≤ c.outSize then
      ((List.range r.1).foldlM (fun o q => dPermQuartet am s12 s34 q o) r.2).map fun o => (r.1, o)
    else none

end

end Simint
