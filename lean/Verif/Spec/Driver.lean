import Verif.Driver
import Mathlib.Algebra.BigOperators.Group.Finset.Basic

/-!
# What the driver is supposed to compute

Stated without the bookkeeping of the generated loops: which primitives belong to a shell, and
the contracted value as a sum over them.
-/

set_option autoImplicit false

namespace Simint

open Finset

/-- First primitive of shell `s` when shells follow each other without gaps. -/
def tightStart (nprim12 : ℕ → ℕ) (s : ℕ) : ℕ := ∑ k ∈ range s, nprim12 k

/-- First primitive of shell `s` when shells are stored in batches of `2*len`, each batch starting
at a vector boundary (the layout documented in shell.h and produced by the fill routines). -/
def paddedStart (len : ℕ) (nprim12 : ℕ → ℕ) : ℕ → ℕ
  | 0 => 0
  | s + 1 =>
    if (s + 1) % (2 * len) = 0 then simdRound len (paddedStart len nprim12 s + nprim12 s)
    else paddedStart len nprim12 s + nprim12 s

/-- Primitive `j` belongs to shell `s` of the list `ns` of primitive counts laid out without gaps. -/
def Owns (ns : ℕ → ℕ) (j s : ℕ) : Prop :=
  ∑ k ∈ range s, ns k ≤ j ∧ j < ∑ k ∈ range (s + 1), ns k

section
variable {F : Type} [Add F] [Zero F] [Mul F] [LinearOrder F]

/-- The pair of primitives is evaluated: neither the bra primitive nor the ket vector that
contains `j` is screened out. -/
def DEnv.Kept (e : DEnv F) (i j : ℕ) : Prop := ¬ e.skipBra i ∧ ¬ e.skipVec i (j / e.len * e.len)

instance (e : DEnv F) (i j : ℕ) : Decidable (e.Kept i j) := inferInstanceAs (Decidable (_ ∧ _))

/-- The primitive stage works lane by lane on vectors that start at a multiple of the vector length,
and a zero ket prefactor gives zero. -/
structure LaneWise (e : DEnv F) (prim : ℕ → ℕ → F → QAM → ℕ → F) : Prop where
  lane : ∀ i j pf, i < e.P.alloc → e.len ∣ j → j + e.len ≤ e.Q.alloc → ∃ src, e.vec i j pf = some src ∧
    ∀ n < e.len, ∀ t ∈ e.tops, ∀ c < ncartQ t, src n t c = prim i (j + n) (pf n) t c
  zero : ∀ i j t c, prim i j 0 t c = 0

/-- The lists satisfy what the functions expect: a positive vector length, at least one primitive
pair per ket shell, and per-primitive arrays long enough for the layouts. -/
structure ListsOK (e : DEnv F) : Prop where
  len : 0 < e.len
  prims : ∀ s < e.Q.nclip, 0 < e.Q.nprim12 s
  bra : tightStart e.P.nprim12 e.P.nclip ≤ e.P.alloc
  ket : ∀ s < e.Q.nclip,
    simdRound e.len (paddedStart e.len e.Q.nprim12 s + e.Q.nprim12 s) ≤ e.Q.alloc
  tops : e.tops.Nodup
  ncart : ∀ t ∈ e.tops, 0 < ncartQ t

/-- `i` is a bra primitive of the list as the driver reads it. -/
def DEnv.BraReal (e : DEnv F) (i : ℕ) : Prop :=
  ∃ s < e.P.nclip, ∃ a < e.P.nprim12 s, i = tightStart e.P.nprim12 s + a

/-- `j` is a primitive of one of the first `nclip` ket shells (not padding). -/
def DEnv.KetReal (e : DEnv F) (j : ℕ) : Prop :=
  ∃ s < e.Q.nclip, ∃ b < e.Q.nprim12 s, j = paddedStart e.len e.Q.nprim12 s + b

/-- Two calls whose lists describe the same shells: same counts, same data at the primitives of
those shells. Nothing is said about padding, about shells beyond the clip, or about sizes. -/
structure SameShells (e e' : DEnv F) (prim prim' : ℕ → ℕ → F → QAM → ℕ → F) : Prop where
  len : e.len = e'.len
  tops : e.tops = e'.tops
  tol : e.tol = e'.tol
  braClip : e.P.nclip = e'.P.nclip
  ketClip : e.Q.nclip = e'.Q.nclip
  braCounts : ∀ s < e.P.nclip, e.P.nprim12 s = e'.P.nprim12 s
  ketCounts : ∀ s < e.Q.nclip, e.Q.nprim12 s = e'.Q.nprim12 s
  values : ∀ i j, e.BraReal i → e.KetReal j → ∀ t ∈ e.tops, ∀ c < ncartQ t,
    prim i j (e.Q.prefac j) t c = prim' i j (e'.Q.prefac j) t c
  screen : e.check → e.Q.screenMax = e'.Q.screenMax ∧
    (∀ i, e.BraReal i → e.P.screen i = e'.P.screen i) ∧
    ∀ j, e.KetReal j → ∀ n < e.len, e.Q.screen (j / e.len * e.len + n)
      = e'.Q.screen (j / e.len * e.len + n)

/-- Without screening. -/
def DEnv.unscreened (e : DEnv F) : DEnv F := { e with tol := 0 }

/-- The horizontal stage turns handed-over values `X` into final values `hspec ab cd X`, whatever
the other arrays contain. -/
def HrrOK (e : DEnv F) (h : HEnv F) (final : QAM)
    (hspec : ℕ → ℕ → (QAM → ℕ → F) → ℕ → F) : Prop :=
  ∀ ab cd view X, (∀ t ∈ e.tops, ∀ i < ncartQ t, view t i = X t i) →
    ∃ m, h.hrr ab cd view = some m ∧ ∀ c < h.blk, m final c = hspec ab cd X c

/-- The horizontal stage turns the handed-over values `X ab cd` of the quartets of the call into
final values `res ab cd`, whatever the other arrays contain. -/
def HrrOn (e : DEnv F) (h : HEnv F) (final : QAM) (X : ℕ → ℕ → QAM → ℕ → F)
    (res : ℕ → ℕ → ℕ → F) : Prop :=
  ∀ ab < e.P.nclip, ∀ cd < e.Q.nclip, ∀ view,
    (∀ t ∈ e.tops, ∀ i < ncartQ t, view t i = X ab cd t i) →
    ∃ m, h.hrr ab cd view = some m ∧ ∀ c < h.blk, m final c = res ab cd c

end

section
variable {F : Type} [AddCommMonoid F] [Mul F] [LinearOrder F]

/-- Contracted value of a component: the sum over all primitives `i` in `[i0, i0+ni)` and `j` in
`[j0, j0+nj)` that are evaluated. -/
def contracted (e : DEnv F) (prim : ℕ → ℕ → F) (i0 ni j0 nj : ℕ) : F :=
  ∑ a ∈ range ni, ∑ b ∈ range nj, if e.Kept (i0 + a) (j0 + b) then prim (i0 + a) (j0 + b) else 0

/-- Contracted value for bra shell `ab`, ket shell `cd`: bra primitives are stored without gaps,
ket primitives in padded batches. -/
def contractedPair (e : DEnv F) (prim : ℕ → ℕ → F → QAM → ℕ → F) (ab cd : ℕ) (t : QAM) (c : ℕ) : F :=
  contracted e (fun i j => prim i j (e.Q.prefac j) t c) (tightStart e.P.nprim12 ab)
    (e.P.nprim12 ab) (paddedStart e.len e.Q.nprim12 cd) (e.Q.nprim12 cd)

end

end Simint
