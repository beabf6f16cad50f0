import Verif.Spec.Function
import Verif.Deriv

/-!
# What a first-derivative function is supposed to return

Derivatives of contracted integrals with respect to the coordinates of the four centers: center `t`
of the quartet, direction `i`, component `(x, y, z, w)` at position
`12 * component + 3 * center + direction` of the block of the quartet.
-/

set_option autoImplicit false

namespace Simint

/-- Number of a center in the output. -/
def RRType.idx : RRType → ℕ
  | .I => 0
  | .J => 1
  | .K => 2
  | .L => 3

/-- Position of a center of the quartet formed by two shell pairs. -/
def centerOf (S T : ShellPair) : RRType → Dir → ℝ
  | .I => S.A
  | .J => S.B
  | .K => T.A
  | .L => T.B

/-- The two shell pairs with coordinate `i` of center `t` replaced by `x`. -/
noncomputable def moveCenter (S T : ShellPair) (t : RRType) (i : Dir) (x : ℝ) : ShellPair × ShellPair :=
  match t with
  | .I => ({ S with A := Function.update S.A i x }, T)
  | .J => ({ S with B := Function.update S.B i x }, T)
  | .K => (S, { T with A := Function.update T.A i x })
  | .L => (S, { T with B := Function.update T.B i x })

/-- The arrays `alpha2`, `beta2` hold twice the exponents of the pairs of primitives. -/
structure HoldsExps (M : MSP ℝ) (alpha2 beta2 : ℕ → ℝ) (start : ℕ → ℕ) (S : ℕ → ShellPair) : Prop where
  a : ∀ s < M.nclip, ∀ k (h : k < (S s).prims.length), alpha2 (start s + k) = 2 * ((S s).prims[k]).α
  b : ∀ s < M.nclip, ∀ k (h : k < (S s).prims.length), beta2 (start s + k) = 2 * ((S s).prims[k]).β

/-- The classes whose raised classes are covered by the generic run-time tables. -/
structure DerivClassOK (final : QAM) : Prop where
  valid : final.Valid
  tag : final.tag = ""
  bra : final.a + final.b ≤ 17
  ket : final.c + final.d ≤ 17

/-- What a call has to provide: as for the integral functions, with twelve values per component. -/
structure DerivCallOK (final : QAM) (c : Call ℝ) : Prop where
  len : 0 < c.len
  prims : ∀ s < c.Q.nclip, 0 < c.Q.nprim12 s
  bra : tightStart c.P.nprim12 c.P.nclip ≤ c.P.alloc
  ket : ∀ s < c.Q.nclip,
    simdRound c.len (paddedStart c.len c.Q.nprim12 s + c.Q.nprim12 s) ≤ c.Q.alloc
  braPos : ∀ i < c.P.alloc, 0 < c.P.alpha i
  ketPos : ∀ j < c.Q.alloc, 0 < c.Q.alpha j
  out : c.P.nclip * c.Q.nclip * (12 * ncartQ final) ≤ c.outSize

/-- Sum over the pairs of primitives that pass the screening with an additional factor `w i j` for
elements `i`, `j` of the lists. -/
noncomputable def weightedERI (call : Call ℝ) (w : ℕ → ℕ → ℝ) (i0 j0 : ℕ) (S T : ShellPair)
    (a b c d : Exp) : ℝ :=
  ∑ k : Fin S.prims.length, ∑ l : Fin T.prims.length,
    if call.Kept (i0 + k) (j0 + l) then
      w (i0 + k) (j0 + l) * (S.prims[k].coef * T.prims[l].coef *
        coulomb S.prims[k].α S.prims[k].β T.prims[l].α T.prims[l].β S.A S.B T.A T.B a b c d)
    else 0

/-- Raise one center with a factor, minus lower it with the power (derivative of a Cartesian
Gaussian): `up t` is the family for raised center `t`, `down` the family without factor. -/
def raiseLower {R : Type} [CommRing R] (up : RRType → Fam R) (down : Fam R) (e : RRType → Exp)
    (t : RRType) (i : Dir) : R :=
  let at_ (f : Fam R) (n : ℤ) : R :=
    let e' := Function.update e t ((e t).step i n)
    f (e' .I) (e' .J) (e' .K) (e' .L)
  at_ (up t) 1 - ((e t).get i : R) * at_ down (-1)

/-- Four components as a function of the center. -/
def comps (x y z w : Exp) : RRType → Exp
  | .I => x
  | .J => y
  | .K => z
  | .L => w

end Simint
