import Verif.Spec.Cart
import Mathlib.Order.Defs.LinearOrder

/-!
# Doublets, quartets, AM keys (model of generator/Types.hpp and generator/Types.cpp)
-/

namespace Simint

/-- `HashExpList`, generator/Types.hpp:578-585, on non-negative entries. -/
def hashExp (a b c : ℕ) : ℕ := ((0 ||| (a <<< 0x00)) ||| (b <<< 0x08)) ||| (c <<< 0x10)

/-! ## Comparison operators -/

/-- `DoubletType`, generator/Types.hpp:148-152. -/
inductive DType | bra | ket
  deriving DecidableEq, Repr

/-- `Gaussian::operator<`, generator/Types.hpp:283-291. -/
def gaussLt (ord : ℕ → List Exp) (a b : Exp) : Bool :=
  if a.am < b.am then true
  else if a.am = b.am then decide (cidx ord a < cidx ord b)
  else false

/-- `Doublet` with its tag, generator/Types.hpp:386-391. The tag type is any linear order
(the C++ uses `std::string`). -/
@[ext] structure TDoublet (τ : Type) where
  type : DType
  left : Exp
  right : Exp
  tag : τ

/-- `Quartet`, generator/Types.hpp:465-470. -/
@[ext] structure TQuartet (τ : Type) where
  bra : TDoublet τ
  ket : TDoublet τ
  m : ℤ
  tag : τ

section
variable {τ : Type} [LinearOrder τ]

/-- `Doublet::am`, generator/Types.hpp:393. -/
def TDoublet.am (d : TDoublet τ) : ℤ := d.left.am + d.right.am

/-- `Quartet::am`, generator/Types.hpp:472. -/
def TQuartet.am (q : TQuartet τ) : ℤ := q.bra.am + q.ket.am

/-- `Doublet::operator<`, generator/Types.hpp:420-440. -/
def doubletLt (ord : ℕ → List Exp) (a b : TDoublet τ) : Bool :=
  if a.am < b.am then true
  else if a.am = b.am then
    if gaussLt ord a.left b.left then true
    else if a.left = b.left then
      if gaussLt ord a.right b.right then true
      else if a.right = b.right then decide (a.tag < b.tag)
      else false
    else false
  else false

/-- `Doublet::operator==`, generator/Types.hpp:442-448. -/
def doubletEq (a b : TDoublet τ) : Bool :=
  decide (a.left = b.left ∧ a.right = b.right ∧ a.type = b.type ∧ a.tag = b.tag)

/-- `Quartet::operator<`, generator/Types.hpp:505-531. -/
def quartetLt (ord : ℕ → List Exp) (a b : TQuartet τ) : Bool :=
  if a.am < b.am then true
  else if a.am = b.am then
    if doubletLt ord a.bra b.bra then true
    else if doubletEq a.bra b.bra then
      if doubletLt ord a.ket b.ket then true
      else if doubletEq a.ket b.ket then
        if a.m < b.m then true
        else if a.m = b.m then decide (a.tag < b.tag)
        else false
      else false
    else false
  else false

/-- AM quadruple with tag; `QAM`, generator/Types.hpp:30-58. -/
@[ext] structure TQAM (τ : Type) where
  a : ℤ
  b : ℤ
  c : ℤ
  d : ℤ
  tag : τ
  deriving DecidableEq

/-- `std::array<int,4>` lexicographic `<` followed by the tag; `QAM::operator<`,
generator/Types.hpp:59-67. -/
def qamLt (p q : TQAM τ) : Bool :=
  if p.a < q.a ∨ (p.a = q.a ∧ (p.b < q.b ∨ (p.b = q.b ∧ (p.c < q.c ∨ (p.c = q.c ∧ p.d < q.d)))))
  then true
  else if p.a = q.a ∧ p.b = q.b ∧ p.c = q.c ∧ p.d = q.d then decide (p.tag < q.tag)
  else false

end

/-! ## Flat indices and target generation -/

/-- Untagged doublet, used by the recursion models (`Doublet` with tag and type stripped). -/
@[ext] structure Dbl where
  left : Exp
  right : Exp
  deriving DecidableEq, Repr

/-- `Doublet::ncart`, generator/Types.hpp:395. -/
def Dbl.ncart (d : Dbl) : ℕ := Simint.ncart d.left.am * Simint.ncart d.right.am

/-- `Doublet::index`, generator/Types.hpp:394. -/
def Dbl.index (ord : ℕ → List Exp) (d : Dbl) : ℕ :=
  cidx ord d.left * Simint.ncart d.right.am + cidx ord d.right

/-- `Doublet::operator bool`, generator/Types.hpp:450-453. -/
def Dbl.Valid (d : Dbl) : Prop := d.left.Valid ∧ d.right.Valid

instance (d : Dbl) : Decidable d.Valid := by unfold Dbl.Valid; infer_instance

/-- Untagged quartet. -/
@[ext] structure Qrt where
  bra : Dbl
  ket : Dbl
  m : ℤ
  deriving DecidableEq, Repr

/-- `Quartet::ncart`, generator/Types.hpp:474. -/
def Qrt.ncart (q : Qrt) : ℕ := q.bra.ncart * q.ket.ncart

/-- `Quartet::index`, generator/Types.hpp:473. -/
def Qrt.index (ord : ℕ → List Exp) (q : Qrt) : ℕ := q.bra.index ord * q.ket.ncart + q.ket.index ord

/-- `Quartet::operator bool`, generator/Types.hpp:538-541. -/
def Qrt.Valid (q : Qrt) : Prop := q.bra.Valid ∧ q.ket.Valid ∧ 0 ≤ q.m

instance (q : Qrt) : Decidable q.Valid := by unfold Qrt.Valid; infer_instance

/-- `Gaussian::Iterate`, generator/Types.hpp:315-328 (the state after the call). -/
def gaussIterate (ord : ℕ → List Exp) (e : Exp) : Exp :=
  match (ord e.am.toNat)[cidx ord e + 1]? with
  | some f => f
  | none => e

/-- The successive values of a loop variable `cur = Gaussian{am,0,0}` with `n` iterations of
`use cur; cur.Iterate()`, as in generator/Types.cpp:24-27 and 62-71. -/
def iterFrom (ord : ℕ → List Exp) : ℕ → Exp → List Exp
  | 0, _ => []
  | n + 1, e => e :: iterFrom ord n (gaussIterate ord e)

/-- Values taken by a target-generation loop over one center. -/
def loopComps (ord : ℕ → List Exp) (am : ℕ) : List Exp := iterFrom ord (ncart am) ⟨am, 0, 0⟩

/-- `GenerateDoubletTargets`, generator/Types.cpp:53-72; the list of inserted keys in order. -/
def doubletTargets (ord : ℕ → List Exp) (a b : ℕ) : List Dbl :=
  (loopComps ord a).flatMap fun l => (loopComps ord b).map fun r => ⟨l, r⟩

/-- `GenerateQuartetTargets`, generator/Types.cpp:16-51; the list of inserted keys in order. -/
def quartetTargets (ord : ℕ → List Exp) (a b c d : ℕ) : List Qrt :=
  (loopComps ord a).flatMap fun e1 => (loopComps ord b).flatMap fun e2 =>
    (loopComps ord c).flatMap fun e3 => (loopComps ord d).map fun e4 => ⟨⟨e1, e2⟩, ⟨e3, e4⟩, 0⟩

/-- The order starts with the pure-x component, which is where the generator's loops begin. -/
def OrdStart (ord : ℕ → List Exp) : Prop := ∀ am : ℕ, (ord am)[0]? = some ⟨am, 0, 0⟩

end Simint
