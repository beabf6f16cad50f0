/-
C76: the Fortran module describes the C library.
-/
import Verif.Fortran
import Mathlib.Tactic.FinCases

set_option autoImplicit false

namespace Simint

/-! ## Structures -/

/-- Offset of a member. -/
def offsetOf (abi : CABI) (l : List (String × CTy)) (n : String) : Option ℕ :=
  ((structLayout abi 0 l).find? fun m => m.1 == n).map fun m => m.2.1

/-- The usual platform: 4 byte integers, everything else 8 bytes. -/
def lp64 : CABI where
  size := fun t => if t = .int then 4 else 8
  align := fun t => if t = .int then 4 else 8

/-- Shells have the same members at the same offsets, and the same size. -/
theorem C76_shell (abi : CABI) :
    structLayout abi 0 fShell = structLayout abi 0 cShell ∧ structSize abi fShell = structSize abi cShell :=
  ⟨rfl, rfl⟩

theorem structLayout_length (abi : CABI) (l : List (String × CTy)) (off : ℕ) :
    (structLayout abi off l).length = l.length := by
  induction l generalizing off with
  | nil => rfl
  | cons a l ih => rw [structLayout, List.length_cons, ih, List.length_cons]

/-- Shell pairs have the same members at the same offsets exactly if the Fortran file is preprocessed or the library
has derivatives. -/
theorem C76_pair (abi : CABI) (c : FCompiler) (maxder : ℕ) :
    structLayout abi 0 (fPair (preprocessed c) maxder) = structLayout abi 0 (cPair maxder) ↔
      c = .intel ∨ c = .pgi ∨ 0 < maxder := by
  constructor
  · intro h
    by_contra hn
    rw [not_or, not_or] at hn
    have h0 : ¬ maxder > 0 := hn.2.2
    have hp : preprocessed c = false := by
      cases c
      · exact absurd rfl hn.1
      · exact absurd rfl hn.2.1
      · rfl
      · rfl
    have hl := congrArg List.length h
    rw [structLayout_length, structLayout_length, hp, fPair, cPair, if_neg h0, if_pos (Or.inl rfl)] at hl
    exact absurd hl (by decide)
  · intro h
    refine congrArg _ ?_
    unfold fPair cPair
    by_cases h0 : maxder > 0
    · rw [if_pos h0, if_pos (Or.inr h0)]
    · have hp : preprocessed c = true := by
        rcases h with rfl | rfl | h
        · rfl
        · rfl
        · exact absurd h h0
      rw [if_neg h0, if_neg (by simp [hp, h0])]

/-- The size is the same under the same condition. -/
theorem C76_pair_size (abi : CABI) (c : FCompiler) (maxder : ℕ) (h : c = .intel ∨ c = .pgi ∨ 0 < maxder) :
    structSize abi (fPair (preprocessed c) maxder) = structSize abi (cPair maxder) := by
  have : fPair (preprocessed c) maxder = cPair maxder := by
    unfold fPair cPair
    rcases h with rfl | rfl | h
    · simp [preprocessed]
    · simp [preprocessed]
    · rw [if_pos h, if_pos (Or.inr h)]
  rw [this]

/-- With gfortran and a library without derivatives the members behind `alpha` are not where the module says: the
library has `prefac` at the place of `alpha2`, and the number `screen_max` at the place of the pointer `prefac`; in an
array of shell pairs every element but the first is somewhere else. -/
theorem C76_pair_false :
    offsetOf lp64 (cPair 0) "prefac" = offsetOf lp64 (fPair (preprocessed .gnu) 0) "alpha2" ∧
    offsetOf lp64 (cPair 0) "screen_max" = offsetOf lp64 (fPair (preprocessed .gnu) 0) "prefac" ∧
    offsetOf lp64 (cPair 0) "prefac" = some 136 ∧ offsetOf lp64 (fPair (preprocessed .gnu) 0) "prefac" = some 152 ∧
    structSize lp64 (cPair 0) = 176 ∧ structSize lp64 (fPair (preprocessed .gnu) 0) = 192 := by
  decide +kernel

/-! ## Procedures -/

/-- How a C function of parameter type `t` gets the Fortran variable `d`. -/
def passed (e : FEnv) (d : String) : CTy → CVal
  | .int => .int (e.ival d)
  | .dbl => .dbl (e.rval d)
  | .size => .int (e.ival d)
  | .ptr => .ptr (e.addr d)

/-- Every binding has the parameters and the result of the C function of that name. -/
theorem C76_bindings : ∀ i ∈ fIfaces, ⟨i.bind, i.args, i.ret⟩ ∈ cProtos := by decide

/-- Every C function of the list is bound, once. -/
theorem C76_complete : (fIfaces.map FIface.bind).Nodup ∧ (fIfaces.map FIface.name).Nodup ∧
    ∀ p ∈ cProtos, ∃ i ∈ fIfaces, i.bind = p.name := by decide

/-- The actual arguments are the dummies in their order, with the conversions of the parameters. -/
def FWrapper.inOrder (w : FWrapper) (p : CProto) : Bool :=
  w.name == p.name && w.dummies.length == p.args.length &&
    (w.actuals == (w.dummies.zip p.args).map fun d => match d.2 with
      | .int => .int d.1
      | .dbl => .real d.1
      | .size => .int d.1
      | .ptr => .loc d.1) &&
    (fIfaces.find? fun i => i.name == w.callee) == some ⟨w.callee, p.name, p.args, p.ret⟩ &&
    w.actuals.map FActual.ty == p.args

theorem wrappers_inOrder : ∀ w ∈ fWrappers, ∃ p ∈ cProtos, w.inOrder p = true := by decide +kernel

/-- Every procedure of the module calls the C function of its own name and hands over its own arguments in order:
numbers by value, variables by address. -/
theorem C76_calls : ∀ w ∈ fWrappers, ∃ p ∈ cProtos, w.name = p.name ∧ w.dummies.length = p.args.length ∧
    ∀ e, w.call e = some (p.name, List.zipWith (passed e) w.dummies p.args) := by
  intro w hw
  obtain ⟨p, hp, h⟩ := wrappers_inOrder w hw
  simp only [FWrapper.inOrder, Bool.and_eq_true, beq_iff_eq] at h
  obtain ⟨⟨⟨⟨h1, h2⟩, h3⟩, h4⟩, h5⟩ := h
  refine ⟨p, hp, h1, h2, fun e => ?_⟩
  rw [FWrapper.call, h4]
  simp only [Option.bind_eq_bind, Option.bind_some, if_pos h5, Option.some.injEq, Prod.mk.injEq, true_and]
  rw [h3, List.map_map, ← List.map_uncurry_zip_eq_zipWith]
  refine List.map_congr_left fun d _ => ?_
  rcases d with ⟨d, t⟩
  cases t <;> rfl

/-- The module has a procedure for every C function but the two without arguments, which are bound directly. -/
theorem C76_wrapped : ∀ p ∈ cProtos, (∃ w ∈ fWrappers, w.name = p.name) ∨
    (p.args = [] ∧ ∃ i ∈ fIfaces, i.name = p.name ∧ i.bind = p.name) := by decide

/-- The size of the work space arrives unchanged exactly if it is below 2^31. -/
theorem C76_worksize (n : ℕ) (hn : n < 2 ^ 64) : fWorkResult n = n ↔ n < 2 ^ 31 := by
  unfold fWorkResult toInt32
  omega

/-! ## Examples -/

example : offsetOf lp64 cShell "ptr" = some 56 ∧ structSize lp64 cShell = 64 := by decide +kernel

example (e : FEnv) : (fWrappers.find? fun w => w.name == "simint_create_multi_shellpair2").bind (fun w => w.call e) =
    some ("simint_create_multi_shellpair2",
      [.int (e.ival "npair"), .ptr (e.addr "AB"), .ptr (e.addr "P"), .int (e.ival "screen_method")]) := rfl

example : fWorkResult (2 ^ 31) = -2 ^ 31 := by decide

end Simint
