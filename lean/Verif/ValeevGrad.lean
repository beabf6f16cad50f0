import Verif.ValeevArrayLemmas
import Verif.CoulombDeriv
import Verif.Spec.ShellPairs
import Verif.Props.Valeev

/-!
# Values and derivatives of contracted integrals in the arrays of reference values
-/

set_option autoImplicit false

open Real

namespace Simint

/-- The integral of four primitives. -/
noncomputable def coulombS (S : RRType → Shell ℝ) (m : RRType → ℕ) (g : RRType → Exp) : ℝ :=
  coulomb ((S .I).alpha (m .I)) ((S .J).alpha (m .J)) ((S .K).alpha (m .K)) ((S .L).alpha (m .L))
    (S .I).pos (S .J).pos (S .K).pos (S .L).pos (g .I) (g .J) (g .K) (g .L)

/-- Argument of the Boys function for four primitives. -/
noncomputable def argS (S : RRType → Shell ℝ) (m : RRType → ℕ) : ℝ :=
  boysArg ((S .I).alpha (m .I)) ((S .J).alpha (m .J)) ((S .K).alpha (m .K)) ((S .L).alpha (m .L))
    (S .I).pos (S .J).pos (S .K).pos (S .L).pos

/-- The primitives `m` exist. -/
def PrimsOf (S : RRType → Shell ℝ) (m : RRType → ℕ) : Prop := ∀ t, m t < (S t).nprim

/-- All exponents are positive. -/
def PosExp (S : RRType → Shell ℝ) : Prop := ∀ t, ∀ m < (S t).nprim, 0 < (S t).alpha m

/-- The routine for the Boys function is exact for the arguments of these shells, up to order `n`. -/
def BoysExact (bf : ℕ → ℝ → Option (List ℝ)) (S : RRType → Shell ℝ) (n : ℕ) : Prop :=
  ∀ m, PrimsOf S m → ∀ N ≤ n, bf N (argS S m) = some ((List.range (N + 1)).map fun k => boysF k (argS S m))

theorem toExp_get {e : Exp} (h : e.Valid) : toExp (fun i => (e.get i).toNat) = e := by
  have h' := fun i => (Exp.valid_iff e).1 h i
  unfold toExp
  ext
  · simpa [Exp.get] using h' .x
  · simpa [Exp.get] using h' .y
  · simpa [Exp.get] using h' .z

theorem lTot_get {n : ℕ} {e : Exp} (h : IsComp n e) : lTot (fun i => (e.get i).toNat) = n := by
  obtain ⟨h1, h2, h3, h4⟩ := h
  simp only [lTot, Exp.get]; omega

section
variable {bf : ℕ → ℝ → Option (List ℝ)} {S : RRType → Shell ℝ} {n : RRType → ℕ} {g : RRType → Exp} {m : RRType → ℕ}

/-- Total angular momentum. -/
def amSum (n : RRType → ℕ) : ℕ := n .I + n .J + n .K + n .L

theorem refEri_eq (hS : PosExp S) (hm : PrimsOf S m) (hg : ∀ t, IsComp (n t) (g t)) (hn : amSum n < 200)
    (hb : bf (amSum n) (argS S m) = some ((List.range (amSum n + 1)).map fun k => boysF k (argS S m))) :
    refEri bf S false m g = some (coulombS S m g) ∧
    ∃ c : RRType → ℝ, (∀ t, UnitNorm (c t) ((S t).alpha (m t)) (g t)) ∧
      refEri bf S true m g = some (c .I * c .J * c .K * c .L * coulombS S m g) := by
  have hl : lTot (fun i => ((g .I).get i).toNat) + lTot (fun i => ((g .J).get i).toNat) +
      lTot (fun i => ((g .K).get i).toNat) + lTot (fun i => ((g .L).get i).toNat) = amSum n := by
    rw [lTot_get (hg .I), lTot_get (hg .J), lTot_get (hg .K), lTot_get (hg .L)]; rfl
  have he := fun t => toExp_get (hg t).valid
  obtain ⟨h1, n1, n2, n3, n4, u1, u2, u3, u4, h2⟩ := C72_eri bf (hS .I _ (hm .I)) (hS .J _ (hm .J)) (hS .K _ (hm .K))
    (hS .L _ (hm .L)) (S .I).pos (S .J).pos (S .K).pos (S .L).pos (hl.symm ▸ hn) (by rw [hl]; exact hb)
  rw [he, he, he, he] at h1 h2
  rw [he] at u1 u2 u3 u4
  refine ⟨h1, four n1 n2 n3 n4, fun t => ?_, h2⟩
  cases t
  exacts [u1, u2, u3, u4]

/-- The four nested sums. -/
noncomputable def sumPrims (S : RRType → Shell ℝ) (v : (RRType → ℕ) → ℝ) : ℝ :=
  ∑ i ∈ Finset.range (S .I).nprim, ∑ j ∈ Finset.range (S .J).nprim,
    ∑ k ∈ Finset.range (S .K).nprim, ∑ l ∈ Finset.range (S .L).nprim, v (four i j k l)

theorem refPrims_eq {f : (RRType → ℕ) → Option ℝ} (v : (RRType → ℕ) → ℝ) (h : ∀ m, PrimsOf S m → f m = some (v m)) :
    refPrims S f = some (sumPrims S v) := by
  unfold refPrims sumPrims
  refine osum_eq _ fun i hi => osum_eq _ fun j hj => osum_eq _ fun k hk => osum_eq _ fun l hl => h _ fun t => ?_
  cases t <;> assumption

theorem sumPrims_congr {v v' : (RRType → ℕ) → ℝ} (h : ∀ m, PrimsOf S m → v m = v' m) :
    sumPrims S v = sumPrims S v' := by
  unfold sumPrims
  refine Finset.sum_congr rfl fun i hi => Finset.sum_congr rfl fun j hj => Finset.sum_congr rfl fun k hk =>
    Finset.sum_congr rfl fun l hl => h _ fun t => ?_
  rw [Finset.mem_range] at hi hj hk hl
  cases t <;> assumption

theorem sumPrims_add (v v' : (RRType → ℕ) → ℝ) : sumPrims S v + sumPrims S v' = sumPrims S fun m => v m + v' m := by
  simp only [sumPrims, Finset.sum_add_distrib]

theorem sumPrims_zero : sumPrims S (fun _ => 0) = 0 := by simp [sumPrims]

/-- Product of the coefficients. -/
noncomputable def coefS (S : RRType → Shell ℝ) (m : RRType → ℕ) : ℝ :=
  (S .I).coef (m .I) * (S .J).coef (m .J) * (S .K).coef (m .K) * (S .L).coef (m .L)

theorem shellERI_sum : shellERI (S .I) (S .J) (S .K) (S .L) (g .I) (g .J) (g .K) (g .L) =
    sumPrims S fun m => coefS S m * coulombS S m g := by
  unfold shellERI sumPrims
  refine Finset.sum_congr rfl fun i hi => Finset.sum_congr rfl fun j hj => Finset.sum_congr rfl fun k hk =>
    Finset.sum_congr rfl fun l hl => ?_
  simp only [coefS, coulombS, four]
  ring

theorem refInt_eq (hS : PosExp S) (hg : ∀ t, IsComp (n t) (g t)) (hn : amSum n < 200)
    (hb : BoysExact bf S (amSum n)) :
    refInt bf S false g = some (shellERI (S .I) (S .J) (S .K) (S .L) (g .I) (g .J) (g .K) (g .L)) := by
  rw [shellERI_sum, refInt]
  refine refPrims_eq (fun m => coefS S m * coulombS S m g) fun m hm => ?_
  rw [(refEri_eq hS hm hg hn (hb m hm _ le_rfl)).1]
  simp only [Option.bind_eq_bind, Option.bind_some, coefS]
  refine congrArg some ?_
  ring

/-- Shells with every coefficient multiplied by a number. -/
noncomputable def scaleCoef (S : RRType → Shell ℝ) (c : RRType → ℕ → ℝ) (t : RRType) : Shell ℝ :=
  { S t with coef := fun m => (S t).coef m * c t m }

theorem exists_norm {α : ℝ} (hα : 0 < α) {k : ℕ} {e : Exp} (h : IsComp k e) (hk : k < 200) :
    ∃ c, normConst (fun i => (e.get i).toNat) α = some c ∧ UnitNorm c α e := by
  have := normConst_eq (l := fun i => (e.get i).toNat) (by rw [lTot_get h]; exact hk) hα
  rwa [toExp_get h.valid] at this

theorem refEri_norm (hS : PosExp S) (hm : PrimsOf S m) (hg : ∀ t, IsComp (n t) (g t)) (hn : amSum n < 200)
    (hb : bf (amSum n) (argS S m) = some ((List.range (amSum n + 1)).map fun k => boysF k (argS S m)))
    {c : RRType → ℝ} (hc : ∀ t, normConst (fun i => ((g t).get i).toNat) ((S t).alpha (m t)) = some (c t)) :
    refEri bf S true m g = some (c .I * c .J * c .K * c .L * coulombS S m g) := by
  have hl : lTot (fun i => ((g .I).get i).toNat) + lTot (fun i => ((g .J).get i).toNat) +
      lTot (fun i => ((g .K).get i).toNat) + lTot (fun i => ((g .L).get i).toNat) = amSum n := by
    rw [lTot_get (hg .I), lTot_get (hg .J), lTot_get (hg .K), lTot_get (hg .L)]; rfl
  have h1 := (refEri_eq hS hm hg hn hb).1
  have hn' := hl.symm ▸ hn
  have e := fun norm => valeevEri_eq bf (hS .I _ (hm .I)) (hS .J _ (hm .J)) (hS .K _ (hm .K)) (hS .L _ (hm .L))
    (S .I).pos (S .J).pos (S .K).pos (S .L).pos hn' (φ := fun k => boysF k (argS S m)) (by rw [hl]; exact hb) norm
    (hc .I) (hc .J) (hc .K) (hc .L)
  have e1 := h1.symm.trans (e false)
  rw [Option.some.injEq] at e1
  refine (e true).trans (congrArg some ?_)
  rw [e1]
  simp only [if_true, Bool.false_eq_true, if_false, mul_one]
  generalize c .I * c .J * c .K * c .L = u
  rw [mul_comm u, mul_assoc]

theorem refInt_norm (hS : PosExp S) (hg : ∀ t, IsComp (n t) (g t)) (hn : amSum n < 200)
    (hb : BoysExact bf S (amSum n)) :
    ∃ c : RRType → ℕ → ℝ, (∀ t, ∀ m < (S t).nprim, UnitNorm (c t m) ((S t).alpha m) (g t)) ∧
      refInt bf S true g = some (shellERI (scaleCoef S c .I) (scaleCoef S c .J) (scaleCoef S c .K) (scaleCoef S c .L)
        (g .I) (g .J) (g .K) (g .L)) := by
  have hnt : ∀ t, n t < 200 := fun t => by unfold amSum at hn; cases t <;> omega
  have hex : ∀ t m, ∃ c, m < (S t).nprim → normConst (fun i => ((g t).get i).toNat) ((S t).alpha m) = some c ∧
      UnitNorm c ((S t).alpha m) (g t) := fun t m => by
    by_cases h : m < (S t).nprim
    · obtain ⟨c, h1⟩ := exists_norm (hS t m h) (hg t) (hnt t)
      exact ⟨c, fun _ => h1⟩
    · exact ⟨0, fun h' => absurd h' h⟩
  choose c hc using hex
  refine ⟨c, fun t m h => (hc t m h).2, ?_⟩
  have e := shellERI_sum (S := scaleCoef S c) (g := g)
  have e' : sumPrims (scaleCoef S c) (fun m => coefS (scaleCoef S c) m * coulombS (scaleCoef S c) m g) =
      sumPrims S (fun m => coefS (scaleCoef S c) m * coulombS S m g) := rfl
  rw [e, e', refInt]
  refine refPrims_eq (fun m => coefS (scaleCoef S c) m * coulombS S m g) fun m hm => ?_
  rw [refEri_norm hS hm hg hn (hb m hm _ le_rfl) (c := fun t => c t (m t)) fun t => (hc t _ (hm t)).1]
  simp only [Option.bind_eq_bind, Option.bind_some, coefS, scaleCoef]
  refine congrArg some ?_
  ring

/-! ## Derivatives -/

/-- Derivative of the integral of four primitives. -/
noncomputable def gradS (S : RRType → Shell ℝ) (m : RRType → ℕ) (g : RRType → Exp) (t : RRType) (d : Dir) : ℝ :=
  2 * (S t).alpha (m t) * coulombS S m (Function.update g t ((g t).step d 1)) -
    ((g t).get d : ℝ) * coulombS S m (Function.update g t ((g t).step d (-1)))

/-- The shells with coordinate `d` of center `t` moved to `x`. -/
noncomputable def moveS (S : RRType → Shell ℝ) (t : RRType) (d : Dir) (x : ℝ) (s : RRType) : Shell ℝ :=
  if s = t then { S s with pos := Function.update (S s).pos d x } else S s

theorem movedERI_eq (t : RRType) (d : Dir) (x : ℝ) :
    movedERI (S .I) (S .J) (S .K) (S .L) (g .I) (g .J) (g .K) (g .L) t d x =
      shellERI (moveS S t d x .I) (moveS S t d x .J) (moveS S t d x .K) (moveS S t d x .L)
        (g .I) (g .J) (g .K) (g .L) := rfl

theorem gradS_hasDerivAt (hS : PosExp S) (hm : PrimsOf S m) (hg : ∀ t, (g t).Valid) (t : RRType) (d : Dir) :
    HasDerivAt (fun x => coulombS (moveS S t d x) m g) (gradS S m g t d) ((S t).pos d) := by
  have h := fun t => hS t _ (hm t)
  have hv := fun t => (Exp.valid_iff _).1 (hg t) d
  cases t <;> simp only [coulombS, moveS, gradS, reduceCtorEq, if_true, if_false, Function.update_self, ne_eq,
    not_false_eq_true, Function.update_of_ne]
  · exact coulomb_hasDerivAt_1 (h .I) (h .J) (h .K) (h .L) _ _ _ _ _ _ _ _ d (hv .I)
  · exact coulomb_hasDerivAt_2 (h .I) (h .J) (h .K) (h .L) _ _ _ _ _ _ _ _ d (hv .J)
  · exact coulomb_hasDerivAt_3 (h .I) (h .J) (h .K) (h .L) _ _ _ _ _ _ _ _ d (hv .K)
  · exact coulomb_hasDerivAt_4 (h .I) (h .J) (h .K) (h .L) _ _ _ _ _ _ _ _ d (hv .L)

theorem gradS_trans (hS : PosExp S) (hm : PrimsOf S m) (hg : ∀ t, (g t).Valid) (d : Dir) :
    gradS S m g .I d + gradS S m g .J d + gradS S m g .K d + gradS S m g .L d = 0 := by
  simp only [coulombS, gradS, Function.update_self, ne_eq, not_false_eq_true, Function.update_of_ne, reduceCtorEq]
  exact coulomb_trans (hS .I _ (hm .I)) (hS .J _ (hm .J)) (hS .K _ (hm .K)) (hS .L _ (hm .L)) _ _ _ _ _ _ _ _ d
    (hg .I) (hg .J) (hg .K) (hg .L)

/-- Derivative of a contracted integral. -/
noncomputable def gradERI (S : RRType → Shell ℝ) (g : RRType → Exp) (t : RRType) (d : Dir) : ℝ :=
  sumPrims S fun m => coefS S m * gradS S m g t d

theorem moveS_nprim (t : RRType) (d : Dir) (x : ℝ) (s : RRType) : (moveS S t d x s).nprim = (S s).nprim := by
  unfold moveS; split_ifs <;> rfl

theorem moveS_coef (t : RRType) (d : Dir) (x : ℝ) (s : RRType) : (moveS S t d x s).coef = (S s).coef := by
  unfold moveS; split_ifs <;> rfl

theorem gradERI_hasDerivAt (hS : PosExp S) (hg : ∀ t, (g t).Valid) (t : RRType) (d : Dir) :
    HasDerivAt (movedERI (S .I) (S .J) (S .K) (S .L) (g .I) (g .J) (g .K) (g .L) t d) (gradERI S g t d)
      ((S t).pos d) := by
  have e : movedERI (S .I) (S .J) (S .K) (S .L) (g .I) (g .J) (g .K) (g .L) t d = fun x =>
      ∑ i ∈ Finset.range (S .I).nprim, ∑ j ∈ Finset.range (S .J).nprim, ∑ k ∈ Finset.range (S .K).nprim,
        ∑ l ∈ Finset.range (S .L).nprim, coefS S (four i j k l) * coulombS (moveS S t d x) (four i j k l) g := by
    funext x
    rw [movedERI_eq, shellERI_sum]
    simp only [sumPrims, moveS_nprim, coefS, moveS_coef]
  rw [e]
  refine HasDerivAt.fun_sum fun i hi => HasDerivAt.fun_sum fun j hj => HasDerivAt.fun_sum fun k hk =>
    HasDerivAt.fun_sum fun l hl => HasDerivAt.const_mul _ (gradS_hasDerivAt hS (fun s => ?_) hg t d)
  rw [Finset.mem_range] at hi hj hk hl
  cases s <;> assumption

theorem gradERI_trans (hS : PosExp S) (hg : ∀ t, (g t).Valid) (d : Dir) :
    gradERI S g .L d = -(gradERI S g .I d + gradERI S g .J d + gradERI S g .K d) := by
  have : gradERI S g .I d + gradERI S g .J d + gradERI S g .K d + gradERI S g .L d = 0 := by
    unfold gradERI
    rw [sumPrims_add, sumPrims_add, sumPrims_add, ← sumPrims_zero (S := S)]
    refine sumPrims_congr fun m hm => ?_
    have := gradS_trans hS hm hg d
    rw [← mul_add, ← mul_add, ← mul_add, this, mul_zero]
  linarith

theorem IsComp.raise {k : ℕ} {e : Exp} (h : IsComp k e) (d : Dir) : IsComp (k + 1) (e.step d 1) := by
  obtain ⟨h1, h2, h3, h4⟩ := h
  cases d <;> (simp only [IsComp, Exp.step]; push_cast; omega)

theorem IsComp.lower {k : ℕ} {e : Exp} (h : IsComp k e) {d : Dir} (hv : refValid (e.step d (-1)) = true) :
    IsComp (k - 1) (e.step d (-1)) ∧ 0 < k := by
  obtain ⟨h1, h2, h3, h4⟩ := h
  rw [refValid, decide_eq_true_eq] at hv
  cases d <;> (simp only [Exp.step, IsComp] at hv ⊢; omega)

theorem get_zero {k : ℕ} {e : Exp} (h : IsComp k e) {d : Dir} (hv : ¬ refValid (e.step d (-1)) = true) :
    e.get d = 0 := by
  obtain ⟨h1, h2, h3, h4⟩ := h
  rw [refValid, decide_eq_true_eq] at hv
  cases d <;> (simp only [Exp.step, Exp.get] at hv ⊢; omega)

theorem refGrad_eq (hS : PosExp S) (hg : ∀ t, IsComp (n t) (g t)) (hn : amSum n + 1 < 200)
    (hb : BoysExact bf S (amSum n + 1)) (t : RRType) (d : Dir) :
    refGrad bf S false g t d = some (gradERI S g t d) := by
  refine refPrims_eq (fun m => coefS S m * gradS S m g t d) fun m hm => ?_
  have hr : ∀ s, IsComp (Function.update n t (n t + 1) s) (Function.update g t ((g t).step d 1) s) := by
    intro s
    by_cases h : s = t
    · subst h; simpa using (hg s).raise d
    · simpa [Function.update_of_ne h] using hg s
  have hs1 : amSum (Function.update n t (n t + 1)) = amSum n + 1 := by
    unfold amSum; cases t <;> simp [Function.update] <;> omega
  have e1 := (refEri_eq (bf := bf) hS hm hr (by rw [hs1]; exact hn)
    (hb m hm _ hs1.le)).1
  have e2 : ∃ x, refLow bf S false m g t d = some x ∧
      x * ((g t).get d : ℝ) = ((g t).get d : ℝ) * coulombS S m (Function.update g t ((g t).step d (-1))) := by
    unfold refLow
    by_cases hv : refValid ((g t).step d (-1)) = true
    · have hl : ∀ s, IsComp (Function.update n t (n t - 1) s) (Function.update g t ((g t).step d (-1)) s) := by
        intro s
        by_cases h : s = t
        · subst h; simpa using ((hg s).lower hv).1
        · simpa [Function.update_of_ne h] using hg s
      have hs2 : amSum (Function.update n t (n t - 1)) ≤ amSum n + 1 := by
        unfold amSum; cases t <;> simp [Function.update] <;> omega
      refine ⟨_, ?_, mul_comm _ _⟩
      simp only [hv, if_true]
      exact (refEri_eq hS hm hl (by omega) (hb m hm _ hs2)).1
    · refine ⟨0, ?_, ?_⟩
      · simp [hv]
      · rw [get_zero (hg t) hv]; simp
  obtain ⟨x, e2, e3⟩ := e2
  rw [e1, e2]
  simp only [Option.bind_eq_bind, Option.bind_some]
  refine congrArg some ?_
  rw [e3]
  simp only [gradS, coefS]
  ring

/-- The twelve derivatives in the order of the output. -/
noncomputable def gradList (S : RRType → Shell ℝ) (g : RRType → Exp) : List ℝ :=
  [gradERI S g .I .x, gradERI S g .I .y, gradERI S g .I .z, gradERI S g .J .x, gradERI S g .J .y, gradERI S g .J .z,
   gradERI S g .K .x, gradERI S g .K .y, gradERI S g .K .z, gradERI S g .L .x, gradERI S g .L .y, gradERI S g .L .z]

theorem gradList_get (t : RRType) (d : Dir) : (gradList S g)[3 * t.idx + d.idx]? = some (gradERI S g t d) := by
  cases t <;> cases d <;> rfl

theorem refTwelve_eq (hS : PosExp S) (hg : ∀ t, IsComp (n t) (g t)) (hn : amSum n + 1 < 200)
    (hb : BoysExact bf S (amSum n + 1)) : refTwelve bf S false g = some (gradList S g) := by
  have hv := fun t => (hg t).valid
  unfold refTwelve
  have h := fun t => mapM_map_some (l := refDirs) (f := refGrad bf S false g t) (g := gradERI S g t)
    fun d _ => refGrad_eq hS hg hn hb t d
  rw [h, h, h]
  simp only [Option.bind_eq_bind, Option.bind_some, refDirs, List.map_cons, List.map_nil, gradList]
  rw [gradERI_trans hS hv .x, gradERI_trans hS hv .y, gradERI_trans hS hv .z]
  rfl

end

end Simint
