import Verif.ValeevGrad
import Verif.Props.FastScreen

/-!
# The arrays of reference values of the tests (C74)

Specifications: `shellERI` and `movedERI` (Spec/ShellPairs.lean) for values and derivatives, `Qrt.index psi4List` for
the position of a component in the output of the library (Spec of C19 and C34).
-/

set_option autoImplicit false

open Real

namespace Simint

/-- What the caller has to provide: positive exponents, a total angular momentum (plus `extra`) below the size of the
tables, and a routine for the Boys function that is exact for these shells. -/
structure RefOK (r : RefArgs) (bf : ℕ → ℝ → Option (List ℝ)) (extra : ℕ) : Prop where
  exp : ∀ i < r.n .I, ∀ j < r.n .J, ∀ k < r.n .K, ∀ l < r.n .L,
    PosExp (four (r.sh .I i) (r.sh .J j) (r.sh .K k) (r.sh .L l))
  am : (amSum fun t => (r.sh t 0).am) + extra < 200
  boys : ∀ i < r.n .I, ∀ j < r.n .J, ∀ k < r.n .K, ∀ l < r.n .L,
    BoysExact bf (four (r.sh .I i) (r.sh .J j) (r.sh .K k) (r.sh .L l)) ((amSum fun t => (r.sh t 0).am) + extra)

/-- Number of a combination of shells. -/
def RefArgs.quartet (r : RefArgs) (i j k l : ℕ) : ℕ := ((i * r.n .J + j) * r.n .K + k) * r.n .L + l

/-- The components are those of the angular momenta of the call. -/
def RefArgs.Comps (r : RefArgs) (x y z w : Exp) : Prop :=
  IsComp (r.sh .I 0).am x ∧ IsComp (r.sh .J 0).am y ∧ IsComp (r.sh .K 0).am z ∧ IsComp (r.sh .L 0).am w

theorem RefArgs.Comps.all {r : RefArgs} {x y z w : Exp} (h : r.Comps x y z w) :
    ∀ t, IsComp (r.am t) (four x y z w t) := by
  obtain ⟨h1, h2, h3, h4⟩ := h
  intro t
  cases t <;> assumption

/-- The array holds the integrals in the order of the library. -/
def RefArgs.ValueLayout (r : RefArgs) (m : ℕ → ℝ) : Prop :=
  ∀ i < r.n .I, ∀ j < r.n .J, ∀ k < r.n .K, ∀ l < r.n .L, ∀ x y z w, r.Comps x y z w →
    m (r.quartet i j k l * r.ncart + Qrt.index psi4List ⟨⟨x, y⟩, ⟨z, w⟩, 0⟩) =
      shellERI (r.sh .I i) (r.sh .J j) (r.sh .K k) (r.sh .L l) x y z w

/-- The array holds the twelve first derivatives of every component in the order of the library. -/
def RefArgs.GradLayout (r : RefArgs) (m : ℕ → ℝ) : Prop :=
  ∀ i < r.n .I, ∀ j < r.n .J, ∀ k < r.n .K, ∀ l < r.n .L, ∀ x y z w, r.Comps x y z w → ∀ t d,
    HasDerivAt (movedERI (r.sh .I i) (r.sh .J j) (r.sh .K k) (r.sh .L l) x y z w t d)
      (m (r.quartet i j k l * (12 * r.ncart) +
        (12 * Qrt.index psi4List ⟨⟨x, y⟩, ⟨z, w⟩, 0⟩ + (3 * t.idx + d.idx))))
      (shellCenter (r.sh .I i) (r.sh .J j) (r.sh .K k) (r.sh .L l) t d)

/-! ## Integrals -/

/-- The order of the components is the one of the generator. -/
theorem C74_order (am : ℕ) : refOrder am = psi4List am ∧
    ∀ f, ncart am < f → refDo f ⟨am, 0, 0⟩ = psi4List am :=
  ⟨refOrder_eq am, fun f hf => (refDo_fuel am f hf).trans (refOrder_eq am)⟩

theorem vals0 {r : RefArgs} {bf : ℕ → ℝ → Option (List ℝ)} (h : RefOK r bf 0) :
    r.Vals (fun S g => (refInt bf S false g).map fun v => [v])
      (fun S g => [shellERI (S .I) (S .J) (S .K) (S .L) (g .I) (g .J) (g .K) (g .L)]) 1 where
  eq := fun i hi j hj k hk l hl g hg => by
    rw [refInt_eq (n := r.am) (h.exp i hi j hj k hk l hl) hg h.am (h.boys i hi j hj k hk l hl)]
    rfl
  len := fun _ _ => rfl

/-- `ValeevRef_Deriv0` without normalisation: with an array that is large enough it stores every integral in the place
where the library has it, and nothing else. -/
theorem C74_values {r : RefArgs} {bf : ℕ → ℝ → Option (List ℝ)} (h : RefOK r bf 0) {size : ℕ}
    (hs : r.n .I * r.n234 ≤ size) (mem : ℕ → ℝ) :
    ∃ m, r.deriv0 bf false size mem = some m ∧ r.ValueLayout m ∧ ∀ a, r.n .I * r.n234 ≤ a → m a = mem a := by
  have hv := vals0 h
  obtain ⟨m, hm⟩ : ∃ m, r.deriv0 bf false size mem = some m := by
    by_cases h0 : 0 < r.n .I ∧ 0 < r.n234
    · refine Option.isSome_iff_exists.1 ((hv.fits one_pos h0).2 ?_)
      obtain ⟨q, hq⟩ : ∃ q, r.n .I = q + 1 := ⟨r.n .I - 1, by omega⟩
      rw [hq] at hs ⊢
      rw [Nat.succ_mul] at hs
      simpa using hs
    · refine Option.isSome_iff_exists.1 ?_
      rw [RefArgs.deriv0, hv.rows]
      simp only [Option.bind_eq_bind, Option.bind_some, putAll_iff]
      rintro ⟨a, x⟩ hx
      obtain ⟨i', idx', row, h1, h2, rfl⟩ := r.mem_stores.1 hx
      have hi' : i' < r.n .I := by
        have := (List.getElem?_eq_some_iff.1 h1).1
        simpa using this
      rw [map_get' (List.getElem?_range hi'), Option.some.injEq] at h1
      subst h1
      have hb := (List.getElem?_eq_some_iff.1 h2).1
      rw [RefArgs.rowOf_length hv.len, mul_one] at hb
      exact absurd ⟨by omega, by omega⟩ h0
  obtain ⟨h1, h2⟩ := hv.stored hm (Or.inl rfl)
  refine ⟨m, hm, fun i hi j hj k hk l hl x y z w hc => ?_, fun a ha => h2 a (by simpa using ha)⟩
  have := h1 i hi j hj k hk l hl (four x y z w) hc.all 0 one_pos
  simp only [List.getElem?_cons_zero, Option.some.injEq, mul_one, add_zero] at this
  exact this.symm

/-- The size that is needed, exactly. -/
theorem C74_values_size {r : RefArgs} {bf : ℕ → ℝ → Option (List ℝ)} (h : RefOK r bf 0)
    (hn : ∀ t, 0 < r.n t) (size : ℕ) (mem : ℕ → ℝ) :
    (r.deriv0 bf false size mem).isSome ↔ r.n .I * r.n .J * r.n .K * r.n .L * r.ncart ≤ size := by
  have hc : 0 < r.ncart := by
    unfold RefArgs.ncart
    have := fun t => isComp_start (r.am t)
    have : ∀ k : ℕ, 0 < ncart k := fun k => (Nat.zero_le _).trans_lt (rank_lt (isComp_start k))
    exact Nat.mul_pos (Nat.mul_pos (Nat.mul_pos (this _) (this _)) (this _)) (this _)
  have h0 : 0 < r.n234 := Nat.mul_pos (Nat.mul_pos (Nat.mul_pos (hn .J) (hn .K)) (hn .L)) hc
  refine ((vals0 h).fits one_pos ⟨hn .I, h0⟩).trans ?_
  obtain ⟨q, hq⟩ : ∃ q, r.n .I = q + 1 := ⟨r.n .I - 1, by have := hn .I; omega⟩
  have e : r.n .I * r.n .J * r.n .K * r.n .L * r.ncart = (r.n .I - 1) * r.n234 + r.n234 * 1 := by
    rw [hq, RefArgs.n234, Nat.add_sub_cancel]; ring
  rw [e]

/-- With normalisation every primitive is replaced by one of norm one, for each component separately. -/
theorem C74_values_norm {r : RefArgs} {bf : ℕ → ℝ → Option (List ℝ)} (h : RefOK r bf 0) {size : ℕ} {mem m : ℕ → ℝ}
    (hm : r.deriv0 bf true size mem = some m) :
    ∀ i < r.n .I, ∀ j < r.n .J, ∀ k < r.n .K, ∀ l < r.n .L, ∀ x y z w, r.Comps x y z w →
      ∃ c : RRType → ℕ → ℝ,
        (∀ t, ∀ p < (four (r.sh .I i) (r.sh .J j) (r.sh .K k) (r.sh .L l) t).nprim,
          UnitNorm (c t p) ((four (r.sh .I i) (r.sh .J j) (r.sh .K k) (r.sh .L l) t).alpha p) (four x y z w t)) ∧
        m (r.quartet i j k l * r.ncart + Qrt.index psi4List ⟨⟨x, y⟩, ⟨z, w⟩, 0⟩) =
          shellERI { r.sh .I i with coef := fun p => (r.sh .I i).coef p * c .I p }
            { r.sh .J j with coef := fun p => (r.sh .J j).coef p * c .J p }
            { r.sh .K k with coef := fun p => (r.sh .K k).coef p * c .K p }
            { r.sh .L l with coef := fun p => (r.sh .L l).coef p * c .L p } x y z w := by
  have hex : ∀ S g, ∃ v, (∃ i < r.n .I, ∃ j < r.n .J, ∃ k < r.n .K, ∃ l < r.n .L,
      S = four (r.sh .I i) (r.sh .J j) (r.sh .K k) (r.sh .L l)) → (∀ t, IsComp (r.am t) (g t)) →
      refInt bf S true g = some v := by
    intro S g
    by_cases hc : (∃ i < r.n .I, ∃ j < r.n .J, ∃ k < r.n .K, ∃ l < r.n .L,
      S = four (r.sh .I i) (r.sh .J j) (r.sh .K k) (r.sh .L l)) ∧ ∀ t, IsComp (r.am t) (g t)
    · obtain ⟨⟨i, hi, j, hj, k, hk, l, hl, rfl⟩, hg⟩ := hc
      obtain ⟨c, -, e⟩ := refInt_norm (n := r.am) (h.exp i hi j hj k hk l hl) hg h.am (h.boys i hi j hj k hk l hl)
      exact ⟨_, fun _ _ => e⟩
    · exact ⟨0, fun h1 h2 => absurd ⟨h1, h2⟩ hc⟩
  choose v hv using hex
  have hvals : r.Vals (fun S g => (refInt bf S true g).map fun v => [v]) (fun S g => [v S g]) 1 :=
    ⟨fun i hi j hj k hk l hl g hg => by
      rw [hv _ g ⟨i, hi, j, hj, k, hk, l, hl, rfl⟩ hg]; rfl, fun _ _ => rfl⟩
  obtain ⟨h1, -⟩ := hvals.stored hm (Or.inl rfl)
  intro i hi j hj k hk l hl x y z w hc
  have e := h1 i hi j hj k hk l hl (four x y z w) hc.all 0 one_pos
  simp only [List.getElem?_cons_zero, Option.some.injEq, mul_one, add_zero] at e
  obtain ⟨c, hu, e'⟩ := refInt_norm (n := r.am) (h.exp i hi j hj k hk l hl) hc.all h.am (h.boys i hi j hj k hk l hl)
  rw [hv _ _ ⟨i, hi, j, hj, k, hk, l, hl, rfl⟩ hc.all, Option.some.injEq] at e'
  exact ⟨c, hu, e.symm.trans e'⟩

/-! ## Derivatives -/

theorem vals1 {r : RefArgs} {bf : ℕ → ℝ → Option (List ℝ)} (h : RefOK r bf 1) :
    r.Vals (fun S g => refTwelve bf S false g) (fun S g => gradList S g) 12 where
  eq := fun i hi j hj k hk l hl g hg => by
    rw [refTwelve_eq (n := r.am) (h.exp i hi j hj k hk l hl) hg h.am (h.boys i hi j hj k hk l hl)]
  len := fun _ _ => rfl

/-- `ValeevRef_Deriv1` without normalisation for one shell in the first array: the derivatives of all integrals with
respect to all coordinates, in the order of the library. -/
theorem C74_gradients_partial {r : RefArgs} {bf : ℕ → ℝ → Option (List ℝ)} (h : RefOK r bf 1) (h1 : r.n .I = 1)
    {size : ℕ} (hs : 12 * r.n234 ≤ size) (mem : ℕ → ℝ) :
    ∃ m, r.deriv1 bf false size mem = some m ∧ r.GradLayout m ∧ ∀ a, 12 * r.n234 ≤ a → m a = mem a := by
  have hv := vals1 h
  obtain ⟨m, hm⟩ : ∃ m, r.deriv1 bf false size mem = some m := by
    refine Option.isSome_iff_exists.1 ?_
    rw [RefArgs.deriv1, hv.rows]
    simp only [Option.bind_eq_bind, Option.bind_some, putAll_iff]
    rintro ⟨a, x⟩ hx
    obtain ⟨i', idx', row, h1', h2, rfl⟩ := r.mem_stores.1 hx
    have hi' : i' < r.n .I := by
      have := (List.getElem?_eq_some_iff.1 h1').1
      simpa using this
    rw [map_get' (List.getElem?_range hi'), Option.some.injEq] at h1'
    subst h1'
    have hb := (List.getElem?_eq_some_iff.1 h2).1
    rw [RefArgs.rowOf_length hv.len] at hb
    have : i' = 0 := by omega
    subst this
    simp only
    omega
  obtain ⟨h2, h3⟩ := hv.stored hm (Or.inr h1)
  refine ⟨m, hm, fun i hi j hj k hk l hl x y z w hc t d => ?_, fun a ha => h3 a ?_⟩
  · have e := h2 i hi j hj k hk l hl (four x y z w) hc.all (3 * t.idx + d.idx)
      (by cases t <;> cases d <;> decide)
    rw [gradList_get, Option.some.injEq] at e
    have ea : r.quartet i j k l * (12 * r.ncart) +
        (12 * Qrt.index psi4List ⟨⟨x, y⟩, ⟨z, w⟩, 0⟩ + (3 * t.idx + d.idx)) =
        (((i * r.n .J + j) * r.n .K + k) * r.n .L + l) * (r.ncart * 12) +
          (RefArgs.compPos (four x y z w) * 12 + (3 * t.idx + d.idx)) := by
      simp only [RefArgs.quartet, RefArgs.compPos, four]; ring
    rw [ea, ← e]
    have := gradERI_hasDerivAt (h.exp i hi j hj k hk l hl) (fun s => (hc.all s).valid) t d
    cases t <;> exact this
  · rw [h1, one_mul, mul_comm]; exact ha

/-- Several shells in the first array: the rows overlap.  Row `i` has `12 n234` values but starts at `i n234`, and
what is left at an address is the value of the last row that covers it. -/
theorem C74_gradients_overlap {r : RefArgs} {bf : ℕ → ℝ → Option (List ℝ)} (h : RefOK r bf 1) {size : ℕ}
    {mem m : ℕ → ℝ} (hm : r.deriv1 bf false size mem = some m) {i : ℕ} (hi : i < r.n .I) {j k l : ℕ} (hj : j < r.n .J)
    (hk : k < r.n .K) (hl : l < r.n .L) {x y z w : Exp} (hc : r.Comps x y z w) (t : RRType) (d : Dir) {idx : ℕ}
    (hidx : idx = ((j * r.n .K + k) * r.n .L + l) * (12 * r.ncart) +
      (12 * Qrt.index psi4List ⟨⟨x, y⟩, ⟨z, w⟩, 0⟩ + (3 * t.idx + d.idx)))
    (hlast : i + 1 = r.n .I ∨ idx < r.n234) :
    HasDerivAt (movedERI (r.sh .I i) (r.sh .J j) (r.sh .K k) (r.sh .L l) x y z w t d) (m (i * r.n234 + idx))
      (shellCenter (r.sh .I i) (r.sh .J j) (r.sh .K k) (r.sh .L l) t d) := by
  have hv := vals1 h
  have hget := RefArgs.rowOf_get (r := r) (i := i) hv.len hj hk hl hc.all (e := 3 * t.idx + d.idx)
    (by cases t <;> cases d <;> decide)
  rw [gradList_get] at hget
  have ei : (r.shellPos j k l * r.ncart + RefArgs.compPos (four x y z w)) * 12 + (3 * t.idx + d.idx) = idx := by
    rw [hidx]; simp only [RefArgs.shellPos, RefArgs.compPos, four]; ring
  rw [ei] at hget
  rw [hv.lastRow hm hi hget hlast]
  have := gradERI_hasDerivAt (h.exp i hi j hj k hk l hl) (fun s => (hc.all s).valid) t d
  cases t <;> exact this

/-! ## Where the property fails -/

/-- A routine for the Boys function without error. -/
noncomputable def exactBoys (n : ℕ) (T : ℝ) : Option (List ℝ) := some ((List.range (n + 1)).map fun k => boysF k T)

/-- A point on the `y` axis. -/
def refDemoUp : Dir → ℝ
  | .y => 1
  | _ => 0

/-- One `s` function with exponent 1. -/
def refDemoS (pos : Dir → ℝ) (c : ℝ) : Shell ℝ := ⟨0, 0, 1, pos, fun _ => 1, fun _ => c⟩

/-- `n` shells in the first array, one shell in the others; the second shell has coefficient 0. -/
def refDemoArgs (n : ℕ) : RefArgs where
  sh
    | .I => fun i => refDemoS refDemoUp (if i = 0 then 1 else 0)
    | .J => fun _ => refDemoS (fun _ => 0) 1
    | .K => fun _ => refDemoS refDemoUp 1
    | .L => fun _ => refDemoS (fun _ => 0) 1
  n
    | .I => n
    | _ => 1

theorem refDemoArgs_ok (n : ℕ) : RefOK (refDemoArgs n) exactBoys 1 where
  exp := fun i _ j _ k _ l _ t m _ => by
    cases t <;> exact one_pos
  am := by simp [amSum, RefArgs.am, refDemoArgs, refDemoS]
  boys := fun _ _ _ _ _ _ _ _ _ _ _ _ => rfl

/-- The shells of the first quartet. -/
def refDemoQ : RRType → Shell ℝ := four (refDemoS refDemoUp 1) (refDemoS (fun _ => 0) 1) (refDemoS refDemoUp 1) (refDemoS (fun _ => 0) 1)

/-- Four `s` functions. -/
def refDemoG : RRType → Exp := fun _ => ⟨0, 0, 0⟩

theorem refDemoG_four : four (⟨0, 0, 0⟩ : Exp) ⟨0, 0, 0⟩ ⟨0, 0, 0⟩ ⟨0, 0, 0⟩ = refDemoG := by
  funext t; cases t <;> rfl

theorem refDemo_comps (n : ℕ) : (refDemoArgs n).Comps ⟨0, 0, 0⟩ ⟨0, 0, 0⟩ ⟨0, 0, 0⟩ ⟨0, 0, 0⟩ :=
  ⟨isComp_start 0, isComp_start 0, isComp_start 0, isComp_start 0⟩

theorem refDemo_index : Qrt.index psi4List ⟨⟨⟨0, 0, 0⟩, ⟨0, 0, 0⟩⟩, ⟨⟨0, 0, 0⟩, ⟨0, 0, 0⟩⟩, 0⟩ = 0 := by decide +kernel

theorem refDemo_ncart (n : ℕ) : (refDemoArgs n).ncart = 1 ∧ (refDemoArgs n).n234 = 1 := by
  have h : (refDemoArgs n).ncart = 1 := by
    simp [RefArgs.ncart, RefArgs.am, refDemoArgs, refDemoS, ncart]
  exact ⟨h, by rw [RefArgs.n234, h]; rfl⟩

theorem refDemoQ_pos : PosExp refDemoQ := fun t m _ => by cases t <;> exact one_pos

theorem refDemo_gradERI (t : RRType) (d : Dir) : gradERI refDemoQ refDemoG t d =
    2 * coulombS refDemoQ (fun _ => 0) (Function.update refDemoG t ((refDemoG t).step d 1)) := by
  have e : (four 0 0 0 0 : RRType → ℕ) = fun _ => 0 := by funext s; cases s <;> rfl
  have hn : ∀ s, (refDemoQ s).nprim = 1 := fun s => by cases s <;> rfl
  have hz : (refDemoG t).get d = 0 := by cases d <;> rfl
  have ha : ∀ s k, (refDemoQ s).alpha k = 1 := fun s k => by cases s <;> rfl
  have hc : coefS refDemoQ (fun _ => 0) = 1 := by simp [coefS, refDemoQ, four, refDemoS]
  simp only [gradERI, sumPrims, hn, Finset.sum_range_one, e, hc, gradS, hz, ha]
  push_cast
  ring

/-- The derivatives along `y` of the first two centers do not both vanish. -/
theorem refDemo_nonzero : ¬ (gradERI refDemoQ refDemoG .I .y = 0 ∧ gradERI refDemoQ refDemoG .J .y = 0) := by
  rintro ⟨h1, h2⟩
  rw [refDemo_gradERI] at h1 h2
  have hv : (⟨0, 0, 0⟩ : Exp).Valid := (isComp_start 0).valid
  have hh := (coulomb_hrr one_pos one_pos one_pos one_pos refDemoUp (fun _ => 0) refDemoUp (fun _ => 0)).bra
    ⟨0, 0, 0⟩ ⟨0, 0, 0⟩ ⟨0, 0, 0⟩ ⟨0, 0, 0⟩ .y hv hv hv hv
  have e1 : coulombS refDemoQ (fun _ => 0) (Function.update refDemoG .I ((refDemoG .I).step .y 1)) =
      coulomb 1 1 1 1 refDemoUp (fun _ => 0) refDemoUp (fun _ => 0) ((⟨0, 0, 0⟩ : Exp).step .y 1) ⟨0, 0, 0⟩ ⟨0, 0, 0⟩
        ⟨0, 0, 0⟩ := by
    simp only [coulombS, refDemoQ, four, refDemoS, refDemoG, Function.update_self, ne_eq, not_false_eq_true,
      Function.update_of_ne, reduceCtorEq]
  have e2 : coulombS refDemoQ (fun _ => 0) (Function.update refDemoG .J ((refDemoG .J).step .y 1)) =
      coulomb 1 1 1 1 refDemoUp (fun _ => 0) refDemoUp (fun _ => 0) ⟨0, 0, 0⟩ ((⟨0, 0, 0⟩ : Exp).step .y 1) ⟨0, 0, 0⟩
        ⟨0, 0, 0⟩ := by
    simp only [coulombS, refDemoQ, four, refDemoS, refDemoG, Function.update_self, ne_eq, not_false_eq_true,
      Function.update_of_ne, reduceCtorEq]
  rw [e1] at h1
  rw [e2] at h2
  rw [self_s one_pos one_pos] at hh
  have hpos : 0 < √2 * π ^ ((5 : ℝ) / 2) * (1 / (1 + 1 : ℝ)) ^ ((5 : ℝ) / 2) *
      exp (-2 * (1 * 1 / (1 + 1)) * dist2 refDemoUp fun _ => 0) := by positivity
  have hu : refDemoUp .y - 0 = 1 := by norm_num [refDemoUp]
  simp only [hu] at hh
  linarith

/-- Two shells in the first array: the derivatives are not those of the integrals. -/
theorem C74_gradients_false : ∃ m, (refDemoArgs 2).deriv1 exactBoys false 13 (fun _ => 0) = some m ∧
    ¬ (refDemoArgs 2).GradLayout m := by
  have hv := vals1 (refDemoArgs_ok 2)
  obtain ⟨hn1, hn2⟩ := refDemo_ncart 2
  obtain ⟨m, hm⟩ := Option.isSome_iff_exists.1 ((hv.fits (by norm_num) ⟨two_pos, by rw [hn2]; exact one_pos⟩
    (size := 13) (mem := fun _ => 0)).2 (by rw [hn2]; decide))
  have hm' : (refDemoArgs 2).deriv1 exactBoys false 13 (fun _ => 0) = some m := hm
  refine ⟨m, hm', fun hL => refDemo_nonzero ?_⟩
  -- the second shell has only zeros
  have hz : ∀ t : RRType, m (1 + 3 * t.idx) = 0 := by
    intro t
    have h := C74_gradients_overlap (refDemoArgs_ok 2) (i := 1) (j := 0) (k := 0) (l := 0) hm'
      (show 1 < 2 from one_lt_two) one_pos one_pos one_pos (refDemo_comps 2) t .x (idx := 3 * t.idx) (by rw [refDemo_index, hn1]; cases t <;> rfl) (Or.inl rfl)
    rw [hn2, one_mul] at h
    have e : movedERI ((refDemoArgs 2).sh .I 1) ((refDemoArgs 2).sh .J 0) ((refDemoArgs 2).sh .K 0) ((refDemoArgs 2).sh .L 0)
        ⟨0, 0, 0⟩ ⟨0, 0, 0⟩ ⟨0, 0, 0⟩ ⟨0, 0, 0⟩ t .x = fun _ => 0 := by
      funext x
      unfold movedERI shellERI
      refine Finset.sum_eq_zero fun i _ => Finset.sum_eq_zero fun j _ => Finset.sum_eq_zero fun k _ =>
        Finset.sum_eq_zero fun l _ => ?_
      have : ∀ (b : Prop) [Decidable b] (u : Shell ℝ), u.coef i = 0 →
          (if b then { (refDemoArgs 2).sh .I 1 with pos := u.pos } else (refDemoArgs 2).sh .I 1).coef i = 0 := by
        intro b _ u _
        split_ifs <;> simp [refDemoArgs, refDemoS]
      have h0 := this (RRType.I = t) { (refDemoArgs 2).sh .I 1 with
        pos := Function.update ((refDemoArgs 2).sh .I 1).pos .x x } (by simp [refDemoArgs, refDemoS])
      rw [h0]
      ring
    rw [e] at h
    exact h.unique (hasDerivAt_const _ _)
  have hq : ∀ t : RRType, (t = .I ∨ t = .J) → gradERI refDemoQ refDemoG t .y = 0 := by
    intro t ht
    have h := hL 0 two_pos 0 one_pos 0 one_pos 0 one_pos _ _ _ _ (refDemo_comps 2) t .y
    rw [refDemo_index, hn1] at h
    have ea : (refDemoArgs 2).quartet 0 0 0 0 * (12 * 1) + (12 * 0 + (3 * t.idx + Dir.idx .y)) = 1 + 3 * t.idx := by
      cases t <;> rfl
    rw [ea, hz t] at h
    have h' := gradERI_hasDerivAt refDemoQ_pos (g := refDemoG) (fun _ => (isComp_start 0).valid) t .y
    rcases ht with rfl | rfl
    · exact h'.unique h
    · exact h'.unique h
  exact ⟨hq .I (Or.inl rfl), hq .J (Or.inr rfl)⟩

/-- Norm of an `s` function with exponent 1. -/
noncomputable def refDemoN : ℝ := (2 / π) ^ (0.75 : ℝ)

theorem refDemoN_pos : 0 < refDemoN := rpow_pos_of_pos (div_pos two_pos pi_pos) _

theorem normConst_s : normConst (fun _ => 0) 1 = some refDemoN := by
  have h0 : dfAt 0 = some 1 := by simpa using dfAt_nat (i := 0) (by norm_num)
  simp [normConst, h0, refDemoN]

theorem normConst_p (d : Dir) : normConst (fun i => (((⟨0, 0, 0⟩ : Exp).step d 1).get i).toNat) 1 =
    some (2 * refDemoN) := by
  have h0 : dfAt 0 = some 1 := by simpa using dfAt_nat (i := 0) (by norm_num)
  have h2 : dfAt 2 = some 1 := by simpa [Nat.doubleFactorial] using dfAt_nat (i := 2) (by norm_num)
  have h4 : (4 : ℝ) ^ (0.5 : ℝ) = 2 := by
    rw [show (4 : ℝ) = 2 ^ (2 : ℝ) by norm_num, ← rpow_mul (by norm_num)]; norm_num
  cases d <;> simp [normConst, h0, h2, refDemoN, Exp.step, Exp.get, h4, mul_comm]

/-- Norms are unique. -/
theorem UnitNorm.unique {c c' α : ℝ} {e : Exp} (h : UnitNorm c α e) (h' : UnitNorm c' α e) : c = c' := by
  have key : ∀ {c : ℝ}, UnitNorm c α e →
      c * c * (∫ r : R3, primG α (fun _ => 0) e r.dir * primG α (fun _ => 0) e r.dir) = 1 := by
    intro c h
    rw [← h.2 fun _ => 0, ← MeasureTheory.integral_const_mul]
    congr 1
    funext r
    ring
  have h1 := key h
  have h2 := key h'
  have hsq : c * c = c' * c' := by
    have hne : (∫ r : R3, primG α (fun _ => 0) e r.dir * primG α (fun _ => 0) e r.dir) ≠ 0 := by
      intro h0; rw [h0, mul_zero] at h1; exact zero_ne_one h1
    exact mul_right_cancel₀ hne (h1.trans h2.symm)
  exact (mul_self_inj h.1.le h'.1.le).1 hsq

theorem refDemo_refGrad (t : RRType) (d : Dir) :
    refGrad exactBoys refDemoQ true refDemoG t d = some (2 * refDemoN ^ 4 * gradERI refDemoQ refDemoG t d) := by
  have e : (four 0 0 0 0 : RRType → ℕ) = fun _ => 0 := by funext s; cases s <;> rfl
  have hn : ∀ s, (refDemoQ s).nprim = 1 := fun s => by cases s <;> rfl
  have hz : (refDemoG t).get d = 0 := by cases d <;> rfl
  have ha : ∀ s k, (refDemoQ s).alpha k = 1 := fun s k => by cases s <;> rfl
  have hm : PrimsOf refDemoQ fun _ => 0 := fun s => by rw [hn]; exact one_pos
  have hg : ∀ s, IsComp (Function.update (fun _ => 0) t 1 s) (Function.update refDemoG t ((refDemoG t).step d 1) s) := by
    intro s
    by_cases h : s = t
    · subst h
      simp only [Function.update_self]
      exact (isComp_start 0).raise d
    · simp only [Function.update_of_ne h]
      exact isComp_start 0
  have hs : amSum (Function.update (fun _ => 0) t 1) = 1 := by
    cases t <;> simp [amSum, Function.update]
  have h1 := refEri_norm (bf := exactBoys) refDemoQ_pos hm hg (by rw [hs]; norm_num) rfl
    (c := Function.update (fun _ => refDemoN) t (2 * refDemoN)) (by
      intro s
      rw [ha]
      by_cases h : s = t
      · subst h
        simp only [Function.update_self]
        exact normConst_p d
      · have e0 : (fun i => ((refDemoG s).get i).toNat) = fun _ => 0 := by funext i; cases i <;> rfl
        simp only [Function.update_of_ne h]
        rw [e0]
        exact normConst_s)
  have hp : Function.update (fun _ => refDemoN) t (2 * refDemoN) .I * Function.update (fun _ => refDemoN) t (2 * refDemoN) .J *
      Function.update (fun _ => refDemoN) t (2 * refDemoN) .K * Function.update (fun _ => refDemoN) t (2 * refDemoN) .L =
      2 * refDemoN ^ 4 := by
    cases t <;> simp [Function.update] <;> ring
  rw [hp] at h1
  have hl : refLow exactBoys refDemoQ true (fun _ => 0) refDemoG t d = some 0 := by
    cases d <;> simp [refLow, refValid, refDemoG, Exp.step]
  have hc : (refDemoQ .I).coef 0 * (refDemoQ .J).coef 0 * (refDemoQ .K).coef 0 * (refDemoQ .L).coef 0 = 1 := by
    simp [refDemoQ, four, refDemoS]
  rw [refDemo_gradERI, refGrad, refPrims]
  simp only [hn, osum, e, h1, hl, ha, hz, hc, Option.bind_eq_bind, Option.bind_some, Option.pure_def]
  refine congrArg some ?_
  push_cast
  ring

/-- With normalisation even one `s` shell in each array gives wrong derivatives: the raised function is scaled with its
own norm. -/
theorem C74_gradients_norm_false : ∃ m, (refDemoArgs 1).deriv1 exactBoys true 12 (fun _ => 0) = some m ∧
    ∀ c : RRType → ℕ → ℝ, (∀ t, UnitNorm (c t 0) 1 ⟨0, 0, 0⟩) → ¬ ∀ t d,
      HasDerivAt (movedERI (scaleCoef refDemoQ c .I) (scaleCoef refDemoQ c .J) (scaleCoef refDemoQ c .K) (scaleCoef refDemoQ c .L)
        ⟨0, 0, 0⟩ ⟨0, 0, 0⟩ ⟨0, 0, 0⟩ ⟨0, 0, 0⟩ t d) (m (3 * t.idx + d.idx)) ((refDemoQ t).pos d) := by
  obtain ⟨hn1, hn2⟩ := refDemo_ncart 1
  have hv : (refDemoArgs 1).Vals (fun S g => refTwelve exactBoys S true g)
      (fun _ _ => (gradList refDemoQ refDemoG).map fun x => 2 * refDemoN ^ 4 * x) 12 := by
    refine ⟨fun i hi j hj k hk l hl g hg => ?_, fun _ _ => rfl⟩
    have hi0 : i = 0 := by
      have : i < 1 := hi
      omega
    have hS : four ((refDemoArgs 1).sh .I i) ((refDemoArgs 1).sh .J j) ((refDemoArgs 1).sh .K k) ((refDemoArgs 1).sh .L l) =
        refDemoQ := by
      subst hi0
      funext s; cases s <;> simp [four, refDemoArgs, refDemoQ]
    have hG : g = refDemoG := by
      funext s
      have h0 : (refDemoArgs 1).am s = 0 := by cases s <;> rfl
      obtain ⟨h1, h2, h3, h4⟩ := hg s
      rw [h0] at h4
      ext <;> simp only [refDemoG] <;> push_cast at h4 <;> omega
    rw [hS, hG]
    unfold refTwelve
    have h := fun t => mapM_map_some (l := refDirs) (f := refGrad exactBoys refDemoQ true refDemoG t)
      (g := fun d => 2 * refDemoN ^ 4 * gradERI refDemoQ refDemoG t d) fun d _ => refDemo_refGrad t d
    rw [h, h, h]
    have ht := fun d => gradERI_trans refDemoQ_pos (g := refDemoG) (fun _ => (isComp_start 0).valid) d
    simp only [Option.bind_eq_bind, Option.bind_some, Option.pure_def, refDirs, List.map_cons, List.map_nil, gradList]
    rw [ht .x, ht .y, ht .z]
    refine congrArg some ?_
    simp only [List.range, List.range.loop, List.map_cons, List.map_nil, List.cons_append, List.nil_append,
      List.getD_cons_zero, List.getD_cons_succ]
    congr 9 <;> ring_nf
  obtain ⟨m, hm⟩ := Option.isSome_iff_exists.1 ((hv.fits (by norm_num) ⟨one_pos, by rw [hn2]; exact one_pos⟩
    (size := 12) (mem := fun _ => 0)).2 (by rw [hn2]; decide))
  refine ⟨m, hm, fun c hc hall => refDemo_nonzero ?_⟩
  obtain ⟨hst, -⟩ := hv.stored hm (Or.inr rfl)
  have hN : UnitNorm refDemoN 1 ⟨0, 0, 0⟩ := by
    obtain ⟨c', h1, h2⟩ := normConst_eq (l := fun _ => 0) (by simp [lTot]) one_pos
    rw [normConst_s, Option.some.injEq] at h1
    rw [h1]; exact h2
  have hcN : ∀ t, c t 0 = refDemoN := fun t => (hc t).unique hN
  have hval : ∀ t d, m (3 * t.idx + d.idx) = 2 * refDemoN ^ 4 * gradERI refDemoQ refDemoG t d := by
    intro t d
    have h := hst 0 one_pos 0 one_pos 0 one_pos 0 one_pos refDemoG
      (fun s => by have h0 : (refDemoArgs 1).am s = 0 := by { cases s <;> rfl }
                   rw [h0]; exact isComp_start 0) (3 * t.idx + d.idx) (by cases t <;> cases d <;> decide)
    rw [List.getElem?_map, gradList_get, Option.map_some, Option.some.injEq] at h
    rw [h]
    have : RefArgs.compPos refDemoG = 0 := refDemo_index
    rw [this]
    simp only [Nat.zero_mul, Nat.zero_add]
  have key : ∀ t d, gradERI refDemoQ refDemoG t d = 0 := by
    intro t d
    have h := hall t d
    rw [hval] at h
    have hp : PosExp (scaleCoef refDemoQ c) := refDemoQ_pos
    have h' := gradERI_hasDerivAt hp (g := refDemoG) (fun _ => (isComp_start 0).valid) t d
    have e : gradERI (scaleCoef refDemoQ c) refDemoG t d = refDemoN ^ 4 * gradERI refDemoQ refDemoG t d := by
      have e0 : (four 0 0 0 0 : RRType → ℕ) = fun _ => 0 := by funext s; cases s <;> rfl
      have hn : ∀ s, (refDemoQ s).nprim = 1 := fun s => by cases s <;> rfl
      have hn' : ∀ s, (scaleCoef refDemoQ c s).nprim = 1 := fun s => hn s
      have hg : gradS (scaleCoef refDemoQ c) (fun _ => 0) refDemoG t d = gradS refDemoQ (fun _ => 0) refDemoG t d := rfl
      simp only [gradERI, sumPrims, hn, hn', Finset.sum_range_one, e0, hg, coefS, scaleCoef, hcN]
      ring
    rw [e] at h'
    have hu := h'.unique h
    have hpos := pow_pos refDemoN_pos 4
    have : refDemoN ^ 4 * gradERI refDemoQ refDemoG t d = 0 := by linarith
    rcases mul_eq_zero.1 this with h0 | h0
    · exact absurd h0 hpos.ne'
    · exact h0
  exact ⟨key .I .y, key .J .y⟩

end Simint
