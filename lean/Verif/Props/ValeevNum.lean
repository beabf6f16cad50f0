import Verif.ValeevNum

/-!
# The numerical derivatives of the reference program (C74, continued)
-/

set_option autoImplicit false

open Real

namespace Simint

/-- What the caller has to provide for numerical derivatives: as before, all shells of an array have one angular
momentum, and the routine for the Boys function is exact for the shells with one center moved. -/
structure NumOK (r : RefArgs) (bf : ℕ → ℝ → Option (List ℝ)) : Prop where
  exp : ∀ t, ∀ i < r.n t, ∀ m < (r.sh t i).nprim, 0 < (r.sh t i).alpha m
  am : (amSum fun t => (r.sh t 0).am) < 200
  same : ∀ t, ∀ i < r.n t, (r.sh t i).am = (r.sh t 0).am
  boys : ∀ i < r.n .I, ∀ j < r.n .J, ∀ k < r.n .K, ∀ l < r.n .L, ∀ t d,
    BoysExact bf (shiftS (four (r.sh .I i) (r.sh .J j) (r.sh .K k) (r.sh .L l)) t d refDelta) (amSum fun t => (r.sh t 0).am) ∧
    BoysExact bf (shiftS (four (r.sh .I i) (r.sh .J j) (r.sh .K k) (r.sh .L l)) t d (-refDelta)) (amSum fun t => (r.sh t 0).am)

/-- `ValeevRef_NumDeriv1`: twelve blocks of all components for every combination of shells; each value is the central
difference with step `10^-8`, and is the derivative of the integral at a point less than `10^-8` away. -/
theorem C74_numeric {r : RefArgs} {bf : ℕ → ℝ → Option (List ℝ)} (h : NumOK r bf) (junk : ℕ → ℝ) {size : ℕ}
    (hs : r.n .I * (r.n .J * r.n .K * r.n .L) * (r.ncart * 12) ≤ size) (mem : ℕ → ℝ) :
    ∃ m, r.numDeriv1 bf false junk size mem = some m ∧
      (∀ i < r.n .I, ∀ j < r.n .J, ∀ k < r.n .K, ∀ l < r.n .L, ∀ x y z w, r.Comps x y z w → ∀ t d,
        let f := movedERI (r.sh .I i) (r.sh .J j) (r.sh .K k) (r.sh .L l) x y z w t d
        let c := shellCenter (r.sh .I i) (r.sh .J j) (r.sh .K k) (r.sh .L l) t d
        let v := m (r.quartet i j k l * (12 * r.ncart) +
          ((3 * t.idx + d.idx) * r.ncart + Qrt.index psi4List ⟨⟨x, y⟩, ⟨z, w⟩, 0⟩))
        v = (f (c + 1e-8) - f (c - 1e-8)) / (2 * 1e-8) ∧ ∃ ξ, |ξ - c| < 1e-8 ∧ HasDerivAt f v ξ) ∧
      ∀ a, r.n .I * (r.n .J * r.n .K * r.n .L) * (r.ncart * 12) ≤ a → m a = mem a := by
  have hpos : ∀ S ∈ r.quartets, PosExp S := by
    intro S hS
    obtain ⟨i, hi, j, hj, k, hk, l, hl, rfl⟩ := RefArgs.quartets_mem hS
    intro t m hm
    cases t
    · exact h.exp .I i hi m hm
    · exact h.exp .J j hj m hm
    · exact h.exp .K k hk m hm
    · exact h.exp .L l hl m hm
  have ham : ∀ S ∈ r.quartets, ∀ t, (S t).am = r.am t := by
    intro S hS t
    obtain ⟨i, hi, j, hj, k, hk, l, hl, rfl⟩ := RefArgs.quartets_mem hS
    cases t
    · exact h.same .I i hi
    · exact h.same .J j hj
    · exact h.same .K k hk
    · exact h.same .L l hl
  have hex : ∀ S t d x, ∃ b, S ∈ r.quartets → BoysExact bf (shiftS S t d x) (amSum r.am) →
      oneQuartet bf false junk (shiftS S t d x) r.ncart = some b ∧
      ∀ g : RRType → Exp, (∀ t, IsComp (r.am t) (g t)) → b (RefArgs.compPos g) =
        movedERI (S .I) (S .J) (S .K) (S .L) (g .I) (g .J) (g .K) (g .L) t d ((S t).pos d + x) := by
    intro S t d x
    by_cases hS : S ∈ r.quartets
    · by_cases hb : BoysExact bf (shiftS S t d x) (amSum r.am)
      · have e : (fun s => (shiftS S t d x s).am) = r.am := by
          funext s; rw [shiftS_am, ham S hS]
        obtain ⟨b, h1, h2⟩ := oneQuartet_eq (bf := bf) (shiftS_pos (hpos S hS) t d x) (by rw [e]; exact h.am)
          (by rw [e]; exact hb) junk (size := r.ncart) (by
            simp only [RefArgs.ncart, shiftS_am, ham S hS])
        refine ⟨b, fun _ _ => ⟨h1, fun g hg => ?_⟩⟩
        rw [h2 g fun s => by rw [shiftS_am, ham S hS]; exact hg s, shiftERI]
      · exact ⟨fun _ => 0, fun _ hb' => absurd hb' hb⟩
    · exact ⟨fun _ => 0, fun hS' => absurd hS' hS⟩
  choose b hb using hex
  have hboys : ∀ S ∈ r.quartets, ∀ t d, BoysExact bf (shiftS S t d refDelta) (amSum r.am) ∧
      BoysExact bf (shiftS S t d (-refDelta)) (amSum r.am) := by
    intro S hS t d
    obtain ⟨i, hi, j, hj, k, hk, l, hl, rfl⟩ := RefArgs.quartets_mem hS
    exact h.boys i hi j hj k hk l hl t d
  obtain ⟨m, h1, h2, h3⟩ := RefArgs.numDeriv1_spec (bp := fun S t d => b S t d refDelta)
    (bm := fun S t d => b S t d (-refDelta))
    (fun S hS t d => (hb S t d _ hS (hboys S hS t d).1).1) (fun S hS t d => (hb S t d _ hS (hboys S hS t d).2).1) hs mem
  refine ⟨m, h1, fun i hi j hj k hk l hl x y z w hc t d => ?_, h3⟩
  have hq := RefArgs.quartets_get hi hj hk hl
  have hS := List.mem_of_getElem? hq
  obtain ⟨S, hSe⟩ : ∃ S, S = four (r.sh .I i) (r.sh .J j) (r.sh .K k) (r.sh .L l) := ⟨_, rfl⟩
  rw [← hSe] at hq hS
  have hcen : shellCenter (r.sh .I i) (r.sh .J j) (r.sh .K k) (r.sh .L l) t d = (S t).pos d := by
    rw [hSe]; cases t <;> rfl
  obtain ⟨f, hf⟩ : ∃ f, f = movedERI (r.sh .I i) (r.sh .J j) (r.sh .K k) (r.sh .L l) x y z w t d := ⟨_, rfl⟩
  have hfS : f = movedERI (S .I) (S .J) (S .K) (S .L) (four x y z w .I) (four x y z w .J) (four x y z w .K)
      (four x y z w .L) t d := by rw [hf, hSe]; rfl
  have hval := h2 _ S t d (RefArgs.compPos (four x y z w)) hq (r.compPos_lt hc.all)
  rw [(hb S t d _ hS (hboys S hS t d).1).2 _ hc.all, (hb S t d _ hS (hboys S hS t d).2).2 _ hc.all, ← hfS,
    ← sub_eq_add_neg] at hval
  have ea : r.quartet i j k l * (r.ncart * 12) + (3 * t.idx + d.idx) * r.ncart + RefArgs.compPos (four x y z w) =
      r.quartet i j k l * (12 * r.ncart) +
        ((3 * t.idx + d.idx) * r.ncart + Qrt.index psi4List ⟨⟨x, y⟩, ⟨z, w⟩, 0⟩) := by
    simp only [RefArgs.compPos, four]; ring
  rw [ea] at hval
  simp only [hcen, ← hf]
  refine ⟨hval, ?_⟩
  have hδ : (0 : ℝ) < refDelta := by norm_num [refDelta]
  have hd : ∀ v, HasDerivAt f (gradERI (moveS S t d v) (four x y z w) t d) v := fun v => by
    rw [hfS]; exact movedERI_hasDerivAt (hpos S hS) (fun s => (hc.all s).valid) t d v
  obtain ⟨ξ, hξ, he⟩ := exists_hasDerivAt_eq_slope f _
    (show (S t).pos d - refDelta < (S t).pos d + refDelta by linarith)
    (fun v _ => (hd v).continuousAt.continuousWithinAt) (fun v _ => hd v)
  refine ⟨ξ, ?_, ?_⟩
  · rw [show (1e-8 : ℝ) = refDelta from rfl, abs_lt]
    constructor <;> linarith [hξ.1, hξ.2]
  · have := hd ξ
    rw [he] at this
    rw [hval]
    convert this using 2
    ring

/-- The position differs from the one of the analytical derivatives unless there is only one component. -/
theorem C74_numeric_layout (n : ℕ) (hn : 0 < n) :
    (∀ c < n, ∀ e < 12, e * n + c = 12 * c + e) ↔ n = 1 := by
  constructor
  · intro h
    have := h 0 hn 1 (by norm_num)
    omega
  · rintro rfl c hc e he
    omega

/-- Orders of derivatives other than 0, 1 and -1 are rejected. -/
theorem C74_dispatch (r : RefArgs) (bf : ℕ → ℝ → Option (List ℝ)) (norm : Bool) (deriv : ℤ) (junk : ℕ → ℝ) (size : ℕ)
    (mem : ℕ → ℝ) :
    (deriv = 0 → r.integrals bf norm deriv junk size mem = r.deriv0 bf norm size mem) ∧
    (deriv = 1 → r.integrals bf norm deriv junk size mem = r.deriv1 bf norm size mem) ∧
    (deriv = -1 → r.integrals bf norm deriv junk size mem = r.numDeriv1 bf norm junk size mem) ∧
    (deriv ≠ 0 → deriv ≠ 1 → deriv ≠ -1 → r.integrals bf norm deriv junk size mem = none) := by
  refine ⟨fun h => ?_, fun h => ?_, fun h => ?_, fun h0 h1 h2 => ?_⟩
  · rw [RefArgs.integrals, if_pos h]
  · subst h; simp [RefArgs.integrals]
  · subst h; simp [RefArgs.integrals]
  · rw [RefArgs.integrals, if_neg h0, if_neg h1, if_neg h2]

/-! ## Concrete cases -/

/-- Two shells with `p` functions and three primitives, and one `s` shell in the other arrays. -/
def refDemoP : RefArgs where
  sh
    | .I => fun i => ⟨0, 1, 3, fun _ => i, fun m => m + 1, fun m => m - 1⟩
    | _ => fun _ => refDemoS refDemoUp 1
  n
    | .I => 2
    | _ => 1

theorem refDemoP_num : NumOK refDemoP exactBoys where
  exp := fun t i _ m _ => by
    cases t
    · show (0 : ℝ) < m + 1
      positivity
    all_goals exact one_pos
  am := by decide
  same := fun t i _ => by cases t <;> rfl
  boys := fun _ _ _ _ _ _ _ _ _ _ => ⟨fun _ _ _ _ => rfl, fun _ _ _ _ => rfl⟩

theorem refDemoP_ok (e : ℕ) (he : e ≤ 1) : RefOK refDemoP exactBoys e where
  exp := fun i _ j _ k _ l _ t m _ => by
    cases t
    · show (0 : ℝ) < m + 1
      positivity
    all_goals exact one_pos
  am := by
    have : (amSum fun t => (refDemoP.sh t 0).am) = 1 := rfl
    omega
  boys := fun _ _ _ _ _ _ _ _ _ _ _ _ => rfl

/-- `(pz s|s s)` of the second shell is element 5 of 6. -/
example : ∃ m, refDemoP.deriv0 exactBoys false 6 (fun _ => 0) = some m ∧
    m 5 = shellERI (refDemoP.sh .I 1) (refDemoP.sh .J 0) (refDemoP.sh .K 0) (refDemoP.sh .L 0) ⟨0, 0, 1⟩ ⟨0, 0, 0⟩ ⟨0, 0, 0⟩
      ⟨0, 0, 0⟩ := by
  obtain ⟨m, h1, h2, -⟩ := C74_values (refDemoP_ok 0 (by norm_num)) (size := 6) (by decide) (fun _ => 0)
  refine ⟨m, h1, ?_⟩
  have := h2 1 (by decide) 0 one_pos 0 one_pos 0 one_pos ⟨0, 0, 1⟩ ⟨0, 0, 0⟩ ⟨0, 0, 0⟩ ⟨0, 0, 0⟩
    ⟨by simp [IsComp, RefArgs.am, refDemoP], isComp_start 0, isComp_start 0, isComp_start 0⟩
  have hi : Qrt.index psi4List ⟨⟨⟨0, 0, 1⟩, ⟨0, 0, 0⟩⟩, ⟨⟨0, 0, 0⟩, ⟨0, 0, 0⟩⟩, 0⟩ = 2 := by decide +kernel
  rw [hi] at this
  exact this

/-- A buffer with five elements is too small. -/
example : refDemoP.deriv0 exactBoys false 5 (fun _ => 0) = none := by
  have h := C74_values_size (refDemoP_ok 0 (by norm_num)) (fun t => by cases t <;> decide) 5 (fun _ => 0)
  cases hd : refDemoP.deriv0 exactBoys false 5 (fun _ => 0) with
  | none => rfl
  | some m => exact absurd (h.1 (by rw [hd]; rfl)) (by decide)

/-- One derivative: `(s s|s s)` with respect to the `x` coordinate of the last center is element 9. -/
example : ∃ m, (refDemoArgs 1).deriv1 exactBoys false 12 (fun _ => 0) = some m ∧
    HasDerivAt (movedERI (refDemoQ .I) (refDemoQ .J) (refDemoQ .K) (refDemoQ .L) ⟨0, 0, 0⟩ ⟨0, 0, 0⟩ ⟨0, 0, 0⟩ ⟨0, 0, 0⟩ .L .x)
      (m 9) 0 := by
  obtain ⟨h1, h2⟩ := refDemo_ncart 1
  obtain ⟨m, hm, hL, -⟩ := C74_gradients_partial (refDemoArgs_ok 1) rfl (size := 12) (by rw [h2]) (fun _ => 0)
  refine ⟨m, hm, ?_⟩
  have := hL 0 one_pos 0 one_pos 0 one_pos 0 one_pos _ _ _ _ (refDemo_comps 1) .L .x
  rw [refDemo_index, h1] at this
  exact this

/-- Numerical derivatives of six integrals: 72 values. -/
example : ∃ m, refDemoP.numDeriv1 exactBoys false (fun _ => 7) 72 (fun _ => 0) = some m ∧
    ∃ ξ, |ξ - 1| < 1e-8 ∧ HasDerivAt (movedERI (refDemoP.sh .I 1) (refDemoP.sh .J 0) (refDemoP.sh .K 0) (refDemoP.sh .L 0)
      ⟨0, 0, 1⟩ ⟨0, 0, 0⟩ ⟨0, 0, 0⟩ ⟨0, 0, 0⟩ .J .y) (m 50) ξ := by
  obtain ⟨m, h1, h2, -⟩ := C74_numeric refDemoP_num (fun _ => 7) (size := 72) (by decide) (fun _ => 0)
  refine ⟨m, h1, ?_⟩
  obtain ⟨-, h⟩ := h2 1 (by decide) 0 one_pos 0 one_pos 0 one_pos ⟨0, 0, 1⟩ ⟨0, 0, 0⟩ ⟨0, 0, 0⟩ ⟨0, 0, 0⟩
    ⟨by simp [IsComp, RefArgs.am, refDemoP], isComp_start 0, isComp_start 0, isComp_start 0⟩ .J .y
  have hi : Qrt.index psi4List ⟨⟨⟨0, 0, 1⟩, ⟨0, 0, 0⟩⟩, ⟨⟨0, 0, 0⟩, ⟨0, 0, 0⟩⟩, 0⟩ = 2 := by decide +kernel
  rw [hi] at h
  exact h

end Simint
