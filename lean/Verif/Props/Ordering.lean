import Verif.TypesLemmas
import Mathlib.Data.String.Basic

/-!
# Properties C01, C03, C04, C05, C06
-/

namespace Simint

/-! ## C01 -/

/-- The enumeration loop visits every component exactly once, for every angular momentum, and the
`i`-th visited component is the one with `(j+k)(j+k+1)/2 + k = i`.  The statement holds for every
loop bound at or above the number of components, so the loop terminates by its own test. -/
theorem C01_enumeration (am fuel : ℕ) (hf : ncart am ≤ fuel) :
    (generateMap fuel am).length = (am + 2) * (am + 1) / 2 ∧
    (generateMap fuel am).Nodup ∧
    (∀ e : Exp, e ∈ generateMap fuel am ↔ 0 ≤ e.x ∧ 0 ≤ e.y ∧ 0 ≤ e.z ∧ e.x + e.y + e.z = am) ∧
    (∀ (i : ℕ) (e : Exp), (generateMap fuel am)[i]? = some e →
      (i : ℤ) = (e.y + e.z) * (e.y + e.z + 1) / 2 + e.z) := by
  obtain ⟨h1, h2⟩ := generateMap_get am fuel hf
  have heq : generateMap fuel am = psi4List am := by
    obtain ⟨g1, g2⟩ := psi4_get am
    refine List.ext_getElem (by rw [h1, g1]) fun i hi hi' => ?_
    exact rank_inj (h2 i hi).1 (g2 i hi').1 (by rw [(h2 i hi).2, (g2 i hi').2])
  refine ⟨by rw [h1]; simp [ncart], by rw [heq]; exact psi4_ordOK.nodup am,
    fun e => by rw [heq]; exact psi4_ordOK.mem am e, ?_⟩
  intro i e he
  obtain ⟨hi, hge⟩ := List.getElem?_eq_some_iff.1 he
  obtain ⟨hc, hr⟩ := h2 i hi
  rw [hge] at hc hr
  obtain ⟨c1, c2, c3, c4⟩ := hc
  have ht := tri_two (e.y + e.z).toNat
  have hs : ((e.y + e.z).toNat : ℤ) = e.y + e.z := by omega
  unfold rank at hr
  have ht' : (2 : ℤ) * (tri (e.y + e.z).toNat : ℤ) = (e.y + e.z) * (e.y + e.z + 1) := by
    rw [← hs]; exact_mod_cast ht
  rw [← ht']
  omega

/-- The f shell in Psi4 order. -/
example : psi4List 3 = [⟨3,0,0⟩, ⟨2,1,0⟩, ⟨2,0,1⟩, ⟨1,2,0⟩, ⟨1,1,1⟩, ⟨1,0,2⟩, ⟨0,3,0⟩, ⟨0,2,1⟩,
    ⟨0,1,2⟩, ⟨0,0,3⟩] := by decide

/-! ## C03 -/

/-- Distinct exponent triples with entries at most 255 have distinct keys. -/
theorem C03_hash_injective {a b c a' b' c' : ℕ} (ha : a < 256) (hb : b < 256) (hc : c < 256)
    (ha' : a' < 256) (hb' : b' < 256) (hc' : c' < 256) (h : hashExp a b c = hashExp a' b' c') :
    a = a' ∧ b = b' ∧ c = c' := by
  rw [hashExp_eq ha hb, hashExp_eq ha' hb'] at h
  omega

/-- The bound is sharp: the comment in the source allows 256, where keys collide. -/
theorem C03_collision_at_256 : hashExp 256 0 0 = hashExp 0 1 0 := by decide

example : hashExp 3 7 255 = 3 + 7 * 256 + 255 * 65536 := by decide

/-! ## C04 -/

/-- The flat index of a component quadruple is a bijection between the quadruples of a class and
`0 .. ncart-1`. -/
theorem C04_quartet_index_bijective {ord : ℕ → List Exp} (h : OrdOK ord) (a b c d : ℕ) :
    (∀ e1 e2 e3 e4, IsComp a e1 → IsComp b e2 → IsComp c e3 → IsComp d e4 →
      Qrt.index ord ⟨⟨e1, e2⟩, ⟨e3, e4⟩, 0⟩ < ncart a * ncart b * (ncart c * ncart d)) ∧
    (∀ e1 e2 e3 e4 f1 f2 f3 f4, IsComp a e1 → IsComp b e2 → IsComp c e3 → IsComp d e4 →
      IsComp a f1 → IsComp b f2 → IsComp c f3 → IsComp d f4 →
      Qrt.index ord ⟨⟨e1, e2⟩, ⟨e3, e4⟩, 0⟩ = Qrt.index ord ⟨⟨f1, f2⟩, ⟨f3, f4⟩, 0⟩ →
      e1 = f1 ∧ e2 = f2 ∧ e3 = f3 ∧ e4 = f4) ∧
    (∀ k, k < ncart a * ncart b * (ncart c * ncart d) → ∃ e1 e2 e3 e4, IsComp a e1 ∧ IsComp b e2 ∧
      IsComp c e3 ∧ IsComp d e4 ∧ Qrt.index ord ⟨⟨e1, e2⟩, ⟨e3, e4⟩, 0⟩ = k) := by
  refine ⟨?_, ?_, ?_⟩
  · intro e1 e2 e3 e4 h1 h2 h3 h4
    have := Qrt.index_lt h (q := ⟨⟨e1, e2⟩, ⟨e3, e4⟩, 0⟩)
      ⟨⟨h1.valid, h2.valid⟩, ⟨h3.valid, h4.valid⟩, le_refl _⟩
    simpa [Qrt.ncart, Dbl.ncart, h1.am_eq, h2.am_eq, h3.am_eq, h4.am_eq] using this
  · intro e1 e2 e3 e4 f1 f2 f3 f4 h1 h2 h3 h4 g1 g2 g3 g4 hi
    have := Qrt.index_inj h (p := ⟨⟨e1, e2⟩, ⟨e3, e4⟩, 0⟩) (q := ⟨⟨f1, f2⟩, ⟨f3, f4⟩, 0⟩)
      ⟨⟨h1.valid, h2.valid⟩, ⟨h3.valid, h4.valid⟩, le_refl _⟩
      ⟨⟨g1.valid, g2.valid⟩, ⟨g3.valid, g4.valid⟩, le_refl _⟩
      (by simp [h1.am_eq, g1.am_eq]) (by simp [h2.am_eq, g2.am_eq])
      (by simp [h3.am_eq, g3.am_eq]) (by simp [h4.am_eq, g4.am_eq]) hi
    simp only [Dbl.mk.injEq] at this
    exact ⟨this.1.1, this.1.2, this.2.1, this.2.2⟩
  · intro k hk
    obtain ⟨i, j, hi, hj, rfl⟩ := mix_surj hk
    obtain ⟨⟨e1, e2⟩, h1, h2, hx⟩ := Dbl.index_surj h a b hi
    obtain ⟨⟨e3, e4⟩, h3, h4, hy⟩ := Dbl.index_surj h c d hj
    refine ⟨e1, e2, e3, e4, h1, h2, h3, h4, ?_⟩
    have e3' := h3.am_eq
    have e4' := h4.am_eq
    simp only at e3' e4'
    simp [Qrt.index, hx, hy, Dbl.ncart, e3', e4']

/-- Row-major: the index is the mixed-radix number of the four component numbers. -/
theorem C04_row_major {ord : ℕ → List Exp} (a b c d : ℕ) {e1 e2 e3 e4 : Exp}
    (h2 : IsComp b e2) (h3 : IsComp c e3) (h4 : IsComp d e4) :
    Qrt.index ord ⟨⟨e1, e2⟩, ⟨e3, e4⟩, 0⟩ =
      ((cidx ord e1 * ncart b + cidx ord e2) * ncart c + cidx ord e3) * ncart d + cidx ord e4 := by
  simp only [Qrt.index, Dbl.index, Dbl.ncart, h2.am_eq, h3.am_eq, h4.am_eq]
  ring

/-- Target generation lists every component pair / quadruple of the class exactly once. -/
theorem C04_targets_complete {ord : ℕ → List Exp} (h : OrdOK ord) (hs : OrdStart ord)
    (a b c d : ℕ) :
    (doubletTargets ord a b).Nodup ∧
    (∀ t, t ∈ doubletTargets ord a b ↔ IsComp a t.left ∧ IsComp b t.right) ∧
    (quartetTargets ord a b c d).Nodup ∧
    (∀ q, q ∈ quartetTargets ord a b c d ↔ IsComp a q.bra.left ∧ IsComp b q.bra.right ∧
      IsComp c q.ket.left ∧ IsComp d q.ket.right ∧ q.m = 0) :=
  ⟨nodup_doubletTargets h hs a b, fun _ => mem_doubletTargets h hs,
    nodup_quartetTargets h hs a b c d, fun _ => mem_quartetTargets h hs⟩

/-- the hypotheses are met by the Psi4 order; (ps|ds) has 18 targets -/
example : OrdOK psi4List ∧ OrdStart psi4List ∧ (quartetTargets psi4List 1 0 2 0).length = 18 :=
  ⟨psi4_ordOK, psi4_start, by decide⟩

/-! ## C05 -/

/-- All key comparisons used for ordered containers are strict total orders on the keys that the
generator stores (valid exponents, bra/ket type fixed by position): distinct integrals are never
merged, equal ones are never duplicated. -/
theorem C05_strict_total_orders {ord : ℕ → List Exp} (h : OrdOK ord) (τ : Type) [LinearOrder τ] :
    StrictTotalOn Exp.Valid (fun a b => gaussLt ord a b = true) ∧
    (∀ t, StrictTotalOn (TDoublet.Ok (τ := τ) t) (fun a b => doubletLt ord a b = true)) ∧
    StrictTotalOn (TQuartet.Ok (τ := τ)) (fun a b => quartetLt ord a b = true) ∧
    StrictTotalOn (fun _ : TQAM τ => True) (fun a b => qamLt a b = true) :=
  ⟨gaussLt_sto h, fun t => doubletLt_sto h t, quartetLt_sto h, qamLt_sto⟩

/-- Sharpness: without fixing the doublet type, a bra and a ket doublet with the same contents are
equivalent keys although `==` distinguishes them. -/
theorem C05_type_not_compared (ord : ℕ → List Exp) (e : Exp) :
    doubletLt (τ := String) ord ⟨.bra, e, e, ""⟩ ⟨.ket, e, e, ""⟩ = false ∧
    doubletLt (τ := String) ord ⟨.ket, e, e, ""⟩ ⟨.bra, e, e, ""⟩ = false ∧
    doubletEq (τ := String) ⟨.bra, e, e, ""⟩ ⟨.ket, e, e, ""⟩ = false := by
  refine ⟨?_, ?_, ?_⟩ <;> simp [doubletLt, doubletEq, gaussLt, TDoublet.am]

example : gaussLt psi4List ⟨1, 1, 0⟩ ⟨0, 0, 2⟩ = true := by decide

/-! ## C06 -/

/-- The generator's direction exists and is the smallest positive exponent, right-most among
equals; the run-time table's direction is the same one. -/
theorem C06_direction {e : Exp} (hv : e.Valid) (ham : 0 < e.am) :
    ∃ d, makDir e = some d ∧ pyDir e = some d ∧ 0 < e.get d ∧
      (∀ d', 0 < e.get d' → e.get d ≤ e.get d') ∧
      (∀ d', e.get d' = e.get d → d'.idx ≤ d.idx) := by
  obtain ⟨d, h1, h2⟩ := makDir_spec hv ham
  obtain ⟨d', h1', h2'⟩ := pyDir_spec hv ham
  obtain rfl := smallestRight_unique h2 h2'
  refine ⟨d, h1, h1', h2.1, ?_, ?_⟩
  · intro d' hd'
    rcases h2.2 d' hd' with h | ⟨h, _⟩ <;> omega
  · intro d' hd'
    rcases h2.2 d' (by rw [hd']; exact h2.1) with h | ⟨_, h⟩
    · omega
    · exact h

example : makDir ⟨2, 1, 1⟩ = some .z ∧ makDir ⟨2, 1, 0⟩ = some .y ∧ makDir ⟨1, 0, 3⟩ = some .x := by
  decide

end Simint
