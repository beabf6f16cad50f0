import Verif.DerivLemmas
import Verif.Props.Function

/-!
# Properties C34, C36, C61: first derivatives

`C36`: the classes the derivative step reads are produced.  `C34`: the derivative step forms raise
minus lower for three centers and minus the sum for the fourth, and this is the derivative.
`C61`: a complete generated derivative function returns derivatives of contracted integrals.
-/

set_option autoImplicit false

open Real Finset

namespace Simint

/-! ### C36 -/

/-- **C36.** For every class: the searches succeed; every raised class of a differentiated center,
and every lowered class where lowering is possible, is one of the arrays of the horizontal stage;
there is a horizontal stage; and the array of the class itself, which receives the derivatives, is
not one of the arrays of the horizontal stage. -/
theorem C36_classes_sufficient {g : GenCfg} (hg : g.OK) {final : QAM} (hf : DerivClassOK final) :
    ∃ H A, g.derivAlgos final = some (H, A) ∧ H.hasHRR = true ∧
      (∀ t, t ≠ missingCenter final →
        (⟨(final.bump 1 t).a, (final.bump 1 t).b, (final.bump 1 t).c, (final.bump 1 t).d,
          centerTag t⟩ : QAM) ∈ H.top ++ H.order ∧
        (0 < final.get t → final.bump (-1) t ∈ H.top ++ H.order)) ∧
      final ∉ H.top ++ H.order := by
  obtain ⟨H, A, e, hA⟩ := derivAlgos_ok hg hf
  have hreq : ∀ q ∈ derivNeeded final, q ∈ H.top ++ H.order := fun q hq =>
    List.mem_append.2 (hA.hok.req q hq)
  refine ⟨H, A, e, deriv_hasHRR hg hf hA, fun t ht => ⟨?_, fun h0 => ?_⟩, ?_⟩
  · exact hreq _ (mem_derivNeeded.2 ⟨t, ht, Or.inl rfl⟩)
  · refine hreq _ (mem_derivNeeded.2 ⟨t, ht, Or.inr ⟨valid_of_Valid ?_, rfl⟩⟩)
    obtain ⟨v1, v2, v3, v4⟩ := hf.valid
    cases t <;> simp only [QAM.get] at h0 <;> simp only [loweredQ, QAM.bump, QAM.Valid] <;> omega
  · have hcl := hrrCreate_closed hg.Q hA.hcreate
      (Pr := fun q => q.tag ≠ "" ∨ totalAM q < totalAM final)
      (fun q hq d hd => by
        have h1 := deps_sums hA.hok.bra hA.hok.ket hd
        have h2 := deps_tag hd
        rw [h2]
        unfold totalAM at *
        rcases hq with hq | hq
        · exact Or.inl hq
        · exact Or.inr (by omega))
      (fun q hq => by
        obtain ⟨t, -, rfl | ⟨hv, rfl⟩⟩ := mem_derivNeeded.1 hq
        · exact Or.inl (centerTag_ne t)
        · right
          cases t <;> simp only [loweredQ, QAM.bump, totalAM] <;> omega)
    intro hmem
    have : final.tag ≠ "" ∨ totalAM final < totalAM final := by
      rcases List.mem_append.1 hmem with h | h
      · exact hcl.1 _ h
      · exact hcl.2 _ h
    rcases this with h | h
    · exact h hf.tag
    · omega

/-- Non-trivial case: for `(d p | p s)` the first center is left out; six classes are needed. -/
example : missingCenter ⟨2, 1, 1, 0, ""⟩ = .I ∧ derivNeeded ⟨2, 1, 1, 0, ""⟩ =
    [⟨2, 2, 1, 0, "2b"⟩, ⟨2, 0, 1, 0, ""⟩, ⟨2, 1, 2, 0, "2c"⟩, ⟨2, 1, 0, 0, ""⟩, ⟨2, 1, 1, 1, "2d"⟩] := by
  decide

/-! ### C34 -/

/-- **C34, values.** Over any field: if the arrays of the needed classes hold the components of
families `θ tag`, the derivative step runs without reading outside the arrays and produces
`12 * NCART` values; for each component, at `3 * center + direction`, the raised value minus the
power times the lowered value, and for the missing center minus the sum of the other three. -/
theorem C34_form {F : Type} [Field F] {final : QAM} (hf : DerivClassOK final) {decl : List QAM}
    (hd : ∀ q ∈ derivNeeded final, q ∈ decl) {m : HMem F} {θ : String → Fam F}
    (hm : ∀ q ∈ derivNeeded final, ∀ a b c d : Exp, a.Valid → b.Valid → c.Valid → d.Valid →
      a.am = q.a → b.am = q.b → c.am = q.c → d.am = q.d →
      m q (Qrt.index psi4List ⟨⟨a, b⟩, ⟨c, d⟩, 0⟩) = θ q.tag a b c d) :
    ∃ l, formDeriv .exact decl final m = some l ∧ l.length = 12 * ncartQ final ∧
      ∀ x y z w : Exp, x.Valid → y.Valid → z.Valid → w.Valid →
        x.am = final.a → y.am = final.b → z.am = final.c → w.am = final.d → ∀ i : Dir,
        let v (t : RRType) : Option F :=
          l[12 * Qrt.index psi4List ⟨⟨x, y⟩, ⟨z, w⟩, 0⟩ + (3 * t.idx + i.idx)]?
        let D (t : RRType) : F := raiseLower (fun s => θ (centerTag s)) (θ "") (comps x y z w) t i
        (∀ t, t ≠ missingCenter final → v t = some (D t)) ∧
        v (missingCenter final) = some (D (missingCenter final) - (D .I + D .J + D .K + D .L)) := by
  refine ⟨_, formDeriv_ok _ hf hm hd, derivBlock_length _ hf.valid θ, ?_⟩
  intro x y z w vx vy vz vw ex ey ez ew i
  have he : ∀ s, IsComp (final.get s).toNat (comps x y z w s) := by
    have key : ∀ {e : Exp} {n : ℤ}, e.Valid → e.am = n → IsComp n.toNat e := by
      rintro e n ⟨h1, h2, h3⟩ h
      simp only [Exp.am] at h
      exact ⟨h1, h2, h3, by omega⟩
    intro s
    cases s
    · exact key vx ex
    · exact key vy ey
    · exact key vz ez
    · exact key vw ew
  refine ⟨fun t ht => ?_, ?_⟩
  · refine (derivBlock_get _ hf.valid θ he t i).trans ?_
    rw [derivVal, if_neg ht, stepVal_exact _ _ (he t).valid]
  · refine (derivBlock_get _ hf.valid θ he _ i).trans ?_
    rw [derivVal, if_pos rfl, Option.some.injEq]
    simp only [stepVal_exact _ _ (he _).valid]
    simp only [FormOps.exact]
    generalize missingCenter final = t
    cases t <;> simp [centers, List.filter] <;> ring

/-- **C34, derivative.** Raising with twice the exponent minus lowering with the power is the
derivative of the electron repulsion integral of four primitives with respect to a coordinate of a
center. -/
theorem C34_derivative (S T : ShellPair) (x y : PrimPair) {a b c d : Exp} (ha : a.Valid) (hb : b.Valid)
    (hc : c.Valid) (hd : d.Valid) (t : RRType) (i : Dir) :
    HasDerivAt (fun v => coulomb x.α x.β y.α y.β (moveCenter S T t i v).1.A (moveCenter S T t i v).1.B
        (moveCenter S T t i v).2.A (moveCenter S T t i v).2.B a b c d)
      (raiseLower (fun s a b c d => (match s with
          | .I => 2 * x.α
          | .J => 2 * x.β
          | .K => 2 * y.α
          | .L => 2 * y.β) * coulomb x.α x.β y.α y.β S.A S.B T.A T.B a b c d)
        (coulomb x.α x.β y.α y.β S.A S.B T.A T.B) (comps a b c d) t i)
      (centerOf S T t i) := by
  have h := dCoul_hasDerivAt S T x y ha hb hc hd t i
  unfold dCoul at h
  convert h using 4
  rename_i s _
  cases s <;> rfl

/-- **C34, translational invariance.** The derivatives with respect to the four centers along one
direction add up to zero, so minus the sum of three is the fourth. -/
theorem C34_translation (S T : ShellPair) (x y : PrimPair) {a b c d : Exp} (ha : a.Valid) (hb : b.Valid)
    (hc : c.Valid) (hd : d.Valid) (i : Dir) :
    ∑ t ∈ ({.I, .J, .K, .L} : Finset RRType),
      deriv (fun v => coulomb x.α x.β y.α y.β (moveCenter S T t i v).1.A (moveCenter S T t i v).1.B
        (moveCenter S T t i v).2.A (moveCenter S T t i v).2.B a b c d) (centerOf S T t i) = 0 := by
  have h := dCoul_sum S T x y ha hb hc hd i
  simp only [(dCoul_hasDerivAt S T x y ha hb hc hd _ i).deriv]
  rw [Finset.sum_insert (by decide), Finset.sum_insert (by decide), Finset.sum_insert (by decide),
    Finset.sum_singleton]
  linarith

/-- Non-trivial case: derivative of `(px s | s s)` with respect to the `x` coordinate of its first
center: `2α (dxx s | s s) - (s s | s s)`. -/
example (S T : ShellPair) (x y : PrimPair) :
    deriv (fun v => coulomb x.α x.β y.α y.β (Function.update S.A .x v) S.B T.A T.B
      ⟨1, 0, 0⟩ ⟨0, 0, 0⟩ ⟨0, 0, 0⟩ ⟨0, 0, 0⟩) (S.A .x) =
    2 * x.α * coulomb x.α x.β y.α y.β S.A S.B T.A T.B ⟨2, 0, 0⟩ ⟨0, 0, 0⟩ ⟨0, 0, 0⟩ ⟨0, 0, 0⟩ -
      coulomb x.α x.β y.α y.β S.A S.B T.A T.B ⟨0, 0, 0⟩ ⟨0, 0, 0⟩ ⟨0, 0, 0⟩ ⟨0, 0, 0⟩ := by
  have h := (C34_derivative S T x y (a := ⟨1, 0, 0⟩) (b := ⟨0, 0, 0⟩) (c := ⟨0, 0, 0⟩) (d := ⟨0, 0, 0⟩)
    (by decide) (by decide) (by decide) (by decide) .I .x).deriv
  refine Eq.trans ?_ (h.trans ?_)
  · rfl
  · simp [raiseLower, comps, Exp.step, Exp.get]

/-! ### C61 -/

/-- **C61.** For every class whose raised classes are covered by the generic run-time tables, every
choice of thresholds and iteration orders, every call and every content of memory: the generated
derivative function runs, returns the number of quartets, and at position
`12 * component + 3 * center + direction` of the block of each quartet writes the derivative of the
contracted integral (over the primitives that pass the screening) with respect to that coordinate of
that center; the rest of the output is left alone. -/
theorem C61_function {g : GenCfg} (hg : g.OK) {final : QAM} (hf : DerivClassOK final) {c : DerivCall ℝ}
    (hc : DerivCallOK final c.toCall) {S T : ℕ → ShellPair} (hS : Holds c.P (tightStart c.P.nprim12) S)
    (hT : Holds c.Q (paddedStart c.len c.Q.nprim12) T)
    (hP : HoldsExps c.P c.alpha2P c.beta2P (tightStart c.P.nprim12) S)
    (hQ : HoldsExps c.Q c.alpha2Q c.beta2Q (paddedStart c.len c.Q.nprim12) T)
    (hmem : HMem ℝ) (out : ℕ → ℝ) :
    ∃ o, derivFunction g realOps final c hmem out = some (c.P.nclip * c.Q.nclip, o) ∧
      (∀ ab < c.P.nclip, ∀ cd < c.Q.nclip, ∀ x y z w : Exp, x.Valid → y.Valid → z.Valid → w.Valid →
        x.am = final.a → y.am = final.b → z.am = final.c → w.am = final.d → ∀ (t : RRType) (i : Dir),
        HasDerivAt (fun v => screenedERI c.toCall (tightStart c.P.nprim12 ab)
            (paddedStart c.len c.Q.nprim12 cd) (moveCenter (S ab) (T cd) t i v).1
            (moveCenter (S ab) (T cd) t i v).2 x y z w)
          (o ((ab * c.Q.nclip + cd) * (12 * ncartQ final) +
            (12 * Qrt.index psi4List ⟨⟨x, y⟩, ⟨z, w⟩, 0⟩ + (3 * t.idx + i.idx))))
          (centerOf (S ab) (T cd) t i)) ∧
      ∀ k, c.P.nclip * c.Q.nclip * (12 * ncartQ final) ≤ k → o k = out k := by
  obtain ⟨H, A, e, hA⟩ := derivAlgos_ok hg hf
  have hl := derivEnv_laneWise (final := final) hA c hc.braPos hc.ketPos
  have hok : ListsOK (derivEnv g realOps final c H A) :=
    ⟨hc.len, hc.prims, hc.bra, hc.ket, List.nodup_dedup _, fun t ht =>
      ncartQ_pos (hA.tval t (by simpa [derivEnv] using ht))⟩
  unfold derivFunction
  rw [e, Option.bind_some]
  simp only [deriv_hasHRR hg hf hA, if_true]
  have hblk : 0 < (derivHrr g final c H).blk :=
    Nat.mul_pos (by decide) (ncartQ_pos hf.valid)
  obtain ⟨o, r, h1, h2⟩ := C25_hrr (derivEnv g realOps final c H A) (derivHrr g final c H) final
    hblk (derivPrim c) hl _ (hrrOn_deriv hg hf hA hS hT) hok
    (fun t _ => le_rfl) hc.out hmem out
  refine ⟨o, r, ?_, h2⟩
  intro ab hab cd hcd x y z w vx vy vz vw ex ey ez ew t i
  have he : ∀ s, IsComp (final.get s).toNat (comps x y z w s) := by
    have key : ∀ {e : Exp} {n : ℤ}, e.Valid → e.am = n → IsComp n.toNat e := by
      rintro e n ⟨h1, h2, h3⟩ h
      simp only [Exp.am] at h
      exact ⟨h1, h2, h3, by omega⟩
    intro s
    cases s
    · exact key vx ex
    · exact key vy ey
    · exact key vz ez
    · exact key vw ew
  have hget := derivBlock_get .exact hf.valid (derivFam c S T ab cd) he t i
  obtain ⟨hlt, hval⟩ := List.getElem?_eq_some_iff.1 hget
  have hlt' := hlt
  rw [derivBlock_length _ hf.valid] at hlt'
  have hv := h1 ab hab cd hcd _ hlt'
  rw [List.getD_eq_getElem _ _ hlt, hval, derivVal_eq hP hQ hab hcd final vx vy vz vw t i] at hv
  have := screenedD_hasDerivAt c.toCall (tightStart c.P.nprim12 ab)
    (paddedStart c.len c.Q.nprim12 cd) (S ab) (T cd) vx vy vz vw t i
  rw [← hv] at this
  exact this

/-- **C61, no screening.** With both lists in the padded layout that the fill routines produce and
the condition of `C59_integrals` on the bra pairs, the function computes the derivatives of the contracted integrals. -/
theorem C61_gradient {g : GenCfg} (hg : g.OK) {final : QAM} (hf : DerivClassOK final) {c : DerivCall ℝ}
    (hc : DerivCallOK final c.toCall) (htol : c.tol ≤ 0) (hbra : ∀ b, (b + 1) * nshellSimd c.len < c.P.nclip →
      c.len ∣ ∑ k ∈ range ((b + 1) * nshellSimd c.len), c.P.nprim12 k)
    {S T : ℕ → ShellPair} (hS : Holds c.P (paddedStart c.len c.P.nprim12) S)
    (hT : Holds c.Q (paddedStart c.len c.Q.nprim12) T)
    (hP : HoldsExps c.P c.alpha2P c.beta2P (paddedStart c.len c.P.nprim12) S)
    (hQ : HoldsExps c.Q c.alpha2Q c.beta2Q (paddedStart c.len c.Q.nprim12) T)
    (hmem : HMem ℝ) (out : ℕ → ℝ) :
    ∃ o, derivFunction g realOps final c hmem out = some (c.P.nclip * c.Q.nclip, o) ∧
      (∀ ab < c.P.nclip, ∀ cd < c.Q.nclip, ∀ x y z w : Exp, x.Valid → y.Valid → z.Valid → w.Valid →
        x.am = final.a → y.am = final.b → z.am = final.c → w.am = final.d → ∀ (t : RRType) (i : Dir),
        HasDerivAt (fun v => contractedERI (moveCenter (S ab) (T cd) t i v).1
            (moveCenter (S ab) (T cd) t i v).2 x y z w)
          (o ((ab * c.Q.nclip + cd) * (12 * ncartQ final) +
            (12 * Qrt.index psi4List ⟨⟨x, y⟩, ⟨z, w⟩, 0⟩ + (3 * t.idx + i.idx))))
          (centerOf (S ab) (T cd) t i)) ∧
      ∀ k, c.P.nclip * c.Q.nclip * (12 * ncartQ final) ≤ k → o k = out k := by
  have hb := (C25_bra_layout hc.len c.P.nprim12 c.P.nclip).2 hbra
  have hS' : Holds c.P (tightStart c.P.nprim12) S := by
    refine ⟨hS.count, hS.AB, fun s hs k hk => ?_⟩
    rw [hb s hs]
    exact hS.prims s hs k hk
  have hP' : HoldsExps c.P c.alpha2P c.beta2P (tightStart c.P.nprim12) S := by
    refine ⟨fun s hs k hk => ?_, fun s hs k hk => ?_⟩
    · rw [hb s hs]; exact hP.a s hs k hk
    · rw [hb s hs]; exact hP.b s hs k hk
  obtain ⟨o, e, h1, h2⟩ := C61_function hg hf hc hS' hT hP' hQ hmem out
  refine ⟨o, e, ?_, h2⟩
  intro ab hab cd hcd x y z w vx vy vz vw ex ey ez ew t i
  have := h1 ab hab cd hcd x y z w vx vy vz vw ex ey ez ew t i
  simp only [screenedERI_unscreened htol] at this
  exact this

/-- Twice the exponents of a single shell pair, zero in the padding. -/
noncomputable def exps2 (S : ShellPair) (f : PrimPair → ℝ) (i : ℕ) : ℝ :=
  if h : i < S.prims.length then 2 * f (S.prims[i]) else 0

theorem singleList_exps (len : ℕ) (S : ShellPair) :
    HoldsExps (singleList len S) (exps2 S PrimPair.α) (exps2 S PrimPair.β)
      (paddedStart len (singleList len S).nprim12) (fun _ => S) := by
  refine ⟨fun s hs k hk => ?_, fun s hs k hk => ?_⟩ <;>
  · have h0 : s = 0 := by have : s < 1 := hs; omega
    subst h0
    have e : paddedStart len (singleList len S).nprim12 0 + k = k := by simp [paddedStart]
    rw [e]
    simp [exps2, hk]

/-- Non-trivial case: any two shell pairs with primitives, class `(p p | p s)`, vectors of four
lanes: the derivative of `(px px | px s)` with respect to `y` of the third center is at position 7,
that with respect to `z` of the first (missing) center at position 2. -/
example {g : GenCfg} (hg : g.OK) (S T : ShellPair) (hT : T.prims ≠ []) (junk : VPar ℝ)
    (scratch : ℕ → ℕ → ℕ → VMem ℝ) (hmem : HMem ℝ) (out : ℕ → ℝ) :
    ∃ o, derivFunction g realOps ⟨1, 1, 1, 0, ""⟩
        ⟨⟨4, singleList 4 S, singleList 4 T, 0, 324, junk, scratch⟩, exps2 S PrimPair.α,
          exps2 S PrimPair.β, exps2 T PrimPair.α, exps2 T PrimPair.β⟩ hmem out = some (1, o) ∧
      o 7 = deriv (fun v => contractedERI S { T with A := Function.update T.A .y v }
        ⟨1, 0, 0⟩ ⟨1, 0, 0⟩ ⟨1, 0, 0⟩ ⟨0, 0, 0⟩) (T.A .y) ∧
      o 2 = deriv (fun v => contractedERI { S with A := Function.update S.A .z v } T
        ⟨1, 0, 0⟩ ⟨1, 0, 0⟩ ⟨1, 0, 0⟩ ⟨0, 0, 0⟩) (S.A .z) ∧ o 324 = out 324 := by
  have hf : DerivClassOK (⟨1, 1, 1, 0, ""⟩ : QAM) :=
    ⟨by unfold QAM.Valid; decide, rfl, by decide, by decide⟩
  have hpos : 0 < T.prims.length := List.length_pos_iff.2 hT
  obtain ⟨o, e, h1, h2⟩ := C61_gradient hg hf
    (c := ⟨⟨4, singleList 4 S, singleList 4 T, 0, 324, junk, scratch⟩, exps2 S PrimPair.α,
          exps2 S PrimPair.β, exps2 T PrimPair.α, exps2 T PrimPair.β⟩)
    ⟨Nat.succ_pos 3, fun s _ => hpos, by
      show tightStart _ 1 ≤ _
      simp only [tightStart, Finset.sum_range_one]
      show S.prims.length ≤ simdRound 4 S.prims.length
      unfold simdRound; omega, fun s hs => by
      have h0 : s = 0 := by have : s < 1 := hs; omega
      subst h0
      show simdRound 4 (0 + T.prims.length) ≤ simdRound 4 T.prims.length
      rw [Nat.zero_add], fun i _ => singleList_pos _ _ _, fun i _ => singleList_pos _ _ _,
      by show 1 * 1 * (12 * ncartQ _) ≤ 324; decide⟩ le_rfl (fun b hb => absurd hb (by show ¬ (b + 1) * 8 < 1; omega))
    (singleList_holds 4 S) (singleList_holds 4 T) (singleList_exps 4 S) (singleList_exps 4 T) hmem out
  have p0 : Qrt.index psi4List ⟨⟨⟨1, 0, 0⟩, ⟨1, 0, 0⟩⟩, ⟨⟨1, 0, 0⟩, ⟨0, 0, 0⟩⟩, 0⟩ = 0 := by decide
  refine ⟨o, e, ?_, ?_, ?_⟩
  · have h := (h1 0 one_pos 0 one_pos ⟨1, 0, 0⟩ ⟨1, 0, 0⟩ ⟨1, 0, 0⟩ ⟨0, 0, 0⟩ (by decide) (by decide)
      (by decide) (by decide) rfl rfl rfl rfl .K .y).deriv
    rw [p0, Nat.zero_mul, Nat.zero_add, Nat.zero_mul] at h
    exact h.symm
  · have h := (h1 0 one_pos 0 one_pos ⟨1, 0, 0⟩ ⟨1, 0, 0⟩ ⟨1, 0, 0⟩ ⟨0, 0, 0⟩ (by decide) (by decide)
      (by decide) (by decide) rfl rfl rfl rfl .I .z).deriv
    rw [p0, Nat.zero_mul, Nat.zero_add, Nat.zero_mul] at h
    exact h.symm
  · exact h2 324 (by show 1 * 1 * (12 * ncartQ _) ≤ 324; decide)

end Simint
