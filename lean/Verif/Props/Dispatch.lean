import Verif.DispatchLemmas
import Verif.Spec.Dispatch
import Verif.Props.SortFill

/-!
# The public functions for two-electron integrals (C64)
-/

set_option autoImplicit false

open Real

namespace Simint

/-! ## The function table -/

/-- **C64, the shipped tables.** The assignments in the two shipped init files are those that
gen_fill.py writes for maximum AM 7 and derivative orders 0 and 1. -/
theorem C64_shipped : Tables.init0 = fillBlocks 0 7 ∧ Tables.init1 = fillBlocks 1 7 :=
  ⟨init0_gen, init1_gen⟩

/-- **C64, the table.** For all limits `simint_init` stays inside of the array, and afterwards the
entry of a class holds the function of that name exactly if no AM is above 7. -/
theorem C64_table (maxder use : ℕ) : ∃ t, simintInit maxder use = some t ∧
    ∀ (D : ℕ), D ≤ 1 → D ≤ maxder → ∀ am : QAM, ClassUpTo use am →
      fnPtr maxder use t D am = if topAM am ≤ 7 then nameCode am else none := by
  obtain ⟨t0, r0, a0, b0⟩ := runInit_fill maxder use 0 use le_rfl (fun _ => Nat.zero_le _) fun _ => none
  obtain ⟨t1, r1, a1, b1⟩ := runInit_fill maxder use 1 (if maxder > 0 then (use : ℤ) else -1)
    (by split <;> omega) (by intro h; split at h <;> omega) t0
  refine ⟨t1, ?_, ?_⟩
  · unfold simintInit
    rw [init0_gen, init1_gen, r0]
    exact r1
  intro D hD hmd am h
  obtain ⟨n1, n2, n3, n4⟩ := h.valid
  have hm : topAM am = maxQ am := by unfold topAM maxQ; omega
  unfold fnPtr
  rw [if_pos ⟨hmd, ⟨n1, h.a⟩, ⟨n2, h.b⟩, ⟨n3, h.c⟩, ⟨n4, h.d⟩⟩, hm]
  have hub : maxQ am ≤ use := by
    have := h.a; have := h.b; have := h.c; have := h.d
    unfold maxQ; omega
  have hge : am.a ≤ maxQ am ∧ am.b ≤ maxQ am ∧ am.c ≤ maxQ am ∧ am.d ≤ maxQ am := by
    unfold maxQ; omega
  -- no other entry has the same code
  have hother : ∀ {D' : ℕ} {bound : ℤ} {q : QAM}, am.a < 16 → am.b < 16 → am.c < 16 → am.d < 16 →
      InFill bound q →
      cellCode D am.a.toNat am.b.toNat am.c.toNat am.d.toNat =
        cellCode D' q.a.toNat q.b.toNat q.c.toNat q.d.toNat → D = D' ∧ q = am := by
    intro D' bound q l1 l2 l3 l4 hq e
    obtain ⟨k1, k2, k3, k4⟩ := hq.lt
    have e1 := cellClass_code (D := D) h.valid h.tag l1 l2 l3 l4
    have e2 := cellClass_code (D := D') hq.2.1 hq.1 (by omega) (by omega) (by omega) (by omega)
    have f1 := cellCode_order (D := D) (a := am.a.toNat) (b := am.b.toNat) (c := am.c.toNat)
      (d := am.d.toNat) (by omega) (by omega) (by omega) (by omega)
    have f2 := cellCode_order (D := D') (a := q.a.toNat) (b := q.b.toNat) (c := q.c.toNat)
      (d := q.d.toNat) (by omega) (by omega) (by omega) (by omega)
    refine ⟨?_, ?_⟩
    · rw [← f1, ← f2, e]
    · rw [← e1, ← e2, e]
  split
  · rename_i hl
    obtain ⟨l1, l2, l3, l4⟩ := hl
    by_cases h7 : maxQ am ≤ 7
    · rw [if_pos h7]
      rcases Nat.le_one_iff_eq_zero_or_eq_one.1 hD with rfl | rfl
      · rw [b1, a0 am ⟨h.tag, h.valid, h7, hub⟩]
        rintro ⟨q, hq, e⟩
        exact absurd (hother l1 l2 l3 l4 hq e).1 (by omega)
      · refine a1 am ⟨h.tag, h.valid, h7, ?_⟩
        rw [if_pos (by omega)]; exact hub
    · rw [if_neg h7, b1, b0]
      · rintro ⟨q, hq, e⟩
        rw [(hother l1 l2 l3 l4 hq e).2] at hq
        exact h7 hq.2.2.1
      · rintro ⟨q, hq, e⟩
        rw [(hother l1 l2 l3 l4 hq e).2] at hq
        exact h7 hq.2.2.1
  · rename_i hl
    rw [if_neg]
    intro h7
    exact hl ⟨by omega, by omega, by omega, by omega⟩

/-- The pointer of a class with AM up to 7 leads to a function of this class. -/
theorem lookup (L : LibCfg) (hL : L.OK) (D : ℕ) (hD : D ≤ 1) (hmd : D ≤ L.maxder) {am : QAM}
    (ham : ClassUpTo L.use am) (h7 : topAM am ≤ 7) :
    ∃ t s f, simintInit L.maxder L.use = some t ∧ fnPtr L.maxder L.use t D am = some s ∧
      L.find s = some f ∧ f.am = am := by
  obtain ⟨t, e, ht⟩ := C64_table L.maxder L.use
  have hu := hL.use
  obtain ⟨h1, h2, h3, h4, h5, h6⟩ := ham
  unfold topAM at h7
  obtain ⟨s, hs⟩ := nameCode_some h2 (by omega) (by omega) (by omega) (by omega)
  obtain ⟨f, f1, f2, -⟩ := find_spec L hL.enum h2 h1 (by omega) (by omega) (by omega) (by omega) hs
  refine ⟨t, s, f, e, ?_, f1, f2⟩
  rw [ht D hD hmd am ⟨h1, h2, h3, h4, h5, h6⟩, if_pos (by unfold topAM; omega), hs]

/-- **C64 fails for larger limits.** create.py copies the init files whatever the maximum AM is: a
call for a class with an AM above 7 goes through a null pointer, for every generated library and
also if the library contains the function. -/
theorem C64_missing (L : LibCfg) {am : QAM} (ham : ClassUpTo L.use am) (h7 : 7 < topAM am)
    (c : PermCall ℝ) (hn : ¬ c.toCall.Negligible) (hmem : HMem ℝ) (out : ℕ → ℝ) :
    L.computeOstei realOps am c hmem out = none := by
  obtain ⟨t, e, ht⟩ := C64_table L.maxder L.use
  unfold LibCfg.computeOstei
  rw [e, Option.bind_some]
  refine (if_neg hn).trans ?_
  rw [ht 0 (by omega) (by omega) am ham, if_neg (by omega)]
  rfl

/-- The function that `C64_missing` does not find has been generated. -/
theorem C64_missing_exists (L : LibCfg) (hL : L.OK) {am : QAM} (ham : ClassUpTo L.use am) :
    am ∈ L.fns.map LibFn.am := by
  have hu := hL.use
  obtain ⟨h1, h2, h3, h4, h5, h6⟩ := ham
  rw [fns_am, (C31_exactly_once hL.enum L.maxam L.p).2]
  exact ⟨h1, h2, by omega, by omega, by omega, by omega⟩

/-! ## Calls -/

/-- **C64, negligible calls.** If the bound of the call is below the tolerance, the function returns
-1 and changes nothing. -/
theorem C64_screened (L : LibCfg) (am : QAM) (c : PermCall ℝ) (hn : c.toCall.Negligible) (hmem : HMem ℝ)
    (out : ℕ → ℝ) : L.computeOstei realOps am c hmem out = some ⟨-1, c.Q.screen, out⟩ := by
  obtain ⟨t, e, -⟩ := C64_table L.maxder L.use
  unfold LibCfg.computeOstei
  rw [e, Option.bind_some]
  exact if_pos hn

/-- The same for derivatives. -/
theorem C64_screened_deriv (L : LibCfg) (am : QAM) (c : DPermCall ℝ) (hn : c.toCall.Negligible)
    (hmem : HMem ℝ) (out : ℕ → ℝ) :
    L.computeOsteiDeriv realOps am c hmem out = some ⟨-1, c.Q.screen, out⟩ := by
  obtain ⟨t, e, -⟩ := C64_table L.maxder L.use
  unfold LibCfg.computeOsteiDeriv
  rw [e, Option.bind_some]
  exact if_pos hn

/-- The hand-written function for four s shells computes the screened integrals. -/
theorem ssss_values {g : GenCfg} (hg : g.OK) {c : Call ℝ} (hc : CallOK ssss c) {S T : ℕ → ShellPair}
    (hS : Holds c.P (tightStart c.P.nprim12) S) (hT : Holds c.Q (paddedStart c.len c.Q.nprim12) T)
    (out : ℕ → ℝ) :
    ∃ scr scr' o, runSsss (ssssEnv realOps c) ssss out = some (c.P.nclip * c.Q.nclip, scr', o) ∧
      SameOnPairs c.len c.Q scr ∧ SameOnPairs c.len c.Q scr' ∧
      (∀ ab < c.P.nclip, ∀ cd < c.Q.nclip, ∀ x y z w : Exp, x.Valid → y.Valid → z.Valid → w.Valid →
        x.am = 0 → y.am = 0 → z.am = 0 → w.am = 0 →
        o ((ab * c.Q.nclip + cd) * ncartQ ssss + Qrt.index psi4List ⟨⟨x, y⟩, ⟨z, w⟩, 0⟩) =
          screenedERI { c with Q := { c.Q with screen := scr } } (tightStart c.P.nprim12 ab)
            (paddedStart c.len c.Q.nprim12 cd) (S ab) (T cd) x y z w) ∧
      ∀ k, c.P.nclip * c.Q.nclip * ncartQ ssss ≤ k → o k = out k := by
  classical
  have hn : ncartQ ssss = 1 := by decide
  have hz : ∀ {x : Exp}, x.Valid → x.am = 0 → x = ⟨0, 0, 0⟩ := by
    intro x hx h
    obtain ⟨i, j, k⟩ := x
    obtain ⟨h1, h2, h3⟩ := hx
    simp only [Exp.am] at h h1 h2 h3
    simp only [Exp.mk.injEq]
    omega
  let q0 : Qrt := ⟨⟨⟨0, 0, 0⟩, ⟨0, 0, 0⟩⟩, ⟨⟨0, 0, 0⟩, ⟨0, 0, 0⟩⟩, 0⟩
  have hq0 : q0.Valid := by decide
  have hq1 : q0.am4 = ssss := by decide
  have hq2 : q0.index psi4List = 0 := by
    have h1 : q0.index psi4List < ncartQ q0.am4 := Qrt.index_lt psi4_ordOK hq0
    rw [hq1, hn] at h1
    omega
  have hlane : LaneWise (ssssEnv realOps c) (genPrim c.P c.Q) := by
    refine ⟨?_, fun i j t k => genPrim_zero _ _ _ _ _ _⟩
    intro i j pf hi _ hj
    refine ⟨_, rfl, ?_⟩
    intro n hn' t ht k hk
    have ht' : t = ssss := by simpa [ssssEnv] using ht
    subst ht'
    have hk0 : k = 0 := by rw [hn] at hk; omega
    subst hk0
    have hp : 0 < c.P.alpha i := hc.braPos i hi
    have hq : 0 < c.Q.alpha (j + n) := hc.ketPos _ (by
      have : j + n < j + (ssssEnv realOps c).len := by omega
      exact lt_of_lt_of_le this hj)
    have hv : genPrim c.P c.Q i (j + n) (pf n) q0.am4 (q0.index psi4List) =
        (pairIJ c.P c.Q i (j + n) hp hq).eri (scaleK c.P c.Q i (j + n) (pf n)) 0 ⟨0, 0, 0⟩ ⟨0, 0, 0⟩
          ⟨0, 0, 0⟩ ⟨0, 0, 0⟩ := by
      unfold genPrim
      rw [dif_pos ⟨hp, hq⟩, atPos_eq _ hq0]
    rw [hq1, hq2] at hv
    rw [hv, C20_start]
    have hp' := hp.ne'
    have hq' := hq.ne'
    have hx : distR2 c.P c.Q i (j + n) * redAlpha (c.P.alpha i) (c.Q.alpha (j + n)) =
        (pairIJ c.P c.Q i (j + n) hp hq).R2 * ((pairIJ c.P c.Q i (j + n) hp hq).p *
          (pairIJ c.P c.Q i (j + n) hp hq).q *
          (1 / ((pairIJ c.P c.Q i (j + n) hp hq).p + (pairIJ c.P c.Q i (j + n) hp hq).q))) := by
      simp only [distR2, redAlpha, Pairs.R2, pairIJ]; ring
    have hk : scaleK c.P c.Q i (j + n) (pf n) * π ^ 3 / ((pairIJ c.P c.Q i (j + n) hp hq).p *
        (pairIJ c.P c.Q i (j + n) hp hq).q) = c.P.prefac i * pf n := by
      simp only [scaleK, pairIJ]
      have := pi_pos.ne'
      field_simp
    rw [← hx, hk]
    simp only [realOps, pairIJ]
    ring
  have hok : ListsOK (ssssEnv realOps c) :=
    ⟨hc.len, hc.prims, hc.bra, hc.ket, by simp [ssssEnv], by simp [ssssEnv, hn]⟩
  have hsize : c.P.nclip * c.Q.nclip ≤ c.outSize := by
    have := hc.out
    rwa [hn, Nat.mul_one] at this
  obtain ⟨scr', o, r, h1, h2, h3⟩ := C29_ssss (ssssEnv realOps c) ssss hn (genPrim c.P c.Q) hlane hok rfl
    hsize out
  have hreal : ∀ s < c.Q.nclip, ∀ b < c.Q.nprim12 s,
      ¬ Tail (ssssEnv realOps c) (paddedStart c.len c.Q.nprim12 s + b) := fun s hs b hb =>
    C29_own_data_safe (ssssEnv realOps c) hok _ ⟨s, hs, b, hb, rfl⟩
  refine ⟨(zeroed (ssssEnv realOps c)).Q.screen, scr', o, r, ?_, ?_, ?_, ?_⟩
  · intro s hs b hb
    exact if_neg (hreal s hs b hb)
  · intro s hs b hb
    rcases h3 (paddedStart c.len c.Q.nprim12 s + b) with h | h
    · exact h
    · exact absurd h.1 (hreal s hs b hb)
  · intro ab hab cd hcd x y z w vx vy vz vw ex ey ez ew
    obtain rfl := hz vx ex
    obtain rfl := hz vy ey
    obtain rfl := hz vz ez
    obtain rfl := hz vw ew
    have e0 : Qrt.index psi4List ⟨⟨⟨0, 0, 0⟩, ⟨0, 0, 0⟩⟩, ⟨⟨0, 0, 0⟩, ⟨0, 0, 0⟩⟩, 0⟩ = 0 := hq2
    rw [e0, hn, Nat.mul_one, Nat.add_zero]
    refine (h1 ab hab cd hcd).trans ?_
    obtain ⟨H, A, -, -⟩ := algos_ok hg (final := ssss) ⟨⟨le_rfl, le_rfl, le_rfl, le_rfl⟩, rfl, by simp [ssss], by simp [ssss]⟩
    have hT' : Holds { c.Q with screen := (zeroed (ssssEnv realOps c)).Q.screen }
        (paddedStart c.len c.Q.nprim12) T :=
      ⟨hT.count, hT.AB, fun s hs k hk =>
        ⟨(hT.prims s hs k hk).alpha, (hT.prims s hs k hk).pos, (hT.prims s hs k hk).PA,
          (hT.prims s hs k hk).PB, (hT.prims s hs k hk).prefac⟩⟩
    have := contractedPair_eq (g := g) (final := ssss) (H := H) (A := A)
      (c := { c with Q := { c.Q with screen := (zeroed (ssssEnv realOps c)).Q.screen } }) hS hT' hab hcd hq0
    rw [hq1, hq2] at this
    exact this
  · intro k hk
    rw [hn, Nat.mul_one] at hk
    exact h2 k hk

theorem permAM_bounds {q : QAM} {s12 s34 : Bool} {n : ℕ} (h : ClassUpTo n (permAM q s12 s34)) :
    q.tag = "" ∧ q.Valid ∧ q.a + q.b ≤ 2 * n ∧ q.c + q.d ≤ 2 * n := by
  obtain ⟨a, b, c, d, t⟩ := q
  obtain ⟨h1, ⟨h2, h3, h4, h5⟩, h6, h7, h8, h9⟩ := h
  cases s12 <;> cases s34 <;> simp only [permAM, Bool.false_eq_true, if_false, if_true] at * <;>
    exact ⟨h1, ⟨by assumption, by assumption, by assumption, by assumption⟩, by omega, by omega⟩

theorem ClassUpTo.small {n : ℕ} {am : QAM} (h : ClassUpTo n am) (h7 : topAM am ≤ 7) : ClassUpTo 7 am := by
  unfold topAM at h7
  obtain ⟨h1, h2, -, -, -, -⟩ := h
  exact ⟨h1, h2, by omega, by omega, by omega, by omega⟩

/-- **C64, calls.** For every class with AM up to the limit of the build and up to 7,
`simint_compute_ostei` calls the function of that class, whether it was generated for this order of
centers or for another one: it returns the number of quartets and stores the integrals, screened with
the square of the tolerance. For four s shells, screening values of padding may have changed; for all
other classes the lists are unchanged. -/
theorem C64_calls_partial (L : LibCfg) (hL : L.OK) {am : QAM} (ham : ClassUpTo L.use am) (h7 : topAM am ≤ 7)
    {c : PermCall ℝ} (hc : CallOK am c.toCall) {S T : ℕ → ShellPair}
    (hS : Holds c.P (tightStart c.P.nprim12) S) (hT : Holds c.Q (paddedStart c.len c.Q.nprim12) T)
    (hP : 0 < c.nP ∧ c.P.nclip ≤ c.nP) (hQ : 0 < c.nQ ∧ c.Q.nclip ≤ c.nQ)
    (hn : ¬ c.toCall.Negligible) (hmem : HMem ℝ) (out : ℕ → ℝ) :
    ∃ scr r, L.computeOstei realOps am c hmem out = some r ∧ r.ret = c.P.nclip * c.Q.nclip ∧
      SameOnPairs c.len c.Q scr ∧ SameOnPairs c.len c.Q r.screenQ ∧
      (am ≠ ssss → scr = c.Q.screen ∧ r.screenQ = c.Q.screen) ∧
      (∀ ab < c.P.nclip, ∀ cd < c.Q.nclip, ∀ x y z w : Exp, x.Valid → y.Valid → z.Valid → w.Valid →
        x.am = am.a → y.am = am.b → z.am = am.c → w.am = am.d →
        r.out ((ab * c.Q.nclip + cd) * ncartQ am + Qrt.index psi4List ⟨⟨x, y⟩, ⟨z, w⟩, 0⟩) =
          screenedERI (c.toCall.inside scr) (tightStart c.P.nprim12 ab)
            (paddedStart c.len c.Q.nprim12 cd) (S ab) (T cd) x y z w) ∧
      ∀ k, c.P.nclip * c.Q.nclip * ncartQ am ≤ k → r.out k = out k := by
  obtain ⟨t, s, ⟨q, s12, s34⟩, e1, e2, e3, e4⟩ := lookup L hL 0 (by omega) (by omega) ham h7
  have hcall : L.computeOstei realOps am c hmem out =
      L.callFn realOps ⟨q, s12, s34⟩ { c with tol := c.tol * c.tol } hmem out := by
    unfold LibCfg.computeOstei
    rw [e1, Option.bind_some]
    refine (if_neg hn).trans ?_
    rw [e2, Option.bind_some, e3, Option.bind_some]
  rw [hcall]
  have e4' : permAM q s12 s34 = am := e4
  have hc' : CallOK am { c.toCall with tol := c.tol * c.tol } :=
    ⟨hc.len, hc.prims, hc.bra, hc.ket, hc.braPos, hc.ketPos, hc.out⟩
  unfold LibCfg.callFn
  by_cases hq : q = ssss
  · subst hq
    rw [permAM_ssss] at e4'
    subst e4'
    obtain ⟨scr, scr', o, r, h1, h2, h3, h4⟩ := ssss_values hL.gen hc' hS hT out
    rw [if_pos rfl]
    refine ⟨scr, ⟨((c.P.nclip * c.Q.nclip : ℕ) : ℤ), scr', o⟩, ?_, by push_cast; rfl, h1, h2,
      fun h => absurd rfl h, h3, h4⟩
    simp only
    rw [r]
    rfl
  · rw [if_neg hq]
    have hne : am ≠ ssss := fun h => hq (permAM_nonneg (e4'.trans h))
    have hb := permAM_bounds (e4'.symm ▸ ham.small h7)
    have hcls : ClassOK q := ⟨hb.2.1, hb.1, by omega, by omega⟩
    have key : ∃ o, (if s12 || s34 then
        permFunction L.gen realOps q s12 s34 { c with tol := c.tol * c.tol } hmem out
        else genFunction L.gen realOps q { c.toCall with tol := c.tol * c.tol } hmem out) =
          some (c.P.nclip * c.Q.nclip, o) ∧
        (∀ ab < c.P.nclip, ∀ cd < c.Q.nclip, ∀ x y z w : Exp, x.Valid → y.Valid → z.Valid → w.Valid →
          x.am = am.a → y.am = am.b → z.am = am.c → w.am = am.d →
          o ((ab * c.Q.nclip + cd) * ncartQ am + Qrt.index psi4List ⟨⟨x, y⟩, ⟨z, w⟩, 0⟩) =
            screenedERI (c.toCall.inside c.Q.screen) (tightStart c.P.nprim12 ab)
              (paddedStart c.len c.Q.nprim12 cd) (S ab) (T cd) x y z w) ∧
        ∀ k, c.P.nclip * c.Q.nclip * ncartQ am ≤ k → o k = out k := by
      by_cases hs : (s12 || s34) = true
      · rw [if_pos hs]
        have := C32_permuted hL.gen hcls s12 s34 (c := { c with tol := c.tol * c.tol })
          (by rw [e4']; exact hc') hS hT hP hQ hmem out
        rw [e4'] at this
        exact this
      · rw [if_neg hs]
        have e : q = am := by
          rw [← e4']
          cases s12 <;> cases s34 <;> simp_all [permAM]
        subst e
        exact C59_function hL.gen hcls hc' hS hT hmem out
    obtain ⟨o, r, h1, h2⟩ := key
    refine ⟨c.Q.screen, ⟨((c.P.nclip * c.Q.nclip : ℕ) : ℤ), c.Q.screen, o⟩, ?_, by push_cast; rfl,
      fun _ _ _ _ => rfl, fun _ _ _ _ => rfl, fun _ => ⟨rfl, rfl⟩, h1, h2⟩
    simp only at r ⊢
    rw [r]
    rfl

/-- **C64, no screening.** With tolerance zero the values are the contracted integrals. -/
theorem C64_integrals_partial (L : LibCfg) (hL : L.OK) {am : QAM} (ham : ClassUpTo L.use am)
    (h7 : topAM am ≤ 7) {c : PermCall ℝ} (hc : CallOK am c.toCall) (htol : c.tol = 0)
    {S T : ℕ → ShellPair}
    (hS : Holds c.P (tightStart c.P.nprim12) S) (hT : Holds c.Q (paddedStart c.len c.Q.nprim12) T)
    (hP : 0 < c.nP ∧ c.P.nclip ≤ c.nP) (hQ : 0 < c.nQ ∧ c.Q.nclip ≤ c.nQ) (hmem : HMem ℝ) (out : ℕ → ℝ) :
    ∃ r, L.computeOstei realOps am c hmem out = some r ∧ r.ret = c.P.nclip * c.Q.nclip ∧
      (∀ ab < c.P.nclip, ∀ cd < c.Q.nclip, ∀ x y z w : Exp, x.Valid → y.Valid → z.Valid → w.Valid →
        x.am = am.a → y.am = am.b → z.am = am.c → w.am = am.d →
        r.out ((ab * c.Q.nclip + cd) * ncartQ am + Qrt.index psi4List ⟨⟨x, y⟩, ⟨z, w⟩, 0⟩) =
          contractedERI (S ab) (T cd) x y z w) ∧
      ∀ k, c.P.nclip * c.Q.nclip * ncartQ am ≤ k → r.out k = out k := by
  obtain ⟨scr, r, h1, h2, -, -, -, h3, h4⟩ := C64_calls_partial L hL ham h7 hc hS hT hP hQ
    (fun h => absurd h.1 (by rw [htol]; exact lt_irrefl _)) hmem out
  refine ⟨r, h1, h2, ?_, h4⟩
  intro ab hab cd hcd x y z w vx vy vz vw ex ey ez ew
  rw [h3 ab hab cd hcd x y z w vx vy vz vw ex ey ez ew, screenedERI_unscreened]
  show c.tol * c.tol ≤ 0
  rw [htol, mul_zero]

/-- **C64, from shells to integrals.** Fill two lists of shell pairs and call the public function with
tolerance zero: the output holds the integrals over the contracted shells. -/
theorem C64_shells_partial (L : LibCfg) (hL : L.OK) {am : QAM} (ham : ClassUpTo L.use am) (h7 : topAM am ≤ 7)
    (sh : ShCfg) (hl : 0 < sh.len) (scr : PrimScreen ℝ) (val : Shell ℝ → Shell ℝ → ℕ → ℕ → ℝ)
    (hscr : sh.screening = true → ExactScr scr val) (big : ℝ) (psP psQ : List (Shell ℝ × Shell ℝ))
    (hP : PairsOK psP) (hQ : PairsOK psQ) (nP : 0 < psP.length) (nQ : 0 < psQ.length)
    (hbra : psP.length ≤ nshellSimd sh.len) (memP memQ : ℕ → ℝ) (outSize : ℕ)
    (hout : psP.length * psQ.length * ncartQ am ≤ outSize) (junk : VPar ℝ)
    (scratch : ℕ → ℕ → ℕ → VMem ℝ) (junkAB : Dir → ℕ → ℝ) (hmem : HMem ℝ) (out : ℕ → ℝ) :
    ∃ P Q r, completeList sh realShOps scr big psP memP = some P ∧
      completeList sh realShOps scr big psQ memQ = some Q ∧
      L.computeOstei realOps am ⟨⟨sh.len, P.1, Q.1, 0, outSize, junk, scratch⟩, psP.length, psQ.length,
        junkAB⟩ hmem out = some r ∧ r.ret = psP.length * psQ.length ∧
      (∀ ab (hab : ab < psP.length) cd (hcd : cd < psQ.length) (x y z w : Exp),
        x.Valid → y.Valid → z.Valid → w.Valid →
        x.am = am.a → y.am = am.b → z.am = am.c → w.am = am.d →
        r.out ((ab * psQ.length + cd) * ncartQ am + Qrt.index psi4List ⟨⟨x, y⟩, ⟨z, w⟩, 0⟩) =
          shellERI psP[ab].1 psP[ab].2 psQ[cd].1 psQ[cd].2 x y z w) ∧
      ∀ k, psP.length * psQ.length * ncartQ am ≤ k → r.out k = out k := by
  obtain ⟨P, eP, ⟨p1, ⟨S, p2, -, ps⟩, p4, p5, p6, p7⟩⟩ := complete_listFor sh hl scr val hscr big psP hP memP
  obtain ⟨Q, eQ, ⟨q1, ⟨T, q2, -, qs⟩, q4, q5, q6, q7⟩⟩ := complete_listFor sh hl scr val hscr big psQ hQ memQ
  have hc : CallOK am ⟨sh.len, P.1, Q.1, 0, outSize, junk, scratch⟩ :=
    ⟨hl, q4, p5, q6, p7, q7, by simp only; rw [p1, q1]; exact hout⟩
  have p2' : Holds P.1 (tightStart P.1.nprim12) S := by
    refine ⟨p2.count, p2.AB, fun s hs k hk => ?_⟩
    rw [C25_bra_small hl P.1.nprim12 P.1.nclip (by rw [p1]; exact hbra) s hs]
    exact p2.prims s hs k hk
  obtain ⟨r, h0, hr, h1, h2⟩ := C64_integrals_partial L hL ham h7
    (c := ⟨⟨sh.len, P.1, Q.1, 0, outSize, junk, scratch⟩, psP.length, psQ.length, junkAB⟩) hc rfl p2' q2
    ⟨nP, p1.le⟩ ⟨nQ, q1.le⟩ hmem out
  simp only [p1, q1] at hr h1 h2
  refine ⟨P, Q, r, eP, eQ, h0, hr, ?_, h2⟩
  intro ab hab cd hcd x y z w vx vy vz vw ex ey ez ew
  obtain ⟨a1, a2, a3⟩ := hP _ (List.getElem_mem hab)
  obtain ⟨b1, b2, b3⟩ := hQ _ (List.getElem_mem hcd)
  rw [h1 ab hab cd hcd x y z w vx vy vz vw ex ey ez ew, contractedERI_same (ps ab hab) (qs cd hcd),
    C40_integrals a1 a2 a3 b1 b2 b3, contractedERI_full a1 a2 b1 b2]

/-- **C64, derivatives.** The same for `simint_compute_ostei_deriv`. -/
theorem C64_derivatives_partial (L : LibCfg) (hL : L.OK) (hder : 1 ≤ L.maxder) {am : QAM}
    (ham : ClassUpTo L.use am) (h7 : topAM am ≤ 7)
    {c : DPermCall ℝ} (hc : DerivCallOK am c.toCall) {S T : ℕ → ShellPair}
    (hS : Holds c.P (tightStart c.P.nprim12) S) (hT : Holds c.Q (paddedStart c.len c.Q.nprim12) T)
    (eP : HoldsExps c.P c.alpha2P c.beta2P (tightStart c.P.nprim12) S)
    (eQ : HoldsExps c.Q c.alpha2Q c.beta2Q (paddedStart c.len c.Q.nprim12) T)
    (hP : 0 < c.nP ∧ c.P.nclip ≤ c.nP) (hQ : 0 < c.nQ ∧ c.Q.nclip ≤ c.nQ)
    (hn : ¬ c.toCall.Negligible) (hmem : HMem ℝ) (out : ℕ → ℝ) :
    ∃ r, L.computeOsteiDeriv realOps am c hmem out = some r ∧ r.ret = c.P.nclip * c.Q.nclip ∧
      r.screenQ = c.Q.screen ∧
      (∀ ab < c.P.nclip, ∀ cd < c.Q.nclip, ∀ x y z w : Exp, x.Valid → y.Valid → z.Valid → w.Valid →
        x.am = am.a → y.am = am.b → z.am = am.c → w.am = am.d → ∀ (t : RRType) (i : Dir),
        HasDerivAt (fun v => screenedERI (c.toCall.inside c.Q.screen) (tightStart c.P.nprim12 ab)
            (paddedStart c.len c.Q.nprim12 cd) (moveCenter (S ab) (T cd) t i v).1
            (moveCenter (S ab) (T cd) t i v).2 x y z w)
          (r.out ((ab * c.Q.nclip + cd) * (12 * ncartQ am) +
            (12 * Qrt.index psi4List ⟨⟨x, y⟩, ⟨z, w⟩, 0⟩ + (3 * t.idx + i.idx))))
          (centerOf (S ab) (T cd) t i)) ∧
      ∀ k, c.P.nclip * c.Q.nclip * (12 * ncartQ am) ≤ k → r.out k = out k := by
  obtain ⟨t, s, ⟨q, s12, s34⟩, e1, e2, e3, e4⟩ := lookup L hL 1 le_rfl hder ham h7
  have hcall : L.computeOsteiDeriv realOps am c hmem out =
      L.callDeriv realOps ⟨q, s12, s34⟩ { c with tol := c.tol * c.tol } hmem out := by
    unfold LibCfg.computeOsteiDeriv
    rw [e1, Option.bind_some]
    refine (if_neg hn).trans ?_
    rw [e2, Option.bind_some, e3, Option.bind_some]
  rw [hcall]
  have e4' : permAM q s12 s34 = am := e4
  have hc' : DerivCallOK am { c.toCall with tol := c.tol * c.tol } :=
    ⟨hc.len, hc.prims, hc.bra, hc.ket, hc.braPos, hc.ketPos, hc.out⟩
  unfold LibCfg.callDeriv
  have hb := permAM_bounds (e4'.symm ▸ ham.small h7)
  have hcls : DerivClassOK q := ⟨hb.2.1, hb.1, by omega, by omega⟩
  have key : ∃ o, (if s12 || s34 then
      dPermFunction L.gen realOps q s12 s34 { c with tol := c.tol * c.tol } hmem out
      else derivFunction L.gen realOps q { c.toDerivCall with tol := c.tol * c.tol } hmem out) =
        some (c.P.nclip * c.Q.nclip, o) ∧
      (∀ ab < c.P.nclip, ∀ cd < c.Q.nclip, ∀ x y z w : Exp, x.Valid → y.Valid → z.Valid → w.Valid →
        x.am = am.a → y.am = am.b → z.am = am.c → w.am = am.d → ∀ (t : RRType) (i : Dir),
        HasDerivAt (fun v => screenedERI (c.toCall.inside c.Q.screen) (tightStart c.P.nprim12 ab)
            (paddedStart c.len c.Q.nprim12 cd) (moveCenter (S ab) (T cd) t i v).1
            (moveCenter (S ab) (T cd) t i v).2 x y z w)
          (o ((ab * c.Q.nclip + cd) * (12 * ncartQ am) +
            (12 * Qrt.index psi4List ⟨⟨x, y⟩, ⟨z, w⟩, 0⟩ + (3 * t.idx + i.idx))))
          (centerOf (S ab) (T cd) t i)) ∧
      ∀ k, c.P.nclip * c.Q.nclip * (12 * ncartQ am) ≤ k → o k = out k := by
    by_cases hs : (s12 || s34) = true
    · rw [if_pos hs]
      have := C35_permuted hL.gen hcls s12 s34 (c := { c with tol := c.tol * c.tol })
        (by rw [e4']; exact hc') hS hT eP eQ hP hQ hmem out
      rw [e4'] at this
      exact this
    · rw [if_neg hs]
      have e : q = am := by
        rw [← e4']
        cases s12 <;> cases s34 <;> simp_all [permAM]
      subst e
      exact C61_function hL.gen hcls (c := { c.toDerivCall with tol := c.tol * c.tol }) hc' hS hT eP eQ
        hmem out
  obtain ⟨o, r, h1, h2⟩ := key
  refine ⟨⟨((c.P.nclip * c.Q.nclip : ℕ) : ℤ), c.Q.screen, o⟩, ?_, by push_cast; rfl, rfl, h1, h2⟩
  simp only at r ⊢
  rw [r]
  rfl

/-- Only zero turns screening off: a negative tolerance skips the test for the whole call, but then
the square is handed on, so it acts as the positive tolerance of the same size. -/
theorem C64_negative (L : LibCfg) (am : QAM) (c : PermCall ℝ) (hc : c.tol < 0)
    (hn : ¬ ({ c.toCall with tol := -c.tol } : Call ℝ).Negligible) (hmem : HMem ℝ) (out : ℕ → ℝ) :
    L.computeOstei realOps am c hmem out = L.computeOstei realOps am { c with tol := -c.tol } hmem out := by
  obtain ⟨t, e, -⟩ := C64_table L.maxder L.use
  have h1 : ¬ c.toCall.Negligible := fun h => absurd h.1 (not_lt.2 hc.le)
  unfold LibCfg.computeOstei
  rw [e, Option.bind_some, Option.bind_some]
  refine (if_neg h1).trans (Eq.trans ?_ (if_neg hn).symm)
  simp only [neg_mul_neg]

/-! ### Cases -/

/-- A pointer in the middle of the table, and one that is missing. -/
example : ((simintInit 1 3).bind fun t => fnPtr 1 3 t 1 ⟨1, 0, 3, 2, ""⟩) = some (lettersCode 'p' 's' 'f' 'd') := by
  decide +kernel

example : ((simintInit 1 8).bind fun t => fnPtr 1 8 t 0 ⟨8, 0, 0, 0, ""⟩) = none ∧
    nameCode ⟨8, 0, 0, 0, ""⟩ = some (lettersCode 'l' 's' 's' 's') := by
  decide +kernel

/-- A library for classes up to d shells, only one order of centers generated. -/
def demoLib : LibCfg := ⟨⟨0, 0, 0, 0, id, id, id⟩, id, 2, 1, 0, 2⟩

theorem demoLib_ok : demoLib.OK :=
  ⟨⟨fun _ _ => Iff.rfl, fun _ _ => Iff.rfl, fun _ _ => Iff.rfl⟩, fun _ _ => List.Perm.refl _, le_rfl⟩

/-- In it, `(p d | s s)` is computed by exchanging the centers of `(d p | s s)`. -/
example : (demoLib.find (lettersCode 'p' 'd' 's' 's')).map (fun f => (f.run, f.s12, f.s34)) =
    some (⟨2, 1, 0, 0, ""⟩, true, false) := by
  decide +kernel

/-- Non-trivial case: any two shell pairs with primitives and the class `(p d | s s)`: the public
function stores the contracted integrals at the documented places. -/
example (S T : ShellPair) (hT : T.prims ≠ []) (junk : VPar ℝ) (scratch : ℕ → ℕ → ℕ → VMem ℝ)
    (junkAB : Dir → ℕ → ℝ) (hmem : HMem ℝ) (out : ℕ → ℝ) :
    ∃ r, demoLib.computeOstei realOps ⟨1, 2, 0, 0, ""⟩
        ⟨⟨4, singleList 4 S, singleList 4 T, 0, 18, junk, scratch⟩, 1, 1, junkAB⟩ hmem out = some r ∧
      r.ret = 1 ∧
      r.out 1 = contractedERI S T ⟨1, 0, 0⟩ ⟨1, 1, 0⟩ ⟨0, 0, 0⟩ ⟨0, 0, 0⟩ ∧
      r.out 17 = contractedERI S T ⟨0, 0, 1⟩ ⟨0, 0, 2⟩ ⟨0, 0, 0⟩ ⟨0, 0, 0⟩ ∧ r.out 18 = out 18 := by
  have hpos : 0 < T.prims.length := List.length_pos_iff.2 hT
  have hS := singleList_holds 4 S
  have hS' : Holds (singleList 4 S) (tightStart (singleList 4 S).nprim12) fun _ => S := by
    refine ⟨hS.count, hS.AB, fun s hs k hk => ?_⟩
    rw [C25_bra_small (Nat.succ_pos 3) _ 1 (by decide) s hs]
    exact hS.prims s hs k hk
  obtain ⟨r, e, h0, h1, h2⟩ := C64_integrals_partial demoLib demoLib_ok (am := ⟨1, 2, 0, 0, ""⟩)
    ⟨rfl, by unfold QAM.Valid; decide, by decide, by decide, by decide, by decide⟩ (by decide)
    (c := ⟨⟨4, singleList 4 S, singleList 4 T, 0, 18, junk, scratch⟩, 1, 1, junkAB⟩)
    ⟨Nat.succ_pos 3, fun s _ => hpos, by
      show tightStart _ 1 ≤ _
      simp only [tightStart, Finset.sum_range_one]
      show S.prims.length ≤ simdRound 4 S.prims.length
      unfold simdRound; omega, fun s hs => by
      have h0 : s = 0 := by have : s < 1 := hs; omega
      subst h0
      show simdRound 4 (0 + T.prims.length) ≤ simdRound 4 T.prims.length
      rw [Nat.zero_add], fun i _ => singleList_pos _ _ _, fun i _ => singleList_pos _ _ _,
      by show 1 * 1 * ncartQ _ ≤ 18; decide⟩ rfl
    hS' (singleList_holds 4 T) ⟨one_pos, le_rfl⟩ ⟨one_pos, le_rfl⟩ hmem out
  refine ⟨r, e, h0, ?_, ?_, ?_⟩
  · exact h1 0 one_pos 0 one_pos ⟨1, 0, 0⟩ ⟨1, 1, 0⟩ ⟨0, 0, 0⟩ ⟨0, 0, 0⟩ (by decide) (by decide)
      (by decide) (by decide) rfl rfl rfl rfl
  · exact h1 0 one_pos 0 one_pos ⟨0, 0, 1⟩ ⟨0, 0, 2⟩ ⟨0, 0, 0⟩ ⟨0, 0, 0⟩ (by decide) (by decide)
      (by decide) (by decide) rfl rfl rfl rfl
  · exact h2 18 (by show 1 * 1 * ncartQ _ ≤ 18; decide)

end Simint
