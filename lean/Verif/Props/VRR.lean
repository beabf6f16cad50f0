import Verif.VRRRunLemmas

/-!
# Properties C13–C19: the vertical recurrence
-/

set_option autoImplicit false

namespace Simint

section
variable {F : Type} [CommRing F]

/-! ## C13 -/

/-- For every valid target with angular momentum left on center `t` a step is created, and for every
family satisfying the recurrence the emitted block stores the exact integral of order `n`, provided
its constants are declared and the memory reads return exact values: source `i` of the block is
read at order `n` or `n + 1` according to its own `m`. -/
theorem C13_step_identity {P : VPar F} {θ : VFam F} (hθ : VRRFam P θ) {t : RRType} {q : Qrt}
    (hv : q.Valid) (hp : 0 < (q.cen t).am) (ord : ℕ → List Exp) (am : QAM) :
    ∃ s, createSingle t q = some s ∧ s.target = q ∧ s.type = t ∧
      (∀ i, (s.src i).m = q.m ∨ (s.src i).m = q.m + 1) ∧
      (∀ i, (s.src i).am + 1 ≤ q.am) ∧
      ∀ (D : Decl), DeclOK D s → ∀ (rd : QAM → ℕ → Option F) (n : ℕ),
        (∀ i, (s.src i).Valid → ∀ n' : ℕ, (n' : ℤ) = n + ((s.src i).m - q.m) →
          rd (s.src i).am4 (n' * (s.src i).ncart + (s.src i).index ord) =
            some (θ n' ((s.src i).cen .I) ((s.src i).cen .J) ((s.src i).cen .K) ((s.src i).cen .L))) →
        (vStmt ord am s).value P D rd n = some (θ n (q.cen .I) (q.cen .J) (q.cen .K) (q.cen .L)) := by
  obtain ⟨d, hd, hdp, hs⟩ := createSingle_spec (t := t) hv (by rw [Qrt.am4_get]; exact hp)
  obtain ⟨d', hd', k2, k3, k4, k5, k6⟩ := createSingle_inv hs
  rw [hd, Option.some.injEq] at hd'
  subst hd'
  have hm : ∀ i, (vrrSrc t q d i).m = q.m + eslot i := fun i => by
    rw [vrrSrc_eq, Qrt.addm_m, vslot_m]
  refine ⟨_, hs, k3, k2, ?_, ?_, ?_⟩
  · intro i
    rw [k4, hm]
    rcases eslot_cases i with h | h <;> rw [h]
    · exact Or.inl (add_zero _)
    · exact Or.inr rfl
  · intro i
    rw [k4, vrrSrc_eq, Qrt.addm_am]
    exact vslot_am_lt t q d _
  · intro D hD rd n hrd
    have := value_eq (P := P) (am := am) (ord := ord) (n := n) hv hd hdp hs hD (rd := rd) (val := θ.at) (by
      intro i hi n' hn'
      have := hrd i (by rw [k4]; exact hi) n' (by rw [k4, hm]; omega)
      rw [k4] at this
      rw [vaddr, this]
      simp only [VFam.at, vrrSrc_eq, Qrt.addm_cen])
    rw [this, vform_ring _ _ hv hdp, ← hθ.rhs hv hdp n]
    rfl

/-- a step with all eight sources: `(d_xx p_x | p_x p_x)` lowered on the first center -/
example : ((createSingle .I ⟨⟨⟨2, 0, 0⟩, ⟨1, 0, 0⟩⟩, ⟨⟨1, 0, 0⟩, ⟨1, 0, 0⟩⟩, 0⟩).map fun s =>
    (List.ofFn fun i => decide (s.src i).Valid, s.ijkl .I, s.ijkl .J, s.ijkl .K, s.ijkl .L)) =
    some ([true, true, true, true, true, true, true, true], 1, 1, 1, 1) := by decide +kernel

/-! ## C14 -/

/-- The search never runs out of rounds, leaves no pending target, forms exactly one step per
formed integral, forms every requested integral, and every valid source of a step is formed or is an
`(ss|ss)` integral. For any list of targets. -/
theorem C14_search_closed {ts : List RRType} (hnd : ts.Nodup) (hts : ∀ t, t ∈ ts) (init : List Qrt)
    {enum : List Qrt → List Qrt} (he : EnumOK enum) :
    ∃ st, vPhases enum (vrrFuel init) ts { targets := vPrune init, steps := [], solved := [] } =
        some st ∧ st.targets = [] ∧
      (∀ q ∈ init, q.Valid → q ∈ st.solved ∨ q.am4 = ssss) ∧
      (∀ q ∈ st.solved, ∃ s ∈ st.steps, s.target = q ∧ ∀ s' ∈ st.steps, s'.target = q → s' = s) ∧
      (∀ s ∈ st.steps, s.target ∈ st.solved ∧ s.target.Valid ∧
        ∀ i, (s.src i).Valid → s.src i ∈ st.solved ∨ (s.src i).am4 = ssss) := by
  obtain ⟨st, e, h, hz⟩ := search_ok (ts := ts) (init := init) he hnd
  have hs := solved_iff hts h hz
  have hno : ∀ q, q ∉ st.targets := by
    intro q hq
    have hr := h.reach q (Or.inr hq)
    obtain ⟨t, ht⟩ := phase_total hts hr.valid.1.am4 (by simpa using hr.valid.2)
    have h1 := (phase_some ht).1
    have h2 := hz q hq t (hts t)
    omega
  have hss : ∀ q : Qrt, q.Valid → ¬ 0 < q.am → q.am4 = ssss := fun q hv h0 =>
    QAM.eq_ssss hv.am4 (by rw [Qrt.am4_sum]; omega) rfl
  refine ⟨st, e, ?_, ?_, ?_, ?_⟩
  · exact List.eq_nil_iff_forall_not_mem.2 hno
  · intro q hq hv
    by_cases h0 : 0 < q.am
    · exact Or.inl ((h.ini q hq hv h0).resolve_right (hno q))
    · exact Or.inr (hss q hv h0)
  · intro q hq
    obtain ⟨s, hs1, rfl⟩ := h.has q hq
    refine ⟨s, hs1, rfl, fun s' hs' e' => ?_⟩
    obtain ⟨-, t, ht, hc⟩ := h.sph s hs1
    obtain ⟨-, t', ht', hc'⟩ := h.sph s' hs'
    rw [e', ht, Option.some.injEq] at ht'
    rw [e', ← ht', hc, Option.some.injEq] at hc'
    exact hc'.symm
  · intro s hs1
    have h1 := (h.sph s hs1).1
    refine ⟨h1, ((hs _).1 h1).valid.1, fun i hi => ?_⟩
    by_cases h0 : 0 < (s.src i).am
    · exact Or.inl ((h.cl s hs1 i hi h0).resolve_right (hno _))
    · exact Or.inr (hss _ hi h0)

/-- `(d_xx|d_xy)`: 13 integrals are formed -/
def exDD : Qrt := ⟨⟨⟨2, 0, 0⟩, ⟨0, 0, 0⟩⟩, ⟨⟨1, 1, 0⟩, ⟨0, 0, 0⟩⟩, 0⟩

#guard (vPhases id (vrrFuel [exDD]) [.J, .L, .I, .K]
    { targets := vPrune [exDD], steps := [], solved := [] }).map
    (fun st => (st.targets.length, st.steps.length)) = some (0, 13)

#guard (vPhases id (vrrFuel (quartetTargets psi4List 1 0 1 0)) [.J, .L, .I, .K]
    { targets := vPrune (quartetTargets psi4List 1 0 1 0), steps := [], solved := [] }).map
    (fun st => (st.targets.length, st.steps.length)) = some (0, 15)

/-! ## C15, C16 -/

theorem mem_classTargets {ord : ℕ → List Exp} (ho : OrdOK ord) (hs : OrdStart ord) {ams : List QAM}
    (hv : ∀ a ∈ ams, a.valid = true ∧ a.tag = "") {q : Qrt} :
    q ∈ classTargets ord ams ↔ q.Valid ∧ q.m = 0 ∧ q.am4 ∈ ams := by
  simp only [classTargets, List.mem_flatMap, mem_quartetTargets ho hs]
  have nn : ∀ a ∈ ams, 0 ≤ a.a ∧ 0 ≤ a.b ∧ 0 ≤ a.c ∧ 0 ≤ a.d := fun a ha => by
    have := (hv a ha).1
    simpa [QAM.valid] using this
  constructor
  · rintro ⟨a, ha, h1, h2, h3, h4, h5⟩
    obtain ⟨n1, n2, n3, n4⟩ := nn a ha
    refine ⟨⟨⟨h1.valid, h2.valid⟩, ⟨h3.valid, h4.valid⟩, by omega⟩, h5, ?_⟩
    have : q.am4 = a := by
      refine QAM.ext_get (fun t => ?_) (by rw [(hv a ha).2]; rfl)
      cases t
      · show q.bra.left.am = a.a
        rw [h1.am_eq]; omega
      · show q.bra.right.am = a.b
        rw [h2.am_eq]; omega
      · show q.ket.left.am = a.c
        rw [h3.am_eq]; omega
      · show q.ket.right.am = a.d
        rw [h4.am_eq]; omega
    rw [this]; exact ha
  · rintro ⟨h1, h2, h3⟩
    exact ⟨q.am4, h3, isComp_of_valid h1.1.1, isComp_of_valid h1.1.2, isComp_of_valid h1.2.1.1,
      isComp_of_valid h1.2.1.2, h2⟩

theorem classTargets_px {ord : ℕ → List Exp} (ho : OrdOK ord) (hs : OrdStart ord) {ams : List QAM}
    (hv : ∀ a ∈ ams, a.valid = true ∧ a.tag = "") : PxClosed (classTargets ord ams) := by
  intro q hq hqv
  rw [mem_classTargets ho hs hv] at hq ⊢
  exact ⟨by rw [Qrt.px_valid]; exact ⟨hq.1.am4, hq.1.2.2⟩, by rw [Qrt.px_m]; exact hq.2.1,
    by rw [Qrt.px_am4]; exact hq.2.2⟩

theorem classTargets_valid {ord : ℕ → List Exp} (ho : OrdOK ord) (hs : OrdStart ord) {ams : List QAM}
    (hv : ∀ a ∈ ams, a.valid = true ∧ a.tag = "") : ∀ q ∈ classTargets ord ams, q.Valid :=
  fun _ hq => ((mem_classTargets ho hs hv).1 hq).1

/-- Auxiliary orders: a class formed at orders `0..M` reads classes that are stored at orders
`0..M+1` at least; `(ss|ss)` is stored exactly up to the largest total angular momentum asked for. -/
theorem C15_orders_sufficient {ord : ℕ → List Exp} (ho : OrdOK ord) (hs : OrdStart ord)
    {enum : List Qrt → List Qrt} (he : EnumOK enum) {ts : List RRType} (hnd : ts.Nodup)
    (hts : ∀ t, t ∈ ts) {ams : List QAM} (hv : ∀ a ∈ ams, a.valid = true ∧ a.tag = "") :
    ∃ A, vrrCreate enum ts (classTargets ord ams) = some A ∧
      (∀ s ∈ A.steps, ∃ M, A.mreq s.target.am4 = some M ∧ 0 ≤ M ∧
        ∀ i, (s.src i).Valid → ∃ M', A.mreq (s.src i).am4 = some M' ∧ M + 1 ≤ M') ∧
      ∃ M, A.mreq ssss = some M ∧ (∀ a ∈ ams, a.a + a.b + a.c + a.d ≤ M) ∧
        (M = 0 ∨ ∃ a ∈ ams, M = a.a + a.b + a.c + a.d) := by
  obtain ⟨A, e, hA⟩ := vrrCreate_ok (ts := ts) he hnd hts (classTargets_px ho hs hv)
    (classTargets_valid ho hs hv)
  refine ⟨A, e, ?_, ?_⟩
  · intro s hss
    obtain ⟨q, t, hq, ht, hc⟩ := hA.sph s hss
    obtain ⟨M, h1, h2, -, -, h5⟩ := hA.mreq q hq
    obtain ⟨d, -, k2, k3, k4, -, -⟩ := createSingle_inv hc
    refine ⟨M, by rw [k3, Qrt.z_am4]; exact h1, h2, fun i hi => h5 t ht _ ?_⟩
    rw [k4] at hi ⊢
    have := vAMReq_mem hi
    rwa [Qrt.z_am4] at this
  · obtain ⟨M, h1, h2, h3, h4⟩ := hA.mz
    have hmem : ∀ a ∈ ams, ∃ q ∈ classTargets ord ams, q.am4 = a := by
      intro a ha
      obtain ⟨hva, hta⟩ := hv a ha
      have hz : (⟨⟨⟨a.a, 0, 0⟩, ⟨a.b, 0, 0⟩⟩, ⟨⟨a.c, 0, 0⟩, ⟨a.d, 0, 0⟩⟩, 0⟩ : Qrt).am4 = a := by
        simp only [Qrt.am4, Exp.am, add_zero]
        rw [← hta]
      refine ⟨_, (mem_classTargets ho hs hv).2 ⟨?_, rfl, by rw [hz]; exact ha⟩, hz⟩
      simp only [QAM.valid, decide_eq_true_eq] at hva
      simp [Qrt.Valid, Dbl.Valid, Exp.Valid, hva]
    refine ⟨M, h1, ?_, ?_⟩
    · intro a ha
      obtain ⟨q, hq, rfl⟩ := hmem a ha
      obtain ⟨q1, q2, -⟩ := (mem_classTargets ho hs hv).1 hq
      show q.bra.left.am + q.bra.right.am + q.ket.left.am + q.ket.right.am ≤ M
      by_cases h0 : 0 < q.am
      · have := h3 q (VReach.base q hq q1 h0)
        simp only [Qrt.am] at this; omega
      · simp only [Qrt.am] at h0; omega
    · by_cases hM : M = 0
      · exact Or.inl hM
      · right
        by_contra hc
        push Not at hc
        have := h4 (M - 1) (by omega) (by
          intro q hq
          obtain ⟨q1, q2, q3⟩ := (mem_classTargets ho hs hv).1 hq
          have h5 := hc _ q3
          have h6 : q.am ≤ M := by
            by_cases h0 : 0 < q.am
            · have := h3 q (VReach.base q hq q1 h0); omega
            · omega
          simp only [Qrt.am4, ne_eq] at h5
          simp only [Qrt.am] at h6 ⊢
          omega)
        omega

#guard (vrrCreate id (vrrDirections (classTargets psi4List [⟨2, 0, 1, 0, ""⟩]))
    (classTargets psi4List [⟨2, 0, 1, 0, ""⟩])).map
      (fun A => (A.mreq ssss, A.mreq ⟨1, 0, 0, 0, ""⟩, A.mreq ⟨2, 0, 0, 0, ""⟩, A.order)) =
    some (some 3, some 2, some 1, [⟨1, 0, 0, 0, ""⟩, ⟨2, 0, 0, 0, ""⟩, ⟨2, 0, 1, 0, ""⟩])

/-- Every requested class is formed (unless `(ss|ss)`), none twice, each after the classes read by
its steps. -/
theorem C16_order_topological {ord : ℕ → List Exp} (ho : OrdOK ord) (hs : OrdStart ord)
    {enum : List Qrt → List Qrt} (he : EnumOK enum) {ts : List RRType} (hnd : ts.Nodup)
    (hts : ∀ t, t ∈ ts) {ams : List QAM} (hv : ∀ a ∈ ams, a.valid = true ∧ a.tag = "") :
    ∃ A, vrrCreate enum ts (classTargets ord ams) = some A ∧ A.order.Nodup ∧ ssss ∉ A.order ∧
      (∀ a ∈ ams, a = ssss ∨ a ∈ A.order) ∧
      ∀ l1 a l2, A.order = l1 ++ a :: l2 → ∀ s ∈ A.steps, s.target.am4 = a →
        ∀ i, (s.src i).Valid → (s.src i).am4 = ssss ∨ (s.src i).am4 ∈ l1 := by
  obtain ⟨A, e, hA⟩ := vrrCreate_ok (ts := ts) he hnd hts (classTargets_px ho hs hv)
    (classTargets_valid ho hs hv)
  refine ⟨A, e, hA.ond, fun h => (hA.omem _ h).2 rfl, ?_, ?_⟩
  · intro a ha
    obtain ⟨hva, hta⟩ := hv a ha
    have hz : (⟨⟨⟨a.a, 0, 0⟩, ⟨a.b, 0, 0⟩⟩, ⟨⟨a.c, 0, 0⟩, ⟨a.d, 0, 0⟩⟩, 0⟩ : Qrt).am4 = a := by
      simp only [Qrt.am4, Exp.am, add_zero]
      rw [← hta]
    have hval : (⟨⟨⟨a.a, 0, 0⟩, ⟨a.b, 0, 0⟩⟩, ⟨⟨a.c, 0, 0⟩, ⟨a.d, 0, 0⟩⟩, 0⟩ : Qrt).Valid := by
      simp only [QAM.valid, decide_eq_true_eq] at hva
      simp [Qrt.Valid, Dbl.Valid, Exp.Valid, hva]
    have hq := (mem_classTargets ho hs hv).2 ⟨hval, rfl, by rw [hz]; exact ha⟩
    by_cases h0 : 0 < a.sum
    · right
      have := hA.oreq _ hq hval (by rw [← Qrt.am4_sum, hz]; exact h0)
      rwa [hz] at this
    · exact Or.inl (QAM.eq_ssss hva (by omega) hta)
  · intro l1 a l2 hl s hss hsa i hi
    obtain ⟨q, t, hq, ht, hc⟩ := hA.sph s hss
    obtain ⟨d, -, k2, k3, k4, -, -⟩ := createSingle_inv hc
    rw [k3, Qrt.z_am4] at hsa
    rw [hsa] at ht
    refine hA.otopo l1 a l2 hl t ht _ ?_
    rw [k4] at hi ⊢
    have := vAMReq_mem hi
    rwa [Qrt.z_am4, hsa] at this

/-! ## C17 -/

end

section
variable {F : Type} [VOps F]

/-- What the vertical code keeps: a property of values closed under the recurrence as evaluated, true
of the `(ss|ss)` array, holds of every element of every requested class. -/
theorem vertical_closed {ord : ℕ → List Exp} (ho : OrdOK ord) (hs : OrdStart ord)
    {enum : List Qrt → List Qrt} (he : EnumOK enum) {ams : List QAM}
    (hv : ∀ a ∈ ams, a.valid = true ∧ a.tag = "") {se sg : ℤ}
    (hmode : ModesOK ord se sg (classTargets ord ams)) {P : VPar F} {G : ℕ → Qrt → F → Prop}
    (hG : VClosed P G) :
    ∃ A M, vrrCreate enum (vrrDirections (classTargets ord ams)) (classTargets ord ams) = some A ∧
      A.mreq ssss = some M ∧
      ∀ m : VMem F, (∀ n : ℕ, (n : ℤ) ≤ M →
        G n ⟨⟨⟨0, 0, 0⟩, ⟨0, 0, 0⟩⟩, ⟨⟨0, 0, 0⟩, ⟨0, 0, 0⟩⟩, 0⟩ (m ssss n)) →
      ∃ m', vRunAllM ord enum se sg A P A.order m = some m' ∧
        ∀ q : Qrt, q.Valid → q.am4 ∈ ams →
          ∃ Mq, A.mreq q.am4 = some Mq ∧ 0 ≤ Mq ∧ ∀ n : ℕ, (n : ℤ) ≤ Mq →
            G n q.z (m' q.am4 (n * q.ncart + q.index ord)) := by
  have hpx := classTargets_px ho hs hv
  set ts := vrrDirections (classTargets ord ams) with hts
  obtain ⟨A, e, hA⟩ := vrrCreate_ok (ts := ts) he (vrrDirections_nodup _) (vrrDirections_mem _) hpx
    (classTargets_valid ho hs hv)
  obtain ⟨M, hM, hM0, -, -⟩ := hA.mz
  refine ⟨A, M, e, hM, fun m hm => ?_⟩
  have h0 : VGoodP ord G A.mreq (Reach0 ts (classTargets ord ams)) m ssss := by
    intro q hq hqm hqa _ M1 hM1 n hn
    rw [hM, Option.some.injEq] at hM1
    subst hM1
    have hz : ∀ t, q.cen t = ⟨0, 0, 0⟩ := by
      intro t
      have h1 : (q.cen t).am = 0 := by
        rw [← Qrt.am4_get, hqa]; cases t <;> rfl
      have h2 := ((Qrt.valid_iff q).1 hq).1 t
      have := isComp_of_valid h2
      rw [h1] at this
      exact comp_zero_eq this
    have h1 := hz .I; have h2 := hz .J; have h3 := hz .K; have h4 := hz .L
    simp only [Qrt.cen] at h1 h2 h3 h4
    have hi : vaddr ord q n = n := by
      simp only [vaddr, Qrt.ncart, Qrt.index, Dbl.ncart, Dbl.index, h1, h2, h3, h4]
      have c0 : cidx ord ⟨0, 0, 0⟩ = 0 := cidx_zero ho (by simp [Exp.Valid]) rfl
      rw [c0]
      simp [ncart, Exp.am]
    have hqz : q = ⟨⟨⟨0, 0, 0⟩, ⟨0, 0, 0⟩⟩, ⟨⟨0, 0, 0⟩, ⟨0, 0, 0⟩⟩, 0⟩ := by
      obtain ⟨⟨b1, b2⟩, ⟨c1, c2⟩, mm⟩ := q
      simp only at h1 h2 h3 h4 hqm
      rw [h1, h2, h3, h4, hqm]
    rw [VMem.at, hqa, hi, hqz]
    exact hm n hn
  obtain ⟨m', e', hg⟩ := vRunWith_closed hA hG (ord := ord) (run := vRunMode ord enum se sg A P)
    (fun am hmem t ht M hr => mode_contract ho hs he hA hmode hmem ht hr) A.order m []
    ⟨[], by simp, by simp⟩ (by simp) (by simp) h0
  refine ⟨m', by rw [vRunAllM_eq]; exact e', ?_⟩
  intro q hq hqa
  have hz : q.z ∈ classTargets ord ams :=
    (mem_classTargets ho hs hv).2 ⟨hq.z, rfl, by rw [Qrt.z_am4]; exact hqa⟩
  by_cases hp : 0 < q.am
  · have hr : VReach ts (classTargets ord ams) q.z := VReach.base _ hz hq.z hp
    obtain ⟨Mq, h1, h2, -⟩ := hA.mreq _ hr
    have horder := hA.oreq _ hz hq.z hp
    rw [Qrt.z_am4] at h1 horder
    refine ⟨Mq, h1, h2, fun n hn => ?_⟩
    exact hg q.am4 (Or.inr (Or.inl horder)) q.z hq.z rfl (Qrt.z_am4 q)
      (Or.inr ⟨0, by simpa [Qrt.addm, Qrt.z] using hr⟩) Mq h1 n hn
  · have hss : q.am4 = ssss := QAM.eq_ssss hq.am4 (by rw [Qrt.am4_sum]; omega) rfl
    refine ⟨M, by rw [hss]; exact hM, hM0, fun n hn => ?_⟩
    exact hg q.am4 (Or.inr (Or.inr hss)) q.z hq.z rfl (Qrt.z_am4 q) (Or.inl hss) M
      (by rw [hss]; exact hM) n hn

end

section
variable {F : Type} [CommRing F]

/-- The vertical stage as written by `WriteVRR` for the classes `ams`, with the index order chosen
by `Create`, and any thresholds `se` and `sg` for external and generic code: every access is inside
the arrays, and whatever the memory held before, if `(ss|ss)` holds the exact values at orders
`0..M` then every element of every requested class is exact at every stored order.

`ModesOK`: classes reached by external code come from one-sided requests (always the case for the
classes the horizontal stage asks for, C10), classes computed by the generic routines have AM at
most 18 per center and the arrays are in the order of the run-time table. -/
theorem C17_vertical_exact {ord : ℕ → List Exp} (ho : OrdOK ord) (hs : OrdStart ord)
    {enum : List Qrt → List Qrt} (he : EnumOK enum) {ams : List QAM}
    (hv : ∀ a ∈ ams, a.valid = true ∧ a.tag = "") {se sg : ℤ}
    (hmode : ModesOK ord se sg (classTargets ord ams)) {P : VPar F} {θ : VFam F} (hθ : VRRFam P θ) :
    ∃ A M, vrrCreate enum (vrrDirections (classTargets ord ams)) (classTargets ord ams) = some A ∧
      A.mreq ssss = some M ∧
      ∀ m : VMem F, (∀ n : ℕ, (n : ℤ) ≤ M → m ssss n = θ n ⟨0, 0, 0⟩ ⟨0, 0, 0⟩ ⟨0, 0, 0⟩ ⟨0, 0, 0⟩) →
      ∃ m', vRunAllM ord enum se sg A P A.order m = some m' ∧
        ∀ q : Qrt, q.Valid → q.am4 ∈ ams →
          ∃ Mq, A.mreq q.am4 = some Mq ∧ 0 ≤ Mq ∧ ∀ n : ℕ, (n : ℤ) ≤ Mq →
            m' q.am4 (n * q.ncart + q.index ord) =
              θ n (q.cen .I) (q.cen .J) (q.cen .K) (q.cen .L) := by
  obtain ⟨A, M, e, hM, h⟩ := vertical_closed ho hs he hv hmode hθ.closed
  exact ⟨A, M, e, hM, fun m hm => h m hm⟩

/-- the hypotheses are satisfiable with all three kinds of code in use: `(d s | p s)` with external
code from total 1 and generic code from total 3 -/
example : ModesOK psi4List 2 3 (classTargets psi4List [⟨2, 0, 1, 0, ""⟩]) := by
  have hv : ∀ a ∈ [(⟨2, 0, 1, 0, ""⟩ : QAM)], QAM.valid a = true ∧ a.tag = "" := by decide
  constructor
  · intro q hq
    have h := ((mem_classTargets psi4_ordOK psi4_start hv).1 hq).2.2
    right; right
    rw [List.mem_singleton.1 h]; exact ⟨by decide, by decide⟩
  · intro q hq
    have h := ((mem_classTargets psi4_ordOK psi4_start hv).1 hq).2.2
    right; right
    rw [List.mem_singleton.1 h]; exact ⟨rfl, fun u => by cases u <;> decide⟩

/-- A class with momentum on the first center of both sides and on a second center cannot use
external code: the file written for it calls itself with the same arguments, so the call never
returns (no fuel suffices). -/
theorem C17_external_two_sided_diverges {ord : ℕ → List Exp} (ho : OrdOK ord) (hst : OrdStart ord)
    {enum : List Qrt → List Qrt} (he : EnumOK enum) {mr : MReq} {am : QAM} (hval : am.valid = true)
    (htag : am.tag = "") {t : RRType} (ha : am.a ≠ 0) (hc : am.c ≠ 0) (hbd : am.b ≠ 0 ∨ am.d ≠ 0)
    (ht : t = .I ∨ t = .K) (f : ℕ) (args : List QAM) (vargs : List (Dir → F)) (num : ℕ) (m : VMem F) :
    vCall ord enum mr f t am args vargs num m = none := by
  refine vCall_two_sided ha hc (by tauto) ht f args vargs num m ?_
  have hp : 0 < am.get t := by
    have h1 := (QAM.valid_iff am).1 hval t
    rcases ht with rfl | rfl <;> simp only [QAM.get] at h1 ⊢ <;> omega
  obtain ⟨A, e, h, -⟩ := extAlgo_spec ho hst he hval htag hp
  intro A' e' t' h'
  rw [e, Option.some.injEq] at e'
  subst e'
  rw [h, Option.some.injEq] at h'
  exact h'.symm

/-! ## C18 -/

/-- Constant `i` is declared in `l`, and so is the plain number its declaration refers to. -/
def Declared (l : List ℤ) (D : Decl) (i : ℤ) : Prop :=
  0 < i ∧ i ∈ l ∧ ((D.one = true ∧ i = 1) ∨ D.lit i = true)

/-- Every constant that appears in the emitted block is declared. -/
structure ConstsDeclared (D : Decl) (s : VStmt) : Prop where
  c0 : (s.src 2).isSome ∨ (s.src 3).isSome →
    Declared (if s.type.isBra then D.d2p else D.d2q) D s.c0
  c1 : (s.src 4).isSome ∨ (s.src 5).isSome →
    Declared (if s.type.isBra then D.d2p else D.d2q) D s.c1
  c2 : (s.src 6).isSome → Declared D.d2pq D s.c2
  c3 : (s.src 7).isSome → Declared D.d2pq D s.c3

theorem vRef_isSome {ord : ℕ → List Exp} {q : Qrt} : (vRef ord q).isSome ↔ q.Valid := by
  unfold vRef; split <;> simp [*]

theorem constsDeclared_of {ord : ℕ → List Exp} {D : Decl} {am : QAM} {t : RRType} {q : Qrt} {s : VStep}
    (hv : q.Valid) (hp : 0 < q.am4.get t) (hc : createSingle t q = some s) (hD : DeclOK D s) :
    ConstsDeclared D (vStmt ord am s) := by
  have hpos := fun i => ints_pos hv hp hc (i := i)
  obtain ⟨d, -, h1, -⟩ := createSingle_inv hc
  have dp := hD.p; have dq := hD.q; have dpq := hD.pq
  constructor <;> simp only [vStmt, vRef_isSome, h1] <;> intro h <;>
  cases t <;>
  simp only [RRType.isBra, if_true, Bool.false_eq_true, if_false] <;>
  simp only [ints2p, ints2q, ints2pq, h1, reduceCtorEq, or_false, false_or, or_true, true_or, if_true, if_false, or_self, List.mem_append, List.not_mem_nil] at dp dq dpq hpos
  · exact ⟨by have := (hpos (s.ijkl .I) (by simp [h])).1; omega, dp _ (by simp [h])⟩
  · exact ⟨by have := (hpos (s.ijkl .I) (by simp [h])).1; omega, dp _ (by simp [h])⟩
  · exact ⟨by have := (hpos (s.ijkl .K) (by simp [h])).1; omega, dq _ (by simp [h])⟩
  · exact ⟨by have := (hpos (s.ijkl .K) (by simp [h])).1; omega, dq _ (by simp [h])⟩
  · exact ⟨by have := (hpos (s.ijkl .J) (by simp [h])).1; omega, dp _ (by simp [h])⟩
  · exact ⟨by have := (hpos (s.ijkl .J) (by simp [h])).1; omega, dp _ (by simp [h])⟩
  · exact ⟨by have := (hpos (s.ijkl .L) (by simp [h])).1; omega, dq _ (by simp [h])⟩
  · exact ⟨by have := (hpos (s.ijkl .L) (by simp [h])).1; omega, dq _ (by simp [h])⟩
  · exact ⟨by have := (hpos (s.ijkl .K) (by simp [h])).1; omega, dpq _ (by simp [h])⟩
  · exact ⟨by have := (hpos (s.ijkl .K) (by simp [h])).1; omega, dpq _ (by simp [h])⟩
  · exact ⟨by have := (hpos (s.ijkl .I) (by simp [h])).1; omega, dpq _ (by simp [h])⟩
  · exact ⟨by have := (hpos (s.ijkl .I) (by simp [h])).1; omega, dpq _ (by simp [h])⟩
  · exact ⟨by have := (hpos (s.ijkl .L) (by simp [h])).1; omega, dpq _ (by simp [h])⟩
  · exact ⟨by have := (hpos (s.ijkl .L) (by simp [h])).1; omega, dpq _ (by simp [h])⟩
  · exact ⟨by have := (hpos (s.ijkl .J) (by simp [h])).1; omega, dpq _ (by simp [h])⟩
  · exact ⟨by have := (hpos (s.ijkl .J) (by simp [h])).1; omega, dpq _ (by simp [h])⟩

/-- Inline code: the declarations written by `WriteVRR` cover every block of every class. -/
theorem C18_inline_constants {ord : ℕ → List Exp} (ho : OrdOK ord) (hs : OrdStart ord)
    {enum : List Qrt → List Qrt} (he : EnumOK enum) {ts : List RRType} (hnd : ts.Nodup)
    (hts : ∀ t, t ∈ ts) {ams : List QAM} (hv : ∀ a ∈ ams, a.valid = true ∧ a.tag = "") :
    ∃ A, vrrCreate enum ts (classTargets ord ams) = some A ∧
      ∀ am, ∀ s ∈ vStepsFor A.steps am, ConstsDeclared (inlineDecl A.steps) (vStmt ord am s) := by
  obtain ⟨A, e, hA⟩ := vrrCreate_ok (ts := ts) he hnd hts (classTargets_px ho hs hv)
    (classTargets_valid ho hs hv)
  refine ⟨A, e, fun am s h => ?_⟩
  simp only [vStepsFor, List.mem_filter] at h
  obtain ⟨q, t, hq, ht, hc⟩ := hA.sph s h.1
  exact constsDeclared_of hq.valid.1.z (by rw [Qrt.z_am4]; exact (phase_some ht).1) hc
    (inline_declOK hA h.1)

/-- External code: the declarations written in the file of a class cover its blocks. -/
theorem C18_external_constants {ord : ℕ → List Exp} (ho : OrdOK ord) (hs : OrdStart ord)
    {enum : List Qrt → List Qrt} (he : EnumOK enum) {am : QAM} (hv : am.valid = true)
    (htag : am.tag = "") {t : RRType} (hp : 0 < am.get t) :
    ∃ A, extAlgo ord enum t am = some A ∧ vStepsFor A.steps am ≠ [] ∧
      ∀ s ∈ vStepsFor A.steps am, ConstsDeclared (externDecl A.steps am) (vStmt ord am s) := by
  obtain ⟨A, e, h1, h2, h3⟩ := extAlgo_spec ho hs he hv htag hp
  refine ⟨A, e, ?_, fun s hss => ?_⟩
  · intro h
    rw [vType, h] at h1
    simp at h1
  · obtain ⟨q, q1, q2, q3, q4⟩ := h2 s hss
    refine constsDeclared_of q1 (by rw [q3]; exact hp) q4 ?_
    exact ⟨fun i hi => ⟨List.mem_flatMap.2 ⟨s, hss, hi⟩, Or.inr rfl⟩,
      fun i hi => ⟨List.mem_flatMap.2 ⟨s, hss, hi⟩, Or.inr rfl⟩,
      fun i hi => ⟨List.mem_flatMap.2 ⟨s, hss, hi⟩, Or.inr rfl⟩⟩

#guard (vrrCreate id [.J, .L, .I, .K] (classTargets psi4List [⟨3, 0, 2, 0, ""⟩])).map
    (fun A => ((inlineDecl A.steps).d2p.dedup, (inlineDecl A.steps).d2pq.dedup, vrrMaxInt A.steps)) =
    some ([2, 1], [1, 2], 2)

/-! ## C19 -/

/-- The generic routines: for every class with AM at most 18 per center and every center `t` with
momentum, if the source arrays hold exact values at orders `0..M+1` then the call written for the
class stores the exact value of every component at every order `0..M`, changes no other array and
stays within all arrays. -/
theorem C19_generic_exact {A : VRRAlgo} {P : VPar F} {θ : VFam F} (hθ : VRRFam P θ) {am : QAM}
    {t : RRType} {M : ℤ} (htag : am.tag = "") (hval : am.valid = true) (h18 : ∀ u, am.get u ≤ 18)
    (hpos : 0 < am.get t) (ht : vType A.steps am = some t) (hM : A.mreq am = some M) (hM0 : 0 ≤ M)
    (hreq : ∀ b ∈ vAMReq am t, ∃ M', A.mreq b = some M' ∧ M + 1 ≤ M') (m : VMem F)
    (hm : ∀ e : Qrt, e.Valid → e.am4 ∈ vAMReq am t → ∀ n : ℕ, (n : ℤ) ≤ M + 1 →
      m e.am4 (n * e.ncart + e.index psi4List) = θ n (e.cen .I) (e.cen .J) (e.cen .K) (e.cen .L)) :
    ∃ m', vRunGeneral A P am m = some m' ∧ (∀ b, b ≠ am → m' b = m b) ∧
      ∀ e : Qrt, e.Valid → e.am4 = am → ∀ n : ℕ, (n : ℤ) ≤ M →
        m' am (n * e.ncart + e.index psi4List) = θ n (e.cen .I) (e.cen .J) (e.cen .K) (e.cen .L) := by
  obtain ⟨m', e', h1, h2⟩ := general_contract (P := P) htag hval h18 hpos ht ⟨hM, hM0, hreq⟩ m
  refine ⟨m', e', h1, ?_⟩
  intro e he hea n hn
  obtain ⟨d, hd, hdp, -⟩ := createSingle_spec (t := t) he.z (by rw [Qrt.z_am4, hea]; exact hpos)
  have := h2 e.z he.z rfl (by rw [Qrt.z_am4, hea]) trivial n hn d hd
  rw [vform_ring _ _ he.z hdp, vrhs_congr (rd' := θ.at) he.z hdp ?_, ← hθ.rhs he.z hdp n] at this
  · rw [VMem.at, Qrt.z_am4, hea] at this
    exact this
  · intro j hj n' hn1 hn2
    have hsv : (vslot t e.z d j).Valid := by
      rw [Qrt.valid_iff]; exact ⟨hj, by rw [vslot_m]; exact le_rfl⟩
    have hb : (vslot t e.z d j).am4 ∈ vAMReq am t := by
      rw [← hea, ← Qrt.z_am4 e, mem_vAMReq d]; exact ⟨j, rfl, hsv.am4⟩
    exact hm _ hsv hb n' (by omega)

/-- The routines for zero partner momenta compute, element by element and order by order, the same
value as the general ones on any memory. -/
theorem C19_specialised_agree {mr : MReq} {P : VPar F} {i k : ℕ} {M : ℤ} (hi : i ≤ 18) (hk : k ≤ 18)
    {a c : Exp} (ha : IsComp i a) (hc : IsComp k c) (m : VMem F) {n : ℕ} (hn : (n : ℤ) ≤ M) :
    let am : QAM := ⟨i, (0 : ℕ), k, (0 : ℕ), ""⟩
    let z : Exp := ⟨0, 0, 0⟩
    (0 < i → ReqOK mr am .I M → ∃ v,
      gCellI0 mr i k (gArg P .I) (vPtr am .I 0) (vPtr am .I 1) (vPtr am .I 3) (recurRow i a)
        (recurRow k c) (cidx psi4List a) (cidx psi4List c) m n = some v ∧
      gCellI mr i 0 k 0 (gArg P .I) (vPtr am .I 0) (vPtr am .I 1) (vPtr am .I 2) (vPtr am .I 3)
        (vPtr am .I 4) (recurRow i a) (recurRow 0 z) (recurRow k c) (recurRow 0 z)
        (cidx psi4List a) (cidx psi4List z) (cidx psi4List c) (cidx psi4List z) m n = some v) ∧
    (0 < k → ReqOK mr am .K M → ∃ v,
      gCellK0 mr i k (gArg P .K) (vPtr am .K 0) (vPtr am .K 1) (vPtr am .K 3) (recurRow i a)
        (recurRow k c) (cidx psi4List a) (cidx psi4List c) m n = some v ∧
      gCellK mr i 0 k 0 (gArg P .K) (vPtr am .K 0) (vPtr am .K 1) (vPtr am .K 2) (vPtr am .K 3)
        (vPtr am .K 4) (recurRow i a) (recurRow 0 z) (recurRow k c) (recurRow 0 z)
        (cidx psi4List a) (cidx psi4List z) (cidx psi4List c) (cidx psi4List z) m n = some v) := by
  intro am z
  have hz : IsComp 0 z := by simp [IsComp, z]
  have hv : (⟨⟨a, z⟩, ⟨c, z⟩, 0⟩ : Qrt).Valid := ⟨⟨ha.valid, hz.valid⟩, ⟨hc.valid, hz.valid⟩, le_rfl⟩
  constructor
  · intro hp hr
    obtain ⟨d, hd, hdp, -⟩ := createSingle_spec (t := .I) hv (by
      rw [Qrt.am4_get]; show 0 < a.am; rw [ha.am_eq]; omega)
    exact ⟨_, cellI0_ok hi hk hr hp a z c z ha hz hc hz d hd hdp m m (fun _ _ => rfl) n hn,
      cellI_ok hi (by omega) hk (by omega) hr hp a z c z ha hz hc hz d hd hdp m m (fun _ _ => rfl) n hn⟩
  · intro hp hr
    obtain ⟨d, hd, hdp, -⟩ := createSingle_spec (t := .K) hv (by
      rw [Qrt.am4_get]; show 0 < c.am; rw [hc.am_eq]; omega)
    exact ⟨_, cellK0_ok hi hk hr hp a z c z ha hz hc hz d hd hdp m m (fun _ _ => rfl) n hn,
      cellK_ok hi (by omega) hk (by omega) hr hp a z c z ha hz hc hz d hd hdp m m (fun _ _ => rfl) n hn⟩

end

end Simint
