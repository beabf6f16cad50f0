import Verif.HRRModeLemmas
import Verif.Tables.Gamess

/-!
# Properties C08–C12: the horizontal recurrence
-/

set_option autoImplicit false

namespace Simint

variable {R : Type} [CommRing R]

/-! ## The assumed identities hold for every linear functional -/

theorem mono_step (B : Dir → R) {e : Exp} (he : e.Valid) (i : Dir) (r : Dir → R) :
    mono B (e.step i 1) r = (r i - B i) * mono B e r := by
  obtain ⟨h1, h2, h3⟩ := he
  have t : ∀ n : ℤ, 0 ≤ n → (n + 1).toNat = n.toNat + 1 := by intro n hn; omega
  cases i <;> simp only [mono, Exp.step, t _ h1, t _ h2, t _ h3, pow_succ] <;> ring

theorem functionalFam_hrr (Λ : ((Dir → R) → (Dir → R) → R) →ₗ[R] R) (A B C D : Dir → R) :
    HRRFam (fun i => A i - B i) (fun i => C i - D i) (functionalFam Λ A B C D) := by
  constructor
  · intro a b c d i ha hb hc hd
    unfold functionalFam
    rw [← smul_eq_mul, ← Λ.map_smul, ← Λ.map_add]
    congr 1
    funext r1 r2
    simp only [Pi.add_apply, Pi.smul_apply, smul_eq_mul, mono_step A ha, mono_step B hb]
    ring
  · intro a b c d i ha hb hc hd
    unfold functionalFam
    rw [← smul_eq_mul, ← Λ.map_smul, ← Λ.map_add]
    congr 1
    funext r1 r2
    simp only [Pi.add_apply, Pi.smul_apply, smul_eq_mul, mono_step C hc, mono_step D hd]
    ring

/-! ## C08 -/

/-- Each emitted bra statement is an identity: for every linear functional and geometry the value
on the left of the assignment equals the value on the right, where the statement reads the exact
values; the sources are valid and have the AM of the stepped center lowered by one. -/
theorem C08_bra_identity (Λ : ((Dir → R) → (Dir → R) → R) →ₗ[R] R) (A B C D : Dir → R)
    {ty : RRType} (hty : ty = .I ∨ ty = .J) {b k : Dbl} (hb : b.Valid) (hk : k.Valid)
    (hp : 0 < steppedAM ty b.am2) (ord : ℕ → List Exp) (q : QAM) (iket : ℕ) :
    ∃ s, doubletStep ty b = some s ∧ s.target = b ∧ s.src0.Valid ∧ s.src1.Valid ∧
      steppedAM ty s.src0.am2 = steppedAM ty b.am2 - 1 ∧
      steppedAM ty s.src1.am2 = steppedAM ty b.am2 - 1 ∧
      ∀ m : HMem R,
        m (braStmt ord q iket s).q0 (braStmt ord q iket s).i0 =
          functionalFam Λ A B C D s.src0.left s.src0.right k.left k.right →
        m (braStmt ord q iket s).q1 (braStmt ord q iket s).i1 =
          functionalFam Λ A B C D s.src1.left s.src1.right k.left k.right →
        (braStmt ord q iket s).value (fun i => A i - B i) m =
          functionalFam Λ A B C D b.left b.right k.left k.right := by
  rw [← stepped_am] at hp
  obtain ⟨s, e, ok, -⟩ := doubletStep_spec hb hp
  refine ⟨s, e, ok.target, ok.v0, ok.v1, ok.a0, ok.a1, ?_⟩
  intro m h0 h1
  have hid := step_identity_left (AB := fun i => A i - B i)
    (F := fun a b => functionalFam Λ A B C D a b k.left k.right)
    (fun a b i ha hb' => (functionalFam_hrr Λ A B C D).bra a b _ _ i ha hb' hk.1 hk.2) hb hp e
  unfold HStmt.value
  rw [h0, h1, hid]
  have hm : (braStmt ord q iket s).minus = ty.isLeft := by
    simp only [braStmt, ok.type]
    rcases hty with h | h <;> rw [h] <;> rfl
  rw [hm]
  rfl

theorem C08_ket_identity (Λ : ((Dir → R) → (Dir → R) → R) →ₗ[R] R) (A B C D : Dir → R)
    {ty : RRType} (hty : ty = .K ∨ ty = .L) {b k : Dbl} (hb : b.Valid) (hk : k.Valid)
    (hp : 0 < steppedAM ty k.am2) (ord : ℕ → List Exp) (q : QAM) (ibra : ℕ) :
    ∃ s, doubletStep ty k = some s ∧ s.target = k ∧ s.src0.Valid ∧ s.src1.Valid ∧
      steppedAM ty s.src0.am2 = steppedAM ty k.am2 - 1 ∧
      steppedAM ty s.src1.am2 = steppedAM ty k.am2 - 1 ∧
      ∀ m : HMem R,
        m (ketStmt ord q ibra s).q0 (ketStmt ord q ibra s).i0 =
          functionalFam Λ A B C D b.left b.right s.src0.left s.src0.right →
        m (ketStmt ord q ibra s).q1 (ketStmt ord q ibra s).i1 =
          functionalFam Λ A B C D b.left b.right s.src1.left s.src1.right →
        (ketStmt ord q ibra s).value (fun i => C i - D i) m =
          functionalFam Λ A B C D b.left b.right k.left k.right := by
  rw [← stepped_am] at hp
  obtain ⟨s, e, ok, -⟩ := doubletStep_spec hk hp
  refine ⟨s, e, ok.target, ok.v0, ok.v1, ok.a0, ok.a1, ?_⟩
  intro m h0 h1
  have hid := step_identity_left (AB := fun i => C i - D i)
    (F := fun c d => functionalFam Λ A B C D b.left b.right c d)
    (fun c d i hc hd => (functionalFam_hrr Λ A B C D).ket _ _ c d i hb.1 hb.2 hc hd) hk hp e
  unfold HStmt.value
  rw [h0, h1, hid]
  have hm : (ketStmt ord q ibra s).minus = ty.isLeft := by
    simp only [ketStmt, ok.type]
    rcases hty with h | h <;> rw [h] <;> rfl
  rw [hm]
  rfl

/-- non-trivial step: (d_xy p_z| by lowering the second center goes to (f_xyz s| and (d_xy s| -/
example : doubletStep .J ⟨⟨1, 1, 0⟩, ⟨0, 0, 1⟩⟩ = some
    ⟨.J, ⟨⟨1, 1, 0⟩, ⟨0, 0, 1⟩⟩, ⟨⟨1, 1, 1⟩, ⟨0, 0, 0⟩⟩, ⟨⟨1, 1, 0⟩, ⟨0, 0, 0⟩⟩, .z⟩ := by
  decide +kernel

/-! ## C09, C10 -/

/-- The search is closed: every formed doublet has exactly one step, the sources of each step are
valid and are themselves formed or have nothing left on the stepped center, and every requested
component that needs the stage is formed. -/
structure SearchClosed (init : List (ℤ × ℤ)) (S : Side) : Prop where
  formed : ∀ d ∈ S.solved, d.Valid ∧ 0 < steppedAM S.type d.am2 ∧
    ∃! s, s ∈ S.steps ∧ s.target = d
  only : ∀ s ∈ S.steps, s.target ∈ S.solved
  closed : ∀ s ∈ S.steps, ∀ d, (d = s.src0 ∨ d = s.src1) →
    d.Valid ∧ (d ∈ S.solved ∨ steppedAM S.type d.am2 = 0)
  requested : ∀ d : Dbl, d.Valid → d.am2 ∈ init → d ∈ S.solved ∨ steppedAM S.type d.am2 = 0

theorem SideOK.searchClosed {init : List (ℤ × ℤ)} {S : Side} (h : SideOK init S) :
    SearchClosed init S := by
  refine ⟨?_, fun s hs => (h.ste s hs).1, h.cl, ?_⟩
  · intro d hd
    obtain ⟨h1, h2⟩ := h.sv d hd
    obtain ⟨s, hs, rfl⟩ := h.hs d hd
    refine ⟨h1, h2, s, ⟨hs, rfl⟩, ?_⟩
    rintro s' ⟨hs', he⟩
    have e1 := (h.ste s hs).2
    have e2 := (h.ste s' hs').2
    rw [he, e1, Option.some.injEq] at e2
    exact e2.symm
  · intro d hd hi
    by_cases h0 : steppedAM S.type d.am2 = 0
    · exact Or.inr h0
    · left
      have := steppedAM_nonneg (ty := S.type) (p := d.am2) hd.1.am_nonneg hd.2.am_nonneg
      exact h.init d hd hi (by omega)

/-- For every finite set of valid classes and every choice of directions the search succeeds
(terminates within the stated number of rounds) and is closed on both sides. -/
theorem C09_search_closed {ord : ℕ → List Exp} (ho : OrdOK ord) (hst : OrdStart ord)
    {enumD : List Dbl → List Dbl} (hD : EnumOK enumD) {enumQ : List QAM → List QAM}
    (hQ : EnumOK enumQ) (bty kty : RRType) {ams : List QAM} (hv : ∀ q ∈ ams, q.Valid) :
    ∃ A, hrrCreate ord enumD enumQ bty kty ams = some A ∧ A.bra.type = bty ∧ A.ket.type = kty ∧
      SearchClosed (ams.map QAM.bra) A.bra ∧ SearchClosed (ams.map QAM.ket) A.ket := by
  obtain ⟨A, e, ok, tb, tk⟩ := hrrCreate_ok ho hst hD hQ bty kty hv
  exact ⟨A, e, tb, tk, ok.bra.searchClosed, ok.ket.searchClosed⟩

/-- The class order: no class twice, all requested classes present (in the order or handed to the
vertical stage), every class after its sources, nothing ordered is handed over, and the classes
handed over have no AM left on the stepped centers. -/
theorem C10_order_topological {ord : ℕ → List Exp} (ho : OrdOK ord) (hst : OrdStart ord)
    {enumD : List Dbl → List Dbl} (hD : EnumOK enumD) {enumQ : List QAM → List QAM}
    (hQ : EnumOK enumQ) (bty kty : RRType) {ams : List QAM} (hv : ∀ q ∈ ams, q.Valid) :
    ∃ A, hrrCreate ord enumD enumQ bty kty ams = some A ∧ A.order.Nodup ∧
      (∀ q ∈ ams, q ∈ A.order ∨ q ∈ A.top) ∧
      (∀ l1 q l2, A.order = l1 ++ q :: l2 → ∀ d ∈ deps A.bra A.ket q, d ∈ l1 ∨ d ∈ A.top) ∧
      (∀ q ∈ A.top, q ∉ A.order) ∧
      (∀ q ∈ A.top, q.Valid ∧ steppedAM bty q.bra = 0 ∧ steppedAM kty q.ket = 0) ∧
      (∀ q ∈ A.order, q.Valid ∧
        (0 < steppedAM bty q.bra ∨ 0 < steppedAM kty q.ket)) := by
  obtain ⟨A, e, ok, tb, tk⟩ := hrrCreate_ok ho hst hD hQ bty kty hv
  refine ⟨A, e, ok.inv.nd, fun q hq => (ok.req q hq).symm,
    fun l1 q l2 h d hd => (ok.inv.topo l1 q l2 h d hd).symm, ?_, ?_, ?_⟩
  · intro q hq hq'
    have h1 := (ok.inv.tp q hq).1
    have h2 := (ok.inv.nt q hq').1
    rw [h1] at h2; exact absurd h2 (by simp)
  · intro q hq
    obtain ⟨h1, h2, -, h3, h4, -⟩ := ok.inv.tp q hq
    simp only [isTop, decide_eq_true_eq] at h1
    rw [← tb, ← tk]
    exact ⟨h2, h3.resolve_left h1.1, h4.resolve_left h1.2⟩
  · intro q hq
    obtain ⟨h1, h2, -⟩ := ok.inv.nt q hq
    simp only [isTop, decide_eq_false_iff_not, not_and_or, not_not] at h1
    refine ⟨h2, ?_⟩
    rcases h1 with h | h
    · exact Or.inl (tb ▸ ok.bra.allam_pos h)
    · exact Or.inr (tk ▸ ok.ket.allam_pos h)

/-- Every statement of a class reads only classes listed as its dependencies. -/
theorem C10_reads_are_deps {A : HRRAlgo} {q : QAM} (ord : ℕ → List Exp) :
    (q.ket ∉ A.ket.allam → ∀ st ∈ braStmts ord q (A.bra.stepsFor q.bra),
      st.q0 ∈ deps A.bra A.ket q ∧ st.q1 ∈ deps A.bra A.ket q) ∧
    (q.ket ∈ A.ket.allam → ∀ st ∈ ketStmts ord q (A.ket.stepsFor q.ket),
      st.q0 ∈ deps A.bra A.ket q ∧ st.q1 ∈ deps A.bra A.ket q) := by
  constructor
  · intro hk st hst
    simp only [braStmts, List.mem_flatMap, List.mem_range, List.mem_map] at hst
    obtain ⟨i, -, s, hs, rfl⟩ := hst
    simp only [Side.stepsFor, List.mem_filter, decide_eq_true_eq] at hs
    obtain ⟨h1, h2⟩ := mem_req_of hs.1 hs.2
    simp only [deps, hk, if_false, List.mem_map]
    exact ⟨⟨_, h1, rfl⟩, ⟨_, h2, rfl⟩⟩
  · intro hk st hst
    simp only [ketStmts, List.mem_flatMap, List.mem_range, List.mem_map] at hst
    obtain ⟨i, -, s, hs, rfl⟩ := hst
    simp only [Side.stepsFor, List.mem_filter, decide_eq_true_eq] at hs
    obtain ⟨h1, h2⟩ := mem_req_of hs.1 hs.2
    simp only [deps, hk, if_true, List.mem_map]
    exact ⟨⟨_, h1, rfl⟩, ⟨_, h2, rfl⟩⟩

/-- concrete order for (p p|p p): three classes, ending with the requested one, and four classes
left to the vertical stage -/
example : ((hrrCreate psi4List id id .J .L [⟨1, 1, 1, 1, ""⟩]).map fun A =>
    (A.order.map fun q => (q.a, q.b, q.c, q.d), A.top.map fun q => (q.a, q.b, q.c, q.d))) =
    some ([(1, 1, 2, 0), (1, 1, 1, 0), (1, 1, 1, 1)],
      [(2, 0, 1, 0), (1, 0, 1, 0), (2, 0, 2, 0), (1, 0, 2, 0)]) := by
  decide +kernel

/-! ## C11 -/

/-- The horizontal stage, all code inline, any Cartesian order.  If the arrays of the classes
handed over hold exact values, the stage runs without an out-of-range access and every element of
every requested block is exact, whatever the other arrays contained. -/
theorem C11_inline_exact {ord : ℕ → List Exp} (ho : OrdOK ord) (hst : OrdStart ord)
    {enumD : List Dbl → List Dbl} (hD : EnumOK enumD) {enumQ : List QAM → List QAM}
    (hQ : EnumOK enumQ) {bty kty : RRType} (hb : bty = .I ∨ bty = .J) (hk : kty = .K ∨ kty = .L)
    {ams : List QAM} (hv : ∀ q ∈ ams, q.Valid) :
    ∃ A, hrrCreate ord enumD enumQ bty kty ams = some A ∧
      ∀ (AB CD : Dir → R) (θ : String → Fam R), (∀ t, HRRFam AB CD (θ t)) →
      ∀ m : HMem R,
        (∀ q ∈ A.top, ∀ a b c d : Exp, a.Valid → b.Valid → c.Valid → d.Valid →
          a.am = q.a → b.am = q.b → c.am = q.c → d.am = q.d →
          m q (Qrt.index ord ⟨⟨a, b⟩, ⟨c, d⟩, 0⟩) = θ q.tag a b c d) →
        ∃ m', runHRR ord A A.inline AB CD A.order m = some m' ∧
          ∀ q ∈ ams, ∀ a b c d : Exp, a.Valid → b.Valid → c.Valid → d.Valid →
            a.am = q.a → b.am = q.b → c.am = q.c → d.am = q.d →
            m' q (Qrt.index ord ⟨⟨a, b⟩, ⟨c, d⟩, 0⟩) = θ q.tag a b c d := by
  obtain ⟨A, e, ok, tb, tk⟩ := hrrCreate_ok ho hst hD hQ bty kty hv
  refine ⟨A, e, ?_⟩
  intro AB CD θ hθ m hm
  obtain ⟨m', e', g, -⟩ := run_order (C := A.inline) ho hθ ok (tb ▸ hb) (tk ▸ hk) ok.bra.cover
    ok.ket.cover A.order [] m rfl (by
      intro q hq
      rcases hq with hq | hq
      · intro b k h1 h2 h3 h4 _
        simp only [Dbl.am2, QAM.bra, QAM.ket, Prod.mk.injEq] at h3 h4
        exact hm q hq _ _ _ _ h1.1 h1.2 h2.1 h2.2 h3.1 h3.2 h4.1 h4.2
      · simp at hq)
  refine ⟨m', e', ?_⟩
  intro q hq a b c d ha hb' hc hd e1 e2 e3 e4
  have h3 : (⟨a, b⟩ : Dbl).am2 = q.bra := by simp [Dbl.am2, QAM.bra, e1, e2]
  have h4 : (⟨c, d⟩ : Dbl).am2 = q.ket := by simp [Dbl.am2, QAM.ket, e3, e4]
  exact g q (ok.req q hq) ⟨a, b⟩ ⟨c, d⟩ ⟨ha, hb'⟩ ⟨hc, hd⟩ h3 h4
    (needed_req ok hq ⟨ha, hb'⟩ ⟨hc, hd⟩ h3 h4)

theorem CoverOK.congr {S : Side} {f g : ℤ × ℤ → List HRRStep} (h : CoverOK S g)
    (he : ∀ p ∈ S.allam, ∀ s, s ∈ f p ↔ s ∈ g p) : CoverOK S f := by
  intro p hp
  obtain ⟨h1, h2⟩ := h p hp
  refine ⟨fun s hs => h1 s ((he p hp s).1 hs), fun d hd hdp => ?_⟩
  obtain ⟨s, hs, ht⟩ := h2 d hd hdp
  exact ⟨s, (he p hp s).2 hs, ht⟩

/-- Steps in effect for an AM pair, given the thresholds. -/
def modeSteps (enum : List Dbl → List Dbl) (se sg : ℤ) (S : Side) (p : ℤ × ℤ) : List HRRStep :=
  if p.1 + p.2 < se then S.stepsFor p
  else if p.1 + p.2 < sg then (extSteps psi4List enum S.type p).getD []
  else fullSteps psi4List S.type p

theorem modeSteps_cover {enum : List Dbl → List Dbl} (he : EnumOK enum) (se sg : ℤ)
    {init : List (ℤ × ℤ)} {S : Side} (h : SideOK init S) : CoverOK S (modeSteps enum se sg S) := by
  intro p hp
  have hpos := h.allam_pos hp
  have hv : 0 ≤ p.1 ∧ 0 ≤ p.2 := by
    obtain ⟨d, hd, rfl⟩ := List.mem_map.1 hp
    exact ⟨(h.sv d hd).1.1.am_nonneg, (h.sv d hd).1.2.am_nonneg⟩
  unfold modeSteps
  split_ifs
  · exact h.cover p hp
  · obtain ⟨l, e, hl⟩ := extSteps_spec psi4_ordOK psi4_start he (ty := S.type) hv.1 hv.2 hpos
    rw [e, Option.getD_some]
    have := (fullSteps_cover psi4_ordOK psi4_start h) p hp
    exact ⟨fun s hs => this.1 s ((hl s).1 hs), fun d hd hdp => by
      obtain ⟨s, hs, ht⟩ := this.2 d hd hdp
      exact ⟨s, (hl s).2 hs, ht⟩⟩
  · exact (fullSteps_cover psi4_ordOK psi4_start h) p hp

theorem runClass_def {ord : ℕ → List Exp} {A : HRRAlgo} {C : StepChoice} {AB CD : Dir → R} {q : QAM}
    {m : HMem R} : runClass ord A C AB CD q m = (A.getStep q).bind fun ty =>
      match ty with
      | .bra => execAll AB (braStmts ord q (C.bra q.bra)) m
      | .ket => execAll CD (ketStmts ord q (C.ket q.ket)) m := rfl

theorem runHRR_cons {ord : ℕ → List Exp} {A : HRRAlgo} {C : StepChoice} {AB CD : Dir → R} {q : QAM}
    {l : List QAM} {m : HMem R} : runHRR ord A C AB CD (q :: l) m =
      (runClass ord A C AB CD q m).bind fun m' => runHRR ord A C AB CD l m' := rfl

/-- The operation in effect for a statement of a side, given the thresholds: `op` of the emitted lines or
`g` of the generic routine.  `am q` is the angular momentum of the side. -/
def modeOp {V : Type} (se sg : ℤ) (am : QAM → ℤ) (op : HStmt → V → V → V) (g : Bool → Dir → V → V → V)
    (s : HStmt) : V → V → V :=
  if am s.tq < se ∨ am s.tq < sg then op s else g s.minus s.xyz

theorem mem_braStmts {ord : ℕ → List Exp} {q : QAM} {L : List HRRStep} {st : HStmt}
    (h : ∀ s ∈ L, s.target.am2 = q.bra) (hst : st ∈ braStmts ord q L) : st.tq = q := by
  simp only [braStmts, List.mem_flatMap, List.mem_range, List.mem_map] at hst
  obtain ⟨i, hi, s, hs, rfl⟩ := hst
  exact hrr_name_eq (h s hs)

theorem mem_ketStmts {ord : ℕ → List Exp} {q : QAM} {L : List HRRStep} {st : HStmt}
    (h : ∀ s ∈ L, s.target.am2 = q.ket) (hst : st ∈ ketStmts ord q L) : st.tq = q := by
  simp only [ketStmts, List.mem_flatMap, List.mem_range, List.mem_map] at hst
  obtain ⟨i, hi, s, hs, rfl⟩ := hst
  exact hrr_name_eq' (h s hs)

theorem runClassM_op {V : Type} {enum : List Dbl → List Dbl} (he : EnumOK enum) (se sg : ℤ)
    {ams : List QAM} {A : HRRAlgo} (ok : AlgoOK ams A)
    (hb : A.bra.type = .I ∨ A.bra.type = .J) (hk : A.ket.type = .K ∨ A.ket.type = .L)
    (h18 : ∀ q ∈ ams, q.a + q.b ≤ 18 ∧ q.c + q.d ≤ 18) {opB opK : HStmt → V → V → V}
    {gB gK : Bool → Dir → V → V → V} {q : QAM} (hq : q ∈ A.order) (m : HMem V) :
    runClassMOp psi4List enum se sg A opB opK gB gK q m =
      runClassOp psi4List A ⟨modeSteps enum se sg A.bra, modeSteps enum se sg A.ket⟩
        (modeOp se sg (fun q => q.a + q.b) opB gB) (modeOp se sg (fun q => q.c + q.d) opK gK) q m := by
  obtain ⟨hnt, hv, -⟩ := ok.inv.nt q hq
  have hbd := ok.bnd 18 h18 q (Or.inl hq)
  obtain ⟨v1, v2, v3, v4⟩ := id hv
  unfold runClassMOp runClassOp
  rw [getStep_ok ok hq, Option.bind_some, Option.bind_some, stepSide]
  by_cases hkk : q.ket ∈ A.ket.allam
  · have hpos := ok.ket.allam_pos hkk
    have htq : ∀ st ∈ ketStmts psi4List q (modeSteps enum se sg A.ket q.ket), st.tq = q := fun st hst =>
      mem_ketStmts (fun s hs => ((modeSteps_cover he se sg ok.ket q.ket hkk).1 s hs).2.1) hst
    simp only [hkk, if_true]
    rw [execAllOp_congr (op := modeOp se sg (fun q => q.c + q.d) opK gK)
      (op' := if q.c + q.d < se ∨ q.c + q.d < sg then opK else fun s => gK s.minus s.xyz)
      _ (fun s hs => by unfold modeOp; rw [htq s hs]; split_ifs <;> rfl)]
    simp only [modeSteps]
    by_cases c1 : q.c + q.d < se
    · simp only [c1, if_true, QAM.ket, true_or]
    · simp only [c1, if_false, QAM.ket, false_or]
      by_cases c2 : q.c + q.d < sg
      · simp only [c2, if_true]
        obtain ⟨l, e, -⟩ := extSteps_spec psi4_ordOK psi4_start he (ty := A.ket.type)
          (p := q.ket) v3 v4 hpos
        simp only [QAM.ket] at e
        rw [e, Option.bind_some, Option.getD_some]
      · simp only [c2, if_false]
        exact generalClass_ket hk hv hpos (by omega) (by omega) m
  · have hbb : q.bra ∈ A.bra.allam := by
      simp only [isTop, decide_eq_false_iff_not, not_and_or, not_not] at hnt
      exact hnt.resolve_right hkk
    have hpos := ok.bra.allam_pos hbb
    have htq : ∀ st ∈ braStmts psi4List q (modeSteps enum se sg A.bra q.bra), st.tq = q := fun st hst =>
      mem_braStmts (fun s hs => ((modeSteps_cover he se sg ok.bra q.bra hbb).1 s hs).2.1) hst
    simp only [hkk, if_false]
    rw [execAllOp_congr (op := modeOp se sg (fun q => q.a + q.b) opB gB)
      (op' := if q.a + q.b < se ∨ q.a + q.b < sg then opB else fun s => gB s.minus s.xyz)
      _ (fun s hs => by unfold modeOp; rw [htq s hs]; split_ifs <;> rfl)]
    simp only [modeSteps]
    by_cases c1 : q.a + q.b < se
    · simp only [c1, if_true, QAM.bra, true_or]
    · simp only [c1, if_false, QAM.bra, false_or]
      by_cases c2 : q.a + q.b < sg
      · simp only [c2, if_true]
        obtain ⟨l, e, -⟩ := extSteps_spec psi4_ordOK psi4_start he (ty := A.bra.type)
          (p := q.bra) v1 v2 hpos
        simp only [QAM.bra] at e
        rw [e, Option.bind_some, Option.getD_some]
      · simp only [c2, if_false]
        exact generalClass_bra hb hv hpos (by omega) (by omega) m

/-- The stage with thresholds has the effect of emitted statements, with the operations in effect. -/
theorem runHRRM_op {V : Type} {enum : List Dbl → List Dbl} (he : EnumOK enum) (se sg : ℤ)
    {ams : List QAM} {A : HRRAlgo} (ok : AlgoOK ams A)
    (hb : A.bra.type = .I ∨ A.bra.type = .J) (hk : A.ket.type = .K ∨ A.ket.type = .L)
    (h18 : ∀ q ∈ ams, q.a + q.b ≤ 18 ∧ q.c + q.d ≤ 18) {opB opK : HStmt → V → V → V}
    {gB gK : Bool → Dir → V → V → V} :
    ∀ (l : List QAM), (∀ q ∈ l, q ∈ A.order) → ∀ m : HMem V,
    runHRRMOp psi4List enum se sg A opB opK gB gK l m =
      runHRROp psi4List A ⟨modeSteps enum se sg A.bra, modeSteps enum se sg A.ket⟩
        (modeOp se sg (fun q => q.a + q.b) opB gB) (modeOp se sg (fun q => q.c + q.d) opK gK) l m
  | [], _, _ => rfl
  | q :: l, h, m => by
    rw [runHRRMOp, runHRROp, runClassM_op he se sg ok hb hk h18 (h q (by simp))]
    congr 1
    funext m'
    exact runHRRM_op he se sg ok hb hk h18 l (fun q hq => h q (by simp [hq])) m'

theorem modeOp_ring (se sg : ℤ) (am : QAM → ℤ) (h : Dir → R) :
    modeOp se sg am (ringOp h) (ringDirOp h) = ringOp h := by
  funext s
  unfold modeOp
  split_ifs <;> rfl

theorem runHRRM_eq {enum : List Dbl → List Dbl} (he : EnumOK enum) (se sg : ℤ)
    {ams : List QAM} {A : HRRAlgo} (ok : AlgoOK ams A)
    (hb : A.bra.type = .I ∨ A.bra.type = .J) (hk : A.ket.type = .K ∨ A.ket.type = .L)
    (h18 : ∀ q ∈ ams, q.a + q.b ≤ 18 ∧ q.c + q.d ≤ 18) {AB CD : Dir → R}
    (l : List QAM) (hl : ∀ q ∈ l, q ∈ A.order) (m : HMem R) :
    runHRRM psi4List enum se sg A AB CD l m =
      runHRR psi4List A ⟨modeSteps enum se sg A.bra, modeSteps enum se sg A.ket⟩ AB CD l m := by
  rw [runHRRM, runHRRM_op he se sg ok hb hk h18 l hl, modeOp_ring, modeOp_ring]
  rfl

/-- The same with every split between inline, external and generic code (`start_external_`,
`start_general_`), Psi4 order, for pairs whose total AM is inside the run-time table. -/
theorem C11_mixed_exact {enumD : List Dbl → List Dbl} (hD : EnumOK enumD)
    {enumQ : List QAM → List QAM} (hQ : EnumOK enumQ) {bty kty : RRType}
    (hb : bty = .I ∨ bty = .J) (hk : kty = .K ∨ kty = .L) (se sg : ℤ)
    {ams : List QAM} (hv : ∀ q ∈ ams, q.Valid)
    (h18 : ∀ q ∈ ams, q.a + q.b ≤ 18 ∧ q.c + q.d ≤ 18) :
    ∃ A, hrrCreate psi4List enumD enumQ bty kty ams = some A ∧
      ∀ (AB CD : Dir → R) (θ : String → Fam R), (∀ t, HRRFam AB CD (θ t)) →
      ∀ m : HMem R,
        (∀ q ∈ A.top, ∀ a b c d : Exp, a.Valid → b.Valid → c.Valid → d.Valid →
          a.am = q.a → b.am = q.b → c.am = q.c → d.am = q.d →
          m q (Qrt.index psi4List ⟨⟨a, b⟩, ⟨c, d⟩, 0⟩) = θ q.tag a b c d) →
        ∃ m', runHRRM psi4List enumD se sg A AB CD A.order m = some m' ∧
          ∀ q ∈ ams, ∀ a b c d : Exp, a.Valid → b.Valid → c.Valid → d.Valid →
            a.am = q.a → b.am = q.b → c.am = q.c → d.am = q.d →
            m' q (Qrt.index psi4List ⟨⟨a, b⟩, ⟨c, d⟩, 0⟩) = θ q.tag a b c d := by
  obtain ⟨A, e, ok, tb, tk⟩ := hrrCreate_ok psi4_ordOK psi4_start hD hQ bty kty hv
  refine ⟨A, e, ?_⟩
  intro AB CD θ hθ m hm
  have hb' := tb ▸ hb
  have hk' := tk ▸ hk
  obtain ⟨m', e', g, -⟩ := run_order
    (C := ⟨modeSteps enumD se sg A.bra, modeSteps enumD se sg A.ket⟩) psi4_ordOK hθ ok hb' hk'
    (modeSteps_cover hD se sg ok.bra) (modeSteps_cover hD se sg ok.ket) A.order [] m rfl (by
      intro q hq
      rcases hq with hq | hq
      · intro b k h1 h2 h3 h4 _
        simp only [Dbl.am2, QAM.bra, QAM.ket, Prod.mk.injEq] at h3 h4
        exact hm q hq _ _ _ _ h1.1 h1.2 h2.1 h2.2 h3.1 h3.2 h4.1 h4.2
      · simp at hq)
  refine ⟨m', by rw [runHRRM_eq hD se sg ok hb' hk' h18 A.order (fun _ h => h)]; exact e', ?_⟩
  intro q hq a b c d ha hb' hc hd e1 e2 e3 e4
  have h3 : (⟨a, b⟩ : Dbl).am2 = q.bra := by simp [Dbl.am2, QAM.bra, e1, e2]
  have h4 : (⟨c, d⟩ : Dbl).am2 = q.ket := by simp [Dbl.am2, QAM.ket, e3, e4]
  exact g q (ok.req q hq) ⟨a, b⟩ ⟨c, d⟩ ⟨ha, hb'⟩ ⟨hc, hd⟩ h3 h4
    (needed_req ok hq ⟨ha, hb'⟩ ⟨hc, hd⟩ h3 h4)

/-- A call to an external routine passes its source arrays in the order of a set of AM pairs, and
the routine's file declares its parameters in the order of its own set: the two sets are equal,
namely the pair of AMs of the two sources. -/
theorem C11_external_arguments {i1 i2 : List (ℤ × ℤ)} {S T : Side} (hS : SideOK i1 S)
    (hT : SideOK i2 T) (hty : S.type = T.type) {p : ℤ × ℤ} (h1 : p ∈ S.allam) (h2 : p ∈ T.allam) :
    ∀ r, r ∈ S.req p ↔ r ∈ T.req p := by
  have key : ∀ {i : List (ℤ × ℤ)} {U : Side}, SideOK i U → p ∈ U.allam → ∀ r, r ∈ U.req p ↔
      (if U.type.isLeft then r = (p.1 - 1, p.2 + 1) ∨ r = (p.1 - 1, p.2)
        else r = (p.1 + 1, p.2 - 1) ∨ r = (p.1, p.2 - 1)) := by
    intro i U hU hp r
    have hsrc : ∀ s ∈ U.steps, s.target.am2 = p → (if U.type.isLeft then
        s.src0.am2 = (p.1 - 1, p.2 + 1) ∧ s.src1.am2 = (p.1 - 1, p.2)
        else s.src0.am2 = (p.1 + 1, p.2 - 1) ∧ s.src1.am2 = (p.1, p.2 - 1)) := by
      intro s hs hsp
      obtain ⟨g1, g2⟩ := hU.ste s hs
      obtain ⟨g3, g4⟩ := hU.sv _ g1
      rw [← stepped_am] at g4
      obtain ⟨s', e, -, -, hl, hr⟩ := doubletStep_spec g3 g4
      rw [g2, Option.some.injEq] at e
      subst e
      subst hsp
      cases hh : U.type.isLeft
      · obtain ⟨q0, q1⟩ := hr hh
        rw [q0, q1]
        simp [Dbl.am2, sub_eq_add_neg]
      · obtain ⟨q0, q1⟩ := hl hh
        rw [q0, q1]
        simp [Dbl.am2, sub_eq_add_neg]
    constructor
    · intro hr
      simp only [Side.req, List.mem_dedup, List.mem_flatMap, Side.stepsFor, List.mem_filter,
        decide_eq_true_eq] at hr
      obtain ⟨s, ⟨hs, hsp⟩, hr⟩ := hr
      have := hsrc s hs hsp
      simp only [List.mem_cons, List.not_mem_nil, or_false] at hr
      split_ifs at this ⊢ <;> rcases hr with rfl | rfl <;> simp [this]
    · intro hr
      obtain ⟨d, hd, hdp⟩ := List.mem_map.1 hp
      obtain ⟨s, hs, hst⟩ := hU.hs d hd
      have hsp : s.target.am2 = p := by rw [hst, hdp]
      obtain ⟨r0, r1⟩ := mem_req_of hs hsp
      have := hsrc s hs hsp
      split_ifs at this hr <;> rcases hr with rfl | rfl
      · rw [← this.1]; exact r0
      · rw [← this.2]; exact r1
      · rw [← this.1]; exact r0
      · rw [← this.2]; exact r1
  intro r
  rw [key hS h1 r, key hT h2 r, hty]

/-- the hypotheses are met by a family that is not constant: evaluation at a point, geometry with
two distinct centers -/
example : ∃ (AB CD : Dir → ℤ) (θ : Fam ℤ), HRRFam AB CD θ ∧ AB .x = 1 ∧
    θ ⟨1, 0, 0⟩ ⟨1, 0, 0⟩ ⟨0, 1, 0⟩ ⟨0, 0, 0⟩ = 18 := by
  refine ⟨_, _, _, functionalFam_hrr (R := ℤ)
    { toFun := fun f => f (fun _ => 3) (fun _ => 3), map_add' := fun _ _ => rfl,
      map_smul' := fun _ _ => rfl } (fun _ => 1) (fun _ => 0) (fun _ => 0) (fun _ => 0), ?_, ?_⟩
  · norm_num
  · simp [functionalFam, mono]

/-! ## C12 -/

/-- The generic routines: blocks of exact values in, block of exact values out.  Reads outside the
two input blocks would make the routine fail. -/
theorem C12_general_exact {AB CD : Dir → R} {θ : Fam R} (hθ : HRRFam AB CD θ) {i j k l : ℕ}
    (hi : i ≤ 18) (hj : j ≤ 18) (hk : k ≤ 18) (hl : l ≤ 18) :
    (0 < i → generalHrrI i j k l AB (block psi4List θ (i - 1) (j + 1) k l)
      (block psi4List θ (i - 1) j k l) = some (block psi4List θ i j k l)) ∧
    (0 < j → generalHrrJ i j k l AB (block psi4List θ (i + 1) (j - 1) k l)
      (block psi4List θ i (j - 1) k l) = some (block psi4List θ i j k l)) ∧
    (0 < k → generalHrrK i j k l CD (block psi4List θ i j (k - 1) (l + 1))
      (block psi4List θ i j (k - 1) l) = some (block psi4List θ i j k l)) ∧
    (0 < l → generalHrrL i j k l CD (block psi4List θ i j (k + 1) (l - 1))
      (block psi4List θ i j k (l - 1)) = some (block psi4List θ i j k l)) := by
  have hblk : ∀ F : Fam R, (∀ a b c d, IsComp i a → IsComp j b → IsComp k c → IsComp l d →
      F a b c d = θ a b c d) → block psi4List F i j k l = block psi4List θ i j k l := by
    intro F hF
    refine List.ext_getElem? fun n => ?_
    by_cases hn : n < nc i * nc j * (nc k * nc l)
    · obtain ⟨a, b, c, d, h1, h2, h3, h4, rfl⟩ := pos_surj hn
      rw [block_get h1 h2 h3 h4, block_get h1 h2 h3 h4, hF a b c d h1 h2 h3 h4]
    · rw [List.getElem?_eq_none (by rw [block_length]; omega),
        List.getElem?_eq_none (by rw [block_length]; omega)]
  have hdir : ∀ {n : ℕ} {e : Exp}, IsComp n e → 0 < n → (e.step (mdir e) (-1)).Valid ∧
      (e.step (mdir e) (-1)).step (mdir e) 1 = e := by
    intro n e he hn
    obtain ⟨x, h1, h2⟩ := makDir_spec he.valid (by rw [he.am_eq]; omega)
    have : mdir e = x := by simp [mdir, h1]
    rw [this]
    exact ⟨(isComp_down he h2.1).valid, by simp⟩
  refine ⟨fun hp => ?_, fun hp => ?_, fun hp => ?_, fun hp => ?_⟩
  · rw [hrrI_spec hp hi hj, hblk]
    intro a b c d ha hb hc hd
    obtain ⟨h1, h2⟩ := hdir ha hp
    have := hθ.bra (a.step (mdir a) (-1)) b c d (mdir a) h1 hb.valid hc.valid hd.valid
    rw [h2] at this
    rw [this]; ring
  · rw [hrrJ_spec hp hi hj, hblk]
    intro a b c d ha hb hc hd
    obtain ⟨h1, h2⟩ := hdir hb hp
    have := hθ.bra a (b.step (mdir b) (-1)) c d (mdir b) ha.valid h1 hc.valid hd.valid
    rw [h2] at this
    rw [this]
  · rw [hrrK_spec hp hk hl, hblk]
    intro a b c d ha hb hc hd
    obtain ⟨h1, h2⟩ := hdir hc hp
    have := hθ.ket a b (c.step (mdir c) (-1)) d (mdir c) ha.valid hb.valid h1 hd.valid
    rw [h2] at this
    rw [this]; ring
  · rw [hrrL_spec hp hk hl, hblk]
    intro a b c d ha hb hc hd
    obtain ⟨h1, h2⟩ := hdir hd hp
    have := hθ.ket a b c (d.step (mdir d) (-1)) (mdir d) ha.valid hb.valid hc.valid h1
    rw [h2] at this
    rw [this]

/-- The generic routines read neighbours from a table in Psi4 order.  With the arrays in the
shipped GAMESS order they are wrong from d functions on. -/
theorem C12_gamess_order_wrong : ∃ (AB CD : Dir → ℤ) (θ : Fam ℤ), HRRFam AB CD θ ∧
    generalHrrJ 1 1 0 0 AB (block (tableOrd Tables.gamessOrder) θ 2 0 0 0)
      (block (tableOrd Tables.gamessOrder) θ 1 0 0 0) ≠
      some (block (tableOrd Tables.gamessOrder) θ 1 1 0 0) := by
  refine ⟨fun _ => 0, fun _ => 0, fun a b c d => 2 ^ (a.x + b.x + c.x + d.x).toNat *
    3 ^ (a.y + b.y + c.y + d.y).toNat * 5 ^ (a.z + b.z + c.z + d.z).toNat, ⟨?_, ?_⟩, ?_⟩
  · intro a b c d i _ _ _ _
    cases i <;> simp only [Exp.step, zero_mul, add_zero] <;> congr 3 <;> ring_nf
  · intro a b c d i _ _ _ _
    cases i <;> simp only [Exp.step, zero_mul, add_zero] <;> congr 3 <;> ring_nf
  · decide +kernel

end Simint
