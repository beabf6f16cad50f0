import Verif.HRROrderLemmas

/-! Execution of the emitted horizontal stage. -/

set_option autoImplicit false

namespace Simint

variable {R : Type}

/-- Value assigned by a statement when the sources are read from `m`. -/
def HStmt.valueOp (op : HStmt → R → R → R) (s : HStmt) (m : HMem R) : R :=
  op s (m s.q0 s.i0) (m s.q1 s.i1)

theorem HStmt.execOp_eq {op : HStmt → R → R → R} {s : HStmt} {m : HMem R}
    (hb : s.ti < ncartQ s.tq) (h0 : s.i0 < ncartQ s.q0) (h1 : s.i1 < ncartQ s.q1) :
    s.execOp op m =
      some (fun q' i' => if q' = s.tq ∧ i' = s.ti then s.valueOp op m else m q' i') := by
  simp [HStmt.execOp, hread, hwrite, hb, h0, h1, HStmt.valueOp]

/-- A block of statements that write one array and read only others. -/
theorem execAllOp_block {op : HStmt → R → R → R} {q : QAM} : ∀ (L : List HStmt) (m : HMem R),
    (∀ s ∈ L, s.tq = q ∧ s.q0 ≠ q ∧ s.q1 ≠ q ∧ s.ti < ncartQ s.tq ∧ s.i0 < ncartQ s.q0 ∧
      s.i1 < ncartQ s.q1) →
    ∃ m', execAllOp op L m = some m' ∧ (∀ q' ≠ q, m' q' = m q') ∧
      (∀ i, (∀ s ∈ L, s.ti ≠ i) → m' q i = m q i) ∧
      (∀ s ∈ L, ∃ s' ∈ L, s'.ti = s.ti ∧ m' q s.ti = s'.valueOp op m)
  | [], m, _ => ⟨m, rfl, fun _ _ => rfl, fun _ _ => rfl, by simp⟩
  | s :: L, m, hL => by
    obtain ⟨g1, g2, g3, g4, g5, g6⟩ := hL s (by simp)
    obtain ⟨m', e, k1, k2, k3⟩ := execAllOp_block (op := op) (q := q) L
      (fun q' i' => if q' = s.tq ∧ i' = s.ti then s.valueOp op m else m q' i')
      (fun s' hs' => hL s' (by simp [hs']))
    have hval : ∀ s' ∈ L, s'.valueOp op
        (fun q' i' => if q' = s.tq ∧ i' = s.ti then s.valueOp op m else m q' i') = s'.valueOp op m := by
      intro s' hs'
      obtain ⟨-, f2, f3, -⟩ := hL s' (by simp [hs'])
      unfold HStmt.valueOp
      simp only [g1, f2, f3, false_and, if_false]
    refine ⟨m', ?_, ?_, ?_, ?_⟩
    · rw [execAllOp, HStmt.execOp_eq g4 g5 g6, Option.bind_some, e]
    · intro q' hq'
      rw [k1 q' hq']
      funext i
      simp [g1, hq']
    · intro i hi
      rw [k2 i (fun s' hs' => hi s' (by simp [hs']))]
      have : i ≠ s.ti := fun h => hi s (by simp) h.symm
      simp [this]
    · intro s' hs'
      by_cases hex : ∃ t ∈ L, t.ti = s'.ti
      · obtain ⟨t, ht, hti⟩ := hex
        obtain ⟨t', h1, h2, h3⟩ := k3 t ht
        rw [hval t' h1] at h3
        exact ⟨t', by simp [h1], by rw [h2, hti], by rw [← hti, h3]⟩
      · rcases List.mem_cons.1 hs' with rfl | hs'
        · refine ⟨s', by simp, rfl, ?_⟩
          rw [k2 s'.ti (fun t ht hh => hex ⟨t, ht, hh⟩)]
          simp [g1]
        · exact absurd ⟨s', hs', rfl⟩ hex

section
variable [CommRing R]

/-- The same without rounding. -/
def HStmt.value (h : Dir → R) (s : HStmt) (m : HMem R) : R :=
  if s.minus then m s.q0 s.i0 - h s.xyz * m s.q1 s.i1 else m s.q0 s.i0 + h s.xyz * m s.q1 s.i1

theorem execAll_block {h : Dir → R} {q : QAM} (L : List HStmt) (m : HMem R)
    (hL : ∀ s ∈ L, s.tq = q ∧ s.q0 ≠ q ∧ s.q1 ≠ q ∧ s.ti < ncartQ s.tq ∧ s.i0 < ncartQ s.q0 ∧
      s.i1 < ncartQ s.q1) :
    ∃ m', execAll h L m = some m' ∧ (∀ q' ≠ q, m' q' = m q') ∧
      (∀ i, (∀ s ∈ L, s.ti ≠ i) → m' q i = m q i) ∧
      (∀ s ∈ L, ∃ s' ∈ L, s'.ti = s.ti ∧ m' q s.ti = s'.value h m) :=
  execAllOp_block L m hL

end

/-- Position of a component quadruple in its block. -/
def pos (ord : ℕ → List Exp) (b k : Dbl) : ℕ := b.index ord * k.ncart + k.index ord

theorem ncartQ_eq {q : QAM} {b k : Dbl} (hb : b.am2 = q.bra) (hk : k.am2 = q.ket) :
    ncartQ q = b.ncart * k.ncart := by
  simp only [Dbl.am2, QAM.bra, QAM.ket, Prod.mk.injEq] at hb hk
  simp [ncartQ, Dbl.ncart, hb, hk]

theorem pos_lt {ord : ℕ → List Exp} (ho : OrdOK ord) {q : QAM} {b k : Dbl} (hbv : b.Valid)
    (hkv : k.Valid) (hb : b.am2 = q.bra) (hk : k.am2 = q.ket) : pos ord b k < ncartQ q := by
  rw [ncartQ_eq hb hk]
  exact mix_lt (Dbl.index_lt ho hbv) (Dbl.index_lt ho hkv)

theorem Dbl.eq_of_am2 {ord : ℕ → List Exp} (ho : OrdOK ord) {d e : Dbl} (hd : d.Valid)
    (he : e.Valid) (h : d.am2 = e.am2) (hi : d.index ord = e.index ord) : d = e := by
  simp only [Dbl.am2, Prod.mk.injEq] at h
  exact Dbl.index_inj ho hd he h.1 h.2 hi

/-- Elements of a class that the stage has to get right. -/
def Needed (A : HRRAlgo) (q : QAM) (b k : Dbl) : Prop :=
  (q.ket ∈ A.ket.allam → k ∈ A.ket.solved) ∧
  (q.ket ∉ A.ket.allam → q.bra ∈ A.bra.allam → b ∈ A.bra.solved)

/-- The needed elements of a class have the property `P` of their tag and component quadruple. -/
def GoodP (ord : ℕ → List Exp) (P : String → Dbl → Dbl → R → Prop) (A : HRRAlgo) (m : HMem R)
    (q : QAM) : Prop :=
  ∀ b k : Dbl, b.Valid → k.Valid → b.am2 = q.bra → k.am2 = q.ket → Needed A q b k →
    P q.tag b k (m q (pos ord b k))

/-- `m` holds the exact value of one component quadruple. -/
def At (θ : String → Fam R) (t : String) (b k : Dbl) (v : R) : Prop :=
  v = θ t b.left b.right k.left k.right

def Good (ord : ℕ → List Exp) (θ : String → Fam R) (A : HRRAlgo) (m : HMem R) (q : QAM) : Prop :=
  GoodP ord (At θ) A m q

/-- One bra statement carries the property from its sources to its target. -/
def BraClosed (P : String → Dbl → Dbl → R → Prop) (A : HRRAlgo)
    (op : HStmt → R → R → R) : Prop :=
  ∀ q ∈ A.order, ∀ s k, s.target.Valid → 0 < (s.target.stepped A.bra.type).am → k.Valid →
    s.target.am2 = q.bra → k.am2 = q.ket → doubletStep A.bra.type s.target = some s → ∀ st : HStmt, st.xyz = s.xyz →
    st.minus = A.bra.type.isLeft → ∀ v0 v1, P q.tag s.src0 k v0 → P q.tag s.src1 k v1 →
    P q.tag s.target k (op st v0 v1)

/-- One ket statement carries the property from its sources to its target. -/
def KetClosed (P : String → Dbl → Dbl → R → Prop) (A : HRRAlgo)
    (op : HStmt → R → R → R) : Prop :=
  ∀ q ∈ A.order, ∀ s b, s.target.Valid → 0 < (s.target.stepped A.ket.type).am → b.Valid →
    b.am2 = q.bra → s.target.am2 = q.ket → doubletStep A.ket.type s.target = some s → ∀ st : HStmt, st.xyz = s.xyz →
    st.minus = A.ket.type.isLeft → ∀ v0 v1, P q.tag b s.src0 v0 → P q.tag b s.src1 v1 →
    P q.tag b s.target (op st v0 v1)

/-- Steps used for one AM pair of a side are genuine and cover what is needed. -/
def CoverOK (S : Side) (f : ℤ × ℤ → List HRRStep) : Prop :=
  ∀ p ∈ S.allam, (∀ s ∈ f p, s.target.Valid ∧ s.target.am2 = p ∧
      doubletStep S.type s.target = some s) ∧
    ∀ d ∈ S.solved, d.am2 = p → ∃ s ∈ f p, s.target = d

theorem SideOK.cover {init : List (ℤ × ℤ)} {S : Side} (h : SideOK init S) :
    CoverOK S S.stepsFor := by
  intro p _
  constructor
  · intro s hs
    simp only [Side.stepsFor, List.mem_filter, decide_eq_true_eq] at hs
    obtain ⟨h1, h2⟩ := h.ste s hs.1
    exact ⟨(h.sv _ h1).1, hs.2, h2⟩
  · intro d hd hp
    obtain ⟨s, h1, h2⟩ := h.hs d hd
    exact ⟨s, by simp [Side.stepsFor, h1, h2, hp], h2⟩

theorem step_info {init : List (ℤ × ℤ)} {S : Side} (h : SideOK init S)
    {f : ℤ × ℤ → List HRRStep} (hc : CoverOK S f) {p : ℤ × ℤ} (hp : p ∈ S.allam) {s : HRRStep}
    (hs : s ∈ f p) : StepOK S.type s.target s ∧ s.src0.am2 ≠ p ∧ s.src1.am2 ≠ p ∧
      s.target.Valid ∧ s.target.am2 = p ∧
      (s.target ∈ S.solved → ∀ d, (d = s.src0 ∨ d = s.src1) → s.target.am2 = p →
        (d ∈ S.solved ∨ steppedAM S.type d.am2 = 0)) := by
  obtain ⟨h1, h2, h3⟩ := (hc p hp).1 s hs
  have hpos := h.allam_pos hp
  rw [← h2, ← stepped_am] at hpos
  obtain ⟨s', h4, h5, -⟩ := doubletStep_spec h1 hpos
  rw [h3, Option.some.injEq] at h4
  subst h4
  refine ⟨h5, ?_, ?_, h1, h2, ?_⟩
  · intro he; have := h5.a0; rw [he, h2] at this; omega
  · intro he; have := h5.a1; rw [he, h2] at this; omega
  · intro hsol d hd _
    obtain ⟨s', g1, g2⟩ := h.hs _ hsol
    have : s' = s := by
      have := (h.ste s' g1).2
      rw [g2, h3, Option.some.injEq] at this
      exact this.symm
    subst this
    exact (h.cl s' g1 d hd).2

/-- Elementary identity behind one emitted statement. -/
theorem step_identity_left [CommRing R] {AB : Dir → R} {F : Exp → Exp → R}
    (hF : ∀ a b i, a.Valid → b.Valid → F a (b.step i 1) = F (a.step i 1) b + AB i * F a b)
    {ty : RRType} {d : Dbl} (hv : d.Valid) (hp : 0 < (d.stepped ty).am) {s : HRRStep}
    (hs : doubletStep ty d = some s) :
    F d.left d.right = if ty.isLeft then
        F s.src0.left s.src0.right - AB s.xyz * F s.src1.left s.src1.right
      else F s.src0.left s.src0.right + AB s.xyz * F s.src1.left s.src1.right := by
  obtain ⟨s', h1, h2, h3, h4, h5⟩ := doubletStep_spec hv hp
  rw [hs, Option.some.injEq] at h1
  subst h1
  cases hty : ty.isLeft
  · obtain ⟨e0, e1⟩ := h5 hty
    have hv0 := h2.v0
    have hv1 := h2.v1
    have := hF d.left (d.right.step s.xyz (-1)) s.xyz hv.1 (by rw [e1] at hv1; exact hv1.2)
    simp only [Exp.step_step, Int.reduceNeg, neg_add_cancel, Exp.step_zero] at this
    simp [e0, e1, this]
  · obtain ⟨e0, e1⟩ := h4 hty
    have hv1 := h2.v1
    have := hF (d.left.step s.xyz (-1)) d.right s.xyz (by rw [e1] at hv1; exact hv1.1) hv.2
    simp only [Exp.step_step, Int.reduceNeg, neg_add_cancel, Exp.step_zero] at this
    simp [e0, e1, this]

theorem braStmt_pos {ord : ℕ → List Exp} {q : QAM} {s : HRRStep} {k : Dbl}
    (hk : k.am2 = q.ket) :
    (braStmt ord q (k.index ord) s).ti = pos ord s.target k ∧
    (braStmt ord q (k.index ord) s).i0 = pos ord s.src0 k ∧
    (braStmt ord q (k.index ord) s).i1 = pos ord s.src1 k := by
  simp only [Dbl.am2, QAM.ket, Prod.mk.injEq] at hk
  simp [braStmt, pos, Dbl.ncart, hk]

theorem ketStmt_pos {ord : ℕ → List Exp} {q : QAM} {s : HRRStep} {b : Dbl} :
    (ketStmt ord q (b.index ord) s).ti = pos ord b s.target ∧
    (ketStmt ord q (b.index ord) s).i0 = pos ord b s.src0 ∧
    (ketStmt ord q (b.index ord) s).i1 = pos ord b s.src1 := ⟨rfl, rfl, rfl⟩

theorem pos_inj {ord : ℕ → List Exp} (ho : OrdOK ord) {b k b' k' : Dbl} (hb : b.Valid)
    (hk : k.Valid) (hb' : b'.Valid) (hk' : k'.Valid) (h1 : b.am2 = b'.am2) (h2 : k.am2 = k'.am2)
    (h : pos ord b k = pos ord b' k') : b = b' ∧ k = k' := by
  have hn : k.ncart = k'.ncart := by
    simp only [Dbl.am2, Prod.mk.injEq] at h2; simp [Dbl.ncart, h2]
  unfold pos at h
  rw [← hn] at h
  obtain ⟨e1, e2⟩ := mix_inj (Dbl.index_lt ho hk) (by rw [hn]; exact Dbl.index_lt ho hk') h
  exact ⟨Dbl.eq_of_am2 ho hb hb' h1 e1, Dbl.eq_of_am2 ho hk hk' h2 e2⟩

/-- A number below the block size is the index of some component pair. -/
theorem exists_dbl {ord : ℕ → List Exp} (ho : OrdOK ord) {p : ℤ × ℤ} (h1 : 0 ≤ p.1)
    (h2 : 0 ≤ p.2) {i : ℕ} (hi : i < ncart p.1 * ncart p.2) :
    ∃ d : Dbl, d.Valid ∧ d.am2 = p ∧ d.index ord = i := by
  rcases p with ⟨a, b⟩
  simp only at h1 h2 hi
  lift a to ℕ using h1
  lift b to ℕ using h2
  obtain ⟨d, h3, h4, h5⟩ := Dbl.index_surj ho a b hi
  exact ⟨d, ⟨h3.valid, h4.valid⟩, by simp [Dbl.am2, h3.am_eq, h4.am_eq], h5⟩

theorem hrr_name_eq {q : QAM} {d : Dbl} (h : d.am2 = q.bra) :
    (⟨d.left.am, d.right.am, q.c, q.d, q.tag⟩ : QAM) = q := by
  simp only [Dbl.am2, QAM.bra, Prod.mk.injEq] at h
  cases q; simp_all

theorem hrr_name_eq' {q : QAM} {d : Dbl} (h : d.am2 = q.ket) :
    (⟨q.a, q.b, d.left.am, d.right.am, q.tag⟩ : QAM) = q := by
  simp only [Dbl.am2, QAM.ket, Prod.mk.injEq] at h
  cases q; simp_all

theorem mem_req_of {S : Side} {s : HRRStep} {p : ℤ × ℤ} (hs : s ∈ S.steps)
    (hp : s.target.am2 = p) : s.src0.am2 ∈ S.req p ∧ s.src1.am2 ∈ S.req p := by
  simp only [Side.req, List.mem_dedup, List.mem_flatMap, Side.stepsFor, List.mem_filter,
    decide_eq_true_eq]
  exact ⟨⟨s, ⟨hs, hp⟩, by simp⟩, ⟨s, ⟨hs, hp⟩, by simp⟩⟩

variable {ord : ℕ → List Exp} {P : String → Dbl → Dbl → R → Prop} {A : HRRAlgo} {C : StepChoice}
  {ams : List QAM} {opB opK : HStmt → R → R → R}

theorem run_bra (ho : OrdOK ord) (hP : BraClosed P A opB) (hA : AlgoOK ams A)
    (hty : A.bra.type = .I ∨ A.bra.type = .J)
    (hC : CoverOK A.bra C.bra) {q : QAM} (hq : q ∈ A.order) (hk : q.ket ∉ A.ket.allam)
    {m : HMem R} (hg : ∀ d ∈ deps A.bra A.ket q, GoodP ord P A m d) :
    ∃ m', execAllOp opB (braStmts ord q (C.bra q.bra)) m = some m' ∧ (∀ q' ≠ q, m' q' = m q') ∧
      GoodP ord P A m' q := by
  obtain ⟨hnt, hv, -, -, -⟩ := hA.inv.nt q hq
  have hb : q.bra ∈ A.bra.allam := by
    simp only [isTop, decide_eq_false_iff_not, not_and_or, not_not] at hnt
    exact hnt.resolve_right hk
  have hstm : ∀ st ∈ braStmts ord q (C.bra q.bra), ∃ s ∈ C.bra q.bra, ∃ k : Dbl, k.Valid ∧
      k.am2 = q.ket ∧ st = braStmt ord q (k.index ord) s := by
    intro st hst
    simp only [braStmts, List.mem_flatMap, List.mem_range, List.mem_map] at hst
    obtain ⟨i, hi, s, hs, rfl⟩ := hst
    obtain ⟨k, h1, h2, rfl⟩ := exists_dbl ho (p := q.ket) hv.2.2.1 hv.2.2.2 hi
    exact ⟨s, hs, k, h1, h2, rfl⟩
  obtain ⟨m', e, k1, -, k3⟩ := execAllOp_block (op := opB) (q := q)
    (braStmts ord q (C.bra q.bra)) m (by
      intro st hst
      obtain ⟨s, hs, k, hkv, hka, rfl⟩ := hstm st hst
      obtain ⟨g1, g2, g3, g4, g5, -⟩ := step_info hA.bra hC hb hs
      obtain ⟨p1, p2, p3⟩ := braStmt_pos (ord := ord) (s := s) hka
      rw [p1, p2, p3]
      have e0 : (braStmt ord q (k.index ord) s).tq = q := hrr_name_eq g5
      rw [e0]
      refine ⟨rfl, ?_, ?_, pos_lt ho g4 hkv g5 hka, ?_, ?_⟩
      · intro h
        apply g2
        have := congrArg QAM.bra h
        simpa [braStmt, QAM.bra, Dbl.am2] using this
      · intro h
        apply g3
        have := congrArg QAM.bra h
        simpa [braStmt, QAM.bra, Dbl.am2] using this
      · exact pos_lt ho g1.v0 hkv rfl hka
      · exact pos_lt ho g1.v1 hkv rfl hka)
  refine ⟨m', e, k1, ?_⟩
  intro b k hbv hkv hba hka hneed
  have hbs := hneed.2 hk hb
  obtain ⟨s, hs, hst⟩ := (hC q.bra hb).2 b hbs hba
  have hmem : braStmt ord q (k.index ord) s ∈ braStmts ord q (C.bra q.bra) := by
    simp only [braStmts, List.mem_flatMap, List.mem_range, List.mem_map]
    refine ⟨k.index ord, ?_, s, hs, rfl⟩
    have := Dbl.index_lt ho hkv
    simp only [Dbl.am2, QAM.ket, Prod.mk.injEq] at hka
    simpa [Dbl.ncart, hka] using this
  obtain ⟨st', h1, h2, h3⟩ := k3 _ hmem
  obtain ⟨s', hs', k', hkv', hka', rfl⟩ := hstm st' h1
  rw [(braStmt_pos hka).1, (braStmt_pos hka').1] at h2
  obtain ⟨g1, g2, g3, g4, g5, g6⟩ := step_info hA.bra hC hb hs
  obtain ⟨f1, f2, f3, f4, f5, f6⟩ := step_info hA.bra hC hb hs'
  obtain ⟨e1, rfl⟩ := pos_inj ho f4 hkv' g4 hkv (f5.trans g5.symm) (hka'.trans hka.symm) h2
  have hss : s' = s := by
    have a1 := ((hC q.bra hb).1 s hs).2.2
    have a2 := ((hC q.bra hb).1 s' hs').2.2
    rw [e1, a1, Option.some.injEq] at a2
    exact a2.symm
  subst hss
  rw [(braStmt_pos hka).1, hst] at h3
  rw [h3]
  -- the sources are dependencies
  obtain ⟨s0, i1, i2⟩ := hA.bra.hs b hbs
  have hs0 : s0 = s' := by
    have a1 := ((hC q.bra hb).1 s' hs).2.2
    have a2 := (hA.bra.ste s0 i1).2
    rw [i2, ← hst, a1, Option.some.injEq] at a2
    exact a2.symm
  subst hs0
  obtain ⟨r0, r1⟩ := mem_req_of i1 g5
  have hsrc : ∀ d : Dbl, (d = s0.src0 ∨ d = s0.src1) → d.Valid → d.am2 ∈ A.bra.req q.bra →
      P q.tag d k' (m ⟨d.left.am, d.right.am, q.c, q.d, q.tag⟩ (pos ord d k')) := by
    intro d hd hdv hr
    have hdep : (⟨d.left.am, d.right.am, q.c, q.d, q.tag⟩ : QAM) ∈ deps A.bra A.ket q := by
      simp only [deps, hk, if_false, List.mem_map]
      exact ⟨d.am2, hr, rfl⟩
    refine hg _ hdep d k' hdv hkv rfl hka ⟨?_, ?_⟩
    · intro h; exact absurd h hk
    · intro _ h
      rcases g6 (hst ▸ hbs) d hd g5 with h' | h'
      · exact h'
      · have := hA.bra.allam_pos h
        simp only [QAM.bra] at this
        change 0 < steppedAM A.bra.type d.am2 at this
        omega
  have v0 := hsrc s0.src0 (Or.inl rfl) g1.v0 r0
  have v1 := hsrc s0.src1 (Or.inr rfl) g1.v1 r1
  have hpos := hA.bra.allam_pos hb
  rw [← g5, ← stepped_am] at hpos
  obtain ⟨-, p2, p3⟩ := braStmt_pos (ord := ord) (s := s0) hka
  unfold HStmt.valueOp
  rw [p2, p3]
  have hm0 : (braStmt ord q (k'.index ord) s0).q0 =
    ⟨s0.src0.left.am, s0.src0.right.am, q.c, q.d, q.tag⟩ := rfl
  have hm1 : (braStmt ord q (k'.index ord) s0).q1 =
    ⟨s0.src1.left.am, s0.src1.right.am, q.c, q.d, q.tag⟩ := rfl
  have hmx : (braStmt ord q (k'.index ord) s0).xyz = s0.xyz := rfl
  have hmm : (braStmt ord q (k'.index ord) s0).minus = A.bra.type.isLeft := by
    simp only [braStmt, g1.type]
    rcases hty with h | h <;> rw [h] <;> rfl
  have hid := hP q hq s0 k' g4 hpos hkv g5 hka ((hC q.bra hb).1 s0 hs).2.2
    (braStmt ord q (k'.index ord) s0) rfl hmm _ _ v0 v1
  rw [hst] at hid
  rw [hm0, hm1]
  exact hid

theorem run_ket (ho : OrdOK ord) (hP : KetClosed P A opK) (hA : AlgoOK ams A)
    (hty : A.ket.type = .K ∨ A.ket.type = .L)
    (hC : CoverOK A.ket C.ket) {q : QAM} (hq : q ∈ A.order) (hk : q.ket ∈ A.ket.allam)
    {m : HMem R} (hg : ∀ d ∈ deps A.bra A.ket q, GoodP ord P A m d) :
    ∃ m', execAllOp opK (ketStmts ord q (C.ket q.ket)) m = some m' ∧ (∀ q' ≠ q, m' q' = m q') ∧
      GoodP ord P A m' q := by
  obtain ⟨-, hv, hib, -, -⟩ := hA.inv.nt q hq
  have hib := hib.resolve_right (not_not.2 hk)
  have hstm : ∀ st ∈ ketStmts ord q (C.ket q.ket), ∃ s ∈ C.ket q.ket, ∃ b : Dbl, b.Valid ∧
      b.am2 = q.bra ∧ st = ketStmt ord q (b.index ord) s := by
    intro st hst
    simp only [ketStmts, List.mem_flatMap, List.mem_range, List.mem_map] at hst
    obtain ⟨i, hi, s, hs, rfl⟩ := hst
    obtain ⟨b, h1, h2, rfl⟩ := exists_dbl ho (p := q.bra) hv.1 hv.2.1 hi
    exact ⟨s, hs, b, h1, h2, rfl⟩
  obtain ⟨m', e, k1, -, k3⟩ := execAllOp_block (op := opK) (q := q)
    (ketStmts ord q (C.ket q.ket)) m (by
      intro st hst
      obtain ⟨s, hs, b, hbv, hba, rfl⟩ := hstm st hst
      obtain ⟨g1, g2, g3, g4, g5, -⟩ := step_info hA.ket hC hk hs
      obtain ⟨p1, p2, p3⟩ := ketStmt_pos (ord := ord) (q := q) (s := s) (b := b)
      rw [p1, p2, p3]
      have e0 : (ketStmt ord q (b.index ord) s).tq = q := hrr_name_eq' g5
      rw [e0]
      refine ⟨rfl, ?_, ?_, pos_lt ho hbv g4 hba g5, ?_, ?_⟩
      · intro h
        apply g2
        have := congrArg QAM.ket h
        simpa [ketStmt, QAM.ket, Dbl.am2] using this
      · intro h
        apply g3
        have := congrArg QAM.ket h
        simpa [ketStmt, QAM.ket, Dbl.am2] using this
      · exact pos_lt ho hbv g1.v0 hba rfl
      · exact pos_lt ho hbv g1.v1 hba rfl)
  refine ⟨m', e, k1, ?_⟩
  intro b k hbv hkv hba hka hneed
  have hks := hneed.1 hk
  obtain ⟨s, hs, hst⟩ := (hC q.ket hk).2 k hks hka
  have hmem : ketStmt ord q (b.index ord) s ∈ ketStmts ord q (C.ket q.ket) := by
    simp only [ketStmts, List.mem_flatMap, List.mem_range, List.mem_map]
    refine ⟨b.index ord, ?_, s, hs, rfl⟩
    have := Dbl.index_lt ho hbv
    simp only [Dbl.am2, QAM.bra, Prod.mk.injEq] at hba
    simpa [Dbl.ncart, hba] using this
  obtain ⟨st', h1, h2, h3⟩ := k3 _ hmem
  obtain ⟨s', hs', b', hbv', hba', rfl⟩ := hstm st' h1
  rw [ketStmt_pos.1, ketStmt_pos.1] at h2
  obtain ⟨g1, g2, g3, g4, g5, g6⟩ := step_info hA.ket hC hk hs
  obtain ⟨f1, f2, f3, f4, f5, f6⟩ := step_info hA.ket hC hk hs'
  obtain ⟨rfl, e1⟩ := pos_inj ho hbv' f4 hbv g4 (hba'.trans hba.symm) (f5.trans g5.symm) h2
  have hss : s' = s := by
    have a1 := ((hC q.ket hk).1 s hs).2.2
    have a2 := ((hC q.ket hk).1 s' hs').2.2
    rw [e1, a1, Option.some.injEq] at a2
    exact a2.symm
  subst hss
  rw [ketStmt_pos.1, hst] at h3
  rw [h3]
  obtain ⟨s0, i1, i2⟩ := hA.ket.hs k hks
  have hs0 : s0 = s' := by
    have a1 := ((hC q.ket hk).1 s' hs).2.2
    have a2 := (hA.ket.ste s0 i1).2
    rw [i2, ← hst, a1, Option.some.injEq] at a2
    exact a2.symm
  subst hs0
  obtain ⟨r0, r1⟩ := mem_req_of i1 g5
  have hsrc : ∀ d : Dbl, (d = s0.src0 ∨ d = s0.src1) → d.Valid → d.am2 ∈ A.ket.req q.ket →
      P q.tag b' d (m ⟨q.a, q.b, d.left.am, d.right.am, q.tag⟩ (pos ord b' d)) := by
    intro d hd hdv hr
    have hdep : (⟨q.a, q.b, d.left.am, d.right.am, q.tag⟩ : QAM) ∈ deps A.bra A.ket q := by
      simp only [deps, hk, if_true, List.mem_map]
      exact ⟨d.am2, hr, rfl⟩
    refine hg _ hdep b' d hbv hdv hba rfl ⟨?_, ?_⟩
    · intro h
      rcases g6 (hst ▸ hks) d hd g5 with h' | h'
      · exact h'
      · have := hA.ket.allam_pos h
        change 0 < steppedAM A.ket.type d.am2 at this
        omega
    · intro _ h
      have hp := hA.bra.allam_pos h
      change 0 < steppedAM A.bra.type q.bra at hp
      exact hA.bra.init b' hbv (by rw [hba]; exact hib) (by rw [hba]; exact hp)
  have v0 := hsrc s0.src0 (Or.inl rfl) g1.v0 r0
  have v1 := hsrc s0.src1 (Or.inr rfl) g1.v1 r1
  have hpos := hA.ket.allam_pos hk
  rw [← g5, ← stepped_am] at hpos
  obtain ⟨-, p2, p3⟩ := ketStmt_pos (ord := ord) (q := q) (s := s0) (b := b')
  unfold HStmt.valueOp
  rw [p2, p3]
  have hm0 : (ketStmt ord q (b'.index ord) s0).q0 =
    ⟨q.a, q.b, s0.src0.left.am, s0.src0.right.am, q.tag⟩ := rfl
  have hm1 : (ketStmt ord q (b'.index ord) s0).q1 =
    ⟨q.a, q.b, s0.src1.left.am, s0.src1.right.am, q.tag⟩ := rfl
  have hmx : (ketStmt ord q (b'.index ord) s0).xyz = s0.xyz := rfl
  have hmm : (ketStmt ord q (b'.index ord) s0).minus = A.ket.type.isLeft := by
    simp only [ketStmt, g1.type]
    rcases hty with h | h <;> rw [h] <;> rfl
  have hid := hP q hq s0 b' g4 hpos hbv hba g5 ((hC q.ket hk).1 s0 hs).2.2
    (ketStmt ord q (b'.index ord) s0) rfl hmm _ _ v0 v1
  rw [hst] at hid
  rw [hm0, hm1]
  exact hid

theorem GoodP.congr {m m' : HMem R} {q : QAM} (h : GoodP ord P A m q) (he : m' q = m q) :
    GoodP ord P A m' q := by
  intro b k h1 h2 h3 h4 h5
  rw [he]
  exact h b k h1 h2 h3 h4 h5

theorem run_orderP (ho : OrdOK ord) (hPB : BraClosed P A opB) (hPK : KetClosed P A opK) (hA : AlgoOK ams A)
    (hb : A.bra.type = .I ∨ A.bra.type = .J) (hk : A.ket.type = .K ∨ A.ket.type = .L)
    (hCb : CoverOK A.bra C.bra) (hCk : CoverOK A.ket C.ket) :
    ∀ (l2 l1 : List QAM) (m : HMem R), A.order = l1 ++ l2 →
    (∀ q, q ∈ A.top ∨ q ∈ l1 → GoodP ord P A m q) →
    ∃ m', runHRROp ord A C opB opK l2 m = some m' ∧
      (∀ q, q ∈ A.top ∨ q ∈ A.order → GoodP ord P A m' q) ∧
      (∀ q, q ∉ A.order → m' q = m q)
  | [], l1, m, e, h => ⟨m, rfl, by simpa [e] using h, fun _ _ => rfl⟩
  | q :: l2, l1, m, e, h => by
    have hq : q ∈ A.order := by rw [e]; simp
    have hd : ∀ d ∈ deps A.bra A.ket q, GoodP ord P A m d := fun d hd =>
      h d (hA.inv.topo l1 q l2 e d hd)
    have hnd := hA.inv.nd
    simp only [e] at hnd
    have hql1 : q ∉ l1 := by
      intro h'
      exact (List.nodup_append.1 hnd).2.2 q h' q (by simp) rfl
    have hqt : q ∉ A.top := by
      intro h'
      have h1 := (hA.inv.tp q h').1
      have h2 := (hA.inv.nt q hq).1
      rw [h1] at h2; exact absurd h2 (by simp)
    have key : ∃ m1, runClassOp ord A C opB opK q m = some m1 ∧
        (∀ q' ≠ q, m1 q' = m q') ∧ GoodP ord P A m1 q := by
      rw [runClassOp, getStep_ok hA hq, Option.bind_some, stepSide]
      by_cases hkk : q.ket ∈ A.ket.allam
      · simp only [hkk, if_true]
        exact run_ket ho hPK hA hk hCk hq hkk hd
      · simp only [hkk, if_false]
        exact run_bra ho hPB hA hb hCb hq hkk hd
    obtain ⟨m1, e1, f1, g1⟩ := key
    obtain ⟨m2, e2, g2, f2⟩ := run_orderP ho hPB hPK hA hb hk hCb hCk l2 (l1 ++ [q]) m1
      (by simp [e]) (by
        intro q' hq'
        by_cases hqq : q' = q
        · subst hqq; exact g1
        · refine (h q' ?_).congr (f1 q' hqq)
          rcases hq' with h' | h'
          · exact Or.inl h'
          · simp [hqq] at h'; exact Or.inr h')
    refine ⟨m2, ?_, g2, ?_⟩
    · rw [runHRROp, e1, Option.bind_some, e2]
    · intro q' hq'
      rw [f2 q' hq', f1 q' (fun h => hq' (h ▸ hq))]

section
variable [CommRing R] {θ : String → Fam R} {AB CD : Dir → R}

theorem At.bra (hθ : ∀ t, HRRFam AB CD (θ t)) : BraClosed (At θ) A (ringOp AB) := by
  intro q _ s k hv hp hk _ _ hs st ex em v0 v1 h0 h1
  unfold At at *
  rw [step_identity_left (AB := AB) (F := fun a b => θ q.tag a b k.left k.right)
    (fun a b i ha hb => (hθ q.tag).bra a b _ _ i ha hb hk.1 hk.2) hv hp hs, h0, h1, ringOp, ex, em]

theorem At.ket (hθ : ∀ t, HRRFam AB CD (θ t)) : KetClosed (At θ) A (ringOp CD) := by
  intro q _ s b hv hp hb _ _ hs st ex em v0 v1 h0 h1
  unfold At at *
  rw [step_identity_left (AB := CD) (F := fun c d => θ q.tag b.left b.right c d)
    (fun c d i hc hd => (hθ q.tag).ket _ _ c d i hb.1 hb.2 hc hd) hv hp hs, h0, h1, ringOp, ex, em]

theorem run_order (ho : OrdOK ord) (hθ : ∀ t, HRRFam AB CD (θ t)) (hA : AlgoOK ams A)
    (hb : A.bra.type = .I ∨ A.bra.type = .J) (hk : A.ket.type = .K ∨ A.ket.type = .L)
    (hCb : CoverOK A.bra C.bra) (hCk : CoverOK A.ket C.ket) (l2 l1 : List QAM) (m : HMem R)
    (e : A.order = l1 ++ l2) (h : ∀ q, q ∈ A.top ∨ q ∈ l1 → Good ord θ A m q) :
    ∃ m', runHRR ord A C AB CD l2 m = some m' ∧
      (∀ q, q ∈ A.top ∨ q ∈ A.order → Good ord θ A m' q) ∧
      (∀ q, q ∉ A.order → m' q = m q) :=
  run_orderP ho (At.bra hθ) (At.ket hθ) hA hb hk hCb hCk l2 l1 m e h

end

theorem needed_req (hA : AlgoOK ams A) {q : QAM} (hq : q ∈ ams) {b k : Dbl} (hb : b.Valid)
    (hk : k.Valid) (hba : b.am2 = q.bra) (hka : k.am2 = q.ket) : Needed A q b k := by
  constructor
  · intro h
    have := hA.ket.allam_pos h
    rw [← hka] at this
    exact hA.ket.init k hk (hka ▸ List.mem_map_of_mem hq) this
  · intro _ h
    have := hA.bra.allam_pos h
    rw [← hba] at this
    exact hA.bra.init b hb (hba ▸ List.mem_map_of_mem hq) this

end Simint
