import Verif.GeneralHRRLemmas
import Verif.HRRExecLemmas

/-! Inline, external and generic code for a class have the same effect. -/

set_option autoImplicit false

namespace Simint

/-- One step per component of the AM pair. -/
def fullSteps (ord : ℕ → List Exp) (ty : RRType) (p : ℤ × ℤ) : List HRRStep :=
  (doubletTargets ord p.1.toNat p.2.toNat).filterMap (doubletStep ty)

theorem mem_fullSteps {ord : ℕ → List Exp} (ho : OrdOK ord) (hs : OrdStart ord) {ty : RRType}
    {p : ℤ × ℤ} (h1 : 0 ≤ p.1) (h2 : 0 ≤ p.2) (hp : 0 < steppedAM ty p) {s : HRRStep} :
    s ∈ fullSteps ord ty p ↔ s.target.Valid ∧ s.target.am2 = p ∧
      doubletStep ty s.target = some s := by
  unfold fullSteps
  rw [List.mem_filterMap]
  constructor
  · rintro ⟨d, hd, hds⟩
    obtain ⟨c1, c2⟩ := (mem_doubletTargets ho hs).1 hd
    have hv : d.Valid := ⟨c1.valid, c2.valid⟩
    have ha : d.am2 = p := by
      unfold Dbl.am2
      rw [c1.am_eq, c2.am_eq]
      ext <;> simp [h1, h2]
    obtain ⟨s', e, ok, -⟩ := doubletStep_spec (ty := ty) hv (by rw [stepped_am, ha]; exact hp)
    rw [hds, Option.some.injEq] at e
    subst e
    rw [ok.target]
    exact ⟨hv, ha, hds⟩
  · rintro ⟨hv, ha, hs'⟩
    refine ⟨s.target, (mem_doubletTargets ho hs).2 ?_, hs'⟩
    rw [← ha]
    exact ⟨isComp_of_valid hv.1, isComp_of_valid hv.2⟩

theorem fullSteps_cover {ord : ℕ → List Exp} (ho : OrdOK ord) (hs : OrdStart ord)
    {init : List (ℤ × ℤ)} {S : Side} (h : SideOK init S) : CoverOK S (fullSteps ord S.type) := by
  intro p hp
  have hpos := h.allam_pos hp
  obtain ⟨d, hd, rfl⟩ := List.mem_map.1 hp
  have hv := (h.sv d hd).1
  have h1 := hv.1.am_nonneg
  have h2 := hv.2.am_nonneg
  constructor
  · intro s hs'
    exact (mem_fullSteps ho hs h1 h2 hpos).1 hs'
  · intro d' hd' ha
    obtain ⟨s, e, ok, -⟩ := doubletStep_spec (ty := S.type) (h.sv d' hd').1
      (by rw [stepped_am]; exact (h.sv d' hd').2)
    refine ⟨s, (mem_fullSteps ho hs h1 h2 hpos).2 ?_, ok.target⟩
    rw [ok.target]
    exact ⟨(h.sv d' hd').1, ha, e⟩

theorem extSteps_spec {ord : ℕ → List Exp} (ho : OrdOK ord) (hs : OrdStart ord)
    {enum : List Dbl → List Dbl} (he : EnumOK enum) {ty : RRType} {p : ℤ × ℤ} (h1 : 0 ≤ p.1)
    (h2 : 0 ≤ p.2) (hp : 0 < steppedAM ty p) :
    ∃ l, extSteps ord enum ty p = some l ∧ ∀ s, s ∈ l ↔ s ∈ fullSteps ord ty p := by
  obtain ⟨S, e, t, ok⟩ := createSide_ok ho hs he (ty := ty) (ams := [p])
    (f := p.1.toNat + p.2.toNat + 1) (by simp [h1, h2])
    (by
      intro r hr
      rw [List.mem_singleton] at hr; subst hr
      unfold steppedAM; split <;> omega)
  refine ⟨S.stepsFor p, by simp [extSteps, e], ?_⟩
  intro s
  rw [mem_fullSteps ho hs h1 h2 hp]
  simp only [Side.stepsFor, List.mem_filter, decide_eq_true_eq]
  constructor
  · rintro ⟨g1, g2⟩
    obtain ⟨g3, g4⟩ := ok.ste s g1
    exact ⟨(ok.sv _ g3).1, g2, t ▸ g4⟩
  · rintro ⟨g1, g2, g3⟩
    have := ok.init s.target g1 (by rw [g2]; simp) (by rw [t, g2]; exact hp)
    obtain ⟨s', g4, g5⟩ := ok.hs _ this
    have g6 := (ok.ste s' g4).2
    rw [g5, t, g3, Option.some.injEq] at g6
    rw [g6]
    exact ⟨g4, g6 ▸ g2⟩

variable {R : Type}

/-- The array of a class, as the block of a family. -/
def memFam (m : HMem R) (q : QAM) : Fam R :=
  fun a b c d => m q (pos psi4List ⟨a, b⟩ ⟨c, d⟩)

theorem block_length (F : Fam R) (i j k l : ℕ) :
    (block psi4List F i j k l).length = nc i * nc j * (nc k * nc l) := by
  unfold block
  rw [flatMap_length_const (n := nc k * nc l) (by simp [pairs_length]), pairs_length]

theorem ncartQ_nat (i j k l : ℕ) (t : String) :
    ncartQ ⟨i, j, k, l, t⟩ = nc i * nc j * (nc k * nc l) := by
  simp [ncartQ, nc_eq]

theorem block_get {F : Fam R} {i j k l : ℕ} {a b c d : Exp} (ha : IsComp i a) (hb : IsComp j b)
    (hc : IsComp k c) (hd : IsComp l d) :
    (block psi4List F i j k l)[pos psi4List ⟨a, b⟩ ⟨c, d⟩]? = some (F a b c d) := by
  obtain ⟨h1, h2⟩ := pairs_get hc hd
  have := rd_block (F := F) ha hb h1 (z := (pos psi4List ⟨a, b⟩ ⟨c, d⟩ : ℕ)) (by
    simp only [pos, Dbl.index, Dbl.ncart, hb.am_eq, hc.am_eq, hd.am_eq, nc_eq]
    push_cast; ring)
  rw [h2] at this
  simpa [rd] using this

theorem pos_surj {i j k l n : ℕ} (hn : n < nc i * nc j * (nc k * nc l)) :
    ∃ a b c d, IsComp i a ∧ IsComp j b ∧ IsComp k c ∧ IsComp l d ∧
      pos psi4List ⟨a, b⟩ ⟨c, d⟩ = n := by
  obtain ⟨x, y, hx, hy, rfl⟩ := mix_surj hn
  simp only [nc_eq] at hx hy
  obtain ⟨⟨a, b⟩, h1, h2, rfl⟩ := Dbl.index_surj psi4_ordOK i j hx
  obtain ⟨⟨c, d⟩, h3, h4, rfl⟩ := Dbl.index_surj psi4_ordOK k l hy
  refine ⟨a, b, c, d, h1, h2, h3, h4, ?_⟩
  simp [pos, Dbl.ncart, h3.am_eq, h4.am_eq, nc_eq]

theorem memBlock_eq (m : HMem R) (i j k l : ℕ) (t : String) :
    memBlock m ⟨i, j, k, l, t⟩ = block psi4List (memFam m ⟨i, j, k, l, t⟩) i j k l := by
  refine List.ext_getElem? fun n => ?_
  by_cases hn : n < nc i * nc j * (nc k * nc l)
  · obtain ⟨a, b, c, d, h1, h2, h3, h4, rfl⟩ := pos_surj hn
    rw [block_get h1 h2 h3 h4]
    simp [memBlock, ncartQ_nat, hn, memFam]
  · rw [List.getElem?_eq_none, List.getElem?_eq_none]
    · rw [block_length]; omega
    · simp [memBlock, ncartQ_nat]; omega

/-- Value that a bra step puts at a component quadruple. -/
theorem braBlock_exec {ty : RRType} {op : HStmt → R → R → R} {q : QAM} (hv : q.Valid)
    (hp : 0 < steppedAM ty q.bra) (m : HMem R) (L : List HRRStep)
    (hL : ∀ s, s ∈ L ↔ s ∈ fullSteps psi4List ty q.bra) :
    ∃ m', execAllOp op (braStmts psi4List q L) m = some m' ∧ (∀ q' ≠ q, m' q' = m q') ∧
      (∀ i, ncartQ q ≤ i → m' q i = m q i) ∧
      ∀ b k : Dbl, b.Valid → k.Valid → b.am2 = q.bra → k.am2 = q.ket →
        ∃ s, doubletStep ty b = some s ∧
        m' q (pos psi4List b k) = (braStmt psi4List q (k.index psi4List) s).valueOp op m := by
  have ho := psi4_ordOK
  have hstm : ∀ st ∈ braStmts psi4List q L, ∃ s ∈ L, ∃ k : Dbl, k.Valid ∧
      k.am2 = q.ket ∧ st = braStmt psi4List q (k.index psi4List) s := by
    intro st hst
    simp only [braStmts, List.mem_flatMap, List.mem_range, List.mem_map] at hst
    obtain ⟨i, hi, s, hs, rfl⟩ := hst
    obtain ⟨k, h1, h2, rfl⟩ := exists_dbl ho (p := q.ket) hv.2.2.1 hv.2.2.2 hi
    exact ⟨s, hs, k, h1, h2, rfl⟩
  have hinfo : ∀ s ∈ L, s.target.Valid ∧ s.target.am2 = q.bra ∧ doubletStep ty s.target = some s ∧
      StepOK ty s.target s := by
    intro s hs
    obtain ⟨h1, h2, h3⟩ := (mem_fullSteps ho psi4_start (p := q.bra) hv.1 hv.2.1 hp).1
      ((hL s).1 hs)
    obtain ⟨s', e, ok, -⟩ := doubletStep_spec (ty := ty) h1 (by rw [stepped_am, h2]; exact hp)
    rw [h3, Option.some.injEq] at e
    subst e
    exact ⟨h1, h2, h3, ok⟩
  obtain ⟨m', e, k1, k2, k3⟩ := execAllOp_block (op := op) (q := q) (braStmts psi4List q L) m (by
      intro st hst
      obtain ⟨s, hs, k, hkv, hka, rfl⟩ := hstm st hst
      obtain ⟨g4, g5, -, g1⟩ := hinfo s hs
      obtain ⟨p1, p2, p3⟩ := braStmt_pos (ord := psi4List) (s := s) hka
      rw [p1, p2, p3]
      have e0 : (braStmt psi4List q (k.index psi4List) s).tq = q := hrr_name_eq g5
      rw [e0]
      refine ⟨rfl, ?_, ?_, pos_lt ho g4 hkv g5 hka, pos_lt ho g1.v0 hkv rfl hka,
        pos_lt ho g1.v1 hkv rfl hka⟩
      · intro h
        have := congrArg QAM.bra h
        have e2 : s.src0.am2 = q.bra := by simpa [braStmt, QAM.bra, Dbl.am2] using this
        have := g1.a0
        rw [e2, g5] at this; omega
      · intro h
        have := congrArg QAM.bra h
        have e2 : s.src1.am2 = q.bra := by simpa [braStmt, QAM.bra, Dbl.am2] using this
        have := g1.a1
        rw [e2, g5] at this; omega)
  refine ⟨m', e, k1, ?_, ?_⟩
  · intro i hi
    refine k2 i fun st hst => ?_
    obtain ⟨s, hs, k, hkv, hka, rfl⟩ := hstm st hst
    obtain ⟨g4, g5, -, g1⟩ := hinfo s hs
    rw [(braStmt_pos (ord := psi4List) (s := s) hka).1]
    have := pos_lt ho (q := q) g4 hkv g5 hka
    omega
  · intro b k hbv hkv hba hka
    obtain ⟨s, es, ok, -⟩ := doubletStep_spec (ty := ty) hbv (by rw [stepped_am, hba]; exact hp)
    have hst := ok.target
    have hs : s ∈ L := (hL s).2 ((mem_fullSteps ho psi4_start (p := q.bra) hv.1 hv.2.1 hp).2
      (by rw [hst]; exact ⟨hbv, hba, es⟩))
    refine ⟨s, es, ?_⟩
    have hmem : braStmt psi4List q (k.index psi4List) s ∈ braStmts psi4List q L := by
      simp only [braStmts, List.mem_flatMap, List.mem_range, List.mem_map]
      refine ⟨k.index psi4List, ?_, s, hs, rfl⟩
      have := Dbl.index_lt ho hkv
      simp only [Dbl.am2, QAM.ket, Prod.mk.injEq] at hka
      simpa [Dbl.ncart, hka] using this
    obtain ⟨st', h1, h2, h3⟩ := k3 _ hmem
    obtain ⟨s', hs', k', hkv', hka', rfl⟩ := hstm st' h1
    rw [(braStmt_pos hka).1, (braStmt_pos hka').1] at h2
    obtain ⟨f4, f5, f6, f1⟩ := hinfo s' hs'
    obtain ⟨g4, g5, g6, g1⟩ := hinfo s hs
    obtain ⟨e1, rfl⟩ := pos_inj ho f4 hkv' g4 hkv (f5.trans g5.symm) (hka'.trans hka.symm) h2
    have hss : s' = s := by
      rw [e1, g6, Option.some.injEq] at f6
      exact f6.symm
    subst hss
    rw [(braStmt_pos hka).1, hst] at h3
    exact h3

theorem ketBlock_exec {ty : RRType} {op : HStmt → R → R → R} {q : QAM} (hv : q.Valid)
    (hp : 0 < steppedAM ty q.ket) (m : HMem R) (L : List HRRStep)
    (hL : ∀ s, s ∈ L ↔ s ∈ fullSteps psi4List ty q.ket) :
    ∃ m', execAllOp op (ketStmts psi4List q L) m = some m' ∧ (∀ q' ≠ q, m' q' = m q') ∧
      (∀ i, ncartQ q ≤ i → m' q i = m q i) ∧
      ∀ b k : Dbl, b.Valid → k.Valid → b.am2 = q.bra → k.am2 = q.ket →
        ∃ s, doubletStep ty k = some s ∧
        m' q (pos psi4List b k) = (ketStmt psi4List q (b.index psi4List) s).valueOp op m := by
  have ho := psi4_ordOK
  have hstm : ∀ st ∈ ketStmts psi4List q L, ∃ s ∈ L, ∃ b : Dbl, b.Valid ∧
      b.am2 = q.bra ∧ st = ketStmt psi4List q (b.index psi4List) s := by
    intro st hst
    simp only [ketStmts, List.mem_flatMap, List.mem_range, List.mem_map] at hst
    obtain ⟨i, hi, s, hs, rfl⟩ := hst
    obtain ⟨b, h1, h2, rfl⟩ := exists_dbl ho (p := q.bra) hv.1 hv.2.1 hi
    exact ⟨s, hs, b, h1, h2, rfl⟩
  have hinfo : ∀ s ∈ L, s.target.Valid ∧ s.target.am2 = q.ket ∧ doubletStep ty s.target = some s ∧
      StepOK ty s.target s := by
    intro s hs
    obtain ⟨h1, h2, h3⟩ := (mem_fullSteps ho psi4_start (p := q.ket) hv.2.2.1 hv.2.2.2 hp).1
      ((hL s).1 hs)
    obtain ⟨s', e, ok, -⟩ := doubletStep_spec (ty := ty) h1 (by rw [stepped_am, h2]; exact hp)
    rw [h3, Option.some.injEq] at e
    subst e
    exact ⟨h1, h2, h3, ok⟩
  obtain ⟨m', e, k1, k2, k3⟩ := execAllOp_block (op := op) (q := q) (ketStmts psi4List q L) m (by
      intro st hst
      obtain ⟨s, hs, b, hbv, hba, rfl⟩ := hstm st hst
      obtain ⟨g4, g5, -, g1⟩ := hinfo s hs
      obtain ⟨p1, p2, p3⟩ := ketStmt_pos (ord := psi4List) (q := q) (s := s) (b := b)
      rw [p1, p2, p3]
      have e0 : (ketStmt psi4List q (b.index psi4List) s).tq = q := hrr_name_eq' g5
      rw [e0]
      refine ⟨rfl, ?_, ?_, pos_lt ho hbv g4 hba g5, pos_lt ho hbv g1.v0 hba rfl,
        pos_lt ho hbv g1.v1 hba rfl⟩
      · intro h
        have := congrArg QAM.ket h
        have e2 : s.src0.am2 = q.ket := by simpa [ketStmt, QAM.ket, Dbl.am2] using this
        have := g1.a0
        rw [e2, g5] at this; omega
      · intro h
        have := congrArg QAM.ket h
        have e2 : s.src1.am2 = q.ket := by simpa [ketStmt, QAM.ket, Dbl.am2] using this
        have := g1.a1
        rw [e2, g5] at this; omega)
  refine ⟨m', e, k1, ?_, ?_⟩
  · intro i hi
    refine k2 i fun st hst => ?_
    obtain ⟨s, hs, b, hbv, hba, rfl⟩ := hstm st hst
    obtain ⟨g4, g5, -, g1⟩ := hinfo s hs
    rw [ketStmt_pos.1]
    have := pos_lt ho (q := q) hbv g4 hba g5
    omega
  · intro b k hbv hkv hba hka
    obtain ⟨s, es, ok, -⟩ := doubletStep_spec (ty := ty) hkv (by rw [stepped_am, hka]; exact hp)
    have hst := ok.target
    have hs : s ∈ L := (hL s).2 ((mem_fullSteps ho psi4_start (p := q.ket) hv.2.2.1 hv.2.2.2 hp).2
      (by rw [hst]; exact ⟨hkv, hka, es⟩))
    refine ⟨s, es, ?_⟩
    have hmem : ketStmt psi4List q (b.index psi4List) s ∈ ketStmts psi4List q L := by
      simp only [ketStmts, List.mem_flatMap, List.mem_range, List.mem_map]
      refine ⟨b.index psi4List, ?_, s, hs, rfl⟩
      have := Dbl.index_lt ho hbv
      simp only [Dbl.am2, QAM.bra, Prod.mk.injEq] at hba
      simpa [Dbl.ncart, hba] using this
    obtain ⟨st', h1, h2, h3⟩ := k3 _ hmem
    obtain ⟨s', hs', b', hbv', hba', rfl⟩ := hstm st' h1
    rw [ketStmt_pos.1, ketStmt_pos.1] at h2
    obtain ⟨f4, f5, f6, f1⟩ := hinfo s' hs'
    obtain ⟨g4, g5, g6, g1⟩ := hinfo s hs
    obtain ⟨rfl, e1⟩ := pos_inj ho hbv' f4 hbv g4 (hba'.trans hba.symm) (f5.trans g5.symm) h2
    have hss : s' = s := by
      rw [e1, g6, Option.some.injEq] at f6
      exact f6.symm
    subst hss
    rw [ketStmt_pos.1, hst] at h3
    exact h3

theorem HMem.ext_block {m1 m2 m : HMem R} {q : QAM} (hv : q.Valid)
    (h1 : ∀ q' ≠ q, m1 q' = m q') (h2 : ∀ q' ≠ q, m2 q' = m q')
    (g1 : ∀ i, ncartQ q ≤ i → m1 q i = m q i) (g2 : ∀ i, ncartQ q ≤ i → m2 q i = m q i)
    (h : ∀ b k : Dbl, b.Valid → k.Valid → b.am2 = q.bra → k.am2 = q.ket →
      m1 q (pos psi4List b k) = m2 q (pos psi4List b k)) : m1 = m2 := by
  funext q' i
  by_cases hq : q' = q
  · subst hq
    by_cases hi : i < ncartQ q'
    · obtain ⟨x, y, hx, hy, rfl⟩ := mix_surj hi
      obtain ⟨b, b1, b2, rfl⟩ := exists_dbl psi4_ordOK (p := q'.bra) hv.1 hv.2.1 hx
      obtain ⟨k, k1, k2, rfl⟩ := exists_dbl psi4_ordOK (p := q'.ket) hv.2.2.1 hv.2.2.2 hy
      have : b.index psi4List * (Simint.ncart q'.c * Simint.ncart q'.d) + k.index psi4List =
          pos psi4List b k := by
        have hk2 := k2
        simp only [Dbl.am2, QAM.ket, Prod.mk.injEq] at hk2
        simp [pos, Dbl.ncart, hk2]
      rw [this]
      exact h b k b1 k1 b2 k2
    · rw [g1 i (by omega), g2 i (by omega)]
  · rw [h1 q' hq, h2 q' hq]

theorem putBlock_block {F : Fam R} {m : HMem R} {i j k l : ℕ} {t : String} :
    ∃ m', putBlock m ⟨i, j, k, l, t⟩ (block psi4List F i j k l) = some m' ∧
      (∀ q' ≠ ⟨i, j, k, l, t⟩, m' q' = m q') ∧
      (∀ n, ncartQ ⟨i, j, k, l, t⟩ ≤ n → m' ⟨i, j, k, l, t⟩ n = m ⟨i, j, k, l, t⟩ n) ∧
      ∀ a b c d, IsComp i a → IsComp j b → IsComp k c → IsComp l d →
        m' ⟨i, j, k, l, t⟩ (pos psi4List ⟨a, b⟩ ⟨c, d⟩) = F a b c d := by
  refine ⟨_, by rw [putBlock, if_pos (by rw [block_length, ncartQ_nat])], ?_, ?_, ?_⟩
  · intro q' hq'; funext n; simp [hq']
  · intro n hn
    rw [ncartQ_nat] at hn
    have : ¬ n < (block psi4List F i j k l).length := by rw [block_length]; omega
    simp [this]
  · intro a b c d h1 h2 h3 h4
    have hg := block_get (F := F) h1 h2 h3 h4
    have hlt : pos psi4List ⟨a, b⟩ ⟨c, d⟩ < (block psi4List F i j k l).length :=
      (List.getElem?_eq_some_iff.1 hg).1
    simp only [true_and, hlt, if_true]
    rw [List.getD_eq_getElem?_getD, hg]; rfl

theorem comp_of {n : ℕ} {e : Exp} (hv : e.Valid) (ha : e.am = n) : IsComp n e := by
  have := isComp_of_valid hv
  rwa [ha, Int.toNat_natCast] at this

theorem mdir_of_step {ty : RRType} {d : Dbl} {s : HRRStep} (hv : d.Valid)
    (hp : 0 < (d.stepped ty).am) (hs : doubletStep ty d = some s) :
    mdir (d.stepped ty) = s.xyz := by
  obtain ⟨s', e, -, h, -⟩ := doubletStep_spec hv hp
  rw [hs, Option.some.injEq] at e
  subst e
  obtain ⟨x, h1, h2⟩ := makDir_spec (hv.stepped ty) hp
  simp [mdir, h1, smallestRight_unique h2 h]

/-- The generic routine called for a class has the effect of the emitted statements for all its
components. -/
theorem generalClass_bra {ty : RRType} (hty : ty = .I ∨ ty = .J) {g : Bool → Dir → R → R → R} {q : QAM}
    (hv : q.Valid) (hp : 0 < steppedAM ty q.bra) (ha : q.a ≤ 18) (hb : q.b ≤ 18) (m : HMem R) :
    generalClassOp ty g q m =
      execAllOp (fun s => g s.minus s.xyz) (braStmts psi4List q (fullSteps psi4List ty q.bra)) m := by
  obtain ⟨m1, e1, f1, g1, v1⟩ := braBlock_exec (op := fun s => g s.minus s.xyz) hv hp m _ (fun _ => Iff.rfl)
  rw [e1]
  obtain ⟨i, j, k, l, t⟩ := q
  obtain ⟨hi, hj, hk, hl⟩ := id hv
  simp only at hi hj hk hl ha hb
  lift i to ℕ using hi
  lift j to ℕ using hj
  lift k to ℕ using hk
  lift l to ℕ using hl
  rcases hty with rfl | rfl
  · have hip : 0 < i := by simpa [steppedAM, RRType.isLeft, QAM.bra] using hp
    have s1 := hrrI_op (k := k) (l := l) hip (by omega) (by omega : j ≤ 18) (g true)
      (memFam m ⟨(i : ℤ) - 1, (j : ℤ) + 1, k, l, t⟩) (memFam m ⟨(i : ℤ) - 1, j, k, l, t⟩)
    obtain ⟨i', rfl⟩ : ∃ i', i = i' + 1 := ⟨i - 1, by omega⟩
    have ei : ((i' + 1 : ℕ) : ℤ) - 1 = i' := by push_cast; ring
    have ej : (j : ℤ) + 1 = ((j + 1 : ℕ) : ℤ) := by push_cast; ring
    simp only [ei, ej, Nat.add_sub_cancel] at s1
    obtain ⟨m2, e2, f2, g2, v2⟩ := putBlock_block (m := m) (t := t)
      (F := fun a b c d => g true (mdir a) (memFam m ⟨(i' : ℤ), ((j + 1 : ℕ) : ℤ), k, l, t⟩
          (a.step (mdir a) (-1)) (b.step (mdir a) 1) c d)
        (memFam m ⟨(i' : ℤ), j, k, l, t⟩ (a.step (mdir a) (-1)) b c d))
      (i := i' + 1) (j := j) (k := k) (l := l)
    simp only [generalClassOp, generateAMReq, ei, ej, memBlock_eq, Int.toNat_natCast, s1,
      Option.bind_some]
    rw [e2, Option.some.injEq]
    refine HMem.ext_block hv f2 f1 g2 g1 ?_
    rintro ⟨a, b⟩ ⟨c, d⟩ hbv hkv hba hka
    simp only [Dbl.am2, QAM.bra, QAM.ket, Prod.mk.injEq] at hba hka
    rw [v2 a b c d (comp_of hbv.1 hba.1) (comp_of hbv.2 hba.2) (comp_of hkv.1 hka.1)
      (comp_of hkv.2 hka.2)]
    obtain ⟨s, es, hs⟩ := v1 ⟨a, b⟩ ⟨c, d⟩ hbv hkv (by simp [Dbl.am2, QAM.bra, hba])
      (by simp [Dbl.am2, QAM.ket, hka])
    rw [hs]
    have hpos : 0 < (Dbl.stepped .I ⟨a, b⟩).am := by
      simp only [Dbl.stepped, RRType.isLeft, if_true]; rw [hba.1]; positivity
    have hmd := mdir_of_step hbv hpos es
    obtain ⟨s', e', ok, -, hl, -⟩ := doubletStep_spec hbv hpos
    rw [es, Option.some.injEq] at e'
    subst e'
    obtain ⟨q0, q1⟩ := hl rfl
    simp only [Dbl.stepped, RRType.isLeft, if_true] at hmd
    have ea : a.am + -1 = i' := by rw [hba.1]; push_cast; ring
    have eb : b.am + 1 = ((j + 1 : ℕ) : ℤ) := by rw [hba.2]; push_cast; ring
    simp [HStmt.valueOp, braStmt, ok.type, q0, q1, memFam, hmd, pos,
      Dbl.ncart, hka.1, hka.2, ea, eb, hba.2]
  · have hip : 0 < j := by simpa [steppedAM, RRType.isLeft, QAM.bra] using hp
    have s1 := hrrJ_op (k := k) (l := l) hip (by omega : i ≤ 18) (by omega) (g false)
      (memFam m ⟨(i : ℤ) + 1, (j : ℤ) - 1, k, l, t⟩) (memFam m ⟨(i : ℤ), (j : ℤ) - 1, k, l, t⟩)
    obtain ⟨j', rfl⟩ : ∃ j', j = j' + 1 := ⟨j - 1, by omega⟩
    have ej : ((j' + 1 : ℕ) : ℤ) - 1 = j' := by push_cast; ring
    have ei : (i : ℤ) + 1 = ((i + 1 : ℕ) : ℤ) := by push_cast; ring
    simp only [ei, ej, Nat.add_sub_cancel] at s1
    obtain ⟨m2, e2, f2, g2, v2⟩ := putBlock_block (m := m) (t := t)
      (F := fun a b c d => g false (mdir b) (memFam m ⟨((i + 1 : ℕ) : ℤ), (j' : ℤ), k, l, t⟩
          (a.step (mdir b) 1) (b.step (mdir b) (-1)) c d)
        (memFam m ⟨(i : ℤ), j', k, l, t⟩ a (b.step (mdir b) (-1)) c d))
      (i := i) (j := j' + 1) (k := k) (l := l)
    simp only [generalClassOp, generateAMReq, ei, ej, memBlock_eq, Int.toNat_natCast, s1,
      Option.bind_some]
    rw [e2, Option.some.injEq]
    refine HMem.ext_block hv f2 f1 g2 g1 ?_
    rintro ⟨a, b⟩ ⟨c, d⟩ hbv hkv hba hka
    simp only [Dbl.am2, QAM.bra, QAM.ket, Prod.mk.injEq] at hba hka
    rw [v2 a b c d (comp_of hbv.1 hba.1) (comp_of hbv.2 hba.2) (comp_of hkv.1 hka.1)
      (comp_of hkv.2 hka.2)]
    obtain ⟨s, es, hs⟩ := v1 ⟨a, b⟩ ⟨c, d⟩ hbv hkv (by simp [Dbl.am2, QAM.bra, hba])
      (by simp [Dbl.am2, QAM.ket, hka])
    rw [hs]
    have hpos : 0 < (Dbl.stepped .J ⟨a, b⟩).am := by
      simp only [Dbl.stepped, RRType.isLeft]; simp; rw [hba.2]; positivity
    have hmd := mdir_of_step hbv hpos es
    obtain ⟨s', e', ok, -, -, hl⟩ := doubletStep_spec hbv hpos
    rw [es, Option.some.injEq] at e'
    subst e'
    obtain ⟨q0, q1⟩ := hl rfl
    simp [Dbl.stepped, RRType.isLeft] at hmd
    have eb : b.am + -1 = j' := by rw [hba.2]; push_cast; ring
    have ea : a.am + 1 = ((i + 1 : ℕ) : ℤ) := by rw [hba.1]; push_cast; ring
    simp [HStmt.valueOp, braStmt, ok.type, q0, q1, memFam, hmd, pos,
      Dbl.ncart, hka.1, hka.2, ea, eb, hba.1]

theorem generalClass_ket {ty : RRType} (hty : ty = .K ∨ ty = .L) {g : Bool → Dir → R → R → R} {q : QAM}
    (hv : q.Valid) (hp : 0 < steppedAM ty q.ket) (hc : q.c ≤ 18) (hd : q.d ≤ 18) (m : HMem R) :
    generalClassOp ty g q m =
      execAllOp (fun s => g s.minus s.xyz) (ketStmts psi4List q (fullSteps psi4List ty q.ket)) m := by
  obtain ⟨m1, e1, f1, g1, v1⟩ := ketBlock_exec (op := fun s => g s.minus s.xyz) hv hp m _ (fun _ => Iff.rfl)
  rw [e1]
  obtain ⟨i, j, k, l, t⟩ := q
  obtain ⟨hi, hj, hk, hl⟩ := id hv
  simp only at hi hj hk hl hc hd
  lift i to ℕ using hi
  lift j to ℕ using hj
  lift k to ℕ using hk
  lift l to ℕ using hl
  rcases hty with rfl | rfl
  · have hip : 0 < k := by simpa [steppedAM, RRType.isLeft, QAM.ket] using hp
    have s1 := hrrK_op (i := i) (j := j) hip (by omega) (by omega : l ≤ 18) (g true)
      (memFam m ⟨i, j, (k : ℤ) - 1, (l : ℤ) + 1, t⟩) (memFam m ⟨i, j, (k : ℤ) - 1, l, t⟩)
    obtain ⟨k', rfl⟩ : ∃ k', k = k' + 1 := ⟨k - 1, by omega⟩
    have ei : ((k' + 1 : ℕ) : ℤ) - 1 = k' := by push_cast; ring
    have ej : (l : ℤ) + 1 = ((l + 1 : ℕ) : ℤ) := by push_cast; ring
    simp only [ei, ej, Nat.add_sub_cancel] at s1
    obtain ⟨m2, e2, f2, g2, v2⟩ := putBlock_block (m := m) (t := t)
      (F := fun a b c d => g true (mdir c) (memFam m ⟨i, j, (k' : ℤ), ((l + 1 : ℕ) : ℤ), t⟩
          a b (c.step (mdir c) (-1)) (d.step (mdir c) 1))
        (memFam m ⟨i, j, (k' : ℤ), l, t⟩ a b (c.step (mdir c) (-1)) d))
      (i := i) (j := j) (k := k' + 1) (l := l)
    simp only [generalClassOp, generateAMReq, ei, ej, memBlock_eq, Int.toNat_natCast, s1,
      Option.bind_some]
    rw [e2, Option.some.injEq]
    refine HMem.ext_block hv f2 f1 g2 g1 ?_
    rintro ⟨a, b⟩ ⟨c, d⟩ hbv hkv hba hka
    simp only [Dbl.am2, QAM.bra, QAM.ket, Prod.mk.injEq] at hba hka
    rw [v2 a b c d (comp_of hbv.1 hba.1) (comp_of hbv.2 hba.2) (comp_of hkv.1 hka.1)
      (comp_of hkv.2 hka.2)]
    obtain ⟨s, es, hs⟩ := v1 ⟨a, b⟩ ⟨c, d⟩ hbv hkv (by simp [Dbl.am2, QAM.bra, hba])
      (by simp [Dbl.am2, QAM.ket, hka])
    rw [hs]
    have hpos : 0 < (Dbl.stepped .K ⟨c, d⟩).am := by
      simp only [Dbl.stepped, RRType.isLeft, if_true]; rw [hka.1]; positivity
    have hmd := mdir_of_step hkv hpos es
    obtain ⟨s', e', ok, -, hl, -⟩ := doubletStep_spec hkv hpos
    rw [es, Option.some.injEq] at e'
    subst e'
    obtain ⟨q0, q1⟩ := hl rfl
    simp [Dbl.stepped, RRType.isLeft] at hmd
    have ea : c.am + -1 = k' := by rw [hka.1]; push_cast; ring
    have eb : d.am + 1 = ((l + 1 : ℕ) : ℤ) := by rw [hka.2]; push_cast; ring
    simp [HStmt.valueOp, ketStmt, ok.type, q0, q1, memFam, hmd, pos,
      Dbl.ncart, hka.2, ea, eb]
  · have hip : 0 < l := by simpa [steppedAM, RRType.isLeft, QAM.ket] using hp
    have s1 := hrrL_op (i := i) (j := j) hip (by omega : k ≤ 18) (by omega) (g false)
      (memFam m ⟨i, j, (k : ℤ) + 1, (l : ℤ) - 1, t⟩) (memFam m ⟨i, j, (k : ℤ), (l : ℤ) - 1, t⟩)
    obtain ⟨l', rfl⟩ : ∃ l', l = l' + 1 := ⟨l - 1, by omega⟩
    have ej : ((l' + 1 : ℕ) : ℤ) - 1 = l' := by push_cast; ring
    have ei : (k : ℤ) + 1 = ((k + 1 : ℕ) : ℤ) := by push_cast; ring
    simp only [ei, ej, Nat.add_sub_cancel] at s1
    obtain ⟨m2, e2, f2, g2, v2⟩ := putBlock_block (m := m) (t := t)
      (F := fun a b c d => g false (mdir d) (memFam m ⟨i, j, ((k + 1 : ℕ) : ℤ), (l' : ℤ), t⟩
          a b (c.step (mdir d) 1) (d.step (mdir d) (-1)))
        (memFam m ⟨i, j, (k : ℤ), l', t⟩ a b c (d.step (mdir d) (-1))))
      (i := i) (j := j) (k := k) (l := l' + 1)
    simp only [generalClassOp, generateAMReq, ei, ej, memBlock_eq, Int.toNat_natCast, s1,
      Option.bind_some]
    rw [e2, Option.some.injEq]
    refine HMem.ext_block hv f2 f1 g2 g1 ?_
    rintro ⟨a, b⟩ ⟨c, d⟩ hbv hkv hba hka
    simp only [Dbl.am2, QAM.bra, QAM.ket, Prod.mk.injEq] at hba hka
    rw [v2 a b c d (comp_of hbv.1 hba.1) (comp_of hbv.2 hba.2) (comp_of hkv.1 hka.1)
      (comp_of hkv.2 hka.2)]
    obtain ⟨s, es, hs⟩ := v1 ⟨a, b⟩ ⟨c, d⟩ hbv hkv (by simp [Dbl.am2, QAM.bra, hba])
      (by simp [Dbl.am2, QAM.ket, hka])
    rw [hs]
    have hpos : 0 < (Dbl.stepped .L ⟨c, d⟩).am := by
      simp only [Dbl.stepped, RRType.isLeft]; simp; rw [hka.2]; positivity
    have hmd := mdir_of_step hkv hpos es
    obtain ⟨s', e', ok, -, -, hl⟩ := doubletStep_spec hkv hpos
    rw [es, Option.some.injEq] at e'
    subst e'
    obtain ⟨q0, q1⟩ := hl rfl
    simp [Dbl.stepped, RRType.isLeft] at hmd
    have eb : d.am + -1 = l' := by rw [hka.2]; push_cast; ring
    have ea : c.am + 1 = ((k + 1 : ℕ) : ℤ) := by rw [hka.1]; push_cast; ring
    simp [HStmt.valueOp, ketStmt, ok.type, q0, q1, memFam, hmd, pos,
      Dbl.ncart, hka.1, ea, eb]

/-- Operations that agree on the statements of a list give the same result. -/
theorem execAllOp_congr {op op' : HStmt → R → R → R} : ∀ (L : List HStmt), (∀ s ∈ L, op s = op' s) →
    ∀ m : HMem R, execAllOp op L m = execAllOp op' L m
  | [], _, _ => rfl
  | s :: L, h, m => by
    rw [execAllOp, execAllOp, HStmt.execOp, HStmt.execOp, h s (by simp)]
    congr 1
    funext m'
    exact execAllOp_congr L (fun s hs => h s (by simp [hs])) m'

end Simint
