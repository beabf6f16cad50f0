import Verif.HRRRoundLemmas
import Verif.FlBoysIeee
import Verif.Props.HRR

/-!
# C84: rounding errors of the horizontal stage

Statements: `Verif/Spec/HRRRound.lean` (majorants, binomial sums).
-/

set_option autoImplicit false

namespace Simint.HRRRound

open FlBoys (Arith Rounds u η ieee rn lastPlace)

/-- The error after the stage, from the error before it. -/
theorem bound_of {ord : ℕ → List Exp} (ho : OrdOK ord) {ams : List QAM} {A : HRRAlgo}
    (ok : AlgoOK ams A) (hb : A.bra.type = .I ∨ A.bra.type = .J)
    (hk : A.ket.type = .K ∨ A.ket.type = .L) {C : StepChoice} (cb : CoverOK A.bra C.bra)
    (ck : CoverOK A.ket C.ket) {F : Arith} (hF : Rounds F) (fb fk : HStmt → Bool)
    {AB CD hAB hCD : Dir → ℝ} (rAB : ∀ i, |hAB i - AB i| ≤ u * |AB i|)
    (rCD : ∀ i, |hCD i - CD i| ≤ u * |CD i|) {θ Θ : String → Fam ℝ} (hθ : ∀ t, HRRFam AB CD (θ t))
    (hΘ : ∀ t, Majorant A.bra.type.isLeft A.ket.type.isLeft AB CD (Θ t)) {k0 : ℕ}
    (hov : NoOverflow A.bra.type A.ket.type A Θ k0) {m : HMem ℝ}
    (hm : ∀ q ∈ A.top, ∀ b k : Dbl, b.Valid → k.Valid → b.am2 = q.bra → k.am2 = q.ket →
      Near A.bra.type A.ket.type θ Θ k0 q.tag b k (m q (pos ord b k))) :
    ∃ m', runHRROp ord A C (flOp F fb hAB) (flOp F fk hCD) A.order m = some m' ∧
      ∀ q ∈ ams, ∀ b k : Dbl, b.Valid → k.Valid → b.am2 = q.bra → k.am2 = q.ket →
        Near A.bra.type A.ket.type θ Θ k0 q.tag b k (m' q (pos ord b k)) := by
  obtain ⟨m', e', g, -⟩ := run_orderP (C := C) ho
    (near_bra (k0 := k0) (fuse := fb) hF rAB hθ hΘ hov)
    (near_ket (k0 := k0) (fuse := fk) hF rCD hθ hΘ hov) ok hb hk cb ck A.order [] m rfl (by
      intro q hq
      rcases hq with hq | hq
      · intro b k h1 h2 h3 h4 _
        exact hm q hq b k h1 h2 h3 h4
      · simp at hq)
  exact ⟨m', e', fun q hq b k h1 h2 h3 h4 =>
    g q (ok.req q hq) b k h1 h2 h3 h4 (needed_req ok hq h1 h2 h3 h4)⟩

/-- Any choice of step lists that covers what is needed. -/
theorem bound_choice {ord : ℕ → List Exp} (ho : OrdOK ord) (hst : OrdStart ord)
    {enumD : List Dbl → List Dbl} (hD : EnumOK enumD) {enumQ : List QAM → List QAM}
    (hQ : EnumOK enumQ) {bty kty : RRType} (hb : bty = .I ∨ bty = .J) (hk : kty = .K ∨ kty = .L)
    {ams : List QAM} (hv : ∀ q ∈ ams, q.Valid) :
    ∃ A, hrrCreate ord enumD enumQ bty kty ams = some A ∧ A.bra.type = bty ∧ A.ket.type = kty ∧ AlgoOK ams A ∧
      ∀ C : StepChoice, CoverOK A.bra C.bra → CoverOK A.ket C.ket →
      ∀ (F : Arith), Rounds F → ∀ (fb fk : HStmt → Bool) (AB CD hAB hCD : Dir → ℝ),
      (∀ i, |hAB i - AB i| ≤ u * |AB i|) → (∀ i, |hCD i - CD i| ≤ u * |CD i|) →
      ∀ θ Θ : String → Fam ℝ, (∀ t, HRRFam AB CD (θ t)) →
      (∀ t, Majorant bty.isLeft kty.isLeft AB CD (Θ t)) → ∀ k0 : ℕ,
      (∀ q ∈ A.order, ∀ a b c d : Exp, a.Valid → b.Valid → c.Valid → d.Valid →
        a.am = q.a → b.am = q.b → c.am = q.c → d.am = q.d →
        (1 + u) ^ (k0 + 3 * (steppedAM bty q.bra + steppedAM kty q.ket).toNat) * Θ q.tag a b c d ≤
          2 ^ 1023) →
      ∀ m : HMem ℝ,
        (∀ q ∈ A.top, ∀ a b c d : Exp, a.Valid → b.Valid → c.Valid → d.Valid →
          a.am = q.a → b.am = q.b → c.am = q.c → d.am = q.d →
          |θ q.tag a b c d| ≤ Θ q.tag a b c d ∧
          |m q (Qrt.index ord ⟨⟨a, b⟩, ⟨c, d⟩, 0⟩) - θ q.tag a b c d| ≤ γ k0 * Θ q.tag a b c d) →
        ∃ m', runHRROp ord A C (flOp F fb hAB) (flOp F fk hCD) A.order m = some m' ∧
          ∀ q ∈ ams, ∀ a b c d : Exp, a.Valid → b.Valid → c.Valid → d.Valid →
            a.am = q.a → b.am = q.b → c.am = q.c → d.am = q.d →
            |θ q.tag a b c d| ≤ Θ q.tag a b c d ∧
            |m' q (Qrt.index ord ⟨⟨a, b⟩, ⟨c, d⟩, 0⟩) - θ q.tag a b c d| ≤
              γ (k0 + 3 * (steppedAM bty q.bra + steppedAM kty q.ket).toNat) * Θ q.tag a b c d := by
  obtain ⟨A, e, ok, tb, tk⟩ := hrrCreate_ok ho hst hD hQ bty kty hv
  refine ⟨A, e, tb, tk, ok, ?_⟩
  intro C cb ck F hF fb fk AB CD hAB hCD rAB rCD θ Θ hθ hΘ k0 hov m hm
  have dep : ∀ (q : QAM) (b k : Dbl), b.am2 = q.bra → k.am2 = q.ket →
      depth A.bra.type A.ket.type b k = (steppedAM bty q.bra + steppedAM kty q.ket).toNat := by
    intro q b k h3 h4
    unfold depth
    rw [stepped_am, stepped_am, h3, h4, tb, tk]
  obtain ⟨m', e', g⟩ := bound_of (m := m) (C := C) ho ok (tb ▸ hb) (tk ▸ hk) cb ck hF fb fk rAB
    rCD hθ (Θ := Θ) (by rw [tb, tk]; exact hΘ) (k0 := k0) (by
      intro q hq b k h1 h2 h3 h4
      rw [dep q b k h3 h4]
      simp only [Dbl.am2, QAM.bra, QAM.ket, Prod.mk.injEq] at h3 h4
      exact hov q hq _ _ _ _ h1.1 h1.2 h2.1 h2.2 h3.1 h3.2 h4.1 h4.2) (by
      intro q hq b k h1 h2 h3 h4
      have ht := ok.inv.tp q hq
      obtain ⟨t1, -, -, t3, t4, -⟩ := ht
      simp only [isTop, decide_eq_true_eq] at t1
      have d0 : depth A.bra.type A.ket.type b k = 0 := by
        unfold depth
        rw [stepped_am, stepped_am, h3, h4, t3.resolve_left t1.1, t4.resolve_left t1.2]
        rfl
      unfold Near
      rw [d0]
      simp only [Dbl.am2, QAM.bra, QAM.ket, Prod.mk.injEq] at h3 h4
      have := hm q hq _ _ _ _ h1.1 h1.2 h2.1 h2.2 h3.1 h3.2 h4.1 h4.2
      exact ⟨this.1, this.2⟩)
  refine ⟨m', e', ?_⟩
  intro q hq a b c d ha hb' hc hd e1 e2 e3 e4
  have h3 : (⟨a, b⟩ : Dbl).am2 = q.bra := by simp [Dbl.am2, QAM.bra, e1, e2]
  have h4 : (⟨c, d⟩ : Dbl).am2 = q.ket := by simp [Dbl.am2, QAM.ket, e3, e4]
  have := g q hq ⟨a, b⟩ ⟨c, d⟩ ⟨ha, hb'⟩ ⟨hc, hd⟩ h3 h4
  unfold Near at this
  rw [dep q _ _ h3 h4] at this
  exact ⟨this.le, this.err⟩

/-- The horizontal stage on doubles, inline code, any Cartesian order, every contraction of the
compiler.  `θ` are the integrals, `AB` and `CD` the exact differences of the centers, `Θ` any majorant
of the recursion.  If the values handed over have errors of at most `((1+u)^k0 - 1) Θ`, then the
results are at most `Θ` and have errors of at most `((1+u)^(k0 + 3 n) - 1) Θ`, with `n` the angular momentum on the
stepped centers; nothing overflows if the bounds themselves do not. -/
theorem C84_bound {ord : ℕ → List Exp} (ho : OrdOK ord) (hst : OrdStart ord)
    {enumD : List Dbl → List Dbl} (hD : EnumOK enumD) {enumQ : List QAM → List QAM}
    (hQ : EnumOK enumQ) {bty kty : RRType} (hb : bty = .I ∨ bty = .J) (hk : kty = .K ∨ kty = .L)
    {ams : List QAM} (hv : ∀ q ∈ ams, q.Valid) :
    ∃ A, hrrCreate ord enumD enumQ bty kty ams = some A ∧
      ∀ (F : Arith), Rounds F → ∀ (fuse : HStmt → Bool) (AB CD hAB hCD : Dir → ℝ),
      (∀ i, |hAB i - AB i| ≤ u * |AB i|) → (∀ i, |hCD i - CD i| ≤ u * |CD i|) →
      ∀ θ Θ : String → Fam ℝ, (∀ t, HRRFam AB CD (θ t)) →
      (∀ t, Majorant bty.isLeft kty.isLeft AB CD (Θ t)) → ∀ k0 : ℕ,
      (∀ q ∈ A.order, ∀ a b c d : Exp, a.Valid → b.Valid → c.Valid → d.Valid →
        a.am = q.a → b.am = q.b → c.am = q.c → d.am = q.d →
        (1 + u) ^ (k0 + 3 * (steppedAM bty q.bra + steppedAM kty q.ket).toNat) * Θ q.tag a b c d ≤
          2 ^ 1023) →
      ∀ m : HMem ℝ,
        (∀ q ∈ A.top, ∀ a b c d : Exp, a.Valid → b.Valid → c.Valid → d.Valid →
          a.am = q.a → b.am = q.b → c.am = q.c → d.am = q.d →
          |θ q.tag a b c d| ≤ Θ q.tag a b c d ∧
          |m q (Qrt.index ord ⟨⟨a, b⟩, ⟨c, d⟩, 0⟩) - θ q.tag a b c d| ≤ γ k0 * Θ q.tag a b c d) →
        ∃ m', run F fuse ord A A.inline hAB hCD A.order m = some m' ∧
          ∀ q ∈ ams, ∀ a b c d : Exp, a.Valid → b.Valid → c.Valid → d.Valid →
            a.am = q.a → b.am = q.b → c.am = q.c → d.am = q.d →
            |θ q.tag a b c d| ≤ Θ q.tag a b c d ∧
            |m' q (Qrt.index ord ⟨⟨a, b⟩, ⟨c, d⟩, 0⟩) - θ q.tag a b c d| ≤
              γ (k0 + 3 * (steppedAM bty q.bra + steppedAM kty q.ket).toNat) * Θ q.tag a b c d := by
  obtain ⟨A, e, -, -, ok, h⟩ := bound_choice ho hst hD hQ hb hk hv
  exact ⟨A, e, fun F hF fuse => h A.inline ok.bra.cover ok.ket.cover F hF fuse fuse⟩

/-- The same for the step lists of the external routines from a total angular momentum of `se` on and
all steps of a class from `sg` on (the steps that the loops of ostei_general_hrr.c perform as well), Psi4 order. -/
theorem C84_external {enumD : List Dbl → List Dbl} (hD : EnumOK enumD) {enumQ : List QAM → List QAM}
    (hQ : EnumOK enumQ) {bty kty : RRType} (hb : bty = .I ∨ bty = .J) (hk : kty = .K ∨ kty = .L)
    {ams : List QAM} (hv : ∀ q ∈ ams, q.Valid) (se sg : ℤ) :
    ∃ A, hrrCreate psi4List enumD enumQ bty kty ams = some A ∧
      ∀ (F : Arith), Rounds F → ∀ (fuse : HStmt → Bool) (AB CD hAB hCD : Dir → ℝ),
      (∀ i, |hAB i - AB i| ≤ u * |AB i|) → (∀ i, |hCD i - CD i| ≤ u * |CD i|) →
      ∀ θ Θ : String → Fam ℝ, (∀ t, HRRFam AB CD (θ t)) →
      (∀ t, Majorant bty.isLeft kty.isLeft AB CD (Θ t)) → ∀ k0 : ℕ,
      (∀ q ∈ A.order, ∀ a b c d : Exp, a.Valid → b.Valid → c.Valid → d.Valid →
        a.am = q.a → b.am = q.b → c.am = q.c → d.am = q.d →
        (1 + u) ^ (k0 + 3 * (steppedAM bty q.bra + steppedAM kty q.ket).toNat) * Θ q.tag a b c d ≤
          2 ^ 1023) →
      ∀ m : HMem ℝ,
        (∀ q ∈ A.top, ∀ a b c d : Exp, a.Valid → b.Valid → c.Valid → d.Valid →
          a.am = q.a → b.am = q.b → c.am = q.c → d.am = q.d →
          |θ q.tag a b c d| ≤ Θ q.tag a b c d ∧
          |m q (Qrt.index psi4List ⟨⟨a, b⟩, ⟨c, d⟩, 0⟩) - θ q.tag a b c d| ≤ γ k0 * Θ q.tag a b c d) →
        ∃ m', run F fuse psi4List A ⟨modeSteps enumD se sg A.bra, modeSteps enumD se sg A.ket⟩ hAB hCD A.order m = some m' ∧
          ∀ q ∈ ams, ∀ a b c d : Exp, a.Valid → b.Valid → c.Valid → d.Valid →
            a.am = q.a → b.am = q.b → c.am = q.c → d.am = q.d →
            |θ q.tag a b c d| ≤ Θ q.tag a b c d ∧
            |m' q (Qrt.index psi4List ⟨⟨a, b⟩, ⟨c, d⟩, 0⟩) - θ q.tag a b c d| ≤
              γ (k0 + 3 * (steppedAM bty q.bra + steppedAM kty q.ket).toNat) * Θ q.tag a b c d := by
  obtain ⟨A, e, -, -, ok, h⟩ := bound_choice psi4_ordOK psi4_start hD hQ hb hk hv
  exact ⟨A, e, fun F hF fuse =>
    h _ (modeSteps_cover hD se sg ok.bra) (modeSteps_cover hD se sg ok.ket) F hF fuse fuse⟩

theorem modeOp_fl (se sg : ℤ) (am : QAM → ℤ) (F : Arith) (fuse : HStmt → Bool)
    (fuseG : Bool → Dir → Bool) (h : Dir → ℝ) :
    modeOp se sg am (flOp F fuse h) (flDirOp F fuseG h) =
      flOp F (fun s => if am s.tq < se ∨ am s.tq < sg then fuse s else fuseG s.minus s.xyz) h := by
  funext s v0 v1
  unfold modeOp
  by_cases c : am s.tq < se ∨ am s.tq < sg
  · simp only [c, if_true, flOp]
  · simp only [c, if_false, flOp, flDirOp]

/-- The same with thresholds: inline code below a total angular momentum of `se` on the side, the
external routines below `sg` and the loops of ostei_general_hrr.c from there on.  Psi4 order; the tables
of the loops go to a total of 18. -/
theorem C84_general {enumD : List Dbl → List Dbl} (hD : EnumOK enumD) {enumQ : List QAM → List QAM}
    (hQ : EnumOK enumQ) {bty kty : RRType} (hb : bty = .I ∨ bty = .J) (hk : kty = .K ∨ kty = .L)
    {ams : List QAM} (hv : ∀ q ∈ ams, q.Valid) (h18 : ∀ q ∈ ams, q.a + q.b ≤ 18 ∧ q.c + q.d ≤ 18)
    (se sg : ℤ) :
    ∃ A, hrrCreate psi4List enumD enumQ bty kty ams = some A ∧
      ∀ (F : Arith), Rounds F → ∀ (fuse : HStmt → Bool)
      (fuseB fuseK : Bool → Dir → Bool) (AB CD hAB hCD : Dir → ℝ),
      (∀ i, |hAB i - AB i| ≤ u * |AB i|) → (∀ i, |hCD i - CD i| ≤ u * |CD i|) →
      ∀ θ Θ : String → Fam ℝ, (∀ t, HRRFam AB CD (θ t)) →
      (∀ t, Majorant bty.isLeft kty.isLeft AB CD (Θ t)) → ∀ k0 : ℕ,
      (∀ q ∈ A.order, ∀ a b c d : Exp, a.Valid → b.Valid → c.Valid → d.Valid →
        a.am = q.a → b.am = q.b → c.am = q.c → d.am = q.d →
        (1 + u) ^ (k0 + 3 * (steppedAM bty q.bra + steppedAM kty q.ket).toNat) * Θ q.tag a b c d ≤
          2 ^ 1023) →
      ∀ m : HMem ℝ,
        (∀ q ∈ A.top, ∀ a b c d : Exp, a.Valid → b.Valid → c.Valid → d.Valid →
          a.am = q.a → b.am = q.b → c.am = q.c → d.am = q.d →
          |θ q.tag a b c d| ≤ Θ q.tag a b c d ∧
          |m q (Qrt.index psi4List ⟨⟨a, b⟩, ⟨c, d⟩, 0⟩) - θ q.tag a b c d| ≤ γ k0 * Θ q.tag a b c d) →
        ∃ m', runM F fuse fuseB fuseK psi4List enumD se sg A hAB hCD A.order m = some m' ∧
          ∀ q ∈ ams, ∀ a b c d : Exp, a.Valid → b.Valid → c.Valid → d.Valid →
            a.am = q.a → b.am = q.b → c.am = q.c → d.am = q.d →
            |θ q.tag a b c d| ≤ Θ q.tag a b c d ∧
            |m' q (Qrt.index psi4List ⟨⟨a, b⟩, ⟨c, d⟩, 0⟩) - θ q.tag a b c d| ≤
              γ (k0 + 3 * (steppedAM bty q.bra + steppedAM kty q.ket).toNat) * Θ q.tag a b c d := by
  obtain ⟨A, e, tb, tk, ok, h⟩ := bound_choice psi4_ordOK psi4_start hD hQ hb hk hv
  refine ⟨A, e, fun F hF fuse fuseB fuseK AB CD hAB hCD rAB rCD θ Θ hθ hΘ k0 hov m hm => ?_⟩
  unfold runM
  rw [runHRRM_op hD se sg ok (tb ▸ hb) (tk ▸ hk) h18 A.order (fun _ h => h), modeOp_fl, modeOp_fl]
  exact h _ (modeSteps_cover hD se sg ok.bra) (modeSteps_cover hD se sg ok.ket) F hF _ _ AB CD hAB hCD rAB
    rCD θ Θ hθ hΘ k0 hov m hm

theorem am_stepped (ty : RRType) {a b : Exp} {p : ℤ × ℤ} (h1 : a.am = p.1) (h2 : b.am = p.2) :
    (if ty.isLeft then a else b).am = steppedAM ty p := by
  unfold steppedAM
  split <;> simp_all

/-- The same with a majorant in closed form.  The values handed over are exact up to one rounding
(`k0 = 1`) or any number of roundings; an integral `(ab|cd)` then has an error of at most about
`(k0 + 3 n) 2^-52` times the sum of the absolute values of the terms it consists of
(`absSum`: binomial coefficients, powers of `|AB|` and `|CD|`, integrals `(e0|f0)`), apart from
`2^-1022 (3 + w)^n`. -/
theorem C84_closed {ord : ℕ → List Exp} (ho : OrdOK ord) (hst : OrdStart ord)
    {enumD : List Dbl → List Dbl} (hD : EnumOK enumD) {enumQ : List QAM → List QAM}
    (hQ : EnumOK enumQ) {bty kty : RRType} (hb : bty = .I ∨ bty = .J) (hk : kty = .K ∨ kty = .L)
    {ams : List QAM} (hv : ∀ q ∈ ams, q.Valid) :
    ∃ A, hrrCreate ord enumD enumQ bty kty ams = some A ∧
      ∀ (F : Arith), Rounds F → ∀ (fuse : HStmt → Bool) (AB CD hAB hCD : Dir → ℝ) (w : ℝ),
      (∀ i, |AB i| ≤ w) → (∀ i, |CD i| ≤ w) →
      (∀ i, |hAB i - AB i| ≤ u * |AB i|) → (∀ i, |hCD i - CD i| ≤ u * |CD i|) →
      ∀ θ : String → Fam ℝ, (∀ t, HRRFam AB CD (θ t)) → ∀ k0 : ℕ,
      (∀ q ∈ A.order, k0 + 3 * (steppedAM bty q.bra + steppedAM kty q.ket).toNat ≤ 2 ^ 52) →
      (∀ q ∈ ams, k0 + 3 * (steppedAM bty q.bra + steppedAM kty q.ket).toNat ≤ 2 ^ 52) →
      (∀ q ∈ A.order, ∀ a b c d : Exp, a.Valid → b.Valid → c.Valid → d.Valid →
        a.am = q.a → b.am = q.b → c.am = q.c → d.am = q.d →
        absSum bty.isLeft kty.isLeft AB CD (topAbs bty.isLeft kty.isLeft (θ q.tag)) a b c d +
          1 / 2 ^ 1022 * (3 + w) ^ (steppedAM bty q.bra + steppedAM kty q.ket).toNat ≤ 2 ^ 1022) →
      ∀ m : HMem ℝ,
        (∀ q ∈ A.top, ∀ a b c d : Exp, a.Valid → b.Valid → c.Valid → d.Valid →
          a.am = q.a → b.am = q.b → c.am = q.c → d.am = q.d →
          |m q (Qrt.index ord ⟨⟨a, b⟩, ⟨c, d⟩, 0⟩) - θ q.tag a b c d| ≤
            ((1 + u) ^ k0 - 1) * |θ q.tag a b c d|) →
        ∃ m', run F fuse ord A A.inline hAB hCD A.order m = some m' ∧
          ∀ q ∈ ams, ∀ a b c d : Exp, a.Valid → b.Valid → c.Valid → d.Valid →
            a.am = q.a → b.am = q.b → c.am = q.c → d.am = q.d →
            |m' q (Qrt.index ord ⟨⟨a, b⟩, ⟨c, d⟩, 0⟩) - θ q.tag a b c d| ≤
              (k0 + 3 * (steppedAM bty q.bra + steppedAM kty q.ket).toNat : ℕ) * (1 / 2 ^ 52) *
              (absSum bty.isLeft kty.isLeft AB CD (topAbs bty.isLeft kty.isLeft (θ q.tag)) a b c d +
                1 / 2 ^ 1022 * (3 + w) ^ (steppedAM bty q.bra + steppedAM kty q.ket).toNat) := by
  obtain ⟨A, e, main⟩ := C84_bound ho hst hD hQ hb hk hv
  obtain ⟨A', e', -, -, -, -, htop, -⟩ := C10_order_topological ho hst hD hQ bty kty hv
  rw [e, Option.some.injEq] at e'
  subst e'
  refine ⟨A, e, ?_⟩
  intro F hF fuse AB CD hAB hCD w wAB wCD rAB rCD θ hθ k0 hk1 hk2 hov m hm
  have hw : 0 ≤ w := (abs_nonneg _).trans (wAB .x)
  have am_bra : ∀ (q : QAM) (a b : Exp), a.am = q.a → b.am = q.b →
      (if bty.isLeft then a else b).am = steppedAM bty q.bra := fun q a b h1 h2 => am_stepped bty h1 h2
  have am_ket : ∀ (q : QAM) (c d : Exp), c.am = q.c → d.am = q.d →
      (if kty.isLeft then c else d).am = steppedAM kty q.ket := fun q c d h1 h2 => am_stepped kty h1 h2
  have cl : ∀ (q : QAM) (a b c d : Exp), a.am = q.a → b.am = q.b → c.am = q.c → d.am = q.d →
      closed bty.isLeft kty.isLeft AB CD w (θ q.tag) a b c d =
        absSum bty.isLeft kty.isLeft AB CD (topAbs bty.isLeft kty.isLeft (θ q.tag)) a b c d +
        1 / 2 ^ 1022 * (3 + w) ^ (steppedAM bty q.bra + steppedAM kty q.ket).toNat := by
    intro q a b c d h1 h2 h3 h4
    unfold closed κ
    rw [am_bra q a b h1 h2, am_ket q c d h3 h4]
  have clpos : ∀ t a b c d, 0 ≤ closed bty.isLeft kty.isLeft AB CD w (θ t) a b c d := by
    intro t a b c d
    have := κ_pos
    unfold closed absSum
    have := binSum3_nonneg AB (if bty.isLeft then a else b) (f := fun e =>
      binSum3 CD (if kty.isLeft then c else d) (topAbs bty.isLeft kty.isLeft (θ t) e)
        (if kty.isLeft then d else c))
      (fun e => binSum3_nonneg CD _ (fun f => abs_nonneg _) _) (if bty.isLeft then b else a)
    positivity
  obtain ⟨m', e1, g⟩ := main F hF fuse AB CD hAB hCD rAB rCD θ
    (fun t => closed bty.isLeft kty.isLeft AB CD w (θ t)) hθ
    (fun t => closed_majorant hw wAB wCD (θ t)) k0 (by
      intro q hq a b c d ha hb' hc hd h1 h2 h3 h4
      have hg := γ_le (hk1 q hq)
      have h1' : (1 + u) ^ (k0 + 3 * (steppedAM bty q.bra + steppedAM kty q.ket).toNat) ≤ 2 := by
        unfold γ at hg
        have : ((k0 + 3 * (steppedAM bty q.bra + steppedAM kty q.ket).toNat : ℕ) : ℝ) ≤ 2 ^ 52 := by
          exact_mod_cast hk1 q hq
        have : ((k0 + 3 * (steppedAM bty q.bra + steppedAM kty q.ket).toNat : ℕ) : ℝ) * (1 / 2 ^ 52) ≤
            2 ^ 52 * (1 / 2 ^ 52) := by gcongr
        norm_num at this hg ⊢
        linarith
      have h2' := hov q hq a b c d ha hb' hc hd h1 h2 h3 h4
      rw [← cl q a b c d h1 h2 h3 h4] at h2'
      have e2 : (2 : ℝ) ^ 1023 = 2 * 2 ^ 1022 := by rw [← pow_succ']
      rw [e2]
      exact mul_le_mul h1' h2' (clpos _ _ _ _ _) (by norm_num)) m (by
      intro q hq a b c d ha hb' hc hd h1 h2 h3 h4
      obtain ⟨-, t1, t2⟩ := htop q hq
      have z1 : (if bty.isLeft then a else b) = ⟨0, 0, 0⟩ := by
        apply exp_zero
        · split <;> assumption
        · rw [am_bra q a b h1 h2, t1]
      have z2 : (if kty.isLeft then c else d) = ⟨0, 0, 0⟩ := by
        apply exp_zero
        · split <;> assumption
        · rw [am_ket q c d h3 h4, t2]
      have ct := closed_top (AB := AB) (CD := CD) (θ := θ q.tag) hw z1 z2
      exact ⟨ct, (hm q hq a b c d ha hb' hc hd h1 h2 h3 h4).trans
        (mul_le_mul_of_nonneg_left ct (γ_nonneg k0))⟩)
  refine ⟨m', e1, ?_⟩
  intro q hq a b c d ha hb' hc hd h1 h2 h3 h4
  rw [← cl q a b c d h1 h2 h3 h4]
  exact (g q hq a b c d ha hb' hc hd h1 h2 h3 h4).2.trans
    (mul_le_mul_of_nonneg_right (γ_le (hk2 q hq)) (clpos _ _ _ _ _))

/-- The differences of centers that `hAB` and `hCD` are made of have a relative error of `u` whatever
their size: a difference of doubles is a multiple of the smallest double. -/
theorem C84_diff (fused : Bool) (A B : Dir → ℝ)
    (hA : ∀ i, ∃ n : ℤ, A i = n * 2 ^ (-1074 : ℤ)) (hB : ∀ i, ∃ n : ℤ, B i = n * 2 ^ (-1074 : ℤ)) (i : Dir) :
    |diff (ieee fused) A B i - (A i - B i)| ≤ u * |A i - B i| := by
  obtain ⟨n, hn⟩ := hA i
  obtain ⟨k, hk⟩ := hB i
  refine rn_rel (n := n - k) ?_
  rw [hn, hk]; push_cast; ring

/-- There is a memory that holds the values of a family. -/
theorem exists_mem {ord : ℕ → List Exp} (ho : OrdOK ord) (θ : Fam ℝ) : ∃ m : HMem ℝ,
    ∀ (q : QAM) (a b c d : Exp), a.Valid → b.Valid → c.Valid → d.Valid → (⟨a, b⟩ : Dbl).am2 = q.bra →
      (⟨c, d⟩ : Dbl).am2 = q.ket → m q (pos ord ⟨a, b⟩ ⟨c, d⟩) = θ a b c d := by
  classical
  refine ⟨fun q i => if h : ∃ p : Dbl × Dbl, p.1.Valid ∧ p.2.Valid ∧ p.1.am2 = q.bra ∧ p.2.am2 = q.ket ∧
      pos ord p.1 p.2 = i then θ h.choose.1.left h.choose.1.right h.choose.2.left h.choose.2.right
    else 0, ?_⟩
  intro q a b c d ha hb hc hd h1 h2
  have hex : ∃ p : Dbl × Dbl, p.1.Valid ∧ p.2.Valid ∧ p.1.am2 = q.bra ∧ p.2.am2 = q.ket ∧
      pos ord p.1 p.2 = pos ord ⟨a, b⟩ ⟨c, d⟩ := ⟨(⟨a, b⟩, ⟨c, d⟩), ⟨ha, hb⟩, ⟨hc, hd⟩, h1, h2, rfl⟩
  dsimp only
  rw [dif_pos hex]
  obtain ⟨g1, g2, g3, g4, g5⟩ := hex.choose_spec
  obtain ⟨e1, e2⟩ := pos_inj ho g1 g2 (⟨ha, hb⟩ : (⟨a, b⟩ : Dbl).Valid) (⟨hc, hd⟩ : (⟨c, d⟩ : Dbl).Valid)
    (g3.trans h1.symm) (g4.trans h2.symm) g5
  rw [e1, e2]

theorem rn_one_add_ulp : rn (1 + 1 / 2 ^ 52) = 1 + 1 / 2 ^ 52 := by
  have h : lastPlace (1 + 1 / 2 ^ 52) = -52 :=
    rn_place (e := 0) (by norm_num [abs_of_pos]) (by norm_num [abs_of_pos]) (by norm_num)
  unfold FlBoys.rn
  have e : (1 + 1 / 2 ^ 52 : ℝ) / 2 ^ (-52 : ℤ) = ((2 ^ 52 + 1 : ℤ) : ℝ) := by
    rw [zpow_neg]; norm_num
  rw [h, e, round_intCast, zpow_neg]
  norm_num

theorem rn_sq : rn ((1 + 1 / 2 ^ 52) * (1 + 1 / 2 ^ 52)) = 1 + 1 / 2 ^ 51 := by
  have h : lastPlace ((1 + 1 / 2 ^ 52) * (1 + 1 / 2 ^ 52)) = -52 :=
    rn_place (e := 0) (by norm_num [abs_of_pos]) (by norm_num [abs_of_pos]) (by norm_num)
  unfold FlBoys.rn
  have e : round ((1 + 1 / 2 ^ 52 : ℝ) * (1 + 1 / 2 ^ 52) / 2 ^ (-52 : ℤ)) = 2 ^ 52 + 2 := by
    rw [round_eq, Int.floor_eq_iff, zpow_neg]
    constructor <;> norm_num
  rw [h, e, zpow_neg]
  norm_num

/-- point charge distribution of the counterexample -/
noncomputable def pointΛ : ((Dir → ℝ) → (Dir → ℝ) → ℝ) →ₗ[ℝ] ℝ where
  toFun f := (1 + 1 / 2 ^ 52) *
    f (fun i => if i = .x then -(1 + 1 / 2 ^ 51) / (1 + 1 / 2 ^ 52) else 0) (fun _ => 0)
  map_add' f g := by simp only [Pi.add_apply]; ring
  map_smul' c f := by simp only [Pi.smul_apply, smul_eq_mul, RingHom.id_apply]; ring

/-- No bound relative to the integral itself holds: with `(1 0|` and `(0 0|` exact, the sum of
`(0 1|` is computed as zero though the integral is not zero (products rounded, doubles to nearest). -/
theorem C84_relative_false : ∃ (A B C D : Dir → ℝ) (alg : HRRAlgo) (m m' : HMem ℝ),
    hrrCreate psi4List id id .J .L [⟨0, 1, 0, 0, ""⟩] = some alg ∧
    (∀ q ∈ alg.top, ∀ a b c d : Exp, a.Valid → b.Valid → c.Valid → d.Valid →
      a.am = q.a → b.am = q.b → c.am = q.c → d.am = q.d →
      m q (Qrt.index psi4List ⟨⟨a, b⟩, ⟨c, d⟩, 0⟩) = functionalFam pointΛ A B C D a b c d) ∧
    run (ieee false) (fun _ => false) psi4List alg alg.inline (diff (ieee false) A B)
      (diff (ieee false) C D) alg.order m = some m' ∧
    functionalFam pointΛ A B C D ⟨0, 0, 0⟩ ⟨1, 0, 0⟩ ⟨0, 0, 0⟩ ⟨0, 0, 0⟩ ≠ 0 ∧
    m' ⟨0, 1, 0, 0, ""⟩ (Qrt.index psi4List ⟨⟨⟨0, 0, 0⟩, ⟨1, 0, 0⟩⟩, ⟨⟨0, 0, 0⟩, ⟨0, 0, 0⟩⟩, 0⟩) = 0 := by
  have hv : ∀ q ∈ [(⟨0, 1, 0, 0, ""⟩ : QAM)], QAM.Valid q := by
    intro q hq
    rw [List.mem_singleton] at hq
    subst hq
    exact ⟨by norm_num, by norm_num, by norm_num, by norm_num⟩
  obtain ⟨alg, e, ok, tb, tk⟩ := hrrCreate_ok psi4_ordOK psi4_start
    (fun l x => Iff.rfl : EnumOK (id : List Dbl → List Dbl))
    (fun l x => Iff.rfl : EnumOK (id : List QAM → List QAM)) .J .L hv
  set B : Dir → ℝ := fun i => if i = .x then -(1 + 1 / 2 ^ 52) else 0 with hBdef
  set θ := functionalFam pointΛ 0 B 0 0 with hθ
  obtain ⟨m, hm⟩ := exists_mem psi4_ordOK θ
  let P : String → Dbl → Dbl → ℝ → Prop := fun _ b k v => k = ⟨⟨0, 0, 0⟩, ⟨0, 0, 0⟩⟩ →
    (b.right.am = 0 → v = θ b.left b.right k.left k.right) ∧
    (b = ⟨⟨0, 0, 0⟩, ⟨1, 0, 0⟩⟩ → v = 0)
  have hB : BraClosed P alg (flOp (ieee false) (fun _ => false) (diff (ieee false) 0 B)) := by
    intro q hq s k hsv hp hk hb hka hs st ex em v0 v1 p0 p1 hk0
    rw [tb] at hp hs em
    refine ⟨fun h0 => ?_, fun h0 => ?_⟩
    · simp only [Dbl.stepped, RRType.isLeft] at hp
      simp at hp
      omega
    · rw [h0] at hs
      have hs' : s.src0 = ⟨⟨1, 0, 0⟩, ⟨0, 0, 0⟩⟩ ∧ s.src1 = ⟨⟨0, 0, 0⟩, ⟨0, 0, 0⟩⟩ ∧ s.xyz = .x := by
        have : doubletStep .J ⟨⟨0, 0, 0⟩, ⟨1, 0, 0⟩⟩ = some ⟨.J, ⟨⟨0, 0, 0⟩, ⟨1, 0, 0⟩⟩,
            ⟨⟨1, 0, 0⟩, ⟨0, 0, 0⟩⟩, ⟨⟨0, 0, 0⟩, ⟨0, 0, 0⟩⟩, .x⟩ := by decide
        rw [this, Option.some.injEq] at hs
        subst hs
        exact ⟨rfl, rfl, rfl⟩
      obtain ⟨e0, e1, e2⟩ := hs'
      have w0 := (p0 hk0).1 (by rw [e0]; rfl)
      have w1 := (p1 hk0).1 (by rw [e1]; rfl)
      rw [e0, hk0] at w0
      rw [e1, hk0] at w1
      have w0' : v0 = -(1 + 1 / 2 ^ 51) := by
        rw [w0, hθ]
        simp only [functionalFam, mono, pointΛ, LinearMap.coe_mk, AddHom.coe_mk]
        simp
        norm_num
      have w1' : v1 = 1 + 1 / 2 ^ 52 := by
        rw [w1, hθ]
        simp only [functionalFam, mono, pointΛ, LinearMap.coe_mk, AddHom.coe_mk]
        simp
      have hd : diff (ieee false) 0 B .x = 1 + 1 / 2 ^ 52 := by
        simp only [diff, ieee, hBdef, Pi.zero_apply, if_true, zero_sub, neg_neg]
        exact rn_one_add_ulp
      unfold flOp
      rw [em, ex, e2, hd, w0', w1']
      simp only [ieee, Bool.false_eq_true, if_false, RRType.isLeft]
      rw [rn_sq]
      norm_num [FlBoys.rn_zero]
  have hK : KetClosed P alg (flOp (ieee false) (fun _ => false) (diff (ieee false) 0 0)) := by
    intro q hq s b hsv hp hb hba hka hs st ex em v0 v1 p0 p1 hk0
    rw [hk0] at hp
    unfold Dbl.stepped at hp
    split at hp <;> simp [Exp.am] at hp
  obtain ⟨m', e', g, -⟩ := run_orderP (C := alg.inline) psi4_ordOK hB hK ok (Or.inr tb) (Or.inr tk)
    ok.bra.cover ok.ket.cover alg.order [] m rfl (by
      intro q hq
      rcases hq with hq | hq
      · intro b k h1 h2 h3 h4 _ hk0
        obtain ⟨t1, -, -, t3, t4, -⟩ := ok.inv.tp q hq
        simp only [isTop, decide_eq_true_eq] at t1
        have d0 := t3.resolve_left t1.1
        rw [← h3, tb] at d0
        refine ⟨fun _ => hm _ _ _ _ _ h1.1 h1.2 h2.1 h2.2 h3 h4, fun h => ?_⟩
        rw [h] at d0
        exact absurd d0 (by decide)
      · simp at hq)
  refine ⟨0, B, 0, 0, alg, m, m', e, ?_, e', ?_, ?_⟩
  · intro q hq a b c d ha hb hc hd h1 h2 h3 h4
    exact hm _ _ _ _ _ ha hb hc hd (by simp [Dbl.am2, QAM.bra, h1, h2]) (by simp [Dbl.am2, QAM.ket, h3, h4])
  · simp only [hθ, hBdef, functionalFam, mono, pointΛ, LinearMap.coe_mk, AddHom.coe_mk]
    simp
    norm_num
  · exact (g ⟨0, 1, 0, 0, ""⟩ (ok.req _ (by simp)) ⟨⟨0, 0, 0⟩, ⟨1, 0, 0⟩⟩ ⟨⟨0, 0, 0⟩, ⟨0, 0, 0⟩⟩ (by decide)
      (by decide) rfl rfl (needed_req ok (by simp) (by decide) (by decide) rfl rfl) rfl).2 rfl

/-- the majorant of `(0 1x|00)` is `|(1x 0|00)| + |AB_x| |(00|00)|` -/
example (AB CD : Dir → ℝ) (θ : Fam ℝ) :
    absSum false false AB CD (topAbs false false θ) ⟨0, 0, 0⟩ ⟨1, 0, 0⟩ ⟨0, 0, 0⟩ ⟨0, 0, 0⟩ =
      |θ ⟨1, 0, 0⟩ ⟨0, 0, 0⟩ ⟨0, 0, 0⟩ ⟨0, 0, 0⟩| + |AB .x| * |θ ⟨0, 0, 0⟩ ⟨0, 0, 0⟩ ⟨0, 0, 0⟩ ⟨0, 0, 0⟩| := by
  simp [absSum, binSum3, binSum, topAbs, Finset.sum_range_succ]
  ring

end Simint.HRRRound
