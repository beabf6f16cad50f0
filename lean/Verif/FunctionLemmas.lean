import Verif.Function
import Verif.Spec.Function
import Verif.HRRTopLemmas
import Verif.VRRVarLemmas
import Verif.Props.HRR
import Verif.Props.VRR
import Verif.Props.RealIntegrals
import Verif.Props.Driver

/-! Lemmas about complete generated functions. -/

set_option autoImplicit false

open Real Finset

namespace Simint

theorem valid_of_Valid {q : QAM} (h : q.Valid) : q.valid = true := by
  obtain ⟨h1, h2, h3, h4⟩ := h
  simp [QAM.valid, h1, h2, h3, h4]

/-- Total AM of a class. -/
def totalAM (q : QAM) : ℤ := q.a + q.b + q.c + q.d

/-- A set of classes for which the searches are analysed: `L` is the largest total AM. -/
structure ClassesOK (dir : RRType × RRType) (ams : List QAM) (L : ℕ) : Prop where
  hb : dir.1 = .I ∨ dir.1 = .J
  hk : dir.2 = .K ∨ dir.2 = .L
  valid : ∀ q ∈ ams, q.Valid
  h18 : ∀ q ∈ ams, q.a + q.b ≤ 18 ∧ q.c + q.d ≤ 18
  le : ∀ q ∈ ams, totalAM q ≤ L
  max : ∃ q ∈ ams, totalAM q = L

/-- What the two searches give for a set of classes. -/
structure AlgosOK (g : GenCfg) (dir : RRType × RRType) (ams : List QAM) (L : ℕ) (H : HRRAlgo)
    (A : VRRAlgo) : Prop where
  hok : AlgoOK ams H
  hcreate : hrrCreate psi4List g.enumD g.enumQ dir.1 dir.2 ams = some H
  tval : ∀ t ∈ H.top, t.Valid
  ttag : ∀ t ∈ H.top, ∃ q ∈ ams, q.tag = t.tag
  tside : (∀ t ∈ H.top, t.a = 0) ∨ (∀ t ∈ H.top, t.b = 0)
  tside' : (∀ t ∈ H.top, t.c = 0) ∨ (∀ t ∈ H.top, t.d = 0)
  vok : VAlgoOK (vrrDirections (classTargets psi4List (H.top.map QAM.notag)))
    (classTargets psi4List (H.top.map QAM.notag)) A
  mreq : A.mreq ssss = some (L : ℤ)
  vcreate : vrrCreate g.enumV (vrrDirections (classTargets psi4List (H.top.map QAM.notag)))
    (classTargets psi4List (H.top.map QAM.notag)) = some A
  vmode : ModesOK psi4List g.ve g.vg (classTargets psi4List (H.top.map QAM.notag))
  run : ∀ {P : VPar ℝ} {θ : VFam ℝ}, VRRFam P θ → ∀ m : VMem ℝ,
    (∀ n : ℕ, n ≤ L → m ssss n = θ n ⟨0, 0, 0⟩ ⟨0, 0, 0⟩ ⟨0, 0, 0⟩ ⟨0, 0, 0⟩) →
    ∃ m', vRunAllM psi4List g.enumV g.ve g.vg A P A.order m = some m' ∧
      ∀ q : Qrt, q.Valid → q.am4 ∈ H.top.map QAM.notag → m' q.am4 (q.index psi4List) =
        θ 0 q.bra.left q.bra.right q.ket.left q.ket.right

theorem algosFor_ok {g : GenCfg} (hg : g.OK) {dir : RRType × RRType} {ams : List QAM} {L : ℕ}
    (hc : ClassesOK dir ams L) : ∃ H A, g.algosFor dir ams = some (H, A) ∧ AlgosOK g dir ams L H A := by
  obtain ⟨H, eH, hok, tb, tk⟩ := hrrCreate_ok psi4_ordOK psi4_start hg.D hg.Q dir.1 dir.2 hc.valid
  have hcl := hrrCreate_closed hg.Q eH
    (Pr := fun q => (∃ p ∈ ams, p.tag = q.tag) ∧ q.a + q.b ≤ 18 ∧ q.c + q.d ≤ 18 ∧ totalAM q ≤ L)
    (fun q ⟨⟨p, hp, h1⟩, h2, h3, h4⟩ d hd => by
      have := deps_sums hok.bra hok.ket hd
      unfold totalAM at *
      exact ⟨⟨p, hp, h1.trans (deps_tag hd).symm⟩, by omega, by omega, by omega⟩)
    (fun q hq => ⟨⟨q, hq, rfl⟩, (hc.h18 q hq).1, (hc.h18 q hq).2, hc.le q hq⟩)
  have htop : ∀ t ∈ H.top, t.Valid ∧ steppedAM dir.1 t.bra = 0 ∧ steppedAM dir.2 t.ket = 0 := by
    intro q hq
    obtain ⟨h1, h2, -, h3, h4, -⟩ := hok.inv.tp q hq
    simp only [isTop, decide_eq_true_eq] at h1
    rw [← tb, ← tk]
    exact ⟨h2, h3.resolve_left h1.1, h4.resolve_left h1.2⟩
  have hvt : ∀ a ∈ H.top.map QAM.notag, a.valid = true ∧ a.tag = "" := by
    intro a ha
    obtain ⟨t, ht, rfl⟩ := List.mem_map.1 ha
    exact ⟨valid_of_Valid (q := t.notag) (htop t ht).1, rfl⟩
  have ts1 : (∀ t ∈ H.top, t.a = 0) ∨ (∀ t ∈ H.top, t.b = 0) := by
    rcases hc.hb with h | h
    · left
      intro t ht
      have := (htop t ht).2.1
      rw [h] at this
      simpa [steppedAM, RRType.isLeft, QAM.bra] using this
    · right
      intro t ht
      have := (htop t ht).2.1
      rw [h] at this
      simpa [steppedAM, RRType.isLeft, QAM.bra] using this
  have ts2 : (∀ t ∈ H.top, t.c = 0) ∨ (∀ t ∈ H.top, t.d = 0) := by
    rcases hc.hk with h | h
    · left
      intro t ht
      have := (htop t ht).2.2
      rw [h] at this
      simpa [steppedAM, RRType.isLeft, QAM.ket] using this
    · right
      intro t ht
      have := (htop t ht).2.2
      rw [h] at this
      simpa [steppedAM, RRType.isLeft, QAM.ket] using this
  have hmode : ModesOK psi4List g.ve g.vg (classTargets psi4List (H.top.map QAM.notag)) := by
    constructor
    · intro q hq
      rw [mem_classTargets psi4_ordOK psi4_start hvt] at hq
      obtain ⟨t, ht, e⟩ := List.mem_map.1 hq.2.2
      rw [← e]
      refine Or.inr (Or.inr ⟨?_, ?_⟩)
      · rcases ts1 with h | h
        · exact Or.inl (h t ht)
        · exact Or.inr (h t ht)
      · rcases ts2 with h | h
        · exact Or.inl (h t ht)
        · exact Or.inr (h t ht)
    · intro q hq
      rw [mem_classTargets psi4_ordOK psi4_start hvt] at hq
      obtain ⟨t, ht, e⟩ := List.mem_map.1 hq.2.2
      rw [← e]
      refine Or.inr (Or.inr ⟨rfl, ?_⟩)
      obtain ⟨-, k1, k2, -⟩ := hcl.1 _ ht
      obtain ⟨n1, n2, n3, n4⟩ := (htop _ ht).1
      intro u
      cases u <;> simp only [QAM.get, QAM.notag] <;> omega
  have hnd := vrrDirections_nodup (classTargets psi4List (H.top.map QAM.notag))
  have hts := vrrDirections_mem (classTargets psi4List (H.top.map QAM.notag))
  obtain ⟨A, eA, hA⟩ := vrrCreate_ok
    (ts := vrrDirections (classTargets psi4List (H.top.map QAM.notag))) hg.V hnd hts
    (classTargets_px psi4_ordOK psi4_start hvt) (classTargets_valid psi4_ordOK psi4_start hvt)
  have hM : A.mreq ssss = some (L : ℤ) := by
    obtain ⟨A', e', -, M, m1, m2, m3⟩ := C15_orders_sufficient psi4_ordOK psi4_start hg.V hnd hts hvt
    rw [eA, Option.some.injEq] at e'
    subst e'
    rw [m1, Option.some.injEq]
    obtain ⟨q, hq, eq⟩ := hc.max
    obtain ⟨t, ht, es⟩ := hok.top_same_sum _ q (hok.req q hq) le_rfl
    have h1 := m2 t.notag (List.mem_map_of_mem ht)
    unfold totalAM at eq
    simp only [QAM.notag] at h1
    rcases m3 with m3 | ⟨a, ha, m3⟩
    · omega
    · obtain ⟨t', ht', rfl⟩ := List.mem_map.1 ha
      have := (hcl.1 t' ht').2.2.2
      unfold totalAM at this
      simp only [QAM.notag] at m3
      omega
  refine ⟨H, A, by simp [GenCfg.algosFor, eH, eA],
    ⟨hok, eH, fun t ht => (htop t ht).1, fun t ht => (hcl.1 t ht).1, ts1, ts2, hA, hM, eA, hmode, ?_⟩⟩
  intro P θ hθ m hm
  obtain ⟨A', M, e', m1, hrun⟩ := C17_vertical_exact psi4_ordOK psi4_start hg.V hvt hmode hθ
  rw [eA, Option.some.injEq] at e'
  subst e'
  rw [hM, Option.some.injEq] at m1
  subst m1
  obtain ⟨m', r1, r2⟩ := hrun m (fun n hn => hm n (by exact_mod_cast hn))
  refine ⟨m', r1, fun q hq hqt => ?_⟩
  obtain ⟨Mq, -, h0, h⟩ := r2 q hq hqt
  have := h 0 (by exact_mod_cast h0)
  simpa [Qrt.cen] using this

theorem hrrDirections_ok (q : QAM) : ((hrrDirections q).1 = .I ∨ (hrrDirections q).1 = .J) ∧
    ((hrrDirections q).2 = .K ∨ (hrrDirections q).2 = .L) := by
  constructor <;> simp only [hrrDirections] <;> split <;> simp

theorem ClassOK.classes {final : QAM} (hf : ClassOK final) :
    ClassesOK (hrrDirections final) [final] (totalL final) := by
  obtain ⟨v1, v2, v3, v4⟩ := hf.valid
  have e : totalAM final = totalL final := by unfold totalAM totalL; omega
  exact ⟨(hrrDirections_ok final).1, (hrrDirections_ok final).2, by simpa using hf.valid,
    by simpa using ⟨hf.bra, hf.ket⟩, by simp [e], ⟨final, by simp, e⟩⟩

theorem algos_ok {g : GenCfg} (hg : g.OK) {final : QAM} (hf : ClassOK final) :
    ∃ H A, g.algos final = some (H, A) ∧
      AlgosOK g (hrrDirections final) [final] (totalL final) H A :=
  algosFor_ok hg hf.classes

theorem notag_eq {t : QAM} (h : t.tag = "") : t.notag = t := by
  obtain ⟨a, b, c, d, tag⟩ := t
  simp only at h
  simp [QAM.notag, h]

theorem AlgosOK.tag1 {g : GenCfg} {dir : RRType × RRType} {final : QAM} {L : ℕ} {H : HRRAlgo}
    {A : VRRAlgo} (hA : AlgosOK g dir [final] L H A) (hf : ClassOK final) :
    ∀ t ∈ H.top, t.tag = "" := by
  intro t ht
  obtain ⟨q, hq, e⟩ := hA.ttag t ht
  rw [List.mem_singleton] at hq
  rw [← e, hq, hf.tag]

/-! ## One lane -/

/-- The pair of Gaussian products that elements `i`, `j` of two lists describe. -/
noncomputable def pairIJ (P Q : MSP ℝ) (i j : ℕ) (hp : 0 < P.alpha i) (hq : 0 < Q.alpha j) : Pairs where
  p := P.alpha i
  q := Q.alpha j
  P := fun d => P.pos d i
  Q := fun d => Q.pos d j
  A := fun d => P.pos d i - P.PA d i
  B := fun d => P.pos d i - P.PB d i
  C := fun d => Q.pos d j - Q.PA d j
  D := fun d => Q.pos d j - Q.PB d j
  hp := hp
  hq := hq

theorem has_excl {g : GenCfg} {dir : RRType × RRType} {ams : List QAM} {L : ℕ} {H : HRRAlgo}
    {A : VRRAlgo} (hA : AlgosOK g dir ams L H A) : ¬ (A.has .I = true ∧ A.has .J = true) ∧
      ¬ (A.has .K = true ∧ A.has .L = true) := by
  have hpos : ∀ t, A.has t = true → ∃ q ∈ H.top, 0 < q.get t := by
    intro t ht
    simp only [VRRAlgo.has, List.any_eq_true, decide_eq_true_eq] at ht
    obtain ⟨s', hs', rfl⟩ := ht
    obtain ⟨p, hp, h0⟩ := step_type_pos hA.vok hs'
    rw [mem_classTargets psi4_ordOK psi4_start (fun a ha => by
      obtain ⟨t, ht, rfl⟩ := List.mem_map.1 ha
      exact ⟨valid_of_Valid (q := t.notag) (hA.tval t ht), rfl⟩)] at hp
    obtain ⟨t', ht', e⟩ := List.mem_map.1 hp.2.2
    refine ⟨t', ht', ?_⟩
    rw [← e] at h0
    exact h0
  constructor
  · rintro ⟨h1, h2⟩
    obtain ⟨x, hx, hx0⟩ := hpos _ h1
    obtain ⟨y, hy, hy0⟩ := hpos _ h2
    simp only [QAM.get] at hx0 hy0
    rcases hA.tside with h | h
    · have := h x hx; omega
    · have := h y hy; omega
  · rintro ⟨h1, h2⟩
    obtain ⟨x, hx, hx0⟩ := hpos _ h1
    obtain ⟨y, hy, hy0⟩ := hpos _ h2
    simp only [QAM.get] at hx0 hy0
    rcases hA.tside' with h | h
    · have := h x hx; omega
    · have := h y hy; omega

/-- The variables of the vertical stage when all of them are declared. -/
def allVars {F : Type} [Field F] (P Q : MSP F) (i j : ℕ) : VPar F where
  PA := fun d => P.PA d i
  PB := fun d => P.PB d i
  QA := fun d => Q.PA d j
  QB := fun d => Q.PB d j
  aop := -redAlpha (P.alpha i) (Q.alpha j) * (1 / P.alpha i)
  aopPQ := fun d => -redAlpha (P.alpha i) (Q.alpha j) * (1 / P.alpha i) * (P.pos d i - Q.pos d j)
  aoq := -(redAlpha (P.alpha i) (Q.alpha j) * (1 / Q.alpha j))
  aoqPQ := fun d => redAlpha (P.alpha i) (Q.alpha j) * (1 / Q.alpha j) * (P.pos d i - Q.pos d j)
  o2p := 1 / 2 * (1 / P.alpha i)
  o2q := 1 / 2 * (1 / Q.alpha j)
  o2pq := 1 / 2 * (1 / (P.alpha i + Q.alpha j))

theorem loopVars_all {F : Type} [Field F] {g : GenCfg}
    {dir : RRType × RRType} {ams : List QAM} {L : ℕ} {H : HRRAlgo}
    {A : VRRAlgo} (hA : AlgosOK g dir ams L H A) (junk : VPar F) (P Q : MSP F) (i j : ℕ) : ∀ s ∈ A.steps,
    (loopVars A junk P Q i j).Agree (allVars P Q i j) s.type := by
  intro s hs
  have hhas : A.has s.type = true := by
    simp only [VRRAlgo.has, List.any_eq_true, decide_eq_true_eq]
    exact ⟨s, hs, rfl⟩
  obtain ⟨hIJ, hKL⟩ := has_excl hA
  cases ht : s.type <;> rw [ht] at hhas
  · constructor <;> simp [VPar.pa, VPar.apq, VPar.ao, VPar.o2, RRType.isBra, loopVars, hhas,
      allVars]
  · have hI : A.has .I = false := by
      by_contra h
      exact hIJ ⟨by simpa using h, hhas⟩
    constructor <;> simp [VPar.pa, VPar.apq, VPar.ao, VPar.o2, RRType.isBra, loopVars, hhas, hI,
      allVars]
  · constructor <;> simp [VPar.pa, VPar.apq, VPar.ao, VPar.o2, RRType.isBra, loopVars, hhas,
      allVars]
  · have hK : A.has .K = false := by
      by_contra h
      exact hKL ⟨by simpa using h, hhas⟩
    constructor <;> simp [VPar.pa, VPar.apq, VPar.ao, VPar.o2, RRType.isBra, loopVars, hhas, hK,
      allVars]

theorem VPar.Agree.trans' {F : Type} [Field F] {P P' P'' : VPar F} {t : RRType} (h : P.Agree P'' t)
    (h' : P'.Agree P'' t) : P.Agree P' t := by
  obtain ⟨a1, a2, a3, a4, a5⟩ := h
  obtain ⟨b1, b2, b3, b4, b5⟩ := h'
  constructor
  · exact a1.trans b1.symm
  · exact a2.trans b2.symm
  · exact a3.trans b3.symm
  · exact a4.trans b4.symm
  · exact a5.trans b5.symm

theorem loopVars_junk {F : Type} [Field F] {g : GenCfg}
    {dir : RRType × RRType} {ams : List QAM} {L : ℕ} {H : HRRAlgo}
    {A : VRRAlgo} (hA : AlgosOK g dir ams L H A) (junk junk' : VPar F) (P Q : MSP F) (i j : ℕ) : ∀ s ∈ A.steps,
    (loopVars A junk P Q i j).Agree (loopVars A junk' P Q i j) s.type := fun s hs =>
  (loopVars_all hA junk P Q i j s hs).trans' (loopVars_all hA junk' P Q i j s hs)

theorem loopVars_agree {g : GenCfg} {dir : RRType × RRType} {ams : List QAM} {L : ℕ} {H : HRRAlgo}
    {A : VRRAlgo} (hA : AlgosOK g dir ams L H A) (junk : VPar ℝ) (P Q : MSP ℝ) (i j : ℕ) (hp : 0 < P.alpha i)
    (hq : 0 < Q.alpha j) : ∀ s ∈ A.steps,
    (loopVars A junk P Q i j).Agree (pairIJ P Q i j hp hq).par s.type := by
  intro s hs
  have h := loopVars_all hA junk P Q i j s hs
  have e : allVars P Q i j = (pairIJ P Q i j hp hq).par := by
    simp [allVars, pairIJ, Pairs.par, redAlpha]
  rw [e] at h
  exact h

/-- Constant in front of the integral when the prefactors are `a` and `b`. -/
noncomputable def scaleK (P Q : MSP ℝ) (i j : ℕ) (pf : ℝ) : ℝ :=
  P.prefac i * pf * (P.alpha i * Q.alpha j) / π ^ 3

theorem primLane_ok {g : GenCfg} {dir : RRType × RRType} {ams : List QAM} {L : ℕ} {H : HRRAlgo}
    {A : VRRAlgo} (hA : AlgosOK g dir ams L H A) (junk : VPar ℝ) (P Q : MSP ℝ) (i j : ℕ) (hp : 0 < P.alpha i)
    (hq : 0 < Q.alpha j) (pf : ℝ) (scratch : VMem ℝ) :
    ∃ m, primLane g realOps A L junk P Q i j pf scratch = some m ∧
      ∀ q : Qrt, q.Valid → q.am4 ∈ H.top.map QAM.notag → m q.am4 (q.index psi4List) =
        (pairIJ P Q i j hp hq).eri (scaleK P Q i j pf) 0 q.bra.left q.bra.right q.ket.left
          q.ket.right := by
  unfold primLane
  simp only
  have hsz : L + 1 ≤ vSize A.mreq ssss := by
    simp only [vSize, hA.mreq]
    have : ncartQ ssss = 1 := by decide
    rw [this]
    omega
  rw [if_pos hsz, vRunAllM_congr _ _ _ _ _ (loopVars_agree hA junk P Q i j hp hq)]
  refine hA.run (C20_vertical (pairIJ P Q i j hp hq) (scaleK P Q i j pf)) _ ?_
  intro n hn
  rw [if_pos ⟨rfl, hn⟩, C20_start]
  have hp' := hp.ne'
  have hq' := hq.ne'
  have hx : distR2 P Q i j * redAlpha (P.alpha i) (Q.alpha j) =
      (pairIJ P Q i j hp hq).R2 * ((pairIJ P Q i j hp hq).p * (pairIJ P Q i j hp hq).q *
        (1 / ((pairIJ P Q i j hp hq).p + (pairIJ P Q i j hp hq).q))) := by
    simp only [distR2, redAlpha, Pairs.R2, pairIJ]; ring
  rw [hx]
  have hk : scaleK P Q i j pf * π ^ 3 / ((pairIJ P Q i j hp hq).p * (pairIJ P Q i j hp hq).q) =
      P.prefac i * pf := by
    simp only [scaleK, pairIJ]
    have := pi_pos.ne'
    field_simp
  rw [hk]
  simp only [realOps, pairIJ]
  ring

/-! ## Values by position in the arrays -/

theorem Qrt.index_surj {ord : ℕ → List Exp} (h : OrdOK ord) {t : QAM} (ht : t.Valid) (htag : t.tag = "")
    {k : ℕ} (hk : k < ncartQ t) :
    ∃ q : Qrt, q.Valid ∧ q.m = 0 ∧ q.am4 = t ∧ q.index ord = k := by
  obtain ⟨h1, h2, h3, h4⟩ := ht
  obtain ⟨a, ha⟩ := Int.eq_ofNat_of_zero_le h1
  obtain ⟨b, hb⟩ := Int.eq_ofNat_of_zero_le h2
  obtain ⟨c, hc⟩ := Int.eq_ofNat_of_zero_le h3
  obtain ⟨d, hd⟩ := Int.eq_ofNat_of_zero_le h4
  unfold ncartQ at hk
  obtain ⟨x, y, hx, hy, rfl⟩ := mix_surj hk
  rw [ha, hb] at hx
  rw [hc, hd] at hy
  obtain ⟨p, p1, p2, p3⟩ := Dbl.index_surj h a b hx
  obtain ⟨r, r1, r2, r3⟩ := Dbl.index_surj h c d hy
  refine ⟨⟨p, r, 0⟩, ⟨⟨p1.valid, p2.valid⟩, ⟨r1.valid, r2.valid⟩, le_rfl⟩, rfl, ?_, ?_⟩
  · obtain ⟨a', b', c', d', tag⟩ := t
    simp only at ha hb hc hd htag
    simp only [Qrt.am4, p1.am_eq, p2.am_eq, r1.am_eq, r2.am_eq, ha, hb, hc, hd, htag]
  · simp only [Qrt.index, Dbl.ncart, p3, r3, r1.am_eq, r2.am_eq, hc, hd]

open Classical in
/-- Value of a family at position `k` of the array of class `t`. -/
noncomputable def atPos (f : Fam ℝ) (t : QAM) (k : ℕ) : ℝ :=
  if h : ∃ q : Qrt, q.Valid ∧ q.am4 = t ∧ q.index psi4List = k then
    f h.choose.bra.left h.choose.bra.right h.choose.ket.left h.choose.ket.right
  else 0

theorem atPos_eq (f : Fam ℝ) {q : Qrt} (hq : q.Valid) :
    atPos f q.am4 (q.index psi4List) = f q.bra.left q.bra.right q.ket.left q.ket.right := by
  have h : ∃ q' : Qrt, q'.Valid ∧ q'.am4 = q.am4 ∧ q'.index psi4List = q.index psi4List := ⟨q, hq, rfl, rfl⟩
  unfold atPos
  rw [dif_pos h]
  obtain ⟨h1, h2, h3⟩ := h.choose_spec
  generalize h.choose = q' at h1 h2 h3
  simp only [Qrt.am4, TQAM.mk.injEq, and_true] at h2
  obtain ⟨e1, e2⟩ := Qrt.index_inj psi4_ordOK h1 hq h2.1 h2.2.1 h2.2.2.1 h2.2.2.2 h3
  rw [e1, e2]

open Classical in
/-- Value of a primitive quartet at position `k` of the array of class `t`. -/
noncomputable def genPrim (P Q : MSP ℝ) (i j : ℕ) (pf : ℝ) (t : QAM) (k : ℕ) : ℝ :=
  if h : 0 < P.alpha i ∧ 0 < Q.alpha j then
    atPos ((pairIJ P Q i j h.1 h.2).eri (scaleK P Q i j pf) 0) t k
  else 0

theorem genPrim_zero (P Q : MSP ℝ) (i j : ℕ) (t : QAM) (k : ℕ) : genPrim P Q i j 0 t k = 0 := by
  unfold genPrim
  split
  · unfold atPos
    split
    · simp [Pairs.eri, scaleK]
    · rfl
  · rfl

theorem vecStage_ok {g : GenCfg} {dir : RRType × RRType} {ams : List QAM} {L : ℕ} {H : HRRAlgo}
    {A : VRRAlgo} (hA : AlgosOK g dir ams L H A) (c : Call ℝ) (hp : ∀ i < c.P.alloc, 0 < c.P.alpha i)
    (hq : ∀ j < c.Q.alloc, 0 < c.Q.alpha j) (i j : ℕ) (pf : ℕ → ℝ) (hi : i < c.P.alloc)
    (hj : j + c.len ≤ c.Q.alloc) : ∃ src, vecStage g realOps A L c i j pf = some src ∧
      ∀ n < c.len, ∀ t ∈ H.top, ∀ k < ncartQ t,
        src n t.notag k = genPrim c.P c.Q i (j + n) (pf n) t.notag k := by
  have hl : ∀ n < c.len, ∃ m, primLane g realOps A L c.junk c.P c.Q i (j + n) (pf n)
      (c.scratch i j n) = some m ∧ ∀ q : Qrt, q.Valid → q.am4 ∈ H.top.map QAM.notag →
        m q.am4 (q.index psi4List) =
        genPrim c.P c.Q i (j + n) (pf n) q.am4 (q.index psi4List) := by
    intro n hn
    have h1 := hp i hi
    have h2 := hq (j + n) (by omega)
    obtain ⟨m, e, h⟩ := primLane_ok hA c.junk c.P c.Q i (j + n) h1 h2 (pf n) (c.scratch i j n)
    refine ⟨m, e, fun q hq hqt => ?_⟩
    rw [h q hq hqt, genPrim, dif_pos ⟨h1, h2⟩, atPos_eq _ hq]
  refine ⟨_, by
    unfold vecStage
    simp only
    rw [if_pos]
    intro n hn
    obtain ⟨m, e, -⟩ := hl n hn
    rw [e]; rfl, ?_⟩
  intro n hn t ht k hk
  obtain ⟨m, e, h⟩ := hl n hn
  obtain ⟨q, q1, -, q2, q3⟩ := Qrt.index_surj psi4_ordOK (t := t.notag) (hA.tval t ht) rfl hk
  rw [e, Option.getD_some, ← q2, ← q3]
  exact h q q1 (by rw [q2]; exact List.mem_map_of_mem ht)

theorem genEnv_laneWise {g : GenCfg} {final : QAM} (hf : ClassOK final) {H : HRRAlgo} {A : VRRAlgo}
    (hA : AlgosOK g (hrrDirections final) [final] (totalL final) H A) (c : Call ℝ)
    (hp : ∀ i < c.P.alloc, 0 < c.P.alpha i) (hq : ∀ j < c.Q.alloc, 0 < c.Q.alpha j) :
    LaneWise (genEnv g realOps final c H A) (genPrim c.P c.Q) := by
  refine ⟨?_, genPrim_zero _ _⟩
  intro i j pf hi _ hj
  obtain ⟨src, e, h⟩ := vecStage_ok hA c hp hq i j pf hi hj
  refine ⟨src, e, fun n hn t ht k hk => ?_⟩
  have ht' : t ∈ H.top := by simpa [genEnv] using ht
  have := h n hn t ht' k hk
  rwa [notag_eq (hA.tag1 hf t ht')] at this

/-! ## The horizontal stage on contracted integrals -/

theorem coulomb_hrr {α β γ δ : ℝ} (hα : 0 < α) (hβ : 0 < β) (hγ : 0 < γ) (hδ : 0 < δ)
    (A B C D : Dir → ℝ) :
    HRRFam (fun i => A i - B i) (fun i => C i - D i) (coulomb α β γ δ A B C D) := by
  have h := (pairsOf hα hβ hγ hδ A B C D).eri_hrr (2 / √π * exp (-(α * β / (α + β)) * dist2 A B) *
      exp (-(γ * δ / (γ + δ)) * dist2 C D)) 0
  have e : (pairsOf hα hβ hγ hδ A B C D).eri (2 / √π * exp (-(α * β / (α + β)) * dist2 A B) *
      exp (-(γ * δ / (γ + δ)) * dist2 C D)) 0 = coulomb α β γ δ A B C D := by
    funext a b c d
    exact C20_coulomb hα hβ hγ hδ A B C D a b c d
  rw [e] at h
  exact h

theorem HRRFam.sum {R ι : Type} [CommRing R] {AB CD : Dir → R} (s : Finset ι) {f : ι → Fam R}
    (h : ∀ x ∈ s, HRRFam AB CD (f x)) : HRRFam AB CD (fun a b c d => ∑ x ∈ s, f x a b c d) := by
  constructor
  · intro a b c d i ha hb hc hd
    rw [Finset.mul_sum, ← Finset.sum_add_distrib]
    exact Finset.sum_congr rfl fun x hx => (h x hx).bra a b c d i ha hb hc hd
  · intro a b c d i ha hb hc hd
    rw [Finset.mul_sum, ← Finset.sum_add_distrib]
    exact Finset.sum_congr rfl fun x hx => (h x hx).ket a b c d i ha hb hc hd

theorem HRRFam.smul {R : Type} [CommRing R] {AB CD : Dir → R} (k : R) {f : Fam R}
    (h : HRRFam AB CD f) : HRRFam AB CD (fun a b c d => k * f a b c d) := by
  constructor
  · intro a b c d i ha hb hc hd
    rw [h.bra a b c d i ha hb hc hd]; ring
  · intro a b c d i ha hb hc hd
    rw [h.ket a b c d i ha hb hc hd]; ring

theorem HRRFam.ite {R : Type} [CommRing R] {AB CD : Dir → R} (p : Prop) [Decidable p] {f : Fam R}
    (h : HRRFam AB CD f) : HRRFam AB CD (fun a b c d => if p then f a b c d else 0) := by
  by_cases hp : p
  · simpa [hp] using h
  · constructor <;> intros <;> simp [hp]

theorem screenedERI_hrr (c : Call ℝ) (i0 j0 : ℕ) (S T : ShellPair) :
    HRRFam (fun i => S.A i - S.B i) (fun i => T.A i - T.B i) (screenedERI c i0 j0 S T) := by
  unfold screenedERI
  refine HRRFam.sum _ fun k _ => HRRFam.sum _ fun l _ => HRRFam.ite _ (HRRFam.smul _ ?_)
  exact coulomb_hrr (S.prims[k]).hα (S.prims[k]).hβ (T.prims[l]).hα (T.prims[l]).hβ _ _ _ _

/-- The value of a primitive quartet is the product of the coefficients and the integral of the
four primitive Gaussians. -/
theorem genPrim_coulomb {P Q : MSP ℝ} {i j : ℕ} {A B C D : Dir → ℝ} {x y : PrimPair}
    (hx : HoldsPrim P i A B x) (hy : HoldsPrim Q j C D y) {q : Qrt} (hq : q.Valid) :
    genPrim P Q i j (Q.prefac j) q.am4 (q.index psi4List) = x.coef * y.coef *
      coulomb x.α x.β y.α y.β A B C D q.bra.left q.bra.right q.ket.left q.ket.right := by
  have h1 : 0 < P.alpha i := by rw [hx.alpha]; exact add_pos x.hα x.hβ
  have h2 : 0 < Q.alpha j := by rw [hy.alpha]; exact add_pos y.hα y.hβ
  rw [genPrim, dif_pos ⟨h1, h2⟩, atPos_eq _ hq]
  have e : pairIJ P Q i j h1 h2 = pairsOf x.hα x.hβ y.hα y.hβ A B C D := by
    unfold pairIJ pairsOf
    simp only [Pairs.mk.injEq]
    refine ⟨hx.alpha, hy.alpha, funext hx.pos, funext hy.pos, ?_, ?_, ?_, ?_⟩ <;> funext d
    · rw [hx.PA]; ring
    · rw [hx.PB]; ring
    · rw [hy.PA]; ring
    · rw [hy.PB]; ring
  have hpi := pi_pos
  have hrt : π ^ ((5 : ℝ) / 4) * π ^ ((5 : ℝ) / 4) = π ^ 3 / √π := by
    rw [← Real.rpow_add hpi, Real.sqrt_eq_rpow, ← Real.rpow_natCast, ← Real.rpow_sub hpi]
    norm_num
  have k : scaleK P Q i j (Q.prefac j) = x.coef * y.coef *
      (2 / √π * exp (-(x.α * x.β / (x.α + x.β)) * dist2 A B) *
      exp (-(y.α * y.β / (y.α + y.β)) * dist2 C D)) := by
    unfold scaleK
    rw [hx.prefac, hy.prefac, hx.alpha, hy.alpha]
    have n1 : x.α + x.β ≠ 0 := (add_pos x.hα x.hβ).ne'
    have n2 : y.α + y.β ≠ 0 := (add_pos y.hα y.hβ).ne'
    have n3 : π ^ 3 ≠ 0 := pow_ne_zero _ hpi.ne'
    have s2 : √(2 : ℝ) * √2 = 2 := Real.mul_self_sqrt (by norm_num)
    generalize exp (-(x.α * x.β / (x.α + x.β)) * dist2 A B) = E1
    generalize exp (-(y.α * y.β / (y.α + y.β)) * dist2 C D) = E2
    generalize x.α + x.β = p at *
    generalize y.α + y.β = r at *
    have step : x.coef * E1 * (√2 * π ^ ((5 : ℝ) / 4)) / p * (y.coef * E2 * (√2 * π ^ ((5 : ℝ) / 4)) / r)
        * (p * r) / π ^ 3 = x.coef * y.coef * E1 * E2 * (√2 * √2) *
          (π ^ ((5 : ℝ) / 4) * π ^ ((5 : ℝ) / 4)) / π ^ 3 := by
      field_simp
    rw [step, s2, hrt]
    field_simp
  rw [e, k, ← C20_coulomb x.hα x.hβ y.hα y.hβ]
  simp only [Pairs.eri]
  ring

/-- Contracted values handed to the horizontal stage. -/
theorem contractedPair_eq {g : GenCfg} {final : QAM} {H : HRRAlgo} {A : VRRAlgo} {c : Call ℝ}
    {S T : ℕ → ShellPair} (hS : Holds c.P (tightStart c.P.nprim12) S)
    (hT : Holds c.Q (paddedStart c.len c.Q.nprim12) T) {ab cd : ℕ} (hab : ab < c.P.nclip)
    (hcd : cd < c.Q.nclip) {q : Qrt} (hq : q.Valid) :
    contractedPair (genEnv g realOps final c H A) (genPrim c.P c.Q) ab cd q.am4 (q.index psi4List) =
      screenedERI c (tightStart c.P.nprim12 ab) (paddedStart c.len c.Q.nprim12 cd) (S ab) (T cd)
        q.bra.left q.bra.right q.ket.left q.ket.right := by
  unfold contractedPair contracted screenedERI
  show ∑ a ∈ range (c.P.nprim12 ab), ∑ b ∈ range (c.Q.nprim12 cd), _ = _
  rw [hS.count ab hab, hT.count cd hcd, Finset.sum_range]
  refine Finset.sum_congr rfl fun k _ => ?_
  rw [Finset.sum_range]
  refine Finset.sum_congr rfl fun l _ => ?_
  have e := genPrim_coulomb (hS.prims ab hab k k.2) (hT.prims cd hcd l l.2) hq
  show (if c.Kept (tightStart c.P.nprim12 ab + k) (paddedStart c.len c.Q.nprim12 cd + l) then
    genPrim c.P c.Q (tightStart c.P.nprim12 ab + k) (paddedStart c.len c.Q.nprim12 cd + l)
      (c.Q.prefac (paddedStart c.len c.Q.nprim12 cd + l)) q.am4 (q.index psi4List) else 0) = _
  rw [e]
  rfl

theorem ncartQ_pos {t : QAM} (h : t.Valid) : 0 < ncartQ t := by
  obtain ⟨h1, h2, h3, h4⟩ := h
  exact Nat.mul_pos (Nat.mul_pos (ncart_pos h1) (ncart_pos h2))
    (Nat.mul_pos (ncart_pos h3) (ncart_pos h4))

theorem hrrOn_gen {g : GenCfg} (hg : g.OK) {final : QAM} (hf : ClassOK final) {H : HRRAlgo} {A : VRRAlgo}
    (hA : AlgosOK g (hrrDirections final) [final] (totalL final) H A) {c : Call ℝ} {S T : ℕ → ShellPair}
    (hS : Holds c.P (tightStart c.P.nprim12) S)
    (hT : Holds c.Q (paddedStart c.len c.Q.nprim12) T) :
    HrrOn (genEnv g realOps final c H A) (genHrr g final c H) final
      (contractedPair (genEnv g realOps final c H A) (genPrim c.P c.Q))
      (fun ab cd k => atPos (screenedERI c (tightStart c.P.nprim12 ab)
        (paddedStart c.len c.Q.nprim12 cd) (S ab) (T cd)) final k) := by
  intro ab hab cd hcd view hview
  obtain ⟨H', e', key⟩ := C11_mixed_exact (R := ℝ) hg.D hg.Q (bty := (hrrDirections final).1)
    (kty := (hrrDirections final).2)
    (by simp only [hrrDirections]; split <;> simp) (by simp only [hrrDirections]; split <;> simp)
    g.he g.hg (ams := [final]) (by simpa using hf.valid) (by simpa using ⟨hf.bra, hf.ket⟩)
  rw [hA.hcreate, Option.some.injEq] at e'
  subst e'
  obtain ⟨m', r, hm⟩ := key (fun d => c.P.AB d ab) (fun d => c.Q.AB d cd)
    (fun _ => screenedERI c (tightStart c.P.nprim12 ab)
        (paddedStart c.len c.Q.nprim12 cd) (S ab) (T cd))
    (fun _ => by
      have e1 : (fun d => c.P.AB d ab) = fun d => (S ab).A d - (S ab).B d :=
        funext fun d => hS.AB ab hab d
      have e2 : (fun d => c.Q.AB d cd) = fun d => (T cd).A d - (T cd).B d :=
        funext fun d => hT.AB cd hcd d
      rw [e1, e2]
      exact screenedERI_hrr _ _ _ _ _)
    view (by
      intro q hq a b c' d ha hb hc hd ea eb ec ed
      set Z : Qrt := ⟨⟨a, b⟩, ⟨c', d⟩, 0⟩ with hZ
      have hv : Z.Valid := ⟨⟨ha, hb⟩, ⟨hc, hd⟩, le_rfl⟩
      have et : Z.am4 = q := by
        have := hA.tag1 hf q hq
        obtain ⟨a', b', c', d', tag⟩ := q
        simp only at this ea eb ec ed
        simp only [hZ, Qrt.am4, ea, eb, ec, ed, this]
      have hlt : Z.index psi4List < ncartQ q := by
        have := Qrt.index_lt psi4_ordOK hv
        rw [← et]
        exact this
      rw [hview q (by simpa [genEnv] using hq) _ hlt, ← et, contractedPair_eq hS hT hab hcd hv])
  refine ⟨m', r, ?_⟩
  intro k hk
  obtain ⟨q, q1, q0, q2, q3⟩ := Qrt.index_surj psi4_ordOK hf.valid hf.tag hk
  show m' final k = atPos _ final k
  rw [← q2, ← q3, atPos_eq _ q1]
  obtain ⟨⟨a, b⟩, ⟨c', d⟩, n⟩ := q
  simp only at q0
  subst q0
  obtain ⟨⟨v1, v2⟩, ⟨v3, v4⟩, -⟩ := q1
  rw [q2]
  exact hm final (by simp) a b c' d v1 v2 v3 v4 (by rw [← q2]; rfl) (by rw [← q2]; rfl)
    (by rw [← q2]; rfl) (by rw [← q2]; rfl)

end Simint
