import Verif.Spec.Exact
import Verif.CreatePyLemmas
import Verif.HRRTopLemmas

/-! Which classes each stage forms. -/

set_option autoImplicit false

namespace Simint

variable {bra ket : Side} {ib ik : List (ℤ × ℤ)} {N : ℤ}

/-- The two pairs a pair is formed from. -/
def pairSrc (left : Bool) (p : ℤ × ℤ) : List (ℤ × ℤ) :=
  if left then [(p.1 - 1, p.2 + 1), (p.1 - 1, p.2)] else [(p.1 + 1, p.2 - 1), (p.1, p.2 - 1)]

theorem SideOK.step_src {init : List (ℤ × ℤ)} {S : Side} (h : SideOK init S) {s : HRRStep} (hs : s ∈ S.steps) :
    [s.src0.am2, s.src1.am2] = pairSrc S.type.isLeft s.target.am2 := by
  obtain ⟨h1, h2⟩ := h.ste s hs
  obtain ⟨h3, h4⟩ := h.sv _ h1
  rw [← stepped_am] at h4
  obtain ⟨s', h5, h6, -, hl, hr'⟩ := doubletStep_spec h3 h4
  rw [h2, Option.some.injEq] at h5
  subst h5
  cases hty : S.type.isLeft
  · obtain ⟨e0, e1⟩ := hr' hty
    rw [e0, e1]
    simp [pairSrc, Dbl.am2, Exp.am_step, sub_eq_add_neg]
  · obtain ⟨e0, e1⟩ := hl hty
    rw [e0, e1]
    simp [pairSrc, Dbl.am2, Exp.am_step, sub_eq_add_neg]

theorem SideOK.req_iff {init : List (ℤ × ℤ)} {S : Side} (h : SideOK init S) {p r : ℤ × ℤ}
    (hp : p ∈ S.allam) : r ∈ S.req p ↔ r ∈ pairSrc S.type.isLeft p := by
  simp only [Side.req, List.mem_dedup, List.mem_flatMap, Side.stepsFor, List.mem_filter, decide_eq_true_eq]
  constructor
  · rintro ⟨s, ⟨hs, rfl⟩, hr⟩
    rw [h.step_src hs] at hr
    exact hr
  · intro hr
    obtain ⟨d, hd, rfl⟩ := List.mem_map.1 hp
    obtain ⟨s, hs, rfl⟩ := h.hs d hd
    rw [← h.step_src hs] at hr
    exact ⟨s, ⟨hs, rfl⟩, hr⟩

theorem SideOK.req_sub {init : List (ℤ × ℤ)} {S : Side} (h : SideOK init S) {p r : ℤ × ℤ}
    (hr : r ∈ S.req p) : r ∈ pairSrc S.type.isLeft p := by
  simp only [Side.req, List.mem_dedup, List.mem_flatMap, Side.stepsFor, List.mem_filter, decide_eq_true_eq] at hr
  obtain ⟨s, ⟨hs, rfl⟩, hr⟩ := hr
  rw [h.step_src hs] at hr
  exact hr

/-- The class is in the set described in `Spec/Exact.lean`, for one of the requested classes. -/
def HSet (bl kl : Bool) (ams : List QAM) (t : QAM) : Prop :=
  ∃ q ∈ ams, t.tag = q.tag ∧
    ((t.a, t.b) = (q.a, q.b) ∧ PairBelow kl (q.c, q.d) (t.c, t.d) ∨
      PairBelow bl (q.a, q.b) (t.a, t.b) ∧ PairDone kl (q.c, q.d) (t.c, t.d))

theorem pairBelow_self {l : Bool} {p : ℤ × ℤ} (h1 : 0 ≤ p.1) (h2 : 0 ≤ p.2) : PairBelow l p p := by
  cases l <;> simp [PairBelow, h1, h2]

theorem pairBelow_src {l : Bool} {p r s : ℤ × ℤ} (h : PairBelow l p r) (hs : s ∈ pairSrc l r)
    (h1 : 0 ≤ s.1) (h2 : 0 ≤ s.2) : PairBelow l p s := by
  cases l <;> simp only [pairSrc, PairBelow, if_true, if_false, List.mem_cons, List.not_mem_nil, or_false,
    Bool.false_eq_true] at * <;> rcases hs with rfl | rfl <;> simp only at * <;> omega

theorem pairDone_iff {l : Bool} {p r : ℤ × ℤ} : PairDone l p r ↔ PairBelow l p r ∧ (if l then r.1 else r.2) = 0 := by
  cases l <;> simp only [PairDone, PairBelow, if_true, if_false, Bool.false_eq_true] <;> omega

theorem steppedAM_eq (ty : RRType) (p : ℤ × ℤ) : steppedAM ty p = if ty.isLeft then p.1 else p.2 := rfl

/-- Everything formed or asked for is in the set. -/
theorem PreOK.sub {g : GenCfg} {dir : RRType × RRType} {ams : List QAM} {H : HRRAlgo} {A : VRRAlgo}
    (h : PreOK g dir ams H A) (hg : g.OK) (hv : ∀ q ∈ ams, q.Valid) :
    (∀ q ∈ H.top, HSet dir.1.isLeft dir.2.isLeft ams q) ∧ ∀ q ∈ H.order, HSet dir.1.isLeft dir.2.isLeft ams q := by
  have key := hrrCreate_closed hg.Q h.hcreate (Pr := fun q =>
    Reach H.bra H.ket (ams.map QAM.bra) (hrrFuel ams) q ∧ HSet dir.1.isLeft dir.2.isLeft ams q) ?_ ?_
  · exact ⟨fun q hq => (key.1 q hq).2, fun q hq => (key.2 q hq).2⟩
  · rintro x ⟨hr, q, hq, ht, hx⟩ d hd
    have hd' := (deps_reach h.hok.bra h.hok.ket hr hd).1
    refine ⟨hd', q, hq, (deps_tag hd).trans ht, ?_⟩
    obtain ⟨n1, n2, n3, n4⟩ := hd'.1
    unfold deps at hd
    split at hd
    next hk =>
      obtain ⟨p, hp, rfl⟩ := List.mem_map.1 hd
      have hp' := h.hok.ket.req_sub hp
      rw [h.tk] at hp'
      have hpos := h.hok.ket.allam_pos hk
      rw [h.tk, steppedAM_eq] at hpos
      rcases hx with ⟨h1, h2⟩ | ⟨h1, h2⟩
      · exact .inl ⟨h1, pairBelow_src h2 hp' n3 n4⟩
      · rw [pairDone_iff] at h2
        exact absurd h2.2 (ne_of_gt hpos)
    next hk =>
      obtain ⟨p, hp, rfl⟩ := List.mem_map.1 hd
      have hp' := h.hok.bra.req_sub hp
      rw [h.tb] at hp'
      have hz := hr.2.2.2.1.resolve_left hk
      rw [h.tk, steppedAM_eq] at hz
      obtain ⟨v1, v2, v3, v4⟩ := hv q hq
      rcases hx with ⟨h1, h2⟩ | ⟨h1, h2⟩
      · refine .inr ⟨?_, pairDone_iff.2 ⟨h2, hz⟩⟩
        have hs : PairBelow dir.1.isLeft (q.a, q.b) (x.a, x.b) := by rw [h1]; exact pairBelow_self v1 v2
        exact pairBelow_src hs hp' n1 n2
      · exact .inr ⟨pairBelow_src h1 hp' n1 n2, h2⟩
  · intro q hq
    have hr : Reach H.bra H.ket (ams.map QAM.bra) (hrrFuel ams) q := by
      rcases h.hok.req q hq with h' | h'
      · exact (h.hok.inv.tp q h').2
      · exact (h.hok.inv.nt q h').2
    obtain ⟨v1, v2, v3, v4⟩ := hv q hq
    exact ⟨hr, q, hq, rfl, .inl ⟨rfl, pairBelow_self v3 v4⟩⟩

/-- A pair below another one is that one, or a source of a third one below it. -/
theorem pairBelow_parent {l : Bool} {p r : ℤ × ℤ} (h : PairBelow l p r) : r = p ∨
    ∃ r', PairBelow l p r' ∧ r ∈ pairSrc l r' ∧ (if l then r'.1 else r'.2) = (if l then r.1 else r.2) + 1 := by
  obtain ⟨r1, r2⟩ := r
  obtain ⟨p1, p2⟩ := p
  cases l
  · simp only [PairBelow, Bool.false_eq_true, if_false] at h
    by_cases e : p1 < r1
    · exact .inr ⟨(r1 - 1, r2 + 1), by simp only [PairBelow, Bool.false_eq_true, if_false]; omega,
        by simp [pairSrc], by simp⟩
    · by_cases e2 : r2 = p2
      · left; ext <;> simp only <;> omega
      · exact .inr ⟨(r1, r2 + 1), by simp only [PairBelow, Bool.false_eq_true, if_false]; omega,
          by simp [pairSrc], by simp⟩
  · simp only [PairBelow, if_true] at h
    by_cases e : p2 < r2
    · exact .inr ⟨(r1 + 1, r2 - 1), by simp only [PairBelow, if_true]; omega,
        by simp [pairSrc], by simp⟩
    · by_cases e2 : r1 = p1
      · left; ext <;> simp only <;> omega
      · exact .inr ⟨(r1 + 1, r2), by simp only [PairBelow, if_true]; omega,
          by simp [pairSrc], by simp⟩

theorem pairBelow_bound {l : Bool} {p r : ℤ × ℤ} (h : PairBelow l p r) :
    (if l then r.1 else r.2) ≤ if l then p.1 else p.2 := by
  cases l <;> simp only [PairBelow, Bool.false_eq_true, if_false, if_true] at * <;> omega

/-- A source of a class that is formed is formed or asked for. -/
theorem AlgoOK.dep_mem {ams : List QAM} {H : HRRAlgo} (h : AlgoOK ams H) {q d : QAM} (hq : q ∈ H.order)
    (hd : d ∈ deps H.bra H.ket q) : d ∈ H.top ∨ d ∈ H.order := by
  obtain ⟨l1, l2, e⟩ := List.append_of_mem hq
  rcases h.inv.topo l1 q l2 e d hd with g | g
  · exact .inl g
  · exact .inr (by rw [e]; simp [g])

theorem PreOK.reach {g : GenCfg} {dir : RRType × RRType} {ams : List QAM} {H : HRRAlgo} {A : VRRAlgo}
    (h : PreOK g dir ams H A) {q : QAM} (hq : q ∈ H.top ∨ q ∈ H.order) :
    Reach H.bra H.ket (ams.map QAM.bra) (hrrFuel ams) q := by
  rcases hq with h' | h'
  · exact (h.hok.inv.tp q h').2
  · exact (h.hok.inv.nt q h').2

/-- Classes of the set are formed or asked for: the ket is reduced first. -/
theorem PreOK.sup_ket {g : GenCfg} {dir : RRType × RRType} {ams : List QAM} {H : HRRAlgo} {A : VRRAlgo}
    (h : PreOK g dir ams H A) {q : QAM} (hq : q ∈ ams) : ∀ (n : ℕ) (r : ℤ × ℤ),
      PairBelow dir.2.isLeft (q.c, q.d) r →
      ((if dir.2.isLeft then q.c else q.d) - (if dir.2.isLeft then r.1 else r.2)).toNat ≤ n →
      (⟨q.a, q.b, r.1, r.2, q.tag⟩ : QAM) ∈ H.top ∨ (⟨q.a, q.b, r.1, r.2, q.tag⟩ : QAM) ∈ H.order
  | n, r, hr, hn => by
    rcases pairBelow_parent hr with rfl | ⟨r', h1, h2, h3⟩
    · exact h.hok.req q hq
    match n with
    | 0 =>
      have := pairBelow_bound h1
      simp only at this
      omega
    | n + 1 =>
      have hb := pairBelow_bound h1
      simp only at hb
      have hm := h.sup_ket hq n r' h1 (by omega)
      have hp : r' ∈ H.ket.allam := by
        refine (h.reach hm).2.2.2.1.resolve_right fun hz => ?_
        simp only [QAM.ket, h.tk, steppedAM_eq] at hz
        have : 0 ≤ (if dir.2.isLeft then r.1 else r.2) := by
          unfold PairBelow at hr
          split at hr <;> simp_all
        omega
      rcases hm with hm | hm
      · have := (h.hok.inv.tp _ hm).1
        simp only [isTop, decide_eq_true_eq] at this
        exact absurd hp this.2
      · refine h.hok.dep_mem hm ?_
        rw [deps, if_pos (show QAM.ket ⟨q.a, q.b, r'.1, r'.2, q.tag⟩ ∈ H.ket.allam from hp)]
        refine List.mem_map.2 ⟨r, (h.hok.ket.req_iff hp).2 ?_, rfl⟩
        rw [h.tk]; exact h2

/-- Then the bra. -/
theorem PreOK.sup_bra {g : GenCfg} {dir : RRType × RRType} {ams : List QAM} {H : HRRAlgo} {A : VRRAlgo}
    (h : PreOK g dir ams H A) {q : QAM} (hq : q ∈ ams) {s : ℤ × ℤ} (hs : PairDone dir.2.isLeft (q.c, q.d) s) :
    ∀ (n : ℕ) (r : ℤ × ℤ), PairBelow dir.1.isLeft (q.a, q.b) r →
      ((if dir.1.isLeft then q.a else q.b) - (if dir.1.isLeft then r.1 else r.2)).toNat ≤ n →
      (⟨r.1, r.2, s.1, s.2, q.tag⟩ : QAM) ∈ H.top ∨ (⟨r.1, r.2, s.1, s.2, q.tag⟩ : QAM) ∈ H.order
  | n, r, hr, hn => by
    rcases pairBelow_parent hr with rfl | ⟨r', h1, h2, h3⟩
    · exact h.sup_ket hq _ s (pairDone_iff.1 hs).1 le_rfl
    match n with
    | 0 =>
      have := pairBelow_bound h1
      simp only at this
      omega
    | n + 1 =>
      have hb := pairBelow_bound h1
      simp only at hb
      have hm := h.sup_bra hq hs n r' h1 (by omega)
      have hp : r' ∈ H.bra.allam := by
        refine (h.reach hm).2.2.1.resolve_right fun hz => ?_
        simp only [QAM.bra, h.tb, steppedAM_eq] at hz
        have : 0 ≤ (if dir.1.isLeft then r.1 else r.2) := by
          unfold PairBelow at hr
          split at hr <;> simp_all
        omega
      have hk : s ∉ H.ket.allam := by
        intro hc
        have := h.hok.ket.allam_pos hc
        rw [h.tk, steppedAM_eq, (pairDone_iff.1 hs).2] at this
        omega
      rcases hm with hm | hm
      · have := (h.hok.inv.tp _ hm).1
        simp only [isTop, decide_eq_true_eq] at this
        exact absurd hp this.1
      · refine h.hok.dep_mem hm ?_
        rw [deps, if_neg (show QAM.ket ⟨r'.1, r'.2, s.1, s.2, q.tag⟩ ∉ H.ket.allam from hk)]
        refine List.mem_map.2 ⟨r, (h.hok.bra.req_iff hp).2 ?_, rfl⟩
        rw [h.tb]; exact h2

/-- The classes formed or asked for are exactly those of the set. -/
theorem PreOK.mem_iff {g : GenCfg} {dir : RRType × RRType} {ams : List QAM} {H : HRRAlgo} {A : VRRAlgo}
    (h : PreOK g dir ams H A) (hg : g.OK) (hv : ∀ q ∈ ams, q.Valid) {t : QAM} :
    (t ∈ H.top ∨ t ∈ H.order) ↔ HSet dir.1.isLeft dir.2.isLeft ams t := by
  constructor
  · rintro (ht | ht)
    · exact (h.sub hg hv).1 t ht
    · exact (h.sub hg hv).2 t ht
  · rintro ⟨q, hq, ht, ⟨h1, h2⟩ | ⟨h1, h2⟩⟩
    · have := h.sup_ket hq _ (t.c, t.d) h2 le_rfl
      obtain ⟨a, b, c, d, tag⟩ := t
      simp only [Prod.mk.injEq] at h1 ht this
      obtain ⟨rfl, rfl⟩ := h1
      rw [ht]; exact this
    · have := h.sup_bra hq h2 _ (t.a, t.b) h1 le_rfl
      obtain ⟨a, b, c, d, tag⟩ := t
      simp only at ht this
      rw [ht]; exact this

theorem PreOK.top_stepped {g : GenCfg} {dir : RRType × RRType} {ams : List QAM} {H : HRRAlgo} {A : VRRAlgo}
    (h : PreOK g dir ams H A) {t : QAM} (ht : t ∈ H.top ∨ t ∈ H.order) :
    t ∈ H.top ↔ (if dir.1.isLeft then t.a else t.b) = 0 ∧ (if dir.2.isLeft then t.c else t.d) = 0 := by
  have hr := h.reach ht
  constructor
  · intro h'
    have := (h.hok.inv.tp t h').1
    simp only [isTop, decide_eq_true_eq] at this
    have e1 := hr.2.2.1.resolve_left this.1
    have e2 := hr.2.2.2.1.resolve_left this.2
    rw [h.tb, steppedAM_eq] at e1
    rw [h.tk, steppedAM_eq] at e2
    exact ⟨e1, e2⟩
  · rintro ⟨e1, e2⟩
    refine ht.resolve_right fun h' => ?_
    have := (h.hok.inv.nt t h').1
    simp only [isTop, decide_eq_false_iff_not, not_and_or, not_not] at this
    rcases this with h' | h'
    · have := h.hok.bra.allam_pos h'
      rw [h.tb, steppedAM_eq] at this
      simp only [QAM.bra] at this
      omega
    · have := h.hok.ket.allam_pos h'
      rw [h.tk, steppedAM_eq] at this
      simp only [QAM.ket] at this
      omega

/-- Exactly which classes the vertical stage is asked for. -/
theorem PreOK.top_iff {g : GenCfg} {dir : RRType × RRType} {ams : List QAM} {H : HRRAlgo} {A : VRRAlgo}
    (h : PreOK g dir ams H A) (hg : g.OK) (hv : ∀ q ∈ ams, q.Valid) {t : QAM} :
    t ∈ H.top ↔ ∃ q ∈ ams, HTop dir.1.isLeft dir.2.isLeft q t := by
  constructor
  · intro ht
    obtain ⟨e1, e2⟩ := (h.top_stepped (.inl ht)).1 ht
    obtain ⟨q, hq, htag, hx⟩ := (h.mem_iff hg hv).1 (.inl ht)
    obtain ⟨v1, v2, v3, v4⟩ := hv q hq
    refine ⟨q, hq, htag, pairDone_iff.2 ⟨?_, e1⟩, pairDone_iff.2 ⟨?_, e2⟩⟩
    · rcases hx with ⟨h1, h2⟩ | ⟨h1, h2⟩
      · rw [h1]; exact pairBelow_self v1 v2
      · exact h1
    · rcases hx with ⟨h1, h2⟩ | ⟨h1, h2⟩
      · exact h2
      · exact (pairDone_iff.1 h2).1
  · rintro ⟨q, hq, htag, h1, h2⟩
    refine (h.top_stepped ?_).2 ⟨(pairDone_iff.1 h1).2, (pairDone_iff.1 h2).2⟩
    exact (h.mem_iff hg hv).2 ⟨q, hq, htag, .inr ⟨(pairDone_iff.1 h1).1, h2⟩⟩

/-- Exactly which classes the horizontal stage forms. -/
theorem PreOK.order_iff {g : GenCfg} {dir : RRType × RRType} {ams : List QAM} {H : HRRAlgo} {A : VRRAlgo}
    (h : PreOK g dir ams H A) (hg : g.OK) (hv : ∀ q ∈ ams, q.Valid) {t : QAM} :
    t ∈ H.order ↔ ∃ q ∈ ams, HFormed dir.1.isLeft dir.2.isLeft q t := by
  have pos : ∀ {t : QAM}, t ∈ H.top ∨ t ∈ H.order →
      0 ≤ (if dir.1.isLeft then t.a else t.b) ∧ 0 ≤ (if dir.2.isLeft then t.c else t.d) := by
    intro t ht
    obtain ⟨v1, v2, v3, v4⟩ := (h.reach ht).1
    constructor <;> split <;> assumption
  constructor
  · intro ht
    obtain ⟨q, hq, htag, hx⟩ := (h.mem_iff hg hv).1 (.inr ht)
    have p := pos (.inr ht)
    refine ⟨q, hq, htag, hx, ?_⟩
    by_contra hc
    have hc' : ¬ (0 < (if dir.1.isLeft then t.a else t.b) ∨ 0 < (if dir.2.isLeft then t.c else t.d)) := by
      intro h'; apply hc
      revert h'
      cases dir.1.isLeft <;> cases dir.2.isLeft <;> simp
    have := (h.top_stepped (.inr ht)).2 (by omega)
    have h1 := (h.hok.inv.tp t this).1
    have h2 := (h.hok.inv.nt t ht).1
    rw [h1] at h2
    cases h2
  · rintro ⟨q, hq, htag, hx, hp⟩
    have hm := (h.mem_iff hg hv).2 ⟨q, hq, htag, hx⟩
    refine hm.resolve_left fun ht => ?_
    obtain ⟨e1, e2⟩ := (h.top_stepped hm).1 ht
    revert hp e1 e2
    cases dir.1.isLeft <;> cases dir.2.isLeft <;> simp <;> omega

/-! ## The vertical stage -/

/-- A predicate that passes to the classes a class is formed from holds for all classes of the order. -/
theorem VAlgoOK.order_min {ts : List RRType} {init : List Qrt} {A : VRRAlgo} (h : VAlgoOK ts init A)
    {M : QAM → Prop} (base : ∀ q ∈ init, q.Valid → 0 < q.am → M q.am4)
    (step : ∀ a t, M a → phase ts a = some t → ∀ r ∈ vAMReq a t, r ≠ ssss → M r) : ∀ a ∈ A.order, M a := by
  intro a ha
  obtain ⟨h1, h2⟩ := h.omem a ha
  obtain ⟨q, hq, rfl⟩ := ((h.allam a).1 h1).resolve_left h2
  clear h1 h2 ha
  induction hq with
  | base q h1 h2 h3 => exact base q h1 h2 h3
  | step q t s i h1 h2 h3 h4 h5 ih =>
    obtain ⟨d, -, -, -, hs, -, -⟩ := createSingle_inv h3
    refine step _ t ih h2 _ ?_ ?_
    · rw [hs] at h4 ⊢
      exact vAMReq_mem h4
    · intro e
      have := congrArg QAM.sum e
      rw [Qrt.am4_sum] at this
      simp only [QAM.sum, ssss] at this
      omega

theorem VAlgoOK.order_step {ts : List RRType} {init : List Qrt} {A : VRRAlgo} (h : VAlgoOK ts init A)
    {a : QAM} (ha : a ∈ A.order) {t : RRType} (ht : phase ts a = some t) {r : QAM} (hr : r ∈ vAMReq a t)
    (h0 : r ≠ ssss) : r ∈ A.order := by
  obtain ⟨l1, l2, e⟩ := List.append_of_mem ha
  have := (h.otopo l1 a l2 e t ht r hr).resolve_left h0
  rw [e]; simp [this]

/-- The center of the bra that keeps its angular momentum; `left`: the left one is emptied. -/
def bt (bl : Bool) : RRType := if bl then .J else .I
def kt (kl : Bool) : RRType := if kl then .L else .K

/-- The class `(x|y)`. -/
def placeQ (bl kl : Bool) (x y : ℤ) : QAM :=
  ⟨if bl then 0 else x, if bl then x else 0, if kl then 0 else y, if kl then y else 0, ""⟩

theorem placeQ_inj {bl kl : Bool} {x y x' y' : ℤ} : placeQ bl kl x y = placeQ bl kl x' y' ↔ x = x' ∧ y = y' := by
  cases bl <;> cases kl <;> simp [placeQ]

theorem placeQ_zero {bl kl : Bool} : placeQ bl kl 0 0 = ssss := by
  cases bl <;> cases kl <;> rfl

theorem placeQ_ne {bl kl : Bool} {x y : ℤ} : placeQ bl kl x y ≠ ssss ↔ x ≠ 0 ∨ y ≠ 0 := by
  rw [← placeQ_zero (bl := bl) (kl := kl), Ne, placeQ_inj]
  omega

theorem placeQ_bt (bl kl : Bool) (x y : ℤ) : (placeQ bl kl x y).get (bt bl) = x := by
  cases bl <;> cases kl <;> simp [placeQ, bt, QAM.get]

theorem placeQ_kt (bl kl : Bool) (x y : ℤ) : (placeQ bl kl x y).get (kt kl) = y := by
  cases bl <;> cases kl <;> simp [placeQ, kt, QAM.get]

theorem placeQ_pos {bl kl : Bool} {x y : ℤ} {t : RRType} (h : 0 < (placeQ bl kl x y).get t) :
    t = bt bl ∨ t = kt kl := by
  cases bl <;> cases kl <;> cases t <;> simp [placeQ, bt, kt, QAM.get] at *

theorem placeQ_req_bt {bl kl : Bool} {x y : ℤ} {r : QAM} :
    r ∈ vAMReq (placeQ bl kl x y) (bt bl) ↔ (1 ≤ x ∧ 0 ≤ y ∧ r = placeQ bl kl (x - 1) y) ∨
      (2 ≤ x ∧ 0 ≤ y ∧ r = placeQ bl kl (x - 2) y) ∨ (1 ≤ x ∧ 1 ≤ y ∧ r = placeQ bl kl (x - 1) (y - 1)) := by
  rw [vAMReq, List.mem_filter]
  cases bl <;> cases kl <;>
    simp only [placeQ, bt, vAMReqAll, if_true, if_false, Bool.false_eq_true, List.mem_cons, List.not_mem_nil,
      or_false, QAM.valid, decide_eq_true_eq] <;>
    constructor
  all_goals first
    | (rintro ⟨rfl | rfl | rfl | rfl | rfl, h⟩ <;> simp only at h <;> simp <;> omega)
    | (rintro (⟨h1, h2, rfl⟩ | ⟨h1, h2, rfl⟩ | ⟨h1, h2, rfl⟩) <;> simp <;> omega)

theorem placeQ_req_kt {bl kl : Bool} {x y : ℤ} {r : QAM} :
    r ∈ vAMReq (placeQ bl kl x y) (kt kl) ↔ (0 ≤ x ∧ 1 ≤ y ∧ r = placeQ bl kl x (y - 1)) ∨
      (0 ≤ x ∧ 2 ≤ y ∧ r = placeQ bl kl x (y - 2)) ∨ (1 ≤ x ∧ 1 ≤ y ∧ r = placeQ bl kl (x - 1) (y - 1)) := by
  rw [vAMReq, List.mem_filter]
  cases bl <;> cases kl <;>
    simp only [placeQ, kt, vAMReqAll, if_true, if_false, Bool.false_eq_true, List.mem_cons, List.not_mem_nil,
      or_false, QAM.valid, decide_eq_true_eq] <;>
    constructor
  all_goals first
    | (rintro ⟨rfl | rfl | rfl | rfl | rfl, h⟩ <;> simp only at h <;> simp <;> omega)
    | (rintro (⟨h1, h2, rfl⟩ | ⟨h1, h2, rfl⟩ | ⟨h1, h2, rfl⟩) <;> simp <;> omega)

/-- The set closed under the two-index recursion; the second index is reduced first. -/
theorem vclosure_sup {M : ℤ → ℤ → Prop} {k1 s1 k2 s2 : ℤ} (hk1 : 0 ≤ k1) (hk2 : 0 ≤ k2) (h1 : k1 ≤ s1)
    (h2 : k2 ≤ s2)
    (top : ∀ x y, k1 ≤ x → x ≤ s1 → k2 ≤ y → y ≤ s2 → (x ≠ 0 ∨ y ≠ 0) → M x y)
    (st1 : ∀ x y, M x y → 0 ≤ x → 0 < y → (x ≠ 0 ∨ y - 1 ≠ 0) → M x (y - 1))
    (st2 : ∀ x y, M x y → 0 < x → 0 < y → (x - 1 ≠ 0 ∨ y - 1 ≠ 0) → M (x - 1) (y - 1))
    (st3 : ∀ x, M x 0 → 1 < x → M (x - 1) 0) {x y : ℤ} (hx : 0 ≤ x) (hy : 0 ≤ y) (hx1 : x ≤ s1) (hy1 : y ≤ s2)
    (h0 : x ≠ 0 ∨ y ≠ 0) (hc : y = 0 ∨ k1 ≤ x + (s2 - y)) : M x y := by
  have A : ∀ (n : ℕ) (x y : ℤ), 0 ≤ x → 0 ≤ y → x ≤ s1 → y ≤ s2 → (x ≠ 0 ∨ y ≠ 0) → k1 ≤ x + (s2 - y) →
      (s2 - y).toNat ≤ n → M x y := by
    intro n
    induction n with
    | zero => intro x y h1 h2 h3 h4 h5 h6 h7; exact top x y (by omega) h3 (by omega) h4 h5
    | succ n ih =>
      intro x y h1 h2 h3 h4 h5 h6 h7
      by_cases e1 : k1 ≤ x
      · by_cases e2 : k2 ≤ y
        · exact top x y e1 h3 e2 h4 h5
        · have := ih x (y + 1) h1 (by omega) h3 (by omega) (by omega) (by omega) (by omega)
          have := st1 x (y + 1) this h1 (by omega) (by omega)
          rwa [add_sub_cancel_right] at this
      · have := ih (x + 1) (y + 1) (by omega) (by omega) (by omega) (by omega) (by omega) (by omega) (by omega)
        have := st2 (x + 1) (y + 1) this (by omega) (by omega) (by omega)
        rwa [add_sub_cancel_right, add_sub_cancel_right] at this
  by_cases hc' : k1 ≤ x + (s2 - y)
  · exact A _ x y hx hy hx1 hy1 h0 hc' le_rfl
  · have hy0 : y = 0 := hc.resolve_right hc'
    subst hy0
    have B : ∀ (n : ℕ) (x : ℤ), 0 < x → x ≤ s1 → (s1 - x).toNat ≤ n → M x 0 := by
      intro n
      induction n with
      | zero => intro x h1 h2 h3; exact A _ x 0 (by omega) le_rfl h2 (by omega) (by omega) (by omega) le_rfl
      | succ n ih =>
        intro x h1 h2 h3
        by_cases e : k1 ≤ x
        · exact A _ x 0 (by omega) le_rfl h2 (by omega) (by omega) (by omega) le_rfl
        · have := st3 (x + 1) (ih (x + 1) (by omega) (by omega) (by omega)) (by omega)
          rwa [add_sub_cancel_right] at this
    exact B _ x (by omega) hx1 le_rfl

/-! The order of the centers -/

/-- `mx` of `vrrDirections`. -/
def mxOf (q : List Qrt) (t : RRType) : ℤ := (q.map fun x => x.am4.get t).foldl max 0

theorem foldl_max_bound {l : List ℤ} {M z : ℤ} (hz : z ≤ M) (h : ∀ x ∈ l, x ≤ M) : l.foldl max z ≤ M := by
  induction l generalizing z with
  | nil => exact hz
  | cons a l ih => exact ih (max_le hz (h a (by simp))) fun x hx => h x (by simp [hx])

theorem mem_le_foldl_max {l : List ℤ} {x z : ℤ} (h : x ≤ z ∨ x ∈ l) : x ≤ l.foldl max z := by
  induction l generalizing z with
  | nil => simpa using h.resolve_right (by simp)
  | cons a l ih =>
    rw [List.foldl_cons]
    rcases h with h | h
    · exact ih (.inl (le_trans h (le_max_left _ _)))
    · rcases List.mem_cons.1 h with rfl | h
      · exact ih (.inl (le_max_right _ _))
      · exact ih (.inr h)

theorem mxOf_eq {q : List Qrt} {t : RRType} {M : ℤ} (h0 : 0 ≤ M) (h1 : ∀ x ∈ q, x.am4.get t ≤ M)
    (h2 : M = 0 ∨ ∃ x ∈ q, x.am4.get t = M) : mxOf q t = M := by
  refine le_antisymm (foldl_max_bound h0 ?_) ?_
  · rintro x hx
    obtain ⟨y, hy, rfl⟩ := List.mem_map.1 hx
    exact h1 y hy
  · rcases h2 with rfl | ⟨x, hx, e⟩
    · exact mem_le_foldl_max (.inl le_rfl)
    · rw [← e]
      exact mem_le_foldl_max (.inr (List.mem_map.2 ⟨x, hx, rfl⟩))

theorem vrrDirections_eq (q : List Qrt) :
    vrrDirections q = [RRType.L, .K, .J, .I].mergeSort fun i j => decide (mxOf q i ≤ mxOf q j) := rfl

/-- Of two centers the one with the smaller maximum comes first; the ket if they are equal. -/
theorem phase_two {q : List Qrt} {bl kl : Bool} {x y : ℤ} (hx : 0 ≤ x) (hy : 0 ≤ y) (h0 : x ≠ 0 ∨ y ≠ 0) :
    phase (vrrDirections q) (placeQ bl kl x y) =
      some (if y = 0 ∨ x ≠ 0 ∧ mxOf q (bt bl) < mxOf q (kt kl) then bt bl else kt kl) := by
  obtain ⟨t, ht⟩ : ∃ t, phase (vrrDirections q) (placeQ bl kl x y) = some t := by
    apply phase_total (vrrDirections_mem q)
    · cases bl <;> cases kl <;> simp [placeQ, QAM.valid, hx, hy]
    · cases bl <;> cases kl <;> simp [placeQ, QAM.sum] <;> omega
  rw [ht]
  congr 1
  have hpos := (phase_some ht).1
  have htw := placeQ_pos hpos
  obtain ⟨-, as, bs, e, has⟩ := List.find?_eq_some_iff_append.1 ht
  have hne : bt bl ≠ kt kl := by cases bl <;> cases kl <;> simp [bt, kt]
  by_cases hy0 : y = 0
  · rw [if_pos (.inl hy0)]
    rcases htw with rfl | rfl
    · rfl
    · rw [placeQ_kt] at hpos; omega
  by_cases hx0 : x = 0
  · rw [if_neg (by omega)]
    rcases htw with rfl | rfl
    · rw [placeQ_bt] at hpos; omega
    · rfl
  have tr : ∀ a b c : RRType, decide (mxOf q a ≤ mxOf q b) = true → decide (mxOf q b ≤ mxOf q c) = true →
      decide (mxOf q a ≤ mxOf q c) = true := by simp; intros; omega
  have tot : ∀ a b : RRType, (decide (mxOf q a ≤ mxOf q b) || decide (mxOf q b ≤ mxOf q a)) = true := by
    simp; intros; omega
  have hnd := vrrDirections_nodup q
  by_cases hlt : mxOf q (bt bl) < mxOf q (kt kl)
  · rw [if_pos (.inr ⟨hx0, hlt⟩)]
    rcases htw with rfl | rfl
    · rfl
    · exfalso
      have hm := vrrDirections_mem q (bt bl)
      rw [e, List.mem_append, List.mem_cons] at hm
      have hb : bt bl ∈ bs := by
        rcases hm with hm | hm | hm
        · have := has _ hm
          rw [placeQ_bt] at this
          simp at this
          omega
        · exact absurd hm hne
        · exact hm
      have hs := List.pairwise_mergeSort tr tot [RRType.L, .K, .J, .I]
      rw [← vrrDirections_eq, e, List.pairwise_append, List.pairwise_cons] at hs
      have := hs.2.1.1 _ hb
      simp at this
      omega
  · rw [if_neg (by omega)]
    rcases htw with rfl | rfl
    · exfalso
      have hs : [kt kl, bt bl].Sublist (vrrDirections q) := by
        rw [vrrDirections_eq]
        apply List.pair_sublist_mergeSort tr tot
        · simp; omega
        · cases bl <;> cases kl <;> simp [bt, kt] <;> decide
      rw [e] at hnd hs
      obtain ⟨l1, l2, e1, e2, e3⟩ := List.sublist_append_iff.1 hs
      have hnk : kt kl ∉ as := by
        intro hm
        have := has _ hm
        rw [placeQ_kt] at this
        simp at this
        omega
      have hbb : bt bl ∉ bs := (List.nodup_cons.1 (List.nodup_append.1 hnd).2.1).1
      cases l1 with
      | cons z l1 =>
        simp only [List.cons_append, List.cons.injEq] at e1
        exact hnk (e1.1 ▸ e2.subset (by simp))
      | nil =>
        simp only [List.nil_append] at e1
        subst e1
        rcases List.sublist_cons_iff.1 e3 with e3 | ⟨r, e3, -⟩
        · exact hbb (e3.subset (by simp))
        · exact hne (List.cons.inj e3).1.symm
    · rfl

/-- The classes handed over, for one requested class. -/
theorem PreOK.top_place {g : GenCfg} {q : QAM} {H : HRRAlgo} {A : VRRAlgo}
    (h : PreOK g (hrrDirections q) [q] H A) (hg : g.OK) (hv : q.Valid) {a : QAM} :
    a ∈ H.top.map QAM.notag ↔ ∃ x y, a = placeQ (decide (q.a < q.b)) (decide (q.c < q.d)) x y ∧
      keptMax q.a q.b ≤ x ∧ x ≤ q.a + q.b ∧ keptMax q.c q.d ≤ y ∧ y ≤ q.c + q.d := by
  have hl1 : (hrrDirections q).1.isLeft = decide (q.a < q.b) := by
    unfold hrrDirections; by_cases e : q.a < q.b <;> simp [e, RRType.isLeft]
  have hl2 : (hrrDirections q).2.isLeft = decide (q.c < q.d) := by
    unfold hrrDirections; by_cases e : q.c < q.d <;> simp [e, RRType.isLeft]
  obtain ⟨v1, v2, v3, v4⟩ := hv
  have key : ∀ t, t ∈ H.top ↔ HTop (decide (q.a < q.b)) (decide (q.c < q.d)) q t := by
    intro t
    rw [h.top_iff hg (by simp only [List.mem_singleton, forall_eq]; exact ⟨v1, v2, v3, v4⟩), hl1, hl2]
    simp
  rw [List.mem_map]
  constructor
  · rintro ⟨t, ht, rfl⟩
    obtain ⟨-, h1, h2⟩ := (key t).1 ht
    refine ⟨t.a + t.b, t.c + t.d, ?_, ?_⟩
    · unfold PairDone at h1 h2
      by_cases e1 : q.a < q.b <;> by_cases e2 : q.c < q.d <;> simp [e1, e2] at h1 h2 <;>
        simp [placeQ, QAM.notag, e1, e2] <;> omega
    · unfold PairDone at h1 h2
      by_cases e1 : q.a < q.b <;> by_cases e2 : q.c < q.d <;> simp [e1, e2] at h1 h2 <;>
        simp only [keptMax] <;> omega
  · rintro ⟨x, y, rfl, h1, h2, h3, h4⟩
    refine ⟨{ placeQ (decide (q.a < q.b)) (decide (q.c < q.d)) x y with tag := q.tag }, (key _).2 ⟨rfl, ?_, ?_⟩, rfl⟩
    · unfold keptMax at h1
      by_cases e1 : q.a < q.b <;> simp [PairDone, placeQ, e1] <;> omega
    · unfold keptMax at h3
      by_cases e1 : q.c < q.d <;> simp [PairDone, placeQ, e1] <;> omega

/-- The centers of a pair are ordered by the sums of the pairs. -/
theorem PreOK.vphase {g : GenCfg} {q : QAM} {H : HRRAlgo} {A : VRRAlgo}
    (h : PreOK g (hrrDirections q) [q] H A) (hg : g.OK) (hv : q.Valid) {x y : ℤ} (hx : 0 ≤ x) (hy : 0 ≤ y)
    (h0 : x ≠ 0 ∨ y ≠ 0) :
    phase (vrrDirections (classTargets psi4List (H.top.map QAM.notag)))
        (placeQ (decide (q.a < q.b)) (decide (q.c < q.d)) x y) =
      some (if y = 0 ∨ x ≠ 0 ∧ q.a + q.b < q.c + q.d then bt (decide (q.a < q.b)) else kt (decide (q.c < q.d))) := by
  have hvt : ∀ a ∈ H.top.map QAM.notag, a.valid = true ∧ a.tag = "" := by
    intro a ha
    obtain ⟨t, ht, rfl⟩ := List.mem_map.1 ha
    exact ⟨valid_of_Valid (q := t.notag) (h.tval t ht), rfl⟩
  have hm := fun p => mem_classTargets psi4_ordOK psi4_start hvt (q := p)
  have ⟨v1, v2, v3, v4⟩ := hv
  have hex : ∃ p ∈ classTargets psi4List (H.top.map QAM.notag),
      p.am4 = placeQ (decide (q.a < q.b)) (decide (q.c < q.d)) (q.a + q.b) (q.c + q.d) := by
    have ht := (h.top_place hg hv).2 ⟨q.a + q.b, q.c + q.d, rfl, by unfold keptMax; omega, le_rfl,
      by unfold keptMax; omega, le_rfl⟩
    set a := placeQ (decide (q.a < q.b)) (decide (q.c < q.d)) (q.a + q.b) (q.c + q.d) with ha
    obtain ⟨w, wt⟩ := hvt a ht
    simp only [QAM.valid, decide_eq_true_eq] at w
    have e4 : (⟨⟨Exp.px a.a, Exp.px a.b⟩, ⟨Exp.px a.c, Exp.px a.d⟩, 0⟩ : Qrt).am4 = a := by
      simp [Qrt.am4, Exp.px, Exp.am, ← wt]
    refine ⟨_, (hm ⟨⟨Exp.px a.a, Exp.px a.b⟩, ⟨Exp.px a.c, Exp.px a.d⟩, 0⟩).2 ⟨?_, rfl, by rw [e4]; exact ht⟩, e4⟩
    exact ⟨⟨⟨w.1, le_rfl, le_rfl⟩, ⟨w.2.1, le_rfl, le_rfl⟩⟩, ⟨⟨w.2.2.1, le_rfl, le_rfl⟩, ⟨w.2.2.2, le_rfl, le_rfl⟩⟩, le_rfl⟩
  rw [phase_two hx hy h0]
  have m1 : mxOf (classTargets psi4List (H.top.map QAM.notag)) (bt (decide (q.a < q.b))) = q.a + q.b := by
    refine mxOf_eq (by omega) (fun p hp => ?_) (.inr ?_)
    · obtain ⟨x, y, e, -, h2, -⟩ := (h.top_place hg hv).1 ((hm p).1 hp).2.2
      rw [e, placeQ_bt]; exact h2
    · obtain ⟨p, hp, e⟩ := hex
      exact ⟨p, hp, by rw [e, placeQ_bt]⟩
  have m2 : mxOf (classTargets psi4List (H.top.map QAM.notag)) (kt (decide (q.c < q.d))) = q.c + q.d := by
    refine mxOf_eq (by omega) (fun p hp => ?_) (.inr ?_)
    · obtain ⟨x, y, e, -, -, -, h2⟩ := (h.top_place hg hv).1 ((hm p).1 hp).2.2
      rw [e, placeQ_kt]; exact h2
    · obtain ⟨p, hp, e⟩ := hex
      exact ⟨p, hp, by rw [e, placeQ_kt]⟩
  rw [m1, m2]

/-- Exactly which classes the vertical stage forms. -/
theorem PreOK.vorder_iff {g : GenCfg} {q : QAM} {H : HRRAlgo} {A : VRRAlgo}
    (h : PreOK g (hrrDirections q) [q] H A) (hg : g.OK) (hv : q.Valid) {a : QAM} :
    a ∈ A.order ↔ ∃ x y, a = placeQ (decide (q.a < q.b)) (decide (q.c < q.d)) x y ∧ VFormed q x y := by
  have hvt : ∀ a ∈ H.top.map QAM.notag, a.valid = true ∧ a.tag = "" := by
    intro a ha
    obtain ⟨t, ht, rfl⟩ := List.mem_map.1 ha
    exact ⟨valid_of_Valid (q := t.notag) (h.tval t ht), rfl⟩
  have hm := fun p => mem_classTargets psi4_ordOK psi4_start hvt (q := p)
  have ⟨v1, v2, v3, v4⟩ := hv
  have ph := fun {x y : ℤ} => h.vphase hg hv (x := x) (y := y)
  set bl := decide (q.a < q.b) with hbl
  set kl := decide (q.c < q.d) with hkl
  constructor
  · revert a
    intro a ha
    refine h.vok.order_min (M := fun a => ∃ x y, a = placeQ bl kl x y ∧ VFormed q x y) ?_ ?_ a ha
    · intro p hp hpv hpos
      obtain ⟨x, y, e, h1, h2, h3, h4⟩ := (h.top_place hg hv).1 ((hm p).1 hp).2.2
      refine ⟨x, y, e, ?_⟩
      have hne : p.am4 ≠ ssss := by
        intro e
        have := congrArg QAM.sum e
        rw [Qrt.am4_sum] at this
        simp only [QAM.sum, ssss] at this
        omega
      rw [e, placeQ_ne] at hne
      unfold keptMax at h1 h3
      unfold VFormed keptMax
      split <;> omega
    · rintro a t ⟨x, y, rfl, hf⟩ ht r hr hr0
      have ⟨f1, f2, f3, f4, f5, f6⟩ := hf
      unfold keptMax at f6
      rw [ph f1 f2 f5, Option.some.injEq] at ht
      subst ht
      split at hr
      next hc =>
        rcases placeQ_req_bt.1 hr with ⟨g1, g2, rfl⟩ | ⟨g1, g2, rfl⟩ | ⟨g1, g2, rfl⟩
        all_goals
          rw [placeQ_ne] at hr0
          refine ⟨_, _, rfl, ?_⟩
          unfold VFormed keptMax
          split at f6 <;> rename_i hlt
          · rw [if_pos hlt]; omega
          · rw [if_neg hlt]; omega
      next hc =>
        rcases placeQ_req_kt.1 hr with ⟨g1, g2, rfl⟩ | ⟨g1, g2, rfl⟩ | ⟨g1, g2, rfl⟩
        all_goals
          rw [placeQ_ne] at hr0
          refine ⟨_, _, rfl, ?_⟩
          unfold VFormed keptMax
          split at f6 <;> rename_i hlt
          · rw [if_pos hlt]; omega
          · rw [if_neg hlt]; omega
  · rintro ⟨x, y, rfl, f1, f2, f3, f4, f5, f6⟩
    have top : ∀ x y, keptMax q.a q.b ≤ x → x ≤ q.a + q.b → keptMax q.c q.d ≤ y → y ≤ q.c + q.d →
        (x ≠ 0 ∨ y ≠ 0) → placeQ bl kl x y ∈ A.order := by
      intro x y k1 k2 k3 k4 k5
      have ht := (h.top_place hg hv).2 ⟨x, y, rfl, k1, k2, k3, k4⟩
      rw [← hbl, ← hkl] at ht
      set a := placeQ bl kl x y with ha
      obtain ⟨w, wt⟩ := hvt a ht
      simp only [QAM.valid, decide_eq_true_eq] at w
      have e4 : (⟨⟨Exp.px a.a, Exp.px a.b⟩, ⟨Exp.px a.c, Exp.px a.d⟩, 0⟩ : Qrt).am4 = a := by
        simp [Qrt.am4, Exp.px, Exp.am, ← wt]
      have hv4 : (⟨⟨Exp.px a.a, Exp.px a.b⟩, ⟨Exp.px a.c, Exp.px a.d⟩, 0⟩ : Qrt).Valid :=
        ⟨⟨⟨w.1, le_rfl, le_rfl⟩, ⟨w.2.1, le_rfl, le_rfl⟩⟩, ⟨⟨w.2.2.1, le_rfl, le_rfl⟩, ⟨w.2.2.2, le_rfl, le_rfl⟩⟩, le_rfl⟩
      rw [← e4]
      refine h.vok.oreq _ ((hm _).2 ⟨hv4, rfl, by rw [e4]; exact ht⟩) hv4 ?_
      rw [← Qrt.am4_sum, e4]
      have hne : a ≠ ssss := placeQ_ne.2 k5
      by_contra hc
      apply hne
      have : a.sum = a.a + a.b + (a.c + a.d) := rfl
      refine QAM.ext_get (fun t => ?_) wt
      cases t <;> simp only [QAM.get, ssss] <;> omega
    have kb : 0 ≤ keptMax q.a q.b ∧ keptMax q.a q.b ≤ q.a + q.b := by unfold keptMax; omega
    have kk : 0 ≤ keptMax q.c q.d ∧ keptMax q.c q.d ≤ q.c + q.d := by unfold keptMax; omega
    by_cases hlt : q.a + q.b < q.c + q.d
    · rw [if_pos hlt] at f6
      refine vclosure_sup (M := fun y x => placeQ bl kl x y ∈ A.order) kk.1 kb.1 kk.2 kb.2
        (fun y x k1 k2 k3 k4 k5 => top x y k3 k4 k1 k2 k5.symm) ?_ ?_ ?_ f2 f1 f4 f3 f5.symm f6
      · intro y x k1 k2 k3 k4
        refine h.vok.order_step k1 (ph (by omega) k2 (by omega)) (t := _) ?_ (placeQ_ne.2 k4.symm)
        rw [if_pos (by omega), placeQ_req_bt]
        exact .inl ⟨by omega, k2, rfl⟩
      · intro y x k1 k2 k3 k4
        refine h.vok.order_step k1 (ph (by omega) (by omega) (by omega)) (t := _) ?_ (placeQ_ne.2 k4.symm)
        rw [if_pos (by omega), placeQ_req_bt]
        exact .inr (.inr ⟨by omega, by omega, rfl⟩)
      · intro y k1 k2
        refine h.vok.order_step k1 (ph (by omega) (by omega) (by omega)) (t := _) ?_ (placeQ_ne.2 (by omega))
        rw [if_neg (by omega), placeQ_req_kt]
        exact .inl ⟨le_rfl, by omega, rfl⟩
    · rw [if_neg hlt] at f6
      refine vclosure_sup (M := fun x y => placeQ bl kl x y ∈ A.order) kb.1 kk.1 kb.2 kk.2 top ?_ ?_ ?_
        f1 f2 f3 f4 f5 f6
      · intro x y k1 k2 k3 k4
        refine h.vok.order_step k1 (ph k2 (by omega) (by omega)) (t := _) ?_ (placeQ_ne.2 k4)
        rw [if_neg (by omega), placeQ_req_kt]
        exact .inl ⟨k2, by omega, rfl⟩
      · intro x y k1 k2 k3 k4
        refine h.vok.order_step k1 (ph (by omega) (by omega) (by omega)) (t := _) ?_ (placeQ_ne.2 k4)
        rw [if_neg (by omega), placeQ_req_kt]
        exact .inr (.inr ⟨by omega, by omega, rfl⟩)
      · intro x k1 k2
        refine h.vok.order_step k1 (ph (by omega) (by omega) (by omega)) (t := _) ?_ (placeQ_ne.2 (by omega))
        rw [if_pos (by omega), placeQ_req_bt]
        exact .inl ⟨by omega, le_rfl, rfl⟩

/-- The step type stored for a class. -/
theorem PreOK.vType_eq {g : GenCfg} {q : QAM} {H : HRRAlgo} {A : VRRAlgo}
    (h : PreOK g (hrrDirections q) [q] H A) (hg : g.OK) (hv : q.Valid) {x y : ℤ} (hf : VFormed q x y) :
    vType A.steps (placeQ (decide (q.a < q.b)) (decide (q.c < q.d)) x y) =
      some (if y = 0 ∨ x ≠ 0 ∧ q.a + q.b < q.c + q.d then bt (decide (q.a < q.b)) else kt (decide (q.c < q.d))) := by
  have ha := (h.vorder_iff hg hv).2 ⟨x, y, rfl, hf⟩
  obtain ⟨h1, h2⟩ := h.vok.omem _ ha
  obtain ⟨p, hp, e⟩ := ((h.vok.allam _).1 h1).resolve_left h2
  obtain ⟨t, k1, k2⟩ := vType_ok h.vok.sph h.vok.has hp
  obtain ⟨f1, f2, f3, f4, f5, f6⟩ := hf
  rw [e] at k1 k2
  rw [k1, ← k2]
  exact h.vphase hg hv f1 f2 f5

end Simint
