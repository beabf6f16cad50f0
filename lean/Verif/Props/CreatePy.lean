import Verif.CreatePyLemmas

/-! # C53, C54, C55: create.py -/

set_option autoImplicit false

namespace Simint

/-! ## C54 -/

theorem fnCalls_of {cfg : PyCfg} {d : ℕ} {q : QAM} {f : GenFile} (e : cfg.fnRun d q = some f) :
    cfg.fnCalls d q = f.calls := by rw [PyCfg.fnCalls, e]

/-- **C54.** create.py runs to its end, every function generator succeeds, every helper routine called in
the text of a function is defined by one of the helper files, and so is every helper routine called by a
helper file; the file that defines the latter calls nothing further. -/
theorem C54_helpers_generated {cfg : PyCfg} (h : cfg.OK) :
    ∃ st fs, cfg.run = some st ∧ cfg.helpers st = some fs ∧
      (∀ d q, cfg.Generated d q → ∃ f, cfg.fnRun d q = some f ∧ ∀ r ∈ f.calls, ∃ f' ∈ fs, r ∈ f'.defines) ∧
      CallsDefined fs ∧ ∀ f ∈ fs, ∀ r ∈ f.calls, ∀ f' ∈ fs, r ∈ f'.defines → f'.calls = [] := by
  obtain ⟨fs, e, hfs⟩ := helpers_ok h (run_ok h)
  refine ⟨_, fs, run_ok h, e, fun d q hq => ?_, ?_, ?_⟩
  · obtain ⟨base, H, A, -, -, e⟩ := fnRun_ok h (d := d) hq.2.1 hq.2.2.1 hq.2.2.2.1
    refine ⟨_, e, fun r hr => ?_⟩
    have hm : r ∈ cfg.allCalls := (mem_allCalls h).2 ⟨d, q, hq, by rw [fnCalls_of e]; exact hr⟩
    exact ⟨r.genFile, (hfs _).2 ⟨r, .inl hm, rfl⟩, by simp [Routine.genFile]⟩
  · intro f hf r hr
    obtain ⟨r', hr', rfl⟩ := (hfs f).1 hf
    exact ⟨r.genFile, (hfs _).2 ⟨r, (helper_callee h hr' hr).1, rfl⟩, by simp [Routine.genFile]⟩
  · intro f hf r hr f' hf' hd
    obtain ⟨r', hr', rfl⟩ := (hfs f).1 hf
    obtain ⟨r2, hr2, rfl⟩ := (hfs f').1 hf'
    simp only [Routine.genFile, List.mem_singleton] at hd
    subst hd
    exact (helper_callee h hr' hr).2

/-- **C54.** Nothing else is generated: every helper file defines one routine, which some function or
some other helper calls, and no routine is defined twice. -/
theorem C54_nothing_else {cfg : PyCfg} (h : cfg.OK) {st : PySt} (hst : cfg.run = some st) {fs : List GenFile}
    (hfs : cfg.helpers st = some fs) :
    (∀ f ∈ fs, ∃ r, f.defines = [r] ∧ f.name = r.file ∧
      ((∃ d q f', cfg.Generated d q ∧ cfg.fnRun d q = some f' ∧ r ∈ f'.calls) ∨ ∃ f' ∈ fs, r ∈ f'.calls)) ∧
    ∀ f ∈ fs, ∀ f' ∈ fs, ∀ r, r ∈ f.defines → r ∈ f'.defines → f = f' := by
  obtain ⟨fs', e, hm⟩ := helpers_ok h hst
  rw [hfs, Option.some.injEq] at e
  subst e
  have called : ∀ r ∈ cfg.allCalls, ∃ d q f', cfg.Generated d q ∧ cfg.fnRun d q = some f' ∧ r ∈ f'.calls := by
    intro r hr
    obtain ⟨d, q, hq, hr⟩ := (mem_allCalls h).1 hr
    obtain ⟨base, H, A, -, -, e⟩ := fnRun_ok h (d := d) hq.2.1 hq.2.2.1 hq.2.2.2.1
    rw [fnCalls_of e] at hr
    exact ⟨d, q, _, hq, e, hr⟩
  constructor
  · intro f hf
    obtain ⟨r, hr, rfl⟩ := (hm f).1 hf
    refine ⟨r, rfl, rfl, ?_⟩
    rcases hr with hr | ⟨t, am, hr, hz, rfl⟩
    · exact .inl (called r hr)
    · by_cases hs : am.b = 0 ∧ am.d = 0
      · have hg := allCalls_good h hr
        have e : Routine.vrr (toCallStep t) (toCall am) = Routine.vrr t am := by
          obtain ⟨⟨v1, v2, v3, v4⟩, -, -, hp, -⟩ := hg
          obtain ⟨a, b, c, d, tag⟩ := am
          simp only at hs v1 v2 v3 v4
          obtain ⟨rfl, rfl⟩ := hs
          have e1 : toCall ⟨a, 0, c, 0, tag⟩ = ⟨a, 0, c, 0, tag⟩ := by
            by_cases ha : a = 0 <;> by_cases hc : c = 0 <;> simp [toCall, ha, hc]
          rw [e1]
          cases t <;> simp only [QAM.get] at hp <;> first | omega | rfl
        rw [e]
        exact .inl (called _ hr)
      · refine .inr ⟨_, (hm _).2 ⟨_, .inl hr, rfl⟩, ?_⟩
        simp only [Routine.genFile, Routine.callees]
        rw [if_neg hs]
        simp
  · intro f hf f' hf' r hr hr'
    obtain ⟨r1, -, rfl⟩ := (hm f).1 hf
    obtain ⟨r2, -, rfl⟩ := (hm f').1 hf'
    simp only [Routine.genFile, List.mem_singleton] at hr hr'
    rw [← hr, ← hr']

/-- **C54.** The calls in the text of a function are exactly those of the classes between the two limits:
the routine is named after the class and the step type chosen for it. -/
theorem C54_calls_exact {cfg : PyCfg} (h : cfg.OK) {d : ℕ} {q : QAM} (hq : cfg.Generated d q) :
    ∃ H A f, (if d = 0 then cfg.gen.algos q else cfg.gen.derivAlgos q) = some (H, A) ∧
      cfg.fnRun d q = some f ∧ ∀ r, r ∈ f.calls ↔
        (∃ am ∈ A.order, ∃ t, vType A.steps am = some t ∧ r = .vrr t am ∧
          cfg.T.ve ≤ am.a + am.b + am.c + am.d ∧ am.a + am.b + am.c + am.d < cfg.T.vg) ∨
        (∃ p ∈ H.order, H.getStep p = some .bra ∧ r = .hrr H.bra.type (p.a, p.b) ∧
          cfg.T.he ≤ p.a + p.b ∧ p.a + p.b < cfg.T.hg) ∨
        ∃ p ∈ H.order, H.getStep p = some .ket ∧ r = .hrr H.ket.type (p.c, p.d) ∧
          cfg.T.he ≤ p.c + p.d ∧ p.c + p.d < cfg.T.hg := by
  obtain ⟨base, H, A, -, hp, ea, e⟩ := fnRun_ok' h (d := d) hq.2.1 hq.2.2.1 hq.2.2.2.1
  refine ⟨H, A, _, ea, e, fun r => ?_⟩
  simp only [List.mem_append, List.mem_filterMap]
  refine or_congr ⟨?_, ?_⟩ ⟨?_, ?_⟩
  · rintro ⟨am, ha, e⟩
    unfold vCallOf at e
    split at e
    · cases e
    split at e
    · cases e
    split at e
    · obtain ⟨t, et, rfl⟩ := Option.map_eq_some_iff.1 e
      exact ⟨am, ha, t, et, rfl, by omega, by assumption⟩
    · cases e
  · rintro ⟨am, ha, t, et, rfl, h1, h2⟩
    refine ⟨am, ha, ?_⟩
    rw [vCallOf, if_neg (hp.vok.omem am ha).2, if_neg (by omega), if_pos h2, et]
    rfl
  · rintro ⟨p, hm, e⟩
    obtain ⟨s, es, e⟩ := Option.bind_eq_some_iff.1 e
    cases s with
    | bra =>
      simp only at e
      split at e
      · cases e
      split at e
      · exact .inl ⟨p, hm, es, (Option.some.inj e).symm, by omega, by assumption⟩
      · cases e
    | ket =>
      simp only at e
      split at e
      · cases e
      split at e
      · exact .inr ⟨p, hm, es, (Option.some.inj e).symm, by omega, by assumption⟩
      · cases e
  · rintro (⟨p, hm, es, rfl, h1, h2⟩ | ⟨p, hm, es, rfl, h1, h2⟩)
    all_goals
      refine ⟨p, hm, ?_⟩
      rw [hCallOf, es, Option.bind_some]
      simp only
      rw [if_neg (by omega), if_pos h2]
      rfl

/-! ## C55 -/

theorem toCall_idem (am : QAM) : toCall (toCall am) = toCall am := by
  obtain ⟨a, b, c, d, tag⟩ := am
  by_cases ha : a = 0 <;> by_cases hc : c = 0 <;> by_cases hb : b = 0 <;> by_cases hd : d = 0 <;>
    simp [toCall, ha, hb, hc, hd]

theorem toCallStep_idem (t : RRType) : toCallStep (toCallStep t) = toCallStep t := by cases t <;> rfl

/-- The class is one whose right centers are s after the exchange. -/
theorem toCall_std {am : QAM} : ((toCall am).b = 0 ∧ (toCall am).d = 0) ↔
    (am.a = 0 ∨ am.b = 0) ∧ (am.c = 0 ∨ am.d = 0) := by
  obtain ⟨a, b, c, d, tag⟩ := am
  by_cases ha : a = 0 <;> by_cases hc : c = 0 <;> simp [toCall, ha, hc]

/-- **C55 (false as stated).** Exactly which accepted inputs of the VRR program give a routine that calls
itself: the class has angular momentum on a right center, none of the two pairs is exchanged, and the step
is `I` or `K`. -/
theorem C55_self_call_iff {enumV : List Qrt → List Qrt} (hV : EnumOK enumV) (name : String) {t : RRType} {am : QAM}
    (hv : am.Valid) (ht : am.tag = "") (hp : 0 < am.get t) :
    ∃ f, vrrFile enumV name t am = some f ∧ f.defines = [.vrr t am] ∧
      (Routine.vrr t am ∈ f.calls ↔ (am.b ≠ 0 ∨ am.d ≠ 0) ∧ (am.a ≠ 0 ∨ am.b = 0) ∧ (am.c ≠ 0 ∨ am.d = 0) ∧
        (t = .I ∨ t = .K)) := by
  refine ⟨_, vrrFile_ok hV name hv ht hp, rfl, ?_⟩
  obtain ⟨a, b, c, d, tag⟩ := am
  simp only
  by_cases hs : b = 0 ∧ d = 0
  · rw [if_pos hs]
    simp only [List.not_mem_nil, false_iff]
    omega
  · rw [if_neg hs, List.mem_singleton, Routine.vrr.injEq]
    have e1 : t = toCallStep t ↔ t = .I ∨ t = .K := by cases t <;> simp [toCallStep]
    have e2 : (⟨a, b, c, d, tag⟩ : QAM) = toCall ⟨a, b, c, d, tag⟩ ↔ (a ≠ 0 ∨ b = 0) ∧ (c ≠ 0 ∨ d = 0) := by
      by_cases ha : a = 0 <;> by_cases hc : c = 0 <;> simp [toCall, ha, hc, eq_comm]
    rw [e1, e2]
    constructor
    · rintro ⟨h1, h2, h3⟩; exact ⟨by omega, h2, h3, h1⟩
    · rintro ⟨-, h2, h3, h1⟩; exact ⟨h1, h2, h3⟩

/-- **C55 (false as stated).** The routine `VRR_I_p_p_s_s` calls itself with the same arguments. -/
theorem C55_self_call : ∃ f, vrrFile id "vrr_I_p_p_s_s.c" .I ⟨1, 1, 0, 0, ""⟩ = some f ∧
    Routine.vrr .I ⟨1, 1, 0, 0, ""⟩ ∈ f.defines ∧ Routine.vrr .I ⟨1, 1, 0, 0, ""⟩ ∈ f.calls := by
  obtain ⟨f, h1, h2, h3⟩ := C55_self_call_iff (enumV := id) (fun _ _ => Iff.rfl) "vrr_I_p_p_s_s.c" (t := .I)
    (am := ⟨1, 1, 0, 0, ""⟩) (by unfold QAM.Valid; decide) rfl (by decide)
  exact ⟨f, h1, by rw [h2]; simp, h3.2 (by simp)⟩

/-- Is the routine one whose file computes the steps itself? -/
def Computes (r : RRType × QAM) : Prop := r.2.b = 0 ∧ r.2.d = 0

/-- **C55 (exact form).** The chain of calls that starts at a routine ends iff in both pairs one of the
numbers is zero; then it ends after at most one call. -/
theorem C55_terminates_iff (t : RRType) (am : QAM) :
    ((∃ n, Computes (callChain t am n)) ↔ (am.a = 0 ∨ am.b = 0) ∧ (am.c = 0 ∨ am.d = 0)) ∧
    ((am.a = 0 ∨ am.b = 0) ∧ (am.c = 0 ∨ am.d = 0) → Computes (callChain t am 1)) := by
  have h2 : ∀ n, (callChain t am (n + 1)).2 = toCall am := by
    intro n
    induction n with
    | zero => rfl
    | succ n ih => rw [callChain, ih, toCall_idem]
  refine ⟨⟨?_, fun h => ⟨1, toCall_std.2 h⟩⟩, fun h => toCall_std.2 h⟩
  rintro ⟨n, hn⟩
  cases n with
  | zero => exact ⟨.inr hn.1, .inr hn.2⟩
  | succ n =>
    unfold Computes at hn
    rw [h2] at hn
    exact toCall_std.1 hn

/-- **C55 (partial).** A helper for a class with a zero in both pairs does not call itself, and the routine
it calls computes its steps itself.  Missing: the classes for which `C55_self_call_iff` gives a
self-call. -/
theorem C55_no_self_call_partial {enumV : List Qrt → List Qrt} (hV : EnumOK enumV) (name : String) {t : RRType}
    {am : QAM} (hv : am.Valid) (ht : am.tag = "") (hp : 0 < am.get t)
    (ho : (am.a = 0 ∨ am.b = 0) ∧ (am.c = 0 ∨ am.d = 0)) :
    ∃ f, vrrFile enumV name t am = some f ∧ f.defines = [.vrr t am] ∧ Routine.vrr t am ∉ f.calls ∧
      ∀ r ∈ f.calls, ∃ t' am', r = .vrr t' am' ∧ am'.b = 0 ∧ am'.d = 0 := by
  refine ⟨_, vrrFile_ok hV name hv ht hp, rfl, ?_, ?_⟩
  · obtain ⟨f, h1, -, h3⟩ := C55_self_call_iff hV name hv ht hp
    rw [vrrFile_ok hV name hv ht hp, Option.some.injEq] at h1
    subst h1
    rw [h3]
    omega
  · intro r hr
    simp only at hr
    split at hr
    · cases hr
    · rw [List.mem_singleton] at hr
      exact ⟨_, _, hr, toCall_std.2 ho⟩

/-- **C55.** In a run of create.py no helper file calls a routine that it defines. -/
theorem C55_create {cfg : PyCfg} (h : cfg.OK) {st : PySt} (hst : cfg.run = some st) {fs : List GenFile}
    (hfs : cfg.helpers st = some fs) : ∀ f ∈ fs, ∀ r ∈ f.defines, r ∉ f.calls := by
  obtain ⟨fs', e, hm⟩ := helpers_ok h hst
  rw [hfs, Option.some.injEq] at e
  subst e
  intro f hf r hr hc
  obtain ⟨r', hr', rfl⟩ := (hm f).1 hf
  simp only [Routine.genFile, List.mem_singleton] at hr hc
  subst hr
  have := (helper_callee h hr' hc).2
  rw [this] at hc
  cases hc

/-! ## C53 -/

/-- **C53.** Contents of the file lists: for every derivative order the list of limit `l` has the files of
all functions whose AM is at most `l`, of order 0 and of order 1, and the helpers these call. -/
theorem C53_contents {cfg : PyCfg} (h : cfg.OK) {st : PySt} (hst : cfg.run = some st) {d : ℕ} (hd : d ≤ cfg.der)
    (l : ℕ) : ∃ L, st.fileList d l = some L ∧ ∀ s, s ∈ L ↔ ∃ d' q f, cfg.Generated d' q ∧
      (q.a ≤ l ∧ q.b ≤ l ∧ q.c ≤ l ∧ q.d ≤ l) ∧ cfg.fnRun d' q = some f ∧
      (s = f.name ∨ ∃ r ∈ f.calls, s = r.file) := by
  rw [run_ok h, Option.some.injEq] at hst
  subst hst
  have e : (List.replicate (cfg.der + 1) 0)[d]? = some 0 := by
    rw [List.getElem?_replicate, if_pos (by omega)]
  refine ⟨(List.range (l + 1)).flatMap fun (k : ℕ) => cfg.allNames (k : ℤ), ?_, fun s => ?_⟩
  · simp [PySt.fileList, pyState, PyLists.dict, e]
  have names : ∀ d' q, cfg.Generated d' q → ∃ f, cfg.fnRun d' q = some f ∧
      (s ∈ cfg.names d' q ↔ s = f.name ∨ ∃ r ∈ f.calls, s = r.file) := by
    intro d' q hq
    obtain ⟨base, H, A, eb, -, e⟩ := fnRun_ok h (d := d') hq.2.1 hq.2.2.1 hq.2.2.2.1
    refine ⟨_, e, ?_⟩
    rw [PyCfg.names, List.mem_cons, List.mem_map, fnCalls_of e, eb]
    simp only [Option.getD_some, eq_comm]
  have mem : ∀ k : ℕ, s ∈ cfg.allNames (k : ℤ) ↔ ∃ d' q, cfg.Generated d' q ∧ (k : ℤ) = maxQ q ∧ s ∈ cfg.names d' q := by
    intro k
    simp only [PyCfg.allNames, List.mem_append, List.mem_flatMap, h.S _ _]
    constructor
    · rintro (⟨q, hq, hs⟩ | ⟨q, hq, hs⟩)
      all_goals
        rw [mem_classes (by omega)] at hq
        split at hs
        · exact ⟨_, q, hq, by assumption, hs⟩
        · cases hs
    · rintro ⟨d', q, hq, hk, hs⟩
      have hd' : d' = 0 ∨ d' = 1 := by have := hq.1; omega
      have hm := (mem_classes (by omega)).2 hq
      rcases hd' with rfl | rfl
      · exact .inl ⟨q, hm, by rw [if_pos hk]; exact hs⟩
      · exact .inr ⟨q, hm, by rw [if_pos hk]; exact hs⟩
  rw [List.mem_flatMap]
  constructor
  · rintro ⟨k, hk, hs⟩
    obtain ⟨d', q, hq, e, hs⟩ := (mem k).1 hs
    obtain ⟨f, ef, hf⟩ := names d' q hq
    rw [List.mem_range] at hk
    unfold maxQ at e
    exact ⟨d', q, f, hq, by omega, ef, hf.1 hs⟩
  · rintro ⟨d', q, f, hq, hl, ef, hs⟩
    obtain ⟨f', ef', hf⟩ := names d' q hq
    rw [ef, Option.some.injEq] at ef'
    subst ef'
    obtain ⟨v1, v2, v3, v4⟩ := hq.2.2.1
    refine ⟨(maxQ q).toNat, ?_, (mem _).2 ⟨d', q, hq, ?_, hf.2 hs⟩⟩
    · rw [List.mem_range]; unfold maxQ; omega
    · unfold maxQ; omega

/-- **C53 (false as stated).** With derivatives, the lists of order 0 and order 1 are the same; the list of
order 0 has the source file of a derivative. -/
theorem C53_lists_shared {cfg : PyCfg} (h : cfg.OK) (hder : 1 ≤ cfg.der) {st : PySt} (hst : cfg.run = some st) (l : ℕ) :
    st.fileList 0 l = st.fileList 1 l ∧ ∃ L, st.fileList 0 l = some L ∧ "ostei_deriv1_s_s_s_s.c" ∈ L := by
  constructor
  · rw [run_ok h, Option.some.injEq] at hst
    subst hst
    have : 0 < cfg.der := hder
    simp [PySt.fileList, pyState, PyLists.dict, this]
  · obtain ⟨L, e, hL⟩ := C53_contents h hst (d := 0) (by omega) l
    refine ⟨L, e, (hL _).2 ?_⟩
    have hg : cfg.Generated 1 ssss := ⟨.inr ⟨rfl, hder⟩, rfl, by simp [ssss], by simp [ssss], by simp [ssss]⟩
    obtain ⟨base, H, A, eb, -, e⟩ := fnRun_ok h (d := 1) hg.2.1 hg.2.2.1 hg.2.2.2.1
    refine ⟨1, ssss, _, hg, by simp [ssss], e, .inl ?_⟩
    have : fnBase 1 ssss = some "ostei_deriv1_s_s_s_s" := by decide +kernel
    rw [this, Option.some.injEq] at eb
    rw [← eb]
    show _ = "ostei_deriv1_s_s_s_s" ++ ".c"
    decide +kernel

/-- **C53 (partial).** Without derivatives the list of order 0 has only the functions of order 0 and their
helpers.  Missing: runs with derivatives (`C53_lists_shared`). -/
theorem C53_separate_partial {cfg : PyCfg} (h : cfg.OK) (hder : cfg.der = 0) {st : PySt} (hst : cfg.run = some st)
    (l : ℕ) : ∃ L, st.fileList 0 l = some L ∧ ∀ s, s ∈ L ↔ ∃ q f, cfg.Generated 0 q ∧
      (q.a ≤ l ∧ q.b ≤ l ∧ q.c ≤ l ∧ q.d ≤ l) ∧ cfg.fnRun 0 q = some f ∧
      (s = f.name ∨ ∃ r ∈ f.calls, s = r.file) := by
  obtain ⟨L, e, hL⟩ := C53_contents h hst (d := 0) (by omega) l
  refine ⟨L, e, fun s => (hL s).trans ⟨?_, ?_⟩⟩
  · rintro ⟨d', q, f, hq, rest⟩
    have : d' = 0 := by have := hq.1; omega
    subst this
    exact ⟨q, f, hq, rest⟩
  · rintro ⟨q, f, rest⟩
    exact ⟨0, q, f, rest⟩

/-! ## A concrete run -/

/-- Classes up to p with first derivatives, all vertical and horizontal steps external. -/
def exampleCfg : PyCfg := ⟨1, 1, ⟨0, 100, 0, 100, 1⟩, id, id, id, id, "out"⟩

/-- The hypotheses hold for the example. -/
example : exampleCfg.OK :=
  ⟨fun _ _ => Iff.rfl, fun _ _ => Iff.rfl, fun _ _ => Iff.rfl, fun _ _ => Iff.rfl, by unfold IntOK; decide,
    by unfold IntOK; decide, by unfold IntOK; decide, by unfold IntOK; decide, by decide⟩

/-- Names of the helper files of the example. -/
def exampleHelpers : Option (List (String × List Routine)) :=
  exampleCfg.run.bind fun st => (exampleCfg.helpers st).map fun fs => fs.map fun f => (f.name, f.calls)

#guard ((exampleCfg.run.bind fun st => st.fileList 0 0).getD []).dedup =
  ["ostei_s_s_s_s.c", "ostei_deriv1_s_s_s_s.c", "vrr_K_s_s_p_s.c", "vrr_J_s_p_s_s.c", "hrr_L_s_p.c"]
#guard ("vrr_J_s_p_s_s.c", [Routine.vrr .I ⟨1, 0, 0, 0, ""⟩]) ∈ exampleHelpers.getD []
#guard ("vrr_I_p_s_s_s.c", []) ∈ exampleHelpers.getD []
#guard ("hrr_I_p_d.c", []) ∈ exampleHelpers.getD []
#guard (exampleHelpers.getD []).dedup.length = 39

end Simint
