import Verif.FileListLemmas
import Verif.Props.CreatePy

/-! # C66: the file lists of create.py are complete, and no file is written twice (C54) -/

set_option autoImplicit false

namespace Simint

theorem maxam60 {cfg : PyCfg} (h : cfg.OK) : (2 * cfg.maxam + 1 : ℤ) < 60 := by have := h.am; omega

theorem Generated.lt60 {cfg : PyCfg} (h : cfg.OK) {d : ℕ} {q : QAM} (hq : cfg.Generated d q) :
    q.a < 60 ∧ q.b < 60 ∧ q.c < 60 ∧ q.d < 60 := by
  have := maxam60 h
  obtain ⟨-, -, -, hM, -⟩ := hq
  omega

/-- A file in the output directory is that of a function or that of a helper. -/
theorem written_iff {cfg : PyCfg} (h : cfg.OK) {st : PySt} (hst : cfg.run = some st) {f : GenFile} :
    cfg.Written st f ↔ (∃ d q, cfg.Generated d q ∧ cfg.fnRun d q = some f) ∨ ∃ r, cfg.Helper r ∧ f = r.genFile := by
  obtain ⟨fs, e, hm⟩ := helpers_ok h hst
  refine or_congr Iff.rfl ?_
  constructor
  · rintro ⟨fs', e', hf⟩
    rw [e, Option.some.injEq] at e'
    subst e'
    exact (hm f).1 hf
  · intro hr
    exact ⟨fs, e, (hm f).2 hr⟩

theorem fnRun_name {cfg : PyCfg} (h : cfg.OK) {d : ℕ} {q : QAM} (hq : cfg.Generated d q) {f : GenFile}
    (e : cfg.fnRun d q = some f) : ∃ base, fnBase d q = some base ∧ f.name = base ++ ".c" ∧
      f.calls = cfg.fnCalls d q := by
  obtain ⟨base, H, A, eb, -, e'⟩ := fnRun_ok h (d := d) hq.2.1 hq.2.2.1 hq.2.2.2.1
  have hc := fnCalls_of e
  rw [e, Option.some.injEq] at e'
  exact ⟨base, eb, by rw [e'], hc.symm⟩

/-- **C54.** No two generator runs write the same file. -/
theorem C54_no_overwrite {cfg : PyCfg} (h : cfg.OK) {st : PySt} (hst : cfg.run = some st) {f f' : GenFile}
    (hf : cfg.Written st f) (hf' : cfg.Written st f') (e : f.name = f'.name) : f = f' := by
  have h60 := maxam60 h
  rw [written_iff h hst] at hf hf'
  rcases hf with ⟨d, q, hq, hf⟩ | ⟨r, hr, rfl⟩ <;> rcases hf' with ⟨d', q', hq', hf'⟩ | ⟨r', hr', rfl⟩
  · obtain ⟨b, eb, en, -⟩ := fnRun_name h hq hf
    obtain ⟨b', eb', en', -⟩ := fnRun_name h hq' hf'
    obtain ⟨rfl, rfl⟩ := fn_inj (by have := hq.1; omega) (by have := hq'.1; omega) hq.2.2.1 hq'.2.2.1
      (Generated.lt60 h hq) (Generated.lt60 h hq') (hq.2.1.trans hq'.2.1.symm) eb eb' (by rw [← en, ← en', e])
    rw [hf] at hf'
    exact Option.some.inj hf'
  · obtain ⟨b, eb, en, -⟩ := fnRun_name h hq hf
    exact absurd (en.symm.trans e) (fn_ne_file hq.2.2.1 (Generated.lt60 h hq) eb (helper_good h hr') h60)
  · obtain ⟨b, eb, en, -⟩ := fnRun_name h hq' hf'
    exact absurd (en.symm.trans e.symm) (fn_ne_file hq'.2.2.1 (Generated.lt60 h hq') eb (helper_good h hr) h60)
  · rw [Routine.file_inj (helper_good h hr) (helper_good h hr') h60 e]

/-- Names of a list: functions within the limit and the helpers these call. -/
theorem name_mem {cfg : PyCfg} (h : cfg.OK) {st : PySt} (hst : cfg.run = some st) {d : ℕ} (hd : d ≤ cfg.der)
    (l : ℕ) : ∃ L, st.fileList d l = some L ∧
      (∀ d' q f, cfg.Generated d' q → cfg.fnRun d' q = some f →
        (f.name ∈ L ↔ q.a ≤ l ∧ q.b ≤ l ∧ q.c ≤ l ∧ q.d ≤ l)) ∧
      ∀ r, cfg.Helper r → (r.file ∈ L ↔ ∃ d' q, cfg.Generated d' q ∧ (q.a ≤ l ∧ q.b ≤ l ∧ q.c ≤ l ∧ q.d ≤ l) ∧
        r ∈ cfg.fnCalls d' q) := by
  obtain ⟨L, e, hL⟩ := C53_contents h hst hd l
  have h60 := maxam60 h
  refine ⟨L, e, ?_, ?_⟩
  · intro d' q f hq hf
    rw [hL]
    constructor
    · rintro ⟨d2, q2, f2, hq2, hl, hf2, hn⟩
      obtain ⟨b, eb, en, -⟩ := fnRun_name h hq hf
      rcases hn with hn | ⟨r, hr, hn⟩
      · obtain ⟨b', eb', en', -⟩ := fnRun_name h hq2 hf2
        obtain ⟨rfl, rfl⟩ := fn_inj (by have := hq.1; omega) (by have := hq2.1; omega) hq.2.2.1 hq2.2.2.1
          (Generated.lt60 h hq) (Generated.lt60 h hq2) (hq.2.1.trans hq2.2.1.symm) eb eb' (by rw [← en, ← en', hn])
        exact hl
      · rw [(fnRun_name h hq2 hf2).choose_spec.2.2] at hr
        exact absurd (en.symm.trans hn) (fn_ne_file hq.2.2.1 (Generated.lt60 h hq) eb
          (fnCalls_good h hq2.2.1 hq2.2.2.1 hq2.2.2.2.1 r hr) h60)
    · intro hl
      exact ⟨d', q, f, hq, hl, hf, .inl rfl⟩
  · intro r hr
    rw [hL]
    constructor
    · rintro ⟨d2, q2, f2, hq2, hl, hf2, hn⟩
      rcases hn with hn | ⟨r2, hr2, hn⟩
      · obtain ⟨b', eb', en', -⟩ := fnRun_name h hq2 hf2
        exact absurd (en'.symm.trans hn.symm) (fn_ne_file hq2.2.2.1 (Generated.lt60 h hq2) eb' (helper_good h hr) h60)
      · rw [(fnRun_name h hq2 hf2).choose_spec.2.2] at hr2
        rw [Routine.file_inj (helper_good h hr) (fnCalls_good h hq2.2.1 hq2.2.2.1 hq2.2.2.2.1 r2 hr2) h60 hn]
        exact ⟨d2, q2, hq2, hl, hr2⟩
    · rintro ⟨d2, q2, hq2, hl, hr2⟩
      obtain ⟨base, H, A, eb, -, e'⟩ := fnRun_ok h (d := d2) hq2.2.1 hq2.2.2.1 hq2.2.2.2.1
      exact ⟨d2, q2, _, hq2, hl, e', .inr ⟨r, by rw [← fnCalls_of e']; exact hr2, rfl⟩⟩

theorem called_helper {cfg : PyCfg} (h : cfg.OK) {d : ℕ} {q : QAM} (hq : cfg.Generated d q) {r : Routine}
    (hr : r ∈ cfg.fnCalls d q) : cfg.Helper r := .inl ((mem_allCalls h).2 ⟨d, q, hq, hr⟩)

/-- **C66 (partial).** Without derivatives every file list is complete: the files named in
`filelist_d0_<l>` define every helper routine that one of them calls.  Missing: lists of runs with
derivatives, see `C66_incomplete`. -/
theorem C66_complete_partial {cfg : PyCfg} (h : cfg.OK) (hder : cfg.der = 0) {st : PySt} (hst : cfg.run = some st)
    (l : ℕ) : ∃ L, st.fileList 0 l = some L ∧ cfg.Links st L := by
  obtain ⟨L, e, hf, hh⟩ := name_mem h hst (d := 0) (by omega) l
  refine ⟨L, e, fun f hw hn r hr => ?_⟩
  have h0 : ∀ {d q}, cfg.Generated d q → d = 0 := fun {d q} hq => by have := hq.1; omega
  -- it is enough to name a function within the limit that calls the routine
  suffices hs : ∃ q, cfg.Generated 0 q ∧ (q.a ≤ l ∧ q.b ≤ l ∧ q.c ≤ l ∧ q.d ≤ l) ∧ r ∈ cfg.fnCalls 0 q by
    obtain ⟨q, hq, hl, hr⟩ := hs
    have hH := called_helper h hq hr
    exact ⟨r.genFile, (written_iff h hst).2 (.inr ⟨r, hH, rfl⟩), (hh r hH).2 ⟨0, q, hq, hl, hr⟩,
      by simp [Routine.genFile]⟩
  rcases (written_iff h hst).1 hw with ⟨d, q, hq, hfr⟩ | ⟨r0, hr0, rfl⟩
  · have := h0 hq
    subst this
    rw [(fnRun_name h hq hfr).choose_spec.2.2] at hr
    exact ⟨q, hq, (hf 0 q f hq hfr).1 hn, hr⟩
  · obtain ⟨d, q, hq, hl, hc⟩ := (hh r0 hr0).1 hn
    have := h0 hq
    subst this
    cases r0 with
    | hrr t p => cases hr
    | vrr t am =>
      simp only [Routine.genFile, Routine.callees] at hr
      split at hr
      · cases hr
      · rw [List.mem_singleton] at hr
        subst hr
        obtain ⟨hg, hc'⟩ := sorted_calls h hq hc
        exact ⟨sortedQ q, hg, by unfold sortedQ; simp only; omega, hc'⟩

/-- **C66 (false with derivatives).** In a run with derivatives the list of every limit `l` is incomplete as
soon as classes of total angular momentum `2l + 1` are done by external routines: the file of
`VRR_J_s_<2l+1>_s_s` is named in it and calls `VRR_I_<2l+1>_s_s_s`, whose file is not. -/
theorem C66_incomplete {cfg : PyCfg} (h : cfg.OK) (hder : 1 ≤ cfg.der) {st : PySt} (hst : cfg.run = some st)
    {l : ℕ} (hl : l ≤ cfg.maxam) (h1 : cfg.T.ve ≤ 2 * l + 1) (h2 : 2 * l + 1 < cfg.T.vg) {d : ℕ} (hd : d ≤ cfg.der) :
    ∃ L, st.fileList d l = some L ∧ (Routine.vrr .J ⟨0, 2 * l + 1, 0, 0, ""⟩).file ∈ L ∧
      (Routine.vrr .I ⟨2 * l + 1, 0, 0, 0, ""⟩).file ∉ L ∧ ¬ cfg.Links st L := by
  obtain ⟨L, e, hf, hh⟩ := name_mem h hst hd l
  have hq : cfg.Generated 1 ⟨l, l, 0, 0, ""⟩ := by
    refine ⟨.inr ⟨rfl, hder⟩, rfl, ?_, ?_, .inl ?_⟩ <;> simp only <;> omega
  have hcall := called_deriv h hl h1 h2
  have hJ := called_helper h hq hcall
  have hJL := (hh _ hJ).2 ⟨1, _, hq, by simp only; omega, hcall⟩
  have hne : ¬ ((2 * l + 1 : ℤ) = 0 ∧ True) := by rintro ⟨h, -⟩; omega
  have hcallee : Routine.vrr .I ⟨2 * l + 1, 0, 0, 0, ""⟩ ∈
      (Routine.vrr .J ⟨0, 2 * l + 1, 0, 0, ""⟩).callees := by
    simp only [Routine.callees]
    rw [if_neg hne]
    simp [toCall, toCallStep]
  have hI : cfg.Helper (.vrr .I ⟨2 * l + 1, 0, 0, 0, ""⟩) := (helper_callee h hJ hcallee).1
  have hIL : (Routine.vrr .I ⟨2 * l + 1, 0, 0, 0, ""⟩).file ∉ L := by
    rw [hh _ hI]
    rintro ⟨d', q, hq, hle, hc⟩
    exact not_called h hq hle hc
  refine ⟨L, e, hJL, hIL, fun hlk => ?_⟩
  obtain ⟨f', hw, hn, hdef⟩ := hlk _ ((written_iff h hst).2 (.inr ⟨_, hJ, rfl⟩)) hJL _ hcallee
  rcases (written_iff h hst).1 hw with ⟨d', q, hq', hfr⟩ | ⟨r, hr, rfl⟩
  · obtain ⟨base, H, A, eb, -, e'⟩ := fnRun_ok h (d := d') hq'.2.1 hq'.2.2.1 hq'.2.2.2.1
    rw [hfr, Option.some.injEq] at e'
    rw [e'] at hdef
    cases hdef
  · simp only [Routine.genFile, List.mem_singleton] at hdef
    subst hdef
    exact hIL hn

/-! Concrete cases -/

/-- A run without derivatives. -/
def exampleCfg0 : PyCfg := { exampleCfg with der := 0 }

#guard ((exampleCfg0.run.bind fun st => st.fileList 0 1).getD []).dedup.length > 20

/-- The list of limit 0 of the example with derivatives has a missing helper. -/
example : exampleCfg.T.ve ≤ 2 * (0 : ℕ) + 1 ∧ 2 * ((0 : ℕ) : ℤ) + 1 < exampleCfg.T.vg := by decide

#guard (Routine.vrr .J ⟨0, 1, 0, 0, ""⟩).file ∈ (exampleCfg.run.bind fun st => st.fileList 1 0).getD []
#guard (Routine.vrr .I ⟨1, 0, 0, 0, ""⟩).file ∉ (exampleCfg.run.bind fun st => st.fileList 1 0).getD []
#guard (Routine.vrr .J ⟨0, 3, 0, 0, ""⟩).file ∈ (exampleCfg.run.bind fun st => st.fileList 1 1).getD []
#guard (Routine.vrr .I ⟨3, 0, 0, 0, ""⟩).file ∉ (exampleCfg.run.bind fun st => st.fileList 1 1).getD []

end Simint
