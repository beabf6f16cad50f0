import Verif.Spec.CreatePy
import Verif.CommandLineLemmas
import Verif.FunctionLemmas
import Verif.DerivLemmas
import Verif.Props.CommandLine
import Verif.Props.Permute

/-! Lemmas about create.py. -/

set_option autoImplicit false

namespace Simint

/-! ## The searches, without the bound of the run-time tables -/

/-- What the searches give for any set of valid classes. -/
structure PreOK (g : GenCfg) (dir : RRType × RRType) (ams : List QAM) (H : HRRAlgo)
    (A : VRRAlgo) : Prop where
  hok : AlgoOK ams H
  tb : H.bra.type = dir.1
  tk : H.ket.type = dir.2
  hcreate : hrrCreate psi4List g.enumD g.enumQ dir.1 dir.2 ams = some H
  tval : ∀ t ∈ H.top, t.Valid
  tside : (∀ t ∈ H.top, t.a = 0) ∨ (∀ t ∈ H.top, t.b = 0)
  tside' : (∀ t ∈ H.top, t.c = 0) ∨ (∀ t ∈ H.top, t.d = 0)
  vok : VAlgoOK (vrrDirections (classTargets psi4List (H.top.map QAM.notag)))
    (classTargets psi4List (H.top.map QAM.notag)) A

theorem algosFor_pre {g : GenCfg} (hg : g.OK) {dir : RRType × RRType} {ams : List QAM}
    (hb : dir.1 = .I ∨ dir.1 = .J) (hk : dir.2 = .K ∨ dir.2 = .L) (hv : ∀ q ∈ ams, q.Valid) :
    ∃ H A, g.algosFor dir ams = some (H, A) ∧ PreOK g dir ams H A := by
  obtain ⟨H, eH, hok, tb, tk⟩ := hrrCreate_ok psi4_ordOK psi4_start hg.D hg.Q dir.1 dir.2 hv
  have htop : ∀ t ∈ H.top, t.Valid ∧ steppedAM dir.1 t.bra = 0 ∧ steppedAM dir.2 t.ket = 0 := by
    intro q hq
    obtain ⟨h1, h2, -, h3, h4, -⟩ := hok.inv.tp q hq
    simp only [isTop, decide_eq_true_eq] at h1
    rw [← tb, ← tk]
    exact ⟨h2, h3.resolve_left h1.1, h4.resolve_left h1.2⟩
  have hvt : ∀ a ∈ H.top.map QAM.notag, a.valid = true ∧ a.tag = "" := by
    intro a ha
    obtain ⟨t, ht, rfl⟩ := List.mem_map.1 ha
    exact ⟨valid_of_Valid (q := t.notag) (htop t ht).1, rfl⟩
  have ts1 : (∀ t ∈ H.top, t.a = 0) ∨ (∀ t ∈ H.top, t.b = 0) := by
    rcases hb with h | h
    · left
      intro t ht
      have := (htop t ht).2.1
      rw [h] at this
      simpa [steppedAM, RRType.isLeft, QAM.bra] using this
    · right
      intro t ht
      have := (htop t ht).2.1
      rw [h] at this
      simpa [steppedAM, RRType.isLeft, QAM.bra] using this
  have ts2 : (∀ t ∈ H.top, t.c = 0) ∨ (∀ t ∈ H.top, t.d = 0) := by
    rcases hk with h | h
    · left
      intro t ht
      have := (htop t ht).2.2
      rw [h] at this
      simpa [steppedAM, RRType.isLeft, QAM.ket] using this
    · right
      intro t ht
      have := (htop t ht).2.2
      rw [h] at this
      simpa [steppedAM, RRType.isLeft, QAM.ket] using this
  have hnd := vrrDirections_nodup (classTargets psi4List (H.top.map QAM.notag))
  have hts := vrrDirections_mem (classTargets psi4List (H.top.map QAM.notag))
  obtain ⟨A, eA, hA⟩ := vrrCreate_ok
    (ts := vrrDirections (classTargets psi4List (H.top.map QAM.notag))) hg.V hnd hts
    (classTargets_px psi4_ordOK psi4_start hvt) (classTargets_valid psi4_ordOK psi4_start hvt)
  exact ⟨H, A, by simp [GenCfg.algosFor, eH, eA],
    ⟨hok, tb, tk, eH, fun t ht => (htop t ht).1, ts1, ts2, hA⟩⟩

/-- A helper routine as it occurs in generated functions: all numbers at most `N`. -/
def Routine.Good (N : ℤ) : Routine → Prop
  | .vrr t am => am.Valid ∧ am.tag = "" ∧ OneSided am ∧ 0 < am.get t ∧ (am.a ≤ N ∧ am.b ≤ N ∧ am.c ≤ N ∧ am.d ≤ N)
  | .hrr t p => 0 ≤ p.1 ∧ 0 ≤ p.2 ∧ 0 < steppedAM t p ∧ p.1 ≤ N ∧ p.2 ≤ N

/-- A class of the vertical stage lies below a top class. -/
theorem PreOK.under {g : GenCfg} {dir : RRType × RRType} {ams : List QAM} {H : HRRAlgo} {A : VRRAlgo}
    (h : PreOK g dir ams H A) {a : QAM} (ha : a ∈ A.order) : a.Valid ∧ a.tag = "" ∧
      (∃ t, vType A.steps a = some t ∧ 0 < a.get t) ∧ ∃ p ∈ H.top, ∀ u, a.get u ≤ p.get u := by
  have hvt : ∀ a ∈ H.top.map QAM.notag, a.valid = true ∧ a.tag = "" := by
    intro a ha
    obtain ⟨t, ht, rfl⟩ := List.mem_map.1 ha
    exact ⟨valid_of_Valid (q := t.notag) (h.tval t ht), rfl⟩
  obtain ⟨h1, h2⟩ := h.vok.omem a ha
  obtain ⟨q, hq, rfl⟩ := ((h.vok.allam a).1 h1).resolve_left h2
  obtain ⟨t, k1, k2⟩ := vType_ok h.vok.sph h.vok.has hq
  obtain ⟨p, hp, -, -, hu⟩ := hq.under
  rw [mem_classTargets psi4_ordOK psi4_start hvt] at hp
  obtain ⟨p', hp', e⟩ := List.mem_map.1 hp.2.2
  obtain ⟨⟨⟨v1, v2⟩, ⟨v3, v4⟩, -⟩, -⟩ := hq.valid
  refine ⟨⟨?_, ?_, ?_, ?_⟩, rfl, ⟨t, k1, (phase_some k2).1⟩, p', hp', fun u => ?_⟩
  · have := v1.1; have := v1.2.1; have := v1.2.2; simp only [Qrt.am4, Exp.am]; omega
  · have := v2.1; have := v2.2.1; have := v2.2.2; simp only [Qrt.am4, Exp.am]; omega
  · have := v3.1; have := v3.2.1; have := v3.2.2; simp only [Qrt.am4, Exp.am]; omega
  · have := v4.1; have := v4.2.1; have := v4.2.2; simp only [Qrt.am4, Exp.am]; omega
  · have := hu u
    rw [← e] at this
    cases u <;> exact this

/-- Every call in the text of a function is to a good routine. -/
theorem PreOK.calls {g : GenCfg} {dir : RRType × RRType} {ams : List QAM} {H : HRRAlgo} {A : VRRAlgo}
    (h : PreOK g dir ams H A) {N : ℤ} (hN : ∀ q ∈ ams, q.a + q.b ≤ N ∧ q.c + q.d ≤ N) {ve vg he hg : ℤ}
    {r : Routine} (hr : r ∈ A.order.filterMap (vCallOf ve vg A) ++ H.order.filterMap (hCallOf he hg H)) :
    r.Good N := by
  rcases List.mem_append.1 hr with hr | hr
  · obtain ⟨a, ha, e⟩ := List.mem_filterMap.1 hr
    obtain ⟨k1, k2, ⟨t, k3, k4⟩, p, hp, k5⟩ := h.under ha
    unfold vCallOf at e
    split at e
    · cases e
    split at e
    · cases e
    split at e
    · rw [k3, Option.map_some, Option.some.injEq] at e
      subst e
      have ha := k5 .I; have hb := k5 .J; have hc := k5 .K; have hd := k5 .L
      simp only [QAM.get] at ha hb hc hd
      obtain ⟨n1, n2⟩ := h.hok.bnd N hN p (.inr hp)
      obtain ⟨w1, w2, w3, w4⟩ := h.tval p hp
      have ⟨z1, z2, z3, z4⟩ := k1
      refine ⟨k1, k2, ⟨?_, ?_⟩, k4, by omega, by omega, by omega, by omega⟩
      · rcases h.tside with h | h
        · have := h p hp; omega
        · have := h p hp; omega
      · rcases h.tside' with h | h
        · have := h p hp; omega
        · have := h p hp; omega
    · cases e
  · obtain ⟨q, hq, e⟩ := List.mem_filterMap.1 hr
    obtain ⟨k1, ⟨w1, w2, w3, w4⟩, -⟩ := h.hok.inv.nt q hq
    obtain ⟨n1, n2⟩ := h.hok.bnd N hN q (.inl hq)
    rw [hCallOf, getStep_ok h.hok hq, Option.bind_some] at e
    simp only [isTop, decide_eq_false_iff_not, not_and, not_not] at k1
    unfold stepSide at e
    by_cases hk : q.ket ∈ H.ket.allam
    · simp only [if_pos hk] at e
      split at e
      · cases e
      split at e
      · rw [Option.some.injEq] at e
        subst e
        obtain ⟨d, hd, e⟩ := List.mem_map.1 hk
        have := (h.hok.ket.sv d hd).2
        rw [e] at this
        refine ⟨w3, w4, this, ?_, ?_⟩ <;> simp only [QAM.ket] <;> omega
      · cases e
    · simp only [if_neg hk] at e
      split at e
      · cases e
      split at e
      · rw [Option.some.injEq] at e
        subst e
        have hb : q.bra ∈ H.bra.allam := by
          by_contra hb
          exact hk (k1 hb)
        obtain ⟨d, hd, e⟩ := List.mem_map.1 hb
        have := (h.hok.bra.sv d hd).2
        rw [e] at this
        refine ⟨w1, w2, this, ?_, ?_⟩ <;> simp only [QAM.bra] <;> omega
      · cases e

/-! ## Names -/

theorem amcharAt_some {i : ℤ} (h0 : 0 ≤ i) (h1 : i < 60) : ∃ c : Char, amchar[i.toNat]? = some c ∧
    amcharAt i = some (String.singleton c) := by
  have : i.toNat < amchar.length := by
    have : amchar.length = 60 := by decide +kernel
    omega
  exact ⟨amchar[i.toNat], List.getElem?_eq_getElem this, by
    rw [amcharAt, if_pos h0, List.getElem?_eq_getElem this, Option.map_some]⟩

theorem amStr4_some {q : QAM} (hv : q.Valid) (h : q.a < 60 ∧ q.b < 60 ∧ q.c < 60 ∧ q.d < 60) :
    ∃ s, amStr4 q = some s := by
  obtain ⟨v1, v2, v3, v4⟩ := hv
  obtain ⟨h1, h2, h3, h4⟩ := h
  obtain ⟨c1, -, e1⟩ := amcharAt_some v1 h1
  obtain ⟨c2, -, e2⟩ := amcharAt_some v2 h2
  obtain ⟨c3, -, e3⟩ := amcharAt_some v3 h3
  obtain ⟨c4, -, e4⟩ := amcharAt_some v4 h4
  exact ⟨_, by rw [amStr4, e1, e2, e3, e4]; rfl⟩

theorem fnBase_some {d : ℕ} {q : QAM} (hv : q.Valid) (h : q.a < 60 ∧ q.b < 60 ∧ q.c < 60 ∧ q.d < 60) :
    ∃ s, fnBase d q = some s := by
  obtain ⟨s, e⟩ := amStr4_some hv h
  exact ⟨_, by rw [fnBase, e]; rfl⟩

theorem Routine.base_some {r : Routine} {N : ℤ} (hr : r.Good N) (hN : N < 60) : ∃ s, r.base = some s := by
  cases r with
  | vrr t am =>
    obtain ⟨h1, -, -, -, h2, h3, h4, h5⟩ := hr
    obtain ⟨s, e⟩ := amStr4_some h1 (by omega)
    exact ⟨_, by rw [Routine.base, vrrBase, e]; rfl⟩
  | hrr t p =>
    obtain ⟨h1, h2, -, h3, h4⟩ := hr
    obtain ⟨c1, -, e1⟩ := amcharAt_some h1 (by omega)
    obtain ⟨c2, -, e2⟩ := amcharAt_some h2 (by omega)
    exact ⟨_, by rw [Routine.base, hrrBase, e1, e2]; rfl⟩

theorem pathOK_of_suffix {s : String} {x y : Char} {l : List Char} (hs : s.toList = l ++ [x, y])
    (hx : x = '.') : PathOK s := by
  subst hx
  constructor
  · rintro rfl
    have := congrArg List.length hs
    simp at this
  · intro h
    simp only [optNames, List.mem_cons, List.not_mem_nil, or_false] at h
    have h2 := congrArg (fun l : List Char => l.reverse.tail.head?) hs
    simp only [List.reverse_append, List.reverse_cons, List.reverse_nil, List.nil_append, List.cons_append,
      List.tail_cons, List.head?_cons] at h2
    rcases h with h | h | h | h | h <;> rw [h] at h2 <;> exact absurd h2 (by decide)

theorem PyCfg.path_ok (cfg : PyCfg) (b : String) : PathOK (cfg.path b) :=
  pathOK_of_suffix (x := '.') (y := 'c') (l := (cfg.outdir ++ "/" ++ b).toList)
    (by rw [PyCfg.path, String.toList_append]; rfl) rfl

theorem PyCfg.hdr_ok (cfg : PyCfg) (b : String) : PathOK (cfg.hdr b) :=
  pathOK_of_suffix (x := '.') (y := 'h') (l := (cfg.outdir ++ "/" ++ b).toList ++ "_generated".toList)
    (by rw [PyCfg.hdr, String.toList_append, List.append_assoc]; rfl) rfl

/-! ## The function generators -/

/-- The options of all generator runs. -/
def PyCfg.gen (cfg : PyCfg) : GenCfg :=
  ⟨cfg.T.ve, cfg.T.vg, cfg.T.he, cfg.T.hg, cfg.enumD, cfg.enumQ, cfg.enumV⟩

theorem PyCfg.OK.gen {cfg : PyCfg} (h : cfg.OK) : cfg.gen.OK := ⟨h.D, h.Q, h.V⟩

/-- Direction choice and classes asked for. -/
def jobDir (d : ℕ) (q : QAM) : RRType × RRType :=
  if d = 0 then hrrDirections q else setDirections (derivNeeded q)

def jobAms (d : ℕ) (q : QAM) : List QAM := if d = 0 then [q] else derivNeeded q

theorem jobDir_ok (d : ℕ) (q : QAM) : ((jobDir d q).1 = .I ∨ (jobDir d q).1 = .J) ∧
    ((jobDir d q).2 = .K ∨ (jobDir d q).2 = .L) := by
  unfold jobDir
  split
  · exact hrrDirections_ok q
  · exact setDirections_ok _

theorem jobAms_ok {d : ℕ} {q : QAM} (hq : q.Valid) {M : ℤ}
    (hM : q.a ≤ M ∧ q.b ≤ M ∧ q.c ≤ M ∧ q.d ≤ M) : (∀ p ∈ jobAms d q, p.Valid) ∧
      ∀ p ∈ jobAms d q, p.a + p.b ≤ 2 * M + 1 ∧ p.c + p.d ≤ 2 * M + 1 := by
  obtain ⟨v1, v2, v3, v4⟩ := hq
  unfold jobAms
  split
  · simp only [List.mem_singleton, forall_eq]
    exact ⟨⟨v1, v2, v3, v4⟩, by omega, by omega⟩
  · refine ⟨fun p hp => ?_, fun p hp => ?_⟩
    all_goals
      obtain ⟨t, -, rfl | ⟨hv, rfl⟩⟩ := mem_derivNeeded.1 hp
    · cases t <;> refine ⟨?_, ?_, ?_, ?_⟩ <;> simp only [raisedQ, QAM.bump] <;> omega
    · simpa [QAM.valid, QAM.Valid] using hv
    · cases t <;> refine ⟨?_, ?_⟩ <;> simp only [raisedQ, QAM.bump] <;> omega
    · cases t <;> refine ⟨?_, ?_⟩ <;> simp only [loweredQ, QAM.bump] <;> omega

/-- The run of a function generator: name of the file and calls in its text. -/
theorem fnRun_ok' {cfg : PyCfg} (h : cfg.OK) {d : ℕ} {q : QAM} (htag : q.tag = "") (hq : q.Valid)
    (hM : q.a ≤ cfg.maxam ∧ q.b ≤ cfg.maxam ∧ q.c ≤ cfg.maxam ∧ q.d ≤ cfg.maxam) :
    ∃ base H A, fnBase d q = some base ∧ PreOK cfg.gen (jobDir d q) (jobAms d q) H A ∧
      (if d = 0 then cfg.gen.algos q else cfg.gen.derivAlgos q) = some (H, A) ∧
      cfg.fnRun d q = some ⟨base ++ ".c", [], A.order.filterMap (vCallOf cfg.T.ve cfg.T.vg A) ++
        H.order.filterMap (hCallOf cfg.T.he cfg.T.hg H)⟩ := by
  have h60 := h.am
  have ⟨v1, v2, v3, v4⟩ := hq
  obtain ⟨m1, m2, m3, m4⟩ := hM
  obtain ⟨base, eb⟩ := fnBase_some (d := d) hq (by omega)
  obtain ⟨m, st, e, o1, o2, o3, o4, -, -, -, a1, a2, a3, a4⟩ := C56_create_ostei
    (if d = 0 then .ostei else .deriv1) (by split <;> simp) "generator" (cfg.path base)
    (cfg.hdr (if d = 0 then "ostei" else "ostei_deriv1")) cfg.T (q.a, q.b, q.c, q.d)
    (cfg.path_ok _) (cfg.hdr_ok _) (by unfold IntOK; simp only; omega) h.ve h.vg h.he h.hg
  obtain ⟨H, A, eA, hA⟩ := algosFor_pre h.gen (jobDir_ok d q).1 (jobDir_ok d q).2
    (jobAms_ok (d := d) hq ⟨m1, m2, m3, m4⟩).1
  have eam : (⟨st.am 0, st.am 1, st.am 2, st.am 3, ""⟩ : QAM) = q := by
    rw [a1, a2, a3, a4, ← htag]
  have ealg : (if d = 0 then cfg.gen.algos q else cfg.gen.derivAlgos q) = some (H, A) := by
    rw [← eA]
    unfold jobDir jobAms GenCfg.algos GenCfg.derivAlgos
    split <;> rfl
  refine ⟨base, H, A, eb, hA, ealg, ?_⟩
  unfold PyCfg.fnRun
  rw [eb, Option.bind_some, e, Option.bind_some]
  simp only [o1, o2, o3, o4, eam]
  unfold PyCfg.gen at ealg
  rw [ealg]
  rfl

theorem fnRun_ok {cfg : PyCfg} (h : cfg.OK) {d : ℕ} {q : QAM} (htag : q.tag = "") (hq : q.Valid)
    (hM : q.a ≤ cfg.maxam ∧ q.b ≤ cfg.maxam ∧ q.c ≤ cfg.maxam ∧ q.d ≤ cfg.maxam) :
    ∃ base H A, fnBase d q = some base ∧ PreOK cfg.gen (jobDir d q) (jobAms d q) H A ∧
      cfg.fnRun d q = some ⟨base ++ ".c", [], A.order.filterMap (vCallOf cfg.T.ve cfg.T.vg A) ++
        H.order.filterMap (hCallOf cfg.T.he cfg.T.hg H)⟩ := by
  obtain ⟨base, H, A, h1, h2, -, h3⟩ := fnRun_ok' h (d := d) htag hq hM
  exact ⟨base, H, A, h1, h2, h3⟩

/-! ## Reading the logs -/

theorem intOK_of {z N : ℤ} (h0 : 0 ≤ z) (h1 : z ≤ N) (hN : N < 60) : IntOK z := by
  unfold IntOK; omega

theorem stoi_am {z N : ℤ} (h0 : 0 ≤ z) (h1 : z ≤ N) (hN : N < 60) : stoi (toString z) = some z :=
  stoi_int (intOK_of h0 h1 hN).1 (intOK_of h0 h1 hN).2

/-- The entry of `reqext_hrr` or `reqext_vrr` for a routine. -/
def Routine.req (r : Routine) : List String := r.logLine.drop 3

/-- The entries appended to `reqext_hrr`. -/
def Routine.hreq : Routine → Option (List String)
  | .hrr t p => some (Routine.hrr t p).req
  | .vrr _ _ => none

/-- The entries appended to `reqext_vrr`. -/
def Routine.vreq : Routine → Option (List String)
  | .vrr t am => some (Routine.vrr t am).req
  | .hrr _ _ => none

theorem hrrReqBase_ok {t : RRType} {p : ℤ × ℤ} {N : ℤ} (h : (Routine.hrr t p).Good N) (hN : N < 60) :
    hrrReqBase (Routine.hrr t p).req = (Routine.hrr t p).base := by
  obtain ⟨h1, h2, -, h3, h4⟩ := h
  show ((stoi (toString p.1)).bind fun a => (stoi (toString p.2)).bind fun b => _) = _
  rw [stoi_am h1 h3 hN, Option.bind_some, stoi_am h2 h4 hN, Option.bind_some]
  rfl

theorem qam_eta {q : QAM} (h : q.tag = "") : (⟨q.a, q.b, q.c, q.d, ""⟩ : QAM) = q := by
  cases q; simp only at h; rw [h]

theorem vrrReqBase_ok {t : RRType} {am : QAM} {N : ℤ} (h : (Routine.vrr t am).Good N) (hN : N < 60) :
    vrrReqBase (Routine.vrr t am).req = (Routine.vrr t am).base := by
  obtain ⟨⟨v1, v2, v3, v4⟩, ht, -, -, h1, h2, h3, h4⟩ := h
  show ((stoi (toString am.a)).bind fun a => (stoi (toString am.b)).bind fun b =>
    (stoi (toString am.c)).bind fun c => (stoi (toString am.d)).bind fun d => _) = _
  rw [stoi_am v1 h1 hN, Option.bind_some, stoi_am v2 h2 hN, Option.bind_some, stoi_am v3 h3 hN,
    Option.bind_some, stoi_am v4 h4 hN, Option.bind_some, qam_eta ht]
  rfl

/-- A state of the script: all entries of `filelists` refer to one dictionary `D`. -/
def pyState (der : ℕ) (D : ℤ → List String) (hs vs : List (List String)) : PySt :=
  ⟨⟨[D], List.replicate (der + 1) 0⟩, hs, vs⟩

theorem addFile_ok {der d : ℕ} (hd : d ≤ der) (D : ℤ → List String) (hs vs : List (List String)) (mq : ℤ)
    {s : String} : (pyState der D hs vs).addFile d mq (some s) =
      some (pyState der (fun k => D k ++ if k = mq then [s ++ ".c"] else []) hs vs) := by
  have e : (List.replicate (der + 1) 0)[d]? = some 0 := by
    rw [List.getElem?_replicate, if_pos (by omega)]
  simp only [PySt.addFile, pyState, PyLists.append, Option.bind_some, e, List.getElem?_cons_zero, Option.map_some,
    List.set_cons_zero]
  congr 4
  funext k
  split <;> simp

theorem readLine_ok {der d : ℕ} (hd : d ≤ der) (D : ℤ → List String) (hs vs : List (List String)) (mq : ℤ)
    {r : Routine} {N : ℤ} (hr : r.Good N) (hN : N < 60) : readLine d mq (pyState der D hs vs) r.logLine =
      some (pyState der (fun k => D k ++ if k = mq then [r.file] else []) (hs ++ r.hreq.toList)
        (vs ++ r.vreq.toList)) := by
  obtain ⟨s, es⟩ := Routine.base_some hr hN
  cases r with
  | vrr t am =>
    rw [readLine, if_neg (by simp [Routine.logLine]), if_pos (by simp [Routine.logLine])]
    show PySt.addFile (pyState der D hs (vs ++ [(Routine.vrr t am).req])) d mq (vrrReqBase (Routine.vrr t am).req) = _
    rw [vrrReqBase_ok hr hN, es, addFile_ok hd]
    simp [Routine.file, es, Routine.hreq, Routine.vreq]
  | hrr t p =>
    rw [readLine, if_pos (by simp [Routine.logLine])]
    show PySt.addFile (pyState der D (hs ++ [(Routine.hrr t p).req]) vs) d mq (hrrReqBase (Routine.hrr t p).req) = _
    rw [hrrReqBase_ok hr hN, es, addFile_ok hd]
    simp [Routine.file, es, Routine.hreq, Routine.vreq]

theorem readLines_ok {der d : ℕ} (hd : d ≤ der) (mq : ℤ) {N : ℤ} (hN : N < 60) :
    ∀ (rs : List Routine) (D : ℤ → List String) (hs vs : List (List String)), (∀ r ∈ rs, r.Good N) →
    (rs.map Routine.logLine).foldlM (readLine d mq) (pyState der D hs vs) =
      some (pyState der (fun k => D k ++ if k = mq then rs.map Routine.file else []) (hs ++ rs.filterMap Routine.hreq)
        (vs ++ rs.filterMap Routine.vreq))
  | [], D, hs, vs, _ => by simp [pure]
  | r :: rs, D, hs, vs, h => by
    rw [List.map_cons, List.foldlM_cons, readLine_ok hd D hs vs mq (h r (by simp)) hN, Option.bind_eq_bind, Option.bind_some,
      readLines_ok hd mq hN rs _ _ _ fun r hr => h r (by simp [hr])]
    congr 2
    · funext k; split <;> simp
    · cases r with
      | vrr t am => rw [List.filterMap_cons_none rfl]; simp [Routine.hreq]
      | hrr t p => simp [Routine.hreq]
    · cases r with
      | vrr t am => simp [Routine.vreq]
      | hrr t p => rw [List.filterMap_cons_none rfl]; simp [Routine.vreq]

/-- The calls in the text of a function. -/
def PyCfg.fnCalls (cfg : PyCfg) (d : ℕ) (q : QAM) : List Routine :=
  match cfg.fnRun d q with
  | some f => f.calls
  | none => []

/-- The files that the run for class `q` adds to the list. -/
def PyCfg.names (cfg : PyCfg) (d : ℕ) (q : QAM) : List String :=
  ((fnBase d q).getD "" ++ ".c") :: (cfg.fnCalls d q).map Routine.file

theorem fnCalls_good {cfg : PyCfg} (h : cfg.OK) {d : ℕ} {q : QAM} (htag : q.tag = "") (hq : q.Valid)
    (hM : q.a ≤ cfg.maxam ∧ q.b ≤ cfg.maxam ∧ q.c ≤ cfg.maxam ∧ q.d ≤ cfg.maxam) :
    ∀ r ∈ cfg.fnCalls d q, r.Good (2 * cfg.maxam + 1) := by
  obtain ⟨base, H, A, -, hA, e⟩ := fnRun_ok h (d := d) htag hq hM
  intro r hr
  rw [PyCfg.fnCalls, e] at hr
  exact hA.calls (jobAms_ok hq hM).2 hr

theorem readFn_ok {cfg : PyCfg} (h : cfg.OK) {d : ℕ} (hd : d ≤ cfg.der) (D : ℤ → List String)
    (hs vs : List (List String)) {q : QAM} (htag : q.tag = "") (hq : q.Valid)
    (hM : q.a ≤ cfg.maxam ∧ q.b ≤ cfg.maxam ∧ q.c ≤ cfg.maxam ∧ q.d ≤ cfg.maxam) :
    cfg.readFn d (pyState cfg.der D hs vs) q = some (pyState cfg.der
      (fun k => D k ++ if k = maxQ q then cfg.names d q else []) (hs ++ (cfg.fnCalls d q).filterMap Routine.hreq)
        (vs ++ (cfg.fnCalls d q).filterMap Routine.vreq)) := by
  obtain ⟨base, H, A, eb, -, e⟩ := fnRun_ok h (d := d) htag hq hM
  have h60 := h.am
  have hlog : cfg.log d q = (cfg.fnCalls d q).map Routine.logLine := by
    rw [PyCfg.log, PyCfg.fnCalls, e]
  rw [PyCfg.readFn, eb, addFile_ok hd, Option.bind_some, hlog, readLines_ok hd _ (N := 2 * cfg.maxam + 1) (by omega) _ _ _ _
    (fnCalls_good h htag hq hM)]
  congr 2
  funext k
  split <;> simp [PyCfg.names, eb]

theorem readFns_ok {cfg : PyCfg} (h : cfg.OK) {d : ℕ} (hd : d ≤ cfg.der) :
    ∀ (qs : List QAM) (D : ℤ → List String) (hs vs : List (List String)), (∀ q ∈ qs, q.tag = "" ∧ q.Valid ∧
      (q.a ≤ cfg.maxam ∧ q.b ≤ cfg.maxam ∧ q.c ≤ cfg.maxam ∧ q.d ≤ cfg.maxam)) →
    qs.foldlM (cfg.readFn d) (pyState cfg.der D hs vs) = some (pyState cfg.der
      (fun k => D k ++ qs.flatMap fun q => if k = maxQ q then cfg.names d q else [])
      (hs ++ qs.flatMap fun q => (cfg.fnCalls d q).filterMap Routine.hreq)
      (vs ++ qs.flatMap fun q => (cfg.fnCalls d q).filterMap Routine.vreq))
  | [], D, hs, vs, _ => by simp [pure]
  | q :: qs, D, hs, vs, hq => by
    obtain ⟨h1, h2, h3⟩ := hq q (by simp)
    rw [List.foldlM_cons, readFn_ok h hd D hs vs h1 h2 h3, Option.bind_eq_bind, Option.bind_some,
      readFns_ok h hd qs _ _ _ fun q hq' => hq q (by simp [hq'])]
    simp

theorem mem_classes {cfg : PyCfg} {d : ℕ} {q : QAM} (hd : d ≤ 1) : q ∈ cfg.classes d ↔ cfg.Generated d q := by
  rw [PyCfg.classes, (C52_work_list _ _).2, PyCfg.Generated]
  simp only [QAM.Valid]
  have hd' : d = 0 ∨ d = 1 := by omega
  rcases hd' with rfl | rfl
  · rw [if_pos rfl]
    simp only [true_or, true_and, and_assoc]
  · rw [if_neg (by omega)]
    by_cases hder : cfg.der > 0
    · rw [if_pos hder]
      have : 1 ≤ cfg.der := hder
      simp only [this, and_self, or_true, true_and, and_assoc]
    · rw [if_neg hder]
      constructor
      · rintro ⟨⟨-, ⟨h1, -⟩, h2, -⟩, -⟩; omega
      · rintro ⟨h1, -⟩; omega

/-- Files, `reqext_hrr` and `reqext_vrr` at the end. -/
def PyCfg.allNames (cfg : PyCfg) (k : ℤ) : List String :=
  ((cfg.enumS (cfg.classes 0)).flatMap fun q => if k = maxQ q then cfg.names 0 q else []) ++
    (cfg.enumS (cfg.classes 1)).flatMap fun q => if k = maxQ q then cfg.names 1 q else []

def PyCfg.allCalls (cfg : PyCfg) : List Routine :=
  ((cfg.enumS (cfg.classes 0)).flatMap fun q => cfg.fnCalls 0 q) ++
    (cfg.enumS (cfg.classes 1)).flatMap fun q => cfg.fnCalls 1 q

theorem run_ok {cfg : PyCfg} (h : cfg.OK) : cfg.run = some (pyState cfg.der cfg.allNames
    (cfg.allCalls.filterMap Routine.hreq) (cfg.allCalls.filterMap Routine.vreq)) := by
  have hm : ∀ d ≤ 1, ∀ q ∈ cfg.enumS (cfg.classes d), q.tag = "" ∧ q.Valid ∧
      (q.a ≤ cfg.maxam ∧ q.b ≤ cfg.maxam ∧ q.c ≤ cfg.maxam ∧ q.d ≤ cfg.maxam) := by
    intro d hd q hq
    rw [h.S, mem_classes hd] at hq
    exact ⟨hq.2.1, hq.2.2.1, hq.2.2.2.1⟩
  have h0 := readFns_ok h (Nat.zero_le cfg.der) _ (fun _ => []) [] [] (hm 0 (by omega))
  rw [PyCfg.run]
  show ((cfg.enumS (cfg.classes 0)).foldlM (cfg.readFn 0) (pyState cfg.der (fun _ => []) [] [])).bind _ = _
  rw [h0, Option.bind_some]
  by_cases hd : 1 ≤ cfg.der
  · rw [readFns_ok h hd _ _ _ _ (hm 1 le_rfl)]
    unfold PyCfg.allNames PyCfg.allCalls
    simp [List.filterMap_append, List.filterMap_flatMap]
  · have he : cfg.enumS (cfg.classes 1) = [] := by
      refine List.eq_nil_iff_forall_not_mem.2 fun q hq => ?_
      rw [h.S, mem_classes le_rfl] at hq
      have := hq.1
      omega
    rw [he]
    unfold PyCfg.allNames PyCfg.allCalls
    simp [List.filterMap_flatMap, he, pure]

theorem mem_allCalls {cfg : PyCfg} (h : cfg.OK) {r : Routine} :
    r ∈ cfg.allCalls ↔ ∃ d q, cfg.Generated d q ∧ r ∈ cfg.fnCalls d q := by
  simp only [PyCfg.allCalls, List.mem_append, List.mem_flatMap]
  constructor
  · rintro (⟨q, hq, hr⟩ | ⟨q, hq, hr⟩)
    · rw [h.S, mem_classes (by omega)] at hq
      exact ⟨0, q, hq, hr⟩
    · rw [h.S, mem_classes (by omega)] at hq
      exact ⟨1, q, hq, hr⟩
  · rintro ⟨d, q, hq, hr⟩
    have hd : d ≤ 1 := by have := hq.1; omega
    have hm := (h.S (cfg.classes d) q).2 ((mem_classes hd).2 hq)
    have hd' : d = 0 ∨ d = 1 := by omega
    rcases hd' with rfl | rfl
    · exact .inl ⟨q, hm, hr⟩
    · exact .inr ⟨q, hm, hr⟩

theorem allCalls_good {cfg : PyCfg} (h : cfg.OK) {r : Routine} (hr : r ∈ cfg.allCalls) :
    r.Good (2 * cfg.maxam + 1) := by
  obtain ⟨d, q, hq, hr⟩ := (mem_allCalls h).1 hr
  exact fnCalls_good h hq.2.1 hq.2.2.1 hq.2.2.2.1 r hr

/-! ## The helper generators -/

theorem hrrHelper_ok {cfg : PyCfg} (h : cfg.OK) {t : RRType} {p : ℤ × ℤ} {N : ℤ} (hr : (Routine.hrr t p).Good N)
    (hN : N < 60) : cfg.hrrHelper (Routine.hrr t p).req = some ⟨(Routine.hrr t p).file, [.hrr t p], []⟩ := by
  obtain ⟨s, es⟩ := Routine.base_some hr hN
  have es' : hrrBase t.letter p = some s := es
  obtain ⟨h1, h2, hpos, h3, h4⟩ := hr
  obtain ⟨a, b⟩ := p
  simp only at h1 h2 h3 h4
  obtain ⟨st, e, -, -, hj⟩ := C56_create_hrr "generator" (cfg.path s) (cfg.hdr "hrr") t a b (cfg.path_ok _) (cfg.hdr_ok _)
    ⟨intOK_of h1 h3 hN, intOK_of h2 h4 hN⟩
  show ((stoi (toString a)).bind fun a => (stoi (toString b)).bind fun b => (hrrBase t.letter (a, b)).bind fun base => _) = _
  rw [stoi_am h1 h3 hN, Option.bind_some, stoi_am h2 h4 hN, Option.bind_some, es', Option.bind_some, PyCfg.hrrProg, e,
    Option.bind_some]
  have hfile : (Routine.hrr t (a, b)).file = s ++ ".c" := by rw [Routine.file, es]; rfl
  rw [hfile]
  have hval : (hrrJob st).1.Valid := by
    rw [hj]; cases t <;> exact ⟨by simp [h1, h2], by simp [h1, h2], by simp [h1, h2], by simp [h1, h2]⟩
  obtain ⟨H, eH, hok, tb, tk⟩ := hrrCreate_ok psi4_ordOK psi4_start h.D h.Q (hrrJob st).2.1 (hrrJob st).2.2
    (ams := [(hrrJob st).1]) (by simpa using hval)
  simp only [eH, Option.map_some, Option.some.injEq]
  have some_steps : ∀ {S : Side} {ams : List (ℤ × ℤ)}, SideOK ams S → S.type = t → (a, b) ∈ ams → S.stepsFor (a, b) ≠ [] := by
    intro S ams hS ht hm he
    have hv : (⟨⟨a, 0, 0⟩, ⟨b, 0, 0⟩⟩ : Dbl).Valid := by
      refine ⟨⟨?_, ?_, ?_⟩, ⟨?_, ?_, ?_⟩⟩ <;> first | exact h1 | exact h2 | exact le_rfl
    have e2 : (⟨⟨a, 0, 0⟩, ⟨b, 0, 0⟩⟩ : Dbl).am2 = (a, b) := by simp [Dbl.am2, Exp.am]
    have hd := hS.init _ hv (by rw [e2]; exact hm) (by rw [e2, ht]; exact hpos)
    obtain ⟨s, hs, es⟩ := hS.hs _ hd
    have : s ∈ S.stepsFor (a, b) := by
      rw [Side.stepsFor, List.mem_filter]
      exact ⟨hs, by rw [es, e2]; simp⟩
    rw [he] at this
    cases this
  have no_steps : ∀ {S : Side} {ams : List (ℤ × ℤ)}, SideOK ams S → S.stepsFor (0, 0) = [] := by
    intro S ams hS
    refine List.eq_nil_iff_forall_not_mem.2 fun s hs => ?_
    rw [Side.stepsFor, List.mem_filter, decide_eq_true_eq] at hs
    have := (hS.sv _ (hS.ste s hs.1).1).2
    rw [hs.2] at this
    unfold steppedAM at this
    split at this <;> simp at this
  have ob := hok.bra
  have ok := hok.ket
  rw [List.map_singleton] at ob ok
  cases t
  · have b1 : (hrrJob st).1.bra = (a, b) := by rw [hj]; rfl
    have b2 : (hrrJob st).1.ket = (0, 0) := by rw [hj]; rfl
    have b3 : H.bra.type = .I := by rw [tb, hj]
    rw [b1] at ob ⊢; rw [b2] at ok ⊢
    rw [if_pos (some_steps ob b3 (by simp)), if_neg (not_not.2 (no_steps ok)), b3]; rfl
  · have b1 : (hrrJob st).1.bra = (a, b) := by rw [hj]; rfl
    have b2 : (hrrJob st).1.ket = (0, 0) := by rw [hj]; rfl
    have b3 : H.bra.type = .J := by rw [tb, hj]
    rw [b1] at ob ⊢; rw [b2] at ok ⊢
    rw [if_pos (some_steps ob b3 (by simp)), if_neg (not_not.2 (no_steps ok)), b3]; rfl
  · have b1 : (hrrJob st).1.bra = (0, 0) := by rw [hj]; rfl
    have b2 : (hrrJob st).1.ket = (a, b) := by rw [hj]; rfl
    have b3 : H.ket.type = .K := by rw [tk, hj]
    rw [b1] at ob ⊢; rw [b2] at ok ⊢
    rw [if_neg (not_not.2 (no_steps ob)), if_pos (some_steps ok b3 (by simp)), b3]; rfl
  · have b1 : (hrrJob st).1.bra = (0, 0) := by rw [hj]; rfl
    have b2 : (hrrJob st).1.ket = (a, b) := by rw [hj]; rfl
    have b3 : H.ket.type = .L := by rw [tk, hj]
    rw [b1] at ob ⊢; rw [b2] at ok ⊢
    rw [if_neg (not_not.2 (no_steps ob)), if_pos (some_steps ok b3 (by simp)), b3]; rfl

/-- The file of a helper routine. -/
theorem vrrFile_ok {enumV : List Qrt → List Qrt} (hV : EnumOK enumV) (name : String) {t : RRType} {am : QAM}
    (hv : am.Valid) (ht : am.tag = "") (hp : 0 < am.get t) : vrrFile enumV name t am =
      some ⟨name, [.vrr t am], if am.b = 0 ∧ am.d = 0 then [] else [.vrr (toCallStep t) (toCall am)]⟩ := by
  obtain ⟨A, e1, e2, -⟩ := extAlgo_spec psi4_ordOK psi4_start hV (valid_of_Valid hv) ht hp
  rw [vrrFile, e1, Option.bind_some, e2, Option.map_some]

theorem vrrHelper_ok {cfg : PyCfg} (h : cfg.OK) {t : RRType} {am : QAM} {N : ℤ} (hr : (Routine.vrr t am).Good N)
    (hN : N < 60) : cfg.vrrHelper (Routine.vrr t am).req = some ⟨(Routine.vrr t am).file, [.vrr t am],
      if am.b = 0 ∧ am.d = 0 then [] else [.vrr (toCallStep t) (toCall am)]⟩ := by
  obtain ⟨s, es⟩ := Routine.base_some hr hN
  have es' : vrrBase t.letter am = some s := es
  obtain ⟨hv, ht, -, hp, h1, h2, h3, h4⟩ := hr
  have ⟨v1, v2, v3, v4⟩ := hv
  obtain ⟨st, e, -, -, hj⟩ := C56_create_vrr "generator" (cfg.path s) (cfg.hdr "vrr") t am.a am.b am.c am.d
    (cfg.path_ok _) (cfg.hdr_ok _)
    ⟨intOK_of v1 h1 hN, intOK_of v2 h2 hN, intOK_of v3 h3 hN, intOK_of v4 h4 hN⟩
  show ((stoi (toString am.a)).bind fun a => (stoi (toString am.b)).bind fun b =>
    (stoi (toString am.c)).bind fun c => (stoi (toString am.d)).bind fun d =>
      (vrrBase t.letter ⟨a, b, c, d, ""⟩).bind fun base => _) = _
  rw [stoi_am v1 h1 hN, Option.bind_some, stoi_am v2 h2 hN, Option.bind_some, stoi_am v3 h3 hN, Option.bind_some,
    stoi_am v4 h4 hN, Option.bind_some, qam_eta ht, es', Option.bind_some, PyCfg.vrrProg, e, Option.bind_some]
  simp only [hj, qam_eta ht]
  rw [vrrFile_ok h.V _ hv ht hp]
  have : (Routine.vrr t am).file = s ++ ".c" := by rw [Routine.file, es]; rfl
  rw [this]

theorem toString_zero_iff {z N : ℤ} (h0 : 0 ≤ z) (h1 : z ≤ N) (hN : N < 60) : toString z = "0" ↔ z = 0 := by
  constructor
  · intro e
    have h := stoi_am h0 h1 hN
    rw [e, show stoi "0" = some 0 by decide] at h
    exact (Option.some.inj h).symm
  · rintro rfl; rfl

/-- The routine that a helper calls is again one of the generated kind, and its own file calls nothing. -/
theorem callee_good {t : RRType} {am : QAM} {N : ℤ} (h : (Routine.vrr t am).Good N) :
    (Routine.vrr (toCallStep t) (toCall am)).Good N ∧ (toCall am).b = 0 ∧ (toCall am).d = 0 := by
  obtain ⟨⟨v1, v2, v3, v4⟩, ht, ⟨o1, o2⟩, hp, h1, h2, h3, h4⟩ := h
  obtain ⟨a, b, c, d, tag⟩ := am
  simp only at v1 v2 v3 v4 ht o1 o2 h1 h2 h3 h4
  unfold toCall
  by_cases ha : a = 0 <;> by_cases hc : c = 0 <;> simp only [ha, hc, if_true, if_false]
  all_goals
    refine ⟨⟨⟨?_, ?_, ?_, ?_⟩, ht, ⟨?_, ?_⟩, ?_, ?_, ?_, ?_, ?_⟩, ?_, ?_⟩
  all_goals first
    | exact Or.inr rfl
    | (simp only <;> omega)
    | (cases t <;> simp only [toCallStep, QAM.get] at hp ⊢ <;> omega)

theorem closure_ok {t : RRType} {am : QAM} {N : ℤ} (h : (Routine.vrr t am).Good N) (hN : N < 60) :
    vrrClosure (Routine.vrr t am).req = (Routine.vrr t am).req ::
      if am.a = 0 ∨ am.c = 0 then [(Routine.vrr (toCallStep t) (toCall am)).req] else [] := by
  obtain ⟨⟨v1, v2, v3, v4⟩, ht, ⟨o1, o2⟩, hp, h1, h2, h3, h4⟩ := h
  have z1 := toString_zero_iff v1 h1 hN
  have z3 := toString_zero_iff v3 h3 hN
  obtain ⟨a, b, c, d, tag⟩ := am
  simp only at v1 v2 v3 v4 ht o1 o2 h1 h2 h3 h4 z1 z3
  show _ :: (if toString a = "0" ∧ toString c = "0" then _ else _) = _
  simp only [z1, z3]
  congr 1
  by_cases ha : a = 0 <;> by_cases hc : c = 0 <;>
    simp only [ha, hc, if_true, if_false, and_self, and_true, and_false, true_and, true_or, or_true, or_self]
  all_goals
    cases t <;> simp only [QAM.get] at hp <;> first
      | omega
      | (simp only [toCall, ha, hc, if_true, if_false]; rfl)

/-- Routines for which a helper file is written. -/
def PyCfg.Helper (cfg : PyCfg) (r : Routine) : Prop :=
  r ∈ cfg.allCalls ∨ ∃ t am, Routine.vrr t am ∈ cfg.allCalls ∧ (am.a = 0 ∨ am.c = 0) ∧
    r = .vrr (toCallStep t) (toCall am)

/-- Routines called by the file of a routine. -/
def Routine.callees : Routine → List Routine
  | .vrr t am => if am.b = 0 ∧ am.d = 0 then [] else [.vrr (toCallStep t) (toCall am)]
  | .hrr _ _ => []

/-- The file of a routine. -/
def Routine.genFile (r : Routine) : GenFile := ⟨r.file, [r], r.callees⟩

theorem helper_good {cfg : PyCfg} (h : cfg.OK) {r : Routine} (hr : cfg.Helper r) : r.Good (2 * cfg.maxam + 1) := by
  rcases hr with hr | ⟨t, am, hr, -, rfl⟩
  · exact allCalls_good h hr
  · exact (callee_good (allCalls_good h hr)).1

/-- The helper files. -/
theorem helpers_ok {cfg : PyCfg} (h : cfg.OK) {st : PySt} (hst : cfg.run = some st) :
    ∃ fs, cfg.helpers st = some fs ∧ ∀ f, f ∈ fs ↔ ∃ r, cfg.Helper r ∧ f = r.genFile := by
  rw [run_ok h, Option.some.injEq] at hst
  subst hst
  have h60 : (2 * cfg.maxam + 1 : ℤ) < 60 := by have := h.am; omega
  -- the routine of an entry
  have hH : ∀ rs : List Routine, (∀ r ∈ rs, r.Good (2 * cfg.maxam + 1)) → (rs.filterMap Routine.hreq).mapM cfg.hrrHelper =
      some ((rs.filter fun r => r.hreq.isSome).map Routine.genFile) := by
    intro rs
    induction rs with
    | nil => intro _; rfl
    | cons r rs ih =>
      intro hg
      have ih := ih fun r hr => hg r (by simp [hr])
      cases r with
      | vrr t am => rw [List.filterMap_cons_none rfl, List.filter_cons_of_neg (by simp [Routine.hreq]), ih]
      | hrr t p =>
        rw [List.filterMap_cons_some (f := Routine.hreq) (b := (Routine.hrr t p).req) rfl, List.filter_cons_of_pos (by simp [Routine.hreq]),
          List.mapM_cons, hrrHelper_ok h (hg _ (by simp)) h60, ih]
        rfl
  have hV : ∀ rs : List Routine, (∀ r ∈ rs, r.Good (2 * cfg.maxam + 1)) →
      ∃ vs, ((rs.filterMap Routine.vreq).flatMap vrrClosure).mapM cfg.vrrHelper = some vs ∧
        ∀ f, f ∈ vs ↔ ∃ t am, Routine.vrr t am ∈ rs ∧ (f = (Routine.vrr t am).genFile ∨
          (am.a = 0 ∨ am.c = 0) ∧ f = (Routine.vrr (toCallStep t) (toCall am)).genFile) := by
    intro rs
    induction rs with
    | nil => intro _; exact ⟨[], rfl, by simp⟩
    | cons r rs ih =>
      intro hg
      obtain ⟨vs, e, hvs⟩ := ih fun r hr => hg r (by simp [hr])
      cases r with
      | hrr t p =>
        refine ⟨vs, by rw [List.filterMap_cons_none rfl, e], fun f => ?_⟩
        rw [hvs]
        simp
      | vrr t am =>
        have g1 := hg (.vrr t am) (by simp)
        have g2 := (callee_good g1).1
        rw [List.filterMap_cons_some (f := Routine.vreq) (b := (Routine.vrr t am).req) rfl, List.flatMap_cons, closure_ok g1 h60,
          List.cons_append, List.mapM_cons, vrrHelper_ok h g1 h60]
        by_cases hz : am.a = 0 ∨ am.c = 0
        · rw [if_pos hz, List.cons_append, List.mapM_cons, vrrHelper_ok h g2 h60, List.nil_append, e]
          refine ⟨(Routine.vrr t am).genFile :: (Routine.vrr (toCallStep t) (toCall am)).genFile :: vs, rfl, fun f => ?_⟩
          simp only [List.mem_cons, hvs]
          constructor
          · rintro (rfl | rfl | ⟨t', am', k1, k2⟩)
            · exact ⟨t, am, .inl rfl, .inl rfl⟩
            · exact ⟨t, am, .inl rfl, .inr ⟨hz, rfl⟩⟩
            · exact ⟨t', am', .inr k1, k2⟩
          · rintro ⟨t', am', k1 | k1, k2⟩
            · rw [Routine.vrr.injEq] at k1
              obtain ⟨rfl, rfl⟩ := k1
              rcases k2 with k2 | ⟨-, k2⟩
              · exact .inl k2
              · exact .inr (.inl k2)
            · exact .inr (.inr ⟨t', am', k1, k2⟩)
        · rw [if_neg hz, List.nil_append, e]
          refine ⟨(Routine.vrr t am).genFile :: vs, rfl, fun f => ?_⟩
          simp only [List.mem_cons, hvs]
          constructor
          · rintro (rfl | ⟨t', am', k1, k2⟩)
            · exact ⟨t, am, .inl rfl, .inl rfl⟩
            · exact ⟨t', am', .inr k1, k2⟩
          · rintro ⟨t', am', k1 | k1, k2⟩
            · rw [Routine.vrr.injEq] at k1
              obtain ⟨rfl, rfl⟩ := k1
              rcases k2 with k2 | ⟨k3, -⟩
              · exact .inl k2
              · exact absurd k3 hz
            · exact .inr ⟨t', am', k1, k2⟩
  have hgood : ∀ r ∈ cfg.allCalls, r.Good (2 * cfg.maxam + 1) := fun r hr => allCalls_good h hr
  obtain ⟨vs, e, hvs⟩ := hV _ hgood
  refine ⟨((cfg.allCalls.filter fun r => r.hreq.isSome).map Routine.genFile) ++ vs, ?_, fun f => ?_⟩
  · show ((cfg.allCalls.filterMap Routine.hreq).mapM cfg.hrrHelper).bind (fun hs =>
      (((cfg.allCalls.filterMap Routine.vreq).flatMap vrrClosure).mapM cfg.vrrHelper).map fun vs => hs ++ vs) = _
    rw [hH _ hgood, Option.bind_some, e]
    rfl
  · rw [List.mem_append, hvs, List.mem_map]
    constructor
    · rintro (⟨r, hr, rfl⟩ | ⟨t, am, hr, rfl | ⟨hz, rfl⟩⟩)
      · exact ⟨r, .inl (List.mem_filter.1 hr).1, rfl⟩
      · exact ⟨_, .inl hr, rfl⟩
      · exact ⟨_, .inr ⟨t, am, hr, hz, rfl⟩, rfl⟩
    · rintro ⟨r, hr | ⟨t, am, hr, hz, rfl⟩, rfl⟩
      · cases r with
        | vrr t am => exact .inr ⟨t, am, hr, .inl rfl⟩
        | hrr t p => exact .inl ⟨_, List.mem_filter.2 ⟨hr, rfl⟩, rfl⟩
      · exact .inr ⟨t, am, hr, .inr ⟨hz, rfl⟩⟩

theorem helper_callee {cfg : PyCfg} (h : cfg.OK) {r r' : Routine} (hr : cfg.Helper r) (hr' : r' ∈ r.callees) :
    cfg.Helper r' ∧ r'.callees = [] := by
  have hg := helper_good h hr
  cases r with
  | hrr t p => cases hr'
  | vrr t am =>
    simp only [Routine.callees] at hr'
    split at hr'
    · cases hr'
    rename_i hn
    rw [List.mem_singleton] at hr'
    subst hr'
    obtain ⟨-, hb, hd⟩ := callee_good hg
    have hc : (Routine.vrr (toCallStep t) (toCall am)).callees = [] := by
      simp only [Routine.callees]; rw [if_pos ⟨hb, hd⟩]
    refine ⟨?_, hc⟩
    rcases hr with hr | ⟨t', am', hr, hz, e⟩
    · refine .inr ⟨t, am, hr, ?_, rfl⟩
      obtain ⟨-, -, ⟨o1, o2⟩, -⟩ := hg
      omega
    · rw [Routine.vrr.injEq] at e
      obtain ⟨rfl, rfl⟩ := e
      obtain ⟨-, hb, hd⟩ := callee_good (allCalls_good h hr)
      exact absurd ⟨hb, hd⟩ hn

end Simint
