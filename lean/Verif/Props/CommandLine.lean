import Verif.CommandLineLemmas

/-!
# C56: option parsing
-/

set_option autoImplicit false

namespace Simint

/-- C56, common options: the parser accepts exactly the command lines that have a meaning and returns
that meaning. -/
theorem C56_common (m m' : OptMap) (argv r : List String) :
    parseCommon m argv = some (m', r) ↔ CommonMeans m argv.tail m' r := by
  rcases eq_or_ne argv [] with rfl | hargv
  · constructor
    · intro h
      have e : some (m, []) = some (m', r) := h
      injection e with e
      injection e with e1 e2
      subst e1 e2
      exact .nil _
    · intro h; cases h; rfl
  have hlen : 0 < argv.length := List.length_pos_iff.mpr hargv
  rw [parseCommon, Option.map_eq_some_iff]
  constructor
  · rintro ⟨st, h, e⟩
    rw [common_iff argv _ _ _ _ _ (by omega) (by omega)] at h
    obtain ⟨r', hm, hr, -⟩ := h
    injection e with e1 e2
    rw [← e1, ← e2, hr, List.nil_append, ← List.drop_one]
    exact hm
  · intro h
    refine ⟨⟨argv.length, m', r⟩, ?_, rfl⟩
    rw [common_iff argv _ _ _ _ _ (by omega) (by omega)]
    exact ⟨r, by rw [List.drop_one]; exact h, rfl, rfl⟩

/-- What is left over is in the order of the command line. -/
theorem C56_order {m m' : OptMap} {l r : List String} (h : CommonMeans m l m' r) : r.Sublist l := by
  induction h with
  | nil => exact .slnil
  | int _ _ _ ih => exact (ih.cons _).cons _
  | perm _ ih => exact ih.cons _
  | other _ _ _ ih => exact ih.cons_cons _

/-- Nothing that is left over is a common option. -/
theorem C56_left {m m' : OptMap} {l r : List String} (h : CommonMeans m l m' r) :
    ∀ s ∈ r, s ∉ optNames := by
  induction h with
  | nil => simp
  | int _ _ _ ih => exact ih
  | perm _ ih => exact ih
  | other hs hp _ ih =>
    intro s hs'
    rcases List.mem_cons.mp hs' with rfl | h
    · simp only [intOpts, List.mem_cons, Prod.mk.injEq, List.not_mem_nil, or_false, not_or, not_and] at hs
      simp only [optNames, List.mem_cons, List.not_mem_nil, or_false, not_or]
      exact ⟨fun e => (hs .extVRR).1 e rfl, fun e => (hs .genVRR).2.1 e rfl,
        fun e => (hs .extHRR).2.2.1 e rfl, fun e => (hs .genHRR).2.2.2 e rfl, hp⟩
    · exact ih s h

/-- C56, errors: the parser fails exactly when some common option lacks a readable number. -/
theorem C56_error (m : OptMap) (argv : List String) :
    parseCommon m argv = none ↔
      ∃ pre post m' r, argv.tail = pre ++ post ∧ CommonMeans m pre m' r ∧ BadInt post := by
  constructor
  · intro h
    rcases common_total _ argv.tail le_rfl m with ⟨m', r, hm⟩ | hb
    · rw [← C56_common m m' argv r, h] at hm; cases hm
    · exact hb
  · rintro ⟨pre, post, m', r, e, hp, hb⟩
    rcases h : parseCommon m argv with _ | ⟨m2, r2⟩
    · rfl
    · rw [C56_common m m2 argv r2, e] at h
      exact absurd h (common_bad hp hb _ _)

/-- C56, programs: a program starts with a job exactly when the command line means that job and names
both files and a class. -/
theorem C56_prog (p : Prog) (m : OptMap) (argv : List String) (st : ProgSt) :
    progArgs p argv = some (m, st) ↔ ∃ r, CommonMeans defaultOptions argv.tail m r ∧
      ProgMeans p ProgSt.init.job r st.job ∧ st.i = r.length ∧
      st.fpath ≠ "" ∧ st.hpath ≠ "" ∧ st.amset = true := by
  rw [progArgs, Option.bind_eq_some_iff]
  constructor
  · rintro ⟨⟨m', r⟩, h, h2⟩
    rw [C56_common _ _ _ _] at h
    rw [Option.bind_eq_some_iff] at h2
    obtain ⟨st', hw, h3⟩ := h2
    simp only at hw h3
    rw [prog_iff p r _ _ _ (by simp [ProgSt.init]) (by simp [ProgSt.init])] at hw
    split at h3
    · rename_i hc
      injection h3 with h3
      injection h3 with e1 e2
      subst e1 e2
      exact ⟨r, h, by simpa [ProgSt.init] using hw.1, hw.2, hc⟩
    · cases h3
  · rintro ⟨r, h, hp, hi, hc⟩
    refine ⟨(m, r), (C56_common _ _ _ _).mpr h, ?_⟩
    rw [Option.bind_eq_some_iff]
    refine ⟨st, ?_, by rw [if_pos hc]⟩
    rw [prog_iff p r _ _ _ (by simp [ProgSt.init]) (by simp [ProgSt.init])]
    exact ⟨by simpa [ProgSt.init] using hp, hi⟩

/-! ## Command lines of create.py -/

/-- C56, round trip: the command line of create.py for a quartet gives the two programs for functions
that quartet, the files, the thresholds, and the permutation flag for `max(q) >= p`. -/
theorem C56_create_ostei (p : Prog) (hp : p = .ostei ∨ p = .deriv1) (cmd out hdr : String) (T : Thresh)
    (q : ℤ × ℤ × ℤ × ℤ) (ho : PathOK out) (hh : PathOK hdr)
    (hq : IntOK q.1 ∧ IntOK q.2.1 ∧ IntOK q.2.2.1 ∧ IntOK q.2.2.2)
    (hve : IntOK T.ve) (hvg : IntOK T.vg) (hhe : IntOK T.he) (hhg : IntOK T.hg) :
    ∃ m st, progArgs p (osteiCmd cmd out hdr T q) = some (m, st) ∧
      m .extVRR = T.ve ∧ m .genVRR = T.vg ∧ m .extHRR = T.he ∧ m .genHRR = T.hg ∧
      m .perm = (if T.p ≤ max (max (max q.1 q.2.1) q.2.2.1) q.2.2.2 then 1 else 0) ∧
      st.fpath = out ∧ st.hpath = hdr ∧
      st.am 0 = q.1 ∧ st.am 1 = q.2.1 ∧ st.am 2 = q.2.2.1 ∧ st.am 3 = q.2.2.2 := by
  obtain ⟨a, b, c, d⟩ := q
  simp only at hq
  let a1 : List String := ["-q", toString a, toString b, toString c, toString d, "-o", out, "-oh", hdr]
  let m4 : OptMap := (((defaultOptions.set .extVRR T.ve).set .genVRR T.vg).set .extHRR T.he).set .genHRR T.hg
  let big : Prop := T.p ≤ max (max (max a b) c) d
  let st : ProgSt := ⟨9, out, hdr, fun k => [a, b, c, d].getD k 0, true, 0, false, false, false⟩
  have hno : ∀ s ∈ a1, s ∉ optNames := by
    intro s hs
    simp only [a1, List.mem_cons, List.not_mem_nil, or_false] at hs
    rcases hs with rfl | rfl | rfl | rfl | rfl | rfl | rfl | rfl | rfl
    · decide
    · exact int_not_opt a
    · exact int_not_opt b
    · exact int_not_opt c
    · exact int_not_opt d
    · decide
    · exact ho.2
    · decide
    · exact hh.2
  have hprog : ProgMeans p ProgSt.init.job a1 st.job :=
    am4 (by rcases hp with rfl | rfl <;> rfl) hq.1 hq.2.1 hq.2.2.1 hq.2.2.2 (fun _ => rfl)
      (.out (.hdr (.nil _)))
  have hcom : ∀ m' tl, CommonMeans m4 tl m' [] → CommonMeans defaultOptions
      (a1 ++ (["-ve", toString T.ve, "-vg", toString T.vg, "-he", toString T.he, "-hg", toString T.hg] ++ tl))
      m' (a1 ++ []) := fun m' tl h =>
    other_list _ _ _ hno (.int (o := .extVRR) (by simp [intOpts]) (stoi_int hve.1 hve.2)
      (.int (o := .genVRR) (by simp [intOpts]) (stoi_int hvg.1 hvg.2)
      (.int (o := .extHRR) (by simp [intOpts]) (stoi_int hhe.1 hhe.2)
      (.int (o := .genHRR) (by simp [intOpts]) (stoi_int hhg.1 hhg.2) h))))
  by_cases hbig : big
  · refine ⟨m4.set .perm 1, st, ?_, rfl, rfl, rfl, rfl, ?_, rfl, rfl, rfl, rfl, rfl, rfl⟩
    · rw [C56_prog]
      refine ⟨a1, ?_, hprog, rfl, ho.1, hh.1, rfl⟩
      have := hcom _ _ (.perm (.nil _))
      have e : osteiCmd cmd out hdr T (a, b, c, d) = cmd :: (a1 ++ (["-ve", toString T.ve, "-vg",
          toString T.vg, "-he", toString T.he, "-hg", toString T.hg] ++ ["-p"])) := by
        simp only [osteiCmd, ge_iff_le]; rw [if_pos hbig]; rfl
      rw [e, List.tail_cons]
      simpa using this
    · exact (if_pos hbig).symm
  · refine ⟨m4, st, ?_, rfl, rfl, rfl, rfl, ?_, rfl, rfl, rfl, rfl, rfl, rfl⟩
    · rw [C56_prog]
      refine ⟨a1, ?_, hprog, rfl, ho.1, hh.1, rfl⟩
      have := hcom _ _ (.nil _)
      have e : osteiCmd cmd out hdr T (a, b, c, d) = cmd :: (a1 ++ (["-ve", toString T.ve, "-vg",
          toString T.vg, "-he", toString T.he, "-hg", toString T.hg] ++ [])) := by
        simp only [osteiCmd, ge_iff_le]; rw [if_neg hbig]; rfl
      rw [e, List.tail_cons]
      simpa using this
    · exact (if_neg hbig).symm

/-- C56, round trip for a VRR helper: class and step type arrive. -/
theorem C56_create_vrr (cmd out hdr : String) (t : RRType) (a b c d : ℤ) (ho : PathOK out)
    (hh : PathOK hdr)
    (hq : IntOK a ∧ IntOK b ∧ IntOK c ∧ IntOK d) :
    ∃ st, progArgs .vrr (vrrCmd cmd out hdr (t.letter, a, b, c, d)) = some (defaultOptions, st) ∧
      st.fpath = out ∧ st.hpath = hdr ∧ vrrJob st = (⟨a, b, c, d, ""⟩, t) := by
  let a1 : List String := ["-q", toString a, toString b, toString c, toString d, "-o", out, "-oh", hdr]
  let am : ℕ → ℤ := fun k => [a, b, c, d].getD k 0
  have hno : ∀ s ∈ a1, s ∉ optNames := by
    intro s hs
    simp only [a1, List.mem_cons, List.not_mem_nil, or_false] at hs
    rcases hs with rfl | rfl | rfl | rfl | rfl | rfl | rfl | rfl | rfl
    · decide
    · exact int_not_opt a
    · exact int_not_opt b
    · exact int_not_opt c
    · exact int_not_opt d
    · decide
    · exact ho.2
    · decide
    · exact hh.2
  have key : ∀ (fl : List String) (n : ℕ) (ctr : ℕ), (∀ s ∈ fl, s ∉ optNames) →
      vrrCmd cmd out hdr (t.letter, a, b, c, d) = cmd :: (a1 ++ fl) → fl.length = n →
      ProgMeans .vrr ⟨out, hdr, am, true, 0, false, false, false⟩ fl
        ⟨out, hdr, am, true, ctr, false, false, false⟩ →
      progArgs .vrr (vrrCmd cmd out hdr (t.letter, a, b, c, d)) =
        some (defaultOptions, ⟨9 + n, out, hdr, am, true, ctr, false, false, false⟩) := by
    intro fl n ctr hfl e hn hp
    rw [C56_prog]
    refine ⟨a1 ++ fl, ?_, ?_, by simp [a1, ← hn]; omega, ho.1, hh.1, rfl⟩
    · rw [e, List.tail_cons]
      have := other_list (a1 ++ fl) [] [] (by
        intro s hs
        rcases List.mem_append.mp hs with h | h
        · exact hno s h
        · exact hfl s h) (.nil defaultOptions)
      simpa using this
    · exact am4 rfl hq.1 hq.2.1 hq.2.2.1 hq.2.2.2 (fun _ => rfl) (.out (.hdr hp))
  cases t
  · exact ⟨_, key [] 0 0 (by simp) rfl rfl (.nil _), rfl, rfl, rfl⟩
  · exact ⟨_, key ["-center_j"] 1 1 (by decide) rfl rfl (.flag (.head _) (.nil _)), rfl, rfl, rfl⟩
  · exact ⟨_, key ["-center_k"] 1 2 (by decide) rfl rfl (.flag (.tail _ (.head _)) (.nil _)), rfl, rfl, rfl⟩
  · exact ⟨_, key ["-center_l"] 1 3 (by decide) rfl rfl (.flag (.tail _ (.tail _ (.head _))) (.nil _)),
      rfl, rfl, rfl⟩

/-- C56, round trip for an HRR helper: the doublet arrives on the side of the step type, and the step
type of that side is the one asked for. -/
theorem C56_create_hrr (cmd out hdr : String) (t : RRType) (a b : ℤ) (ho : PathOK out) (hh : PathOK hdr)
    (hq : IntOK a ∧ IntOK b) :
    ∃ st, progArgs .hrr (hrrCmd cmd out hdr (t.letter, a, b)) = some (defaultOptions, st) ∧
      st.fpath = out ∧ st.hpath = hdr ∧
      hrrJob st = match t with
        | .I => (⟨a, b, 0, 0, ""⟩, .I, .L)
        | .J => (⟨a, b, 0, 0, ""⟩, .J, .L)
        | .K => (⟨0, 0, a, b, ""⟩, .J, .K)
        | .L => (⟨0, 0, a, b, ""⟩, .J, .L) := by
  let a1 : List String := ["-q", toString a, toString b, "-o", out, "-oh", hdr]
  let am : ℕ → ℤ := fun k => [a, b].getD k 0
  have hno : ∀ s ∈ a1, s ∉ optNames := by
    intro s hs
    simp only [a1, List.mem_cons, List.not_mem_nil, or_false] at hs
    rcases hs with rfl | rfl | rfl | rfl | rfl | rfl | rfl
    · decide
    · exact int_not_opt a
    · exact int_not_opt b
    · decide
    · exact ho.2
    · decide
    · exact hh.2
  have key : ∀ (fl : List String) (n : ℕ) (x y z : Bool), (∀ s ∈ fl, s ∉ optNames) →
      hrrCmd cmd out hdr (t.letter, a, b) = cmd :: (a1 ++ fl) → fl.length = n →
      ProgMeans .hrr ⟨out, hdr, am, true, 0, false, false, false⟩ fl ⟨out, hdr, am, true, 0, x, y, z⟩ →
      progArgs .hrr (hrrCmd cmd out hdr (t.letter, a, b)) =
        some (defaultOptions, ⟨7 + n, out, hdr, am, true, 0, x, y, z⟩) := by
    intro fl n x y z hfl e hn hp
    rw [C56_prog]
    refine ⟨a1 ++ fl, ?_, ?_, by simp [a1, ← hn]; omega, ho.1, hh.1, rfl⟩
    · rw [e, List.tail_cons]
      have := other_list (a1 ++ fl) [] [] (by
        intro s hs
        rcases List.mem_append.mp hs with h | h
        · exact hno s h
        · exact hfl s h) (.nil defaultOptions)
      simpa using this
    · refine .am [toString a, toString b] rfl ?_ ?_ (.out (.hdr hp))
      · intro k s hk
        rcases k with _ | _ | k
        · injection hk with hk; rw [← hk, stoi_int hq.1.1 hq.1.2]; rfl
        · injection hk with hk; rw [← hk, stoi_int hq.2.1 hq.2.2]; rfl
        · simp at hk
      · intro k hk
        have hk : 2 ≤ k := hk
        rcases k with _ | _ | k
        iterate 2 omega
        rfl
  cases t
  · exact ⟨_, key ["-bra", "-bra_i"] 2 true false true (by decide) rfl rfl
      (.flag (.tail _ (.tail _ (.head _))) (.flag (.head _) (.nil _))), rfl, rfl, rfl⟩
  · exact ⟨_, key ["-bra"] 1 false false true (by decide) rfl rfl
      (.flag (.tail _ (.tail _ (.head _))) (.nil _)), rfl, rfl, rfl⟩
  · exact ⟨_, key ["-ket_k"] 1 false true false (by decide) rfl rfl
      (.flag (.tail _ (.head _)) (.nil _)), rfl, rfl, rfl⟩
  · exact ⟨_, key [] 0 false false false (by simp) rfl rfl (.nil _), rfl, rfl, rfl⟩

/-! ## Cases -/

#guard stoi "12x" = some 12 ∧ stoi " -7" = some (-7) ∧ stoi "x" = none ∧ stoi "2147483648" = none
#guard (parseCommon defaultOptions ["g", "-x", "-ve", "3", "-p", "y"]).map
  (fun r => (r.1 .extVRR, r.1 .perm, r.2)) = some (3, 1, ["-x", "y"])
#guard (parseCommon defaultOptions ["g", "-o", "f", "-vg"]).isNone
#guard (progArgs .vrr ["g", "-q", "2", "0", "1", "0", "-o", "f", "-oh", "h", "-center_k"]).map
  (fun r => (r.2.am 0, r.2.am 2, r.2.center, r.2.fpath, r.2.hpath)) = some (2, 1, 2, "f", "h")
#guard (progArgs .ostei ["g", "-q", "2", "0", "1", "0", "-o", "f", "-oh", "h", "-center_k"]).isNone
#guard (progArgs .ostei ["g", "-q", "2", "0", "1", "0", "-o", "f"]).isNone

/-- A path that is an option name is lost: the hypothesis `PathOK` is needed. -/
example : parseCommon defaultOptions ["g", "-o", "-p"] = some (defaultOptions.set .perm 1, ["-o"]) := by
  rw [C56_common]
  exact .other (by simp [intOpts]) (by decide) (.perm (.nil _))

end Simint
