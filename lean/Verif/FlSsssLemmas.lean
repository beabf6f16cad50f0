import Verif.FlSsss
import Verif.SsssLemmas
import Verif.FlFunctionLemmas
import Verif.FlShellsLemmas
import Verif.Props.BraBatch

/-! The generated function for four s shells: no horizontal stage, no vertical step, so that its loops are those of
the hand-written function. -/

set_option autoImplicit false

namespace Simint

open FlBoys (Arith)

theorem ssss_classOK : ClassOK ssss := ⟨by unfold QAM.Valid; decide, rfl, by decide, by decide⟩

theorem enum_nil {α : Type} {enum : List α → List α} (h : EnumOK enum) : enum [] = [] :=
  List.eq_nil_iff_forall_not_mem.2 fun x hx => by simpa using (h [] x).1 hx

/-- A list of copies of one element, not empty. -/
theorem enum_single {α : Type} {enum : List α → List α} (h : EnumOK enum) (a : α) :
    ∃ n, enum [a] = List.replicate (n + 1) a := by
  have h1 : ∀ x ∈ enum [a], x = a := fun x hx => by simpa using (h [a] x).1 hx
  have h2 : a ∈ enum [a] := (h [a] a).2 (by simp)
  have h3 := List.eq_replicate_iff.2 ⟨rfl, h1⟩
  have h4 := List.length_pos_of_mem h2
  exact ⟨(enum [a]).length - 1, by rw [Nat.sub_add_cancel h4]; exact h3⟩

theorem ssss_side {enum : List Dbl → List Dbl} (f : ℕ) (ty : RRType) :
    createSide psi4List enum f ty [(0, 0)] = some ⟨ty, [], []⟩ := by
  have h : pruneKeep ty (([((0 : ℤ), (0 : ℤ))].flatMap fun p => doubletTargets psi4List p.1.toNat p.2.toNat).dedup) =
      [] := by
    cases ty <;> decide +kernel
  unfold createSide
  simp only
  rw [h]
  unfold doubletLoop
  rw [if_pos rfl]
  rfl

theorem ssss_scan (ty ty' : RRType) (n : ℕ) :
    (List.replicate n ssss).foldl (scanBody ⟨ty, [], []⟩ ⟨ty', [], []⟩ []) ⟨[ssss], [], [], []⟩ =
      ⟨[ssss], [], [], []⟩ := by
  induction n with
  | zero => rfl
  | succ n ih =>
    rw [List.replicate_succ, List.foldl_cons]
    exact ih

theorem ssss_hrr {g : GenCfg} (hg : g.OK) (dir : RRType × RRType) :
    hrrCreate psi4List g.enumD g.enumQ dir.1 dir.2 [ssss] =
      some ⟨⟨dir.1, [], []⟩, ⟨dir.2, [], []⟩, [], [ssss], []⟩ := by
  obtain ⟨n, hn⟩ := enum_single hg.Q ssss
  unfold hrrCreate
  rw [show [ssss].map QAM.ket = [(0, 0)] from rfl, show [ssss].map QAM.bra = [(0, 0)] from rfl, ssss_side, ssss_side,
    Option.bind_some, Option.bind_some, show hrrFuel [ssss] = 1 from rfl]
  unfold amOrderAdd
  simp only
  rw [hn, List.replicate_succ, List.foldl_cons]
  have h1 : scanBody ⟨dir.1, [], []⟩ ⟨dir.2, [], []⟩ [] ⟨[], [], [], []⟩ ssss = ⟨[ssss], [], [], []⟩ := rfl
  rw [h1, ssss_scan, if_pos rfl, enum_nil hg.Q]
  rfl

theorem ssss_order (steps : List VStep) (allam : List QAM) (f : ℕ) : ∀ l : List Qrt, (∀ x ∈ l, x.am4 = ssss) →
    l.foldlM (fun o x => vOrderAdd steps allam (f + 1) o x.am4) [] = some []
  | [], _ => rfl
  | x :: l, h => by
    rw [List.foldlM_cons, h x List.mem_cons_self]
    have : vOrderAdd steps allam (f + 1) [] ssss = some [] := by
      unfold vOrderAdd
      rw [if_neg (by simp), if_pos (Or.inr rfl)]
    rw [this]
    exact ssss_order steps allam f l fun y hy => h y (List.mem_cons_of_mem _ hy)

/-- What the two searches give for four s shells. -/
theorem ssss_algos {g : GenCfg} (hg : g.OK) : ∃ H A, g.algos ssss = some (H, A) ∧
    AlgosOK g (hrrDirections ssss) [ssss] 0 H A ∧ H.hasHRR = false ∧ H.top = [ssss] ∧ A.order = [] := by
  obtain ⟨H, A, e, hA⟩ := algos_ok hg ssss_classOK
  have hH := hA.hcreate
  rw [ssss_hrr hg, Option.some.injEq] at hH
  subst hH
  refine ⟨_, A, e, hA, rfl, rfl, ?_⟩
  have hv := hA.vcreate
  unfold vrrCreate at hv
  simp only [Option.bind_eq_some_iff] at hv
  obtain ⟨st, h1, h2⟩ := hv
  obtain ⟨o, h3, h4⟩ := Option.map_eq_some_iff.1 h2
  rw [← h4]
  have ht : ∀ x ∈ g.enumV (classTargets psi4List ([ssss].map QAM.notag)), x.am4 = ssss := by
    intro x hx
    rw [hg.V] at hx
    have : ∀ x ∈ classTargets psi4List ([ssss].map QAM.notag), x.am4 = ssss := by decide +kernel
    exact this x hx
  have := ssss_order (vrrMapAll st.steps) (ssss :: st.solved.map Qrt.am4)
    ((((classTargets psi4List ([ssss].map QAM.notag)).map fun x => x.am.toNat).foldr max 0)) _ ht
  simp only at h3 ⊢
  unfold vrrFuel at h3
  rw [this, Option.some.injEq] at h3
  exact h3.symm

/-- The primitive stage is that of the hand-written function. -/
theorem ssss_lane {F : Arith} {g : GenCfg} {A : VRRAlgo} (hord : A.order = []) (hm : A.mreq ssss = some ((0 : ℕ) : ℤ)) (vec : Bool)
    (len : ℕ) (junk : VPar ℝ) (P Q : MSP ℝ) (i j v : ℕ) (pf : ℝ) (scratch : VMem ℝ) :
    FlPrim.lane F g vec len A 0 junk P Q i j v pf scratch =
      (FlBoys.split F vec len (fun w => flSsssArg F P Q i (j + w)) 0 0 v).map fun f t k =>
        if t = ssss ∧ k = 0 then F.fl (f * flSsssPrefac F P Q i (j + v) pf) else scratch t k := by
  have hsz : 0 + 1 ≤ vSize A.mreq ssss := by
    simp only [vSize, hm]
    decide
  unfold FlPrim.lane
  simp only [hord]
  have hfx : (fun w => FlPrim.fx F P Q i (j + w)) = fun w => flSsssArg F P Q i (j + w) := rfl
  have hpf : FlPrim.prefac F P Q i (j + v) pf = flSsssPrefac F P Q i (j + v) pf := rfl
  rw [hfx, hpf]
  cases hb : FlBoys.split F vec len (fun w => flSsssArg F P Q i (j + w)) 0 0 v with
  | none =>
    rw [if_neg]
    · rfl
    · rintro ⟨-, h⟩
      have := h 0 le_rfl
      rw [hb] at this
      cases this
  | some f =>
    rw [if_pos ⟨hsz, fun n hn => by rw [Nat.le_zero.1 hn, hb]; rfl⟩]
    unfold VRRRound.run
    rw [Option.map_some]
    simp only [vRunAllM]
    congr 1
    funext t k
    by_cases h : t = ssss ∧ k = 0
    · rw [if_pos ⟨h.1, h.2.le⟩, if_pos h, h.2, hb]
      rfl
    · rw [if_neg (fun h' => h ⟨h'.1, Nat.le_zero.1 h'.2⟩), if_neg h]

/-- The generated function for four s shells runs the loops with the primitive stage of the hand-written one. -/
theorem flFunction_ssss (F : Arith) (b : Build) {g : GenCfg} (hg : g.OK) (c : Call ℝ) (hmem : HMem (Fd F))
    (out : ℕ → Fd F) : 
    flFunction F b g ssss c hmem out = runDirectBy (flSsssEnv F b c) (b.all c.len) ssss out := by
  obtain ⟨H, A, e, hA, h1, h2, h3⟩ := ssss_algos hg
  have hm := hA.mreq
  unfold flFunction
  rw [e, Option.bind_some, h1, if_neg (by simp)]
  have hv : flVec F b g A (totalL ssss) c = flSsssVec F b c := by
    funext i j pf
    unfold flVec flSsssVec
    rw [show totalL ssss = 0 from rfl]
    simp only [ssss_lane h3 hm, Option.isSome_map]
    congr 2
    funext n t k
    cases FlBoys.split F b.vec c.len (fun w => flSsssArg F c.P c.Q i (j + w)) 0 0 n <;> rfl
  have he : flEnv F b g ssss c H A = flSsssEnv F b c := by
    unfold flEnv flSsssEnv
    rw [hv]
    simp only [h1, h2]
    rfl
  exact runDirectBy_congr he b.all ssss out

/-- Screening values of the elements between the pairs after a complete fill. -/
theorem complete_screen_pad {F : Type} [Field F] [LinearOrder F] (sh : ShCfg) (hl : 0 < sh.len)
    (hs : sh.screening = true) (ops : ShOps F) (scr : PrimScreen F) (val : Shell F → Shell F → ℕ → ℕ → F)
    (hscr : ExactScr scr val) (big : F) (ps : List (Shell F × Shell F))
    (hps : ∀ p ∈ ps, 0 < p.1.nprim ∧ 0 < p.2.nprim) (mf : ℕ → F) {M : MSP F × (ℕ → F) × (ℕ → F)}
    (e : completeList sh ops scr big ps mf = some M) {i : ℕ} (hi : i < M.1.alloc)
    (hno : ∀ s < M.1.nclip, ¬ (paddedStart sh.len M.1.nprim12 s ≤ i ∧
      i < paddedStart sh.len M.1.nprim12 s + M.1.nprim12 s)) : M.1.screen i = 0 := by
  obtain ⟨-, -, -, hn12, -⟩ := C37_fill_writes_allocation sh hl ops scr val (fun _ => hscr) big ps
  have hlen : (fillPairs sh ops scr big ps).nprim12.length = ps.length := by rw [hn12, List.length_map]
  obtain ⟨m', e', r⟩ := C41_fill sh hl hs ops scr val hscr big ps hps mf
  unfold completeList at e
  rw [e', Option.map_some, Option.some.injEq] at e
  subst e
  have hno' : ∀ s < ps.length, ¬ (paddedStart sh.len (fun s => (fillPairs sh ops scr big ps).nprim12.getD s 0) s ≤ i ∧
      i < paddedStart sh.len (fun s => (fillPairs sh ops scr big ps).nprim12.getD s 0) s +
        (fillPairs sh ops scr big ps).nprim12.getD s 0) := fun s h => hno s (h.trans_eq hlen.symm)
  refine (r.rest .screen i fun _ => hno').trans ?_
  refine pad_elem sh hl ops scr val (fun _ => hscr) big ps mf hi (fun s h => ?_) hs
  have := hno' s h
  rw [hn12] at this
  have e3 : (fun s => (ps.map fun p => pairPrims p.1 p.2).getD s 0) = npOf (countsOf ps) := rfl
  have e4 : (ps.map fun p => pairPrims p.1 p.2).getD s 0 = pairPrims ps[s].1 ps[s].2 := npOf_countsOf h
  rw [e4] at this
  exact this

end Simint
