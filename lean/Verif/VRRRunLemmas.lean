import Verif.VRRGenLemmas

/-!
# The whole vertical stage: lemmas
-/

set_option autoImplicit false

namespace Simint

/-! ## Directions -/

theorem vrrDirections_perm (q : List Qrt) : (vrrDirections q).Perm [RRType.L, .K, .J, .I] :=
  List.mergeSort_perm _ _

theorem vrrDirections_nodup (q : List Qrt) : (vrrDirections q).Nodup :=
  (vrrDirections_perm q).nodup_iff.2 (by decide)

theorem vrrDirections_mem (q : List Qrt) (t : RRType) : t ∈ vrrDirections q :=
  (vrrDirections_perm q).mem_iff.2 (by cases t <;> decide)

/-! ## Reached classes are below the requested ones -/

theorem VReach.under {ts : List RRType} {init : List Qrt} {q : Qrt} (h : VReach ts init q) :
    ∃ p ∈ init, p.Valid ∧ 0 < p.am ∧ ∀ u, q.am4.get u ≤ p.am4.get u := by
  induction h with
  | base q h1 h2 h3 => exact ⟨q, h1, h2, h3, fun _ => le_rfl⟩
  | step q t s i h1 h2 h3 h4 h5 ih =>
    obtain ⟨p, p1, p2, p3, p4⟩ := ih
    obtain ⟨d, -, -, -, hs, -, -⟩ := createSingle_inv h3
    refine ⟨p, p1, p2, p3, fun u => le_trans ?_ (p4 u)⟩
    rw [hs, vrrSrc_eq, Qrt.addm_am4, Qrt.am4_get, Qrt.am4_get]
    exact vslot_cen_le t u q d _

/-! ## Declared constants -/

theorem foldl_max_le {α : Type} (f : α → ℤ → ℤ) (hf : ∀ a m, m ≤ f a m) : ∀ (l : List α) (m : ℤ),
    m ≤ l.foldl (fun m s => f s m) m
  | [], m => le_rfl
  | a :: l, m => le_trans (hf a m) (foldl_max_le f hf l (f a m))

theorem foldl_max_mem {α : Type} (f : α → ℤ → ℤ) (hf : ∀ a m, m ≤ f a m) {x : ℤ} : ∀ (l : List α) (m : ℤ) (a : α),
    a ∈ l → (∀ m, x ≤ f a m) → x ≤ l.foldl (fun m s => f s m) m
  | b :: l, m, a, h, hx => by
    rcases List.mem_cons.1 h with rfl | h
    · exact le_trans (hx m) (foldl_max_le f hf l _)
    · exact foldl_max_mem f hf l _ a h hx

theorem le_vrrMaxInt {steps : List VStep} {s : VStep} (hs : s ∈ steps) (u : RRType) :
    s.ijkl u ≤ vrrMaxInt steps := by
  have hf : ∀ (a : VStep) (m : ℤ),
      m ≤ max (a.ijkl .L) (max (a.ijkl .K) (max (a.ijkl .J) (max (a.ijkl .I) m))) := by
    intro a m; omega
  have hx : ∀ m : ℤ, s.ijkl u ≤
      max (s.ijkl .L) (max (s.ijkl .K) (max (s.ijkl .J) (max (s.ijkl .I) m))) := by
    intro m; cases u <;> omega
  have := foldl_max_mem (fun (s : VStep) (m : ℤ) =>
    max (s.ijkl .L) (max (s.ijkl .K) (max (s.ijkl .J) (max (s.ijkl .I) m)))) hf steps 0 s hs hx
  exact this

/-- Factors of present sources are positive. -/
theorem ints_pos {t : RRType} {q : Qrt} (hv : q.Valid) (hp : 0 < q.am4.get t) {s : VStep}
    (hc : createSingle t q = some s) {i : ℤ} (hi : i ∈ ints2p s ∨ i ∈ ints2q s ∨ i ∈ ints2pq s) :
    1 ≤ i ∧ ∃ u, s.ijkl u = i := by
  obtain ⟨d0, hd0, hdp, -⟩ := createSingle_spec hv hp
  obtain ⟨d, hd, h1, h2, h3, h4, h5⟩ := createSingle_inv hc
  rw [hd0, Option.some.injEq] at hd
  subst hd
  obtain ⟨-, -, g2, g3, g4, g5, g6, g7⟩ := src_valid_num hv hdp
  have hn : ∀ u, s.ijkl u = vnum t q d0 u := fun u => by rw [h5, vrrIjkl_num hv hdp]
  simp only [ints2p, ints2q, ints2pq, h1, h3, hn] at hi
  cases t <;>
  simp only [RRType.s1, RRType.s2, RRType.o1, RRType.o2, RRType.isBra, if_true, Bool.false_eq_true, if_false] at g2 g3 g4 g5 g6 g7 <;>
  simp only [reduceCtorEq, or_false, false_or, or_true, true_or, if_true, if_false, or_self, List.mem_append, List.not_mem_nil, g2, g3, g4, g5, g6, g7] at hi <;>
  rcases hi with (hi | hi) | (hi | hi) <;>
  (split at hi
   · rw [List.mem_singleton] at hi
     subst hi
     exact ⟨by omega, _, hn _⟩
   · simp at hi)

section
variable {F : Type} [VOps F]
variable {ts : List RRType} {init : List Qrt} {A : VRRAlgo}

theorem inline_declOK (hA : VAlgoOK ts init A) {s : VStep} (hs : s ∈ A.steps) :
    DeclOK (inlineDecl A.steps) s := by
  obtain ⟨q, t, hq, ht, hc⟩ := hA.sph s hs
  have hp : 0 < q.z.am4.get t := by rw [Qrt.z_am4]; exact (phase_some ht).1
  have key : ∀ i, (i ∈ ints2p s ∨ i ∈ ints2q s ∨ i ∈ ints2pq s) → (inlineDecl A.steps).lit i = true := by
    intro i hi
    obtain ⟨h1, u, h2⟩ := ints_pos hq.valid.1.z hp hc hi
    have := le_vrrMaxInt hs u
    simp only [inlineDecl, decide_eq_true_eq]
    omega
  exact ⟨fun i hi => ⟨List.mem_flatMap.2 ⟨s, hs, hi⟩, Or.inr (key i (Or.inl hi))⟩,
    fun i hi => ⟨List.mem_flatMap.2 ⟨s, hs, hi⟩, Or.inr (key i (Or.inr (Or.inl hi)))⟩,
    fun i hi => ⟨List.mem_flatMap.2 ⟨s, hs, hi⟩, Or.inr (key i (Or.inr (Or.inr hi)))⟩⟩

theorem VContract.mono {ord : ℕ → List Exp} {f : Form} {P : VPar F} {am : QAM} {t : RRType} {M : ℤ}
    {c c' : Qrt → Prop} {run : VMem F → Option (VMem F)} (h : VContract ord f P am t M c run)
    (hc : ∀ q, q.Valid → q.m = 0 → q.am4 = am → c' q → c q) : VContract ord f P am t M c' run := by
  intro m
  obtain ⟨m', e, h1, h2⟩ := h m
  exact ⟨m', e, h1, fun q hq hm ha hq' => h2 q hq hm ha (hc q hq hm ha hq')⟩

theorem inline_contract {ord : ℕ → List Exp} (ho : OrdOK ord) (hA : VAlgoOK ts init A) {P : VPar F}
    {am : QAM} {t : RRType} {M : ℤ} (ht : phase ts am = some t) (hr : ReqOK A.mreq am t M) :
    VContract ord (.seq true) P am t M (Reach0 ts init) (vRunInline ord A P am) := by
  have h := steps_contract ho (P := P) (D := inlineDecl A.steps) hr (steps := vStepsFor A.steps am) (by
    intro s hs
    simp only [vStepsFor, List.mem_filter, decide_eq_true_eq] at hs
    obtain ⟨q, t', hq, ht', hc⟩ := hA.sph s hs.1
    obtain ⟨d, -, -, h3, -⟩ := createSingle_inv hc
    have ham : q.am4 = am := by rw [← hs.2, h3, Qrt.z_am4]
    rw [ham, ht, Option.some.injEq] at ht'
    subst ht'
    exact ⟨q.z, hq.valid.1.z, rfl, by rw [Qrt.z_am4, ham], (phase_some ht).1, hc, inline_declOK hA hs.1⟩)
  have hrun : vRunInline ord A P am = fun m => vExecLoop A.mreq P (inlineDecl A.steps)
      ((vStepsFor A.steps am).map (vStmt ord am)) (List.range (M + 1).toNat) m := by
    funext m
    rw [vRunInline, hr.1, Option.bind_some]
  rw [hrun]
  refine h.mono ?_
  rintro e he hm ha ⟨k, hk⟩
  obtain ⟨s, hs, e1⟩ := hA.has _ hk
  refine ⟨s, ?_, ?_⟩
  · simp only [vStepsFor, List.mem_filter, decide_eq_true_eq]
    refine ⟨hs, ?_⟩
    rw [e1, Qrt.z_am4, Qrt.addm_am4, ha]
  · rw [e1]
    obtain ⟨b, k, m⟩ := e
    simp only at hm
    subst hm
    rfl

theorem vRunAllM_eq (ord : ℕ → List Exp) (enum : List Qrt → List Qrt) (se sg : ℤ) (A : VRRAlgo)
    (P : VPar F) : ∀ (l : List QAM) (m : VMem F),
      vRunAllM ord enum se sg A P l m = vRunWith (vRunMode ord enum se sg A P) l m
  | [], m => rfl
  | am :: l, m => by
    rw [vRunAllM, vRunWith]
    split
    · exact vRunAllM_eq ord enum se sg A P l m
    · congr 1
      funext m'
      exact vRunAllM_eq ord enum se sg A P l m'

/-- Conditions under which each code path used is applicable. -/
structure ModesOK (ord : ℕ → List Exp) (se sg : ℤ) (init : List Qrt) : Prop where
  ext : ∀ q ∈ init, q.am < se ∨ sg ≤ se ∨ OneSided q.am4
  gen : ∀ q ∈ init, q.am < se ∨ q.am < sg ∨ (ord = psi4List ∧ ∀ u, q.am4.get u ≤ 18)

theorem mode_contract {ord : ℕ → List Exp} (ho : OrdOK ord) (hst : OrdStart ord)
    {enum : List Qrt → List Qrt} (he : EnumOK enum) (hA : VAlgoOK ts init A) {P : VPar F} {se sg : ℤ}
    (hmode : ModesOK ord se sg init) {am : QAM} (hmem : am ∈ A.order) {t : RRType} {M : ℤ}
    (ht : phase ts am = some t) (hr : ReqOK A.mreq am t M) :
    ∃ f, VContract ord f P am t M (Reach0 ts init) (vRunMode ord enum se sg A P am) := by
  obtain ⟨hall, hne⟩ := hA.omem am hmem
  obtain ⟨q, hq, hqa⟩ := ((hA.allam am).1 hall).resolve_left hne
  obtain ⟨t', hty, ht'⟩ := vType_ok hA.sph hA.has hq
  rw [hqa] at hty ht'
  rw [ht, Option.some.injEq] at ht'
  subst ht'
  obtain ⟨p, p1, p2, p3, p4⟩ := hq.under
  rw [hqa] at p4
  have hval : am.valid = true := by rw [← hqa]; exact hq.valid.1.am4
  have htag : am.tag = "" := by rw [← hqa]; rfl
  have hpos := (phase_some ht).1
  have hle : am.a + am.b + am.c + am.d ≤ p.am := by
    have h1 := p4 .I; have h2 := p4 .J; have h3 := p4 .K; have h4 := p4 .L
    simp only [QAM.get, Qrt.am4] at h1 h2 h3 h4
    simp only [Qrt.am]; omega
  unfold vRunMode
  by_cases h1 : am.a + am.b + am.c + am.d < se
  · simp only [if_pos h1]
    exact ⟨_, inline_contract ho hA ht hr⟩
  · simp only [if_neg h1]
    by_cases h2 : am.a + am.b + am.c + am.d < sg
    · simp only [if_pos h2]
      have hone : OneSided am := by
        have hp : OneSided p.am4 := by
          rcases hmode.ext p p1 with h | h | h
          · omega
          · omega
          · exact h
        have a1 := p4 .I; have a2 := p4 .J; have a3 := p4 .K; have a4 := p4 .L
        rw [QAM.valid_iff] at hval
        have b1 := hval .I; have b2 := hval .J; have b3 := hval .K; have b4 := hval .L
        simp only [QAM.get] at a1 a2 a3 a4 b1 b2 b3 b4
        simp only [OneSided] at hp ⊢
        omega
      exact ⟨_, (external_contract ho hst he hone htag hval hpos hty hr).mono fun _ _ _ _ _ => trivial⟩
    · simp only [if_neg h2]
      rcases hmode.gen p p1 with h | h | ⟨rfl, h⟩
      · omega
      · omega
      · exact ⟨_, (general_contract htag hval (fun u => le_trans (p4 u) (h u)) hpos hty hr).mono
          fun _ _ _ _ _ => trivial⟩

end

end Simint
