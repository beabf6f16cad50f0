import Verif.VRRRunLemmas

/-! The vertical code of a class reads only the variables of its step type. -/

set_option autoImplicit false

namespace Simint

variable {F : Type} [VOps F]

/-- Two settings of the loop variables agree on what steps of type `t` use. -/
structure VPar.Agree (P P' : VPar F) (t : RRType) : Prop where
  pa : P.pa t = P'.pa t
  apq : P.apq t = P'.apq t
  ao : P.ao t = P'.ao t
  o2 : P.o2 t = P'.o2 t
  o2pq : P.o2pq = P'.o2pq

theorem VStmt.value_congr {P P' : VPar F} {s : VStmt} (h : P.Agree P' s.type) (D : Decl)
    (rd : QAM → ℕ → Option F) (n : ℕ) : s.value P D rd n = s.value P' D rd n := by
  have h2 := h.o2
  unfold VStmt.value
  rw [h.pa, h.apq, h.ao, h.o2pq]
  cases ht : s.type <;> simp only [ht, VPar.o2, RRType.isBra, if_true, Bool.false_eq_true, if_false] at h2 ⊢ <;>
    rw [h2] <;> rfl

theorem vExecAll_congr {P P' : VPar F} (mr : MReq) (D : Decl) (n : ℕ) : ∀ (ss : List VStmt)
    (m : VMem F), (∀ s ∈ ss, P.Agree P' s.type) → vExecAll mr P D n ss m = vExecAll mr P' D n ss m
  | [], _, _ => rfl
  | s :: ss, m, h => by
    rw [vExecAll, vExecAll, VStmt.exec, VStmt.exec, VStmt.value_congr (h s (by simp))]
    congr 1
    funext m'
    exact vExecAll_congr mr D n ss m' fun x hx => h x (by simp [hx])

theorem vExecLoop_congr {P P' : VPar F} (mr : MReq) (D : Decl) (ss : List VStmt)
    (h : ∀ s ∈ ss, P.Agree P' s.type) : ∀ (ns : List ℕ) (m : VMem F),
    vExecLoop mr P D ss ns m = vExecLoop mr P' D ss ns m
  | [], _ => rfl
  | n :: ns, m => by
    rw [vExecLoop, vExecLoop, vExecAll_congr mr D n ss m h]
    congr 1
    funext m'
    exact vExecLoop_congr mr D ss h ns m'

theorem varReq_congr {P P' : VPar F} {t : RRType} (h : P.Agree P' t) (am : QAM) :
    (varReq am t).map P.env = (varReq am t).map P'.env := by
  apply List.map_congr_left
  intro v hv
  simp only [varReq, List.mem_filter, decide_eq_true_eq] at hv
  have hv := hv.2
  obtain ⟨h1, h2, h3, h4, h5⟩ := h
  simp only [varIns, List.mem_append] at hv
  rcases hv with (hv | hv) | hv
  · split at hv
    · cases t <;> simp [RRType.isBra] at hv <;>
        simp only [VPar.pa, VPar.apq, RRType.isBra, if_true, Bool.false_eq_true, if_false] at h1 h2 <;>
        rcases hv with rfl | rfl <;> simp only [VPar.env, h1, h2]
    · simp at hv
  · split at hv
    · cases t <;> simp [RRType.isBra] at hv <;>
        simp only [VPar.ao, VPar.o2, RRType.isBra, if_true, Bool.false_eq_true, if_false] at h3 h4 <;>
        rcases hv with rfl | rfl <;> simp only [VPar.env, h3, h4]
    · simp at hv
  · split at hv
    · simp at hv
      subst hv
      simp only [VPar.env, h5]
    · simp at hv

theorem gArg_congr {P P' : VPar F} {t : RRType} (h : P.Agree P' t) : gArg P t = gArg P' t := by
  unfold gArg
  rw [h.pa, h.apq, h.ao, h.o2, h.o2pq]

theorem vRunMode_congr {P P' : VPar F} (ord : ℕ → List Exp) (enum : List Qrt → List Qrt) (se sg : ℤ)
    (A : VRRAlgo) (h : ∀ s ∈ A.steps, P.Agree P' s.type) (am : QAM) (m : VMem F) :
    vRunMode ord enum se sg A P am m = vRunMode ord enum se sg A P' am m := by
  have ht : ∀ t, vType A.steps am = some t → P.Agree P' t := by
    intro t ht
    simp only [vType, Option.map_eq_some_iff] at ht
    obtain ⟨s, hs, rfl⟩ := ht
    exact h s (List.mem_filter.1 (List.mem_of_mem_head? hs)).1
  unfold vRunMode
  split
  · unfold vRunInline
    congr 1
    funext mm
    refine vExecLoop_congr _ _ _ ?_ _ _
    intro s hs
    obtain ⟨x, hx, rfl⟩ := List.mem_map.1 hs
    exact h x (List.mem_filter.1 hx).1
  · cases e : vType A.steps am with
    | none => simp [vRunExternal, vRunGeneral, e]
    | some t =>
      split
      · simp only [vRunExternal, e, Option.bind_some, varReq_congr (ht t e)]
      · simp only [vRunGeneral, e, Option.bind_some, gArg_congr (ht t e)]

theorem vRunAllM_congr {P P' : VPar F} (ord : ℕ → List Exp) (enum : List Qrt → List Qrt) (se sg : ℤ)
    (A : VRRAlgo) (h : ∀ s ∈ A.steps, P.Agree P' s.type) : ∀ (l : List QAM) (m : VMem F),
    vRunAllM ord enum se sg A P l m = vRunAllM ord enum se sg A P' l m
  | [], _ => rfl
  | am :: l, m => by
    rw [vRunAllM, vRunAllM, vRunMode_congr ord enum se sg A h]
    have : ∀ m', vRunAllM ord enum se sg A P l m' = vRunAllM ord enum se sg A P' l m' :=
      vRunAllM_congr ord enum se sg A h l
    simp only [this]

/-- No step of a type whose angular momentum is zero in all requested classes. -/
theorem step_type_pos {ts : List RRType} {init : List Qrt} {A : VRRAlgo} (hA : VAlgoOK ts init A)
    {s : VStep} (hs : s ∈ A.steps) : ∃ p ∈ init, 0 < p.am4.get s.type := by
  obtain ⟨q, t, hq, ht, hc⟩ := hA.sph s hs
  obtain ⟨p, hp, -, -, hle⟩ := hq.under
  obtain ⟨d, -, k2, -⟩ := createSingle_inv hc
  refine ⟨p, hp, ?_⟩
  rw [k2]
  exact lt_of_lt_of_le (phase_some ht).1 (hle t)

end Simint
