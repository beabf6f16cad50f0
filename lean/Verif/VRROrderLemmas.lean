import Verif.VRRLemmas

/-!
# Lemmas on auxiliary orders and the class order of the vertical stage
-/

set_option autoImplicit false

namespace Simint

variable {ts : List RRType} {init : List Qrt}

/-! ## Moving a step to order zero -/

/-- The quartet at order zero. -/
def Qrt.z (q : Qrt) : Qrt := ⟨q.bra, q.ket, 0⟩

@[simp] theorem Qrt.z_cen (q : Qrt) (t : RRType) : q.z.cen t = q.cen t := by cases t <;> rfl
@[simp] theorem Qrt.z_am4 (q : Qrt) : q.z.am4 = q.am4 := rfl
@[simp] theorem Qrt.z_m (q : Qrt) : q.z.m = 0 := rfl
theorem Qrt.Valid.z {q : Qrt} (h : q.Valid) : q.z.Valid := ⟨h.1, h.2.1, le_refl _⟩

theorem Qrt.low_addm (q : Qrt) (t : RRType) (d : Dir) (n k : ℤ) :
    (q.addm k).low t d n = (q.low t d n).addm k := by cases t <;> rfl

theorem vslot_addm (t : RRType) (q : Qrt) (d : Dir) (j : Fin 5) (k : ℤ) :
    vslot t (q.addm k) d j = (vslot t q d j).addm k := by
  cases t <;> fin_cases j <;> rfl

theorem Qrt.z_eq (q : Qrt) : q.z = q.addm (-q.m) := by simp [Qrt.z, Qrt.addm]

theorem Qrt.addm_addm (q : Qrt) (k l : ℤ) : (q.addm k).addm l = q.addm (k + l) := by
  simp [Qrt.addm, add_assoc]

theorem vrrSrc_z (t : RRType) (q : Qrt) (d : Dir) (i : Fin 8) :
    vrrSrc t q.z d i = (vrrSrc t q d i).addm (-q.m) := by
  rw [vrrSrc_eq, vrrSrc_eq, Qrt.z_eq, vslot_addm, Qrt.addm_addm, Qrt.addm_addm, add_comm]

theorem eslot_nonneg (i : Fin 8) : 0 ≤ eslot i := by rcases eslot_cases i with h | h <;> omega

theorem src_valid_iff {t : RRType} {q : Qrt} (hm : 0 ≤ q.m) (d : Dir) (i : Fin 8) :
    (vrrSrc t q d i).Valid ↔ ∀ u, ((vslot t q d (kslot i)).cen u).Valid := by
  rw [vrrSrc_eq, Qrt.valid_iff]
  have := eslot_nonneg i
  simp only [Qrt.addm_cen, Qrt.addm_m, vslot_m, and_iff_left_iff_imp]
  intro _; omega

theorem vslot_z_cen (t u : RRType) (q : Qrt) (d : Dir) (j : Fin 5) :
    (vslot t q.z d j).cen u = (vslot t q d j).cen u := by
  rw [Qrt.z_eq, vslot_addm, Qrt.addm_cen]

theorem src_valid_z {t : RRType} {q : Qrt} (hm : 0 ≤ q.m) (d : Dir) (i : Fin 8) :
    (vrrSrc t q.z d i).Valid ↔ (vrrSrc t q d i).Valid := by
  rw [src_valid_iff hm, src_valid_iff (by simp)]
  simp only [vslot_z_cen]

theorem vrrIjkl_z {t : RRType} {q : Qrt} (hm : 0 ≤ q.m) (d : Dir) :
    vrrIjkl t q.z d (vrrSrc t q.z d) = vrrIjkl t q d (vrrSrc t q d) := by
  funext u
  cases t <;> cases u <;> simp only [vrrIjkl, src_valid_z hm] <;> rfl

theorem createSingle_norm {t : RRType} {q : Qrt} {s : VStep} (hm : 0 ≤ q.m)
    (h : createSingle t q = some s) : createSingle t q.z = some s.norm := by
  obtain ⟨d, h1, h2, h3, h4, h5, h6⟩ := createSingle_inv h
  obtain ⟨ty, tg, src, xyz, ij⟩ := s
  simp only at h2 h3 h4 h5 h6
  subst h2 h3 h4 h5 h6
  simp only [createSingle, Qrt.z_cen, h1, Option.map_some, VStep.norm, Option.some.injEq,
    VStep.mk.injEq, true_and]
  refine ⟨rfl, ?_, vrrIjkl_z hm _⟩
  funext i
  rw [vrrSrc_z]
  rfl

/-! ## The step map -/

theorem vrrMapAll_aux : ∀ (steps acc : List VStep),
    (∀ u ∈ steps.foldl (fun l s => vInsert s.norm l) acc,
      u ∈ acc ∨ ∃ s ∈ steps, u = s.norm) ∧
    (∀ u ∈ acc, u ∈ steps.foldl (fun l s => vInsert s.norm l) acc) ∧
    (∀ s ∈ steps, ∃ u ∈ steps.foldl (fun l s => vInsert s.norm l) acc, u.target = s.norm.target)
  | [], acc => by simp
  | s :: steps, acc => by
    obtain ⟨h1, h2, h3⟩ := vrrMapAll_aux steps (vInsert s.norm acc)
    simp only [List.foldl_cons]
    refine ⟨?_, fun u hu => h2 u (vInsert_mono hu), ?_⟩
    · intro u hu
      rcases h1 u hu with h | ⟨s', hs', e⟩
      · rcases mem_vInsert h with h | h
        · exact Or.inr ⟨s, by simp, h⟩
        · exact Or.inl h
      · exact Or.inr ⟨s', by simp [hs'], e⟩
    · intro s' hs'
      rcases List.mem_cons.1 hs' with rfl | hs'
      · obtain ⟨u, hu, e⟩ := vInsert_self (s := s'.norm) (l := acc)
        exact ⟨u, h2 u hu, e⟩
      · exact h3 s' hs'

theorem vInsert_nodup {s : VStep} {l : List VStep} (h : (l.map VStep.target).Nodup) :
    ((vInsert s l).map VStep.target).Nodup := by
  unfold vInsert
  split
  · exact h
  · rename_i hn
    simp only [List.map_cons, List.nodup_cons]
    refine ⟨?_, h⟩
    intro hc
    obtain ⟨t, ht, e⟩ := List.mem_map.1 hc
    exact hn ⟨t, ht, e⟩

theorem vrrMapAll_nodup (steps : List VStep) : ((vrrMapAll steps).map VStep.target).Nodup := by
  have : ∀ (steps acc : List VStep), (acc.map VStep.target).Nodup →
      ((steps.foldl (fun l s => vInsert s.norm l) acc).map VStep.target).Nodup := by
    intro steps
    induction steps with
    | nil => intro acc h; exact h
    | cons s steps ih => intro acc h; exact ih _ (vInsert_nodup h)
  exact this steps [] (by simp)

/-! ## Auxiliary orders -/

/-- Everything that enters the maximum. -/
def contrib (s : VStep) : List (QAM × ℤ) :=
  (s.target.am4, s.target.m) :: (List.ofFn s.src).map fun q => (q.am4, q.m)

/-- Invariant of the fold over contributions `C`. -/
structure MInv (C : QAM → ℤ → Prop) (f : MReq) : Prop where
  ge : ∀ a m, C a m → ∃ M, f a = some M ∧ m ≤ M
  att : ∀ a M, f a = some M → M = 0 ∨ C a M
  nn : ∀ a M, f a = some M → 0 ≤ M
  z : ∃ M, f ssss = some M

theorem mreqMax_inv {C : QAM → ℤ → Prop} {f : MReq} (h : MInv C f) (a : QAM) (m : ℤ) :
    MInv (fun b k => C b k ∨ (b = a ∧ k = m)) (mreqMax f a m) := by
  have hg : 0 ≤ (f a).getD 0 := by
    cases hf : f a with
    | none => simp
    | some M => simpa using h.nn a M hf
  have hga : (f a).getD 0 = 0 ∨ C a ((f a).getD 0) := by
    cases hf : f a with
    | none => simp
    | some M => simpa using h.att a M hf
  refine ⟨?_, ?_, ?_, ?_⟩
  · rintro b k (hc | ⟨rfl, rfl⟩)
    · obtain ⟨M, hM, hk⟩ := h.ge b k hc
      by_cases hb : b = a
      · subst hb
        exact ⟨max m M, by simp [mreqMax, hM], le_max_of_le_right hk⟩
      · exact ⟨M, by simp [mreqMax, hb, hM], hk⟩
    · exact ⟨max k ((f b).getD 0), by simp [mreqMax], le_max_left _ _⟩
  · intro b M hM
    by_cases hb : b = a
    · subst hb
      simp only [mreqMax, if_true, Option.some.injEq] at hM
      rcases le_total m ((f b).getD 0) with hle | hle
      · rw [max_eq_right hle] at hM
        subst hM
        rcases hga with h0 | h0
        · exact Or.inl h0
        · exact Or.inr (Or.inl h0)
      · rw [max_eq_left hle] at hM
        exact Or.inr (Or.inr ⟨rfl, hM.symm⟩)
    · simp only [mreqMax, hb, if_false] at hM
      rcases h.att b M hM with h0 | h0
      · exact Or.inl h0
      · exact Or.inr (Or.inl h0)
  · intro b M hM
    by_cases hb : b = a
    · subst hb
      simp only [mreqMax, if_true, Option.some.injEq] at hM
      rw [← hM]; exact le_max_of_le_right hg
    · simp only [mreqMax, hb, if_false] at hM
      exact h.nn b M hM
  · by_cases hb : ssss = a
    · exact ⟨max m ((f a).getD 0), by simp [mreqMax, hb]⟩
    · obtain ⟨M, hM⟩ := h.z
      exact ⟨M, by simp [mreqMax, hb, hM]⟩

theorem MInv.congr {C C' : QAM → ℤ → Prop} {f : MReq} (h : MInv C f)
    (he : ∀ a m, C a m ↔ C' a m) : MInv C' f := by
  have : C = C' := funext fun a => funext fun m => propext (he a m)
  rwa [← this]

theorem mreqFold_inv : ∀ (l : List Qrt) {C : QAM → ℤ → Prop} {f : MReq}, MInv C f →
    MInv (fun b k => C b k ∨ ∃ q ∈ l, (b, k) = (q.am4, q.m))
      (l.foldl (fun f q => mreqMax f q.am4 q.m) f)
  | [], C, f, h => h.congr (by simp)
  | q :: l, C, f, h => by
    rw [List.foldl_cons]
    refine (mreqFold_inv l (mreqMax_inv h q.am4 q.m)).congr fun a m => ?_
    simp only [List.exists_mem_cons_iff, Prod.mk.injEq]
    tauto

theorem mreqStep_inv {C : QAM → ℤ → Prop} {f : MReq} (h : MInv C f) (s : VStep) :
    MInv (fun b k => C b k ∨ (b, k) ∈ contrib s) (mreqStep f s) := by
  refine (mreqFold_inv (List.ofFn s.src) (mreqMax_inv h s.target.am4 s.target.m)).congr
    fun a m => ?_
  simp only [contrib, List.mem_cons, List.mem_map, Prod.mk.injEq, or_assoc, eq_comm (a := a),
    eq_comm (a := m)]

theorem mreqAll_inv (steps : List VStep) :
    MInv (fun b k => ∃ s ∈ steps, (b, k) ∈ contrib s) (mreqAll steps) := by
  have : ∀ (steps : List VStep) {C : QAM → ℤ → Prop} {f : MReq}, MInv C f →
      MInv (fun b k => C b k ∨ ∃ s ∈ steps, (b, k) ∈ contrib s) (steps.foldl mreqStep f) := by
    intro steps
    induction steps with
    | nil => intro C f h; exact h.congr (by simp)
    | cons s steps ih =>
      intro C f h
      rw [List.foldl_cons]
      refine (ih (mreqStep_inv h s)).congr fun a m => ?_
      simp only [List.exists_mem_cons_iff]
      tauto
  refine (this steps (C := fun _ _ => False)
    (f := fun b => if b = ssss then some 0 else none) ⟨?_, ?_, ?_, ?_⟩).congr (by simp)
  · simp
  · intro a M h
    split at h
    · exact Or.inl (Option.some.inj h).symm
    · simp at h
  · intro a M h
    split at h
    · exact (Option.some.inj h).le
    · simp at h
  · exact ⟨0, by simp⟩

theorem mem_contrib {s : VStep} {a : QAM} {m : ℤ} :
    (a, m) ∈ contrib s ↔ (s.target.am4 = a ∧ s.target.m = m) ∨ ∃ i, (s.src i).am4 = a ∧ (s.src i).m = m := by
  simp only [contrib, List.mem_cons, Prod.mk.injEq, List.mem_map, List.mem_ofFn,
    exists_exists_eq_and, eq_comm (a := a), eq_comm (a := m)]

/-! ## The whole algorithm -/

/-- What the vertical algorithm provides, in terms of reachable quartets. -/
structure VAlgoOK (ts : List RRType) (init : List Qrt) (A : VRRAlgo) : Prop where
  sph : ∀ s ∈ A.steps, ∃ q t, VReach ts init q ∧ phase ts q.am4 = some t ∧
    createSingle t q.z = some s
  has : ∀ q, VReach ts init q → ∃ s ∈ A.steps, s.target = q.z
  nd : (A.steps.map VStep.target).Nodup
  allam : ∀ a, a ∈ A.allam ↔ a = ssss ∨ ∃ q, VReach ts init q ∧ q.am4 = a
  mreq : ∀ q, VReach ts init q → ∃ M, A.mreq q.am4 = some M ∧ 0 ≤ M ∧ q.m ≤ M ∧
    (∃ q', VReach ts init q' ∧ q'.am4 = q.am4 ∧ q'.m = M) ∧
    ∀ t, phase ts q.am4 = some t → ∀ b ∈ vAMReq q.am4 t, ∃ M', A.mreq b = some M' ∧ M + 1 ≤ M'
  mz : ∃ M, A.mreq ssss = some M ∧ 0 ≤ M ∧ (∀ q, VReach ts init q → q.am + q.m ≤ M) ∧
    ∀ N, 0 ≤ N → (∀ q ∈ init, q.am + q.m ≤ N) → M ≤ N
  ond : A.order.Nodup
  omem : ∀ a ∈ A.order, a ∈ A.allam ∧ a ≠ ssss
  otopo : ∀ l1 a l2, A.order = l1 ++ a :: l2 → ∀ t, phase ts a = some t →
    ∀ r ∈ vAMReq a t, r = ssss ∨ r ∈ l1
  oreq : ∀ q ∈ init, q.Valid → 0 < q.am → q.am4 ∈ A.order

theorem mem_vAMReq {q : Qrt} {t : RRType} (d : Dir) {b : QAM} :
    b ∈ vAMReq q.am4 t ↔ ∃ j, b = (vslot t q d j).am4 ∧ b.valid = true := by
  simp only [vAMReq, List.mem_filter]
  constructor
  · rintro ⟨h1, h2⟩
    obtain ⟨n, hn⟩ := List.mem_iff_getElem?.1 h1
    have hlt : n < 5 := by
      have := (List.getElem?_eq_some_iff.1 hn).1
      have hl : (vAMReqAll q.am4 t).length = 5 := by cases t <;> rfl
      omega
    refine ⟨⟨n, hlt⟩, ?_, h2⟩
    have := vslot_am4 t q d ⟨n, hlt⟩
    simp only at this
    rw [hn] at this
    exact Option.some.inj this
  · rintro ⟨j, rfl, h2⟩
    exact ⟨List.mem_iff_getElem?.2 ⟨j.1, vslot_am4 t q d j⟩, h2⟩

/-- A required class holds a reachable pure-x quartet one order higher, or is `ssss`. -/
theorem req_reach (hpx : PxClosed init) {q : Qrt} (hq : VReach ts init q) {t : RRType}
    (ht : phase ts q.am4 = some t) {b : QAM} (hb : b ∈ vAMReq q.am4 t) :
    ∃ s i, createSingle t q.px = some s ∧ (s.src i).am4 = b ∧ (s.src i).m = q.m + 1 ∧
      (b = ssss ∨ VReach ts init (s.src i)) ∧ b.sum + 1 ≤ q.am4.sum ∧ b.tag = "" := by
  obtain ⟨j, rfl, hbv⟩ := (mem_vAMReq .x).1 hb
  have hp := hq.px hpx
  have hpos := (phase_some ht).1
  obtain ⟨d, hd, -, hs⟩ := createSingle_spec (t := t) hp.valid.1 (by simpa using hpos)
  obtain rfl : d = .x := by
    rw [Qrt.px_cen, makDir_px (by rw [← Qrt.am4_get]; exact hpos)] at hd
    exact (Option.some.inj hd).symm
  have hk : ∃ i, kslot i = j ∧ eslot i = 1 := by
    fin_cases j
    · exact ⟨1, rfl, rfl⟩
    · exact ⟨3, rfl, rfl⟩
    · exact ⟨5, rfl, rfl⟩
    · exact ⟨6, rfl, rfl⟩
    · exact ⟨7, rfl, rfl⟩
  obtain ⟨i, hi1, hi2⟩ := hk
  have hsrc : vrrSrc t q.px .x i = ((vslot t q .x j).addm 1).px := by
    rw [vrrSrc_eq, hi1, hi2, Qrt.px_addm, vslot_px]
  refine ⟨_, i, hs, ?_, ?_, ?_, ?_, rfl⟩
  · simp only [hsrc, Qrt.px_am4, Qrt.addm_am4]
  · simp only [hsrc, Qrt.px_m, Qrt.addm_m, vslot_m]
  · by_cases h0 : 0 < (vslot t q .x j).am
    · right
      refine VReach.step q.px t _ i hp (by simpa using ht) hs ?_ ?_
      · simp only [hsrc]
        rw [Qrt.px_valid]
        refine ⟨hbv, ?_⟩
        have := hq.valid.1.2.2
        simp only [Qrt.addm_m, vslot_m]; omega
      · simp only [hsrc, Qrt.px_am, Qrt.addm_am]; exact h0
    · left
      exact QAM.eq_ssss hbv (by rw [Qrt.am4_sum]; omega) rfl
  · have := vslot_am_lt t q .x j
    simpa using this

section order
variable {steps : List VStep} {allam : List QAM}

structure VOrd (ts : List RRType) (allam order : List QAM) : Prop where
  nd : order.Nodup
  mem : ∀ a ∈ order, a ∈ allam ∧ a ≠ ssss
  topo : ∀ l1 a l2, order = l1 ++ a :: l2 → ∀ t, phase ts a = some t →
    ∀ r ∈ vAMReq a t, r ∈ allam → r = ssss ∨ r ∈ l1

theorem VOrd.snoc {order : List QAM} (h : VOrd ts allam order) {a : QAM} (h1 : a ∉ order)
    (h2 : a ∈ allam) (h3 : a ≠ ssss)
    (h4 : ∀ t, phase ts a = some t → ∀ r ∈ vAMReq a t, r ∈ allam → r = ssss ∨ r ∈ order) :
    VOrd ts allam (order ++ [a]) := by
  refine ⟨?_, ?_, ?_⟩
  · rw [List.nodup_append]
    refine ⟨h.nd, by simp, ?_⟩
    intro x hx y hy
    rw [List.mem_singleton.1 hy]
    rintro rfl; exact h1 hx
  · intro x hx
    rcases List.mem_append.1 hx with hx | hx
    · exact h.mem x hx
    · rw [List.mem_singleton.1 hx]; exact ⟨h2, h3⟩
  · intro l1 x l2 e
    rcases List.append_eq_append_iff.1 e with ⟨as, e1, e2⟩ | ⟨as, e1, e2⟩
    · cases as with
      | nil =>
        simp only [List.append_nil] at e1
        simp only [List.nil_append, List.cons.injEq] at e2
        obtain ⟨e2, -⟩ := e2
        subst e1 e2
        exact h4
      | cons y as => simp at e2
    · cases as with
      | nil =>
        simp only [List.append_nil] at e1
        simp only [List.nil_append, List.cons.injEq] at e2
        obtain ⟨e2, -⟩ := e2
        subst e1 e2
        exact h4
      | cons y as =>
        simp only [List.cons_append, List.cons.injEq] at e2
        obtain ⟨e2, -⟩ := e2
        subst e2
        exact h.topo l1 x as e1

theorem vOrderAdd_inv
    (hty : ∀ a ∈ allam, a ≠ ssss → ∃ t, vType steps a = some t ∧ phase ts a = some t)
    (hrq : ∀ a ∈ allam, a ≠ ssss → ∀ t, phase ts a = some t → ∀ r ∈ vAMReq a t,
      r.sum + 1 ≤ a.sum) :
    ∀ (f : ℕ) (order : List QAM) (am : QAM), VOrd ts allam order → 0 ≤ am.sum → am.sum < f →
      ∃ o, vOrderAdd steps allam f order am = some o ∧ VOrd ts allam o ∧
        (∀ x ∈ order, x ∈ o) ∧ (am ∈ allam → am = ssss ∨ am ∈ o) ∧
        (∀ x ∈ o, x ∈ order ∨ x.sum ≤ am.sum)
  | 0, order, am, _, h1, h2 => by simp at h2; omega
  | f + 1, order, am, h, h1, h2 => by
    rw [vOrderAdd]
    by_cases c1 : am ∈ order
    · rw [if_pos c1]
      exact ⟨order, rfl, h, fun _ hx => hx, fun _ => Or.inr c1, fun _ hx => Or.inl hx⟩
    · rw [if_neg c1]
      by_cases c2 : am ∉ allam ∨ am = ssss
      · rw [if_pos c2]
        exact ⟨order, rfl, h, fun _ hx => hx, fun hx => Or.inl (c2.resolve_left (not_not.2 hx)),
          fun _ hx => Or.inl hx⟩
      · rw [if_neg c2]
        push Not at c2
        obtain ⟨t, ht1, ht2⟩ := hty am c2.1 c2.2
        have hr := hrq am c2.1 c2.2 t ht2
        have key : ∀ (l : List QAM) (o : List QAM), VOrd ts allam o →
            (∀ r ∈ l, r.sum + 1 ≤ am.sum ∧ 0 ≤ r.sum) →
            ∃ o', l.foldlM (fun o r => vOrderAdd steps allam f o r) o = some o' ∧
              VOrd ts allam o' ∧ (∀ x ∈ o, x ∈ o') ∧ (∀ r ∈ l, r ∈ allam → r = ssss ∨ r ∈ o') ∧
              (∀ x ∈ o', x ∈ o ∨ x.sum + 1 ≤ am.sum) := by
          intro l
          induction l with
          | nil => intro o ho _; exact ⟨o, rfl, ho, fun _ hx => hx, by simp, fun _ hx => Or.inl hx⟩
          | cons r l ih =>
            intro o ho hl
            obtain ⟨k2, k3⟩ := hl r (by simp)
            obtain ⟨o1, e1, g1, g2, g3, g4⟩ := vOrderAdd_inv hty hrq f o r ho k3
              (by push_cast at h2; omega)
            obtain ⟨o2, e2, r1, r2, r3, r4⟩ := ih o1 g1 (fun x hx => hl x (by simp [hx]))
            refine ⟨o2, by rw [List.foldlM_cons, e1]; exact e2, r1,
              fun x hx => r2 x (g2 x hx), ?_, ?_⟩
            · intro x hx k1
              rcases List.mem_cons.1 hx with rfl | hx
              · exact (g3 k1).imp id (r2 x)
              · exact r3 x hx k1
            · intro x hx
              rcases r4 x hx with hx | hx
              · rcases g4 x hx with hx | hx
                · exact Or.inl hx
                · right; omega
              · exact Or.inr hx
        obtain ⟨o, e, g1, g2, g3, g4⟩ := key (vAMReq am t) order h (fun r hr' => ⟨hr r hr', by
            have := (List.mem_filter.1 hr').2
            rw [QAM.valid_iff] at this
            have q1 := this .I; have q2 := this .J; have q3 := this .K; have q4 := this .L
            simp only [QAM.get] at q1 q2 q3 q4
            simp only [QAM.sum]; omega⟩)
        have hn : am ∉ o := by
          intro hx
          rcases g4 am hx with hx | hx
          · exact c1 hx
          · omega
        refine ⟨o ++ [am], by rw [ht1, Option.bind_some, e]; rfl,
          g1.snoc hn c2.1 c2.2 (fun t' ht' r hr' => ?_), ?_, ?_, ?_⟩
        · rw [ht2] at ht'
          obtain rfl := Option.some.inj ht'
          exact g3 r hr'
        · intro x hx; simp [g2 x hx]
        · intro _; right; simp
        · intro x hx
          rcases List.mem_append.1 hx with hx | hx
          · rcases g4 x hx with hx | hx
            · exact Or.inl hx
            · right; omega
          · rw [List.mem_singleton.1 hx]; exact Or.inr le_rfl

end order

theorem vType_ok {steps : List VStep} (hsph : ∀ s ∈ steps, ∃ q t, VReach ts init q ∧
      phase ts q.am4 = some t ∧ createSingle t q.z = some s)
    (hhas : ∀ q, VReach ts init q → ∃ s ∈ steps, s.target = q.z) {q : Qrt}
    (hq : VReach ts init q) : ∃ t, vType steps q.am4 = some t ∧ phase ts q.am4 = some t := by
  obtain ⟨s, hs, e⟩ := hhas q hq
  have hmem : s ∈ vStepsFor steps q.am4 := by
    simp [vStepsFor, hs, e]
  obtain ⟨s', hs'⟩ : ∃ s', (vStepsFor steps q.am4).head? = some s' := by
    cases hl : vStepsFor steps q.am4 with
    | nil => rw [hl] at hmem; simp at hmem
    | cons a l => exact ⟨a, rfl⟩
  have hm' : s' ∈ vStepsFor steps q.am4 := List.mem_of_mem_head? hs'
  simp only [vStepsFor, List.mem_filter, decide_eq_true_eq] at hm'
  obtain ⟨q', t, hq', ht, hc⟩ := hsph s' hm'.1
  obtain ⟨d, -, h2, h3, -⟩ := createSingle_inv hc
  have ham : q'.am4 = q.am4 := by rw [← hm'.2, h3, Qrt.z_am4]
  exact ⟨t, by rw [vType, hs', Option.map_some, h2], by rw [← ham]; exact ht⟩

theorem vrrCreate_ok {enum : List Qrt → List Qrt} (he : EnumOK enum) (hnd : ts.Nodup)
    (hts : ∀ t, t ∈ ts) (hpx : PxClosed init) (hval : ∀ q ∈ init, q.Valid) :
    ∃ A, vrrCreate enum ts init = some A ∧ VAlgoOK ts init A := by
  obtain ⟨st, e, hI, hz⟩ := search_ok (ts := ts) (init := init) he hnd
  have hsol := solved_iff hts hI hz
  obtain ⟨m1, m2, m3⟩ := vrrMapAll_aux st.steps []
  have hsph : ∀ s ∈ vrrMapAll st.steps, ∃ q t, VReach ts init q ∧ phase ts q.am4 = some t ∧
      createSingle t q.z = some s := by
    intro u hu
    rcases m1 u hu with h | ⟨s, hs, rfl⟩
    · simp at h
    · obtain ⟨h1, t, h2, h3⟩ := hI.sph s hs
      have hr := (hsol _).1 h1
      exact ⟨s.target, t, hr, h2, createSingle_norm hr.valid.1.2.2 h3⟩
  have hhas : ∀ q, VReach ts init q → ∃ s ∈ vrrMapAll st.steps, s.target = q.z := by
    intro q hq
    obtain ⟨s, hs, rfl⟩ := hI.has q ((hsol q).2 hq)
    obtain ⟨u, hu, e⟩ := m3 s hs
    exact ⟨u, hu, e⟩
  set allam := ssss :: st.solved.map Qrt.am4 with hallam
  have ham : ∀ a, a ∈ allam ↔ a = ssss ∨ ∃ q, VReach ts init q ∧ q.am4 = a := by
    intro a
    simp only [hallam, List.mem_cons, List.mem_map, hsol]
  have hty : ∀ a ∈ allam, a ≠ ssss →
      ∃ t, vType (vrrMapAll st.steps) a = some t ∧ phase ts a = some t := by
    intro a ha hne
    obtain ⟨q, hq, rfl⟩ := ((ham a).1 ha).resolve_left hne
    exact vType_ok hsph hhas hq
  have hrq : ∀ a ∈ allam, a ≠ ssss → ∀ t, phase ts a = some t → ∀ r ∈ vAMReq a t,
      r ∈ allam ∧ r.sum + 1 ≤ a.sum := by
    intro a ha hne t ht r hr
    obtain ⟨q, hq, rfl⟩ := ((ham a).1 ha).resolve_left hne
    obtain ⟨s, i, -, h2, -, h4, h5, -⟩ := req_reach hpx hq ht hr
    refine ⟨(ham r).2 ?_, h5⟩
    rcases h4 with h4 | h4
    · exact Or.inl h4
    · exact Or.inr ⟨_, h4, h2⟩
  have hord : ∀ (l : List Qrt) (o : List QAM), (∀ q ∈ l, q ∈ init) → VOrd ts allam o →
      ∃ o', l.foldlM (fun o x => vOrderAdd (vrrMapAll st.steps) allam (vrrFuel init) o x.am4) o =
          some o' ∧ VOrd ts allam o' ∧ (∀ x ∈ o, x ∈ o') ∧
        (∀ q ∈ l, 0 < q.am → q.am4 ∈ o') := by
    intro l
    induction l with
    | nil => intro o _ ho; exact ⟨o, rfl, ho, fun _ hx => hx, by simp⟩
    | cons x l ih =>
      intro o hl ho
      have hx := hl x (by simp)
      have hxv := hval x hx
      have hnn : 0 ≤ x.am := by
        have := QAM.get_le_sum hxv.am4 .I
        have := (QAM.valid_iff _).1 hxv.am4 .I
        rw [Qrt.am4_sum] at *
        omega
      obtain ⟨o1, e1, g1, g2, g3, -⟩ := vOrderAdd_inv hty
        (fun a h1 h2 t h3 r h4 => (hrq a h1 h2 t h3 r h4).2) (vrrFuel init) o x.am4 ho
        (by simpa using hnn) (by rw [Qrt.am4_sum]; have := le_vrrFuel hx; omega)
      obtain ⟨o2, e2, r1, r2, r3⟩ := ih o1 (fun q hq => hl q (by simp [hq])) g1
      refine ⟨o2, by rw [List.foldlM_cons, e1]; exact e2, r1, fun y hy => r2 y (g2 y hy), ?_⟩
      intro q hq h0
      rcases List.mem_cons.1 hq with rfl | hq
      · have hr : VReach ts init q := VReach.base q hx hxv h0
        rcases g3 ((ham _).2 (Or.inr ⟨q, hr, rfl⟩)) with h | h
        · have : q.am4.sum = 0 := by rw [h]; rfl
          rw [Qrt.am4_sum] at this; omega
        · exact r2 _ h
      · exact r3 q hq h0
  obtain ⟨o, eo, ho, -, ho3⟩ := hord (enum init) [] (fun q hq => (he _ _).1 hq)
    ⟨by simp, by simp, by simp⟩
  have hM := mreqAll_inv st.steps
  have hstep : ∀ q t s, VReach ts init q → phase ts q.am4 = some t → createSingle t q = some s →
      s ∈ st.steps := by
    intro q t s hq ht hs
    obtain ⟨u, hu, rfl⟩ := hI.has q ((hsol q).2 hq)
    obtain ⟨-, t', ht', hs'⟩ := hI.sph u hu
    rw [ht] at ht'
    obtain rfl := Option.some.inj ht'
    rw [hs] at hs'
    obtain rfl := Option.some.inj hs'
    exact hu
  -- the maximum of a class is attained by a reachable quartet
  have hatt : ∀ q, VReach ts init q → ∃ M, mreqAll st.steps q.am4 = some M ∧ 0 ≤ M ∧ q.m ≤ M ∧
      ∃ q', VReach ts init q' ∧ q'.am4 = q.am4 ∧ q'.m = M := by
    intro q hq
    obtain ⟨s, hs, hst⟩ := hI.has q ((hsol q).2 hq)
    obtain ⟨M, hM1, hM2⟩ := hM.ge q.am4 q.m ⟨s, hs, mem_contrib.2 (Or.inl (by rw [hst]; exact ⟨rfl, rfl⟩))⟩
    refine ⟨M, hM1, hM.nn _ _ hM1, hM2, ?_⟩
    rcases hM.att _ _ hM1 with h0 | ⟨s', hs', hc⟩
    · exact ⟨q, hq, rfl, by have := hq.valid.1.2.2; omega⟩
    · obtain ⟨h1, t, h2, h3⟩ := hI.sph s' hs'
      have hr := (hsol _).1 h1
      rcases mem_contrib.1 hc with ⟨h4, h5⟩ | ⟨i, h4, h5⟩
      · exact ⟨_, hr, h4, h5⟩
      · have hp := hr.px hpx
        have hpos := (phase_some h2).1
        obtain ⟨d', hd', -, hs2⟩ := createSingle_spec (t := t) hp.valid.1 (by simpa using hpos)
        obtain ⟨d, hd, e⟩ := src_am4 h3 i
        have hx : d' = .x := by
          rw [Qrt.px_cen, makDir_px (by rw [← Qrt.am4_get]; exact hpos)] at hd'
          exact (Option.some.inj hd').symm
        have hsrc : (s'.src i).px = vrrSrc t s'.target.px d' i := by
          rw [e, vrrSrc_eq, Qrt.px_addm, vslot_px, hx]
        have hv1 : (vrrSrc t s'.target.px d' i).Valid := by
          rw [← hsrc, Qrt.px_valid, h4, h5]
          exact ⟨hq.valid.1.am4, hM.nn _ _ hM1⟩
        have hv2 : 0 < (vrrSrc t s'.target.px d' i).am := by
          rw [← hsrc, Qrt.px_am, ← Qrt.am4_sum, h4, Qrt.am4_sum]
          exact hq.valid.2
        refine ⟨_, VReach.step _ t _ i hp (by simpa using h2) hs2 hv1 hv2, ?_, ?_⟩
        · simp only [← hsrc, Qrt.px_am4, h4]
        · simp only [← hsrc, Qrt.px_m, h5]
  have hA : vrrCreate enum ts init = some { steps := vrrMapAll st.steps, allam := allam, mreq := mreqAll st.steps, order := o, rest := st.targets } := by
    rw [vrrCreate, e, Option.bind_some]
    simp only []
    rw [eo]
    rfl
  refine ⟨_, hA, hsph, hhas, vrrMapAll_nodup _, ham, ?_, ?_, ho.nd, ho.mem, fun l1 a l2 h t ht r hr => ?_, ?_⟩
  · intro q hq
    obtain ⟨M, h1, h2, h3, q', hq', h4, h5⟩ := hatt q hq
    refine ⟨M, h1, h2, h3, ⟨q', hq', h4, h5⟩, ?_⟩
    intro t ht b hb
    rw [← h4] at ht hb
    obtain ⟨s, i, k1, k2, k3, -, -, -⟩ := req_reach hpx hq' ht hb
    have hs := hstep q'.px t s (hq'.px hpx) (by simpa using ht) k1
    obtain ⟨M', g1, g2⟩ := hM.ge b (q'.m + 1) ⟨s, hs, mem_contrib.2 (Or.inr ⟨i, k2, k3⟩)⟩
    exact ⟨M', g1, by omega⟩
  · obtain ⟨M, hM1⟩ := hM.z
    refine ⟨M, hM1, hM.nn _ _ hM1, ?_, ?_⟩
    · have : ∀ (n : ℕ) (q : Qrt), VReach ts init q → q.am = n → q.am + q.m ≤ M := by
        intro n
        induction n with
        | zero => intro q hq h0; have := hq.valid.2; omega
        | succ n ih =>
          intro q hq h0
          obtain ⟨t, ht⟩ := phase_total hts hq.valid.1.am4 (by simpa using hq.valid.2)
          obtain ⟨d, hd, hdp, hs⟩ := createSingle_spec hq.valid.1 (phase_some ht).1
          have hs' := hstep q t _ hq ht hs
          have h1 : vrrSrc t q d 1 = (q.low t d 1).addm 1 := by rw [vrrSrc_eq]; exact congrArg (Qrt.addm · 1) (vslot_zero t q d)
          have ham1 : (vrrSrc t q d 1).am = q.am - 1 := by
            rw [h1, Qrt.addm_am, ← vslot_zero, vslot_zero_am]
          have hm1 : (vrrSrc t q d 1).m = q.m + 1 := by rw [h1]; simp
          have hv1 : (vrrSrc t q d 1).Valid := by
            have hqv := (Qrt.valid_iff q).1 hq.valid.1
            rw [Qrt.valid_iff]
            refine ⟨fun u => ?_, by rw [hm1]; omega⟩
            rw [h1, Qrt.addm_cen, Qrt.cen_low]
            split
            · rw [Exp.valid_step_iff _ _ _ (hqv.1 t)]; omega
            · exact hqv.1 u
          by_cases hz0 : 0 < (vrrSrc t q d 1).am
          · have := ih _ (VReach.step q t _ 1 hq ht hs hv1 hz0) (by simp only []; omega)
            simp only [] at this
            omega
          · obtain ⟨M', g1, g2⟩ := hM.ge ssss (q.m + 1) ⟨_, hs', mem_contrib.2 (Or.inr ⟨1, by
              simp only []
              exact QAM.eq_ssss hv1.am4 (by rw [Qrt.am4_sum]; omega) rfl, hm1⟩)⟩
            rw [hM1] at g1
            obtain rfl := Option.some.inj g1
            omega
      intro q hq
      exact this q.am.toNat q hq (by have := hq.valid.2; omega)
    · intro N hN0 hN
      rcases hM.att _ _ hM1 with h0 | ⟨s, hs, hc⟩
      · omega
      · obtain ⟨h1, t, -, h3⟩ := hI.sph s hs
        have hb := ((hsol _).1 h1).bound hN
        rcases mem_contrib.1 hc with ⟨h4, h5⟩ | ⟨i, h4, h5⟩
        · have := ((hsol _).1 h1).valid.2; omega
        · have := (src_bound h3 i).1
          have h0 : (s.src i).am = 0 := by rw [← Qrt.am4_sum, h4]; rfl
          omega
  · obtain ⟨ha, hne⟩ := ho.mem a (by have h' : o = l1 ++ a :: l2 := h; rw [h']; simp)
    exact ho.topo l1 a l2 h t ht r hr (hrq a ha hne t ht r hr).1
  · intro q hq _ h0
    exact ho3 q ((he _ _).2 hq) h0

end Simint
