import Verif.VRRExecLemmas
import Verif.VRRModes
import Verif.HRRModeLemmas

/-!
# External vertical routines: lemmas
-/

set_option autoImplicit false

namespace Simint

theorem vAMReq_sum {a : QAM} {t : RRType} {r : QAM} (hr : r ∈ vAMReq a t) : r.sum + 1 ≤ a.sum := by
  have h := (List.mem_filter.1 hr).1
  cases t <;> simp only [vAMReqAll, List.mem_cons, List.not_mem_nil, or_false] at h <;>
    rcases h with rfl | rfl | rfl | rfl | rfl <;> simp only [QAM.sum] <;> omega

theorem phase_single {t u : RRType} {a : QAM} (h : phase [t] a = some u) : u = t := by
  have := (phase_some h).2
  simpa using this

/-- The algorithm of a file with a one-center index order. -/
theorem vrrCreate_single {enum : List Qrt → List Qrt} (he : EnumOK enum) {t : RRType}
    {init : List Qrt} (hval : ∀ q ∈ init, q.Valid) :
    ∃ A, vrrCreate enum [t] init = some A ∧
      (∀ s ∈ A.steps, ∃ q, q.Valid ∧ q.m = 0 ∧ createSingle t q = some s) ∧
      ∀ q ∈ init, 0 < q.am4.get t → ∃ s ∈ A.steps, s.target = q.z := by
  obtain ⟨st, e, hI, hz⟩ := search_ok (ts := [t]) (init := init) he (by simp)
  obtain ⟨m1, m2, m3⟩ := vrrMapAll_aux st.steps []
  have hsph : ∀ s ∈ vrrMapAll st.steps, ∃ q, q.Valid ∧ q.m = 0 ∧ createSingle t q = some s := by
    intro u hu
    rcases m1 u hu with h | ⟨s, hs, rfl⟩
    · simp at h
    · obtain ⟨h1, t', h2, h3⟩ := hI.sph s hs
      have hr := hI.reach _ (Or.inl h1)
      rw [phase_single h2] at h3
      exact ⟨s.target.z, hr.valid.1.z, rfl, createSingle_norm hr.valid.1.2.2 h3⟩
  have hhas : ∀ q ∈ st.solved, ∃ s ∈ vrrMapAll st.steps, s.target = q.z := by
    intro q hq
    obtain ⟨s, hs, rfl⟩ := hI.has q hq
    obtain ⟨u, hu, e⟩ := m3 s hs
    exact ⟨u, hu, e⟩
  set allam := ssss :: st.solved.map Qrt.am4 with hallam
  have hty : ∀ a ∈ allam, a ≠ ssss →
      ∃ u, vType (vrrMapAll st.steps) a = some u ∧ phase [t] a = some u := by
    intro a ha hne
    simp only [hallam, List.mem_cons, hne, false_or, List.mem_map] at ha
    obtain ⟨q, hq, rfl⟩ := ha
    obtain ⟨s, hs, hsq⟩ := hI.has q hq
    obtain ⟨-, t', h2, -⟩ := hI.sph s hs
    rw [hsq] at h2
    have hmem : ∃ s, s ∈ vStepsFor (vrrMapAll st.steps) q.am4 := by
      obtain ⟨s, hs, e⟩ := hhas q hq
      exact ⟨s, by simp [vStepsFor, hs, e]⟩
    obtain ⟨s0, hs0⟩ := hmem
    cases hl : vStepsFor (vrrMapAll st.steps) q.am4 with
    | nil => rw [hl] at hs0; simp at hs0
    | cons s' l =>
      refine ⟨t, ?_, by rw [h2, phase_single h2]⟩
      have hm : s' ∈ vStepsFor (vrrMapAll st.steps) q.am4 := by rw [hl]; simp
      simp only [vStepsFor, List.mem_filter] at hm
      obtain ⟨q', -, -, hc⟩ := hsph s' hm.1
      obtain ⟨d, -, h2, -⟩ := createSingle_inv hc
      rw [vType, hl, List.head?_cons, Option.map_some, h2]
  have hord : ∀ (l : List Qrt) (o : List QAM), (∀ q ∈ l, q ∈ init) → VOrd [t] allam o →
      ∃ o', l.foldlM (fun o x => vOrderAdd (vrrMapAll st.steps) allam (vrrFuel init) o x.am4) o =
          some o' ∧ VOrd [t] allam o' := by
    intro l
    induction l with
    | nil => intro o _ ho; exact ⟨o, rfl, ho⟩
    | cons x l ih =>
      intro o hl ho
      have hx := hl x (by simp)
      have hxv := hval x hx
      have hnn : 0 ≤ x.am := by
        have := QAM.get_le_sum hxv.am4 .I
        have := (QAM.valid_iff _).1 hxv.am4 .I
        rw [Qrt.am4_sum] at *
        omega
      obtain ⟨o1, e1, g1, -⟩ := vOrderAdd_inv hty
        (fun a _ _ t _ r h4 => vAMReq_sum h4) (vrrFuel init) o x.am4 ho
        (by simpa using hnn) (by rw [Qrt.am4_sum]; have := le_vrrFuel hx; omega)
      obtain ⟨o2, e2, r1⟩ := ih o1 (fun q hq => hl q (by simp [hq])) g1
      exact ⟨o2, by rw [List.foldlM_cons, e1]; exact e2, r1⟩
  obtain ⟨o, eo, -⟩ := hord (enum init) [] (fun q hq => (he _ _).1 hq) ⟨by simp, by simp, by simp⟩
  have hA : vrrCreate enum [t] init = some { steps := vrrMapAll st.steps, allam := allam, mreq := mreqAll st.steps, order := o, rest := st.targets } := by
    rw [vrrCreate, e, Option.bind_some]
    simp only []
    rw [eo]
    rfl
  refine ⟨_, hA, hsph, ?_⟩
  intro q hq hp
  refine hhas q ((hI.ini q hq (hval q hq) ?_).resolve_right ?_)
  · have := QAM.get_le_sum (hval q hq).am4 t
    rw [Qrt.am4_sum] at this; omega
  · intro hc
    have := hz q hc t (by simp)
    omega

/-! ## Swapping centers -/

/-- Which pairs of centers are exchanged. -/
structure Sw where
  b : Bool
  k : Bool

def Sw.q (w : Sw) (q : Qrt) : Qrt :=
  ⟨if w.b then ⟨q.bra.right, q.bra.left⟩ else q.bra, if w.k then ⟨q.ket.right, q.ket.left⟩ else q.ket, q.m⟩

def Sw.a (w : Sw) (a : QAM) : QAM :=
  ⟨if w.b then a.b else a.a, if w.b then a.a else a.b, if w.k then a.d else a.c,
    if w.k then a.c else a.d, a.tag⟩

def Sw.t (w : Sw) : RRType → RRType
  | .I => if w.b then .J else .I
  | .J => if w.b then .I else .J
  | .K => if w.k then .L else .K
  | .L => if w.k then .K else .L

@[simp] theorem Sw.q_q (w : Sw) (q : Qrt) : w.q (w.q q) = q := by
  obtain ⟨b, k⟩ := w; cases b <;> cases k <;> rfl
@[simp] theorem Sw.a_a (w : Sw) (a : QAM) : w.a (w.a a) = a := by
  obtain ⟨b, k⟩ := w; cases b <;> cases k <;> rfl
@[simp] theorem Sw.t_t (w : Sw) (t : RRType) : w.t (w.t t) = t := by
  obtain ⟨b, k⟩ := w; cases b <;> cases k <;> cases t <;> rfl
theorem Sw.t_inj (w : Sw) {t u : RRType} : w.t t = w.t u ↔ t = u :=
  ⟨fun h => by rw [← w.t_t t, h, w.t_t], fun h => by rw [h]⟩
@[simp] theorem Sw.cen (w : Sw) (q : Qrt) (t : RRType) : (w.q q).cen (w.t t) = q.cen t := by
  obtain ⟨b, k⟩ := w; cases b <;> cases k <;> cases t <;> rfl
theorem Sw.cen' (w : Sw) (q : Qrt) (t : RRType) : (w.q q).cen t = q.cen (w.t t) := by
  conv_lhs => rw [← w.t_t t]
  rw [w.cen]
@[simp] theorem Sw.am4 (w : Sw) (q : Qrt) : (w.q q).am4 = w.a q.am4 := by
  obtain ⟨b, k⟩ := w; cases b <;> cases k <;> rfl
@[simp] theorem Sw.get (w : Sw) (a : QAM) (t : RRType) : (w.a a).get (w.t t) = a.get t := by
  obtain ⟨b, k⟩ := w; cases b <;> cases k <;> cases t <;> rfl
@[simp] theorem Sw.m (w : Sw) (q : Qrt) : (w.q q).m = q.m := rfl
theorem Sw.low (w : Sw) (q : Qrt) (t : RRType) (d : Dir) (n : ℤ) :
    (w.q q).low (w.t t) d n = w.q (q.low t d n) := by
  obtain ⟨b, k⟩ := w; cases b <;> cases k <;> cases t <;> rfl
theorem Sw.valid (w : Sw) (q : Qrt) : (w.q q).Valid ↔ q.Valid := by
  rw [Qrt.valid_iff, Qrt.valid_iff, Sw.m]
  refine and_congr_left fun _ => ⟨fun h t => ?_, fun h t => ?_⟩
  · have := h (w.t t); rwa [w.cen] at this
  · rw [w.cen']; exact h _
theorem Sw.avalid (w : Sw) (a : QAM) : (w.a a).valid = a.valid := by
  obtain ⟨b, k⟩ := w
  cases b <;> cases k <;> simp only [QAM.valid, Sw.a, decide_eq_decide] <;> simp <;> tauto
@[simp] theorem Sw.isBra (w : Sw) (t : RRType) : (w.t t).isBra = t.isBra := by
  obtain ⟨b, k⟩ := w; cases b <;> cases k <;> cases t <;> rfl
theorem Sw.vnum (w : Sw) (t : RRType) (q : Qrt) (d : Dir) (u : RRType) :
    vnum (w.t t) (w.q q) d (w.t u) = Simint.vnum t q d u := by
  simp only [Simint.vnum, w.t_inj, w.cen]
theorem Sw.vlo (w : Sw) (t : RRType) (q : Qrt) (d : Dir) (u : RRType) :
    vlo (w.t t) (w.q q) d (w.t u) = w.q (Simint.vlo t q d u) := by
  simp only [Simint.vlo, w.t_inj, w.low]
  split <;> rfl

/-- One of the exchanged centers carries no angular momentum. -/
def OneSide (w : Sw) (a : QAM) : Prop := (w.b → a.a = 0 ∨ a.b = 0) ∧ (w.k → a.c = 0 ∨ a.d = 0)

theorem OneSide.sw {w : Sw} {a : QAM} (h : OneSide w a) : OneSide w (w.a a) := by
  obtain ⟨b, k⟩ := w
  cases b <;> cases k <;> simp only [OneSide, Sw.a] at * <;> simp at * <;> tauto

theorem cidx_zero {ord : ℕ → List Exp} (ho : OrdOK ord) {e : Exp} (hv : e.Valid) (h0 : e.am = 0) :
    cidx ord e = 0 := by
  have := ho.cidx_lt hv
  rw [h0] at this
  simp [ncart] at this
  exact this

theorem dbl_index_swap {ord : ℕ → List Exp} (ho : OrdOK ord) {p : Dbl} (hv : p.Valid)
    (h : p.left.am = 0 ∨ p.right.am = 0) : (Dbl.mk p.right p.left).index ord = p.index ord := by
  have h1 : ncart 0 = 1 := rfl
  rcases h with h | h
  · simp [Dbl.index, cidx_zero ho hv.1 h, h, h1]
  · simp [Dbl.index, cidx_zero ho hv.2 h, h, h1]

theorem Sw.ncart (w : Sw) (q : Qrt) : (w.q q).ncart = q.ncart := by
  obtain ⟨b, k⟩ := w
  cases b <;> cases k <;> simp only [Sw.q, Qrt.ncart, Dbl.ncart, Bool.false_eq_true, if_true, if_false] <;> ring

theorem Sw.index {ord : ℕ → List Exp} (ho : OrdOK ord) (w : Sw) {q : Qrt} (hv : q.Valid)
    (h : OneSide w q.am4) : (w.q q).index ord = q.index ord := by
  have hb : (w.q q).bra.index ord = q.bra.index ord := by
    by_cases hw : w.b
    · simp only [Sw.q, hw, if_true]; exact dbl_index_swap ho hv.1 (h.1 hw)
    · simp [Sw.q, hw]
  have hk : (w.q q).ket.index ord = q.ket.index ord := by
    by_cases hw : w.k
    · simp only [Sw.q, hw, if_true]; exact dbl_index_swap ho hv.2.1 (h.2 hw)
    · simp [Sw.q, hw]
  have hn : (w.q q).ket.ncart = q.ket.ncart := by
    by_cases hw : w.k
    · simp only [Sw.q, hw, if_true, Dbl.ncart]; ring
    · simp [Sw.q, hw]
  rw [Qrt.index, Qrt.index, hb, hk, hn]

theorem Sw.vaddr {ord : ℕ → List Exp} (ho : OrdOK ord) (w : Sw) {q : Qrt} (hv : q.Valid)
    (h : OneSide w q.am4) (n : ℕ) : vaddr ord (w.q q) n = Simint.vaddr ord q n := by
  rw [Simint.vaddr, Simint.vaddr, w.ncart, w.index ho hv h]

/-! ## Bindings -/

theorem find_zip_map {α β : Type} [DecidableEq α] {f : α → β} {g : α → α} {l : List α}
    (hg : ∀ x ∈ l, ∀ y ∈ l, g x = g y → x = y) {x : α} (hx : x ∈ l) :
    bindPos (l.map g) (l.map f) (g x) = some (f x) := by
  induction l with
  | nil => simp at hx
  | cons y l ih =>
    by_cases h : g y = g x
    · have := hg y (by simp) x hx h
      subst this
      simp [bindPos]
    · have hne : x ≠ y := fun hc => h (by rw [hc])
      have hx' : x ∈ l := (List.mem_cons.1 hx).resolve_left hne
      have := ih (fun a ha b hb => hg a (by simp [ha]) b (by simp [hb])) hx'
      simp only [bindPos, List.map_cons, List.zip_cons_cons, List.find?_cons, h, decide_false] at this ⊢
      exact this

/-- Names after exchanging centers. -/
def Sw.v (w : Sw) : VName → VName
  | .PPA => if w.b then .PPB else .PPA
  | .PPB => if w.b then .PPA else .PPB
  | .QPA => if w.k then .QPB else .QPA
  | .QPB => if w.k then .QPA else .QPB
  | x => x

theorem Sw.v_v (w : Sw) (x : VName) : w.v (w.v x) = x := by
  obtain ⟨b, k⟩ := w; cases b <;> cases k <;> cases x <;> rfl

/-- Variable list as a function of what is required. -/
def varList (t : RRType) (r0 r12 r34 : Bool) : List VName :=
  varOrder.filter fun v => v ∈
    (if r0 then
      [match t with | .I => VName.PPA | .J => .PPB | .K => .QPA | .L => .QPB,
        if t.isBra then .aopPQ else .aoqPQ] else []) ++
    (if r12 then (if t.isBra then [.o2p, .aop] else [.o2q, .aoq]) else []) ++
    (if r34 then [.o2pq] else [])

theorem varReq_eq (am : QAM) (t : RRType) : varReq am t = varList t (reqValid am t 0)
    (reqValid am t 1 || reqValid am t 2) (reqValid am t 3 || reqValid am t 4) := rfl

theorem varList_sw (w : Sw) (t : RRType) (r0 r12 r34 : Bool) :
    varList (w.t t) r0 r12 r34 = (varList t r0 r12 r34).map w.v := by
  obtain ⟨b, k⟩ := w
  cases b <;> cases k <;> cases t <;> cases r0 <;> cases r12 <;> cases r34 <;> decide

theorem reqValid_sw (w : Sw) (am : QAM) (t : RRType) :
    reqValid (w.a am) (w.t t) 0 = reqValid am t 0 ∧
    (reqValid (w.a am) (w.t t) 1 || reqValid (w.a am) (w.t t) 2) =
      (reqValid am t 1 || reqValid am t 2) ∧
    (reqValid (w.a am) (w.t t) 3 || reqValid (w.a am) (w.t t) 4) =
      (reqValid am t 3 || reqValid am t 4) := by
  obtain ⟨b, k⟩ := w
  refine ⟨?_, ?_, ?_⟩ <;> rw [Bool.eq_iff_iff] <;> cases b <;> cases k <;> cases t <;>
    simp only [reqValid, vAMReqAll, Sw.a, Sw.t, QAM.valid, Bool.false_eq_true, if_true, if_false,
      List.getElem?_cons_zero, List.getElem?_cons_succ, Bool.or_eq_true, decide_eq_true_eq] <;> omega

theorem filter_pair {α : Type} (p : α → Bool) {x y x' y' : α} {l l' : List α}
    (h : (x = x' ∧ y = y') ∨ (x = y' ∧ y = x' ∧ (p x = false ∨ p y = false)))
    (hl : l.filter p = l'.filter p) : (x :: y :: l).filter p = (x' :: y' :: l').filter p := by
  rcases h with ⟨rfl, rfl⟩ | ⟨rfl, rfl, h⟩
  · simp [List.filter_cons, hl]
  · rcases h with h | h <;> simp [List.filter_cons, hl, h]

theorem vAMReq_sw (w : Sw) {am : QAM} {t : RRType} (h : OneSide w am) :
    vAMReq (w.a am) (w.t t) = (vAMReq am t).map w.a := by
  have hf : (vAMReq am t).map w.a = ((vAMReqAll am t).map w.a).filter QAM.valid := by
    rw [vAMReq, List.filter_map]
    congr 1
    refine List.filter_congr fun x _ => ?_
    simp [w.avalid]
  rw [hf, vAMReq]
  have key : ∀ {x0 x1 x2 x3 x4 y0 y1 y2 y3 y4 : QAM}, x0 = y0 →
      ((x1 = y1 ∧ x2 = y2) ∨ (x1 = y2 ∧ x2 = y1 ∧ (x1.valid = false ∨ x2.valid = false))) →
      ((x3 = y3 ∧ x4 = y4) ∨ (x3 = y4 ∧ x4 = y3 ∧ (x3.valid = false ∨ x4.valid = false))) →
      [x0, x1, x2, x3, x4].filter QAM.valid = [y0, y1, y2, y3, y4].filter QAM.valid := by
    intro x0 x1 x2 x3 x4 y0 y1 y2 y3 y4 e h1 h2
    subst e
    have h3 := filter_pair QAM.valid h1 (filter_pair QAM.valid h2 (rfl : List.filter _ [] = _))
    by_cases hx : x0.valid = true
    · rw [List.filter_cons_of_pos hx, List.filter_cons_of_pos hx, h3]
    · rw [List.filter_cons_of_neg hx, List.filter_cons_of_neg hx, h3]
  obtain ⟨b, k⟩ := w
  obtain ⟨x1, x2, x3, x4, tag⟩ := am
  obtain ⟨h1, h2⟩ := h
  cases b <;> cases k <;> cases t <;> refine key rfl ?_ ?_ <;>
    first
      | exact Or.inl ⟨rfl, rfl⟩
      | (refine Or.inr ⟨rfl, rfl, ?_⟩
         simp only [Bool.false_eq_true, false_imp_iff, true_imp_iff, forall_const] at h1 h2
         simp only [QAM.valid, decide_eq_false_iff_not, Sw.a, Bool.false_eq_true, if_true, if_false]
         omega)

/-! ## Parameters -/

section
variable {F : Type} [VOps F]

/-- `P'` on `t'` provides what a step on `t` for the class `am` uses of `P`. -/
structure ParOK (P' : VPar F) (t' : RRType) (P : VPar F) (t : RRType) (am : QAM) : Prop where
  pa : P'.pa t' = P.pa t
  apq : P'.apq t' = P.apq t
  o2 : (reqValid am t 1 || reqValid am t 2) = true → P'.o2 t' = P.o2 t ∧ P'.ao t' = P.ao t
  o2pq : (reqValid am t 3 || reqValid am t 4) = true → P'.o2pq = P.o2pq

theorem reqValid_iff {q : Qrt} {t : RRType} (d : Dir) (j : Fin 5) :
    reqValid q.am4 t j.1 = (vslot t q d j).am4.valid := by
  rw [reqValid, vslot_am4 t q d j]

/-- Factors of terms whose class does not exist vanish. -/
theorem vnum_zero {q : Qrt} (hv : q.Valid) {t : RRType} {d : Dir} (hd : 0 < (q.cen t).get d)
    {u : RRType} {j : Fin 5} (e : vslot t q d j = vlo t q d u) (h : reqValid q.am4 t j.1 = false) :
    vnum t q d u = 0 := by
  by_contra hc
  have h0 := vnum_nonneg hv hd u
  have := (vlo_valid hv hd u).2 (by omega)
  rw [reqValid_iff d j, e] at h
  have hval : (vlo t q d u).am4.valid = true := by
    rw [QAM.valid_iff]; intro w; rw [Qrt.am4_get]; exact (this w).am_nonneg
  rw [hval] at h
  simp at h

theorem vOne_zero {k : ℤ} (h : k = 0) (c v t : F) : vOne k c v t = t := by
  rw [vOne, if_neg (by omega)]

theorem vTwo_zero {k : ℤ} (h : k = 0) (c ao v v' t : F) : vTwo k c ao v v' t = t := by
  rw [vTwo, if_neg (by omega)]

theorem vform_par {one : Bool} {P' P : VPar F} {t t' : RRType} {am : QAM} (h : ParOK P' t' P t am) (w : Sw)
    (hw : w.t t = t') (hone : OneSide w am) {e : Qrt} (hv : e.Valid) (ham : e.am4 = am) {d : Dir}
    (hd : 0 < (e.cen t).get d) (g : ℕ → Qrt → F) (n : ℕ) :
    vform (.seq one) P' t' d (w.q e) (fun n q => g n (w.q q)) n = vform (.seq one) P t d e g n := by
  subst hw
  subst ham
  obtain ⟨e1, e2, e3, e4⟩ := vslot_vlo t e d
  have o2 : ∀ v v' x : F,
      vTwo (vnum t e d t.s1) (vfac one (vnum t e d t.s1) (P'.o2 (w.t t))) (P'.ao (w.t t)) v v' x =
        vTwo (vnum t e d t.s1) (vfac one (vnum t e d t.s1) (P.o2 t)) (P.ao t) v v' x ∧
      vTwo (vnum t e d t.s2) (vfac one (vnum t e d t.s2) (P'.o2 (w.t t))) (P'.ao (w.t t)) v v' x =
        vTwo (vnum t e d t.s2) (vfac one (vnum t e d t.s2) (P.o2 t)) (P.ao t) v v' x := by
    intro v v' x
    by_cases hc : (reqValid e.am4 t 1 || reqValid e.am4 t 2) = true
    · rw [(h.o2 hc).1, (h.o2 hc).2]; exact ⟨rfl, rfl⟩
    · simp only [Bool.or_eq_true, not_or, Bool.not_eq_true] at hc
      have z1 := vnum_zero hv hd e1 hc.1
      have z2 := vnum_zero hv hd e2 hc.2
      simp only [vTwo_zero z1, vTwo_zero z2, and_self]
  have pq : ∀ v x : F,
      vOne (vnum t e d t.o1) (vfac one (vnum t e d t.o1) P'.o2pq) v x =
        vOne (vnum t e d t.o1) (vfac one (vnum t e d t.o1) P.o2pq) v x ∧
      vOne (vnum t e d t.o2) (vfac one (vnum t e d t.o2) P'.o2pq) v x =
        vOne (vnum t e d t.o2) (vfac one (vnum t e d t.o2) P.o2pq) v x := by
    intro v x
    by_cases hc : (reqValid e.am4 t 3 || reqValid e.am4 t 4) = true
    · rw [h.o2pq hc]; exact ⟨rfl, rfl⟩
    · simp only [Bool.or_eq_true, not_or, Bool.not_eq_true] at hc
      have z1 := vnum_zero hv hd e3 hc.1
      have z2 := vnum_zero hv hd e4 hc.2
      simp only [vOne_zero z1, vOne_zero z2, and_self]
  have hval := (Qrt.valid_iff e).1 hv
  have hz : ∀ u : RRType, e.am4.get u = 0 → u ≠ t ∧ vnum t e d u = 0 := by
    intro u hu
    rw [Qrt.am4_get] at hu
    have h1 := (hval.1 u).get_le_am d
    have h2 := (Exp.valid_iff _).1 (hval.1 u) d
    have hne : u ≠ t := by
      rintro rfl
      omega
    refine ⟨hne, ?_⟩
    rw [vnum, if_neg hne]; omega
  have hs : ((w.t t).s1 = w.t t.s1 ∧ (w.t t).s2 = w.t t.s2) ∨
      (((w.t t).s1 = w.t t.s2 ∧ (w.t t).s2 = w.t t.s1) ∧
        (vnum t e d t.s1 = 0 ∨ vnum t e d t.s2 = 0)) := by
    obtain ⟨b, k⟩ := w
    have z := fun u => fun h => (hz u h).2
    cases b <;> cases k <;> cases t <;>
      simp only [Sw.t, RRType.s1, RRType.s2, RRType.isBra, OneSide, QAM.get, Bool.false_eq_true, if_true, if_false, and_self, true_or,
        reduceCtorEq, false_or, true_and, forall_const, false_imp_iff, true_imp_iff, and_true] at hone ⊢
    all_goals first
      | exact hone.imp (z .I) (z .J)
      | exact hone.imp (z .K) (z .L)
      | exact hone.1.imp (z .I) (z .J)
      | exact hone.2.imp (z .K) (z .L)
  have ho : ((w.t t).o1 = w.t t.o1 ∧ (w.t t).o2 = w.t t.o2) ∨
      (((w.t t).o1 = w.t t.o2 ∧ (w.t t).o2 = w.t t.o1) ∧
        (vnum t e d t.o1 = 0 ∨ vnum t e d t.o2 = 0)) := by
    obtain ⟨b, k⟩ := w
    have z := fun u => fun h => (hz u h).2
    cases b <;> cases k <;> cases t <;>
      simp only [Sw.t, RRType.o1, RRType.o2, RRType.isBra, OneSide, QAM.get, Bool.false_eq_true, if_true, if_false, and_self, true_or,
        reduceCtorEq, false_or, true_and, forall_const, false_imp_iff, true_imp_iff, and_true] at hone ⊢
    all_goals first
      | exact hone.imp (z .I) (z .J)
      | exact hone.imp (z .K) (z .L)
      | exact hone.1.imp (z .I) (z .J)
      | exact hone.2.imp (z .K) (z .L)
  unfold vform
  rcases hs with ⟨s1, s2⟩ | ⟨⟨s1, s2⟩, zs | zs⟩ <;> rcases ho with ⟨o1, o2'⟩ | ⟨⟨o1, o2'⟩, zo | zo⟩ <;>
    rw [s1, s2, o1, o2'] <;>
    simp only [w.vnum, w.vlo, w.low, w.q_q, h.pa, h.apq, (o2 _ _ _).1, (o2 _ _ _).2, (pq _ _).1, (pq _ _).2] <;>
    (try simp only [vTwo_zero zs]) <;> (try simp only [vOne_zero zo])

def RRType.nm : RRType → VName
  | .I => .PPA
  | .J => .PPB
  | .K => .QPA
  | .L => .QPB

/-- Parameters bound by position at a call. -/
theorem par_bound {P : VPar F} {w : Sw} {am : QAM} {t : RRType} (hp : reqValid am t 0 = true) :
    ParOK (Env.par fun v => (bindPos (varReq (w.a am) (w.t t)) ((varReq am t).map P.env) v).getD
      fun _ => VOps.zero) (w.t t) P t am := by
  have hlist : varReq (w.a am) (w.t t) = (varReq am t).map w.v := by
    obtain ⟨h0, h1, h2⟩ := reqValid_sw w am t
    rw [varReq_eq, varReq_eq, h0, h1, h2, varList_sw]
  have hb : ∀ v ∈ varReq am t, (bindPos (varReq (w.a am) (w.t t)) ((varReq am t).map P.env) (w.v v)).getD
      (fun _ => VOps.zero) = P.env v := by
    intro v hv
    rw [hlist, find_zip_map (fun x _ y _ h => by rw [← w.v_v x, h, w.v_v]) hv, Option.getD_some]
  have hmem : ∀ v, v ∈ varReq am t ↔ v ∈ varIns am t := by
    intro v
    simp only [varReq, List.mem_filter, decide_eq_true_eq, and_iff_right_iff_imp]
    intro _; cases v <;> simp [varOrder]
  set f : Env F := fun v => (bindPos (varReq (w.a am) (w.t t)) ((varReq am t).map P.env) v).getD
    fun _ => VOps.zero with hf
  have hb' : ∀ v ∈ varIns am t, f (w.v v) = P.env v := fun v hv => hb v ((hmem v).2 hv)
  have hbra : (w.t t).isBra = t.isBra := w.isBra t
  refine ⟨?_, ?_, fun hc => ⟨?_, ?_⟩, fun hc => ?_⟩
  · have h1 : ∀ u, (Env.par f).pa u = f u.nm := by intro u; cases u <;> rfl
    have h2 : (w.t t).nm = w.v t.nm := by
      obtain ⟨b, k⟩ := w; cases b <;> cases k <;> cases t <;> rfl
    rw [h1, h2, hb' _ (by cases t <;> simp [varIns, hp, RRType.nm])]
    cases t <;> rfl
  · have h3 := hb' (if t.isBra then .aopPQ else .aoqPQ) (by cases t <;> simp [varIns, hp])
    simp only [VPar.apq, hbra]
    cases t <;> exact h3
  · have h3 := hb' (if t.isBra then .o2p else .o2q) (by cases t <;> simp [varIns, hc, RRType.isBra])
    simp only [VPar.o2, hbra]
    cases t <;> exact congrFun h3 .x
  · have h3 := hb' (if t.isBra then .aop else .aoq) (by cases t <;> simp [varIns, hc, RRType.isBra])
    simp only [VPar.ao, hbra]
    cases t <;> exact congrFun h3 .x
  · have h3 := hb' .o2pq (by simp [varIns, hc])
    exact congrFun h3 .x

/-! ## Bodies with renamed arrays -/

/-- The renamed statement, names not bound left as they are. -/
def VStmt.renF (σ : QAM → Option QAM) (s : VStmt) : VStmt :=
  { s with
    tq := (σ s.tq).getD s.tq
    src := fun i => (s.src i).map fun r => { r with q := (σ r.q).getD r.q } }

theorem ren_eq {σ : QAM → Option QAM} {s : VStmt} (h1 : (σ s.tq).isSome)
    (h2 : ∀ i, ∀ r ∈ s.src i, (σ r.q).isSome) : s.ren σ = some (s.renF σ) := by
  obtain ⟨a, ha⟩ := Option.isSome_iff_exists.1 h1
  unfold VStmt.ren VStmt.renF
  rw [ha, Option.bind_some, if_pos h2, Option.getD_some]

theorem mapM_ren {σ : QAM → Option QAM} : ∀ (ss : List VStmt),
    (∀ s ∈ ss, (σ s.tq).isSome ∧ ∀ i, ∀ r ∈ s.src i, (σ r.q).isSome) →
    ss.mapM (VStmt.ren σ) = some (ss.map (VStmt.renF σ))
  | [], _ => rfl
  | s :: ss, h => by
    rw [List.mapM_cons, ren_eq (h s (by simp)).1 (h s (by simp)).2,
      mapM_ren ss (fun s' hs' => h s' (by simp [hs']))]
    rfl

theorem renF_value {σ : QAM → Option QAM} {s : VStmt} (h2 : ∀ i, ∀ r ∈ s.src i, (σ r.q).isSome)
    {P : VPar F} {D : Decl} {rd : QAM → ℕ → Option F} {n : ℕ} :
    (s.renF σ).value P D rd n = s.value P D (fun a i => (σ a).bind fun b => rd b i) n := by
  have hg : ∀ i, ∀ r ∈ s.src i, ∀ k : ℕ, VRef.get rd k { r with q := (σ r.q).getD r.q } =
      VRef.get (fun a i => (σ a).bind fun b => rd b i) k r := by
    intro i r hr k
    obtain ⟨a, ha⟩ := Option.isSome_iff_exists.1 (h2 i r hr)
    simp only [VRef.get, ha, Option.getD_some, Option.bind_some]
  have h1 : ∀ (i : Fin 8) (k : ℕ) (c : Option F) (t : F), fmaOne rd k c ((s.renF σ).src i) t =
      fmaOne (fun a i => (σ a).bind fun b => rd b i) k c (s.src i) t := by
    intro i k c t
    cases hs : s.src i with
    | none => simp [VStmt.renF, hs, fmaOne]
    | some r =>
      have := hg i r (by simp [hs]) k
      simp only [VStmt.renF, hs, fmaOne, Option.map_some, this]
  have h2' : ∀ (i j : Fin 8) (k : ℕ) (c : Option F) (ao t : F),
      fmaTwo rd k c ao ((s.renF σ).src i) ((s.renF σ).src j) t =
      fmaTwo (fun a i => (σ a).bind fun b => rd b i) k c ao (s.src i) (s.src j) t := by
    intro i j k c ao t
    cases hs : s.src i with
    | none => simp [VStmt.renF, hs, fmaTwo]
    | some r =>
      cases hs' : s.src j with
      | none => simp [VStmt.renF, hs, hs', fmaTwo]
      | some r' =>
        have a := hg i r (by simp [hs]) k
        have b := hg j r' (by simp [hs']) (k + 1)
        simp only [VStmt.renF, hs, hs', fmaTwo, Option.map_some, a, b]
  have h0 : ∀ x : F, (((s.renF σ).src 0).bind fun r => (r.get rd n).map fun v => VOps.mul x v) =
      ((s.src 0).bind fun r => (r.get (fun a i => (σ a).bind fun b => rd b i) n).map fun v => VOps.mul x v) := by
    intro x
    cases hs : s.src 0 with
    | none => simp [VStmt.renF, hs]
    | some r =>
      have := hg 0 r (by simp [hs]) n
      simp only [VStmt.renF, hs, Option.map_some, Option.bind_some, this]
  unfold VStmt.value
  simp only [h1, h2', h0]
  rfl

end

theorem mem_targets {ord : ℕ → List Exp} (ho : OrdOK ord) (hs : OrdStart ord) {am : QAM}
    (hv : am.valid = true) (ht : am.tag = "") {q : Qrt} :
    q ∈ quartetTargets ord am.a.toNat am.b.toNat am.c.toNat am.d.toNat ↔
      q.Valid ∧ q.m = 0 ∧ q.am4 = am := by
  rw [mem_quartetTargets ho hs]
  obtain ⟨a, b, c, d, tag⟩ := am
  simp only at ht
  subst ht
  rw [QAM.valid_iff] at hv
  have h1 := hv .I; have h2 := hv .J; have h3 := hv .K; have h4 := hv .L
  simp only [QAM.get] at h1 h2 h3 h4
  simp only [Qrt.am4, TQAM.mk.injEq, and_true]
  constructor
  · rintro ⟨k1, k2, k3, k4, km⟩
    refine ⟨⟨⟨k1.valid, k2.valid⟩, ⟨k3.valid, k4.valid⟩, km.ge⟩, km, ?_, ?_, ?_, ?_⟩
    · have := k1.am_eq; omega
    · have := k2.am_eq; omega
    · have := k3.am_eq; omega
    · have := k4.am_eq; omega
  · rintro ⟨⟨⟨v1, v2⟩, ⟨v3, v4⟩, -⟩, km, e1, e2, e3, e4⟩
    exact ⟨comp_of v1 (by omega), comp_of v2 (by omega), comp_of v3 (by omega), comp_of v4 (by omega), km⟩

/-- The algorithm run for the file of an external routine. -/
theorem extAlgo_spec {ord : ℕ → List Exp} (ho : OrdOK ord) (hst : OrdStart ord)
    {enum : List Qrt → List Qrt} (he : EnumOK enum) {am : QAM} (hv : am.valid = true)
    (htag : am.tag = "") {t : RRType} (hp : 0 < am.get t) :
    ∃ A, extAlgo ord enum t am = some A ∧ vType A.steps am = some t ∧
      (∀ s ∈ vStepsFor A.steps am, ∃ q : Qrt, q.Valid ∧ q.m = 0 ∧ q.am4 = am ∧
        createSingle t q = some s) ∧
      ∀ e : Qrt, e.Valid → e.m = 0 → e.am4 = am → ∃ s ∈ vStepsFor A.steps am, s.target = e := by
  obtain ⟨A, hA, h1, h2⟩ := vrrCreate_single he (t := t)
    (init := quartetTargets ord am.a.toNat am.b.toNat am.c.toNat am.d.toNat)
    (fun q hq => ((mem_targets ho hst hv htag).1 hq).1)
  have hsf : ∀ s ∈ vStepsFor A.steps am, ∃ q : Qrt, q.Valid ∧ q.m = 0 ∧ q.am4 = am ∧
        createSingle t q = some s := by
    intro s hs
    simp only [vStepsFor, List.mem_filter, decide_eq_true_eq] at hs
    obtain ⟨q, k1, k2, k3⟩ := h1 s hs.1
    obtain ⟨d, -, -, k4, -⟩ := createSingle_inv k3
    exact ⟨q, k1, k2, by rw [← k4]; exact hs.2, k3⟩
  have hcov : ∀ e : Qrt, e.Valid → e.m = 0 → e.am4 = am → ∃ s ∈ vStepsFor A.steps am, s.target = e := by
    intro e k1 k2 k3
    obtain ⟨s, hs, e1⟩ := h2 e ((mem_targets ho hst hv htag).2 ⟨k1, k2, k3⟩) (by rw [k3]; exact hp)
    have hz : e.z = e := by cases e; simp only at k2; subst k2; rfl
    rw [hz] at e1
    exact ⟨s, by simp [vStepsFor, hs, e1, k3], e1⟩
  refine ⟨A, hA, ?_, hsf, hcov⟩
  -- a class that is valid is not empty
  have hex : ∃ e : Qrt, e.Valid ∧ e.m = 0 ∧ e.am4 = am := by
    refine ⟨⟨⟨Exp.px am.a, Exp.px am.b⟩, ⟨Exp.px am.c, Exp.px am.d⟩, 0⟩, ?_, rfl, ?_⟩
    · rw [QAM.valid_iff] at hv
      exact ⟨⟨(exp_px_valid _).2 (hv .I), (exp_px_valid _).2 (hv .J)⟩,
        ⟨(exp_px_valid _).2 (hv .K), (exp_px_valid _).2 (hv .L)⟩, le_refl _⟩
    · obtain ⟨a, b, c, d, tag⟩ := am
      simp only at htag
      subst htag
      simp [Qrt.am4]
  obtain ⟨e, k1, k2, k3⟩ := hex
  obtain ⟨s, hs, -⟩ := hcov e k1 k2 k3
  cases hl : vStepsFor A.steps am with
  | nil => rw [hl] at hs; simp at hs
  | cons s' l =>
    obtain ⟨q, -, -, -, k4⟩ := hsf s' (by rw [hl]; simp)
    obtain ⟨d, -, k5, -⟩ := createSingle_inv k4
    rw [vType, hl, List.head?_cons, Option.map_some, k5]

section
variable {F : Type} [VOps F]

theorem vAMReq_mem {e : Qrt} {t : RRType} {d : Dir} {i : Fin 8} (h : (vrrSrc t e d i).Valid) :
    (vrrSrc t e d i).am4 ∈ vAMReq e.am4 t := by
  have ham4 : (vrrSrc t e d i).am4 = (vslot t e d (kslot i)).am4 := by
    rw [vrrSrc_eq, Qrt.addm_am4]
  rw [mem_vAMReq d]
  exact ⟨kslot i, ham4, h.am4⟩

theorem OneSide.mono {w : Sw} {a b : QAM} (h : OneSide w a) (hb : b.valid = true)
    (hle : ∀ t, b.get t ≤ a.get t) : OneSide w b := by
  rw [QAM.valid_iff] at hb
  have h1 := hb .I; have h2 := hb .J; have h3 := hb .K; have h4 := hb .L
  have l1 := hle .I; have l2 := hle .J; have l3 := hle .K; have l4 := hle .L
  simp only [QAM.get] at h1 h2 h3 h4 l1 l2 l3 l4
  refine ⟨fun hw => ?_, fun hw => ?_⟩
  · have := h.1 hw; omega
  · have := h.2 hw; omega

/-- The call of a routine with a full body (no angular momentum on `J` and `L`), its arrays
standing for those of the class with centers exchanged by `w`. -/
theorem callee_contract {ord : ℕ → List Exp} (ho : OrdOK ord) (hst : OrdStart ord)
    {enum : List Qrt → List Qrt} (he : EnumOK enum) {mr : MReq} {P : VPar F} {w : Sw} {am : QAM}
    {t : RRType} {M : ℤ} (hone : OneSide w am) (htag : am.tag = "") (hval : am.valid = true)
    (hpos : 0 < am.get t) (hr : ReqOK mr am t M) (hstd : (w.a am).b = 0 ∧ (w.a am).d = 0) (f : ℕ) :
    VContract ord (.seq false) P am t M (fun _ => True) (fun m => vCall ord enum mr (f + 1) (w.t t) (w.a am)
      (am :: vAMReq am t) ((varReq am t).map P.env) (M + 1).toNat m) := by
  obtain ⟨A, hA, hty, hsf, hcov⟩ := extAlgo_spec ho hst he (am := w.a am) (t := w.t t)
    (by rw [w.avalid]; exact hval) htag (by rw [w.get]; exact hpos)
  intro m
  obtain ⟨hr1, hr0, hr2⟩ := hr
  beta_reduce
  rw [vCall, hA, Option.bind_some, hty, Option.bind_some]
  simp only [hstd, and_self, if_true]
  have hps : w.a am :: vAMReq (w.a am) (w.t t) = (am :: vAMReq am t).map w.a := by
    rw [vAMReq_sw w hone, List.map_cons]
  set σ := bindPos (w.a am :: vAMReq (w.a am) (w.t t)) (am :: vAMReq am t) with hσ
  have hσ1 : ∀ b ∈ am :: vAMReq am t, σ (w.a b) = some b := by
    intro b hb
    rw [hσ, hps]
    have := find_zip_map (f := id) (g := w.a) (l := am :: vAMReq am t)
      (fun x _ y _ h => by rw [← w.a_a x, h, w.a_a]) hb
    rwa [List.map_id] at this
  set P' := (Env.par fun v => (bindPos (varReq (w.a am) (w.t t)) ((varReq am t).map P.env) v).getD
      fun _ => VOps.zero) with hP'
  have hr0v : reqValid am t 0 = true := by
    rw [reqValid]
    rw [QAM.valid_iff] at hval
    have h1 := hval .I; have h2 := hval .J; have h3 := hval .K; have h4 := hval .L
    simp only [QAM.get] at h1 h2 h3 h4
    cases t <;> simp only [QAM.get] at hpos <;> simp only [vAMReqAll, List.getElem?_cons_zero, QAM.valid, decide_eq_true_eq] <;> omega
  have hpar : ParOK P' (w.t t) P t am := par_bound hr0v
  set D := externDecl A.steps (w.a am) with hD
  have hdecl : ∀ s ∈ vStepsFor A.steps (w.a am), DeclOK D s := by
    intro s hs
    refine ⟨fun i hi => ⟨?_, Or.inr rfl⟩, fun i hi => ⟨?_, Or.inr rfl⟩, fun i hi => ⟨?_, Or.inr rfl⟩⟩ <;>
      exact List.mem_flatMap.2 ⟨s, hs, hi⟩
  -- statements
  have hren : ∀ s ∈ (vStepsFor A.steps (w.a am)).map (vStmt ord (w.a am)),
      (σ s.tq).isSome ∧ ∀ i, ∀ r ∈ s.src i, (σ r.q).isSome := by
    intro s' hs'
    obtain ⟨s, hs, rfl⟩ := List.mem_map.1 hs'
    obtain ⟨q, hq, hm, ham, hcs⟩ := hsf s hs
    obtain ⟨d, hd, k2, k3, k4, k5, k6⟩ := createSingle_inv hcs
    refine ⟨?_, ?_⟩
    · show (σ (w.a am)).isSome
      rw [hσ1 am (by simp)]; rfl
    · intro i r hr
      have hr' : r ∈ vRef ord (s.src i) := hr
      unfold vRef at hr'
      split at hr'
      · rename_i hv
        simp only [Option.mem_def, Option.some.injEq] at hr'
        subst hr'
        show (σ (s.src i).am4).isSome
        have hmem : (s.src i).am4 ∈ vAMReq (w.a am) (w.t t) := by
          rw [k4, ← ham]
          exact vAMReq_mem (by rw [← k4]; exact hv)
        rw [vAMReq_sw w hone] at hmem
        obtain ⟨b, hb, e⟩ := List.mem_map.1 hmem
        rw [← e, hσ1 b (by simp [hb])]; rfl
      · simp at hr'
  have hbody : ∀ m1 : VMem F, vBody1 mr P' D σ ((vStepsFor A.steps (w.a am)).map (vStmt ord (w.a am)))
      (M + 1).toNat m1 = vExecLoop mr P' D
        (((vStepsFor A.steps (w.a am)).map (vStmt ord (w.a am))).map (VStmt.renF σ))
        (List.range (M + 1).toNat) m1 := by
    intro m1
    rw [vBody1, mapM_ren _ hren, Option.bind_some]
  have hjobs : ∀ n ∈ List.range (M + 1).toNat,
      ∀ s ∈ ((vStepsFor A.steps (w.a am)).map (vStmt ord (w.a am))).map (VStmt.renF σ), s.tq = am ∧
      n * ncartQ am + s.ti < vSize mr am ∧
      ∃ v, (∀ m' : VMem F, (∀ q, q ≠ am → m' q = m q) → s.value P' D (vread mr m') n = some v) ∧
        ∀ (q : Qrt) (n' : ℕ), q.Valid → q.m = 0 → q.am4 = am →
          n * ncartQ am + s.ti = vaddr ord q n' →
          ∀ d, makDir (q.cen t) = some d → v = vform (.seq false) P t d q (m.at ord) n' := by
    intro n hn s'' hs''
    rw [List.mem_range] at hn
    obtain ⟨s', hs', rfl⟩ := List.mem_map.1 hs''
    have hrn := hren s' hs'
    obtain ⟨s, hs, rfl⟩ := List.mem_map.1 hs'
    obtain ⟨q', hq', hm', ham', hcs⟩ := hsf s hs
    -- the quartet of the class `am`
    obtain ⟨q, hqq⟩ : ∃ q, q = w.q q' := ⟨_, rfl⟩
    have hq'q : q' = w.q q := by rw [hqq, w.q_q]
    have hq : q.Valid := by rw [hqq, w.valid]; exact hq'
    have hm : q.m = 0 := by rw [hqq]; exact hm'
    have ham : q.am4 = am := by rw [hqq, w.am4, ham', w.a_a]
    obtain ⟨d0, hd0, hdp, hcs'⟩ := createSingle_spec hq' (by rw [ham', w.get]; exact hpos)
    have htg : s.target = q' := by rw [hcs, Option.some.injEq] at hcs'; rw [hcs']
    have hsrc : s.src = vrrSrc (w.t t) q' d0 := by rw [hcs, Option.some.injEq] at hcs'; rw [hcs']
    have hcen : q'.cen (w.t t) = q.cen t := by rw [hq'q, w.cen]
    have hone' : OneSide w q.am4 := by rw [ham]; exact hone
    have hti : (VStmt.renF σ (vStmt ord (w.a am) s)).ti = q.index ord := by
      show s.target.index ord = q.index ord
      rw [htg, hq'q, w.index ho hq hone']
    have htq : (VStmt.renF σ (vStmt ord (w.a am) s)).tq = am := by
      show (σ (w.a am)).getD (w.a am) = am
      rw [hσ1 am (by simp)]; rfl
    refine ⟨htq, ?_, vform (.seq false) P t d0 q (m.at ord) n, ?_, ?_⟩
    · rw [hti]
      have := vaddr_lt ho hq (by rw [ham]; exact hr1) (n := n) (by omega)
      rw [ham] at this
      rw [ncartQ_of ham]
      exact this
    · intro m2 hm2
      rw [renF_value hrn.2]
      rw [value_eq hq' hd0 hdp hcs (hdecl s hs) (val := fun n q => m.at ord n (w.q q)) ?_]
      · rw [show D.one = false from rfl, hq'q, vform_par hpar w rfl hone hq ham (by rw [← hcen]; exact hdp)]
      · intro i hi n' hn'
        have hes := eslot_cases i
        have ham4 : (vrrSrc (w.t t) q' d0 i).am4 = (vslot (w.t t) q' d0 (kslot i)).am4 := by
          rw [vrrSrc_eq, Qrt.addm_am4]
        have hmem : (vrrSrc (w.t t) q' d0 i).am4 ∈ vAMReq (w.a am) (w.t t) := by
          rw [← ham']; exact vAMReq_mem hi
        rw [vAMReq_sw w hone] at hmem
        obtain ⟨b, hb, e⟩ := List.mem_map.1 hmem
        rw [← e, hσ1 b (by simp [hb]), Option.bind_some]
        obtain ⟨M', hM1, hM2⟩ := hr2 _ hb
        -- the source in the array of `b`
        set p := vslot (w.t t) q' d0 (kslot i) with hp
        have hpv : p.Valid := by
          rw [Qrt.valid_iff]
          refine ⟨(src_valid_iff hq'.2.2 d0 i).1 hi, by rw [hp, vslot_m, hm']⟩
        have hpam : w.a p.am4 = b := by rw [← ham4, ← e, w.a_a]
        have hwp : (w.q p).Valid := (w.valid p).2 hpv
        have hpo : OneSide w p.am4 := by
          have h1 : OneSide w (w.a am) := hone.sw
          refine h1.mono hpv.am4 fun u => ?_
          rw [Qrt.am4_get, ← ham', Qrt.am4_get, hp]
          exact vslot_cen_le (w.t t) u q' d0 (kslot i)
        have hadr : vaddr ord (vrrSrc (w.t t) q' d0 i) n' = vaddr ord (w.q p) n' := by
          rw [vrrSrc_eq, vaddr_addm, w.vaddr ho hpv hpo]
        have hwam : (w.q p).am4 = b := by rw [w.am4, hpam]
        have hlt := vaddr_lt ho hwp (by rw [hwam]; exact hM1) (n := n') (by omega)
        have hne : b ≠ am := by
          intro hc
          have := vAMReq_sum hb
          rw [hc] at this; omega
        rw [hadr, vread, ← hwam, if_pos hlt, hm2 _ (by rw [hwam]; exact hne)]
        rfl
    · intro q2 n' hq2 hm2 ham2 hadr d hd
      have hadr' : vaddr ord q n = vaddr ord q2 n' := by
        rw [← hadr, vaddr, ncartQ_of ham, hti]
      obtain ⟨rfl, rfl⟩ := vaddr_inj ho hq hq2 (by rw [ham, ham2]) (by rw [hm, hm2]) hadr'
      rw [hcen, hd, Option.some.injEq] at hd0
      rw [hd0]
  obtain ⟨m', e, g1, g2⟩ := vExecLoop_jobs (mr := mr) (P := P') (D := D) (am := am) (m := m)
    (ss := ((vStepsFor A.steps (w.a am)).map (vStmt ord (w.a am))).map (VStmt.renF σ))
    (Pv := fun a v => ∀ (q : Qrt) (n : ℕ), q.Valid → q.m = 0 → q.am4 = am → a = vaddr ord q n →
      ∀ d, makDir (q.cen t) = some d → v = vform (.seq false) P t d q (m.at ord) n)
    (List.range (M + 1).toNat) hjobs m (fun _ => False) (fun _ _ => rfl) (by simp)
  refine ⟨m', by rw [hbody]; exact e, g1, ?_⟩
  rintro q hq hm ham - n hn d hd
  rw [VMem.at, ham]
  obtain ⟨s, hs, hsq⟩ := hcov (w.q q) ((w.valid q).2 hq) hm (by rw [w.am4, ham])
  refine g2 _ (Or.inr ⟨n, List.mem_range.2 (by omega), _, List.mem_map.2 ⟨_, List.mem_map.2 ⟨s, hs, rfl⟩, rfl⟩,
    ?_⟩) q n hq hm ham rfl d hd
  show vaddr ord q n = n * ncartQ am + s.target.index ord
  rw [hsq, ncartQ_of ham, w.index ho hq (by rw [ham]; exact hone)]
  rfl

/-- At most one center of each side carries angular momentum. -/
def OneSided (a : QAM) : Prop := (a.a = 0 ∨ a.b = 0) ∧ (a.c = 0 ∨ a.d = 0)

theorem mapM_bind_self {l : List QAM} : l.mapM (bindPos l l) = some l := by
  have h : ∀ x ∈ l, bindPos l l x = some x := by
    intro x hx
    have := find_zip_map (f := id) (g := id) (l := l) (fun _ _ _ _ h => h) hx
    rwa [List.map_id] at this
  have key : ∀ l' : List QAM, (∀ x ∈ l', bindPos l l x = some x) → l'.mapM (bindPos l l) = some l' := by
    intro l'
    induction l' with
    | nil => intro _; rfl
    | cons x l' ih =>
      intro h'
      rw [List.mapM_cons, h' x (by simp), ih fun y hy => h' y (by simp [hy])]
      rfl
  exact key l h

theorem map_env_self {P : VPar F} {l : List VName} :
    l.map (fun v => (bindPos l (l.map P.env) v).getD fun _ => VOps.zero) = l.map P.env := by
  refine List.map_congr_left fun v hv => ?_
  have := find_zip_map (f := P.env) (g := id) (l := l) (fun _ _ _ _ h => h) hv
  rw [List.map_id] at this
  simp only [id] at this
  rw [this, Option.getD_some]

/-- Running the call written for a class. -/
theorem external_contract {ord : ℕ → List Exp} (ho : OrdOK ord) (hst : OrdStart ord)
    {enum : List Qrt → List Qrt} (he : EnumOK enum) {A : VRRAlgo} {P : VPar F} {am : QAM}
    {t : RRType} {M : ℤ} (hone : OneSided am) (htag : am.tag = "") (hval : am.valid = true)
    (hpos : 0 < am.get t) (hty : vType A.steps am = some t) (hr : ReqOK A.mreq am t M) :
    VContract ord (.seq false) P am t M (fun _ => True) (vRunExternal ord enum A P am) := by
  have hrun : vRunExternal ord enum A P am = fun m => vCall ord enum A.mreq 2 t am
      (am :: vAMReq am t) ((varReq am t).map P.env) (M + 1).toNat m := by
    funext m
    rw [vRunExternal, hty, Option.bind_some, hr.1, Option.bind_some]
  rw [hrun]
  by_cases hstd : am.b = 0 ∧ am.d = 0
  · have h := callee_contract ho hst he (mr := A.mreq) (P := P) (w := ⟨false, false⟩) (am := am) (t := t)
      (M := M) ⟨by simp, by simp⟩ htag hval hpos hr hstd 1
    have h1 : Sw.a ⟨false, false⟩ am = am := by cases am; rfl
    have h2 : Sw.t ⟨false, false⟩ t = t := by cases t <;> rfl
    rwa [h1, h2] at h
  · obtain ⟨A', hA', hty', -, -⟩ := extAlgo_spec ho hst he hval htag hpos
    set w : Sw := ⟨decide (am.a = 0), decide (am.c = 0)⟩ with hw
    have h1 : toCall am = w.a am := by
      obtain ⟨a, b, c, d, tag⟩ := am
      simp only [toCall, hw, Sw.a, decide_eq_true_eq]
      by_cases ha : a = 0 <;> by_cases hc : c = 0 <;> simp [ha, hc]
    have h2 : toCallStep t = w.t t := by
      obtain ⟨a, b, c, d, tag⟩ := am
      simp only [OneSided] at hone
      cases t <;> simp only [QAM.get] at hpos <;> simp only [toCallStep, hw, Sw.t, decide_eq_true_eq]
      · rw [if_neg (by omega)]
      · rw [if_pos (by omega)]
      · rw [if_neg (by omega)]
      · rw [if_pos (by omega)]
    have hstd' : (w.a am).b = 0 ∧ (w.a am).d = 0 := by
      obtain ⟨a, b, c, d, tag⟩ := am
      simp only [OneSided] at hone
      simp only [hw, Sw.a, decide_eq_true_eq]
      constructor <;> split <;> omega
    have hos : OneSide w am := ⟨fun _ => hone.1, fun _ => hone.2⟩
    have h := callee_contract ho hst he (mr := A.mreq) (P := P) (w := w) (am := am) (t := t)
      (M := M) hos htag hval hpos hr hstd' 0
    have hf : (fun m => vCall ord enum A.mreq 2 t am
        (am :: vAMReq am t) ((varReq am t).map P.env) (M + 1).toNat m) = fun m =>
        vCall ord enum A.mreq (0 + 1) (w.t t) (w.a am) (am :: vAMReq am t) ((varReq am t).map P.env)
          (M + 1).toNat m := by
      funext m
      rw [vCall, hA', Option.bind_some, hty', Option.bind_some]
      simp only [hstd, if_false]
      rw [mapM_bind_self, Option.bind_some, h1, h2, map_env_self]
    rw [hf]
    exact h

/-- A routine with angular momentum on both centers of each side calls itself. -/
theorem vCall_two_sided {ord : ℕ → List Exp} {enum : List Qrt → List Qrt} {mr : MReq} {am : QAM}
    {t : RRType} (ha : am.a ≠ 0) (hc : am.c ≠ 0) (hbd : ¬ (am.b = 0 ∧ am.d = 0))
    (ht : t = .I ∨ t = .K) :
    ∀ (f : ℕ) (args : List QAM) (vargs : List (Dir → F)) (num : ℕ) (m : VMem F),
      (∀ A, extAlgo ord enum t am = some A → ∀ t', vType A.steps am = some t' → t' = t) →
      vCall ord enum mr f t am args vargs num m = none
  | 0, _, _, _, _, _ => rfl
  | f + 1, args, vargs, num, m, hA => by
    rw [vCall]
    cases h1 : extAlgo ord enum t am with
    | none => rfl
    | some A =>
      rw [Option.bind_some]
      cases h2 : vType A.steps am with
      | none => rfl
      | some t' =>
        obtain rfl := hA A h1 t' h2
        simp only [Option.bind_some, hbd, if_false]
        cases h3 : (am :: vAMReq am t').mapM (bindPos (am :: vAMReq am t') args) with
        | none => rfl
        | some args' =>
          have h4 : toCall am = am := by simp [toCall, ha, hc]
          have h5 : toCallStep t' = t' := by rcases ht with rfl | rfl <;> rfl
          rw [Option.bind_some, h4, h5]
          exact vCall_two_sided ha hc hbd ht f _ _ _ _ hA

end

end Simint
