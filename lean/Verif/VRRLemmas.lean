import Verif.VRR
import Verif.HRRLemmas
import Mathlib.Tactic.FinCases
import Mathlib.Data.Fintype.Basic
import Mathlib.Data.Fin.Basic
import Mathlib.Data.List.OfFn

/-!
# Lemmas on the vertical search
-/

set_option autoImplicit false

namespace Simint

/-! ## Centers -/

theorem Qrt.ext_cen {p q : Qrt} (h : ∀ t, p.cen t = q.cen t) (hm : p.m = q.m) : p = q := by
  obtain ⟨⟨a, b⟩, ⟨c, d⟩, m⟩ := p
  obtain ⟨⟨a', b'⟩, ⟨c', d'⟩, m'⟩ := q
  have h1 := h .I; have h2 := h .J; have h3 := h .K; have h4 := h .L
  simp only [Qrt.cen] at h1 h2 h3 h4 hm
  subst h1 h2 h3 h4 hm; rfl

theorem Qrt.cen_low (q : Qrt) (t u : RRType) (d : Dir) (n : ℤ) :
    (q.low t d n).cen u = if u = t then (q.cen t).step d (-n) else q.cen u := by
  cases t <;> cases u <;> rfl

@[simp] theorem Qrt.m_low (q : Qrt) (t : RRType) (d : Dir) (n : ℤ) : (q.low t d n).m = q.m := by
  cases t <;> rfl

theorem Qrt.valid_iff (q : Qrt) : q.Valid ↔ (∀ t, (q.cen t).Valid) ∧ 0 ≤ q.m := by
  constructor
  · rintro ⟨⟨h1, h2⟩, ⟨h3, h4⟩, h5⟩
    exact ⟨fun t => by cases t <;> assumption, h5⟩
  · rintro ⟨h, h5⟩
    exact ⟨⟨h .I, h .J⟩, ⟨h .K, h .L⟩, h5⟩

theorem Qrt.am4_get (q : Qrt) (t : RRType) : q.am4.get t = (q.cen t).am := by
  cases t <;> rfl

theorem QAM.ext_get {a b : QAM} (h : ∀ t, a.get t = b.get t) (ht : a.tag = b.tag) : a = b := by
  obtain ⟨a1, a2, a3, a4, s⟩ := a
  obtain ⟨b1, b2, b3, b4, s'⟩ := b
  have h1 := h .I; have h2 := h .J; have h3 := h .K; have h4 := h .L
  simp only [QAM.get] at h1 h2 h3 h4 ht
  subst h1 h2 h3 h4 ht; rfl

/-- Sum of the four numbers. -/
def QAM.sum (a : QAM) : ℤ := a.a + a.b + (a.c + a.d)

@[simp] theorem Qrt.am4_sum (q : Qrt) : q.am4.sum = q.am := rfl

@[simp] theorem Qrt.am4_tag (q : Qrt) : q.am4.tag = "" := rfl

theorem QAM.valid_iff (a : QAM) : a.valid = true ↔ ∀ t, 0 ≤ a.get t := by
  simp only [QAM.valid, decide_eq_true_eq]
  constructor
  · rintro ⟨h1, h2, h3, h4⟩ t; cases t <;> assumption
  · intro h; exact ⟨h .I, h .J, h .K, h .L⟩

theorem Qrt.Valid.am4 {q : Qrt} (h : q.Valid) : q.am4.valid = true := by
  rw [QAM.valid_iff]
  intro t
  rw [Qrt.am4_get]
  exact (((Qrt.valid_iff q).1 h).1 t).am_nonneg

theorem QAM.get_le_sum {a : QAM} (h : a.valid = true) (t : RRType) : a.get t ≤ a.sum := by
  rw [QAM.valid_iff] at h
  have h1 := h .I; have h2 := h .J; have h3 := h .K; have h4 := h .L
  simp only [QAM.get] at h1 h2 h3 h4
  cases t <;> simp only [QAM.get, QAM.sum] <;> omega

theorem QAM.eq_ssss {a : QAM} (h : a.valid = true) (h0 : a.sum ≤ 0) (ht : a.tag = "") : a = ssss := by
  have h1 := QAM.get_le_sum h
  rw [QAM.valid_iff] at h
  refine QAM.ext_get (fun t => ?_) ht
  have : ssss.get t = 0 := by cases t <;> rfl
  have := h1 t
  have := h t
  omega

/-! ## Sources as lowered slots -/

/-- The five lowerings, in the order of `GenerateAMReq`. -/
def vslot (t : RRType) (q : Qrt) (d : Dir) : Fin 5 → Qrt :=
  match t with
  | .I => ![q.low .I d 1, q.low .I d 2, (q.low .J d 1).low .I d 1, (q.low .K d 1).low .I d 1,
      (q.low .L d 1).low .I d 1]
  | .J => ![q.low .J d 1, (q.low .I d 1).low .J d 1, q.low .J d 2, (q.low .K d 1).low .J d 1,
      (q.low .L d 1).low .J d 1]
  | .K => ![q.low .K d 1, q.low .K d 2, (q.low .L d 1).low .K d 1, (q.low .I d 1).low .K d 1,
      (q.low .J d 1).low .K d 1]
  | .L => ![q.low .L d 1, (q.low .K d 1).low .L d 1, q.low .L d 2, (q.low .I d 1).low .L d 1,
      (q.low .J d 1).low .L d 1]

def kslot : Fin 8 → Fin 5 := ![0, 0, 1, 1, 2, 2, 3, 4]
def eslot : Fin 8 → ℤ := ![0, 1, 0, 1, 0, 1, 1, 1]

/-- Change of the order `m`. -/
def Qrt.addm (q : Qrt) (k : ℤ) : Qrt := ⟨q.bra, q.ket, q.m + k⟩

@[simp] theorem Qrt.addm_cen (q : Qrt) (k : ℤ) (t : RRType) : (q.addm k).cen t = q.cen t := by
  cases t <;> rfl
@[simp] theorem Qrt.addm_am4 (q : Qrt) (k : ℤ) : (q.addm k).am4 = q.am4 := rfl
@[simp] theorem Qrt.addm_am (q : Qrt) (k : ℤ) : (q.addm k).am = q.am := rfl
@[simp] theorem Qrt.addm_m (q : Qrt) (k : ℤ) : (q.addm k).m = q.m + k := rfl

theorem vrrSrc_eq (t : RRType) (q : Qrt) (d : Dir) (i : Fin 8) :
    vrrSrc t q d i = (vslot t q d (kslot i)).addm (eslot i) := by
  have h0 : ∀ p : Qrt, p = p.addm 0 := fun p => by simp [Qrt.addm]
  have h1 : ∀ p : Qrt, p.up = p.addm 1 := fun p => rfl
  cases t <;> fin_cases i <;> first | exact h0 _ | exact h1 _

theorem eslot_cases (i : Fin 8) : eslot i = 0 ∨ eslot i = 1 := by
  fin_cases i <;> simp [eslot]

@[simp] theorem vslot_m (t : RRType) (q : Qrt) (d : Dir) (j : Fin 5) : (vslot t q d j).m = q.m := by
  cases t <;> fin_cases j <;> simp [vslot]

theorem vslot_am4 (t : RRType) (q : Qrt) (d : Dir) (j : Fin 5) :
    (vAMReqAll q.am4 t)[j.1]? = some (vslot t q d j).am4 := by
  cases t <;> fin_cases j <;>
    simp [vslot, vAMReqAll, Qrt.am4, Qrt.low, sub_eq_add_neg]

theorem vslot_cen_le (t u : RRType) (q : Qrt) (d : Dir) (j : Fin 5) :
    ((vslot t q d j).cen u).am ≤ (q.cen u).am := by
  cases t <;> fin_cases j <;> cases u <;> simp [vslot, Qrt.low, Qrt.cen]

theorem vslot_cen_lt (t : RRType) (q : Qrt) (d : Dir) (j : Fin 5) :
    ((vslot t q d j).cen t).am + 1 ≤ (q.cen t).am := by
  cases t <;> fin_cases j <;> simp [vslot, Qrt.low, Qrt.cen] <;> omega

theorem Qrt.am_cen (q : Qrt) : q.am = (q.cen .I).am + (q.cen .J).am + ((q.cen .K).am + (q.cen .L).am) :=
  rfl

theorem vslot_am_lt (t : RRType) (q : Qrt) (d : Dir) (j : Fin 5) :
    (vslot t q d j).am + 1 ≤ q.am := by
  rw [Qrt.am_cen, Qrt.am_cen]
  have h := vslot_cen_lt t q d j
  have h1 := vslot_cen_le t .I q d j
  have h2 := vslot_cen_le t .J q d j
  have h3 := vslot_cen_le t .K q d j
  have h4 := vslot_cen_le t .L q d j
  cases t <;> omega

theorem vslot_zero_am (t : RRType) (q : Qrt) (d : Dir) : (vslot t q d 0).am = q.am - 1 := by
  cases t <;> simp [vslot, Qrt.low, Qrt.am] <;> ring

theorem vslot_zero (t : RRType) (q : Qrt) (d : Dir) : vslot t q d 0 = q.low t d 1 := by
  cases t <;> rfl

/-! ## Pure-x quartets -/

/-- Same AM and order, all exponents on x. -/
def Qrt.px (q : Qrt) : Qrt :=
  ⟨⟨Exp.px q.bra.left.am, Exp.px q.bra.right.am⟩, ⟨Exp.px q.ket.left.am, Exp.px q.ket.right.am⟩, q.m⟩

@[simp] theorem exp_px_am (n : ℤ) : (Exp.px n).am = n := by simp [Exp.px, Exp.am]

theorem exp_px_valid (n : ℤ) : (Exp.px n).Valid ↔ 0 ≤ n := by simp [Exp.px, Exp.Valid]

@[simp] theorem Qrt.px_am4 (q : Qrt) : q.px.am4 = q.am4 := by simp [Qrt.px, Qrt.am4]

@[simp] theorem Qrt.px_am (q : Qrt) : q.px.am = q.am := by simp [Qrt.px, Qrt.am]

@[simp] theorem Qrt.px_m (q : Qrt) : q.px.m = q.m := rfl

theorem Qrt.px_cen (q : Qrt) (t : RRType) : q.px.cen t = Exp.px (q.cen t).am := by
  cases t <;> rfl

theorem px_step (n k : ℤ) : (Exp.px n).step .x k = Exp.px (n + k) := rfl

theorem Qrt.px_low (q : Qrt) (t : RRType) (d : Dir) (n : ℤ) :
    (q.low t d n).px = q.px.low t .x n := by
  cases t <;> simp [Qrt.low, Qrt.px, px_step]

theorem Qrt.px_addm (q : Qrt) (k : ℤ) : (q.addm k).px = q.px.addm k := rfl

theorem vslot_px (t : RRType) (q : Qrt) (d : Dir) (j : Fin 5) :
    (vslot t q d j).px = vslot t q.px .x j := by
  cases t <;> fin_cases j <;> simp [vslot, Qrt.px_low]

theorem Qrt.px_valid (q : Qrt) : q.px.Valid ↔ q.am4.valid = true ∧ 0 ≤ q.m := by
  rw [Qrt.valid_iff, QAM.valid_iff]
  simp only [Qrt.px_cen, exp_px_valid, Qrt.px_m, Qrt.am4_get]

theorem makDir_px {n : ℤ} (h : 0 < n) : makDir (Exp.px n) = some .x := by
  obtain ⟨d, h1, h2⟩ := makDir_spec ((exp_px_valid n).2 h.le) (by simpa using h)
  rw [h1]
  have := h2.1
  cases d <;> simp [Exp.px, Exp.get] at this ⊢

/-! ## createSingle -/

theorem createSingle_spec {t : RRType} {q : Qrt} (hv : q.Valid) (hp : 0 < q.am4.get t) :
    ∃ d, makDir (q.cen t) = some d ∧ 0 < (q.cen t).get d ∧ createSingle t q = some
      { type := t, target := q, src := vrrSrc t q d, xyz := d
        ijkl := vrrIjkl t q d (vrrSrc t q d) } := by
  rw [Qrt.am4_get] at hp
  obtain ⟨d, h1, h2⟩ := makDir_spec (((Qrt.valid_iff q).1 hv).1 t) hp
  exact ⟨d, h1, h2.1, by simp [createSingle, h1]⟩

theorem createSingle_inv {t : RRType} {q : Qrt} {s : VStep} (h : createSingle t q = some s) :
    ∃ d, makDir (q.cen t) = some d ∧ s.type = t ∧ s.target = q ∧ s.src = vrrSrc t q d ∧ s.xyz = d ∧
      s.ijkl = vrrIjkl t q d (vrrSrc t q d) := by
  simp only [createSingle, Option.map_eq_some_iff] at h
  obtain ⟨d, h1, rfl⟩ := h
  exact ⟨d, h1, rfl, rfl, rfl, rfl, rfl⟩

/-! ## Reachable quartets -/

/-- The step type used for a class: first center of the index order with positive AM. -/
def phase (ts : List RRType) (a : QAM) : Option RRType := ts.find? fun t => decide (0 < a.get t)

/-- Quartets that occur in the search. -/
inductive VReach (ts : List RRType) (init : List Qrt) : Qrt → Prop
  | base (q : Qrt) : q ∈ init → q.Valid → 0 < q.am → VReach ts init q
  | step (q : Qrt) (t : RRType) (s : VStep) (i : Fin 8) : VReach ts init q →
      phase ts q.am4 = some t → createSingle t q = some s → (s.src i).Valid → 0 < (s.src i).am →
      VReach ts init (s.src i)

variable {ts : List RRType} {init : List Qrt}

theorem VReach.valid {q : Qrt} (h : VReach ts init q) : q.Valid ∧ 0 < q.am := by
  cases h with
  | base _ _ h1 h2 => exact ⟨h1, h2⟩
  | step _ _ _ _ _ _ _ h1 h2 => exact ⟨h1, h2⟩

theorem src_am4 {t : RRType} {q : Qrt} {s : VStep} (h : createSingle t q = some s) (i : Fin 8) :
    ∃ d, makDir (q.cen t) = some d ∧ s.src i = (vslot t q d (kslot i)).addm (eslot i) := by
  obtain ⟨d, h1, -, -, h2, -⟩ := createSingle_inv h
  exact ⟨d, h1, by rw [h2, vrrSrc_eq]⟩

theorem src_bound {t : RRType} {q : Qrt} {s : VStep} (h : createSingle t q = some s) (i : Fin 8) :
    (s.src i).am + (s.src i).m ≤ q.am + q.m ∧ (s.src i).am + 1 ≤ q.am ∧ q.m ≤ (s.src i).m ∧
      (∀ u, (s.src i).am4.get u ≤ q.am4.get u) ∧ (s.src i).am4.get t + 1 ≤ q.am4.get t := by
  obtain ⟨d, -, e⟩ := src_am4 h i
  have h1 := vslot_am_lt t q d (kslot i)
  have h2 := eslot_cases i
  rw [e]
  refine ⟨?_, ?_, ?_, ?_, ?_⟩
  · simp only [Qrt.addm_am, Qrt.addm_m, vslot_m]; omega
  · simpa using h1
  · simp only [Qrt.addm_m, vslot_m]; omega
  · intro u; simp only [Qrt.addm_am4, Qrt.am4_get]; exact vslot_cen_le t u q d _
  · simp only [Qrt.addm_am4, Qrt.am4_get]; exact vslot_cen_lt t q d _

theorem VReach.bound {N : ℤ} (hN : ∀ q ∈ init, q.am + q.m ≤ N) {q : Qrt} (h : VReach ts init q) :
    q.am + q.m ≤ N := by
  induction h with
  | base q h1 _ _ => exact hN q h1
  | step q t s i _ _ hs _ _ ih => have := (src_bound hs i).1; omega

theorem VReach.am_bound {N : ℤ} (hN : ∀ q ∈ init, q.am ≤ N) {q : Qrt} (h : VReach ts init q) :
    q.am ≤ N := by
  induction h with
  | base q h1 _ _ => exact hN q h1
  | step q t s i _ _ hs _ _ ih => have := (src_bound hs i).2.1; omega

theorem phase_some {a : QAM} {t : RRType} (h : phase ts a = some t) : 0 < a.get t ∧ t ∈ ts := by
  have h1 := List.find?_some h
  exact ⟨by simpa using h1, List.mem_of_find?_eq_some h⟩

theorem phase_total (hts : ∀ t, t ∈ ts) {a : QAM} (hv : a.valid = true) (hp : 0 < a.sum) :
    ∃ t, phase ts a = some t := by
  have : ∃ t, 0 < a.get t := by
    by_contra hc
    push Not at hc
    have h1 := hc .I; have h2 := hc .J; have h3 := hc .K; have h4 := hc .L
    simp only [QAM.get, QAM.sum] at *
    omega
  obtain ⟨t, ht⟩ := this
  have := List.find?_isSome (p := fun t => decide (0 < a.get t)) (xs := ts)
  have h : (phase ts a).isSome := by
    rw [phase, this]
    exact ⟨t, hts t, by simpa using ht⟩
  exact Option.isSome_iff_exists.1 h

/-! ## Search invariant -/

structure SInv (ts : List RRType) (init : List Qrt) (steps : List VStep) (solved : List Qrt)
    (pend : Qrt → Prop) : Prop where
  reach : ∀ q, q ∈ solved ∨ pend q → VReach ts init q
  sph : ∀ s ∈ steps, s.target ∈ solved ∧ ∃ t, phase ts s.target.am4 = some t ∧
    createSingle t s.target = some s
  has : ∀ q ∈ solved, ∃ s ∈ steps, s.target = q
  cl : ∀ s ∈ steps, ∀ i, (s.src i).Valid → 0 < (s.src i).am → s.src i ∈ solved ∨ pend (s.src i)
  ini : ∀ q ∈ init, q.Valid → 0 < q.am → q ∈ solved ∨ pend q

theorem SInv.congr {steps : List VStep} {solved : List Qrt} {p p' : Qrt → Prop}
    (h : SInv ts init steps solved p) (he : ∀ q, p q ↔ p' q) : SInv ts init steps solved p' := by
  have : p = p' := funext fun q => propext (he q)
  rwa [← this]

theorem mem_vfold {solved : List Qrt} {x : Qrt} : ∀ (l : List Qrt) (a : List Qrt),
    x ∈ l.foldl (fun l s => if s.Valid ∧ s ∉ solved then sins s l else l) a ↔
      x ∈ a ∨ (x ∈ l ∧ x.Valid ∧ x ∉ solved)
  | [], a => by simp
  | s :: l, a => by
    rw [List.foldl_cons, mem_vfold l]
    by_cases h : s.Valid ∧ s ∉ solved
    · rw [if_pos h, mem_sins, List.mem_cons]
      constructor
      · rintro ((rfl | h1) | h1)
        · exact Or.inr ⟨Or.inl rfl, h⟩
        · exact Or.inl h1
        · exact Or.inr ⟨Or.inr h1.1, h1.2⟩
      · rintro (h1 | ⟨rfl | h1, h2⟩)
        · exact Or.inl (Or.inr h1)
        · exact Or.inl (Or.inl rfl)
        · exact Or.inr ⟨h1, h2⟩
    · rw [if_neg h, List.mem_cons]
      constructor
      · rintro (h1 | h1)
        · exact Or.inl h1
        · exact Or.inr ⟨Or.inr h1.1, h1.2⟩
      · rintro (h1 | ⟨rfl | h1, h2⟩)
        · exact Or.inl h1
        · exact absurd h2 h
        · exact Or.inr ⟨h1, h2⟩

theorem mem_vInsert {s u : VStep} {l : List VStep} (h : u ∈ vInsert s l) : u = s ∨ u ∈ l := by
  unfold vInsert at h
  split at h
  · exact Or.inr h
  · simpa using h

theorem vInsert_mono {s u : VStep} {l : List VStep} (h : u ∈ l) : u ∈ vInsert s l := by
  unfold vInsert
  split
  · exact h
  · simp [h]

theorem vInsert_self {s : VStep} {l : List VStep} : ∃ u ∈ vInsert s l, u.target = s.target := by
  unfold vInsert
  split
  · assumption
  · exact ⟨s, by simp, rfl⟩

/-- One round: all of `l` processed. -/
theorem vRound_inv {t : RRType} {targets : List Qrt} {f : ℤ} : ∀ (l : List Qrt) (st : VSt),
    SInv ts init st.steps st.solved (fun q => q ∈ l ∨ (q ∈ st.newt ∧ 0 < q.am) ∨ q ∈ targets) →
    (∀ q ∈ l, phase ts q.am4 = some t ∧ q.am4.get t ≤ f + 1) →
    (∀ q ∈ st.newt, q.Valid ∧ q.am4.get t ≤ f ∧ ∀ u ∈ ts.takeWhile (· ≠ t), q.am4.get u = 0) →
    ∃ st', vRound t l st = some st' ∧
      SInv ts init st'.steps st'.solved (fun q => (q ∈ st'.newt ∧ 0 < q.am) ∨ q ∈ targets) ∧
      (∀ q ∈ st'.newt, q.Valid ∧ q.am4.get t ≤ f ∧ ∀ u ∈ ts.takeWhile (· ≠ t), q.am4.get u = 0)
  | [], st, h, _, hn => ⟨st, rfl, h.congr (by simp), hn⟩
  | x :: l, st, h, hl, hn => by
    have hr : VReach ts init x := h.reach x (Or.inr (Or.inl (by simp)))
    obtain ⟨hv, -⟩ := hr.valid
    obtain ⟨hph, hxf⟩ := hl x (by simp)
    have hpos := (phase_some hph).1
    obtain ⟨d, hd, hd0, hs⟩ := createSingle_spec hv hpos
    set s : VStep := { type := t, target := x, src := vrrSrc t x d, xyz := d
                       ijkl := vrrIjkl t x d (vrrSrc t x d) } with hsdef
    set st1 : VSt := ⟨(List.ofFn s.src).foldl
      (fun l s => if s.Valid ∧ s ∉ st.solved then sins s l else l) st.newt,
      vInsert s st.steps, sins x st.solved⟩ with hst1
    have hb : vBody t st x = some st1 := by rw [vBody, hs]; rfl
    have hnew : ∀ q, q ∈ st1.newt ↔ q ∈ st.newt ∨ (∃ i, s.src i = q) ∧ q.Valid ∧ q ∉ st.solved := by
      intro q
      rw [hst1]
      simp only []
      rw [mem_vfold, List.mem_ofFn]
    have hz : ∀ u ∈ ts.takeWhile (· ≠ t), x.am4.get u = 0 := by
      intro u hu
      have h0 : ¬ 0 < x.am4.get u := by
        have := List.find?_eq_some_iff_append.1 hph
        obtain ⟨-, as, bs, hts, has⟩ := this
        have hut : u ∈ as := by
          have hnt : ∀ a ∈ as, (decide (a ≠ t)) = true := by
            intro a ha
            have := has a ha
            simp only [Bool.not_eq_true', decide_eq_false_iff_not] at this
            simp only [decide_eq_true_eq]
            rintro rfl
            exact this hpos
          rw [hts, List.takeWhile_append_of_pos hnt] at hu
          simpa using hu
        have := has u hut
        simpa using this
      have h1 := (QAM.valid_iff _).1 hv.am4 u
      omega
    have hinv : SInv ts init st1.steps st1.solved
        (fun q => q ∈ l ∨ (q ∈ st1.newt ∧ 0 < q.am) ∨ q ∈ targets) := by
      refine ⟨?_, ?_, ?_, ?_, ?_⟩
      · intro q hq
        rcases hq with hq | hq | ⟨hq, hq0⟩ | hq
        · rw [hst1] at hq
          rcases mem_sins.1 hq with rfl | hq
          · exact hr
          · exact h.reach q (Or.inl hq)
        · exact h.reach q (Or.inr (Or.inl (by simp [hq])))
        · rcases (hnew q).1 hq with hq | ⟨⟨i, rfl⟩, hqv, -⟩
          · exact h.reach q (Or.inr (Or.inr (Or.inl ⟨hq, hq0⟩)))
          · exact VReach.step x t s i hr hph hs hqv hq0
        · exact h.reach q (Or.inr (Or.inr (Or.inr hq)))
      · intro u hu
        rcases mem_vInsert hu with rfl | hu
        · exact ⟨mem_sins.2 (Or.inl rfl), t, hph, hs⟩
        · obtain ⟨h1, h2⟩ := h.sph u hu
          exact ⟨mem_sins.2 (Or.inr h1), h2⟩
      · intro q hq
        rcases mem_sins.1 hq with rfl | hq
        · exact vInsert_self
        · obtain ⟨u, hu, rfl⟩ := h.has q hq
          exact ⟨u, vInsert_mono hu, rfl⟩
      · intro u hu i hiv hi0
        rcases mem_vInsert hu with rfl | hu
        · by_cases hso : s.src i ∈ st.solved
          · exact Or.inl (mem_sins.2 (Or.inr hso))
          · exact Or.inr (Or.inr (Or.inl ⟨(hnew _).2 (Or.inr ⟨⟨i, rfl⟩, hiv, hso⟩), hi0⟩))
        · rcases h.cl u hu i hiv hi0 with h1 | h1 | ⟨h1, h2⟩ | h1
          · exact Or.inl (mem_sins.2 (Or.inr h1))
          · rcases List.mem_cons.1 h1 with h1 | h1
            · exact Or.inl (mem_sins.2 (Or.inl h1))
            · exact Or.inr (Or.inl h1)
          · exact Or.inr (Or.inr (Or.inl ⟨(hnew _).2 (Or.inl h1), h2⟩))
          · exact Or.inr (Or.inr (Or.inr h1))
      · intro q hq hqv hq0
        rcases h.ini q hq hqv hq0 with h1 | h1 | ⟨h1, h2⟩ | h1
        · exact Or.inl (mem_sins.2 (Or.inr h1))
        · rcases List.mem_cons.1 h1 with h1 | h1
          · exact Or.inl (mem_sins.2 (Or.inl h1))
          · exact Or.inr (Or.inl h1)
        · exact Or.inr (Or.inr (Or.inl ⟨(hnew _).2 (Or.inl h1), h2⟩))
        · exact Or.inr (Or.inr (Or.inr h1))
    have hn1 : ∀ q ∈ st1.newt, q.Valid ∧ q.am4.get t ≤ f ∧
        ∀ u ∈ ts.takeWhile (· ≠ t), q.am4.get u = 0 := by
      intro q hq
      rcases (hnew q).1 hq with hq | ⟨⟨i, rfl⟩, hqv, -⟩
      · exact hn q hq
      · obtain ⟨-, -, -, h4, h5⟩ := src_bound hs i
        refine ⟨hqv, by omega, fun u hu => ?_⟩
        have := h4 u
        have := hz u hu
        have := (QAM.valid_iff _).1 hqv.am4 u
        omega
    obtain ⟨st', e, r1, r2⟩ := vRound_inv l st1 hinv (fun q hq => hl q (by simp [hq])) hn1
    exact ⟨st', by rw [vRound, hb]; exact e, r1, r2⟩

theorem mem_vMine {t : RRType} {l : List Qrt} {q : Qrt} :
    q ∈ vMine t l ↔ q ∈ l ∧ q.Valid ∧ 0 < q.am ∧ 0 < q.am4.get t := by
  simp only [vMine, vPrune, List.mem_filter, decide_eq_true_eq]
  tauto

theorem mem_vRest {t : RRType} {l : List Qrt} {q : Qrt} :
    q ∈ vRest t l ↔ q ∈ l ∧ q.Valid ∧ 0 < q.am ∧ ¬ 0 < q.am4.get t := by
  simp only [vRest, vPrune, List.mem_filter, decide_eq_true_eq]
  tauto

theorem mem_foldl_sins' {x : Qrt} : ∀ (l : List Qrt) (a : List Qrt),
    x ∈ l.foldl (fun l s => sins s l) a ↔ x ∈ l ∨ x ∈ a
  | [], a => by simp
  | s :: l, a => by
    rw [List.foldl_cons, mem_foldl_sins' l, mem_sins, List.mem_cons]
    tauto

theorem phase_of_zero {t : RRType} (ht : t ∈ ts) {a : QAM} (hp : 0 < a.get t)
    (hz : ∀ u ∈ ts.takeWhile (· ≠ t), a.get u = 0) : phase ts a = some t := by
  induction ts with
  | nil => simp at ht
  | cons u us ih =>
    by_cases hu : u = t
    · subst hu; simp [phase, hp]
    · have h0 : a.get u = 0 := hz u (by simp [hu])
      rw [phase, List.find?_cons_of_neg (by simp [h0])]
      refine ih (by simpa [Ne.symm hu] using ht) ?_
      intro v hv
      exact hz v (by simp [hu]; right; simpa using hv)

theorem vLoop_inv {t : RRType} (ht : t ∈ ts) {enum : List Qrt → List Qrt} (he : EnumOK enum) :
    ∀ (f : ℕ) (my : List Qrt) (st : VSearch),
    SInv ts init st.steps st.solved (fun q => q ∈ my ∨ q ∈ st.targets) →
    (∀ q ∈ my, 0 < q.am4.get t ∧ q.am4.get t ≤ f ∧ ∀ u ∈ ts.takeWhile (· ≠ t), q.am4.get u = 0) →
    (∀ q ∈ st.targets, q.am4.get t = 0 ∧ ∀ u ∈ ts.takeWhile (· ≠ t), q.am4.get u = 0) →
    ∃ st', vLoop t enum f my st = some st' ∧
      SInv ts init st'.steps st'.solved (· ∈ st'.targets) ∧
      (∀ q ∈ st'.targets, q.am4.get t = 0 ∧ ∀ u ∈ ts.takeWhile (· ≠ t), q.am4.get u = 0)
  | f, [], st, h, _, htg => by
    refine ⟨st, ?_, h.congr (by simp), htg⟩
    rw [vLoop.eq_def]; simp
  | 0, x :: my, st, _, hmy, _ => by
    have := hmy x (by simp)
    have h1 := this.1; have h2 := this.2.1
    simp only [Nat.cast_zero] at h2
    omega
  | f + 1, x :: my, st, h, hmy, htg => by
    have hph : ∀ q ∈ x :: my, phase ts q.am4 = some t := fun q hq =>
      phase_of_zero ht (hmy q hq).1 (hmy q hq).2.2
    obtain ⟨r, e, r1, r2⟩ := vRound_inv (ts := ts) (init := init) (t := t) (targets := st.targets)
      (f := f) (enum (x :: my)) { newt := [], steps := st.steps, solved := st.solved }
      (h.congr (by intro q; simp only [he _ q, List.not_mem_nil, false_and, false_or]))
      (by
        intro q hq
        rw [he] at hq
        exact ⟨hph q hq, by have := (hmy q hq).2.1; push_cast at this; omega⟩)
      (by simp)
    obtain ⟨st', e', g1, g2⟩ := vLoop_inv ht he f (vMine t r.newt)
      { targets := (vRest t r.newt).foldl (fun l s => sins s l) st.targets
        steps := r.steps, solved := r.solved }
      (r1.congr (by
        intro q
        simp only [mem_foldl_sins', mem_vMine, mem_vRest]
        constructor
        · rintro (⟨h1, h2⟩ | h1)
          · have := r2 q h1
            by_cases h0 : 0 < q.am4.get t
            · exact Or.inl ⟨h1, this.1, h2, h0⟩
            · exact Or.inr (Or.inl ⟨h1, this.1, h2, h0⟩)
          · exact Or.inr (Or.inr h1)
        · rintro (h1 | h1 | h1)
          · exact Or.inl ⟨h1.1, h1.2.2.1⟩
          · exact Or.inl ⟨h1.1, h1.2.2.1⟩
          · exact Or.inr h1))
      (by
        intro q hq
        obtain ⟨h1, h2, h3, h4⟩ := mem_vMine.1 hq
        exact ⟨h4, (r2 q h1).2.1, (r2 q h1).2.2⟩)
      (by
        intro q hq
        simp only [mem_foldl_sins', mem_vRest] at hq
        rcases hq with ⟨h1, h2, h3, h4⟩ | h1
        · refine ⟨?_, (r2 q h1).2.2⟩
          have := (QAM.valid_iff _).1 h2.am4 t
          omega
        · exact htg q h1)
    refine ⟨st', ?_, g1, g2⟩
    rw [vLoop.eq_def]
    simp only [reduceCtorEq, if_false, e, Option.bind_some]
    exact e'

theorem vPhases_inv {enum : List Qrt → List Qrt} (he : EnumOK enum) {N : ℕ}
    (hN : ∀ q ∈ init, q.am ≤ N) (hnd : ts.Nodup) :
    ∀ (us ds : List RRType), ts = ds ++ us → ∀ (st : VSearch),
    SInv ts init st.steps st.solved (· ∈ st.targets) →
    (∀ q ∈ st.targets, ∀ u ∈ ds, q.am4.get u = 0) →
    ∃ st', vPhases enum N us st = some st' ∧
      SInv ts init st'.steps st'.solved (· ∈ st'.targets) ∧
      (∀ q ∈ st'.targets, ∀ u ∈ ts, q.am4.get u = 0)
  | [], ds, hts, st, h, hz => ⟨st, rfl, h, by simpa [hts] using hz⟩
  | t :: us, ds, hts, st, h, hz => by
    have htw : ts.takeWhile (· ≠ t) = ds := by
      rw [hts, List.takeWhile_append_of_pos, List.takeWhile_cons_of_neg (by simp), List.append_nil]
      intro a ha
      simp only [decide_eq_true_eq]
      rintro rfl
      rw [hts] at hnd
      exact (List.nodup_append.1 hnd).2.2 a ha a (by simp) rfl
    have hv : ∀ q ∈ st.targets, q.Valid ∧ 0 < q.am ∧ q.am ≤ N := fun q hq => by
      have := h.reach q (Or.inr hq)
      exact ⟨this.valid.1, this.valid.2, this.am_bound hN⟩
    obtain ⟨st1, e1, g1, g2⟩ := vLoop_inv (ts := ts) (init := init) (t := t) (by simp [hts]) he N
      (vMine t st.targets) { st with targets := vRest t st.targets }
      (h.congr (by
        intro q
        simp only [mem_vMine, mem_vRest]
        constructor
        · intro hq
          by_cases h0 : 0 < q.am4.get t
          · exact Or.inl ⟨hq, (hv q hq).1, (hv q hq).2.1, h0⟩
          · exact Or.inr ⟨hq, (hv q hq).1, (hv q hq).2.1, h0⟩
        · rintro (h1 | h1) <;> exact h1.1))
      (by
        intro q hq
        obtain ⟨h1, h2, h3, h4⟩ := mem_vMine.1 hq
        refine ⟨h4, ?_, fun u hu => hz q h1 u (htw ▸ hu)⟩
        have := QAM.get_le_sum h2.am4 t
        rw [Qrt.am4_sum] at this
        have := (hv q h1).2.2
        omega)
      (by
        intro q hq
        obtain ⟨h1, h2, h3, h4⟩ := mem_vRest.1 hq
        refine ⟨?_, fun u hu => hz q h1 u (htw ▸ hu)⟩
        have := (QAM.valid_iff _).1 h2.am4 t
        omega)
    obtain ⟨st', e', r1, r2⟩ := vPhases_inv he hN hnd us (ds ++ [t]) (by simp [hts]) st1 g1
      (by
        intro q hq u hu
        rcases List.mem_append.1 hu with hu | hu
        · exact (g2 q hq).2 u (htw ▸ hu)
        · rw [List.mem_singleton.1 hu]; exact (g2 q hq).1)
    exact ⟨st', by rw [vPhases, e1]; exact e', r1, r2⟩

theorem le_foldr_max {l : List ℕ} {n : ℕ} (h : n ∈ l) : n ≤ l.foldr max 0 := by
  induction l with
  | nil => simp at h
  | cons a l ih =>
    rcases List.mem_cons.1 h with rfl | h
    · simp
    · simp [ih h]

theorem le_vrrFuel {q : Qrt} (h : q ∈ init) : q.am + 1 ≤ vrrFuel init := by
  have : q.am.toNat ≤ (init.map fun x => x.am.toNat).foldr max 0 :=
    le_foldr_max (List.mem_map_of_mem h)
  simp only [vrrFuel]
  omega

/-- The search as a whole. -/
theorem search_ok {enum : List Qrt → List Qrt} (he : EnumOK enum) (hnd : ts.Nodup) :
    ∃ st, vPhases enum (vrrFuel init) ts { targets := vPrune init, steps := [], solved := [] } =
        some st ∧
      SInv ts init st.steps st.solved (· ∈ st.targets) ∧
      (∀ q ∈ st.targets, ∀ u ∈ ts, q.am4.get u = 0) := by
  refine vPhases_inv he (fun q hq => ?_) hnd ts [] rfl _ ?_ (by simp)
  · have := le_vrrFuel hq; omega
  · refine ⟨?_, by simp, by simp, by simp, ?_⟩
    · rintro q (h | h)
      · simp at h
      · simp only [vPrune, List.mem_filter, decide_eq_true_eq] at h
        exact VReach.base q h.1 h.2.1 h.2.2
    · intro q hq hv h0
      right
      simp only [vPrune, List.mem_filter, decide_eq_true_eq]
      exact ⟨hq, hv, h0⟩

/-- With all four centers in the index order every reachable quartet is solved. -/
theorem solved_iff (hts : ∀ t, t ∈ ts) {steps : List VStep} {solved targets : List Qrt}
    (h : SInv ts init steps solved (· ∈ targets)) (hz : ∀ q ∈ targets, ∀ u ∈ ts, q.am4.get u = 0) :
    ∀ q, q ∈ solved ↔ VReach ts init q := by
  have hno : ∀ q, q ∉ targets := by
    intro q hq
    obtain ⟨hv, h0⟩ := (h.reach q (Or.inr hq)).valid
    obtain ⟨t, ht⟩ := phase_total hts hv.am4 (by simpa using h0)
    have := (phase_some ht).1
    have := hz q hq t (hts t)
    omega
  intro q
  constructor
  · exact fun hq => h.reach q (Or.inl hq)
  · intro hq
    induction hq with
    | base q h1 h2 h3 => exact (h.ini q h1 h2 h3).resolve_right (hno q)
    | step q t s i _ hp hs hv h0 ih =>
      obtain ⟨u, hu, rfl⟩ := h.has q ih
      obtain ⟨-, t', hp', hs'⟩ := h.sph u hu
      rw [hp] at hp'
      obtain rfl := Option.some.inj hp'
      rw [hs] at hs'
      obtain rfl := Option.some.inj hs'
      exact (h.cl s hu i hv h0).resolve_right (hno _)

/-- The initial set holds, with each quartet, the pure-x one of the same class. -/
def PxClosed (init : List Qrt) : Prop := ∀ q ∈ init, q.Valid → q.px ∈ init

theorem VReach.px (hpx : PxClosed init) {q : Qrt} (h : VReach ts init q) : VReach ts init q.px := by
  induction h with
  | base q h1 h2 h3 =>
    exact VReach.base _ (hpx q h1 h2) ((Qrt.px_valid q).2 ⟨h2.am4, h2.2.2⟩) (by simpa using h3)
  | step q t s i hr hp hs hv h0 ih =>
    obtain ⟨d, hd, e⟩ := src_am4 hs i
    have hpos := (phase_some hp).1
    obtain ⟨d', hd', -, hs'⟩ := createSingle_spec (t := t) ih.valid.1 (by simpa using hpos)
    have hx : d' = .x := by
      rw [Qrt.px_cen, makDir_px (by rw [← Qrt.am4_get]; exact hpos)] at hd'
      exact (Option.some.inj hd').symm
    have hsrc : (s.src i).px = vrrSrc t q.px d' i := by
      rw [e, vrrSrc_eq, Qrt.px_addm, vslot_px, hx]
    rw [hsrc]
    refine VReach.step q.px t _ i ih (by simpa using hp) hs' ?_ ?_
    · simp only [← hsrc]
      exact (Qrt.px_valid _).2 ⟨hv.am4, hv.2.2⟩
    · simp only [← hsrc]
      simpa using h0

end Simint
