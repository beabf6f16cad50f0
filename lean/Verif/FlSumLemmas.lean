import Verif.Spec.FlSum
import Verif.DriverLoopLemmas
import Mathlib.SetTheory.Cardinal.Order
import Mathlib.Order.Lex
import Mathlib.Data.Prod.Lex

/-! The driver on doubles beside the driver on multisets of numbers. -/

set_option autoImplicit false

namespace Simint

open Finset
open FlBoys (Arith u η)

/-! ## Numbers with a trace -/

/-- A number used for screening, and the multiset of the numbers added so far. -/
structure Tr (F : Arith) where
  num : ℝ
  set : Multiset ℝ

namespace Tr

variable {F : Arith}

@[ext] theorem ext {a b : Tr F} (h1 : a.num = b.num) (h2 : a.set = b.set) : a = b := by
  cases a; cases b; simp_all

instance : Zero (Tr F) := ⟨⟨0, 0⟩⟩
noncomputable instance : Add (Tr F) := ⟨fun a b => ⟨a.num + b.num, a.set + b.set⟩⟩
noncomputable instance : Mul (Tr F) := ⟨fun a b => ⟨F.fl (a.num * b.num), 0⟩⟩

@[simp] theorem zero_num : (0 : Tr F).num = 0 := rfl
@[simp] theorem zero_set : (0 : Tr F).set = 0 := rfl
@[simp] theorem add_num (a b : Tr F) : (a + b).num = a.num + b.num := rfl
@[simp] theorem add_set (a b : Tr F) : (a + b).set = a.set + b.set := rfl

noncomputable instance : AddCommMonoid (Tr F) where
  add_assoc a b c := by ext1 <;> simp [add_assoc]
  zero_add a := by ext1 <;> simp
  add_zero a := by ext1 <;> simp
  add_comm a b := by ext1 <;> simp [add_comm]
  nsmul := nsmulRec

/-- The projection to the multiset, as a homomorphism. -/
noncomputable def setHom : Tr F →+ Multiset ℝ where
  toFun := set
  map_zero' := rfl
  map_add' _ _ := rfl

/-- A multiset without the order of multisets. -/
structure Bare where
  set : Multiset ℝ

noncomputable instance : LinearOrder Bare := IsWellOrder.linearOrder WellOrderingRel

noncomputable instance : LinearOrder (Tr F) :=
  LinearOrder.lift' (fun a : Tr F => toLex (a.num, Bare.mk a.set)) (by
    intro a b h
    have := toLex.injective h
    simp only [Prod.mk.injEq, Bare.mk.injEq] at this
    exact ext this.1 this.2)

/-- A number that is not yet part of a sum. -/
def of (x : ℝ) : Tr F := ⟨x, 0⟩

theorem of_lt {x y : ℝ} : (of x : Tr F) < of y ↔ x < y := by
  show toLex (x, Bare.mk 0) < toLex (y, Bare.mk 0) ↔ x < y
  rw [Prod.Lex.toLex_lt_toLex]
  simp

end Tr

section
variable {F : Arith}

/-! ## The call with traces -/

/-- The lists of a call, as numbers that are not yet part of a sum. -/
def trM (P : MSP (Fd F)) : MSP (Tr F) where
  nclip := P.nclip
  nprim12 := P.nprim12
  alloc := P.alloc
  prefac := fun i => .of (P.prefac i).val
  screen := fun i => .of (P.screen i).val
  screenMax := .of P.screenMax.val
  alpha := fun i => .of (P.alpha i).val
  pos := fun d i => .of (P.pos d i).val
  PA := fun d i => .of (P.PA d i).val
  PB := fun d i => .of (P.PB d i).val
  AB := fun d i => .of (P.AB d i).val

open Classical in
/-- The call with traces. -/
noncomputable def trEnv (e : DEnv (Fd F)) : DEnv (Tr F) where
  len := e.len
  tops := e.tops
  P := trM e.P
  Q := trM e.Q
  tol := .of e.tol.val
  size := e.size
  vec := fun i j pf => (e.vec i j fun n => ⟨(pf n).num⟩).map fun src n t c =>
    if (pf n).num = 0 then 0 else ⟨0, {(src n t c).val}⟩

open Classical in
/-- The value of a primitive quartet with trace. -/
noncomputable def trPrim (prim : ℕ → ℕ → Fd F → QAM → ℕ → Fd F) (i j : ℕ) (pf : Tr F) (t : QAM) (c : ℕ) :
    Tr F :=
  if pf.num = 0 then 0 else ⟨0, {(prim i j ⟨pf.num⟩ t c).val}⟩

theorem fd_lt {a b : Fd F} : a < b ↔ a.val < b.val := Iff.rfl

theorem vectorMax_of (len : ℕ) (v : ℕ → Fd F) :
    vectorMax len (fun n => (Tr.of (v n).val : Tr F)) = Tr.of (vectorMax len v).val := by
  unfold vectorMax
  generalize List.range' 1 (len - 1) = l
  have : ∀ m : Fd F, l.foldl (fun m n => if (Tr.of (v n).val : Tr F) > m then Tr.of (v n).val else m)
      (Tr.of m.val) = Tr.of (l.foldl (fun m n => if v n > m then v n else m) m).val := by
    induction l with
    | nil => intro m; rfl
    | cons a r ih =>
      intro m
      simp only [List.foldl_cons]
      rw [← ih]
      congr 1
      by_cases h : v a > m
      · rw [if_pos h, if_pos (Tr.of_lt.2 h)]
      · rw [if_neg h, if_neg fun h' => h (Tr.of_lt.1 h')]
  exact this (v 0)

theorem tr_check (e : DEnv (Fd F)) : (trEnv e).check ↔ e.check :=
  (Tr.of_lt (F := F) (x := 0) (y := e.tol.val))

theorem tr_skipVec (e : DEnv (Fd F)) (i j : ℕ) : (trEnv e).skipVec i j ↔ e.skipVec i j := by
  unfold DEnv.skipVec
  rw [tr_check]
  refine and_congr Iff.rfl ?_
  have h := vectorMax_of e.len (fun n => e.P.screen i * e.Q.screen (j + n))
  show vectorMax e.len (fun n => (Tr.of (e.P.screen i * e.Q.screen (j + n)).val : Tr F)) < Tr.of e.tol.val ↔ _
  rw [h]
  exact Tr.of_lt

theorem tr_skipBra (e : DEnv (Fd F)) (i : ℕ) : (trEnv e).skipBra i ↔ e.skipBra i := by
  unfold DEnv.skipBra
  rw [tr_check]
  exact and_congr Iff.rfl Tr.of_lt

theorem tr_kept (e : DEnv (Fd F)) (i j : ℕ) : (trEnv e).Kept i j ↔ e.Kept i j := by
  unfold DEnv.Kept
  rw [tr_skipBra]
  exact and_congr Iff.rfl (not_congr (tr_skipVec e i _))

theorem tr_lists (e : DEnv (Fd F)) (h : ListsOK e) : ListsOK (trEnv e) :=
  ⟨h.len, h.prims, h.bra, h.ket, h.tops, h.ncart⟩

theorem tr_laneWise (e : DEnv (Fd F)) (prim : ℕ → ℕ → Fd F → QAM → ℕ → Fd F) (h : LaneWise e prim) :
    LaneWise (trEnv e) (trPrim prim) where
  lane i j pf hi hd hj := by
    obtain ⟨src, h1, h2⟩ := h.lane i j (fun n => ⟨(pf n).num⟩) hi hd hj
    refine ⟨_, by show Option.map _ (e.vec i j _) = some _; rw [h1]; rfl, fun n hn t ht c hc => ?_⟩
    simp only [trPrim, h2 n hn t ht c hc]
  zero i j t c := by simp [trPrim]

/-- Traces of the contracted values. -/
theorem tr_contracted (e : DEnv (Fd F)) (prim : ℕ → ℕ → Fd F → QAM → ℕ → Fd F) (ab cd : ℕ) (t : QAM)
    (c : ℕ) : (contractedPair (trEnv e) (trPrim prim) ab cd t c).set = quartetValues e prim ab cd t c := by
  show Tr.setHom _ = _
  unfold contractedPair contracted quartetValues
  rw [map_sum]
  refine sum_congr rfl fun a _ => ?_
  rw [map_sum]
  refine sum_congr rfl fun b _ => ?_
  show Tr.setHom _ = _
  have hk := tr_kept e (tightStart e.P.nprim12 ab + a) (paddedStart e.len e.Q.nprim12 cd + b)
  by_cases h : e.Kept (tightStart e.P.nprim12 ab + a) (paddedStart e.len e.Q.nprim12 cd + b)
  · have h' := hk.2 h
    rw [if_pos (show (trEnv e).Kept (tightStart (trEnv e).P.nprim12 ab + a)
      (paddedStart (trEnv e).len (trEnv e).Q.nprim12 cd + b) from h')]
    unfold trPrim
    beta_reduce
    by_cases hz : e.Q.prefac (paddedStart e.len e.Q.nprim12 cd + b) = 0
    · have h1 : ((trEnv e).Q.prefac (paddedStart (trEnv e).len (trEnv e).Q.nprim12 cd + b)).num = 0 :=
        congrArg Fd.val hz
      rw [if_pos h1, if_neg (fun h => h.2 hz)]
      rfl
    · have h1 : ¬ ((trEnv e).Q.prefac (paddedStart (trEnv e).len (trEnv e).Q.nprim12 cd + b)).num = 0 :=
        fun h => hz (Fd.val_injective h)
      rw [if_neg h1, if_pos ⟨h, hz⟩]
      rfl
  · have h' := fun x => h (hk.1 x)
    rw [if_neg (show ¬ (trEnv e).Kept (tightStart (trEnv e).P.nprim12 ab + a)
      (paddedStart (trEnv e).len (trEnv e).Q.nprim12 cd + b) from h'), if_neg (fun x => h x.1)]
    rfl

/-! ## Related runs -/

/-- The array on doubles contains sums of the multisets of the other one. -/
def Rel1 (b' : ℕ → Fd F) (b : ℕ → Tr F) : Prop := ∀ k, SumOf F (b' k).val (b k).set

/-- The same for all arrays. -/
def RelM (m' : QAM → ℕ → Fd F) (m : QAM → ℕ → Tr F) : Prop := ∀ t, Rel1 (m' t) (m t)

theorem foldlM_rel {α σ σ' : Type} (R : σ' → σ → Prop) (f' : σ' → α → Option σ') (f : σ → α → Option σ)
    (l : List α)
    (h : ∀ a ∈ l, ∀ s' s t, R s' s → f s a = some t → ∃ t', f' s' a = some t' ∧ R t' t) :
    ∀ s' s t, R s' s → l.foldlM f s = some t → ∃ t', l.foldlM f' s' = some t' ∧ R t' t := by
  induction l with
  | nil =>
    intro s' s t hr ht
    have : s = t := by simpa using ht
    exact ⟨s', by simp, this ▸ hr⟩
  | cons a r ih =>
    intro s' s t hr ht
    rw [List.foldlM_cons] at ht
    obtain ⟨s1, h1, h2⟩ := Option.bind_eq_some_iff.1 ht
    obtain ⟨s1', h3, h4⟩ := h a (by simp) s' s s1 hr h1
    obtain ⟨t', h5, h6⟩ := ih (fun a ha => h a (by simp [ha])) s1' s1 t h4 h2
    exact ⟨t', by rw [List.foldlM_cons, h3]; exact h5, h6⟩

theorem addList_rel (size : ℕ) {l' : List (ℕ × Fd F)} {l : List (ℕ × Tr F)}
    (h : List.Forall₂ (fun a b => a.1 = b.1 ∧ SumOf F a.2.val b.2.set) l' l) :
    ∀ b' b r, Rel1 b' b → addList size l b = some r → ∃ r', addList size l' b' = some r' ∧ Rel1 r' r := by
  induction h with
  | nil =>
    intro b' b r hb hr
    have : b = r := by simpa [addList] using hr
    exact ⟨b', rfl, this ▸ hb⟩
  | @cons a c l' l hac _ ih =>
    intro b' b r hb hr
    obtain ⟨i', v'⟩ := a
    obtain ⟨i, v⟩ := c
    obtain ⟨h1, h2⟩ := hac
    simp only at h1 h2
    subst h1
    rw [addList] at hr
    by_cases hi : i' < size
    · rw [if_pos hi] at hr
      rw [addList, if_pos hi]
      refine ih _ _ r (fun k => ?_) hr
      by_cases hk : k = i'
      · simp only [hk, if_true]
        exact (hb i').add h2
      · simp only [hk, if_false]
        exact hb k
    · rw [if_neg hi] at hr
      exact absurd hr (by simp)

theorem forall₂_flatMap {α β γ : Type} (R : β → γ → Prop) (l : List α) (f : α → List β) (g : α → List γ)
    (h : ∀ a ∈ l, List.Forall₂ R (f a) (g a)) : List.Forall₂ R (l.flatMap f) (l.flatMap g) := by
  induction l with
  | nil => simp
  | cons a r ih =>
    rw [List.flatMap_cons, List.flatMap_cons]
    exact List.rel_append (h a (by simp)) (ih fun a ha => h a (by simp [ha]))

theorem forall₂_map {α β γ : Type} (R : β → γ → Prop) (l : List α) (f : α → β) (g : α → γ)
    (h : ∀ a ∈ l, R (f a) (g a)) : List.Forall₂ R (l.map f) (l.map g) := by
  induction l with
  | nil => simp
  | cons a r ih =>
    exact List.Forall₂.cons (h a (by simp)) (ih fun a ha => h a (by simp [ha]))

theorem contract_rel (size len ncart : ℕ) (off : ℕ → ℕ) (src' : ℕ → ℕ → Fd F) (src : ℕ → ℕ → Tr F)
    (ptr : ℕ) (h : ∀ n < len, ∀ c < ncart, SumOf F (src' c n).val (src c n).set) :
    ∀ b' b r, Rel1 b' b → contract size len ncart off src ptr b = some r →
      ∃ r', contract size len ncart off src' ptr b' = some r' ∧ Rel1 r' r := by
  intro b' b r hb hr
  refine addList_rel size (forall₂_flatMap _ _ _ _ fun n hn => forall₂_map _ _ _ _ fun c hc => ?_) b' b r hb hr
  exact ⟨rfl, h n (List.mem_range.1 hn) c (List.mem_range.1 hc)⟩

theorem accumulate_rel (e : DEnv (Fd F)) (offs : List ℕ) (last : ℕ) (ptr : QAM → ℕ)
    (src' : ℕ → QAM → ℕ → Fd F) (src : ℕ → QAM → ℕ → Tr F)
    (h : ∀ n < e.len, ∀ t ∈ e.tops, ∀ c < ncartQ t, SumOf F (src' n t c).val (src n t c).set) :
    ∀ m' m r, RelM m' m → accumulate (trEnv e) offs last ptr src m = some r →
      ∃ r', accumulate e offs last ptr src' m' = some r' ∧ RelM r' r := by
  unfold accumulate
  refine foldlM_rel RelM _ _ _ fun t ht m' m r hm hr => ?_
  have ht : t ∈ e.tops := ht
  obtain ⟨b, hb, rfl⟩ := Option.map_eq_some_iff.1 hr
  have key : ∃ b', (if last = 0 then
        contractAll (e.size t) e.len (ncartQ t) (fun np n => src' n t np) (ptr t) (m' t)
      else
        contract (e.size t) e.len (ncartQ t) (fun n => offs.getD n 0) (fun np n => src' n t np)
          (ptr t) (m' t)) = some b' ∧ Rel1 b' b := by
    by_cases hl : last = 0
    · rw [if_pos hl] at hb ⊢
      exact contract_rel _ _ _ _ _ _ _ (fun n hn c hc => h n hn t ht c hc) _ _ _ (hm t) hb
    · rw [if_neg hl] at hb ⊢
      exact contract_rel _ _ _ _ _ _ _ (fun n hn c hc => h n hn t ht c hc) _ _ _ (hm t) hb
  obtain ⟨b', h1, h2⟩ := key
  refine ⟨Function.update m' t b', by rw [h1]; rfl, fun s => ?_⟩
  by_cases hs : s = t
  · subst hs; simpa using h2
  · rw [Function.update_of_ne hs, Function.update_of_ne hs]
    exact hm s

/-- Related states of the loop over vectors. -/
structure RelD (s' : DSt (Fd F)) (s : DSt (Tr F)) : Prop where
  icd : s'.icd = s.icd
  iprim : s'.iprim = s.iprim
  nprim : s'.nprim = s.nprim
  ptr : s'.ptr = s.ptr
  mem : RelM s'.mem s.mem

variable {e : DEnv (Fd F)} {prim : ℕ → ℕ → Fd F → QAM → ℕ → Fd F}

theorem vecStep_rel (hprim : LaneWise e prim) (cd nb jend i j : ℕ) (hi : i < e.P.alloc) (hd : e.len ∣ j) :
    ∀ s' s t, RelD s' s → vecStep (trEnv e) cd nb jend i s j = some t →
      ∃ t', vecStep e cd nb jend i s' j = some t' ∧ RelD t' t := by
  rintro ⟨a1, a2, a3, a4, m'⟩ ⟨b1, b2, b3, b4, m⟩ t ⟨h1, h2, h3, h4, hm⟩ ht
  simp only at h1 h2 h3 h4 hm
  subst h1 h2 h3 h4
  unfold vecStep at ht ⊢
  simp only at ht ⊢
  by_cases hj : j + e.len ≤ e.Q.alloc
  · rw [if_pos hj]
    rw [if_pos (show j + (trEnv e).len ≤ (trEnv e).Q.alloc from hj)] at ht
    by_cases hs : e.skipVec i j
    · rw [if_pos hs]
      rw [if_pos ((tr_skipVec e i j).2 hs)] at ht
      obtain rfl := Option.some.inj ht
      exact ⟨_, rfl, rfl, rfl, rfl, rfl, hm⟩
    · rw [if_neg hs]
      rw [if_neg fun h => hs ((tr_skipVec e i j).1 h)] at ht
      obtain ⟨src, e1, e2⟩ := Option.bind_eq_some_iff.1 ht
      obtain ⟨mem, e3, rfl⟩ := Option.map_eq_some_iff.1 e2
      obtain ⟨src', e4, e5⟩ := hprim.lane i j
        (maskLoad (if j + e.len < jend then e.len else jend - j) e.Q.prefac j) hi hd hj
      have hpf : (fun n => (⟨(maskLoad (if j + e.len < jend then e.len else jend - j)
          (trEnv e).Q.prefac j n).num⟩ : Fd F))
          = maskLoad (if j + e.len < jend then e.len else jend - j) e.Q.prefac j := by
        funext n
        unfold maskLoad
        split_ifs <;> rfl
      have e1 : (e.vec i j fun n => (⟨(maskLoad (if j + e.len < jend then e.len else jend - j)
          (trEnv e).Q.prefac j n).num⟩ : Fd F)).map _ = some src := e1
      rw [hpf, e4, Option.map_some] at e1
      obtain rfl := Option.some.inj e1
      rw [e4, Option.bind_some]
      obtain ⟨mem', e7, e8⟩ := accumulate_rel e _ _ _ src' _ (by
        intro n hn t ht c hc
        by_cases hz : (maskLoad (if j + (trEnv e).len < jend then (trEnv e).len else jend - j)
          (trEnv e).Q.prefac j n).num = 0
        · rw [if_pos hz, e5 n hn t ht c hc]
          have : maskLoad (if j + e.len < jend then e.len else jend - j) e.Q.prefac j n = 0 := by
            rw [← hpf]
            exact Fd.val_injective hz
          rw [this, hprim.zero]
          exact .zero
        · rw [if_neg hz]
          exact .one _) m' m mem hm e3
      refine ⟨_, Option.map_eq_some_iff.2 ⟨mem', e7, rfl⟩,
        rfl, rfl, rfl, ?_, e8⟩
      rfl
  · rw [if_neg (show ¬ j + (trEnv e).len ≤ (trEnv e).Q.alloc from hj)] at ht
    exact absurd ht (by simp)

theorem braPrim_rel (hprim : LaneWise e prim) (abcd cd nb jstart jend i : ℕ) (hd : e.len ∣ jstart) :
    ∀ m' m r, RelM m' m → braPrim (trEnv e) abcd cd nb jstart jend m i = some r →
      ∃ r', braPrim e abcd cd nb jstart jend m' i = some r' ∧ RelM r' r := by
  intro m' m r hm hr
  unfold braPrim at hr ⊢
  by_cases hi : i < e.P.alloc
  · rw [if_pos hi]
    rw [if_pos (show i < (trEnv e).P.alloc from hi)] at hr
    by_cases hs : e.skipBra i
    · rw [if_pos hs]
      rw [if_pos ((tr_skipBra e i).2 hs)] at hr
      obtain rfl := Option.some.inj hr
      exact ⟨_, rfl, hm⟩
    · rw [if_neg hs]
      rw [if_neg fun h => hs ((tr_skipBra e i).1 h)] at hr
      obtain ⟨st, e1, rfl⟩ := Option.map_eq_some_iff.1 hr
      obtain ⟨st', e2, e3⟩ := foldlM_rel RelD
        (fun st v => vecStep e cd nb jend i st (jstart + v * e.len)) _ _
        (fun v _ => vecStep_rel hprim cd nb jend i _ hi (hd.add (Dvd.intro_left v rfl))) ⟨0, 0, e.Q.nprim12 cd, fun t => abcd * ncartQ t, m'⟩
        _ _ ⟨rfl, rfl, rfl, rfl, hm⟩ e1
      exact ⟨st'.mem, Option.map_eq_some_iff.2 ⟨st', e2, rfl⟩, e3.mem⟩
  · rw [if_neg (show ¬ i < (trEnv e).P.alloc from hi)] at hr
    exact absurd hr (by simp)

theorem braPrims_rel (hprim : LaneWise e prim) (abcd cd nb jstart jend istart iend : ℕ)
    (hd : e.len ∣ jstart) :
    ∀ m' m r, RelM m' m → braPrims (trEnv e) abcd cd nb jstart jend istart iend m = some r →
      ∃ r', braPrims e abcd cd nb jstart jend istart iend m' = some r' ∧ RelM r' r :=
  foldlM_rel RelM _ _ _ fun i _ => braPrim_rel hprim abcd cd nb jstart jend i hd

/-- Related states of the loop over batches. -/
structure RelB (len : ℕ) (s' : DirectSt (Fd F)) (s : DirectSt (Tr F)) : Prop where
  abcd : s'.abcd = s.abcd
  jstart : s'.jstart = s.jstart
  dvd : len ∣ s'.jstart
  mem : RelM s'.mem s.mem

theorem batchDirect_rel (hprim : LaneWise e prim) (istart iend b : ℕ) :
    ∀ s' s t, RelB e.len s' s → batchDirect (trEnv e) istart iend s b = some t →
      ∃ t', batchDirect e istart iend s' b = some t' ∧ RelB e.len t' t := by
  rintro ⟨a1, a2, m'⟩ ⟨b1, b2, m⟩ t ⟨h1, h2, hd, hm⟩ ht
  simp only at h1 h2 hd hm
  subst h1 h2
  unfold batchDirect at ht ⊢
  simp only at ht ⊢
  obtain ⟨r, e1, rfl⟩ := Option.map_eq_some_iff.1 ht
  obtain ⟨r', e2, e3⟩ := braPrims_rel hprim _ _ _ _ _ _ _ hd m' m r hm e1
  exact ⟨_, Option.map_eq_some_iff.2 ⟨r', e2, rfl⟩, rfl, rfl, simdRound_dvd _ _, e3⟩

theorem runDirect_rel (hprim : LaneWise e prim) (final : QAM) (out' : ℕ → Fd F) (out : ℕ → Tr F)
    (ho : Rel1 out' out) (n : ℕ) (r : ℕ → Tr F) (h : runDirect (trEnv e) final out = some (n, r)) :
    ∃ r', runDirect e final out' = some (n, r') ∧ Rel1 r' r := by
  unfold runDirect at h ⊢
  simp only at h ⊢
  by_cases hs : e.P.nclip * e.Q.nclip * ncartQ final ≤ e.size final
  · rw [if_pos hs]
    rw [if_pos (show (trEnv e).P.nclip * (trEnv e).Q.nclip * ncartQ final ≤ (trEnv e).size final from hs)] at h
    obtain ⟨st, e1, e2⟩ := Option.map_eq_some_iff.1 h
    obtain ⟨rfl, rfl⟩ := Prod.mk.inj e2
    obtain ⟨st', e3, e4⟩ := foldlM_rel
      (fun (s' : ℕ × ℕ × (QAM → ℕ → Fd F)) (s : ℕ × ℕ × (QAM → ℕ → Tr F)) =>
        s'.1 = s.1 ∧ s'.2.1 = s.2.1 ∧ RelM s'.2.2 s.2.2) (bodyDirect e) _ _
      (by
        rintro ab _ ⟨i', a', m'⟩ ⟨i, a, m⟩ t ⟨h1, h2, hm⟩ ht
        simp only at h1 h2 hm
        subst h1 h2
        unfold bodyDirect at ht ⊢
        simp only at ht ⊢
        obtain ⟨q, g1, rfl⟩ := Option.map_eq_some_iff.1 ht
        obtain ⟨q', g2, g3⟩ := foldlM_rel (RelB e.len) (batchDirect e i' (i' + e.P.nprim12 ab)) _ _
          (fun b _ => batchDirect_rel hprim _ _ b) ⟨a', 0, m'⟩ _ _ ⟨rfl, rfl, dvd_zero _, hm⟩ g1
        exact ⟨_, Option.map_eq_some_iff.2 ⟨q', g2, rfl⟩, rfl, g3.abcd, g3.mem⟩)
      (0, 0, fun _ k => if k < e.P.nclip * e.Q.nclip * ncartQ final then 0 else out' k) _ _
      ⟨rfl, rfl, fun t k => by
        show SumOf F (if k < e.P.nclip * e.Q.nclip * ncartQ final then (0 : Fd F) else out' k).val
          (if k < e.P.nclip * e.Q.nclip * ncartQ final then (0 : Tr F) else out k).set
        split_ifs
        · exact .zero
        · exact ho k⟩ e1
    exact ⟨_, Option.map_eq_some_iff.2 ⟨st', e3, rfl⟩, e4.2.2 final⟩
  · rw [if_neg (show ¬ (trEnv e).P.nclip * (trEnv e).Q.nclip * ncartQ final ≤ (trEnv e).size final from hs)] at h
    exact absurd h (by simp)

/-- The contracted value of a quartet as the loops over primitives leave it in the batch array. -/
noncomputable def batchValue (e : DEnv (Fd F)) (ab cd : ℕ) (t : QAM) (c : ℕ) : Fd F :=
  let b := cd / nshellSimd e.len
  ((braPrims e 0 (b * nshellSimd e.len) (nshellBatch e.len e.Q.nclip (b * nshellSimd e.len))
        (paddedStart e.len e.Q.nprim12 (b * nshellSimd e.len))
        (batchEnd e.Q.nprim12 (b * nshellSimd e.len)
          (nshellBatch e.len e.Q.nclip (b * nshellSimd e.len))
          (paddedStart e.len e.Q.nprim12 (b * nshellSimd e.len)))
        (tightStart e.P.nprim12 ab) (tightStart e.P.nprim12 ab + e.P.nprim12 ab) fun _ _ => 0).getD
      fun _ _ => 0) t (cd % nshellSimd e.len * ncartQ t + c)

theorem batchValue_on (hprim : LaneWise e prim) (hok : ListsOK e)
    (hsize : ∀ t ∈ e.tops, nshellSimd e.len * ncartQ t ≤ e.size t) :
    BatchOn e (batchValue e) ∧ ∀ ab < e.P.nclip, ∀ cd < e.Q.nclip, ∀ t ∈ e.tops, ∀ c < ncartQ t,
      SumOf F (batchValue e ab cd t c).val (quartetValues e prim ab cd t c) := by
  have hN : 0 < nshellSimd e.len := by have := hok.len; unfold nshellSimd; omega
  have hon := batch_on (trEnv e) (trPrim prim) (tr_laneWise e prim hprim) (tr_lists e hok) hsize
  have key : ∀ ab < e.P.nclip, ∀ b, b * nshellSimd e.len < e.Q.nclip → ∃ mem,
      braPrims e 0 (b * nshellSimd e.len) (nshellBatch e.len e.Q.nclip (b * nshellSimd e.len))
        (paddedStart e.len e.Q.nprim12 (b * nshellSimd e.len))
        (batchEnd e.Q.nprim12 (b * nshellSimd e.len)
          (nshellBatch e.len e.Q.nclip (b * nshellSimd e.len))
          (paddedStart e.len e.Q.nprim12 (b * nshellSimd e.len)))
        (tightStart e.P.nprim12 ab) (tightStart e.P.nprim12 ab + e.P.nprim12 ab) (fun _ _ => 0) = some mem ∧
      ∀ t ∈ e.tops, ∀ s < nshellBatch e.len e.Q.nclip (b * nshellSimd e.len), ∀ i < ncartQ t,
        SumOf F (mem t (s * ncartQ t + i)).val (quartetValues e prim ab (b * nshellSimd e.len + s) t i) := by
    intro ab hab b hb
    obtain ⟨mem, h1, h2⟩ := hon ab hab b hb
    obtain ⟨mem', h3, h4⟩ := braPrims_rel hprim _ _ _ _ _ _ _ (paddedStart_dvd _ _ _) (fun _ _ => 0) _ mem
      (fun t k => SumOf.zero) h1
    refine ⟨mem', h3, fun t ht s hs i hi => ?_⟩
    have := h4 t (s * ncartQ t + i)
    rw [h2 t ht s hs i hi, tr_contracted] at this
    exact this
  constructor
  · intro ab hab b hb
    obtain ⟨mem, h1, h2⟩ := key ab hab b hb
    refine ⟨mem, h1, fun t ht s hs i hi => ?_⟩
    have hs' : s < nshellSimd e.len := lt_of_lt_of_le hs (nshellBatch_spec hok.len hb).2.1
    have e1 : (b * nshellSimd e.len + s) / nshellSimd e.len = b := by
      rw [Nat.mul_comm, Nat.mul_add_div hN, Nat.div_eq_of_lt hs', Nat.add_zero]
    have e2 : (b * nshellSimd e.len + s) % nshellSimd e.len = s := by
      rw [Nat.mul_comm, Nat.mul_add_mod, Nat.mod_eq_of_lt hs']
    unfold batchValue
    simp only [e1, e2, h1, Option.getD_some]
  · intro ab hab cd hcd t ht c hc
    have hm := Nat.mod_add_div' cd (nshellSimd e.len)
    have hb : cd / nshellSimd e.len * nshellSimd e.len < e.Q.nclip := by omega
    have hml := Nat.mod_lt cd hN
    have hs : cd % nshellSimd e.len
        < nshellBatch e.len e.Q.nclip (cd / nshellSimd e.len * nshellSimd e.len) := by
      unfold nshellBatch
      split <;> omega
    obtain ⟨mem, h1, h2⟩ := key ab hab _ hb
    have := h2 t ht _ hs c hc
    rw [show cd / nshellSimd e.len * nshellSimd e.len + cd % nshellSimd e.len = cd by omega] at this
    unfold batchValue
    simp only [h1, Option.getD_some]
    exact this

/-! ## Errors of sums -/

/-- Sum of the absolute values, and the smallest normal double for each number. -/
noncomputable def weight (m : Multiset ℝ) : ℝ := (m.map fun y => |y| + κ).sum

theorem weight_add (m n : Multiset ℝ) : weight (m + n) = weight m + weight n := by
  unfold weight; rw [Multiset.map_add, Multiset.sum_add]

theorem weight_nonneg (m : Multiset ℝ) : 0 ≤ weight m := by
  refine Multiset.sum_nonneg fun x hx => ?_
  obtain ⟨y, _, rfl⟩ := Multiset.mem_map.1 hx
  have := κ_pos
  positivity

theorem sum_le_weight (m : Multiset ℝ) : |m.sum| + (if m = 0 then 0 else κ) ≤ weight m := by
  induction m using Multiset.induction_on with
  | empty => simp [weight]
  | cons a m ih =>
    have e : weight (a ::ₘ m) = |a| + κ + weight m := by simp [weight]
    rw [e, Multiset.sum_cons, if_neg (Multiset.cons_ne_zero)]
    have h1 := abs_add_le a m.sum
    have h2 : 0 ≤ (if m = 0 then (0 : ℝ) else κ) := by split_ifs <;> [exact le_rfl; exact κ_pos.le]
    linarith

end

theorem sumOf_zero {F : Arith} (hS : Stable F) {x : ℝ} {m : Multiset ℝ} (h : SumOf F x m) (hm : m = 0) :
    x = 0 := by
  induction h with
  | zero => rfl
  | one x => simp at hm
  | @add a b m n _ _ ih1 ih2 =>
    obtain ⟨h1, h2⟩ := (add_eq_zero.1 hm : m = 0 ∧ n = 0)
    rw [ih1 h1, ih2 h2, add_zero, hS.zero]

theorem sumOf_double {F : Arith} (hS : Stable F) {x : ℝ} {m : Multiset ℝ} (h : SumOf F x m)
    (hd : ∀ y ∈ m, IsDouble F y) : IsDouble F x := by
  induction h with
  | zero => exact hS.zero
  | one x => exact hd x (by simp)
  | add _ _ _ _ => exact hS.idem _

/-- The error of a sum: as many roundings as there are additions. -/
theorem sumOf_bound {F : Arith} (hF : Sound F) (hS : Stable F) {x : ℝ} {m : Multiset ℝ} (h : SumOf F x m)
    (hd : ∀ y ∈ m, IsDouble F y) (hc : m.card ≤ 2 ^ 52) (hw : weight m ≤ 2 ^ 1022) :
    |x - m.sum| ≤ γ (m.card - 1) * weight m := by
  induction h with
  | zero => simp [weight]
  | one x => simp [γ_zero]
  | @add a b m n ha hb ih1 ih2 =>
    have hda : ∀ y ∈ m, IsDouble F y := fun y hy => hd y (by simp [hy])
    have hdb : ∀ y ∈ n, IsDouble F y := fun y hy => hd y (by simp [hy])
    have hwm := weight_nonneg m
    have hwn := weight_nonneg n
    rw [weight_add] at hw ⊢
    rw [Multiset.card_add] at hc ⊢
    have ih1 := ih1 hda (by omega) (by linarith)
    have ih2 := ih2 hdb (by omega) (by linarith)
    by_cases hm0 : m = 0
    · subst hm0
      have ea := sumOf_zero hS ha rfl
      have hbd : F.fl b = b := sumOf_double hS hb hdb
      rw [ea, zero_add, hbd]
      simpa [weight] using ih2
    by_cases hn0 : n = 0
    · subst hn0
      have eb := sumOf_zero hS hb rfl
      have had : F.fl a = a := sumOf_double hS ha hda
      rw [eb, add_zero, had]
      simpa [weight] using ih1
    have cm : 0 < m.card := Multiset.card_pos.2 hm0
    have cn : 0 < n.card := Multiset.card_pos.2 hn0
    set K := m.card + n.card - 2 with hK
    have s1 := sum_le_weight m
    have s2 := sum_le_weight n
    rw [if_neg hm0] at s1
    rw [if_neg hn0] at s2
    have g1 : |a - m.sum| ≤ γ K * weight m :=
      ih1.trans (mul_le_mul_of_nonneg_right (γ_mono (by omega)) hwm)
    have g2 : |b - n.sum| ≤ γ K * weight n :=
      ih2.trans (mul_le_mul_of_nonneg_right (γ_mono (by omega)) hwn)
    have hsum : |a + b - (m.sum + n.sum)| ≤ γ K * (weight m + weight n) := by
      have := abs_add_le (a - m.sum) (b - n.sum)
      rw [show a + b - (m.sum + n.sum) = (a - m.sum) + (b - n.sum) by ring]
      linarith
    have habs : |a + b| + κ ≤ (1 + γ K) * (weight m + weight n) := by
      have h1 := abs_add_le (a + b - (m.sum + n.sum)) (m.sum + n.sum)
      rw [sub_add_cancel] at h1
      have h2 := abs_add_le m.sum n.sum
      have := κ_pos
      linarith
    have hγ : γ K ≤ 1 := by
      refine (γ_le (by omega)).trans ?_
      have : (K : ℝ) ≤ 2 ^ 52 := by exact_mod_cast (by omega : K ≤ 2 ^ 52)
      have h2 : (K : ℝ) * (1 / 2 ^ 52) ≤ 2 ^ 52 * (1 / 2 ^ 52) :=
        mul_le_mul_of_nonneg_right this (by positivity)
      refine h2.trans (by norm_num)
    have hbig : |a + b| ≤ 2 ^ 1023 := by
      have h1 : (1 + γ K) * (weight m + weight n) ≤ 2 * 2 ^ 1022 :=
        mul_le_mul (by linarith) hw (by linarith) (by norm_num)
      have h2 : (2 : ℝ) * 2 ^ 1022 = 2 ^ 1023 := by rw [← pow_succ']
      rw [h2] at h1
      have := κ_pos
      exact (by linarith : |a + b| ≤ |a + b| + κ).trans (habs.trans h1)
    have hfl := hF.fl (a + b) hbig
    rw [η_eq] at hfl
    have hfin := abs_add_le (F.fl (a + b) - (a + b)) (a + b - (m.sum + n.sum))
    rw [sub_add_sub_cancel] at hfin
    rw [Multiset.sum_add, show m.card + n.card - 1 = K + 1 by omega, γ_add, γ_one]
    have h3 := mul_le_mul_of_nonneg_left habs u_pos.le
    calc |F.fl (a + b) - (m.sum + n.sum)|
        ≤ u * (|a + b| + κ) + γ K * (weight m + weight n) := by rw [mul_add]; linarith
      _ ≤ u * ((1 + γ K) * (weight m + weight n)) + γ K * (weight m + weight n) := by linarith
      _ = _ := by ring

theorem sumOf_single {F : Arith} (hS : Stable F) {x y : ℝ} {m : Multiset ℝ} (h : SumOf F x m)
    (hy : IsDouble F y) (hm : m = {y}) : x = y := by
  induction h with
  | zero => exact absurd hm.symm (by simp)
  | one x => simpa using hm
  | @add a b m n ha hb ih1 ih2 =>
    have hc : m.card + n.card = 1 := by rw [← Multiset.card_add, hm]; simp
    rcases Nat.eq_zero_or_pos m.card with h0 | h0
    · have hm0 := Multiset.card_eq_zero.1 h0
      rw [sumOf_zero hS ha hm0, zero_add, ih2 (by rw [← hm, hm0, zero_add])]
      exact hy
    · have hn0 : n = 0 := Multiset.card_eq_zero.1 (by omega)
      rw [sumOf_zero hS hb hn0, add_zero, ih1 (by rw [← hm, hn0, add_zero])]
      exact hy

theorem quartetValues_facts {F : Arith} (e : DEnv (Fd F)) (prim : ℕ → ℕ → Fd F → QAM → ℕ → Fd F)
    (hprim : LaneWise e prim) (ab cd : ℕ) (t : QAM) (c : ℕ)
    (hd : ∀ i j, IsDouble F (prim i j (e.Q.prefac j) t c).val) :
    (quartetValues e prim ab cd t c).sum = overPrims e ab cd (fun i j => (prim i j (e.Q.prefac j) t c).val) ∧
    (quartetValues e prim ab cd t c).card ≤ e.P.nprim12 ab * e.Q.nprim12 cd ∧
    weight (quartetValues e prim ab cd t c)
      ≤ overPrims e ab cd (fun i j => |(prim i j (e.Q.prefac j) t c).val| + κ) ∧
    ∀ y ∈ quartetValues e prim ab cd t c, IsDouble F y := by
  have hz : ∀ i j, e.Q.prefac j = 0 → (prim i j (e.Q.prefac j) t c).val = 0 := by
    intro i j h
    rw [h, hprim.zero]
    rfl
  have hκ := κ_pos
  unfold quartetValues overPrims
  simp only
  refine ⟨?_, ?_, ?_, ?_⟩
  · rw [Multiset.sum_sum]
    refine sum_congr rfl fun a _ => ?_
    rw [Multiset.sum_sum]
    refine sum_congr rfl fun b _ => ?_
    by_cases h : e.Kept (tightStart e.P.nprim12 ab + a) (paddedStart e.len e.Q.nprim12 cd + b)
    · by_cases h0 : e.Q.prefac (paddedStart e.len e.Q.nprim12 cd + b) = 0
      · simp [h, h0, hprim.zero]; rfl
      · simp [h, h0]
    · simp [h]
  · rw [Multiset.card_sum]
    refine (sum_le_sum (g := fun _ => e.Q.nprim12 cd) fun a _ => ?_).trans (by simp)
    rw [Multiset.card_sum]
    refine (sum_le_sum (g := fun _ => 1) fun b _ => ?_).trans (by simp)
    split_ifs <;> simp
  · have hw : ∀ {s : Finset ℕ} (f : ℕ → Multiset ℝ), weight (∑ a ∈ s, f a) = ∑ a ∈ s, weight (f a) := by
      intro s f
      exact map_sum (⟨⟨weight, by simp [weight]⟩, weight_add⟩ : Multiset ℝ →+ ℝ) f s
    rw [hw]
    refine sum_le_sum fun a _ => ?_
    rw [hw]
    refine sum_le_sum fun b _ => ?_
    by_cases h : e.Kept (tightStart e.P.nprim12 ab + a) (paddedStart e.len e.Q.nprim12 cd + b)
    · rw [if_pos h]
      split_ifs
      · simp [weight]
      · have : weight 0 = 0 := by simp [weight]
        rw [this]
        positivity
    · rw [if_neg h, if_neg fun x => h x.1]
      simp [weight]
  · intro y hy
    obtain ⟨a, _, hy⟩ := Multiset.mem_sum.1 hy
    obtain ⟨b, _, hy⟩ := Multiset.mem_sum.1 hy
    split_ifs at hy
    · rw [Multiset.mem_singleton.1 hy]
      exact hd _ _
    · simp at hy

end Simint
