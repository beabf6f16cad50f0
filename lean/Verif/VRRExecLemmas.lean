import Verif.VRROrderLemmas
import Verif.Spec.VRR
import Verif.HRRExecLemmas
import Mathlib.Tactic.LinearCombination

/-!
# Execution of the emitted vertical stage
-/

set_option autoImplicit false

namespace Simint

/-! ## Uniform form of the right-hand side -/

def RRType.s1 (t : RRType) : RRType := if t.isBra then .I else .K
def RRType.s2 (t : RRType) : RRType := if t.isBra then .J else .L
def RRType.o1 (t : RRType) : RRType := if t.isBra then .K else .I
def RRType.o2 (t : RRType) : RRType := if t.isBra then .L else .J

/-- Factor of the term lowering `u` in a step on `t`. -/
def vnum (t : RRType) (q : Qrt) (d : Dir) (u : RRType) : ℤ :=
  if u = t then (q.cen u).get d - 1 else (q.cen u).get d

/-- The quartet with `t` and `u` lowered. -/
def vlo (t : RRType) (q : Qrt) (d : Dir) (u : RRType) : Qrt :=
  if u = t then q.low t d 2 else (q.low u d 1).low t d 1

section
variable {F : Type} [CommRing F]

/-- The recurrence, with values taken from `rd`. -/
def vrhs (P : VPar F) (t : RRType) (d : Dir) (q : Qrt) (rd : ℕ → Qrt → F) (n : ℕ) : F :=
  P.pa t d * rd n (q.low t d 1) + P.apq t d * rd (n + 1) (q.low t d 1)
  + (vnum t q d t.s1 : F) * P.o2 t * (rd n (vlo t q d t.s1) + P.ao t * rd (n + 1) (vlo t q d t.s1))
  + (vnum t q d t.s2 : F) * P.o2 t * (rd n (vlo t q d t.s2) + P.ao t * rd (n + 1) (vlo t q d t.s2))
  + (vnum t q d t.o1 : F) * P.o2pq * rd (n + 1) (vlo t q d t.o1)
  + (vnum t q d t.o2 : F) * P.o2pq * rd (n + 1) (vlo t q d t.o2)

def VFam.at (θ : VFam F) (n : ℕ) (q : Qrt) : F := θ n (q.cen .I) (q.cen .J) (q.cen .K) (q.cen .L)

/-- The family satisfies the uniform form. -/
theorem VRRFam.rhs {P : VPar F} {θ : VFam F} (h : VRRFam P θ) {t : RRType} {d : Dir} {q : Qrt}
    (hv : q.Valid) (hd : 0 < (q.cen t).get d) (n : ℕ) : θ.at n q = vrhs P t d q θ.at n := by
  have hv' := ((Qrt.valid_iff q).1 hv).1
  have hI := hv' .I; have hJ := hv' .J; have hK := hv' .K; have hL := hv' .L
  have key : ∀ e : Exp, e.Valid → 0 < e.get d → (e.step d (-1)).Valid := fun e he h => by
    rw [Exp.valid_step_iff _ _ _ he]; omega
  cases t
  · have := h.I n (q.bra.left.step d (-1)) _ _ _ d (key _ hI hd) hJ hK hL
    simp only [Exp.step_step, Exp.get_step_self] at this
    simp only [Int.reduceNeg, neg_add_cancel, Exp.step_zero, Int.reduceAdd] at this
    simp only [vrhs, VFam.at, vnum, vlo, RRType.s1, RRType.s2, RRType.o1, RRType.o2, RRType.isBra,
      VPar.pa, VPar.apq, VPar.ao, VPar.o2, ↓reduceIte, Qrt.cen, Qrt.low, reduceCtorEq, if_false] at this ⊢
    rw [this]; push_cast; ring
  · have := h.J n _ (q.bra.right.step d (-1)) _ _ d hI (key _ hJ hd) hK hL
    simp only [Exp.step_step, Exp.get_step_self] at this
    simp only [Int.reduceNeg, neg_add_cancel, Exp.step_zero, Int.reduceAdd] at this
    simp only [vrhs, VFam.at, vnum, vlo, RRType.s1, RRType.s2, RRType.o1, RRType.o2, RRType.isBra,
      VPar.pa, VPar.apq, VPar.ao, VPar.o2, ↓reduceIte, Qrt.cen, Qrt.low, reduceCtorEq, if_false] at this ⊢
    rw [this]; push_cast; ring
  · have := h.K n _ _ (q.ket.left.step d (-1)) _ d hI hJ (key _ hK hd) hL
    simp only [Exp.step_step, Exp.get_step_self] at this
    simp only [Int.reduceNeg, neg_add_cancel, Exp.step_zero, Int.reduceAdd] at this
    simp only [vrhs, VFam.at, vnum, vlo, RRType.s1, RRType.s2, RRType.o1, RRType.o2, RRType.isBra,
      VPar.pa, VPar.apq, VPar.ao, VPar.o2, ↓reduceIte, Qrt.cen, Qrt.low, reduceCtorEq, if_false,
      Bool.false_eq_true] at this ⊢
    rw [this]; push_cast; ring
  · have := h.L n _ _ _ (q.ket.right.step d (-1)) d hI hJ hK (key _ hL hd)
    simp only [Exp.step_step, Exp.get_step_self] at this
    simp only [Int.reduceNeg, neg_add_cancel, Exp.step_zero, Int.reduceAdd] at this
    simp only [vrhs, VFam.at, vnum, vlo, RRType.s1, RRType.s2, RRType.o1, RRType.o2, RRType.isBra,
      VPar.pa, VPar.apq, VPar.ao, VPar.o2, ↓reduceIte, Qrt.cen, Qrt.low, reduceCtorEq, if_false,
      Bool.false_eq_true] at this ⊢
    rw [this]; push_cast; ring

end

/-! ## Slots of `vlo` -/

theorem vslot_vlo (t : RRType) (q : Qrt) (d : Dir) :
    vslot t q d 1 = vlo t q d t.s1 ∧ vslot t q d 2 = vlo t q d t.s2 ∧
    vslot t q d 3 = vlo t q d t.o1 ∧ vslot t q d 4 = vlo t q d t.o2 := by
  cases t <;> exact ⟨rfl, rfl, rfl, rfl⟩

theorem vlo_valid {t : RRType} {q : Qrt} (hv : q.Valid) {d : Dir} (hd : 0 < (q.cen t).get d)
    (u : RRType) : (∀ w, ((vlo t q d u).cen w).Valid) ↔ 0 < vnum t q d u := by
  have hv' := ((Qrt.valid_iff q).1 hv).1
  have hg : ∀ w, 0 ≤ (q.cen w).get d := fun w => ((Exp.valid_iff _).1 (hv' w)) d
  unfold vlo vnum
  by_cases hu : u = t
  · subst hu
    simp only [if_true]
    constructor
    · intro h
      have := h u
      rw [Qrt.cen_low, if_pos rfl, Exp.valid_step_iff _ _ _ (hv' u)] at this
      omega
    · intro h w
      rw [Qrt.cen_low]
      split
      · rw [Exp.valid_step_iff _ _ _ (hv' u)]; omega
      · exact hv' w
  · simp only [hu, if_false]
    constructor
    · intro h
      have := h u
      rw [Qrt.cen_low, if_neg hu, Qrt.cen_low, if_pos rfl, Exp.valid_step_iff _ _ _ (hv' u)] at this
      omega
    · intro h w
      rw [Qrt.cen_low]
      split
      · rw [Qrt.cen_low, if_neg (Ne.symm hu), Exp.valid_step_iff _ _ _ (hv' t)]; omega
      · rw [Qrt.cen_low]
        split
        · rw [Exp.valid_step_iff _ _ _ (hv' u)]; omega
        · exact hv' w

theorem vnum_nonneg {t : RRType} {q : Qrt} (hv : q.Valid) {d : Dir} (hd : 0 < (q.cen t).get d)
    (u : RRType) : 0 ≤ vnum t q d u := by
  have hv' := ((Qrt.valid_iff q).1 hv).1
  have hg := ((Exp.valid_iff _).1 (hv' u)) d
  unfold vnum
  split
  · rename_i h; subst h; omega
  · exact hg

/-- Validity of the sources in terms of the factors. -/
theorem src_valid_num {t : RRType} {q : Qrt} (hv : q.Valid) {d : Dir} (hd : 0 < (q.cen t).get d) :
    (vrrSrc t q d 0).Valid ∧ (vrrSrc t q d 1).Valid ∧
    ((vrrSrc t q d 2).Valid ↔ 0 < vnum t q d t.s1) ∧ ((vrrSrc t q d 3).Valid ↔ 0 < vnum t q d t.s1) ∧
    ((vrrSrc t q d 4).Valid ↔ 0 < vnum t q d t.s2) ∧ ((vrrSrc t q d 5).Valid ↔ 0 < vnum t q d t.s2) ∧
    ((vrrSrc t q d 6).Valid ↔ 0 < vnum t q d t.o1) ∧ ((vrrSrc t q d 7).Valid ↔ 0 < vnum t q d t.o2) := by
  have hm : 0 ≤ q.m := hv.2.2
  obtain ⟨e1, e2, e3, e4⟩ := vslot_vlo t q d
  have hv' := ((Qrt.valid_iff q).1 hv).1
  have h0 : ∀ w, ((vslot t q d 0).cen w).Valid := by
    intro w
    rw [vslot_zero, Qrt.cen_low]
    split
    · rw [Exp.valid_step_iff _ _ _ (hv' t)]; omega
    · exact hv' w
  refine ⟨(src_valid_iff hm d 0).2 h0, (src_valid_iff hm d 1).2 h0, ?_, ?_, ?_, ?_, ?_, ?_⟩
  · rw [src_valid_iff hm d 2, ← vlo_valid hv hd, ← e1]; exact Iff.rfl
  · rw [src_valid_iff hm d 3, ← vlo_valid hv hd, ← e1]; exact Iff.rfl
  · rw [src_valid_iff hm d 4, ← vlo_valid hv hd, ← e2]; exact Iff.rfl
  · rw [src_valid_iff hm d 5, ← vlo_valid hv hd, ← e2]; exact Iff.rfl
  · rw [src_valid_iff hm d 6, ← vlo_valid hv hd, ← e3]; exact Iff.rfl
  · rw [src_valid_iff hm d 7, ← vlo_valid hv hd, ← e4]; exact Iff.rfl

/-- The stored numbers are exactly the factors of the recurrence. -/
theorem vrrIjkl_num {t : RRType} {q : Qrt} (hv : q.Valid) {d : Dir} (hd : 0 < (q.cen t).get d)
    (u : RRType) : vrrIjkl t q d (vrrSrc t q d) u = vnum t q d u := by
  obtain ⟨-, -, h2, h3, h4, h5, h6, h7⟩ := src_valid_num hv hd
  have hn := vnum_nonneg hv hd
  have pick : ∀ (p : Prop) [Decidable p] (w : RRType), (p ↔ 0 < vnum t q d w) →
      (if p then vnum t q d w else 0) = vnum t q d w := by
    intro p _ w h
    split
    · rfl
    · rename_i hc; have := hn w; have := mt h.2 hc; omega
  have h23 := (or_congr h2 h3).trans (or_self_iff)
  have h45 := (or_congr h4 h5).trans (or_self_iff)
  cases t <;> cases u
  · exact pick _ .I h23
  · exact pick _ .J h45
  · exact pick _ .K h6
  · exact pick _ .L h7
  · exact pick _ .I h23
  · exact pick _ .J h45
  · exact pick _ .K h6
  · exact pick _ .L h7
  · exact pick _ .I h6
  · exact pick _ .J h7
  · exact pick _ .K h23
  · exact pick _ .L h45
  · exact pick _ .I h6
  · exact pick _ .J h7
  · exact pick _ .K h23
  · exact pick _ .L h45

/-! ## Value of one block of assignments -/

section
variable {F : Type} [VOps F]

/-- Constants used by a step are available. -/
structure DeclOK (D : Decl) (s : VStep) : Prop where
  p : ∀ i ∈ ints2p s, i ∈ D.d2p ∧ ((D.one = true ∧ i = 1) ∨ D.lit i = true)
  q : ∀ i ∈ ints2q s, i ∈ D.d2q ∧ ((D.one = true ∧ i = 1) ∨ D.lit i = true)
  pq : ∀ i ∈ ints2pq s, i ∈ D.d2pq ∧ ((D.one = true ∧ i = 1) ∨ D.lit i = true)

/-- Factor of a term, as the declarations of the constants form it. -/
def vfac (one : Bool) (i : ℤ) (x : F) : F := if one ∧ i = 1 then x else VOps.mul (VOps.int i) x

theorem constVal_eq {decl : List ℤ} {D : Decl} (x : F) {i : ℤ}
    (h : i ∈ decl ∧ ((D.one = true ∧ i = 1) ∨ D.lit i = true)) :
    constVal decl D x i = some (vfac D.one i x) := by
  unfold constVal vfac
  rw [if_pos h.1]
  by_cases h1 : D.one ∧ i = 1
  · rw [if_pos h1, if_pos h1]
  · rw [if_neg h1, if_neg h1, if_pos (h.2.resolve_left h1)]

/-- A term with one source, present if its factor is positive. -/
def vOne (k : ℤ) (c v t : F) : F := if 0 < k then VOps.fma c v t else t

/-- A term with two sources. -/
def vTwo (k : ℤ) (c ao v v' t : F) : F := if 0 < k then VOps.fma c (VOps.fma ao v' v) t else t

/-- The same in the generic routines, factors of the product exchanged. -/
def vTwoG (k : ℤ) (c ao v v' t : F) : F := if 0 < k then VOps.fma (VOps.fma ao v' v) c t else t

/-- How a component is evaluated: by emitted statements, or by the generic routines. -/
inductive Form
  | seq (one : Bool)
  | gen

/-- The recurrence as evaluated, with values taken from `rd`. -/
def vform (f : Form) (P : VPar F) (t : RRType) (d : Dir) (q : Qrt) (rd : ℕ → Qrt → F) (n : ℕ) : F :=
  match f with
  | .seq one =>
    let x0 := VOps.fma (P.apq t d) (rd (n + 1) (q.low t d 1)) (VOps.mul (P.pa t d) (rd n (q.low t d 1)))
    let x1 := vTwo (vnum t q d t.s1) (vfac one (vnum t q d t.s1) (P.o2 t)) (P.ao t)
      (rd n (vlo t q d t.s1)) (rd (n + 1) (vlo t q d t.s1)) x0
    let x2 := vTwo (vnum t q d t.s2) (vfac one (vnum t q d t.s2) (P.o2 t)) (P.ao t)
      (rd n (vlo t q d t.s2)) (rd (n + 1) (vlo t q d t.s2)) x1
    let x3 := vOne (vnum t q d t.o1) (vfac one (vnum t q d t.o1) P.o2pq) (rd (n + 1) (vlo t q d t.o1)) x2
    vOne (vnum t q d t.o2) (vfac one (vnum t q d t.o2) P.o2pq) (rd (n + 1) (vlo t q d t.o2)) x3
  | .gen =>
    let x0 := VOps.fma (P.pa t d) (rd n (q.low t d 1)) (VOps.mul (P.apq t d) (rd (n + 1) (q.low t d 1)))
    let x1 := vTwoG (vnum t q d t.s1) (VOps.mul (VOps.int (vnum t q d t.s1)) (P.o2 t)) (P.ao t)
      (rd n (vlo t q d t.s1)) (rd (n + 1) (vlo t q d t.s1)) x0
    let x2 := vTwoG (vnum t q d t.s2) (VOps.mul (VOps.int (vnum t q d t.s2)) (P.o2 t)) (P.ao t)
      (rd n (vlo t q d t.s2)) (rd (n + 1) (vlo t q d t.s2)) x1
    let x3 := vOne (vnum t q d t.o1) (VOps.mul P.o2pq (VOps.int (vnum t q d t.o1)))
      (rd (n + 1) (vlo t q d t.o1)) x2
    vOne (vnum t q d t.o2) (VOps.mul P.o2pq (VOps.int (vnum t q d t.o2)))
      (rd (n + 1) (vlo t q d t.o2)) x3

/-- Element of `PRIM_INT` arrays holding `q` at order `n`. -/
def vaddr (ord : ℕ → List Exp) (q : Qrt) (n : ℕ) : ℕ := n * q.ncart + q.index ord

theorem fmaOne_eq {ord : ℕ → List Exp} {rd : QAM → ℕ → Option F} {n : ℕ} {c : Option F} {i : ℤ} {k : F}
    {q : Qrt} {t v : F} (hk : q.Valid → c = some k ∧ rd q.am4 (vaddr ord q n) = some v)
    (hz : q.Valid ↔ 0 < i) : fmaOne rd n c (vRef ord q) t = some (vOne i k v t) := by
  unfold vRef vOne
  by_cases h : q.Valid
  · rw [if_pos h, if_pos (hz.1 h)]
    obtain ⟨h1, h2⟩ := hk h
    simp only [fmaOne, h1, VRef.get, Option.bind_some]
    rw [show n * q.ncart + q.index ord = vaddr ord q n from rfl, h2]
    rfl
  · rw [if_neg h, if_neg (mt hz.2 h)]
    rfl

theorem fmaTwo_eq {ord : ℕ → List Exp} {rd : QAM → ℕ → Option F} {n : ℕ} {c : Option F} {i : ℤ} {k ao : F}
    {q q' : Qrt} {t v v' : F} (hqq : q.Valid ↔ q'.Valid)
    (hk : q.Valid → c = some k ∧ rd q.am4 (vaddr ord q n) = some v ∧
      rd q'.am4 (vaddr ord q' (n + 1)) = some v')
    (hz : q.Valid ↔ 0 < i) :
    fmaTwo rd n c ao (vRef ord q) (vRef ord q') t = some (vTwo i k ao v v' t) := by
  unfold vRef vTwo
  by_cases h : q.Valid
  · rw [if_pos h, if_pos (hqq.1 h), if_pos (hz.1 h)]
    obtain ⟨h1, h2, h3⟩ := hk h
    simp only [fmaTwo, h1, VRef.get, Option.bind_some]
    rw [show n * q.ncart + q.index ord = vaddr ord q n from rfl, h2, Option.bind_some,
      show (n + 1) * q'.ncart + q'.index ord = vaddr ord q' (n + 1) from rfl, h3]
    rfl
  · rw [if_neg h, if_neg (mt hz.2 h)]
    rfl

theorem vaddr_addm (ord : ℕ → List Exp) (q : Qrt) (k : ℤ) (n : ℕ) :
    vaddr ord (q.addm k) n = vaddr ord q n := rfl

/-- The value stored for a component is the recurrence applied to what the arrays hold. -/
theorem value_eq {ord : ℕ → List Exp} {P : VPar F} {D : Decl} {t : RRType} {q : Qrt} {s : VStep}
    {am : QAM} {d : Dir} (hv : q.Valid) (hd : makDir (q.cen t) = some d)
    (hdp : 0 < (q.cen t).get d) (hs : createSingle t q = some s) (hD : DeclOK D s)
    {rd : QAM → ℕ → Option F} {val : ℕ → Qrt → F} {n : ℕ}
    (hrd : ∀ (i : Fin 8), (vrrSrc t q d i).Valid → ∀ n' : ℕ, (n' : ℤ) = n + eslot i →
      rd (vrrSrc t q d i).am4 (vaddr ord (vrrSrc t q d i) n') =
        some (val n' (vslot t q d (kslot i)))) :
    (vStmt ord am s).value P D rd n = some (vform (.seq D.one) P t d q val n) := by
  obtain ⟨d', h1, h2, h3, h4, h5, h6⟩ := createSingle_inv hs
  rw [hd, Option.some.injEq] at h1
  subst h1
  obtain ⟨v0, v1, v2, v3, v4, v5, v6, v7⟩ := src_valid_num hv hdp
  obtain ⟨e1, e2, e3, e4⟩ := vslot_vlo t q d
  have hnum := vrrIjkl_num hv hdp
  have hnn := vnum_nonneg hv hdp
  have r0 := hrd 0 v0 n (by simp [eslot])
  have r1 := hrd 1 v1 (n + 1) (by simp [eslot])
  have r2 := fun h => hrd 2 h n (by simp [eslot])
  have r3 := fun h => hrd 3 h (n + 1) (by simp [eslot])
  have r4 := fun h => hrd 4 h n (by simp [eslot])
  have r5 := fun h => hrd 5 h (n + 1) (by simp [eslot])
  have r6 := fun h => hrd 6 h (n + 1) (by simp [eslot])
  have r7 := fun h => hrd 7 h (n + 1) (by simp [eslot])
  simp only [kslot, Matrix.cons_val] at r0 r1 r2 r3 r4 r5 r6 r7
  rw [vslot_zero] at r0 r1
  rw [e1] at r2 r3
  rw [e2] at r4 r5
  rw [e3] at r6
  rw [e4] at r7
  -- constants
  have hc1 : 0 < vnum t q d t.s1 →
      (if t.isBra then constVal D.d2p D P.o2p else constVal D.d2q D P.o2q)
        (vnum t q d t.s1) = some (vfac D.one (vnum t q d t.s1) (P.o2 t)) := by
    intro h
    have hp := hD.p; have hq := hD.q
    unfold ints2p at hp; unfold ints2q at hq
    rw [h2, h4, h6] at hp hq
    simp only [v2, v3, v4, v5, hnum] at hp hq
    cases t
    · exact constVal_eq _ (hp _ (by simp [show 0 < vnum _ q d .I from h, RRType.s1, RRType.isBra]))
    · exact constVal_eq _ (hp _ (by simp [show 0 < vnum _ q d .I from h, RRType.s1, RRType.isBra]))
    · exact constVal_eq _ (hq _ (by simp [show 0 < vnum _ q d .K from h, RRType.s1, RRType.isBra]))
    · exact constVal_eq _ (hq _ (by simp [show 0 < vnum _ q d .K from h, RRType.s1, RRType.isBra]))
  have hc2 : 0 < vnum t q d t.s2 →
      (if t.isBra then constVal D.d2p D P.o2p else constVal D.d2q D P.o2q)
        (vnum t q d t.s2) = some (vfac D.one (vnum t q d t.s2) (P.o2 t)) := by
    intro h
    have hp := hD.p; have hq := hD.q
    unfold ints2p at hp; unfold ints2q at hq
    rw [h2, h4, h6] at hp hq
    simp only [v2, v3, v4, v5, hnum] at hp hq
    cases t
    · exact constVal_eq _ (hp _ (by simp [show 0 < vnum _ q d .J from h, RRType.s2, RRType.isBra]))
    · exact constVal_eq _ (hp _ (by simp [show 0 < vnum _ q d .J from h, RRType.s2, RRType.isBra]))
    · exact constVal_eq _ (hq _ (by simp [show 0 < vnum _ q d .L from h, RRType.s2, RRType.isBra]))
    · exact constVal_eq _ (hq _ (by simp [show 0 < vnum _ q d .L from h, RRType.s2, RRType.isBra]))
  have hc3 : 0 < vnum t q d t.o1 → constVal D.d2pq D P.o2pq
        (vnum t q d t.o1) = some (vfac D.one (vnum t q d t.o1) P.o2pq) := by
    intro h
    have hp := hD.pq
    unfold ints2pq at hp
    rw [h2, h4, h6] at hp
    simp only [v6, v7, hnum] at hp
    cases t
    · exact constVal_eq _ (hp _ (by simp [show 0 < vnum _ q d .K from h, RRType.o1, RRType.isBra]))
    · exact constVal_eq _ (hp _ (by simp [show 0 < vnum _ q d .K from h, RRType.o1, RRType.isBra]))
    · exact constVal_eq _ (hp _ (by simp [show 0 < vnum _ q d .I from h, RRType.o1, RRType.isBra]))
    · exact constVal_eq _ (hp _ (by simp [show 0 < vnum _ q d .I from h, RRType.o1, RRType.isBra]))
  have hc4 : 0 < vnum t q d t.o2 → constVal D.d2pq D P.o2pq
        (vnum t q d t.o2) = some (vfac D.one (vnum t q d t.o2) P.o2pq) := by
    intro h
    have hp := hD.pq
    unfold ints2pq at hp
    rw [h2, h4, h6] at hp
    simp only [v6, v7, hnum] at hp
    cases t
    · exact constVal_eq _ (hp _ (by simp [show 0 < vnum _ q d .L from h, RRType.o2, RRType.isBra]))
    · exact constVal_eq _ (hp _ (by simp [show 0 < vnum _ q d .L from h, RRType.o2, RRType.isBra]))
    · exact constVal_eq _ (hp _ (by simp [show 0 < vnum _ q d .J from h, RRType.o2, RRType.isBra]))
    · exact constVal_eq _ (hp _ (by simp [show 0 < vnum _ q d .J from h, RRType.o2, RRType.isBra]))
  have hc0s : (vStmt ord am s).c0 = vnum t q d t.s1 := by
    simp only [vStmt, h2, h6, hnum, RRType.s1]; split <;> rfl
  have hc1s : (vStmt ord am s).c1 = vnum t q d t.s2 := by
    simp only [vStmt, h2, h6, hnum, RRType.s2]; split <;> rfl
  have hc2s : (vStmt ord am s).c2 = vnum t q d t.o1 := by
    simp only [vStmt, h2, h6, hnum, RRType.o1]; split <;> rfl
  have hc3s : (vStmt ord am s).c3 = vnum t q d t.o2 := by
    simp only [vStmt, h2, h6, hnum, RRType.o2]; split <;> rfl
  have hsrc : ∀ i, (vStmt ord am s).src i = vRef ord (vrrSrc t q d i) := by
    intro i; simp only [vStmt, h4]
  have hty : (vStmt ord am s).type = t := h2
  have hxyz : (vStmt ord am s).xyz = d := h5
  unfold VStmt.value
  simp only [hc0s, hc1s, hc2s, hc3s, hsrc, hty, hxyz]
  rw [show vRef ord (vrrSrc t q d 0) = some ⟨_, _, _⟩ from if_pos v0, Option.bind_some, VRef.get]
  rw [show n * (vrrSrc t q d 0).ncart + (vrrSrc t q d 0).index ord = vaddr ord (vrrSrc t q d 0) n
    from rfl, r0, Option.map_some, Option.bind_some]
  rw [fmaOne_eq (i := 1) (k := P.apq t d) (v := val (n + 1) (q.low t d 1)) (fun _ => ⟨rfl, r1⟩)
    (iff_of_true v1 one_pos), Option.bind_some]
  rw [fmaTwo_eq (i := vnum t q d t.s1) (v := val n (vlo t q d t.s1))
    (v' := val (n + 1) (vlo t q d t.s1)) (v2.trans v3.symm)
    (fun h => ⟨hc1 (v2.1 h), r2 h, r3 (v3.2 (v2.1 h))⟩) v2, Option.bind_some]
  rw [fmaTwo_eq (i := vnum t q d t.s2) (v := val n (vlo t q d t.s2))
    (v' := val (n + 1) (vlo t q d t.s2)) (v4.trans v5.symm)
    (fun h => ⟨hc2 (v4.1 h), r4 h, r5 (v5.2 (v4.1 h))⟩) v4, Option.bind_some]
  rw [fmaOne_eq (i := vnum t q d t.o1) (v := val (n + 1) (vlo t q d t.o1))
    (fun h => ⟨hc3 (v6.1 h), r6 h⟩) v6, Option.bind_some]
  rw [fmaOne_eq (i := vnum t q d t.o2) (v := val (n + 1) (vlo t q d t.o2))
    (fun h => ⟨hc4 (v7.1 h), r7 h⟩) v7]
  rfl

/-! ## Running one class -/

/-- Value of a quartet held in memory. -/
def VMem.at (ord : ℕ → List Exp) (m : VMem F) (n : ℕ) (q : Qrt) : F := m q.am4 (vaddr ord q n)

/-- What the code for one class has to do: store the recurrence value for every covered component
and every order up to `M`, change no other array. -/
def VContract (ord : ℕ → List Exp) (f : Form) (P : VPar F) (am : QAM) (t : RRType) (M : ℤ) (cov : Qrt → Prop)
    (run : VMem F → Option (VMem F)) : Prop :=
  ∀ m, ∃ m', run m = some m' ∧ (∀ q, q ≠ am → m' q = m q) ∧
    ∀ e : Qrt, e.Valid → e.m = 0 → e.am4 = am → cov e → ∀ n : ℕ, (n : ℤ) ≤ M →
      ∀ d, makDir (e.cen t) = some d → m'.at ord n e = vform f P t d e (m.at ord) n

/-- Jobs at one order. -/
theorem vExecAll_jobs {mr : MReq} {P : VPar F} {D : Decl} {am : QAM} {m : VMem F} {n : ℕ}
    {Pv : ℕ → F → Prop} : ∀ (ss : List VStmt),
    (∀ s ∈ ss, s.tq = am ∧ n * ncartQ am + s.ti < vSize mr am ∧
      ∃ v, (∀ m' : VMem F, (∀ q, q ≠ am → m' q = m q) → s.value P D (vread mr m') n = some v) ∧
        Pv (n * ncartQ am + s.ti) v) →
    ∀ (m1 : VMem F) (dn : ℕ → Prop), (∀ q, q ≠ am → m1 q = m q) → (∀ a, dn a → Pv a (m1 am a)) →
    ∃ m2, vExecAll mr P D n ss m1 = some m2 ∧ (∀ q, q ≠ am → m2 q = m q) ∧
      ∀ a, (dn a ∨ ∃ s ∈ ss, a = n * ncartQ am + s.ti) → Pv a (m2 am a)
  | [], _, m1, dn, h1, h2 => ⟨m1, rfl, h1, by simpa using h2⟩
  | s :: ss, hs, m1, dn, h1, h2 => by
    obtain ⟨k1, k2, v, k3, k4⟩ := hs s (by simp)
    obtain ⟨m2, e, g1, g2⟩ := vExecAll_jobs ss (fun s' hs' => hs s' (by simp [hs']))
      (fun q' i' => if q' = am ∧ i' = n * ncartQ am + s.ti then v else m1 q' i')
      (fun a => dn a ∨ a = n * ncartQ am + s.ti)
      (fun q hq => by funext i; simp [hq, h1 q hq])
      (fun a ha => by
        by_cases hc : a = n * ncartQ am + s.ti
        · simp only [hc, and_self, if_true]; exact k4
        · simp only [hc, and_false, if_false]
          exact h2 a (ha.resolve_right hc))
    refine ⟨m2, ?_, g1, fun a ha => g2 a ?_⟩
    · rw [vExecAll, VStmt.exec, k3 m1 h1, Option.bind_some, k1, vwrite, if_pos k2, Option.bind_some, e]
    · rcases ha with ha | ⟨s', hs', ha⟩
      · exact Or.inl (Or.inl ha)
      · rcases List.mem_cons.1 hs' with rfl | hs'
        · exact Or.inl (Or.inr ha)
        · exact Or.inr ⟨s', hs', ha⟩

theorem vExecLoop_jobs {mr : MReq} {P : VPar F} {D : Decl} {am : QAM} {m : VMem F}
    {Pv : ℕ → F → Prop} {ss : List VStmt} : ∀ (ns : List ℕ),
    (∀ n ∈ ns, ∀ s ∈ ss, s.tq = am ∧ n * ncartQ am + s.ti < vSize mr am ∧
      ∃ v, (∀ m' : VMem F, (∀ q, q ≠ am → m' q = m q) → s.value P D (vread mr m') n = some v) ∧
        Pv (n * ncartQ am + s.ti) v) →
    ∀ (m1 : VMem F) (dn : ℕ → Prop), (∀ q, q ≠ am → m1 q = m q) → (∀ a, dn a → Pv a (m1 am a)) →
    ∃ m2, vExecLoop mr P D ss ns m1 = some m2 ∧ (∀ q, q ≠ am → m2 q = m q) ∧
      ∀ a, (dn a ∨ ∃ n ∈ ns, ∃ s ∈ ss, a = n * ncartQ am + s.ti) → Pv a (m2 am a)
  | [], _, m1, dn, h1, h2 => ⟨m1, rfl, h1, by simpa using h2⟩
  | n :: ns, hs, m1, dn, h1, h2 => by
    obtain ⟨m2, e2, g1, g2⟩ := vExecAll_jobs ss (hs n (by simp)) m1 dn h1 h2
    obtain ⟨m3, e3, r1, r2⟩ := vExecLoop_jobs ns (fun n' hn' => hs n' (by simp [hn'])) m2 _ g1 g2
    refine ⟨m3, by rw [vExecLoop, e2, Option.bind_some, e3], r1, fun a ha => r2 a ?_⟩
    rcases ha with ha | ⟨n', hn', s, hs', ha⟩
    · exact Or.inl (Or.inl ha)
    · rcases List.mem_cons.1 hn' with rfl | hn'
      · exact Or.inl (Or.inr ⟨s, hs', ha⟩)
      · exact Or.inr ⟨n', hn', s, hs', ha⟩

theorem ncartQ_am4 (q : Qrt) : ncartQ q.am4 = q.ncart := rfl

theorem ncartQ_of {q : Qrt} {a : QAM} (h : q.am4 = a) : ncartQ a = q.ncart := by
  rw [← h]; rfl

/-- Orders needed of the classes a class depends on. -/
def ReqOK (mr : MReq) (am : QAM) (t : RRType) (M : ℤ) : Prop :=
  mr am = some M ∧ 0 ≤ M ∧ ∀ b ∈ vAMReq am t, ∃ M', mr b = some M' ∧ M + 1 ≤ M'

theorem vaddr_lt {ord : ℕ → List Exp} (ho : OrdOK ord) {mr : MReq} {q : Qrt} (hv : q.Valid) {M : ℤ}
    (hM : mr q.am4 = some M) {n : ℕ} (hn : (n : ℤ) ≤ M) : vaddr ord q n < vSize mr q.am4 := by
  unfold vSize vaddr
  rw [hM]
  simp only [ncartQ_am4]
  have h1 := Qrt.index_lt ho hv
  have h2 : n + 1 ≤ (M + 1).toNat := by omega
  calc n * q.ncart + q.index ord < (n + 1) * q.ncart := by rw [add_mul]; omega
    _ ≤ _ := Nat.mul_le_mul_right _ h2

theorem Qrt.eq_of_index {ord : ℕ → List Exp} (ho : OrdOK ord) {p q : Qrt} (hp : p.Valid)
    (hq : q.Valid) (ha : p.am4 = q.am4) (hm : p.m = q.m) (hi : p.index ord = q.index ord) : p = q := by
  simp only [Qrt.am4, TQAM.mk.injEq] at ha
  obtain ⟨h1, h2⟩ := Qrt.index_inj ho hp hq ha.1 ha.2.1 ha.2.2.1 ha.2.2.2.1 hi
  cases p; cases q; simp_all

theorem vaddr_inj {ord : ℕ → List Exp} (ho : OrdOK ord) {p q : Qrt} (hp : p.Valid) (hq : q.Valid)
    (ha : p.am4 = q.am4) (hm : p.m = q.m) {n k : ℕ} (h : vaddr ord p n = vaddr ord q k) :
    p = q ∧ n = k := by
  have hn : p.ncart = q.ncart := by rw [← ncartQ_am4, ha, ncartQ_am4]
  unfold vaddr at h
  rw [hn] at h
  obtain ⟨h1, h2⟩ := mix_inj (by rw [← hn]; exact Qrt.index_lt ho hp) (Qrt.index_lt ho hq) h
  exact ⟨Qrt.eq_of_index ho hp hq ha hm h2, h1⟩

/-- Running the emitted steps of a class for the orders `0..M`. -/
theorem steps_contract {ord : ℕ → List Exp} (ho : OrdOK ord) {mr : MReq} {P : VPar F} {D : Decl}
    {am : QAM} {t : RRType} {M : ℤ} (hr : ReqOK mr am t M) {steps : List VStep}
    (hst : ∀ s ∈ steps, ∃ q : Qrt, q.Valid ∧ q.m = 0 ∧ q.am4 = am ∧ 0 < am.get t ∧
      createSingle t q = some s ∧ DeclOK D s) :
    VContract ord (.seq D.one) P am t M (fun e => ∃ s ∈ steps, s.target = e)
      (fun m => vExecLoop mr P D (steps.map (vStmt ord am)) (List.range (M + 1).toNat) m) := by
  intro m
  obtain ⟨hr1, hr0, hr2⟩ := hr
  have hjobs : ∀ n ∈ List.range (M + 1).toNat, ∀ s ∈ steps.map (vStmt ord am), s.tq = am ∧
      n * ncartQ am + s.ti < vSize mr am ∧
      ∃ v, (∀ m' : VMem F, (∀ q, q ≠ am → m' q = m q) → s.value P D (vread mr m') n = some v) ∧
        ∀ (q : Qrt) (n' : ℕ), q.Valid → q.m = 0 → q.am4 = am →
          n * ncartQ am + s.ti = vaddr ord q n' →
          ∀ d, makDir (q.cen t) = some d → v = vform (.seq D.one) P t d q (m.at ord) n' := by
    intro n hn s' hs'
    rw [List.mem_range] at hn
    obtain ⟨s, hs, rfl⟩ := List.mem_map.1 hs'
    obtain ⟨q, hq, hm, ham, hp, hcs, hD⟩ := hst s hs
    obtain ⟨d0, hd0, hdp, hcs'⟩ := createSingle_spec hq (by rw [ham]; exact hp)
    have htg : s.target = q := by rw [hcs, Option.some.injEq] at hcs'; rw [hcs']
    refine ⟨rfl, ?_, vform (.seq D.one) P t d0 q (m.at ord) n, ?_, ?_⟩
    · have := vaddr_lt ho hq (by rw [ham]; exact hr1) (n := n) (by omega)
      rw [ham] at this
      rw [ncartQ_of ham]
      simp only [vStmt, htg]
      exact this
    · intro m2 hm2
      refine value_eq hq hd0 hdp hcs hD ?_
      intro i hi n' hn'
      have hes := eslot_cases i
      have hvs := (src_valid_iff hq.2.2 d0 i).1 hi
      have ham4 : (vrrSrc t q d0 i).am4 = (vslot t q d0 (kslot i)).am4 := by
        rw [vrrSrc_eq, Qrt.addm_am4]
      have hreq : (vrrSrc t q d0 i).am4 ∈ vAMReq am t := by
        rw [← ham, mem_vAMReq d0]
        exact ⟨kslot i, ham4, hi.am4⟩
      obtain ⟨M', hM1, hM2⟩ := hr2 _ hreq
      have hlt := vaddr_lt ho hi hM1 (n := n') (by omega)
      have hne : (vrrSrc t q d0 i).am4 ≠ am := by
        intro hc
        have h1 := vslot_am_lt t q d0 (kslot i)
        have h2 : (vslot t q d0 (kslot i)).am = q.am := by
          rw [← Qrt.am4_sum, ← Qrt.am4_sum, ← ham4, hc, ham]
        omega
      rw [vread, if_pos hlt, hm2 _ hne, VMem.at, ← ham4]
      rw [vrrSrc_eq, vaddr_addm]
    · intro q' n' hq' hm' ham' hadr d hd
      have hadr' : vaddr ord q n = vaddr ord q' n' := by
        rw [← hadr, vaddr, ncartQ_of ham]; simp only [vStmt, htg]
      obtain ⟨rfl, rfl⟩ := vaddr_inj ho hq hq' (by rw [ham, ham']) (by rw [hm, hm']) hadr'
      rw [hd0, Option.some.injEq] at hd
      rw [hd]
  obtain ⟨m', e, g1, g2⟩ := vExecLoop_jobs (mr := mr) (P := P) (D := D) (am := am) (m := m)
    (ss := steps.map (vStmt ord am))
    (Pv := fun a v => ∀ (q : Qrt) (n : ℕ), q.Valid → q.m = 0 → q.am4 = am → a = vaddr ord q n →
      ∀ d, makDir (q.cen t) = some d → v = vform (.seq D.one) P t d q (m.at ord) n)
    (List.range (M + 1).toNat) hjobs m (fun _ => False) (fun _ _ => rfl) (by simp)
  refine ⟨m', e, g1, ?_⟩
  rintro q hq hm ham ⟨s, hs, rfl⟩ n hn d hd
  rw [VMem.at, ham]
  refine g2 _ (Or.inr ⟨n, List.mem_range.2 (by omega), vStmt ord am s, List.mem_map.2 ⟨s, hs, rfl⟩,
    ?_⟩) s.target n hq hm ham rfl d hd
  rw [ncartQ_of ham]; rfl

/-! ## Running the whole order -/

/-- Class by class execution with given code per class. -/
def vRunWith (run : QAM → VMem F → Option (VMem F)) : List QAM → VMem F → Option (VMem F)
  | [], m => some m
  | am :: l, m =>
    if am = ssss then vRunWith run l m
    else (run am m).bind fun m' => vRunWith run l m'

/-- Components of reachable quartets at some order. -/
def Reach0 (ts : List RRType) (init : List Qrt) (e : Qrt) : Prop := ∃ k, VReach ts init (e.addm k)

/-- Values of a class satisfy `G`. -/
def VGoodP (ord : ℕ → List Exp) (G : ℕ → Qrt → F → Prop) (mr : MReq) (cov : Qrt → Prop) (m : VMem F)
    (a : QAM) : Prop :=
  ∀ e : Qrt, e.Valid → e.m = 0 → e.am4 = a → (a = ssss ∨ cov e) → ∀ M, mr a = some M →
    ∀ n : ℕ, (n : ℤ) ≤ M → G n e (m.at ord n e)

/-- A property of values kept by the recurrence as evaluated. -/
def VClosed (P : VPar F) (G : ℕ → Qrt → F → Prop) : Prop :=
  ∀ (f : Form) (t : RRType) (d : Dir) (q : Qrt) (n : ℕ) (rd : ℕ → Qrt → F), q.Valid → q.m = 0 →
    0 < (q.cen t).get d →
    (∀ j : Fin 5, (vslot t q d j).Valid → ∀ n', n ≤ n' → n' ≤ n + 1 →
      G n' (vslot t q d j) (rd n' (vslot t q d j))) →
    G n q (vform f P t d q rd n)

theorem vRunWith_closed {ts : List RRType} {init : List Qrt} {A : VRRAlgo} (hA : VAlgoOK ts init A)
    {ord : ℕ → List Exp} {P : VPar F} {G : ℕ → Qrt → F → Prop} (hG : VClosed P G)
    {run : QAM → VMem F → Option (VMem F)}
    (hrun : ∀ am ∈ A.order, ∀ t, phase ts am = some t → ∀ M, ReqOK A.mreq am t M →
      ∃ f, VContract ord f P am t M (Reach0 ts init) (run am)) :
    ∀ (l : List QAM) (m : VMem F) (done : List QAM), (∃ pre, A.order = pre ++ l ∧ ∀ x ∈ pre, x ∈ done) →
      (∀ x ∈ done, x ∉ l) →
      (∀ a ∈ done, VGoodP ord G A.mreq (Reach0 ts init) m a) →
      VGoodP ord G A.mreq (Reach0 ts init) m ssss →
      ∃ m', vRunWith run l m = some m' ∧
        (∀ a, (a ∈ done ∨ a ∈ l ∨ a = ssss) → VGoodP ord G A.mreq (Reach0 ts init) m' a)
  | [], m, done, _, _, hg, hz => ⟨m, rfl, fun a ha => by
      rcases ha with h | h | rfl
      · exact hg a h
      · simp at h
      · exact hz⟩
  | am :: l, m, done, ⟨pre, hpre, hpd⟩, hdl, hg, hz => by
    have hmem : am ∈ A.order := by rw [hpre]; simp
    obtain ⟨hall, hne⟩ := hA.omem am hmem
    obtain ⟨q, hq, hqa⟩ := ((hA.allam am).1 hall).resolve_left hne
    obtain ⟨M, hM, hM0, -, -, hMr⟩ := hA.mreq q hq
    rw [hqa] at hM hMr
    have hphase : ∃ t, phase ts am = some t := by
      obtain ⟨s, hs, e⟩ := hA.has q hq
      obtain ⟨q', t, hq', ht, hc⟩ := hA.sph s hs
      obtain ⟨d, -, -, h3, -⟩ := createSingle_inv hc
      refine ⟨t, ?_⟩
      have : q'.am4 = am := by rw [← hqa, ← Qrt.z_am4 q, ← e, h3, Qrt.z_am4]
      rw [← this]; exact ht
    obtain ⟨t, ht⟩ := hphase
    have hreq : ReqOK A.mreq am t M := ⟨hM, hM0, hMr t ht⟩
    obtain ⟨f, hf⟩ := hrun am hmem t ht M hreq
    obtain ⟨m', e', k1, k2⟩ := hf m
    have htopo := hA.otopo pre am l hpre t ht
    have hGam : VGoodP ord G A.mreq (Reach0 ts init) m' am := by
      intro e hev hem hea hec M1 hM1 n hn
      rw [hM, Option.some.injEq] at hM1
      subst hM1
      obtain ⟨k, hk⟩ := hec.resolve_left hne
      have hp : 0 < (e.cen t).am := by rw [← Qrt.am4_get, hea]; exact (phase_some ht).1
      obtain ⟨d, hd, hdp, -⟩ := createSingle_spec hev (by rw [hea]; exact (phase_some ht).1)
      rw [k2 e hev hem hea (hec.resolve_left hne) n hn d hd]
      refine hG f t d e n _ hev hem hdp ?_
      intro j hsv n' hn1 hn2
      have hj := ((Qrt.valid_iff _).1 hsv).1
      have hb : (vslot t e d j).am4 ∈ vAMReq am t := by
        rw [← hea, mem_vAMReq d]; exact ⟨j, rfl, hsv.am4⟩
      obtain ⟨M', hM1, hM2⟩ := hreq.2.2 _ hb
      have hgood : VGoodP ord G A.mreq (Reach0 ts init) m (vslot t e d j).am4 := by
        rcases htopo _ hb with h | h
        · rw [h]; exact hz
        · exact hg _ (hpd _ h)
      refine hgood (vslot t e d j) hsv (by rw [vslot_m, hem]) rfl ?_ M' hM1 n' (by omega)
      by_cases h0 : 0 < (vslot t e d j).am
      · right
        -- the slot occurs as a source of the reachable quartet
        have hkv := hk.valid.1
        have hcen : ∀ w, (e.addm k).cen w = e.cen w := fun w => Qrt.addm_cen e k w
        obtain ⟨d', hd', -, hs'⟩ := createSingle_spec (t := t) hkv
          (by rw [Qrt.addm_am4, hea]; exact (phase_some ht).1)
        rw [hcen, hd, Option.some.injEq] at hd'
        subst hd'
        have hki : ∃ i, kslot i = j := by
          fin_cases j
          · exact ⟨0, rfl⟩
          · exact ⟨2, rfl⟩
          · exact ⟨4, rfl⟩
          · exact ⟨6, rfl⟩
          · exact ⟨7, rfl⟩
        obtain ⟨i, hi⟩ := hki
        have hsrc : vrrSrc t (e.addm k) d i = (vslot t e d j).addm (k + eslot i) := by
          rw [vrrSrc_eq, vslot_addm, hi, Qrt.addm_addm]
        refine ⟨k + eslot i, ?_⟩
        rw [← hsrc]
        refine VReach.step (e.addm k) t _ i hk (by rw [Qrt.addm_am4, hea]; exact ht) hs' ?_ ?_
        · show (vrrSrc t (e.addm k) d i).Valid
          rw [hsrc, Qrt.valid_iff]
          refine ⟨fun w => by rw [Qrt.addm_cen]; exact hj w, ?_⟩
          have h1 := hkv.2.2
          have h2 := eslot_nonneg i
          rw [Qrt.addm_m, hem] at h1
          rw [Qrt.addm_m, vslot_m, hem]; omega
        · show 0 < (vrrSrc t (e.addm k) d i).am
          rw [hsrc]; simpa using h0
      · left
        exact QAM.eq_ssss hsv.am4 (by rw [Qrt.am4_sum]; omega) rfl
    have hnd := hA.ond
    have hkeep : ∀ a, a ≠ am → VGoodP ord G A.mreq (Reach0 ts init) m a →
        VGoodP ord G A.mreq (Reach0 ts init) m' a := by
      intro a ha hga e hev hem hea hec M1 hM1 n hn
      have := hga e hev hem hea hec M1 hM1 n hn
      rwa [VMem.at, ← k1 _ (by rw [hea]; exact ha)] at this
    have hnl : am ∉ l := by
      rw [hpre] at hnd
      have := (List.nodup_append.1 hnd).2.1
      exact (List.nodup_cons.1 this).1
    obtain ⟨m2, e2, r⟩ := vRunWith_closed hA hG hrun l m' (am :: done)
      ⟨pre ++ [am], by simp [hpre], by
        intro x hx
        rcases List.mem_append.1 hx with h | h
        · exact List.mem_cons_of_mem _ (hpd x h)
        · rw [List.mem_singleton.1 h]; simp⟩
      (fun x hx => by
        rcases List.mem_cons.1 hx with rfl | h
        · exact hnl
        · exact fun hc => hdl x h (by simp [hc]))
      (fun a ha => by
        by_cases hc : a = am
        · rw [hc]; exact hGam
        · exact hkeep a hc (hg a ((List.mem_cons.1 ha).resolve_left hc)))
      (hkeep ssss (Ne.symm hne) hz)
    refine ⟨m2, by rw [vRunWith, if_neg hne, e', Option.bind_some, e2], fun a ha => r a ?_⟩
    rcases ha with h | h | h
    · exact Or.inl (by simp [h])
    · rcases List.mem_cons.1 h with rfl | h
      · exact Or.inl (by simp)
      · exact Or.inr (Or.inl h)
    · exact Or.inr (Or.inr h)

end

section
variable {F : Type} [CommRing F]

theorem vrhs_congr {P : VPar F} {t : RRType} {d : Dir} {q : Qrt} (hv : q.Valid)
    (hd : 0 < (q.cen t).get d) {rd rd' : ℕ → Qrt → F} {n : ℕ}
    (h : ∀ j : Fin 5, (∀ w, ((vslot t q d j).cen w).Valid) → ∀ n', n ≤ n' → n' ≤ n + 1 →
      rd n' (vslot t q d j) = rd' n' (vslot t q d j)) :
    vrhs P t d q rd n = vrhs P t d q rd' n := by
  obtain ⟨e1, e2, e3, e4⟩ := vslot_vlo t q d
  have hv' := ((Qrt.valid_iff q).1 hv).1
  have h0 : ∀ w, ((vslot t q d 0).cen w).Valid := by
    intro w
    rw [vslot_zero, Qrt.cen_low]
    split
    · rw [Exp.valid_step_iff _ _ _ (hv' t)]; omega
    · exact hv' w
  have key : ∀ (u : RRType) (j : Fin 5), vslot t q d j = vlo t q d u → ∀ n', n ≤ n' → n' ≤ n + 1 →
      (vnum t q d u : F) * rd n' (vlo t q d u) = (vnum t q d u : F) * rd' n' (vlo t q d u) := by
    intro u j e n' h1 h2
    by_cases hp : 0 < vnum t q d u
    · rw [← e, h j (by rw [e]; exact (vlo_valid hv hd u).2 hp) n' h1 h2]
    · have := vnum_nonneg hv hd u
      have : vnum t q d u = 0 := by omega
      rw [this]; simp
  have a0 := h 0 h0 n le_rfl (by omega)
  have a1 := h 0 h0 (n + 1) (by omega) le_rfl
  rw [vslot_zero] at a0 a1
  have b0 := key _ 1 e1 n le_rfl (by omega)
  have b1 := key _ 1 e1 (n + 1) (by omega) le_rfl
  have c0 := key _ 2 e2 n le_rfl (by omega)
  have c1 := key _ 2 e2 (n + 1) (by omega) le_rfl
  have d1 := key _ 3 e3 (n + 1) (by omega) le_rfl
  have f1 := key _ 4 e4 (n + 1) (by omega) le_rfl
  unfold vrhs
  rw [a0, a1]
  linear_combination P.o2 t * b0 + P.o2 t * P.ao t * b1 + P.o2 t * c0 + P.o2 t * P.ao t * c1
    + P.o2pq * d1 + P.o2pq * f1

/-- In exact arithmetic every form of evaluation is the recurrence. -/
theorem vform_ring (f : Form) (P : VPar F) {t : RRType} {d : Dir} {q : Qrt} (hv : q.Valid)
    (hd : 0 < (q.cen t).get d) (rd : ℕ → Qrt → F) (n : ℕ) :
    vform f P t d q rd n = vrhs P t d q rd n := by
  have hfac : ∀ (one : Bool) (i : ℤ) (x : F), vfac one i x = (i : F) * x := by
    intro one i x
    unfold vfac
    split
    · rename_i h; rw [h.2]; simp
    · rfl
  have h1 : ∀ (u : RRType) (x v t' : F), vOne (vnum t q d u) ((vnum t q d u : F) * x) v t' =
      (vnum t q d u : F) * x * v + t' := by
    intro u x v t'
    unfold vOne
    split
    · rfl
    · have := vnum_nonneg hv hd u
      rw [show vnum t q d u = 0 by omega]; simp
  have h2 : ∀ (u : RRType) (x ao v v' t' : F), vTwo (vnum t q d u) ((vnum t q d u : F) * x) ao v v' t' =
      (vnum t q d u : F) * x * (ao * v' + v) + t' := by
    intro u x ao v v' t'
    unfold vTwo
    split
    · rfl
    · have := vnum_nonneg hv hd u
      rw [show vnum t q d u = 0 by omega]; simp
  have h3 : ∀ (u : RRType) (x ao v v' t' : F), vTwoG (vnum t q d u) ((vnum t q d u : F) * x) ao v v' t' =
      (vnum t q d u : F) * x * (ao * v' + v) + t' := by
    intro u x ao v v' t'
    unfold vTwoG
    split
    · show (ao * v' + v) * _ + t' = _
      ring
    · have := vnum_nonneg hv hd u
      rw [show vnum t q d u = 0 by omega]; simp
  cases f with
  | seq one =>
    have e0 : ∀ a b c e : F, VOps.fma a b (VOps.mul c e) = a * b + c * e := fun _ _ _ _ => rfl
    simp only [vform, hfac, h1, h2, e0, vrhs]
    ring
  | gen =>
    have e0 : ∀ a b c e : F, VOps.fma a b (VOps.mul c e) = a * b + c * e := fun _ _ _ _ => rfl
    have e1 : ∀ (i : ℤ) (x : F), VOps.mul (VOps.int i) x = (i : F) * x := fun _ _ => rfl
    have e2 : ∀ (i : ℤ) (x : F), VOps.mul x (VOps.int i) = (i : F) * x := fun _ _ => mul_comm _ _
    simp only [vform, e1, e2, h1, h3, e0, vrhs]
    ring

/-- The memory holds exact values for a class. -/
def VGood (ord : ℕ → List Exp) (θ : VFam F) (mr : MReq) (cov : Qrt → Prop) (m : VMem F) (a : QAM) :
    Prop := VGoodP ord (fun n e v => v = θ.at n e) mr cov m a

/-- Exact values are kept. -/
theorem VRRFam.closed {P : VPar F} {θ : VFam F} (hθ : VRRFam P θ) :
    VClosed P fun n e v => v = θ.at n e := by
  intro f t d q n rd hv hm hd h
  rw [vform_ring f P hv hd, hθ.rhs hv hd n]
  refine vrhs_congr hv hd fun j hj n' h1 h2 => h j ?_ n' h1 h2
  rw [Qrt.valid_iff]; exact ⟨hj, by rw [vslot_m, hm]⟩

end

end Simint
