import Verif.Deriv
import Verif.Spec.Deriv
import Verif.FunctionLemmas
import Verif.CoulombDeriv

/-! Lemmas about derivative functions. -/

set_option autoImplicit false

open Real Finset

namespace Simint

/-! ## The classes -/

theorem mem_derivNeeded {q p : QAM} : p ∈ derivNeeded q ↔ ∃ t, t ≠ missingCenter q ∧
    (p = raisedQ q t ∨ ((loweredQ q t).valid = true ∧ p = loweredQ q t)) := by
  unfold derivNeeded
  rw [List.mem_flatMap]
  constructor
  · rintro ⟨t, -, h⟩
    by_cases ht : t = missingCenter q
    · rw [if_pos ht] at h; simp at h
    · rw [if_neg ht] at h
      refine ⟨t, ht, ?_⟩
      by_cases hv : (loweredQ q t).valid = true
      · rw [if_pos hv] at h
        simp only [List.mem_cons, List.not_mem_nil, or_false] at h
        rcases h with h | h
        · exact Or.inl h
        · exact Or.inr ⟨hv, h⟩
      · rw [if_neg hv] at h
        simp only [List.mem_cons, List.not_mem_nil, or_false] at h
        exact Or.inl h
  · rintro ⟨t, ht, h⟩
    refine ⟨t, by cases t <;> simp [centers], ?_⟩
    rw [if_neg ht]
    rcases h with h | ⟨hv, h⟩
    · simp [h]
    · rw [if_pos hv]; simp [h]

theorem setMax_mem : ∀ (l : List QAM) (m : QAM), setMax l m ∈ m :: l
  | [], m => by simp [setMax]
  | q :: r, m => by
    unfold setMax
    have := setMax_mem r (if qamLt m q then q else m)
    split at this <;> rename_i h <;> simp only [h, if_true] <;>
      rcases List.mem_cons.1 this with h' | h' <;> simp [h']

theorem setDirections_ok (ams : List QAM) : ((setDirections ams).1 = .I ∨ (setDirections ams).1 = .J) ∧
    ((setDirections ams).2 = .K ∨ (setDirections ams).2 = .L) := by
  cases ams with
  | nil => simp [setDirections]
  | cons q r => exact hrrDirections_ok _

theorem valid_iff_Valid {q : QAM} : q.valid = true ↔ q.Valid := by
  simp [QAM.valid, QAM.Valid, and_assoc]

theorem exists_not_missing (q : QAM) : ∃ t, t ≠ missingCenter q := by
  by_cases h : missingCenter q = .I
  · exact ⟨.J, by rw [h]; decide⟩
  · exact ⟨.I, fun h' => h h'.symm⟩

theorem DerivClassOK.classes {final : QAM} (hf : DerivClassOK final) :
    ClassesOK (setDirections (derivNeeded final)) (derivNeeded final) (totalL final + 1) := by
  obtain ⟨⟨v1, v2, v3, v4⟩, -, hb, hk⟩ := hf
  have e : totalAM final = totalL final := by unfold totalAM totalL; omega
  refine ⟨(setDirections_ok _).1, (setDirections_ok _).2, ?_, ?_, ?_, ?_⟩
  · intro p hp
    obtain ⟨t, -, rfl | ⟨hv, rfl⟩⟩ := mem_derivNeeded.1 hp
    · cases t <;> simp only [raisedQ, QAM.bump, QAM.Valid] <;> omega
    · exact valid_iff_Valid.1 hv
  · intro p hp
    obtain ⟨t, -, rfl | ⟨hv, rfl⟩⟩ := mem_derivNeeded.1 hp
    · cases t <;> simp only [raisedQ, QAM.bump] <;> omega
    · cases t <;> simp only [loweredQ, QAM.bump] <;> omega
  · intro p hp
    push_cast
    rw [← e]
    obtain ⟨t, -, rfl | ⟨hv, rfl⟩⟩ := mem_derivNeeded.1 hp
    · cases t <;> simp only [raisedQ, QAM.bump, totalAM] <;> omega
    · cases t <;> simp only [loweredQ, QAM.bump, totalAM] <;> omega
  · obtain ⟨t, ht⟩ := exists_not_missing final
    refine ⟨_, mem_derivNeeded.2 ⟨t, ht, Or.inl rfl⟩, ?_⟩
    push_cast
    rw [← e]
    cases t <;> simp only [raisedQ, QAM.bump, totalAM] <;> omega

theorem derivAlgos_ok {g : GenCfg} (hg : g.OK) {final : QAM} (hf : DerivClassOK final) :
    ∃ H A, g.derivAlgos final = some (H, A) ∧
      AlgosOK g (setDirections (derivNeeded final)) (derivNeeded final) (totalL final + 1) H A :=
  algosFor_ok hg hf.classes

/-- There is always a horizontal stage: on the side that does not contain the missing center both
centers are raised, but the classes handed over have a zero on one center. -/
theorem deriv_hasHRR {g : GenCfg} (hg : g.OK) {final : QAM} (hf : DerivClassOK final) {H : HRRAlgo}
    {A : VRRAlgo} (hA : AlgosOK g (setDirections (derivNeeded final)) (derivNeeded final)
      (totalL final + 1) H A) : H.hasHRR = true := by
  by_contra hh
  obtain ⟨v1, v2, v3, v4⟩ := hf.valid
  have hn := (hrrCreate_no_steps hg.Q hA.hcreate hA.hok (by simpa using hh)).2
  have hmem : ∀ t, t ≠ missingCenter final → raisedQ final t ∈ H.top := fun t ht =>
    (hn _).2 (mem_derivNeeded.2 ⟨t, ht, Or.inl rfl⟩)
  by_cases hm : missingCenter final = .I ∨ missingCenter final = .J
  · have h1 := hmem .K (by rcases hm with h | h <;> rw [h] <;> decide)
    have h2 := hmem .L (by rcases hm with h | h <;> rw [h] <;> decide)
    rcases hA.tside' with h | h
    · have := h _ h1; simp only [raisedQ, QAM.bump] at this; omega
    · have := h _ h2; simp only [raisedQ, QAM.bump] at this; omega
  · push Not at hm
    have h1 := hmem .I (Ne.symm hm.1)
    have h2 := hmem .J (Ne.symm hm.2)
    rcases hA.tside with h | h
    · have := h _ h1; simp only [raisedQ, QAM.bump] at this; omega
    · have := h _ h2; simp only [raisedQ, QAM.bump] at this; omega

/-! ## Forming the derivatives -/

/-- Quartet with given components. -/
def qrtOf (e : RRType → Exp) : Qrt := ⟨⟨e .I, e .J⟩, ⟨e .K, e .L⟩, 0⟩

theorem qrt_index_eq {q : QAM} (e : RRType → Exp) (he : ∀ t, IsComp (q.get t).toNat (e t))
    (hq : q.Valid) : ((qrtOf e).index psi4List : ℤ) =
      (cidx psi4List (e .I) : ℤ) * (ncart q.b * ncart q.c * ncart q.d : ℕ) +
      (cidx psi4List (e .J) : ℤ) * (ncart q.c * ncart q.d : ℕ) +
      (cidx psi4List (e .K) : ℤ) * (ncart q.d : ℕ) + (cidx psi4List (e .L) : ℤ) := by
  obtain ⟨v1, v2, v3, v4⟩ := hq
  have e2 : (e .J).am = q.b := by rw [(he .J).am_eq]; simp only [QAM.get]; omega
  have e3 : (e .K).am = q.c := by rw [(he .K).am_eq]; simp only [QAM.get]; omega
  have e4 : (e .L).am = q.d := by rw [(he .L).am_eq]; simp only [QAM.get]; omega
  simp only [qrtOf, Qrt.index, Dbl.index, Dbl.ncart, e2, e3, e4]
  push_cast
  ring

theorem get_bump_self (q : QAM) (n : ℤ) (t : RRType) : (q.bump n t).get t = q.get t + n := by
  cases t <;> simp [QAM.bump, QAM.get]

theorem get_bump_ne (q : QAM) (n : ℤ) {t s : RRType} (h : s ≠ t) : (q.bump n t).get s = q.get s := by
  cases t <;> cases s <;> simp_all [QAM.bump, QAM.get]

theorem get_raised (q : QAM) (t s : RRType) : (raisedQ q t).get s = (q.bump 1 t).get s := by
  cases s <;> rfl

section
variable {F : Type}

/-- Arrays hold the families of their tags. -/
def HoldsFam (ams : List QAM) (m : HMem F) (θ : String → Fam F) : Prop :=
  ∀ q ∈ ams, ∀ a b c d : Exp, a.Valid → b.Valid → c.Valid → d.Valid →
    a.am = q.a → b.am = q.b → c.am = q.c → d.am = q.d →
    m q (Qrt.index psi4List ⟨⟨a, b⟩, ⟨c, d⟩, 0⟩) = θ q.tag a b c d

theorem declRead_ok {decl : List QAM} {ams : List QAM} {m : HMem F} {θ : String → Fam F}
    (hm : HoldsFam ams m θ) (hd : ∀ q ∈ ams, q ∈ decl) {q : QAM} (hq : q ∈ ams) (hv : q.Valid)
    (e : RRType → Exp) (he : ∀ t, IsComp (q.get t).toNat (e t)) :
    declRead decl m q ((qrtOf e).index psi4List : ℤ) =
      some (θ q.tag (e .I) (e .J) (e .K) (e .L)) := by
  obtain ⟨v1, v2, v3, v4⟩ := hv
  have e1 : (e .I).am = q.a := by rw [(he .I).am_eq]; simp only [QAM.get]; omega
  have e2 : (e .J).am = q.b := by rw [(he .J).am_eq]; simp only [QAM.get]; omega
  have e3 : (e .K).am = q.c := by rw [(he .K).am_eq]; simp only [QAM.get]; omega
  have e4 : (e .L).am = q.d := by rw [(he .L).am_eq]; simp only [QAM.get]; omega
  have hqv : (qrtOf e).Valid :=
    ⟨⟨(he .I).valid, (he .J).valid⟩, ⟨(he .K).valid, (he .L).valid⟩, le_rfl⟩
  have hlt : (qrtOf e).index psi4List < ncartQ (qrtOf e).am4 := Qrt.index_lt psi4_ordOK hqv
  have hn : ncartQ (qrtOf e).am4 = ncartQ q := by
    simp only [ncartQ, Qrt.am4, qrtOf, e1, e2, e3, e4]
  rw [hn] at hlt
  unfold declRead
  rw [if_pos ⟨hd q hq, by positivity, by exact_mod_cast hlt⟩, Int.toNat_natCast]
  rw [← hm q hq _ _ _ _ (he .I).valid (he .J).valid (he .K).valid (he .L).valid e1 e2 e3 e4]
  rfl

theorem isComp_update {q : QAM} {n : ℤ} {t : RRType} {e : RRType → Exp} {i : Dir} (hq : q.Valid)
    (he : ∀ s, IsComp (q.get s).toNat (e s)) (h0 : 0 ≤ (e t).get i + n) (s : RRType) :
    IsComp ((q.bump n t).get s).toNat (Function.update e t ((e t).step i n) s) := by
  have hnn : 0 ≤ q.get t := by
    obtain ⟨v1, v2, v3, v4⟩ := hq
    cases t <;> assumption
  by_cases hs : s = t
  · subst hs
    rw [Function.update_self, get_bump_self, isComp_step (he s) i n]
    · exact h0
    · have := (he s).valid.get_le_am i
      rw [(he s).am_eq] at this
      omega
  · rw [Function.update_of_ne hs, get_bump_ne _ _ hs]
    exact he s

theorem fullIdx_eq {q : QAM} {e : RRType → Exp} {t : RRType} {f : Exp}
    (he : ∀ s, IsComp (q.get s).toNat (Function.update e t f s)) (hq : q.Valid) (n : RRType → ℕ)
    (hn : ∀ s, n s = cidx psi4List (e s)) :
    fullIdx q n t (cidx psi4List f) = ((qrtOf (Function.update e t f)).index psi4List : ℤ) := by
  rw [qrt_index_eq _ he hq]
  unfold fullIdx
  simp only [hn]
  cases t <;> simp [Function.update]

/-- What is stored for center `t`, direction `i`. -/
def stepVal (ops : FormOps F) (up : RRType → Fam F) (down : Fam F) (e : RRType → Exp) (t : RRType) (i : Dir) : F :=
  let at_ (f : Fam F) (n : ℤ) : F :=
    let e' := Function.update e t ((e t).step i n)
    f (e' .I) (e' .J) (e' .K) (e' .L)
  if 0 < (e t).get i then ops.sub t i (at_ (up t) 1) ((e t).get i) (at_ down (-1)) else at_ (up t) 1

theorem stepVal_exact {F : Type} [Field F] (up : RRType → Fam F) (down : Fam F) {e : RRType → Exp} {t : RRType}
    (he : (e t).Valid) (i : Dir) : stepVal .exact up down e t i = raiseLower up down e t i := by
  have hx := (Exp.valid_iff _).1 he i
  unfold stepVal raiseLower
  simp only [FormOps.exact]
  split_ifs with h
  · rfl
  · have hz : (e t).get i = 0 := by omega
    simp [hz]

theorem centerVal_ok (ops : FormOps F) {decl : List QAM} {final : QAM} (hf : DerivClassOK final) {m : HMem F}
    {θ : String → Fam F} (hm : HoldsFam (derivNeeded final) m θ)
    (hd : ∀ q ∈ derivNeeded final, q ∈ decl) {e : RRType → Exp}
    (he : ∀ s, IsComp (final.get s).toNat (e s)) {n : RRType → ℕ}
    (hn : ∀ s, n s = cidx psi4List (e s)) {t : RRType} (ht : t ≠ missingCenter final) (i : Dir) :
    centerVal ops decl final m n t i =
      some (stepVal ops (fun t => θ (centerTag t)) (θ "") e t i) := by
  have hnn : 0 ≤ final.get t := by
    obtain ⟨v1, v2, v3, v4⟩ := hf.valid
    cases t <;> assumption
  have h18 : (final.get t).toNat ≤ 18 := by
    obtain ⟨v1, v2, v3, v4⟩ := hf.valid
    have := hf.bra; have := hf.ket
    cases t <;> simp only [QAM.get] <;> omega
  obtain ⟨hi, hg⟩ := psi4_getElem_cidx (he t)
  obtain ⟨r, h1, h2, h3, -, h5, -, h7⟩ := recAt_psi4 h18 hi
  simp only [hg] at h2 h3 h5 h7
  have hx := (Exp.valid_iff _).1 (he t).valid i
  have up := isComp_update (n := 1) (i := i) (t := t) hf.valid he (by omega)
  have upQ : (raisedQ final t) ∈ derivNeeded final := mem_derivNeeded.2 ⟨t, ht, Or.inl rfl⟩
  have upV := hf.classes.valid _ upQ
  unfold centerVal
  rw [hn t, h1, Option.bind_some, h5]
  rw [fullIdx_eq (q := raisedQ final t) (e := e) (fun s => by rw [get_raised]; exact up s) upV n hn,
    declRead_ok hm hd upQ upV _ (fun s => by rw [get_raised]; exact up s), Option.bind_some]
  have etag : (raisedQ final t).tag = centerTag t := rfl
  rw [etag]
  by_cases h0 : 0 < (e t).get i
  · have hle := (he t).valid.get_le_am i
    rw [(he t).am_eq] at hle
    have hm1 : 0 ≤ r.m1 i := by rw [h2 i h0]; positivity
    rw [if_pos ⟨by omega, hm1⟩, h2 i h0]
    have dn := isComp_update (n := -1) (i := i) (t := t) hf.valid he (by omega)
    have dv : (loweredQ final t).Valid := by
      obtain ⟨v1, v2, v3, v4⟩ := hf.valid
      cases t <;> simp only [QAM.get] at hle hnn <;> simp only [loweredQ, QAM.bump, QAM.Valid] <;> omega
    have dnQ : loweredQ final t ∈ derivNeeded final :=
      mem_derivNeeded.2 ⟨t, ht, Or.inr ⟨valid_of_Valid dv, rfl⟩⟩
    rw [fullIdx_eq (q := loweredQ final t) (e := e) dn dv n hn, declRead_ok hm hd dnQ dv _ dn]
    have etag : (loweredQ final t).tag = "" := by rw [← hf.tag]; cases t <;> rfl
    rw [etag, h7, Option.map_some]
    simp only [stepVal, if_pos h0]
  · have hz : (e t).get i = 0 := by omega
    rw [if_neg]
    · simp only [stepVal, if_neg h0]
    · rintro ⟨-, h⟩
      rw [h3, if_neg] at h
      · omega
      · intro hv
        rw [Exp.valid_step_iff _ _ _ (he t).valid] at hv
        omega

/-- The value the block has to hold. -/
def derivVal (ops : FormOps F) (final : QAM) (θ : String → Fam F) (e : RRType → Exp) (t : RRType) (i : Dir) : F :=
  if t = missingCenter final then
    ops.neg ((centers.filter fun s => s ≠ missingCenter final).map fun s =>
      stepVal ops (fun t => θ (centerTag t)) (θ "") e s i)
  else stepVal ops (fun t => θ (centerTag t)) (θ "") e t i

theorem mapM_some {α β : Type} {f : α → Option β} {g : α → β} : ∀ {l : List α},
    (∀ x ∈ l, f x = some (g x)) → l.mapM f = some (l.map g)
  | [], _ => rfl
  | x :: l, h => by
    rw [List.mapM_cons, h x (by simp), mapM_some (fun y hy => h y (by simp [hy]))]
    rfl

def blockOrder : List (RRType × Dir) := centers.flatMap fun t => dirs.map fun d => (t, d)

theorem formBody_ok (ops : FormOps F) {decl : List QAM} {final : QAM} (hf : DerivClassOK final) {m : HMem F}
    {θ : String → Fam F} (hm : HoldsFam (derivNeeded final) m θ)
    (hd : ∀ q ∈ derivNeeded final, q ∈ decl) {x y z w : Exp}
    (he : ∀ s, IsComp (final.get s).toNat (comps x y z w s)) :
    formBody ops decl final m (cidx psi4List x) (cidx psi4List y) (cidx psi4List z) (cidx psi4List w) =
      some (blockOrder.map fun p => derivVal ops final θ (comps x y z w) p.1 p.2) := by
  unfold formBody
  have hn : ∀ s, loopIdx (cidx psi4List x) (cidx psi4List y) (cidx psi4List z) (cidx psi4List w) s =
      cidx psi4List (comps x y z w s) := by
    intro s; cases s <;> rfl
  refine mapM_some fun p _ => ?_
  unfold derivVal
  by_cases hp : p.1 = missingCenter final
  · rw [if_pos hp, if_pos hp]
    unfold missingVal
    simp only
    rw [mapM_some (g := fun s => stepVal ops (fun t => θ (centerTag t)) (θ "") (comps x y z w) s p.2)]
    · rfl
    · intro s hs
      simp only [List.mem_filter, decide_eq_true_eq] at hs
      exact centerVal_ok ops hf hm hd he hn hs.2 p.2
  · rw [if_neg hp, if_neg hp]
    exact centerVal_ok ops hf hm hd he hn hp p.2

/-- All values in output order. -/
def derivBlock (ops : FormOps F) (final : QAM) (θ : String → Fam F) : List F :=
  (psi4List final.a.toNat).flatMap fun x => (psi4List final.b.toNat).flatMap fun y =>
    (psi4List final.c.toNat).flatMap fun z => (psi4List final.d.toNat).flatMap fun w =>
      blockOrder.map fun p => derivVal ops final θ (comps x y z w) p.1 p.2

theorem psi4_length' {a : ℤ} (h : 0 ≤ a) : (psi4List a.toNat).length = ncart a := by
  rw [psi4_length, nc_eq]; congr 1; omega

theorem formDeriv_ok (ops : FormOps F) {decl : List QAM} {final : QAM} (hf : DerivClassOK final) {m : HMem F}
    {θ : String → Fam F} (hm : HoldsFam (derivNeeded final) m θ)
    (hd : ∀ q ∈ derivNeeded final, q ∈ decl) :
    formDeriv ops decl final m = some (derivBlock ops final θ) := by
  obtain ⟨v1, v2, v3, v4⟩ := hf.valid
  unfold formDeriv derivBlock
  refine forEach_eq (psi4_length' v1) fun n1 h1 => ?_
  refine forEach_eq (psi4_length' v2) fun n2 h2 => ?_
  refine forEach_eq (psi4_length' v3) fun n3 h3 => ?_
  refine forEach_eq (psi4_length' v4) fun n4 h4 => ?_
  obtain ⟨c1, i1⟩ := cidx_psi4_getElem h1
  obtain ⟨c2, i2⟩ := cidx_psi4_getElem h2
  obtain ⟨c3, i3⟩ := cidx_psi4_getElem h3
  obtain ⟨c4, i4⟩ := cidx_psi4_getElem h4
  have := formBody_ok ops hf hm hd (x := (psi4List final.a.toNat)[n1]) (y := (psi4List final.b.toNat)[n2])
    (z := (psi4List final.c.toNat)[n3]) (w := (psi4List final.d.toNat)[n4])
    (fun s => by cases s <;> assumption)
  rw [i1, i2, i3, i4] at this
  exact this

theorem blockOrder_length : blockOrder.length = 12 := by decide

theorem blockOrder_get (t : RRType) (i : Dir) : blockOrder[3 * t.idx + i.idx]? = some (t, i) := by
  cases t <;> cases i <;> rfl

theorem derivBlock_length (ops : FormOps F) {final : QAM} (hv : final.Valid) (θ : String → Fam F) :
    (derivBlock ops final θ).length = 12 * ncartQ final := by
  obtain ⟨v1, v2, v3, v4⟩ := hv
  unfold derivBlock
  rw [flatMap_length_const (n := ncart final.b * (ncart final.c * (ncart final.d * 12))),
    psi4_length' v1]
  · unfold ncartQ; ring
  · intro x _
    rw [flatMap_length_const (n := ncart final.c * (ncart final.d * 12)), psi4_length' v2]
    intro y _
    rw [flatMap_length_const (n := ncart final.d * 12), psi4_length' v3]
    intro z _
    rw [flatMap_length_const (n := 12), psi4_length' v4]
    intro w _
    rw [List.length_map, blockOrder_length]

theorem derivBlock_get (ops : FormOps F) {final : QAM} (hv : final.Valid) (θ : String → Fam F) {x y z w : Exp}
    (he : ∀ s, IsComp (final.get s).toNat (comps x y z w s)) (t : RRType) (i : Dir) :
    (derivBlock ops final θ)[12 * Qrt.index psi4List ⟨⟨x, y⟩, ⟨z, w⟩, 0⟩ + (3 * t.idx + i.idx)]? =
      some (derivVal ops final θ (comps x y z w) t i) := by
  have hidx := qrt_index_eq (q := final) (comps x y z w) he hv
  obtain ⟨v1, v2, v3, v4⟩ := hv
  obtain ⟨l1, g1⟩ := psi4_getElem_cidx (he .I)
  obtain ⟨l2, g2⟩ := psi4_getElem_cidx (he .J)
  obtain ⟨l3, g3⟩ := psi4_getElem_cidx (he .K)
  obtain ⟨l4, g4⟩ := psi4_getElem_cidx (he .L)
  have hk : 3 * t.idx + i.idx < 12 := by cases t <;> cases i <;> decide
  have hidx' : Qrt.index psi4List ⟨⟨x, y⟩, ⟨z, w⟩, 0⟩ =
      cidx psi4List x * (ncart final.b * ncart final.c * ncart final.d) +
      cidx psi4List y * (ncart final.c * ncart final.d) + cidx psi4List z * ncart final.d +
      cidx psi4List w := by
    have : (Qrt.index psi4List (qrtOf (comps x y z w)) : ℤ) = ((cidx psi4List x *
        (ncart final.b * ncart final.c * ncart final.d) +
      cidx psi4List y * (ncart final.c * ncart final.d) + cidx psi4List z * ncart final.d +
      cidx psi4List w : ℕ) : ℤ) := by rw [hidx]; push_cast; rfl
    exact_mod_cast this
  simp only [QAM.get, comps] at l1 l2 l3 l4 g1 g2 g3 g4
  have b4 := l4; have b3 := l3; have b2 := l2
  rw [psi4_length' v4] at b4
  rw [psi4_length' v3] at b3
  rw [psi4_length' v2] at b2
  have k4 : cidx psi4List w * 12 + (3 * t.idx + i.idx) < ncart final.d * 12 := by
    have : (cidx psi4List w + 1) * 12 ≤ ncart final.d * 12 := Nat.mul_le_mul_right _ b4
    omega
  have k3 : cidx psi4List z * (ncart final.d * 12) + (cidx psi4List w * 12 + (3 * t.idx + i.idx)) <
      ncart final.c * (ncart final.d * 12) := mix_lt b3 k4
  have k2 : cidx psi4List y * (ncart final.c * (ncart final.d * 12)) +
      (cidx psi4List z * (ncart final.d * 12) + (cidx psi4List w * 12 + (3 * t.idx + i.idx))) <
      ncart final.b * (ncart final.c * (ncart final.d * 12)) := mix_lt b2 k3
  have hpos : 12 * Qrt.index psi4List ⟨⟨x, y⟩, ⟨z, w⟩, 0⟩ + (3 * t.idx + i.idx) =
      cidx psi4List x * (ncart final.b * (ncart final.c * (ncart final.d * 12))) +
      (cidx psi4List y * (ncart final.c * (ncart final.d * 12)) +
      (cidx psi4List z * (ncart final.d * 12) + (cidx psi4List w * 12 + (3 * t.idx + i.idx)))) := by
    rw [hidx']; ring
  rw [hpos]
  unfold derivBlock
  rw [flatMap_get (n := ncart final.b * (ncart final.c * (ncart final.d * 12))) ?_ l1 k2,
    flatMap_get (n := ncart final.c * (ncart final.d * 12)) ?_ l2 k3,
    flatMap_get (n := ncart final.d * 12) ?_ l3 k4,
    flatMap_get (n := 12) ?_ l4 hk, g1, g2, g3, g4, List.getElem?_map, blockOrder_get]
  · rfl
  · intro w _
    rw [List.length_map, blockOrder_length]
  · intro z _
    rw [flatMap_length_const (n := 12), psi4_length' v4]
    intro w _
    rw [List.length_map, blockOrder_length]
  · intro y _
    rw [flatMap_length_const (n := ncart final.d * 12), psi4_length' v3]
    intro z _
    rw [flatMap_length_const (n := 12), psi4_length' v4]
    intro w _
    rw [List.length_map, blockOrder_length]
  · intro x _
    rw [flatMap_length_const (n := ncart final.c * (ncart final.d * 12)), psi4_length' v2]
    intro y _
    rw [flatMap_length_const (n := ncart final.d * 12), psi4_length' v3]
    intro z _
    rw [flatMap_length_const (n := 12), psi4_length' v4]
    intro w _
    rw [List.length_map, blockOrder_length]

end

/-! ## Primitive values with factors -/

/-- Factor of a class: one without tag. -/
noncomputable def tagFac (c : DerivCall ℝ) (tag : String) (i j : ℕ) : ℝ :=
  if tag = "" then 1 else c.cfac tag i j

noncomputable def derivPrim (c : DerivCall ℝ) (i j : ℕ) (pf : ℝ) (t : QAM) (k : ℕ) : ℝ :=
  tagFac c t.tag i j * genPrim c.P c.Q i j pf t.notag k

theorem derivEnv_laneWise {g : GenCfg} {final : QAM} {H : HRRAlgo} {A : VRRAlgo}
    {dir : RRType × RRType} {ams : List QAM} (hA : AlgosOK g dir ams (totalL final + 1) H A)
    (c : DerivCall ℝ) (hp : ∀ i < c.P.alloc, 0 < c.P.alpha i) (hq : ∀ j < c.Q.alloc, 0 < c.Q.alpha j) :
    LaneWise (derivEnv g realOps final c H A) (derivPrim c) := by
  refine ⟨?_, fun i j t k => by simp [derivPrim, genPrim_zero]⟩
  intro i j pf hi _ hj
  obtain ⟨src, e, h⟩ := vecStage_ok hA c.toCall hp hq i j pf hi hj
  refine ⟨_, by
    show derivVec g realOps A (totalL final + 1) c i j pf = _
    unfold derivVec
    rw [e]; rfl, fun n hn t ht k hk => ?_⟩
  have ht' : t ∈ H.top := by simpa [derivEnv] using ht
  have := h n hn t ht' k hk
  unfold derivPrim tagFac
  beta_reduce
  by_cases htag : t.tag = ""
  · rw [if_pos htag, if_pos htag, one_mul, ← this, notag_eq htag]
  · rw [if_neg htag, if_neg htag, this]

theorem contractedPair_deriv {g : GenCfg} {final : QAM} {H : HRRAlgo} {A : VRRAlgo} {c : DerivCall ℝ}
    {S T : ℕ → ShellPair} (hS : Holds c.P (tightStart c.P.nprim12) S)
    (hT : Holds c.Q (paddedStart c.len c.Q.nprim12) T) {ab cd : ℕ} (hab : ab < c.P.nclip)
    (hcd : cd < c.Q.nclip) {q : Qrt} (hq : q.Valid) {t : QAM} (ht : t.notag = q.am4) :
    contractedPair (derivEnv g realOps final c H A) (derivPrim c) ab cd t (q.index psi4List) =
      weightedERI c.toCall (tagFac c t.tag) (tightStart c.P.nprim12 ab)
        (paddedStart c.len c.Q.nprim12 cd) (S ab) (T cd)
        q.bra.left q.bra.right q.ket.left q.ket.right := by
  unfold contractedPair contracted weightedERI
  show ∑ a ∈ range (c.P.nprim12 ab), ∑ b ∈ range (c.Q.nprim12 cd), _ = _
  rw [hS.count ab hab, hT.count cd hcd, Finset.sum_range]
  refine Finset.sum_congr rfl fun k _ => ?_
  rw [Finset.sum_range]
  refine Finset.sum_congr rfl fun l _ => ?_
  have e := genPrim_coulomb (hS.prims ab hab k k.2) (hT.prims cd hcd l l.2) hq
  show (if c.toCall.Kept (tightStart c.P.nprim12 ab + k) (paddedStart c.len c.Q.nprim12 cd + l) then
    tagFac c t.tag (tightStart c.P.nprim12 ab + k) (paddedStart c.len c.Q.nprim12 cd + l) *
    genPrim c.P c.Q (tightStart c.P.nprim12 ab + k) (paddedStart c.len c.Q.nprim12 cd + l)
      (c.Q.prefac (paddedStart c.len c.Q.nprim12 cd + l)) t.notag (q.index psi4List) else 0) = _
  rw [ht, e]
  rfl

theorem weightedERI_hrr (c : Call ℝ) (w : ℕ → ℕ → ℝ) (i0 j0 : ℕ) (S T : ShellPair) :
    HRRFam (fun i => S.A i - S.B i) (fun i => T.A i - T.B i) (weightedERI c w i0 j0 S T) := by
  unfold weightedERI
  refine HRRFam.sum _ fun k _ => HRRFam.sum _ fun l _ => HRRFam.ite _ (HRRFam.smul _ (HRRFam.smul _ ?_))
  exact coulomb_hrr (S.prims[k]).hα (S.prims[k]).hβ (T.prims[l]).hα (T.prims[l]).hβ _ _ _ _

/-- The families the arrays hold. -/
noncomputable def derivFam (c : DerivCall ℝ) (S T : ℕ → ShellPair) (ab cd : ℕ) (tag : String) : Fam ℝ :=
  weightedERI c.toCall (tagFac c tag) (tightStart c.P.nprim12 ab)
    (paddedStart c.len c.Q.nprim12 cd) (S ab) (T cd)

theorem hrrOn_deriv {g : GenCfg} (hg : g.OK) {final : QAM} (hf : DerivClassOK final) {H : HRRAlgo}
    {A : VRRAlgo} (hA : AlgosOK g (setDirections (derivNeeded final)) (derivNeeded final)
      (totalL final + 1) H A) {c : DerivCall ℝ} {S T : ℕ → ShellPair}
    (hS : Holds c.P (tightStart c.P.nprim12) S)
    (hT : Holds c.Q (paddedStart c.len c.Q.nprim12) T) :
    HrrOn (derivEnv g realOps final c H A) (derivHrr g final c H) final
      (contractedPair (derivEnv g realOps final c H A) (derivPrim c))
      (fun ab cd k => (derivBlock .exact final (derivFam c S T ab cd)).getD k 0) := by
  intro ab hab cd hcd view hview
  obtain ⟨H', e', key⟩ := C11_mixed_exact (R := ℝ) hg.D hg.Q hf.classes.hb hf.classes.hk
    g.he g.hg (ams := derivNeeded final) hf.classes.valid hf.classes.h18
  rw [hA.hcreate, Option.some.injEq] at e'
  subst e'
  obtain ⟨m', r, hm⟩ := key (fun d => c.P.AB d ab) (fun d => c.Q.AB d cd)
    (derivFam c S T ab cd)
    (fun _ => by
      have e1 : (fun d => c.P.AB d ab) = fun d => (S ab).A d - (S ab).B d :=
        funext fun d => hS.AB ab hab d
      have e2 : (fun d => c.Q.AB d cd) = fun d => (T cd).A d - (T cd).B d :=
        funext fun d => hT.AB cd hcd d
      rw [e1, e2]
      exact weightedERI_hrr _ _ _ _ _ _)
    view (by
      intro q hq a b c' d ha hb hc hd ea eb ec ed
      set Z : Qrt := ⟨⟨a, b⟩, ⟨c', d⟩, 0⟩ with hZ
      have hv : Z.Valid := ⟨⟨ha, hb⟩, ⟨hc, hd⟩, le_rfl⟩
      have et : q.notag = Z.am4 := by
        obtain ⟨a', b', c', d', tag⟩ := q
        simp only at ea eb ec ed
        simp only [hZ, Qrt.am4, QAM.notag, ea, eb, ec, ed]
      have hlt : Z.index psi4List < ncartQ q := by
        have := Qrt.index_lt psi4_ordOK hv
        have e2 : ncartQ q = ncartQ q.notag := rfl
        rw [e2, et]
        exact this
      rw [hview q (by simpa [derivEnv] using hq) _ hlt, contractedPair_deriv hS hT hab hcd hv et]
      rfl)
  have hform := formDeriv_ok .exact (decl := H.top ++ H.order) hf (m := m') (θ := derivFam c S T ab cd) hm
    (fun q hq => List.mem_append.2 (hA.hok.req q hq))
  refine ⟨_, by
    show ((runHRRM psi4List g.enumD g.he g.hg H (fun d => c.P.AB d ab) (fun d => c.Q.AB d cd) H.order
      view).bind _) = _
    rw [r, Option.bind_some, hform, Option.map_some], ?_⟩
  intro k hk
  have hk' : k < (derivBlock .exact final (derivFam c S T ab cd)).length := by
    rw [derivBlock_length .exact hf.valid]; exact hk
  simp only [if_true]
  rw [List.getD_eq_getElem _ _ hk', List.getD_eq_getElem _ _ hk']

/-! ## Derivatives of the sums -/

/-- Twice the exponent that belongs to a center. -/
noncomputable def expFac (x y : PrimPair) : RRType → ℝ
  | .I => 2 * x.α
  | .J => 2 * x.β
  | .K => 2 * y.α
  | .L => 2 * y.β

/-- Derivative of the integral of four primitives. -/
noncomputable def dCoul (S T : ShellPair) (x y : PrimPair) (e : RRType → Exp) (t : RRType) (i : Dir) : ℝ :=
  raiseLower (fun s a b c d => expFac x y s * coulomb x.α x.β y.α y.β S.A S.B T.A T.B a b c d)
    (coulomb x.α x.β y.α y.β S.A S.B T.A T.B) e t i

theorem dCoul_hasDerivAt (S T : ShellPair) (x y : PrimPair) {a b c d : Exp} (ha : a.Valid) (hb : b.Valid)
    (hc : c.Valid) (hd : d.Valid) (t : RRType) (i : Dir) :
    HasDerivAt (fun v => coulomb x.α x.β y.α y.β (moveCenter S T t i v).1.A (moveCenter S T t i v).1.B
        (moveCenter S T t i v).2.A (moveCenter S T t i v).2.B a b c d)
      (dCoul S T x y (comps a b c d) t i) (centerOf S T t i) := by
  cases t
  · exact coulomb_hasDerivAt_1 x.hα x.hβ y.hα y.hβ S.A S.B T.A T.B a b c d i ((Exp.valid_iff _).1 ha i)
  · exact coulomb_hasDerivAt_2 x.hα x.hβ y.hα y.hβ S.A S.B T.A T.B a b c d i ((Exp.valid_iff _).1 hb i)
  · exact coulomb_hasDerivAt_3 x.hα x.hβ y.hα y.hβ S.A S.B T.A T.B a b c d i ((Exp.valid_iff _).1 hc i)
  · exact coulomb_hasDerivAt_4 x.hα x.hβ y.hα y.hβ S.A S.B T.A T.B a b c d i ((Exp.valid_iff _).1 hd i)

theorem dCoul_sum (S T : ShellPair) (x y : PrimPair) {a b c d : Exp} (ha : a.Valid) (hb : b.Valid)
    (hc : c.Valid) (hd : d.Valid) (i : Dir) :
    dCoul S T x y (comps a b c d) .I i + dCoul S T x y (comps a b c d) .J i +
      dCoul S T x y (comps a b c d) .K i + dCoul S T x y (comps a b c d) .L i = 0 :=
  coulomb_trans x.hα x.hβ y.hα y.hβ S.A S.B T.A T.B a b c d i ha hb hc hd

/-- Sum of the derivatives over the pairs of primitives that pass the screening. -/
noncomputable def screenedD (call : Call ℝ) (i0 j0 : ℕ) (S T : ShellPair) (e : RRType → Exp)
    (t : RRType) (i : Dir) : ℝ :=
  ∑ k : Fin S.prims.length, ∑ l : Fin T.prims.length,
    if call.Kept (i0 + k) (j0 + l) then
      S.prims[k].coef * T.prims[l].coef * dCoul S T S.prims[k] T.prims[l] e t i
    else 0

theorem screenedD_hasDerivAt (call : Call ℝ) (i0 j0 : ℕ) (S T : ShellPair) {a b c d : Exp}
    (ha : a.Valid) (hb : b.Valid) (hc : c.Valid) (hd : d.Valid) (t : RRType) (i : Dir) :
    HasDerivAt (fun v => screenedERI call i0 j0 (moveCenter S T t i v).1 (moveCenter S T t i v).2 a b c d)
      (screenedD call i0 j0 S T (comps a b c d) t i) (centerOf S T t i) := by
  have e : (fun v => screenedERI call i0 j0 (moveCenter S T t i v).1 (moveCenter S T t i v).2 a b c d) =
      fun v => ∑ k : Fin S.prims.length, ∑ l : Fin T.prims.length,
        if call.Kept (i0 + k) (j0 + l) then
          S.prims[k].coef * T.prims[l].coef *
          coulomb S.prims[k].α S.prims[k].β T.prims[l].α T.prims[l].β (moveCenter S T t i v).1.A
            (moveCenter S T t i v).1.B (moveCenter S T t i v).2.A (moveCenter S T t i v).2.B a b c d
        else 0 := by
    funext v
    cases t <;> rfl
  rw [e]
  refine HasDerivAt.fun_sum fun k _ => HasDerivAt.fun_sum fun l _ => ?_
  by_cases hk : call.Kept (i0 + k) (j0 + l)
  · simp only [hk, if_true]
    exact (dCoul_hasDerivAt S T _ _ ha hb hc hd t i).const_mul _
  · simp only [hk, if_false]
    exact hasDerivAt_const _ _

theorem screenedD_sum (call : Call ℝ) (i0 j0 : ℕ) (S T : ShellPair) {a b c d : Exp}
    (ha : a.Valid) (hb : b.Valid) (hc : c.Valid) (hd : d.Valid) (i : Dir) :
    screenedD call i0 j0 S T (comps a b c d) .I i + screenedD call i0 j0 S T (comps a b c d) .J i +
      screenedD call i0 j0 S T (comps a b c d) .K i + screenedD call i0 j0 S T (comps a b c d) .L i = 0 := by
  unfold screenedD
  simp only [← Finset.sum_add_distrib]
  refine Finset.sum_eq_zero fun k _ => Finset.sum_eq_zero fun l _ => ?_
  split
  · have := dCoul_sum S T S.prims[k] T.prims[l] ha hb hc hd i
    linear_combination S.prims[k].coef * T.prims[l].coef * this
  · simp

theorem centerTag_ne (t : RRType) : centerTag t ≠ "" := by cases t <;> decide

theorem cfac_centerTag {F : Type} [Field F] (c : DerivCall F) (t : RRType) (i j : ℕ) :
    c.cfac (centerTag t) i j = match t with
      | .I => c.alpha2P i
      | .J => c.beta2P i
      | .K => c.alpha2Q j
      | .L => c.beta2Q j := by
  cases t <;> rfl

theorem raiseLower_eq {c : DerivCall ℝ} {S T : ℕ → ShellPair}
    (hP : HoldsExps c.P c.alpha2P c.beta2P (tightStart c.P.nprim12) S)
    (hQ : HoldsExps c.Q c.alpha2Q c.beta2Q (paddedStart c.len c.Q.nprim12) T) {ab cd : ℕ}
    (hab : ab < c.P.nclip) (hcd : cd < c.Q.nclip) (e : RRType → Exp) (t : RRType) (i : Dir) :
    raiseLower (fun s => derivFam c S T ab cd (centerTag s)) (derivFam c S T ab cd "") e t i =
      screenedD c.toCall (tightStart c.P.nprim12 ab) (paddedStart c.len c.Q.nprim12 cd) (S ab) (T cd)
        e t i := by
  unfold raiseLower derivFam weightedERI screenedD
  simp only
  rw [Finset.mul_sum, ← Finset.sum_sub_distrib]
  refine Finset.sum_congr rfl fun k _ => ?_
  rw [Finset.mul_sum, ← Finset.sum_sub_distrib]
  refine Finset.sum_congr rfl fun l _ => ?_
  have hw : tagFac c (centerTag t) (tightStart c.P.nprim12 ab + k)
      (paddedStart c.len c.Q.nprim12 cd + l) = expFac (S ab).prims[k] (T cd).prims[l] t := by
    have h1 := hP.a ab hab k k.2
    have h2 := hP.b ab hab k k.2
    have h3 := hQ.a cd hcd l l.2
    have h4 := hQ.b cd hcd l l.2
    unfold tagFac
    rw [if_neg (centerTag_ne t)]
    rw [cfac_centerTag]
    cases t
    · exact h1
    · exact h2
    · exact h3
    · exact h4
  have h0 : tagFac c "" (tightStart c.P.nprim12 ab + k) (paddedStart c.len c.Q.nprim12 cd + l) = 1 := by
    unfold tagFac; rw [if_pos rfl]
  rw [hw, h0]
  split
  · unfold dCoul raiseLower
    simp only
    ring
  · ring

/-- Value in the output block: the derivative, also for the missing center. -/
theorem derivVal_eq {c : DerivCall ℝ} {S T : ℕ → ShellPair}
    (hP : HoldsExps c.P c.alpha2P c.beta2P (tightStart c.P.nprim12) S)
    (hQ : HoldsExps c.Q c.alpha2Q c.beta2Q (paddedStart c.len c.Q.nprim12) T) {ab cd : ℕ}
    (hab : ab < c.P.nclip) (hcd : cd < c.Q.nclip) (final : QAM) {x y z w : Exp} (hx : x.Valid)
    (hy : y.Valid) (hz : z.Valid) (hw : w.Valid) (t : RRType) (i : Dir) :
    derivVal .exact final (derivFam c S T ab cd) (comps x y z w) t i =
      screenedD c.toCall (tightStart c.P.nprim12 ab) (paddedStart c.len c.Q.nprim12 cd) (S ab) (T cd)
        (comps x y z w) t i := by
  have hv : ∀ s, (comps x y z w s).Valid := fun s => by cases s <;> assumption
  unfold derivVal
  simp only [stepVal_exact _ _ (hv _), raiseLower_eq hP hQ hab hcd]
  simp only [FormOps.exact]
  split
  · rename_i h
    rw [← h]
    have := screenedD_sum c.toCall (tightStart c.P.nprim12 ab) (paddedStart c.len c.Q.nprim12 cd)
      (S ab) (T cd) hx hy hz hw i
    cases t <;> simp [centers, List.filter] <;> linarith
  · rfl

end Simint
