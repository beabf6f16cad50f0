import Verif.HRRLemmas

/-! The class order computed by `AMOrder_AddWithDependencies_`. -/

set_option autoImplicit false

namespace Simint

variable {bra ket : Side} {ib ik : List (ℤ × ℤ)} {N : ℤ}

theorem SideOK.allam_pos {init : List (ℤ × ℤ)} {S : Side} (h : SideOK init S) {p : ℤ × ℤ}
    (hp : p ∈ S.allam) : 0 < steppedAM S.type p := by
  obtain ⟨d, hd, rfl⟩ := List.mem_map.1 hp
  exact (h.sv d hd).2

theorem SideOK.mem_req {init : List (ℤ × ℤ)} {S : Side} (h : SideOK init S) {p r : ℤ × ℤ}
    (hr : r ∈ S.req p) : 0 ≤ r.1 ∧ 0 ≤ r.2 ∧ steppedAM S.type r = steppedAM S.type p - 1 ∧
    (r ∈ S.allam ∨ steppedAM S.type r = 0) ∧ r.1 + r.2 ≤ p.1 + p.2 := by
  simp only [Side.req, List.mem_dedup, List.mem_flatMap, Side.stepsFor, List.mem_filter,
    decide_eq_true_eq] at hr
  obtain ⟨s, ⟨hs, hp⟩, hr⟩ := hr
  obtain ⟨h1, h2⟩ := h.ste s hs
  obtain ⟨h3, h4⟩ := h.sv _ h1
  rw [← stepped_am] at h4
  obtain ⟨s', h5, h6, -, hl, hr'⟩ := doubletStep_spec h3 h4
  rw [h2, Option.some.injEq] at h5
  subst h5
  subst hp
  have hsum : s.src0.am2.1 + s.src0.am2.2 ≤ s.target.am2.1 + s.target.am2.2 ∧
      s.src1.am2.1 + s.src1.am2.2 ≤ s.target.am2.1 + s.target.am2.2 := by
    cases hty : S.type.isLeft
    · obtain ⟨e0, e1⟩ := hr' hty
      rw [e0, e1]; simp only [Dbl.am2, Exp.am_step]; omega
    · obtain ⟨e0, e1⟩ := hl hty
      rw [e0, e1]; simp only [Dbl.am2, Exp.am_step]; omega
  simp only [List.mem_cons, List.not_mem_nil, or_false] at hr
  have hc : ∀ d, (d = s.src0 ∨ d = s.src1) → d.am2 ∈ S.allam ∨ steppedAM S.type d.am2 = 0 := by
    intro d hd
    rcases (h.cl s hs d hd).2 with h | h
    · exact Or.inl (List.mem_map_of_mem h)
    · exact Or.inr h
  rcases hr with rfl | rfl
  · exact ⟨h6.v0.1.am_nonneg, h6.v0.2.am_nonneg, h6.a0, hc _ (Or.inl rfl), hsum.1⟩
  · exact ⟨h6.v1.1.am_nonneg, h6.v1.2.am_nonneg, h6.a1, hc _ (Or.inr rfl), hsum.2⟩

theorem SideOK.init_am {init : List (ℤ × ℤ)} {S : Side} (h : SideOK init S) {p : ℤ × ℤ}
    (hp : p ∈ init) (h1 : 0 ≤ p.1) (h2 : 0 ≤ p.2) : p ∈ S.allam ∨ steppedAM S.type p = 0 := by
  by_cases h0 : steppedAM S.type p = 0
  · exact Or.inr h0
  · left
    have hd : (⟨Exp.px p.1, Exp.px p.2⟩ : Dbl).am2 = p := by
      simp [Dbl.am2, Exp.px, Exp.am]
    have hn : 0 ≤ steppedAM S.type p := by unfold steppedAM; split <;> assumption
    have := h.init ⟨Exp.px p.1, Exp.px p.2⟩ ⟨⟨h1, le_rfl, le_rfl⟩, ⟨h2, le_rfl, le_rfl⟩⟩
      (by rw [hd]; exact hp) (by rw [hd]; omega)
    exact List.mem_map.2 ⟨_, this, hd⟩

/-- Classes the ordering recursion may visit. -/
def Reach (bra ket : Side) (ib : List (ℤ × ℤ)) (N : ℤ) (q : QAM) : Prop :=
  q.Valid ∧ (q.bra ∈ ib ∨ q.ket ∉ ket.allam) ∧
    (q.bra ∈ bra.allam ∨ steppedAM bra.type q.bra = 0) ∧
    (q.ket ∈ ket.allam ∨ steppedAM ket.type q.ket = 0) ∧ q.a + q.b ≤ N ∧ q.c + q.d ≤ N

def mu (bra ket : Side) (q : QAM) : ℤ := steppedAM bra.type q.bra + steppedAM ket.type q.ket

theorem steppedAM_nonneg {ty : RRType} {p : ℤ × ℤ} (h1 : 0 ≤ p.1) (h2 : 0 ≤ p.2) :
    0 ≤ steppedAM ty p := by unfold steppedAM; split <;> assumption

theorem mu_nonneg {q : QAM} (h : q.Valid) : 0 ≤ mu bra ket q :=
  add_nonneg (steppedAM_nonneg h.1 h.2.1) (steppedAM_nonneg h.2.2.1 h.2.2.2)

theorem deps_reach (hb : SideOK ib bra) (hk : SideOK ik ket) {q d : QAM}
    (hq : Reach bra ket ib N q) (hd : d ∈ deps bra ket q) :
    Reach bra ket ib N d ∧ mu bra ket d = mu bra ket q - 1 := by
  unfold deps at hd
  split at hd
  next h =>
    obtain ⟨⟨p1, p2⟩, hp, rfl⟩ := List.mem_map.1 hd
    obtain ⟨h1, h2, h3, h10, h11⟩ := hk.mem_req hp
    obtain ⟨⟨h4, h5, h6, h7⟩, h8, h9, -, h12, h13⟩ := hq
    refine ⟨⟨⟨h4, h5, h1, h2⟩, Or.inl ?_, h9, h10, h12,
      by simp only [QAM.ket] at h11 ⊢; omega⟩, ?_⟩
    · rcases h8 with h8 | h8
      · exact h8
      · exact absurd h h8
    · simp only [mu, QAM.bra, QAM.ket] at h3 ⊢; omega
  next h =>
    obtain ⟨⟨p1, p2⟩, hp, rfl⟩ := List.mem_map.1 hd
    obtain ⟨h1, h2, h3, h10, h11⟩ := hb.mem_req hp
    obtain ⟨⟨h4, h5, h6, h7⟩, h8, -, h9, h12, h13⟩ := hq
    refine ⟨⟨⟨h1, h2, h6, h7⟩, Or.inr h, h10, h9,
      by simp only [QAM.bra] at h11 ⊢; omega, h13⟩, ?_⟩
    simp only [mu, QAM.bra, QAM.ket] at h3 ⊢; omega

theorem not_top_pos (hb : SideOK ib bra) (hk : SideOK ik ket) {q : QAM} (hv : q.Valid)
    (h : isTop bra ket q = false) : 0 < mu bra ket q := by
  have h1 := steppedAM_nonneg (ty := bra.type) (p := q.bra) hv.1 hv.2.1
  have h2 := steppedAM_nonneg (ty := ket.type) (p := q.ket) hv.2.2.1 hv.2.2.2
  simp only [isTop, decide_eq_false_iff_not, not_and_or, not_not] at h
  unfold mu
  rcases h with h | h
  · have := hb.allam_pos h; omega
  · have := hk.allam_pos h; omega

/-- Every class comes after the classes it is formed from (those not formed by this stage are in
`top`). -/
def Topo (bra ket : Side) (top order : List QAM) : Prop :=
  ∀ l1 q l2, order = l1 ++ q :: l2 → ∀ d ∈ deps bra ket q, d ∈ top ∨ d ∈ l1

theorem Topo.mono {top top' order : List QAM} (h : Topo bra ket top order)
    (ht : ∀ q ∈ top, q ∈ top') : Topo bra ket top' order := by
  intro l1 q l2 e d hd
  rcases h l1 q l2 e d hd with h | h
  · exact Or.inl (ht _ h)
  · exact Or.inr h

theorem Topo.snoc {top order : List QAM} (h : Topo bra ket top order) {q : QAM}
    (hq : ∀ d ∈ deps bra ket q, d ∈ top ∨ d ∈ order) : Topo bra ket top (order ++ [q]) := by
  intro l1 q' l2 e d hd
  rcases List.eq_nil_or_concat l2 with rfl | ⟨l2', x, rfl⟩
  · have := List.append_inj_left' e rfl
    have h2 := List.append_inj_right' e rfl
    simp only [List.cons.injEq, and_true] at h2
    subst this; subst h2
    exact hq d hd
  · have e' : order ++ [q] = (l1 ++ q' :: l2') ++ [x] := by simpa using e
    have := List.append_inj_left' e' rfl
    exact h l1 q' l2' this d hd

structure OInv (bra ket : Side) (ib : List (ℤ × ℤ)) (N : ℤ) (st : OrderSt) : Prop where
  nd : st.order.Nodup
  nt : ∀ q ∈ st.order, isTop bra ket q = false ∧ Reach bra ket ib N q
  tp : ∀ q ∈ st.top, isTop bra ket q = true ∧ Reach bra ket ib N q
  topo : Topo bra ket st.top st.order
  sm : ∀ e ∈ st.smap, e.2 = stepSide ket e.1
  sk : ∀ q ∈ st.order, ∃ e ∈ st.smap, e.1 = q

structure ScInv (bra ket : Side) (ib : List (ℤ × ℤ)) (N : ℤ) (order top0 : List QAM)
    (smap0 : List (QAM × DType)) (n : ℤ) (st : ScanSt) : Prop where
  tp : ∀ q ∈ st.top, isTop bra ket q = true ∧ Reach bra ket ib N q
  t0 : ∀ q ∈ top0, q ∈ st.top
  sm : ∀ e ∈ st.smap, e.2 = stepSide ket e.1
  s0 : ∀ e ∈ smap0, ∃ e' ∈ st.smap, e'.1 = e.1
  sk : ∀ q ∈ st.done, ∃ e ∈ st.smap, e.1 = q
  dn : ∀ q ∈ st.done, isTop bra ket q = false ∧ Reach bra ket ib N q ∧
    ∀ d ∈ deps bra ket q, d ∈ st.qnew
  qn : ∀ q ∈ st.qnew, Reach bra ket ib N q ∧ mu bra ket q < n
  dnd : st.done.Nodup

theorem mem_mapSet_key {k : QAM} {v : DType} {m : List (QAM × DType)} {e : QAM × DType}
    (he : e ∈ m) : ∃ e' ∈ mapSet k v m, e'.1 = e.1 := by
  by_cases h : e.1 = k
  · exact ⟨(k, v), by simp [mapSet], h.symm⟩
  · exact ⟨e, by simp [mapSet, he, h], rfl⟩

theorem mem_foldl_sins {α : Type} [DecidableEq α] : ∀ (l : List α) (a : List α) (x : α),
    x ∈ l.foldl (fun l x => sins x l) a ↔ x ∈ l ∨ x ∈ a
  | [], a, x => by simp
  | y :: l, a, x => by
    rw [List.foldl_cons, mem_foldl_sins l, mem_sins, List.mem_cons]; tauto

theorem scan_inv (hb : SideOK ib bra) (hk : SideOK ik ket) {order top0 : List QAM}
    {smap0 : List (QAM × DType)} {n : ℤ} : ∀ (l : List QAM) (st : ScanSt),
    ScInv bra ket ib N order top0 smap0 n st → (∀ q ∈ l, Reach bra ket ib N q ∧ mu bra ket q ≤ n) →
    ScInv bra ket ib N order top0 smap0 n (l.foldl (scanBody bra ket order) st) ∧
    (∀ q ∈ l, q ∈ order ∨ q ∈ (l.foldl (scanBody bra ket order) st).top ∨
      q ∈ (l.foldl (scanBody bra ket order) st).done) ∧
    (∀ q ∈ st.top, q ∈ (l.foldl (scanBody bra ket order) st).top) ∧
    (∀ q ∈ st.done, q ∈ (l.foldl (scanBody bra ket order) st).done)
  | [], st, h, _ => ⟨h, by simp, fun _ => id, fun _ => id⟩
  | q :: l, st, h, hl => by
    obtain ⟨hq, hqn⟩ := hl q (by simp)
    have key : ScInv bra ket ib N order top0 smap0 n (scanBody bra ket order st q) ∧
        (q ∈ order ∨ q ∈ (scanBody bra ket order st q).top ∨
          q ∈ (scanBody bra ket order st q).done) ∧
        (∀ q' ∈ st.top, q' ∈ (scanBody bra ket order st q).top) ∧
        (∀ q' ∈ st.done, q' ∈ (scanBody bra ket order st q).done) := by
      unfold scanBody
      split
      next h1 => exact ⟨h, Or.inl h1, fun _ => id, fun _ => id⟩
      next h1 =>
        split
        next h2 =>
          refine ⟨⟨?_, ?_, h.sm, h.s0, h.sk, h.dn, h.qn, h.dnd⟩,
            Or.inr (Or.inl (mem_sins.2 (Or.inl rfl))), fun q' h' => mem_sins.2 (Or.inr h'),
            fun _ => id⟩
          · intro q' hq'
            rcases mem_sins.1 hq' with rfl | hq'
            · exact ⟨h2, hq⟩
            · exact h.tp q' hq'
          · intro q' hq'; exact mem_sins.2 (Or.inr (h.t0 q' hq'))
        next h2 =>
          have h2 : isTop bra ket q = false := by simpa using h2
          refine ⟨⟨h.tp, h.t0, ?_, ?_, ?_, ?_, ?_, nodup_sins h.dnd⟩,
            Or.inr (Or.inr (mem_sins.2 (Or.inl rfl))), fun _ => id,
            fun q' h' => mem_sins.2 (Or.inr h')⟩
          · intro e he
            simp only [mapSet, List.mem_cons, List.mem_filter] at he
            rcases he with rfl | he
            · rfl
            · exact h.sm e he.1
          · intro e he
            obtain ⟨e', h3, h4⟩ := h.s0 e he
            obtain ⟨e'', h5, h6⟩ := mem_mapSet_key (k := q) (v := stepSide ket q) h3
            exact ⟨e'', h5, h6.trans h4⟩
          · intro q' hq'
            rcases mem_sins.1 hq' with rfl | hq'
            · exact ⟨_, by simp only [mapSet, List.mem_cons]; exact Or.inl rfl, rfl⟩
            · obtain ⟨e', h3, h4⟩ := h.sk q' hq'
              obtain ⟨e'', h5, h6⟩ := mem_mapSet_key (k := q) (v := stepSide ket q) h3
              exact ⟨e'', h5, h6.trans h4⟩
          · intro q' hq'
            rcases mem_sins.1 hq' with rfl | hq'
            · exact ⟨h2, hq, fun d hd => (mem_foldl_sins _ _ _).2 (Or.inl hd)⟩
            · obtain ⟨h3, h4, h5⟩ := h.dn q' hq'
              exact ⟨h3, h4, fun d hd => (mem_foldl_sins _ _ _).2 (Or.inr (h5 d hd))⟩
          · intro d hd
            rcases (mem_foldl_sins _ _ _).1 hd with hd | hd
            · obtain ⟨h3, h4⟩ := deps_reach hb hk hq hd
              exact ⟨h3, by omega⟩
            · exact h.qn d hd
    obtain ⟨k1, k2, k3, k4⟩ := key
    obtain ⟨r1, r2, r3, r4⟩ := scan_inv hb hk l _ k1 (fun q' h' => hl q' (by simp [h']))
    refine ⟨r1, ?_, fun q' h' => r3 q' (k3 q' h'), fun q' h' => r4 q' (k4 q' h')⟩
    intro q' hq'
    rcases List.mem_cons.1 hq' with rfl | hq'
    · rcases k2 with h | h | h
      · exact Or.inl h
      · exact Or.inr (Or.inl (r3 _ h))
      · exact Or.inr (Or.inr (r4 _ h))
    · exact r2 q' hq'

theorem pushAll_inv {st : OrderSt} : ∀ (l : List QAM) (order : List QAM),
    OInv bra ket ib N { st with order := order } →
    (∀ q ∈ l, isTop bra ket q = false ∧ Reach bra ket ib N q ∧ (∃ e ∈ st.smap, e.1 = q) ∧
      ∀ d ∈ deps bra ket q, d ∈ st.top ∨ d ∈ order) →
    OInv bra ket ib N { st with order := pushAll l order } ∧
    (∀ q ∈ l, q ∈ pushAll l order) ∧ (∀ q ∈ order, q ∈ pushAll l order)
  | [], order, h, _ => ⟨h, by simp, fun _ => id⟩
  | q :: l, order, h, hl => by
    obtain ⟨h1, h2, h3, h4⟩ := hl q (by simp)
    have hi : OInv bra ket ib N { st with order := if q ∈ order then order else order ++ [q] } := by
      split
      · exact h
      next hn =>
        refine ⟨?_, ?_, h.tp, h.topo.snoc h4, h.sm, ?_⟩
        · rw [List.nodup_append]
          refine ⟨h.nd, by simp, ?_⟩
          intro a ha b hb
          rw [List.mem_singleton] at hb
          rintro rfl
          exact hn (hb ▸ ha)
        · intro q' hq'
          rcases List.mem_append.1 hq' with hq' | hq'
          · exact h.nt q' hq'
          · rw [List.mem_singleton] at hq'; subst hq'; exact ⟨h1, h2⟩
        · intro q' hq'
          rcases List.mem_append.1 hq' with hq' | hq'
          · exact h.sk q' hq'
          · rw [List.mem_singleton] at hq'; subst hq'; exact h3
    have hsub : ∀ x ∈ order, x ∈ (if q ∈ order then order else order ++ [q]) := by
      intro x hx; split <;> simp [hx]
    have hq : q ∈ (if q ∈ order then order else order ++ [q]) := by
      split
      · assumption
      · simp
    obtain ⟨r1, r2, r3⟩ := pushAll_inv l _ hi (fun q' hq' => by
      obtain ⟨g1, g2, g3, g4⟩ := hl q' (by simp [hq'])
      refine ⟨g1, g2, g3, fun d hd => ?_⟩
      rcases g4 d hd with g | g
      · exact Or.inl g
      · exact Or.inr (hsub d g))
    refine ⟨r1, ?_, fun x hx => r3 x (hsub x hx)⟩
    intro x hx
    rcases List.mem_cons.1 hx with rfl | hx
    · exact r3 _ hq
    · exact r2 x hx

theorem amOrderAdd_inv (hb : SideOK ib bra) (hk : SideOK ik ket) {enum : List QAM → List QAM}
    (he : EnumOK enum) : ∀ (f : ℕ) (st : OrderSt) (ams : List QAM), OInv bra ket ib N st →
    (∀ q ∈ ams, Reach bra ket ib N q ∧ mu bra ket q < f) → 0 < f →
    ∃ st', amOrderAdd bra ket enum f st ams = some st' ∧ OInv bra ket ib N st' ∧
      (∀ q ∈ ams, q ∈ st'.top ∨ q ∈ st'.order) ∧ (∀ q ∈ st.top, q ∈ st'.top) ∧
      (∀ q ∈ st.order, q ∈ st'.order) ∧ (∀ e ∈ st.smap, ∃ e' ∈ st'.smap, e'.1 = e.1)
  | 0, _, _, _, _, h => absurd h (by simp)
  | f + 1, st, ams, h, hams, _ => by
    obtain ⟨s1, s2, s3, s4⟩ := scan_inv (order := st.order) (top0 := st.top) (smap0 := st.smap)
      (n := (f : ℤ)) hb hk (enum ams)
      { top := st.top, smap := st.smap, qnew := [], done := [] }
      ⟨h.tp, fun _ => id, h.sm, fun e he => ⟨e, he, rfl⟩, by simp, by simp, by simp, by simp⟩
      (fun q hq => by
        obtain ⟨h1, h2⟩ := hams q ((he _ _).1 hq)
        exact ⟨h1, by push_cast at h2; omega⟩)
    rw [amOrderAdd]
    set sc := (enum ams).foldl (scanBody bra ket st.order)
      { top := st.top, smap := st.smap, qnew := [], done := [] } with hsc
    have i1 : OInv bra ket ib N { order := st.order, top := sc.top, smap := sc.smap } := by
      refine ⟨h.nd, h.nt, s1.tp, h.topo.mono s1.t0, s1.sm, ?_⟩
      intro q hq
      obtain ⟨e, h1, h2⟩ := h.sk q hq
      obtain ⟨e', h3, h4⟩ := s1.s0 e h1
      exact ⟨e', h3, h4.trans h2⟩
    have step2 : ∃ st2, (if sc.qnew = [] then
        some ({ order := st.order, top := sc.top, smap := sc.smap } : OrderSt)
        else amOrderAdd bra ket enum f { order := st.order, top := sc.top, smap := sc.smap }
          sc.qnew) = some st2 ∧ OInv bra ket ib N st2 ∧
        (∀ q ∈ sc.qnew, q ∈ st2.top ∨ q ∈ st2.order) ∧ (∀ q ∈ sc.top, q ∈ st2.top) ∧
        (∀ q ∈ st.order, q ∈ st2.order) ∧ (∀ e ∈ sc.smap, ∃ e' ∈ st2.smap, e'.1 = e.1) := by
      by_cases hq : sc.qnew = []
      · refine ⟨_, by rw [if_pos hq], i1, by simp [hq], fun _ => id, fun _ => id,
          fun e he => ⟨e, he, rfl⟩⟩
      · have hf : 0 < f := by
          obtain ⟨x, hx⟩ := List.exists_mem_of_ne_nil _ hq
          obtain ⟨h1, h2⟩ := s1.qn x hx
          have := mu_nonneg (bra := bra) (ket := ket) h1.1
          omega
        obtain ⟨st2, r⟩ := amOrderAdd_inv hb hk he f _ sc.qnew i1 (fun q hq => s1.qn q hq) hf
        exact ⟨st2, by rw [if_neg hq]; exact r.1, r.2⟩
    obtain ⟨st2, e2, i2, q2, t2, o2, m2⟩ := step2
    have hd : ∀ q ∈ enum sc.done, isTop bra ket q = false ∧ Reach bra ket ib N q ∧
        (∃ e ∈ st2.smap, e.1 = q) ∧ ∀ d ∈ deps bra ket q, d ∈ st2.top ∨ d ∈ st2.order := by
      intro q hq
      have hq := (he _ _).1 hq
      obtain ⟨h1, h2, h3⟩ := s1.dn q hq
      obtain ⟨e, h4, h5⟩ := s1.sk q hq
      obtain ⟨e', h6, h7⟩ := m2 e h4
      exact ⟨h1, h2, ⟨e', h6, h7.trans h5⟩, fun d hd => q2 d (h3 d hd)⟩
    obtain ⟨p1, p2, p3⟩ := pushAll_inv (st := st2) (enum sc.done) st2.order i2 hd
    refine ⟨_, by simp only [e2, Option.map_some], p1, ?_, ?_, ?_, ?_⟩
    · intro q hq
      rcases s2 q ((he _ _).2 hq) with h1 | h1 | h1
      · exact Or.inr (p3 q (o2 q h1))
      · exact Or.inl (t2 q h1)
      · exact Or.inr (p2 q ((he _ _).2 h1))
    · intro q hq; exact t2 q (s1.t0 q hq)
    · intro q hq; exact p3 q (o2 q hq)
    · intro e h1
      obtain ⟨e', h3, h4⟩ := s1.s0 e h1
      obtain ⟨e'', h5, h6⟩ := m2 e' h3
      exact ⟨e'', h5, h6.trans h4⟩

/-! ## `Create` -/

/-- What `Create` guarantees. -/
structure AlgoOK (ams : List QAM) (A : HRRAlgo) : Prop where
  bra : SideOK (ams.map QAM.bra) A.bra
  ket : SideOK (ams.map QAM.ket) A.ket
  inv : OInv A.bra A.ket (ams.map QAM.bra) (hrrFuel ams) ⟨A.order, A.top, A.smap⟩
  bnd : ∀ N : ℤ, (∀ q ∈ ams, q.a + q.b ≤ N ∧ q.c + q.d ≤ N) →
    ∀ q, q ∈ A.order ∨ q ∈ A.top → q.a + q.b ≤ N ∧ q.c + q.d ≤ N
  req : ∀ q ∈ ams, q ∈ A.top ∨ q ∈ A.order

theorem le_hrrFuel {ams : List QAM} {q : QAM} (h : q ∈ ams) :
    q.a.toNat + q.b.toNat + q.c.toNat + q.d.toNat < hrrFuel ams := by
  unfold hrrFuel
  induction ams with
  | nil => simp at h
  | cons x xs ih =>
    simp only [List.map_cons, List.foldr_cons]
    rcases List.mem_cons.1 h with rfl | h
    · omega
    · have := ih h; omega

theorem steppedAM_le {ty : RRType} {p : ℤ × ℤ} {n : ℕ} (h1 : 0 ≤ p.1) (h2 : 0 ≤ p.2)
    (h : p.1.toNat + p.2.toNat ≤ n) : steppedAM ty p ≤ n := by
  unfold steppedAM; split <;> omega

theorem hrrCreate_ok {ord : ℕ → List Exp} (ho : OrdOK ord) (hst : OrdStart ord)
    {enumD : List Dbl → List Dbl} (hD : EnumOK enumD) {enumQ : List QAM → List QAM}
    (hQ : EnumOK enumQ) (bty kty : RRType) {ams : List QAM} (hv : ∀ q ∈ ams, q.Valid) :
    ∃ A, hrrCreate ord enumD enumQ bty kty ams = some A ∧ AlgoOK ams A ∧ A.bra.type = bty ∧
      A.ket.type = kty := by
  obtain ⟨ket, ek, tk, ok⟩ := createSide_ok (f := hrrFuel ams) ho hst hD (ty := kty)
    (ams := ams.map QAM.ket)
    (fun p hp => by
      obtain ⟨q, hq, rfl⟩ := List.mem_map.1 hp
      obtain ⟨-, -, h3, h4⟩ := hv q hq
      exact ⟨h3, h4⟩)
    (fun p hp => by
      obtain ⟨q, hq, rfl⟩ := List.mem_map.1 hp
      obtain ⟨-, -, h3, h4⟩ := hv q hq
      have := le_hrrFuel hq
      exact steppedAM_le h3 h4 (by simp only [QAM.ket]; omega))
  obtain ⟨bra, eb, tb, ob⟩ := createSide_ok (f := hrrFuel ams) ho hst hD (ty := bty)
    (ams := ams.map QAM.bra)
    (fun p hp => by
      obtain ⟨q, hq, rfl⟩ := List.mem_map.1 hp
      obtain ⟨h3, h4, -, -⟩ := hv q hq
      exact ⟨h3, h4⟩)
    (fun p hp => by
      obtain ⟨q, hq, rfl⟩ := List.mem_map.1 hp
      obtain ⟨h3, h4, -, -⟩ := hv q hq
      have := le_hrrFuel hq
      exact steppedAM_le h3 h4 (by simp only [QAM.bra]; omega))
  have key : ∀ N : ℤ, (∀ q ∈ ams, q.a + q.b ≤ N ∧ q.c + q.d ≤ N) → ∃ st,
      amOrderAdd bra ket enumQ (hrrFuel ams) ⟨[], [], []⟩ ams = some st ∧
      OInv bra ket (ams.map QAM.bra) N st ∧ (∀ q ∈ ams, q ∈ st.top ∨ q ∈ st.order) := by
    intro N hN
    obtain ⟨st, e, i, r, -⟩ := amOrderAdd_inv (N := N) ob ok hQ (hrrFuel ams) ⟨[], [], []⟩ ams
      ⟨by simp, by simp, by simp, by intro l1 q l2 h; simp at h, by simp, by simp⟩
      (fun q hq => by
        have hvq := hv q hq
        refine ⟨⟨hvq, Or.inl (List.mem_map_of_mem hq),
          ob.init_am (List.mem_map_of_mem hq) hvq.1 hvq.2.1,
          ok.init_am (List.mem_map_of_mem hq) hvq.2.2.1 hvq.2.2.2, hN q hq⟩, ?_⟩
        have := le_hrrFuel hq
        obtain ⟨h1, h2, h3, h4⟩ := hvq
        have e1 := steppedAM_le (ty := bra.type) (p := q.bra) h1 h2 le_rfl
        have e2 := steppedAM_le (ty := ket.type) (p := q.ket) h3 h4 le_rfl
        simp only [QAM.bra, QAM.ket] at e1 e2
        unfold mu
        simp only [QAM.bra, QAM.ket]
        omega)
      (by unfold hrrFuel; omega)
    exact ⟨st, e, i, r⟩
  obtain ⟨st, e, i, r⟩ := key (hrrFuel ams) (fun q hq => by
    have := le_hrrFuel hq; omega)
  refine ⟨⟨bra, ket, st.order, st.top, st.smap⟩, by simp [hrrCreate, ek, eb, e],
    ⟨ob, ok, i, ?_, r⟩, tb, tk⟩
  intro N hN q hq
  obtain ⟨st', e', i', -⟩ := key N hN
  rw [e, Option.some.injEq] at e'
  subst e'
  rcases hq with hq | hq
  · exact (i'.nt q hq).2.2.2.2.2
  · exact (i'.tp q hq).2.2.2.2.2

theorem getStep_ok {ams : List QAM} {A : HRRAlgo} (h : AlgoOK ams A) {q : QAM}
    (hq : q ∈ A.order) : A.getStep q = some (stepSide A.ket q) := by
  unfold HRRAlgo.getStep
  obtain ⟨e, h1, h2⟩ := h.inv.sk q hq
  have : (A.smap.find? fun e => decide (e.1 = q)).isSome := by
    rw [List.find?_isSome]; exact ⟨e, h1, by simpa using h2⟩
  obtain ⟨e', h3⟩ := Option.isSome_iff_exists.1 this
  rw [h3, Option.map_some]
  have h4 := List.mem_of_find?_eq_some h3
  have h5 := List.find?_some h3
  simp only [decide_eq_true_eq] at h5
  rw [h.inv.sm e' h4, h5]

end Simint
