import Verif.HRROrderLemmas

/-! Which classes the horizontal stage asks for: predicates preserved by the requirements of a
class, the largest total angular momentum, and the case without any step. -/

set_option autoImplicit false

namespace Simint

variable {bra ket : Side}

theorem scan_closed {Pr : QAM → Prop} (hcl : ∀ q, Pr q → ∀ d ∈ deps bra ket q, Pr d)
    {order : List QAM} : ∀ (l : List QAM) (st : ScanSt), (∀ q ∈ l, Pr q) → (∀ q ∈ st.top, Pr q) →
    (∀ q ∈ st.qnew, Pr q) → (∀ q ∈ st.done, Pr q) →
    (∀ q ∈ (l.foldl (scanBody bra ket order) st).top, Pr q) ∧
    (∀ q ∈ (l.foldl (scanBody bra ket order) st).qnew, Pr q) ∧
    (∀ q ∈ (l.foldl (scanBody bra ket order) st).done, Pr q)
  | [], _, _, h1, h2, h3 => ⟨h1, h2, h3⟩
  | q :: l, st, hl, h1, h2, h3 => by
    rw [List.foldl_cons]
    have hq := hl q (by simp)
    refine scan_closed hcl l _ (fun x hx => hl x (by simp [hx])) ?_ ?_ ?_ <;> unfold scanBody <;>
      split
    · exact h1
    · split
      · intro x hx
        simp only [sins] at hx
        split at hx
        · exact h1 x hx
        · rcases List.mem_cons.1 hx with rfl | hx
          · exact hq
          · exact h1 x hx
      · exact h1
    · exact h2
    · split
      · exact h2
      · intro x hx
        simp only at hx
        rcases (mem_foldl_sins _ _ _).1 hx with hx | hx
        · exact hcl q hq x hx
        · exact h2 x hx
    · exact h3
    · split
      · exact h3
      · intro x hx
        simp only [sins] at hx
        split at hx
        · exact h3 x hx
        · rcases List.mem_cons.1 hx with rfl | hx
          · exact hq
          · exact h3 x hx

theorem mem_pushAll {x : QAM} : ∀ (l order : List QAM), x ∈ pushAll l order → x ∈ l ∨ x ∈ order
  | [], _, h => Or.inr h
  | q :: l, order, h => by
    rcases mem_pushAll l _ h with h | h
    · exact Or.inl (by simp [h])
    · split at h
      · exact Or.inr h
      · rcases List.mem_append.1 h with h | h
        · exact Or.inr h
        · rw [List.mem_singleton] at h; exact Or.inl (by simp [h])

theorem amOrderAdd_closed {Pr : QAM → Prop} (hcl : ∀ q, Pr q → ∀ d ∈ deps bra ket q, Pr d)
    {enum : List QAM → List QAM} (he : EnumOK enum) : ∀ (f : ℕ) (st st' : OrderSt) (ams : List QAM),
    amOrderAdd bra ket enum f st ams = some st' → (∀ q ∈ ams, Pr q) → (∀ q ∈ st.top, Pr q) →
    (∀ q ∈ st.order, Pr q) → (∀ q ∈ st'.top, Pr q) ∧ ∀ q ∈ st'.order, Pr q
  | 0, _, _, _, h, _, _, _ => by simp [amOrderAdd] at h
  | f + 1, st, st', ams, h, hams, h1, h2 => by
    rw [amOrderAdd] at h
    obtain ⟨k1, k2, k3⟩ := scan_closed hcl (order := st.order) (enum ams)
      { top := st.top, smap := st.smap, qnew := [], done := [] }
      (fun q hq => hams q ((he _ _).1 hq)) h1 (by simp) (by simp)
    generalize (enum ams).foldl (scanBody bra ket st.order)
      { top := st.top, smap := st.smap, qnew := [], done := [] } = sc at h k1 k2 k3
    simp only [Option.map_eq_some_iff] at h
    obtain ⟨st2, h, rfl⟩ := h
    have h3 : (∀ q ∈ st2.top, Pr q) ∧ ∀ q ∈ st2.order, Pr q := by
      split at h
      · simp only [Option.some.injEq] at h
        subst h
        exact ⟨k1, h2⟩
      · exact amOrderAdd_closed hcl he f _ st2 _ h k2 k1 h2
    refine ⟨h3.1, fun q hq => ?_⟩
    rcases mem_pushAll _ _ hq with hq | hq
    · exact k3 q ((he _ _).1 hq)
    · exact h3.2 q hq

/-- A predicate that passes from a class to the classes it is formed from holds for everything the
stage forms or asks for. -/
theorem hrrCreate_closed {ord : ℕ → List Exp} {enumD : List Dbl → List Dbl}
    {enumQ : List QAM → List QAM} (hQ : EnumOK enumQ) {bty kty : RRType} {ams : List QAM}
    {A : HRRAlgo} (h : hrrCreate ord enumD enumQ bty kty ams = some A) {Pr : QAM → Prop}
    (hcl : ∀ q, Pr q → ∀ d ∈ deps A.bra A.ket q, Pr d) (hams : ∀ q ∈ ams, Pr q) :
    (∀ q ∈ A.top, Pr q) ∧ ∀ q ∈ A.order, Pr q := by
  simp only [hrrCreate, Option.bind_eq_some_iff, Option.map_eq_some_iff] at h
  obtain ⟨ket, -, bra, -, st, h, rfl⟩ := h
  exact amOrderAdd_closed hcl hQ _ _ _ _ h hams (by simp) (by simp)

theorem deps_tag {q d : QAM} (h : d ∈ deps bra ket q) : d.tag = q.tag := by
  unfold deps at h
  split at h <;> obtain ⟨p, -, rfl⟩ := List.mem_map.1 h <;> rfl

/-- The sums of the two sides do not grow. -/
theorem deps_sums {ib ik : List (ℤ × ℤ)} (hb : SideOK ib bra) (hk : SideOK ik ket) {q d : QAM}
    (h : d ∈ deps bra ket q) : d.a + d.b ≤ q.a + q.b ∧ d.c + d.d ≤ q.c + q.d := by
  unfold deps at h
  split at h
  · obtain ⟨p, hp, rfl⟩ := List.mem_map.1 h
    have := (hk.mem_req hp).2.2.2.2
    simp only [QAM.ket] at this ⊢
    omega
  · obtain ⟨p, hp, rfl⟩ := List.mem_map.1 h
    have := (hb.mem_req hp).2.2.2.2
    simp only [QAM.bra] at this ⊢
    omega

/-- The raised source keeps the sum. -/
theorem SideOK.same_sum {init : List (ℤ × ℤ)} {S : Side} (h : SideOK init S) {p : ℤ × ℤ}
    (hp : p ∈ S.allam) : ∃ r ∈ S.req p, r.1 + r.2 = p.1 + p.2 := by
  obtain ⟨d, hd, rfl⟩ := List.mem_map.1 hp
  obtain ⟨s, hs, rfl⟩ := h.hs d hd
  obtain ⟨h1, h2⟩ := h.ste s hs
  obtain ⟨h3, h4⟩ := h.sv _ h1
  rw [← stepped_am] at h4
  obtain ⟨s', h5, h6, -, hl, hr'⟩ := doubletStep_spec h3 h4
  rw [h2, Option.some.injEq] at h5
  subst h5
  refine ⟨s.src0.am2, ?_, ?_⟩
  · simp only [Side.req, List.mem_dedup, List.mem_flatMap, Side.stepsFor, List.mem_filter,
      decide_eq_true_eq]
    exact ⟨s, ⟨hs, rfl⟩, by simp⟩
  · cases hty : S.type.isLeft
    · rw [(hr' hty).1]; simp only [Dbl.am2, Exp.am_step]; omega
    · rw [(hl hty).1]; simp only [Dbl.am2, Exp.am_step]; omega

theorem deps_same_sum {ib ik : List (ℤ × ℤ)} (hb : SideOK ib bra) (hk : SideOK ik ket) {q : QAM}
    (h : isTop bra ket q = false) :
    ∃ d ∈ deps bra ket q, d.a + d.b + d.c + d.d = q.a + q.b + q.c + q.d := by
  simp only [isTop, decide_eq_false_iff_not, not_and_or, not_not] at h
  unfold deps
  split
  next hkt =>
    obtain ⟨r, hr, e⟩ := hk.same_sum hkt
    refine ⟨_, List.mem_map.2 ⟨r, hr, rfl⟩, ?_⟩
    simp only [QAM.ket] at e ⊢
    omega
  next hkt =>
    obtain ⟨r, hr, e⟩ := hb.same_sum (h.resolve_right hkt)
    refine ⟨_, List.mem_map.2 ⟨r, hr, rfl⟩, ?_⟩
    simp only [QAM.bra] at e ⊢
    omega

/-- For every class formed, a class of the same total angular momentum is handed over. -/
theorem AlgoOK.top_same_sum {ams : List QAM} {A : HRRAlgo} (h : AlgoOK ams A) : ∀ (n : ℕ) (q : QAM),
    q ∈ A.top ∨ q ∈ A.order → (mu A.bra A.ket q).toNat ≤ n →
    ∃ t ∈ A.top, t.a + t.b + t.c + t.d = q.a + q.b + q.c + q.d
  | n, q, hq, hn => by
    rcases hq with hq | hq
    · exact ⟨q, hq, rfl⟩
    obtain ⟨h1, h2⟩ := h.inv.nt q hq
    obtain ⟨d, hd, e⟩ := deps_same_sum h.bra h.ket h1
    obtain ⟨h3, h4⟩ := deps_reach h.bra h.ket h2 hd
    have h5 := mu_nonneg (bra := A.bra) (ket := A.ket) h3.1
    match n with
    | 0 => omega
    | n + 1 =>
      obtain ⟨l1, l2, hl⟩ := List.append_of_mem hq
      have hd' : d ∈ A.top ∨ d ∈ A.order := by
        rcases h.inv.topo l1 q l2 hl d hd with g | g
        · exact Or.inl g
        · exact Or.inr (by rw [hl]; simp [g])
      obtain ⟨t, ht, e'⟩ := AlgoOK.top_same_sum h n d hd' (by omega)
      exact ⟨t, ht, e'.trans e⟩

theorem SideOK.no_steps {init : List (ℤ × ℤ)} {S : Side} (h : SideOK init S) (hs : S.steps = []) :
    S.allam = [] ∧ ∀ p, S.req p = [] := by
  constructor
  · by_contra hne
    obtain ⟨p, hp⟩ := List.exists_mem_of_ne_nil _ hne
    obtain ⟨d, hd, rfl⟩ := List.mem_map.1 hp
    obtain ⟨s, hs', -⟩ := h.hs d hd
    rw [hs] at hs'
    simp at hs'
  · intro p; simp [Side.req, Side.stepsFor, hs]

/-- Without horizontal steps exactly the requested classes are handed over. -/
theorem hrrCreate_no_steps {ord : ℕ → List Exp} {enumD : List Dbl → List Dbl}
    {enumQ : List QAM → List QAM} (hQ : EnumOK enumQ) {bty kty : RRType} {ams : List QAM}
    {A : HRRAlgo} (e : hrrCreate ord enumD enumQ bty kty ams = some A) (h : AlgoOK ams A)
    (hs : A.hasHRR = false) : A.order = [] ∧ ∀ q, q ∈ A.top ↔ q ∈ ams := by
  simp only [HRRAlgo.hasHRR, decide_eq_false_iff_not, not_or, not_not] at hs
  obtain ⟨b1, b2⟩ := h.bra.no_steps hs.1
  obtain ⟨k1, k2⟩ := h.ket.no_steps hs.2
  have ho : A.order = [] := by
    by_contra hne
    obtain ⟨q, hq⟩ := List.exists_mem_of_ne_nil _ hne
    have := (h.inv.nt q hq).1
    simp [isTop, b1, k1] at this
  refine ⟨ho, fun q => ⟨fun hq => ?_, fun hq => ?_⟩⟩
  · refine (hrrCreate_closed hQ e (Pr := fun q => q ∈ ams) ?_ (fun q hq => hq)).1 q hq
    intro q _ d hd
    simp [deps, b2, k2] at hd
  · rcases h.req q hq with hq | hq
    · exact hq
    · rw [ho] at hq; simp at hq

end Simint
