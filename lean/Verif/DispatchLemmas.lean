import Verif.Dispatch
import Verif.Props.Permute
import Verif.Props.DerivPermute
import Verif.Props.Ssss

/-! Lemmas about the function table and the public functions. -/

set_option autoImplicit false

namespace Simint

/-! ## The table -/

/-- Class of a code of an index tuple. -/
def cellClass (k : ℕ) : QAM :=
  ⟨(k / 16 ^ 3 % 16 : ℕ), (k / 16 ^ 2 % 16 : ℕ), (k / 16 % 16 : ℕ), (k % 16 : ℕ), ""⟩

theorem cellClass_code {D : ℕ} {q : QAM} (hv : q.Valid) (ht : q.tag = "") (ha : q.a < 16) (hb : q.b < 16)
    (hc : q.c < 16) (hd : q.d < 16) :
    cellClass (cellCode D q.a.toNat q.b.toNat q.c.toNat q.d.toNat) = q := by
  obtain ⟨a, b, c, d, t⟩ := q
  obtain ⟨h1, h2, h3, h4⟩ := hv
  simp only at *
  subst ht
  unfold cellClass cellCode
  simp only [TQAM.mk.injEq, and_true]
  refine ⟨?_, ?_, ?_, ?_⟩ <;> omega

theorem cellCode_order {D a b c d : ℕ} (ha : a < 16) (hb : b < 16) (hc : c < 16) (hd : d < 16) :
    cellCode D a b c d / 16 ^ 4 = D := by
  unfold cellCode; omega

/-- The classes with an entry in the shipped tables, as far as the limit allows. -/
def InFill (bound : ℤ) (q : QAM) : Prop := q.tag = "" ∧ q.Valid ∧ maxQ q ≤ 7 ∧ maxQ q ≤ bound

theorem InFill.lt {bound : ℤ} {q : QAM} (h : InFill bound q) :
    q.a ≤ 7 ∧ q.b ≤ 7 ∧ q.c ≤ 7 ∧ q.d ≤ 7 := by
  have := h.2.2.1
  unfold maxQ at this
  omega

theorem InFill.le {bound : ℤ} {q : QAM} (h : InFill bound q) :
    q.a ≤ bound ∧ q.b ≤ bound ∧ q.c ≤ bound ∧ q.d ≤ bound := by
  have := h.2.2.2
  unfold maxQ at this
  omega

theorem foldlM_assign (md use : ℕ) (f : ℕ → ℕ) (es : List (ℕ × ℕ)) (t : FnTable)
    (h1 : ∀ e ∈ es, inTable md use e.1 = true) (h2 : ∀ e ∈ es, e.2 = f e.1) :
    ∃ t', es.foldlM (assignFn md use) t = some t' ∧
      (∀ k, (∃ e ∈ es, e.1 = k) → t' k = some (f k)) ∧ ∀ k, (¬ ∃ e ∈ es, e.1 = k) → t' k = t k := by
  induction es generalizing t with
  | nil => exact ⟨t, rfl, by simp, by simp⟩
  | cons e es ih =>
    obtain ⟨t', r, a1, a2⟩ := ih (Function.update t e.1 (some e.2))
      (fun x hx => h1 x (List.mem_cons_of_mem _ hx)) (fun x hx => h2 x (List.mem_cons_of_mem _ hx))
    have e1 := h1 e List.mem_cons_self
    have e2 := h2 e List.mem_cons_self
    refine ⟨t', ?_, ?_, ?_⟩
    · rw [List.foldlM_cons]
      simp only [assignFn, e1, if_true]
      exact r
    · rintro k ⟨x, hx, rfl⟩
      by_cases hk : ∃ y ∈ es, y.1 = x.1
      · exact a1 _ hk
      · rw [a2 _ hk]
        rcases List.mem_cons.1 hx with rfl | hx
        · rw [Function.update_self, e2]
        · exact absurd ⟨x, hx, rfl⟩ hk
    · intro k hk
      have hk' : ¬ ∃ y ∈ es, y.1 = k := fun ⟨y, hy, e⟩ => hk ⟨y, List.mem_cons_of_mem _ hy, e⟩
      rw [a2 k hk', Function.update_of_ne]
      rintro rfl
      exact hk ⟨e, List.mem_cons_self, rfl⟩

theorem runInit_spec (md use : ℕ) (bound : ℤ) (f : ℕ → ℕ) (bs : List (ℕ × List (ℕ × ℕ))) (t : FnTable)
    (h1 : ∀ b ∈ bs, (b.1 : ℤ) ≤ bound → ∀ e ∈ b.2, inTable md use e.1 = true)
    (h2 : ∀ b ∈ bs, ∀ e ∈ b.2, e.2 = f e.1) :
    ∃ t', runInit md use bound bs t = some t' ∧
      (∀ k, (∃ b ∈ bs, (b.1 : ℤ) ≤ bound ∧ ∃ e ∈ b.2, e.1 = k) → t' k = some (f k)) ∧
      ∀ k, (¬ ∃ b ∈ bs, (b.1 : ℤ) ≤ bound ∧ ∃ e ∈ b.2, e.1 = k) → t' k = t k := by
  induction bs generalizing t with
  | nil => exact ⟨t, rfl, by simp, by simp⟩
  | cons b bs ih =>
    have r1 := fun x hx => h1 x (List.mem_cons_of_mem b hx)
    have r2 := fun x hx => h2 x (List.mem_cons_of_mem b hx)
    by_cases hb : (b.1 : ℤ) ≤ bound
    · obtain ⟨t1, s1, u1, u2⟩ := foldlM_assign md use f b.2 t (h1 b List.mem_cons_self hb)
        (h2 b List.mem_cons_self)
      obtain ⟨t', s, v1, v2⟩ := ih t1 r1 r2
      refine ⟨t', ?_, ?_, ?_⟩
      · unfold runInit at s ⊢
        rw [List.foldlM_cons, if_pos hb, s1]
        exact s
      · rintro k ⟨x, hx, hxb, he⟩
        by_cases hk : ∃ b ∈ bs, (b.1 : ℤ) ≤ bound ∧ ∃ e ∈ b.2, e.1 = k
        · exact v1 k hk
        · rw [v2 k hk]
          rcases List.mem_cons.1 hx with rfl | hx
          · exact u1 k he
          · exact absurd ⟨x, hx, hxb, he⟩ hk
      · intro k hk
        rw [v2 k fun ⟨x, hx, h⟩ => hk ⟨x, List.mem_cons_of_mem _ hx, h⟩,
          u2 k fun h => hk ⟨b, List.mem_cons_self, hb, h⟩]
    · obtain ⟨t', s, v1, v2⟩ := ih t r1 r2
      refine ⟨t', ?_, ?_, ?_⟩
      · unfold runInit at s ⊢
        rw [List.foldlM_cons, if_neg hb]
        exact s
      · rintro k ⟨x, hx, hxb, he⟩
        rcases List.mem_cons.1 hx with rfl | hx
        · exact absurd hxb hb
        · exact v1 k ⟨x, hx, hxb, he⟩
      · intro k hk
        exact v2 k fun ⟨x, hx, h⟩ => hk ⟨x, List.mem_cons_of_mem _ hx, h⟩

theorem nameCode_some {q : QAM} (h : q.Valid) (ha : q.a < 60) (hb : q.b < 60) (hc : q.c < 60)
    (hd : q.d < 60) : ∃ s, nameCode q = some s := by
  have hl : amchar.length = 60 := by decide +kernel
  obtain ⟨h1, h2, h3, h4⟩ := h
  have hch : ∀ i : ℤ, 0 ≤ i → i < 60 → ∃ c, (if 0 ≤ i then amchar[i.toNat]? else none) = some c := by
    intro i h h'
    rw [if_pos h]
    exact ⟨_, List.getElem?_eq_getElem (by omega)⟩
  obtain ⟨_, e1⟩ := hch _ h1 ha
  obtain ⟨_, e2⟩ := hch _ h2 hb
  obtain ⟨_, e3⟩ := hch _ h3 hc
  obtain ⟨_, e4⟩ := hch _ h4 hd
  simp [nameCode, e1, e2, e3, e4]

theorem amchar_small : ∀ c ∈ amchar, c.toNat < 256 := by decide +kernel

theorem nameCode_inj {q q' : QAM} {s : ℕ} (ht : q.tag = q'.tag) (h : nameCode q = some s)
    (h' : nameCode q' = some s) : q = q' := by
  have hch : ∀ {i j : ℤ} {c : Char}, (if 0 ≤ i then amchar[i.toNat]? else none) = some c →
      (if 0 ≤ j then amchar[j.toNat]? else none) = some c → i = j := by
    intro i j c h1 h2
    split at h1
    · split at h2
      · obtain ⟨hi, e1⟩ := List.getElem?_eq_some_iff.1 h1
        obtain ⟨hj, e2⟩ := List.getElem?_eq_some_iff.1 h2
        have := (List.Nodup.getElem_inj_iff amchar_nodup).1 (e1.trans e2.symm)
        omega
      · simp at h2
    · simp at h1
  have hsm : ∀ {i : ℤ} {c : Char}, (if 0 ≤ i then amchar[i.toNat]? else none) = some c →
      c.toNat < 256 := by
    intro i c h1
    split at h1
    · exact amchar_small c (List.mem_of_getElem? h1)
    · simp at h1
  simp only [nameCode, Option.bind_eq_some_iff, Option.map_eq_some_iff] at h h'
  obtain ⟨a, ha, b, hb, c, hc, d, hd, e⟩ := h
  obtain ⟨a', ha', b', hb', c', hc', d', hd', e'⟩ := h'
  have n1 := hsm ha; have n2 := hsm hb; have n3 := hsm hc; have n4 := hsm hd
  have m1 := hsm ha'; have m2 := hsm hb'; have m3 := hsm hc'; have m4 := hsm hd'
  unfold lettersCode at e e'
  have i1 : a = a' := Char.toNat_inj.1 (by omega)
  have i2 : b = b' := Char.toNat_inj.1 (by omega)
  have i3 : c = c' := Char.toNat_inj.1 (by omega)
  have i4 : d = d' := Char.toNat_inj.1 (by omega)
  subst i1 i2 i3 i4
  obtain ⟨x, y, z, w, t⟩ := q
  obtain ⟨x', y', z', w', t'⟩ := q'
  simp only at ha hb hc hd ha' hb' hc' hd' ht
  rw [hch ha ha', hch hb hb', hch hc hc', hch hd hd', ht]

theorem mem_fillBlock {D L : ℕ} {e : ℕ × ℕ} (h : e ∈ fillBlock D 7 L) : ∃ q : QAM, InFill 7 q ∧
    maxQ q = L ∧ nameCode q = some e.2 ∧ e.1 = cellCode D q.a.toNat q.b.toNat q.c.toNat q.d.toNat := by
  simp only [fillBlock, List.mem_filterMap, List.mem_filter, Option.map_eq_some_iff, decide_eq_true_eq,
    mem_allQuartets] at h
  obtain ⟨q, ⟨⟨h1, h2, h3, h4, h5, h6⟩, h7⟩, s, hs, rfl⟩ := h
  have : maxQ q ≤ 7 := by unfold maxQ; simp only [max_le_iff]; exact ⟨⟨⟨h3, h4⟩, h5⟩, h6⟩
  exact ⟨q, ⟨h1, h2, this, this⟩, h7, hs, rfl⟩

theorem fillBlock_mem {D : ℕ} {q : QAM} (h : InFill 7 q) : ∃ s, nameCode q = some s ∧
    (cellCode D q.a.toNat q.b.toNat q.c.toNat q.d.toNat, s) ∈ fillBlock D 7 (maxQ q).toNat := by
  obtain ⟨l1, l2, l3, l4⟩ := h.lt
  obtain ⟨s, hs⟩ := nameCode_some h.2.1 (by omega) (by omega) (by omega) (by omega)
  refine ⟨s, hs, ?_⟩
  simp only [fillBlock, List.mem_filterMap, List.mem_filter, Option.map_eq_some_iff, decide_eq_true_eq,
    mem_allQuartets]
  refine ⟨q, ⟨⟨h.1, h.2.1, l1, l2, l3, l4⟩, ?_⟩, s, hs, rfl⟩
  have : 0 ≤ maxQ q := by have := h.2.1.1; unfold maxQ; omega
  omega

/-- One init function with the blocks of gen_fill.py. -/
theorem runInit_fill (md use D : ℕ) (bound : ℤ) (hb : bound ≤ use) (hD : 0 ≤ bound → D ≤ md) (t : FnTable) :
    ∃ t', runInit md use bound (fillBlocks D 7) t = some t' ∧
      (∀ q, InFill bound q → t' (cellCode D q.a.toNat q.b.toNat q.c.toNat q.d.toNat) = nameCode q) ∧
      ∀ k, (¬ ∃ q, InFill bound q ∧ k = cellCode D q.a.toNat q.b.toNat q.c.toNat q.d.toNat) → t' k = t k := by
  have hA : ∀ b ∈ fillBlocks D 7, (b.1 : ℤ) ≤ bound → ∀ e ∈ b.2, inTable md use e.1 = true := by
    intro b hb1 hb2 e he
    obtain ⟨L, hL, rfl⟩ := List.mem_map.1 hb1
    obtain ⟨q, hq, hm, -, hc⟩ := mem_fillBlock he
    obtain ⟨l1, l2, l3, l4⟩ := hq.lt
    have hq' : InFill bound q := ⟨hq.1, hq.2.1, hq.2.2.1, by rw [hm]; exact hb2⟩
    obtain ⟨k1, k2, k3, k4⟩ := hq'.le
    obtain ⟨n1, n2, n3, n4⟩ := hq.2.1
    have hd := hD (by omega)
    rw [hc]
    unfold inTable cellCode
    simp only [Bool.and_eq_true, decide_eq_true_eq]
    refine ⟨⟨⟨⟨?_, ?_⟩, ?_⟩, ?_⟩, ?_⟩ <;> omega
  have hB : ∀ b ∈ fillBlocks D 7, ∀ e ∈ b.2, e.2 = (nameCode (cellClass e.1)).getD 0 := by
    intro b hb1 e he
    obtain ⟨L, hL, rfl⟩ := List.mem_map.1 hb1
    obtain ⟨q, hq, hm, hs, hc⟩ := mem_fillBlock he
    obtain ⟨l1, l2, l3, l4⟩ := hq.lt
    rw [hc, cellClass_code hq.2.1 hq.1 (by omega) (by omega) (by omega) (by omega), hs]
    rfl
  obtain ⟨t', r, h1, h2⟩ := runInit_spec md use bound (fun k => (nameCode (cellClass k)).getD 0)
    (fillBlocks D 7) t hA hB
  refine ⟨t', r, ?_, ?_⟩
  · intro q hq
    have hq7 : InFill 7 q := ⟨hq.1, hq.2.1, hq.2.2.1, hq.2.2.1⟩
    have hn : 0 ≤ maxQ q := by have := hq.2.1.1; unfold maxQ; omega
    obtain ⟨s, hs, hm⟩ := fillBlock_mem (D := D) hq7
    obtain ⟨l1, l2, l3, l4⟩ := hq7.lt
    rw [h1 _ ⟨_, List.mem_map.2 ⟨(maxQ q).toNat, List.mem_range.2 (by have := hq.2.2.1; omega), rfl⟩, by
      have := hq.2.2.2; simp only; omega, _, hm, rfl⟩]
    simp only
    rw [cellClass_code hq.2.1 hq.1 (by omega) (by omega) (by omega) (by omega), hs]
    rfl
  · intro k hk
    refine h2 k ?_
    rintro ⟨b, hb1, hb2, e, he, rfl⟩
    obtain ⟨L, hL, rfl⟩ := List.mem_map.1 hb1
    obtain ⟨q, hq, hm, -, hc⟩ := mem_fillBlock he
    exact hk ⟨q, ⟨hq.1, hq.2.1, hq.2.2.1, by rw [hm]; exact hb2⟩, hc⟩

theorem init0_gen : Tables.init0 = fillBlocks 0 7 := by decide +kernel

theorem init1_gen : Tables.init1 = fillBlocks 1 7 := by decide +kernel

/-! ## The functions -/

theorem variants_am (q : QAM) (b : Bool) : (variants q b).map (fun s => permAM q s.1 s.2) = definedBy q b := by
  cases b <;> simp [variants, definedBy, permAM]

theorem fns_am (L : LibCfg) : L.fns.map LibFn.am = allDefined L.enum L.maxam L.p := by
  simp only [LibCfg.fns, allDefined, List.map_flatMap, List.map_map]
  congr 1
  funext q
  rw [← variants_am]
  rfl

/-- The function found for the name of a class is a function of that class. -/
theorem find_spec (L : LibCfg) (he : ∀ l, l.Nodup → (L.enum l).Perm l) {am : QAM} (hv : am.Valid)
    (ht : am.tag = "") (ha : am.a ≤ L.maxam) (hb : am.b ≤ L.maxam) (hc : am.c ≤ L.maxam) (hd : am.d ≤ L.maxam)
    {s : ℕ} (hs : nameCode am = some s) :
    ∃ f, L.find s = some f ∧ f.am = am ∧ f.run ∈ validQuartets L.maxam L.p := by
  have hall := (C31_exactly_once he L.maxam L.p).2
  have hm : am ∈ L.fns.map LibFn.am := by
    rw [fns_am, hall]; exact ⟨ht, hv, ha, hb, hc, hd⟩
  obtain ⟨f0, hf0, e0⟩ := List.mem_map.1 hm
  cases hfind : L.find s with
  | none =>
    exfalso
    have := List.find?_eq_none.1 hfind f0 hf0
    rw [e0] at this
    simp [hs] at this
  | some f =>
    have h1 := List.find?_some hfind
    have h2 := List.mem_of_find?_eq_some hfind
    simp only [decide_eq_true_eq] at h1
    have h3 : f.am ∈ allDefined L.enum L.maxam L.p := by rw [← fns_am]; exact List.mem_map_of_mem h2
    refine ⟨f, rfl, nameCode_inj (((hall _).1 h3).1.trans ht.symm) h1 hs, ?_⟩
    simp only [LibCfg.fns, List.mem_flatMap, List.mem_map] at h2
    obtain ⟨q, hq, v, -, rfl⟩ := h2
    exact (he _ (C52_work_list L.maxam L.p).1).mem_iff.1 hq

theorem permAM_ssss (s12 s34 : Bool) : permAM ssss s12 s34 = ssss := by
  cases s12 <;> cases s34 <;> rfl

theorem permAM_nonneg {q : QAM} {s12 s34 : Bool} (h : permAM q s12 s34 = ssss) : q = ssss := by
  obtain ⟨a, b, c, d, t⟩ := q
  cases s12 <;> cases s34 <;> simp_all [permAM, ssss]

end Simint
