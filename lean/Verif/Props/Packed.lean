import Verif.PackedLemmas

/-!
# C78: the example with packed integrals

skel/examples/example_packed.c computes one quartet of shells for each set of eight equivalent ones and
stores the integrals by packed numbers.
-/

set_option autoImplicit false

open Real

namespace Simint

/-- What the program writes down fits its shells: functions are numbered shell after shell, the buffers
are large enough, exponents are positive and the library has the classes. -/
structure PkOK (L : LibCfg) (p : PkProg ℝ) : Prop where
  ok : ∀ i < p.n, (p.shell i).OK
  am : ∀ i < p.n, (p.shell i).am ≤ min L.use 7
  faithful : ∀ i < p.n, ∀ j < p.n, Faithful (p.shell i) (p.shell j)
  start : ∀ i < p.n, p.start i = ∑ k ∈ Finset.range i, ncart (p.shell k).am
  nbf : ∀ i < p.n, p.nbf i = ncart (p.shell i).am
  size : ∀ i < p.n, ∀ j < p.n, ∀ k < p.n, ∀ l < p.n, ncart (p.shell i).am * ncart (p.shell j).am *
    (ncart (p.shell k).am * ncart (p.shell l).am) ≤ p.size

/-- Number of functions. -/
def PkProg.nfun (p : PkProg ℝ) : ℕ := ∑ k ∈ Finset.range p.n, ncart (p.shell k).am

/-- Number of unordered pairs of `n` things. -/
def npairs (n : ℕ) : ℕ := n * (n + 1) / 2

/-- A function of the basis set: shell and component. -/
def PkProg.Fn (p : PkProg ℝ) (f : ℕ × Exp) : Prop := f.1 < p.n ∧ IsComp (p.shell f.1).am f.2

/-- Its number: functions of the shells before it, then the place of the component in the shell. -/
def PkProg.num (p : PkProg ℝ) (f : ℕ × Exp) : ℕ :=
  (∑ k ∈ Finset.range f.1, ncart (p.shell k).am) + cidx psi4List f.2

/-- The integral of four functions. -/
noncomputable def PkProg.eri (p : PkProg ℝ) (f g h e : ℕ × Exp) : ℝ :=
  shellERI (p.shell f.1) (p.shell g.1) (p.shell h.1) (p.shell e.1) f.2 g.2 h.2 e.2

/-- Number of an unordered pair: the pairs below the larger one, then the smaller one. -/
def pairNo (a b : ℕ) : ℕ := npairs (max a b) + min a b

/-- Where a reader looks for it. -/
def PkProg.at4 (p : PkProg ℝ) (f g h e : ℕ × Exp) : ℕ :=
  pairNo (pairNo (p.num f) (p.num g)) (pairNo (p.num h) (p.num e))

/-- One quartet of shells out of each set of equivalent ones. -/
def canonQuartets (n : ℕ) : Finset (ℕ × ℕ × ℕ × ℕ) :=
  (Finset.range n ×ˢ Finset.range n ×ˢ Finset.range n ×ˢ Finset.range n).filter fun q =>
    q.2.1 ≤ q.1 ∧ q.2.2.2 ≤ q.2.2.1 ∧
      q.2.2.1 * (q.2.2.1 + 1) / 2 + q.2.2.2 ≤ q.1 * (q.1 + 1) / 2 + q.2.1

/-! ### Numbers of functions -/

section
variable {p : PkProg ℝ}

theorem packIdx_eq : packIdx = pairNo := by
  funext a b
  unfold packIdx pairNo npairs
  split
  · rw [max_eq_right (by omega), min_eq_left (by omega)]
  · rw [max_eq_left (by omega), min_eq_right (by omega)]

theorem at4_eq (f g h e : ℕ × Exp) : p.at4 f g h e =
    packIdx (packIdx (p.num f) (p.num g)) (packIdx (p.num h) (p.num e)) := by
  rw [packIdx_eq]
  rfl

theorem isComp_am {n : ℕ} {e : Exp} (h : IsComp n e) : e.Valid ∧ e.am = n :=
  ⟨⟨h.1, h.2.1, h.2.2.1⟩, h.2.2.2⟩

theorem cidx_comp_lt {n : ℕ} {e : Exp} (h : IsComp n e) : cidx psi4List e < ncart n := by
  have := psi4_ordOK.cidx_lt (isComp_am h).1
  rwa [(isComp_am h).2] at this

theorem fnum_lt_block {f : ℕ × Exp} (h : p.Fn f) {j : ℕ} (hj : f.1 < j) :
    p.num f < ∑ k ∈ Finset.range j, ncart (p.shell k).am := by
  have h1 := cidx_comp_lt h.2
  have h2 : (∑ k ∈ Finset.range (f.1 + 1), ncart (p.shell k).am) ≤
      ∑ k ∈ Finset.range j, ncart (p.shell k).am :=
    Finset.sum_le_sum_of_subset fun x hx => by simp only [Finset.mem_range] at hx ⊢; omega
  rw [Finset.sum_range_succ] at h2
  unfold PkProg.num
  omega

theorem fnum_lt {f : ℕ × Exp} (h : p.Fn f) : p.num f < p.nfun := fnum_lt_block h h.1

theorem fnum_inj {f g : ℕ × Exp} (hf : p.Fn f) (hg : p.Fn g) (e : p.num f = p.num g) : f = g := by
  obtain ⟨i, x⟩ := f
  obtain ⟨j, y⟩ := g
  rcases Nat.lt_trichotomy i j with h | rfl | h
  · have := fnum_lt_block hf (j := j) h
    have h2 : (∑ k ∈ Finset.range j, ncart (p.shell k).am) ≤ p.num (j, y) := Nat.le_add_right _ _
    omega
  · have e' := Nat.add_left_cancel e
    exact Prod.ext rfl (psi4_ordOK.cidx_inj (isComp_am hf.2).1 (isComp_am hg.2).1
      ((isComp_am hf.2).2.trans (isComp_am hg.2).2.symm) e')
  · have := fnum_lt_block hg (j := i) h
    have h2 : (∑ k ∈ Finset.range i, ncart (p.shell k).am) ≤ p.num (i, x) := Nat.le_add_right _ _
    omega

theorem fnum_surj_aux (n : ℕ) (hn : n ≤ p.n) {k : ℕ} (hk : k < ∑ i ∈ Finset.range n, ncart (p.shell i).am) :
    ∃ f, p.Fn f ∧ p.num f = k := by
  induction n with
  | zero => simp at hk
  | succ n ih =>
    rcases Nat.lt_or_ge k (∑ i ∈ Finset.range n, ncart (p.shell i).am) with h | h
    · exact ih (by omega) h
    · rw [Finset.sum_range_succ] at hk
      obtain ⟨x, hx, e, -⟩ := psi4_ordOK.cidx_surj (p.shell n).am
        (i := k - ∑ i ∈ Finset.range n, ncart (p.shell i).am) (by omega)
      refine ⟨(n, x), ⟨hn, hx⟩, ?_⟩
      unfold PkProg.num
      rw [e]
      dsimp only
      omega

theorem fnum_surj {k : ℕ} (hk : k < p.nfun) : ∃ f, p.Fn f ∧ p.num f = k := fnum_surj_aux p.n le_rfl hk

/-! ### The eight equivalent integrals -/

theorem at4_lt {f g h e : ℕ × Exp} (hf : p.Fn f) (hg : p.Fn g) (hh : p.Fn h) (he : p.Fn e) :
    p.at4 f g h e < npairs (npairs p.nfun) :=
  at4_eq (p := p) f g h e ▸ packIdx_lt (packIdx_lt (fnum_lt hf) (fnum_lt hg)) (packIdx_lt (fnum_lt hh) (fnum_lt he))

theorem eri_pair {f g f' g' h e : ℕ × Exp} (hf : p.Fn f) (hg : p.Fn g) (hf' : p.Fn f') (hg' : p.Fn g')
    (q : packIdx (p.num f) (p.num g) = packIdx (p.num f') (p.num g')) : p.eri f g h e = p.eri f' g' h e := by
  rcases packIdx_inj q with ⟨a, b⟩ | ⟨a, b⟩
  · rw [fnum_inj hf hf' a, fnum_inj hg hg' b]
  · rw [fnum_inj hf hg' a, fnum_inj hg hf' b]
    exact shellERI_swap12 _ _ _ _ _ _ _ _

theorem eri_swap (f g h e : ℕ × Exp) : p.eri f g h e = p.eri h e f g := shellERI_swap1234 _ _ _ _ _ _ _ _

theorem eri_eq {f g h e f' g' h' e' : ℕ × Exp} (hf : p.Fn f) (hg : p.Fn g) (hh : p.Fn h) (he : p.Fn e)
    (hf' : p.Fn f') (hg' : p.Fn g') (hh' : p.Fn h') (he' : p.Fn e') (q : p.at4 f g h e = p.at4 f' g' h' e') :
    p.eri f g h e = p.eri f' g' h' e' := by
  rw [at4_eq, at4_eq] at q
  rcases packIdx_inj q with ⟨a, b⟩ | ⟨a, b⟩
  · rw [eri_pair hf hg hf' hg' a, eri_swap, eri_pair hh he hh' he' b, eri_swap]
  · rw [eri_pair hf hg hh' he' a, eri_swap, eri_pair hh he hf' hg' b]

/-- The quartet that is computed for four shells. -/
theorem canonical (f g h e : ℕ × Exp) (hf : p.Fn f) (hg : p.Fn g) (hh : p.Fn h) (he : p.Fn e) :
    ∃ f' g' h' e', p.Fn f' ∧ p.Fn g' ∧ p.Fn h' ∧ p.Fn e' ∧ p.at4 f' g' h' e' = p.at4 f g h e ∧
      (f'.1, g'.1, h'.1, e'.1) ∈ canonQuartets p.n := by
  have pair : ∀ a b : ℕ × Exp, p.Fn a → p.Fn b → ∃ a' b', p.Fn a' ∧ p.Fn b' ∧ b'.1 ≤ a'.1 ∧
      packIdx (p.num a') (p.num b') = packIdx (p.num a) (p.num b) := by
    intro a b ha hb
    rcases Nat.le_total b.1 a.1 with h | h
    · exact ⟨a, b, ha, hb, h, rfl⟩
    · exact ⟨b, a, hb, ha, h, packIdx_comm _ _⟩
  obtain ⟨f', g', hf', hg', l1, e1⟩ := pair f g hf hg
  obtain ⟨h', e', hh', he', l2, e2⟩ := pair h e hh he
  have mem : ∀ {a b c d : ℕ × Exp}, p.Fn a → p.Fn b → p.Fn c → p.Fn d → b.1 ≤ a.1 → d.1 ≤ c.1 →
      c.1 * (c.1 + 1) / 2 + d.1 ≤ a.1 * (a.1 + 1) / 2 + b.1 → (a.1, b.1, c.1, d.1) ∈ canonQuartets p.n := by
    intro a b c d ha hb hc hd h1 h2 h3
    simp only [canonQuartets, Finset.mem_filter, Finset.mem_product, Finset.mem_range]
    exact ⟨⟨ha.1, hb.1, hc.1, hd.1⟩, h1, h2, h3⟩
  rcases Nat.le_total (h'.1 * (h'.1 + 1) / 2 + e'.1) (f'.1 * (f'.1 + 1) / 2 + g'.1) with h3 | h3
  · refine ⟨f', g', h', e', hf', hg', hh', he', ?_, mem hf' hg' hh' he' l1 l2 h3⟩
    rw [at4_eq, at4_eq, e1, e2]
  · refine ⟨h', e', f', g', hh', he', hf', hg', ?_, mem hh' he' hf' hg' l2 l1 h3⟩
    rw [at4_eq, at4_eq, e1, e2, packIdx_comm]

/-! ### The loops -/

open Classical in
/-- What belongs to a place of the array. -/
noncomputable def PkProg.val (p : PkProg ℝ) (k : ℕ) : ℝ :=
  if h : ∃ f g h e, p.Fn f ∧ p.Fn g ∧ p.Fn h ∧ p.Fn e ∧ p.at4 f g h e = k then
    p.eri h.choose h.choose_spec.choose h.choose_spec.choose_spec.choose h.choose_spec.choose_spec.choose_spec.choose
  else 0

theorem val_at4 {f g h e : ℕ × Exp} (hf : p.Fn f) (hg : p.Fn g) (hh : p.Fn h) (he : p.Fn e) :
    p.val (p.at4 f g h e) = p.eri f g h e := by
  have H : ∃ f' g' h' e', p.Fn f' ∧ p.Fn g' ∧ p.Fn h' ∧ p.Fn e' ∧ p.at4 f' g' h' e' = p.at4 f g h e :=
    ⟨f, g, h, e, hf, hg, hh, he, rfl⟩
  unfold PkProg.val
  rw [dif_pos H]
  obtain ⟨a, b, c, d, q⟩ := H.choose_spec.choose_spec.choose_spec.choose_spec
  exact eri_eq a b c d hf hg hh he q

/-- The places of a quartet of shells. -/
def PkProg.Places (p : PkProg ℝ) (q : ℕ × ℕ × ℕ × ℕ) (k : ℕ) : Prop :=
  ∃ x y z w, IsComp (p.shell q.1).am x ∧ IsComp (p.shell q.2.1).am y ∧ IsComp (p.shell q.2.2.1).am z ∧
    IsComp (p.shell q.2.2.2).am w ∧ p.at4 (q.1, x) (q.2.1, y) (q.2.2.1, z) (q.2.2.2, w) = k

open Classical in
/-- The places of the quartets in a list hold what belongs there, the others what they held before. -/
def PkProg.Written (p : PkProg ℝ) (init : ℕ → ℝ) (vis : List (ℕ × ℕ × ℕ × ℕ)) (v : ℕ → ℝ) : Prop :=
  ∀ k, v k = if ∃ q ∈ vis, p.Places q k then p.val k else init k

theorem store_spec {L : LibCfg} (hp : PkOK L p) (hN : npairs (npairs p.nfun) ≤ p.nInt) {i j k l : ℕ} (hi : i < p.n)
    (hj : j < p.n) (hk : k < p.n) (hl : l < p.n) {target : ℕ → ℝ}
    (ht : ∀ x y z w : Exp, IsComp (p.shell i).am x → IsComp (p.shell j).am y → IsComp (p.shell k).am z →
      IsComp (p.shell l).am w → target (Qrt.index psi4List ⟨⟨x, y⟩, ⟨z, w⟩, 0⟩) = p.eri (i, x) (j, y) (k, z) (l, w))
    {init ints : ℕ → ℝ} {vis : List (ℕ × ℕ × ℕ × ℕ)} (hw : p.Written init vis ints) :
    ∃ v, p.store i j k l target ints = some v ∧ p.Written init (vis ++ [(i, j, k, l)]) v := by
  classical
  -- one iteration
  have one : ∀ m n o q t, ((m, n, o, q), t) ∈ (pkQuads (p.nbf i) (p.nbf j) (p.nbf k) (p.nbf l)).zipIdx →
      ∃ x y z w, IsComp (p.shell i).am x ∧ IsComp (p.shell j).am y ∧ IsComp (p.shell k).am z ∧
        IsComp (p.shell l).am w ∧ m = cidx psi4List x ∧ n = cidx psi4List y ∧ o = cidx psi4List z ∧
        q = cidx psi4List w ∧ p.pos i j k l (m, n, o, q) = p.at4 (i, x) (j, y) (k, z) (l, w) ∧
        t = Qrt.index psi4List ⟨⟨x, y⟩, ⟨z, w⟩, 0⟩ := by
    intro m n o q t h
    rw [mem_pkQuads, hp.nbf i hi, hp.nbf j hj, hp.nbf k hk, hp.nbf l hl] at h
    obtain ⟨h1, h2, h3, h4, h5⟩ := h
    obtain ⟨x, cx, ex, -⟩ := psi4_ordOK.cidx_surj _ h1
    obtain ⟨y, cy, ey, -⟩ := psi4_ordOK.cidx_surj _ h2
    obtain ⟨z, cz, ez, -⟩ := psi4_ordOK.cidx_surj _ h3
    obtain ⟨w, cw, ew, -⟩ := psi4_ordOK.cidx_surj _ h4
    refine ⟨x, y, z, w, cx, cy, cz, cw, ex.symm, ey.symm, ez.symm, ew.symm, ?_, ?_⟩
    · rw [at4_eq]
      unfold PkProg.pos PkProg.num
      simp only [hp.start i hi, hp.start j hj, hp.start k hk, hp.start l hl, ex, ey, ez, ew]
    · rw [h5]
      unfold Qrt.index Dbl.index Dbl.ncart
      simp only [ex, ey, ez, ew, (isComp_am cy).2, (isComp_am cz).2, (isComp_am cw).2]
  obtain ⟨v, e, h⟩ := foldlM_inv (fun v e => if e.2 < p.size ∧ p.pos i j k l e.1 < p.nInt then
      some (Function.update v (p.pos i j k l e.1) (target e.2)) else none)
    (fun (pre : List ((ℕ × ℕ × ℕ × ℕ) × ℕ)) (v : ℕ → ℝ) => ∀ a, v a =
      if (∃ q ∈ vis, p.Places q a) ∨ ∃ e ∈ pre, p.pos i j k l e.1 = a then p.val a else init a)
    ((pkQuads (p.nbf i) (p.nbf j) (p.nbf k) (p.nbf l)).zipIdx)
    (by
      rintro pre ⟨⟨m, n, o, q⟩, t⟩ hm v hv
      obtain ⟨x, y, z, w, cx, cy, cz, cw, -, -, -, -, hpos, hidx⟩ := one m n o q t hm
      have hlt : t < p.size := by
        have h1 := Qrt.index_lt (q := ⟨⟨x, y⟩, ⟨z, w⟩, 0⟩) psi4_ordOK
          ⟨⟨(isComp_am cx).1, (isComp_am cy).1⟩, ⟨(isComp_am cz).1, (isComp_am cw).1⟩, le_rfl⟩
        have h2 := hp.size i hi j hj k hk l hl
        unfold Qrt.ncart Dbl.ncart at h1
        simp only [(isComp_am cx).2, (isComp_am cy).2, (isComp_am cz).2, (isComp_am cw).2] at h1
        rw [hidx]
        omega
      have hpl : p.pos i j k l (m, n, o, q) < p.nInt := by
        rw [hpos]
        exact lt_of_lt_of_le (at4_lt ⟨hi, cx⟩ ⟨hj, cy⟩ ⟨hk, cz⟩ ⟨hl, cw⟩) hN
      refine ⟨_, if_pos ⟨hlt, hpl⟩, fun a => ?_⟩
      dsimp only
      by_cases ha : a = p.pos i j k l (m, n, o, q)
      · subst ha
        rw [Function.update_self, if_pos (Or.inr ⟨_, List.mem_append_right _ (List.mem_singleton_self _), rfl⟩), hidx,
          ht x y z w cx cy cz cw, hpos, val_at4 ⟨hi, cx⟩ ⟨hj, cy⟩ ⟨hk, cz⟩ ⟨hl, cw⟩]
      · rw [Function.update_of_ne ha, hv a]
        refine if_congr (or_congr Iff.rfl ⟨?_, ?_⟩) rfl rfl
        · rintro ⟨e, he, r⟩
          exact ⟨e, List.mem_append_left _ he, r⟩
        · rintro ⟨e, he, r⟩
          rcases List.mem_append.1 he with he | he
          · exact ⟨e, he, r⟩
          · rw [List.mem_singleton.1 he] at r
            exact absurd r.symm ha)
    [] ints (by
      intro a
      rw [hw a]
      refine if_congr ⟨Or.inl, ?_⟩ rfl rfl
      rintro (h | ⟨e, he, -⟩)
      · exact h
      · cases he)
  refine ⟨v, e, fun a => ?_⟩
  rw [h a]
  refine if_congr ⟨?_, ?_⟩ rfl rfl
  · rintro (⟨q, hq, r⟩ | ⟨⟨⟨m, n, o, q⟩, t⟩, he, r⟩)
    · exact ⟨q, List.mem_append_left _ hq, r⟩
    · obtain ⟨x, y, z, w, cx, cy, cz, cw, -, -, -, -, hpos, -⟩ := one m n o q t he
      exact ⟨_, List.mem_append_right _ (List.mem_singleton_self _), x, y, z, w, cx, cy, cz, cw, hpos ▸ r⟩
  · rintro ⟨q, hq, r⟩
    rcases List.mem_append.1 hq with hq | hq
    · exact Or.inl ⟨q, hq, r⟩
    · rw [List.mem_singleton.1 hq] at r
      obtain ⟨x, y, z, w, cx, cy, cz, cw, r⟩ := r
      refine Or.inr ⟨((cidx psi4List x, cidx psi4List y, cidx psi4List z, cidx psi4List w), _), mem_pkQuads.2
        ⟨?_, ?_, ?_, ?_, rfl⟩, ?_⟩
      · rw [hp.nbf i hi]; exact cidx_comp_lt cx
      · rw [hp.nbf j hj]; exact cidx_comp_lt cy
      · rw [hp.nbf k hk]; exact cidx_comp_lt cz
      · rw [hp.nbf l hl]; exact cidx_comp_lt cw
      · rw [← r, at4_eq]
        unfold PkProg.pos PkProg.num
        simp only [hp.start i hi, hp.start j hj, hp.start k hk, hp.start l hl]

/-- The state after the quartets of a list. -/
def PkProg.After (p : PkProg ℝ) (init : ℕ → ℝ) (vis : List (ℕ × ℕ × ℕ × ℕ)) (st : PkSt ℝ) : Prop :=
  p.Written init vis st.ints ∧ st.nshell = vis.length ∧
    st.nints = (vis.map fun q => p.nbf q.1 * p.nbf q.2.1 * p.nbf q.2.2.1 * p.nbf q.2.2.2).sum

theorem pkQuartet_spec {L : LibCfg} (hL : L.OK) (hp : PkOK L p) (hN : npairs (npairs p.nfun) ≤ p.nInt)
    (sh : ShCfg) (hlen : 0 < sh.len) (big : ℝ) (w : PkMem ℝ) {i j k l : ℕ} (hi : i < p.n)
    (hj : j < p.n) (hk : k < p.n) (hl : l < p.n) {mem : ℕ → ℝ} {P : MSP ℝ × (ℕ → ℝ) × (ℕ → ℝ)}
    (hP : completeList { sh with screening := false } realShOps noScreen big [(p.shell i, p.shell j)] mem = some P)
    {init : ℕ → ℝ} {vis : List (ℕ × ℕ × ℕ × ℕ)} {st : PkSt ℝ} (hst : p.After init vis st) :
    ∃ st', L.pkQuartet realOps realShOps sh big p w P.1 i j k l st = some st' ∧
      p.After init (vis ++ [(i, j, k, l)]) st' := by
  obtain ⟨a1, a2, a3, a4⟩ := And.intro (hp.am i hi) (And.intro (hp.am j hj) (And.intro (hp.am k hk) (hp.am l hl)))
  have ham : ClassUpTo L.use ⟨(p.shell i).am, (p.shell j).am, (p.shell k).am, (p.shell l).am, ""⟩ :=
    ⟨rfl, by unfold QAM.Valid; simp only; omega, by simp only; omega, by simp only; omega, by simp only; omega,
      by simp only; omega⟩
  have h7 : topAM ⟨(p.shell i).am, (p.shell j).am, (p.shell k).am, (p.shell l).am, ""⟩ ≤ 7 := by
    unfold topAM; simp only; omega
  have hps : ∀ a < p.n, ∀ b < p.n, PairsOK [(p.shell a, p.shell b)] := by
    intro a ha b hb q hq
    rw [List.mem_singleton] at hq
    subst hq
    exact ⟨hp.ok a ha, hp.ok b hb, hp.faithful a ha b hb⟩
  obtain ⟨P', Q, r, h1, h2, h3, -, h5, -⟩ := C64_shells_partial L hL ham h7 { sh with screening := false } hlen
    noScreen (fun _ _ _ _ => 0) (fun h => Bool.noConfusion h) big [(p.shell i, p.shell j)]
    [(p.shell k, p.shell l)] (hps i hi j hj) (hps k hk l hl) (by simp) (by simp)
    (by simp only [List.length_singleton, nshellSimd]; omega) mem w.buf p.size
    (by
      have := hp.size i hi j hj k hk l hl
      simp only [List.length_singleton, ncartQ]
      simpa [mul_assoc] using this) w.junk w.scratch w.junkAB w.hmem st.target
  rw [hP] at h1
  obtain rfl := Option.some.inj h1
  obtain ⟨v, ev, hv⟩ := store_spec hp hN hi hj hk hl (target := r.out) (fun x y z u cx cy cz cu => by
    have := h5 0 (by simp) 0 (by simp) x y z u (isComp_am cx).1 (isComp_am cy).1 (isComp_am cz).1 (isComp_am cu).1
      (isComp_am cx).2 (isComp_am cy).2 (isComp_am cz).2 (isComp_am cu).2
    simp only [List.length_singleton, zero_mul, zero_add, List.getElem_cons_zero] at this
    exact this) hst.1
  refine ⟨⟨r.out, v, st.nshell + 1, st.nints + p.nbf i * p.nbf j * p.nbf k * p.nbf l⟩, ?_, hv, ?_, ?_⟩
  · unfold LibCfg.pkQuartet
    rw [h2, Option.bind_some]
    simp only [List.length_singleton] at h3
    rw [h3, Option.bind_some, ev]
    rfl
  · simp only [List.length_append, List.length_singleton, hst.2.1]
  · simp only [List.map_append, List.sum_append, hst.2.2, List.map_cons, List.map_nil, List.sum_cons, List.sum_nil,
      Nat.add_zero]

/-- The quartets of a pass of the outer loops. -/
def rowList (n : ℕ) (ij : ℕ × ℕ) : List (ℕ × ℕ × ℕ × ℕ) :=
  ((triLoop n).filter fun kl => ¬ (ij.1 * (ij.1 + 1) / 2 + ij.2 < kl.1 * (kl.1 + 1) / 2 + kl.2)).map
    fun kl => (ij.1, ij.2, kl.1, kl.2)

theorem pkRow_spec {L : LibCfg} (hL : L.OK) (hp : PkOK L p) (hN : npairs (npairs p.nfun) ≤ p.nInt)
    (sh : ShCfg) (hlen : 0 < sh.len) (big : ℝ) (wl : ℕ × ℕ → ℕ → ℝ) (wr : ℕ × ℕ → ℕ × ℕ → PkMem ℝ) {ij : ℕ × ℕ}
    (hij : ij ∈ triLoop p.n) {init : ℕ → ℝ} {vis : List (ℕ × ℕ × ℕ × ℕ)} {st : PkSt ℝ} (hst : p.After init vis st) :
    ∃ st', L.pkRow realOps realShOps sh big p wl wr st ij = some st' ∧ p.After init (vis ++ rowList p.n ij) st' := by
  obtain ⟨hi, hj⟩ := mem_triLoop.1 hij
  have hj' : ij.2 < p.n := lt_of_le_of_lt hj hi
  obtain ⟨P, eP, -⟩ := complete_listFor { sh with screening := false } hlen noScreen (fun _ _ _ _ => 0)
    (fun h => Bool.noConfusion h) big [(p.shell ij.1, p.shell ij.2)] (by
      intro q hq
      rw [List.mem_singleton] at hq
      subst hq
      exact ⟨hp.ok _ hi, hp.ok _ hj', hp.faithful _ hi _ hj'⟩) (wl ij)
  obtain ⟨st', e, h⟩ := foldlM_inv (fun st kl =>
      if ij.1 * (ij.1 + 1) / 2 + ij.2 < kl.1 * (kl.1 + 1) / 2 + kl.2 then some st
      else L.pkQuartet realOps realShOps sh big p (wr ij kl) P.1 ij.1 ij.2 kl.1 kl.2 st)
    (fun pre st => p.After init (vis ++ ((pre.filter fun kl =>
      ¬ (ij.1 * (ij.1 + 1) / 2 + ij.2 < kl.1 * (kl.1 + 1) / 2 + kl.2)).map
        fun kl => (ij.1, ij.2, kl.1, kl.2))) st) (triLoop p.n)
    (by
      intro pre kl hkl s hs
      obtain ⟨hk, hl⟩ := mem_triLoop.1 hkl
      by_cases hc : ij.1 * (ij.1 + 1) / 2 + ij.2 < kl.1 * (kl.1 + 1) / 2 + kl.2
      · refine ⟨s, if_pos hc, ?_⟩
        rw [List.filter_append, List.filter_cons_of_neg (by simpa using hc), List.filter_nil, List.append_nil]
        exact hs
      · obtain ⟨s', e', h'⟩ := pkQuartet_spec hL hp hN sh hlen big (wr ij kl) hi hj' hk (lt_of_le_of_lt hl hk) eP hs
        refine ⟨s', (if_neg hc).trans e', ?_⟩
        rw [List.filter_append, List.filter_cons_of_pos (by simpa using hc), List.filter_nil, List.map_append,
          ← List.append_assoc]
        exact h')
    [] st (by simpa using hst)
  refine ⟨st', ?_, h⟩
  unfold LibCfg.pkRow
  rw [eP, Option.bind_some]
  exact e

theorem packed_spec {L : LibCfg} (hL : L.OK) (hp : PkOK L p) (hN : npairs (npairs p.nfun) ≤ p.nInt)
    (sh : ShCfg) (hlen : 0 < sh.len) (big : ℝ) (wl : ℕ × ℕ → ℕ → ℝ) (wr : ℕ × ℕ → ℕ × ℕ → PkMem ℝ)
    (target init : ℕ → ℝ) :
    ∃ st, L.packed realOps realShOps sh big p wl wr target init = some st ∧
      p.After init ((triLoop p.n).flatMap (rowList p.n)) st := by
  obtain ⟨st, e, h⟩ := foldlM_inv (L.pkRow realOps realShOps sh big p wl wr)
    (fun pre st => p.After init (pre.flatMap (rowList p.n)) st) (triLoop p.n)
    (by
      intro pre ij hij s hs
      obtain ⟨s', e', h'⟩ := pkRow_spec hL hp hN sh hlen big wl wr hij hs
      refine ⟨s', e', ?_⟩
      rw [List.flatMap_append, List.flatMap_singleton]
      exact h')
    [] ⟨target, init, 0, 0⟩ ⟨fun k => by simp, rfl, rfl⟩
  exact ⟨st, e, h⟩

end

/-- The quartets that are visited. -/
theorem mem_visited {n : ℕ} {q : ℕ × ℕ × ℕ × ℕ} : q ∈ (triLoop n).flatMap (rowList n) ↔ q ∈ canonQuartets n := by
  obtain ⟨i, j, k, l⟩ := q
  simp only [rowList, List.mem_flatMap, List.mem_map, List.mem_filter, canonQuartets, Finset.mem_filter,
    Finset.mem_product, Finset.mem_range, mem_triLoop, decide_eq_true_eq]
  constructor
  · rintro ⟨⟨i', j'⟩, ⟨h1, h2⟩, ⟨k', l'⟩, ⟨⟨h3, h4⟩, h5⟩, e⟩
    simp only [Prod.mk.injEq] at e
    obtain ⟨rfl, rfl, rfl, rfl⟩ := e
    simp only at h1 h2 h3 h4 h5
    exact ⟨⟨h1, by omega, h3, by omega⟩, h2, h4, by omega⟩
  · rintro ⟨⟨h1, h2, h3, h4⟩, h5, h6, h7⟩
    exact ⟨(i, j), ⟨h1, h5⟩, (k, l), ⟨⟨h3, h6⟩, by simp only; omega⟩, rfl⟩

theorem visited_nodup (n : ℕ) : ((triLoop n).flatMap (rowList n)).Nodup := by
  rw [List.nodup_flatMap]
  constructor
  · intro ij _
    refine List.Nodup.map ?_ ((triLoop_nodup n).filter _)
    rintro ⟨a, b⟩ ⟨c, d⟩ h
    simp only [Prod.mk.injEq, true_and] at h
    exact Prod.ext h.1 h.2
  · refine (triLoop_nodup n).imp_of_mem ?_
    intro a b _ _ hab x hxa hxb
    simp only [rowList, List.mem_map] at hxa hxb
    obtain ⟨c, -, rfl⟩ := hxa
    obtain ⟨d, -, e⟩ := hxb
    simp only [Prod.mk.injEq] at e
    exact hab (Prod.ext e.1.symm e.2.1.symm)

theorem rowList_length {n : ℕ} {ij : ℕ × ℕ} (h : ij ∈ triLoop n) :
    (rowList n ij).length = ij.1 * (ij.1 + 1) / 2 + ij.2 + 1 := by
  obtain ⟨h1, h2⟩ := mem_triLoop.1 h
  unfold rowList
  rw [List.length_map, ← List.countP_eq_length_filter]
  have e : (triLoop n).countP (fun kl => decide ¬ (ij.1 * (ij.1 + 1) / 2 + ij.2 < kl.1 * (kl.1 + 1) / 2 + kl.2)) =
      (List.range (n * (n + 1) / 2)).countP fun a => decide ¬ (ij.1 * (ij.1 + 1) / 2 + ij.2 < a) := by
    rw [← triLoop_tri, List.countP_map]
    rfl
  have hlt : ij.1 * (ij.1 + 1) / 2 + ij.2 < n * (n + 1) / 2 := pk_tri_lt h2 h1
  rw [e]
  generalize ij.1 * (ij.1 + 1) / 2 + ij.2 = a at hlt ⊢
  generalize n * (n + 1) / 2 = T at hlt ⊢
  clear e h1 h2 h
  obtain ⟨d, rfl⟩ : ∃ d, T = (a + 1) + d := ⟨T - (a + 1), by omega⟩
  rw [List.range_add (n := a + 1) (m := d), List.countP_append, List.countP_eq_length.2, List.countP_eq_zero.2]
  · simp
  · intro x hx
    obtain ⟨y, -, rfl⟩ := List.mem_map.1 hx
    simp only [decide_eq_true_eq, not_not]
    omega
  · intro x hx
    have := List.mem_range.1 hx
    simp only [decide_eq_true_eq]
    omega

theorem visited_length (n : ℕ) : ((triLoop n).flatMap (rowList n)).length = npairs (npairs n) := by
  rw [List.length_flatMap]
  have e : (triLoop n).map (fun a => (rowList n a).length) =
      ((triLoop n).map fun t => t.1 * (t.1 + 1) / 2 + t.2).map (· + 1) := by
    rw [List.map_map]
    exact List.map_congr_left fun a ha => rowList_length ha
  rw [e, triLoop_tri]
  unfold npairs
  generalize n * (n + 1) / 2 = T
  induction T with
  | zero => rfl
  | succ T ih => rw [List.range_succ, List.map_append, List.sum_append, ih, pk_tri_succ]; simp

/-! ### The property -/

/-- **C78.** For every basis set whose shells the program describes correctly, every vector length, every
order of the recurrences and whatever the memory held before: no buffer is overrun; afterwards every
integral `(fg|he)` of the basis set is found at the packed number of its four functions, also those that
were not computed; places beyond the packed integrals are untouched; and exactly one quartet of shells of
each set of equivalent quartets was computed. -/
theorem C78_packed (L : LibCfg) (hL : L.OK) (sh : ShCfg) (hlen : 0 < sh.len) (big : ℝ) (p : PkProg ℝ) (hp : PkOK L p)
    (hN : npairs (npairs p.nfun) ≤ p.nInt) (wl : ℕ × ℕ → ℕ → ℝ) (wr : ℕ × ℕ → ℕ × ℕ → PkMem ℝ) (target init : ℕ → ℝ) :
    ∃ st, L.packed realOps realShOps sh big p wl wr target init = some st ∧
      (∀ f g h e, p.Fn f → p.Fn g → p.Fn h → p.Fn e → st.ints (p.at4 f g h e) = p.eri f g h e) ∧
      (∀ k, npairs (npairs p.nfun) ≤ k → st.ints k = init k) ∧
      st.nshell = npairs (npairs p.n) ∧ st.nshell = (canonQuartets p.n).card ∧
      st.nints = ∑ q ∈ canonQuartets p.n, ncart (p.shell q.1).am * ncart (p.shell q.2.1).am *
        ncart (p.shell q.2.2.1).am * ncart (p.shell q.2.2.2).am := by
  classical
  obtain ⟨st, e, h1, h2, h3⟩ := packed_spec hL hp hN sh hlen big wl wr target init
  have hset : ((triLoop p.n).flatMap (rowList p.n)).toFinset = canonQuartets p.n := by
    ext q
    rw [List.mem_toFinset, mem_visited]
  refine ⟨st, e, ?_, ?_, ?_, ?_, ?_⟩
  · intro f g h e hf hg hh he
    rw [h1, if_pos, val_at4 hf hg hh he]
    obtain ⟨f', g', h', e', hf', hg', hh', he', q, hc⟩ := canonical f g h e hf hg hh he
    exact ⟨_, mem_visited.2 hc, f'.2, g'.2, h'.2, e'.2, hf'.2, hg'.2, hh'.2, he'.2, q⟩
  · intro k hk
    rw [h1, if_neg]
    rintro ⟨⟨i, j, k', l⟩, hq, x, y, z, w, cx, cy, cz, cw, r⟩
    have hc := mem_visited.1 hq
    simp only [canonQuartets, Finset.mem_filter, Finset.mem_product, Finset.mem_range] at hc
    obtain ⟨⟨hi, hj, hk', hl⟩, -⟩ := hc
    have := at4_lt (p := p) (f := (i, x)) (g := (j, y)) (h := (k', z)) (e := (l, w)) ⟨hi, cx⟩ ⟨hj, cy⟩ ⟨hk', cz⟩ ⟨hl, cw⟩
    simp only at r
    omega
  · rw [h2, visited_length]
  · rw [h2, ← hset, List.toFinset_card_of_nodup (visited_nodup _)]
  · rw [h3, ← hset, List.sum_toFinset _ (visited_nodup _)]
    refine congrArg List.sum (List.map_congr_left fun q hq => ?_)
    have hc := mem_visited.1 hq
    simp only [canonQuartets, Finset.mem_filter, Finset.mem_product, Finset.mem_range] at hc
    obtain ⟨⟨hi, hj, hk', hl⟩, -⟩ := hc
    rw [hp.nbf _ hi, hp.nbf _ hj, hp.nbf _ hk', hp.nbf _ hl]

/-- **C78, no place is left over.** Every place below the number of packed integrals belongs to some four
functions, so `C78_packed` says what all of them hold. -/
theorem C78_dense (p : PkProg ℝ) {k : ℕ} (hk : k < npairs (npairs p.nfun)) :
    ∃ f g h e, p.Fn f ∧ p.Fn g ∧ p.Fn h ∧ p.Fn e ∧ p.at4 f g h e = k := by
  obtain ⟨a, b, ha, hb, rfl⟩ := packIdx_surj hk
  obtain ⟨m, n, hm, hn, rfl⟩ := packIdx_surj ha
  obtain ⟨o, q, ho, hq, rfl⟩ := packIdx_surj hb
  obtain ⟨f, hf, rfl⟩ := fnum_surj hm
  obtain ⟨g, hg, rfl⟩ := fnum_surj hn
  obtain ⟨h, hh, rfl⟩ := fnum_surj ho
  obtain ⟨e, he, rfl⟩ := fnum_surj hq
  exact ⟨f, g, h, e, hf, hg, hh, he, at4_eq f g h e⟩

/-- **C78, symmetry.** Two quadruples of functions share a place only if their integrals are equal. -/
theorem C78_shared (p : PkProg ℝ) {f g h e f' g' h' e' : ℕ × Exp} (hf : p.Fn f) (hg : p.Fn g) (hh : p.Fn h)
    (he : p.Fn e) (hf' : p.Fn f') (hg' : p.Fn g') (hh' : p.Fn h') (he' : p.Fn e')
    (q : p.at4 f g h e = p.at4 f' g' h' e') : p.eri f g h e = p.eri f' g' h' e' :=
  eri_eq hf hg hh he hf' hg' hh' he' q

/-! ### The numbers that the program writes down -/

/-- Five shells of type s, s, p, s, s with any exponents and coefficients and the arrays and sizes of
example_packed.c:90-108. -/
def waterProg (s : ℕ → Shell ℝ) : PkProg ℝ where
  n := 5
  shell i := { s i with am := [0, 0, 1, 0, 0].getD i 0 }
  start i := [0, 1, 2, 5, 6].getD i 0
  nbf i := [1, 1, 3, 1, 1].getD i 0
  size := 81
  nInt := 406

/-- **C78, the program as it is written.** The arrays, 406 packed integrals and 81 elements of `target` fit
the basis set; 120 quartets of shells are computed. -/
theorem C78_water (L : LibCfg) (hL : L.OK) (hu : 1 ≤ L.use) (sh : ShCfg) (hlen : 0 < sh.len) (big : ℝ) (s : ℕ → Shell ℝ)
    (hs : ∀ i < 5, (s i).OK) (hf : ∀ i < 5, ∀ j < 5, Faithful (s i) (s j)) (wl : ℕ × ℕ → ℕ → ℝ)
    (wr : ℕ × ℕ → ℕ × ℕ → PkMem ℝ) (target init : ℕ → ℝ) :
    ∃ st, L.packed realOps realShOps sh big (waterProg s) wl wr target init = some st ∧
      (∀ f g h e, (waterProg s).Fn f → (waterProg s).Fn g → (waterProg s).Fn h → (waterProg s).Fn e →
        st.ints ((waterProg s).at4 f g h e) = (waterProg s).eri f g h e) ∧
      st.nshell = 120 ∧ (waterProg s).nfun = 7 := by
  have hfun : (waterProg s).nfun = 7 := by
    show ∑ k ∈ Finset.range 5, ncart (([0, 0, 1, 0, 0].getD k 0 : ℕ)) = 7
    decide
  have hp : PkOK L (waterProg s) := by
    refine ⟨fun i hi => hs i hi, fun i hi => ?_, fun i hi j hj => hf i hi j hj, fun i hi => ?_, fun i hi => ?_, ?_⟩
    · have : ∀ i < 5, [0, 0, 1, 0, 0].getD i 0 ≤ 1 := by decide
      have := this i hi
      show [0, 0, 1, 0, 0].getD i 0 ≤ min L.use 7
      omega
    · have : ∀ i < 5, [0, 1, 2, 5, 6].getD i 0 = ∑ k ∈ Finset.range i, ncart (([0, 0, 1, 0, 0].getD k 0 : ℕ)) := by
        decide
      exact this i hi
    · have : ∀ i < 5, [1, 1, 3, 1, 1].getD i 0 = ncart (([0, 0, 1, 0, 0].getD i 0 : ℕ)) := by decide
      exact this i hi
    · intro i hi j hj k hk l hl
      have : ∀ i < 5, ncart (([0, 0, 1, 0, 0].getD i 0 : ℕ)) ≤ 3 := by decide
      exact (Nat.mul_le_mul (Nat.mul_le_mul (this i hi) (this j hj)) (Nat.mul_le_mul (this k hk) (this l hl)))
  obtain ⟨st, e, h1, -, h3, -⟩ := C78_packed L hL sh hlen big (waterProg s) hp
    (by rw [hfun]; exact (by decide : npairs (npairs 7) ≤ 406)) wl wr target init
  exact ⟨st, e, h1, h3.trans (by decide : npairs (npairs 5) = 120), hfun⟩

/-- The integral of the x component of the p shell with the last s shell on one side and the first two s
shells on the other is at number 277; the same for another order of the four functions. -/
example (s : ℕ → Shell ℝ) : (waterProg s).at4 (2, ⟨1, 0, 0⟩) (4, ⟨0, 0, 0⟩) (0, ⟨0, 0, 0⟩) (1, ⟨0, 0, 0⟩) = 277 ∧
    (waterProg s).at4 (1, ⟨0, 0, 0⟩) (0, ⟨0, 0, 0⟩) (4, ⟨0, 0, 0⟩) (2, ⟨1, 0, 0⟩) = 277 := by
  have h2 : ∑ k ∈ Finset.range 2, ncart (([0, 0, 1, 0, 0].getD k 0 : ℕ)) = 2 := by decide
  have h4 : ∑ k ∈ Finset.range 4, ncart (([0, 0, 1, 0, 0].getD k 0 : ℕ)) = 6 := by decide
  have h1 : ∑ k ∈ Finset.range 1, ncart (([0, 0, 1, 0, 0].getD k 0 : ℕ)) = 1 := by decide
  have c0 : cidx psi4List ⟨0, 0, 0⟩ = 0 := by decide +kernel
  have c1 : cidx psi4List ⟨1, 0, 0⟩ = 0 := by decide +kernel
  simp only [PkProg.at4, PkProg.num, waterProg, h1, h2, h4, c0, c1, Finset.range_zero, Finset.sum_empty]
  decide

end Simint
