import Verif.Types
import Verif.CartLemmas
import Mathlib.Order.Lattice

namespace Simint

variable {ord : ℕ → List Exp}

/-! ### target loops -/

theorem iterFrom_drop (h : OrdOK ord) (am : ℕ) : ∀ n i, i + n = ncart am →
    ∀ e, (ord am)[i]? = some e → iterFrom ord n e = (ord am).drop i := by
  intro n
  induction n with
  | zero =>
    intro i hi e he
    have := (List.getElem?_eq_some_iff.1 he).1
    rw [h.length] at this; omega
  | succ n ih =>
    intro i hi e he
    obtain ⟨hlt, hget⟩ := List.getElem?_eq_some_iff.1 he
    have hc : IsComp am e := (h.mem _ _).1 (hget ▸ List.getElem_mem hlt)
    have hidx : cidx ord e = i := by
      unfold cidx
      rw [hc.am_eq, Int.toNat_natCast, ← hget]
      exact (h.nodup am).idxOf_getElem i hlt
    rw [List.drop_eq_getElem_cons hlt, hget]
    simp only [iterFrom]
    congr 1
    cases n with
    | zero =>
      simp only [iterFrom]
      rw [List.drop_of_length_le]
      rw [h.length]; omega
    | succ n =>
      have hlt2 : i + 1 < (ord am).length := by rw [h.length]; omega
      have hg : gaussIterate ord e = (ord am)[i + 1] := by
        unfold gaussIterate
        rw [hidx, hc.am_eq, Int.toNat_natCast]
        simp [hlt2]
      rw [hg]
      exact ih (i + 1) (by omega) _ (by simp [hlt2])

theorem loopComps_eq (h : OrdOK ord) (hs : OrdStart ord) (am : ℕ) : loopComps ord am = ord am := by
  have := iterFrom_drop h am (ncart am) 0 (by omega) _ (hs am)
  simpa [loopComps] using this

theorem psi4_start : OrdStart psi4List := by
  intro am; simp [psi4List, generateMap]

/-! ### mixed radix -/

theorem mix_lt {i j m n : ℕ} (hi : i < m) (hj : j < n) : i * n + j < m * n := by
  calc i * n + j < i * n + n := by omega
    _ = (i + 1) * n := by ring
    _ ≤ m * n := Nat.mul_le_mul_right n hi

theorem mix_inj {i j i' j' n : ℕ} (hj : j < n) (hj' : j' < n) (h : i * n + j = i' * n + j') :
    i = i' ∧ j = j' := by
  have hn : 0 < n := by omega
  have h1 : (i * n + j) / n = i := by
    rw [Nat.mul_comm, Nat.mul_add_div hn, Nat.div_eq_of_lt hj]; rfl
  have h2 : (i' * n + j') / n = i' := by
    rw [Nat.mul_comm, Nat.mul_add_div hn, Nat.div_eq_of_lt hj']; rfl
  have : i = i' := by rw [← h1, ← h2, h]
  subst this
  omega

theorem mix_surj {k m n : ℕ} (h : k < m * n) : ∃ i j, i < m ∧ j < n ∧ k = i * n + j := by
  have hn : 0 < n := by
    rcases Nat.eq_zero_or_pos n with rfl | h'
    · simp at h
    · exact h'
  refine ⟨k / n, k % n, ?_, Nat.mod_lt _ hn, ?_⟩
  · exact Nat.div_lt_of_lt_mul (by rw [Nat.mul_comm]; exact h)
  · rw [Nat.mul_comm]; exact (Nat.div_add_mod k n).symm

theorem Dbl.index_lt (h : OrdOK ord) {d : Dbl} (hv : d.Valid) : d.index ord < d.ncart :=
  mix_lt (h.cidx_lt hv.1) (h.cidx_lt hv.2)

theorem Dbl.index_inj (h : OrdOK ord) {d e : Dbl} (hd : d.Valid) (he : e.Valid)
    (hl : d.left.am = e.left.am) (hr : d.right.am = e.right.am)
    (hi : d.index ord = e.index ord) : d = e := by
  unfold Dbl.index at hi
  have h1 := h.cidx_lt hd.2
  have h2 := h.cidx_lt he.2
  rw [hr] at h1 hi
  obtain ⟨a, b⟩ := mix_inj h1 h2 hi
  exact Dbl.ext (h.cidx_inj hd.1 he.1 hl a) (h.cidx_inj hd.2 he.2 hr b)

theorem Dbl.index_surj (h : OrdOK ord) (a b : ℕ) {k : ℕ} (hk : k < Simint.ncart a * Simint.ncart b) :
    ∃ d : Dbl, IsComp a d.left ∧ IsComp b d.right ∧ d.index ord = k := by
  obtain ⟨i, j, hi, hj, rfl⟩ := mix_surj hk
  obtain ⟨e, he, hei, _⟩ := h.cidx_surj a hi
  obtain ⟨f, hf, hfj, _⟩ := h.cidx_surj b hj
  refine ⟨⟨e, f⟩, he, hf, ?_⟩
  simp [Dbl.index, hei, hfj, hf.am_eq]

theorem Qrt.index_lt (h : OrdOK ord) {q : Qrt} (hv : q.Valid) : q.index ord < q.ncart :=
  mix_lt (Dbl.index_lt h hv.1) (Dbl.index_lt h hv.2.1)

theorem Qrt.index_inj (h : OrdOK ord) {p q : Qrt} (hp : p.Valid) (hq : q.Valid)
    (h1 : p.bra.left.am = q.bra.left.am) (h2 : p.bra.right.am = q.bra.right.am)
    (h3 : p.ket.left.am = q.ket.left.am) (h4 : p.ket.right.am = q.ket.right.am)
    (hi : p.index ord = q.index ord) : p.bra = q.bra ∧ p.ket = q.ket := by
  unfold Qrt.index at hi
  have e : p.ket.ncart = q.ket.ncart := by simp [Dbl.ncart, h3, h4]
  have l1 := Dbl.index_lt h hp.2.1
  have l2 := Dbl.index_lt h hq.2.1
  rw [e] at hi l1
  obtain ⟨a, b⟩ := mix_inj l1 l2 hi
  exact ⟨Dbl.index_inj h hp.1 hq.1 h1 h2 a, Dbl.index_inj h hp.2.1 hq.2.1 h3 h4 b⟩

/-! ### target lists -/

theorem mem_doubletTargets (h : OrdOK ord) (hs : OrdStart ord) {a b : ℕ} {d : Dbl} :
    d ∈ doubletTargets ord a b ↔ IsComp a d.left ∧ IsComp b d.right := by
  unfold doubletTargets
  rw [loopComps_eq h hs, loopComps_eq h hs]
  simp only [List.mem_flatMap, List.mem_map]
  constructor
  · rintro ⟨l, hl, r, hr, rfl⟩
    exact ⟨(h.mem _ _).1 hl, (h.mem _ _).1 hr⟩
  · rintro ⟨hl, hr⟩
    exact ⟨d.left, (h.mem _ _).2 hl, d.right, (h.mem _ _).2 hr, rfl⟩

theorem mem_quartetTargets (h : OrdOK ord) (hs : OrdStart ord) {a b c d : ℕ} {q : Qrt} :
    q ∈ quartetTargets ord a b c d ↔ IsComp a q.bra.left ∧ IsComp b q.bra.right ∧
      IsComp c q.ket.left ∧ IsComp d q.ket.right ∧ q.m = 0 := by
  unfold quartetTargets
  rw [loopComps_eq h hs, loopComps_eq h hs, loopComps_eq h hs, loopComps_eq h hs]
  simp only [List.mem_flatMap, List.mem_map]
  constructor
  · rintro ⟨e1, h1, e2, h2, e3, h3, e4, h4, rfl⟩
    exact ⟨(h.mem _ _).1 h1, (h.mem _ _).1 h2, (h.mem _ _).1 h3, (h.mem _ _).1 h4, rfl⟩
  · rintro ⟨h1, h2, h3, h4, hm⟩
    refine ⟨_, (h.mem _ _).2 h1, _, (h.mem _ _).2 h2, _, (h.mem _ _).2 h3, _, (h.mem _ _).2 h4, ?_⟩
    ext <;> simp [hm]

theorem nodup_flatMap_of {α β : Type} (g : β → α) {l : List α} {f : α → List β} (hl : l.Nodup)
    (hf : ∀ a ∈ l, (f a).Nodup) (hg : ∀ a ∈ l, ∀ b ∈ f a, g b = a) : (l.flatMap f).Nodup := by
  rw [List.nodup_flatMap]
  refine ⟨hf, ?_⟩
  refine (List.nodup_iff_pairwise_ne.1 hl).imp_of_mem ?_
  intro a b ha hb hab
  simp only [Function.onFun, List.disjoint_left]
  intro x hx hx'
  exact hab (by rw [← hg a ha x hx, hg b hb x hx'])

theorem nodup_doubletTargets (h : OrdOK ord) (hs : OrdStart ord) (a b : ℕ) :
    (doubletTargets ord a b).Nodup := by
  unfold doubletTargets
  rw [loopComps_eq h hs, loopComps_eq h hs]
  refine nodup_flatMap_of (fun d => d.left) (h.nodup a) ?_ ?_
  · intro l _
    exact (h.nodup b).map (fun r r' hr => by simpa using hr)
  · intro l _ d hd
    obtain ⟨r, _, rfl⟩ := List.mem_map.1 hd
    rfl

theorem nodup_quartetTargets (h : OrdOK ord) (hs : OrdStart ord) (a b c d : ℕ) :
    (quartetTargets ord a b c d).Nodup := by
  unfold quartetTargets
  rw [loopComps_eq h hs, loopComps_eq h hs, loopComps_eq h hs, loopComps_eq h hs]
  refine nodup_flatMap_of (fun q => q.bra.left) (h.nodup a) ?_ ?_
  · intro e1 _
    refine nodup_flatMap_of (fun q => q.bra.right) (h.nodup b) ?_ ?_
    · intro e2 _
      refine nodup_flatMap_of (fun q => q.ket.left) (h.nodup c) ?_ ?_
      · intro e3 _
        exact (h.nodup d).map (fun r r' hr => by simpa using hr)
      · intro e3 _ q hq
        obtain ⟨r, _, rfl⟩ := List.mem_map.1 hq
        rfl
    · intro e2 _ q hq
      simp only [List.mem_flatMap, List.mem_map] at hq
      obtain ⟨_, _, _, _, rfl⟩ := hq
      rfl
  · intro e1 _ q hq
    simp only [List.mem_flatMap, List.mem_map] at hq
    obtain ⟨_, _, _, _, _, _, rfl⟩ := hq
    rfl

/-! ### strict total orders -/

/-- `lt` is a strict total order on the keys satisfying `P`. -/
structure StrictTotalOn {α : Type} (P : α → Prop) (lt : α → α → Prop) : Prop where
  irrefl : ∀ a, P a → ¬ lt a a
  trans : ∀ a b c, P a → P b → P c → lt a b → lt b c → lt a c
  tri : ∀ a b, P a → P b → lt a b ∨ a = b ∨ lt b a

theorem StrictTotalOn.lex {α β : Type} {P : α → Prop} {Q : β → Prop} {r : α → α → Prop}
    {s : β → β → Prop} (hr : StrictTotalOn P r) (hs : StrictTotalOn Q s) :
    StrictTotalOn (fun p : α × β => P p.1 ∧ Q p.2)
      (fun p q => r p.1 q.1 ∨ (p.1 = q.1 ∧ s p.2 q.2)) where
  irrefl := by
    rintro ⟨a, b⟩ ⟨ha, hb⟩ (h | ⟨_, h⟩)
    · exact hr.irrefl a ha h
    · exact hs.irrefl b hb h
  trans := by
    rintro ⟨a, b⟩ ⟨a', b'⟩ ⟨a'', b''⟩ ⟨ha, hb⟩ ⟨ha', hb'⟩ ⟨ha'', hb''⟩ h1 h2
    simp only at *
    rcases h1 with h1 | ⟨rfl, h1⟩ <;> rcases h2 with h2 | ⟨rfl, h2⟩
    · exact Or.inl (hr.trans _ _ _ ha ha' ha'' h1 h2)
    · exact Or.inl h1
    · exact Or.inl h2
    · exact Or.inr ⟨rfl, hs.trans _ _ _ hb hb' hb'' h1 h2⟩
  tri := by
    rintro ⟨a, b⟩ ⟨a', b'⟩ ⟨ha, hb⟩ ⟨ha', hb'⟩
    simp only [Prod.mk.injEq] at *
    rcases hr.tri a a' ha ha' with h | rfl | h
    · exact Or.inl (Or.inl h)
    · rcases hs.tri b b' hb hb' with h | rfl | h
      · exact Or.inl (Or.inr ⟨rfl, h⟩)
      · exact Or.inr (Or.inl ⟨rfl, rfl⟩)
      · exact Or.inr (Or.inr (Or.inr ⟨rfl, h⟩))
    · exact Or.inr (Or.inr (Or.inl h))

theorem StrictTotalOn.comap {α β : Type} {P : α → Prop} {r : α → α → Prop} {P' : β → Prop}
    {r' : β → β → Prop} (h : StrictTotalOn P r) (f : β → α) (hP : ∀ b, P' b → P (f b))
    (hf : ∀ a b, P' a → P' b → f a = f b → a = b)
    (hrel : ∀ a b, P' a → P' b → (r' a b ↔ r (f a) (f b))) : StrictTotalOn P' r' where
  irrefl a ha hh := h.irrefl _ (hP a ha) ((hrel a a ha ha).1 hh)
  trans a b c ha hb hc h1 h2 := (hrel a c ha hc).2
    (h.trans _ _ _ (hP a ha) (hP b hb) (hP c hc) ((hrel a b ha hb).1 h1) ((hrel b c hb hc).1 h2))
  tri a b ha hb := by
    rcases h.tri _ _ (hP a ha) (hP b hb) with h' | h' | h'
    · exact Or.inl ((hrel a b ha hb).2 h')
    · exact Or.inr (Or.inl (hf a b ha hb h'))
    · exact Or.inr (Or.inr ((hrel b a hb ha).2 h'))

theorem StrictTotalOn.of_linear (α : Type) [LinearOrder α] :
    StrictTotalOn (fun _ : α => True) (fun a b => a < b) where
  irrefl a _ := lt_irrefl a
  trans _ _ _ _ _ _ := lt_trans
  tri a b _ _ := lt_trichotomy a b

theorem gaussLt_sto (h : OrdOK ord) :
    StrictTotalOn Exp.Valid (fun a b => gaussLt ord a b = true) := by
  refine (StrictTotalOn.lex (StrictTotalOn.of_linear ℤ) (StrictTotalOn.of_linear ℕ)).comap
    (fun e => (e.am, cidx ord e)) (fun _ _ => ⟨trivial, trivial⟩) ?_ ?_
  · intro a b ha hb hab
    simp only [Prod.mk.injEq] at hab
    exact h.cidx_inj ha hb hab.1 hab.2
  · intro a b ha hb
    unfold gaussLt
    split_ifs <;> simp [*]

section
variable {τ : Type} [LinearOrder τ]

/-- Both Gaussians valid and the doublet of the given type (the generator never mixes bra and
ket doublets in one set). -/
def TDoublet.Ok (t : DType) (d : TDoublet τ) : Prop := d.left.Valid ∧ d.right.Valid ∧ d.type = t

def TQuartet.Ok (q : TQuartet τ) : Prop := q.bra.Ok .bra ∧ q.ket.Ok .ket

theorem doubletLt_sto (h : OrdOK ord) (t : DType) :
    StrictTotalOn (TDoublet.Ok (τ := τ) t) (fun a b => doubletLt ord a b = true) := by
  refine (StrictTotalOn.lex (StrictTotalOn.of_linear ℤ) (StrictTotalOn.lex (gaussLt_sto h)
    (StrictTotalOn.lex (gaussLt_sto h) (StrictTotalOn.of_linear τ)))).comap
    (fun d => (d.am, d.left, d.right, d.tag)) ?_ ?_ ?_
  · rintro d ⟨h1, h2, _⟩
    exact ⟨trivial, h1, h2, trivial⟩
  · rintro a b ⟨_, _, ha⟩ ⟨_, _, hb⟩ hab
    simp only [Prod.mk.injEq] at hab
    exact TDoublet.ext (ha.trans hb.symm) hab.2.1 hab.2.2.1 hab.2.2.2
  · intro a b _ _
    unfold doubletLt
    split_ifs <;> simp_all

theorem quartetLt_sto (h : OrdOK ord) :
    StrictTotalOn (TQuartet.Ok (τ := τ)) (fun a b => quartetLt ord a b = true) := by
  refine (StrictTotalOn.lex (StrictTotalOn.of_linear ℤ) (StrictTotalOn.lex (doubletLt_sto h .bra)
    (StrictTotalOn.lex (doubletLt_sto h .ket)
      (StrictTotalOn.lex (StrictTotalOn.of_linear ℤ) (StrictTotalOn.of_linear τ))))).comap
    (fun q => (q.am, q.bra, q.ket, q.m, q.tag)) ?_ ?_ ?_
  · rintro q ⟨h1, h2⟩
    exact ⟨trivial, h1, h2, trivial, trivial⟩
  · rintro a b _ _ hab
    simp only [Prod.mk.injEq] at hab
    exact TQuartet.ext hab.2.1 hab.2.2.1 hab.2.2.2.1 hab.2.2.2.2
  · rintro a b ⟨ha, ha'⟩ ⟨hb, hb'⟩
    have e1 : doubletEq a.bra b.bra = true ↔ a.bra = b.bra := by
      simp only [doubletEq, decide_eq_true_eq]
      constructor
      · rintro ⟨p, q, r, s⟩; exact TDoublet.ext r p q s
      · intro p; simp [p]
    have e2 : doubletEq a.ket b.ket = true ↔ a.ket = b.ket := by
      simp only [doubletEq, decide_eq_true_eq]
      constructor
      · rintro ⟨p, q, r, s⟩; exact TDoublet.ext r p q s
      · intro p; simp [p]
    unfold quartetLt
    split_ifs <;> simp_all

theorem qamLt_sto : StrictTotalOn (fun _ : TQAM τ => True) (fun a b => qamLt a b = true) := by
  refine (StrictTotalOn.lex (StrictTotalOn.of_linear ℤ) (StrictTotalOn.lex
    (StrictTotalOn.of_linear ℤ) (StrictTotalOn.lex (StrictTotalOn.of_linear ℤ)
      (StrictTotalOn.lex (StrictTotalOn.of_linear ℤ) (StrictTotalOn.of_linear τ))))).comap
    (fun q => (q.a, q.b, q.c, q.d, q.tag)) ?_ ?_ ?_
  · intro q _; exact ⟨trivial, trivial, trivial, trivial, trivial⟩
  · intro a b _ _ hab
    simp only [Prod.mk.injEq] at hab
    exact TQAM.ext hab.1 hab.2.1 hab.2.2.1 hab.2.2.2.1 hab.2.2.2.2
  · intro p q _ _
    unfold qamLt
    by_cases ha : p.a = q.a <;> by_cases hb : p.b = q.b <;> by_cases hc : p.c = q.c <;>
      by_cases hd : p.d = q.d <;> simp [*]
end

theorem hashExp_eq {a b c : ℕ} (ha : a < 256) (hb : b < 256) :
    hashExp a b c = a + 256 * b + 65536 * c := by
  unfold hashExp
  simp only [Nat.shiftLeft_zero, Nat.zero_or]
  have h1 : a ||| (b <<< 8) = b <<< 8 + a := by
    rw [Nat.or_comm]; exact (Nat.shiftLeft_add_eq_or_of_lt (by simpa using ha) b).symm
  rw [h1]
  have h2 : (b <<< 8 + a) < 2 ^ 16 := by rw [Nat.shiftLeft_eq]; omega
  rw [Nat.or_comm, ← Nat.shiftLeft_add_eq_or_of_lt h2 c, Nat.shiftLeft_eq, Nat.shiftLeft_eq]
  omega

end Simint
