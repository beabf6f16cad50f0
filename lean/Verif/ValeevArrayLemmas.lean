import Verif.ValeevArrays
import Verif.ValeevLemmas
import Verif.CartLemmas
import Verif.PermuteLemmas
import Verif.GeneralHRRLemmas

/-!
# Lemmas on the arrays of reference values
-/

set_option autoImplicit false

namespace Simint

/-! ## Order of the components -/

theorem refNext_eq {am : ℕ} {e : Exp} (h : IsComp am e) :
    refNext e = if pyValid am (iteratePsi4 am e) then some (iteratePsi4 am e) else none := by
  obtain ⟨h1, h2, h3, h4⟩ := h
  unfold refNext iteratePsi4
  simp only [h4]
  by_cases hz : e.z = am
  · rw [if_pos hz, if_pos hz, if_neg]
    rw [pyValid_iff]; intro hh; have := hh.1; simp at this
  · rw [if_neg hz, if_neg hz]
    have : refValid (if e.z < am - e.x then ⟨e.x, e.y - 1, e.z + 1⟩ else ⟨e.x - 1, am - e.x + 1, 0⟩) =
        pyValid am (if e.z < am - e.x then ⟨e.x, e.y - 1, e.z + 1⟩ else ⟨e.x - 1, am - e.x + 1, 0⟩) := by
      rw [Bool.eq_iff_iff, pyValid_iff]
      unfold refValid IsComp
      split_ifs <;> (simp only [decide_eq_true_eq]; omega)
    rw [this]

theorem refDo_eq {am : ℕ} : ∀ (f : ℕ) (e : Exp), IsComp am e → refDo (f + 1) e = e :: genLoop am f e := by
  intro f
  induction f with
  | zero =>
    intro e _
    rw [refDo, genLoop]
    cases refNext e <;> rfl
  | succ f ih =>
    intro e he
    rw [refDo, refNext_eq he, genLoop]
    by_cases hv : pyValid am (iteratePsi4 am e) = true
    · simp only [hv, if_true]
      rw [ih _ ((pyValid_iff _ _).1 hv)]
    · simp only [hv]
      rfl

theorem refOrder_eq (am : ℕ) : refOrder am = psi4List am := by
  rw [refOrder, refDo_eq _ _ (isComp_start am)]
  rfl

/-- More fuel makes no difference. -/
theorem refDo_fuel (am f : ℕ) (hf : ncart am < f) : refDo f ⟨am, 0, 0⟩ = refOrder am := by
  obtain ⟨f, rfl⟩ : ∃ k, f = k + 1 := ⟨f - 1, by omega⟩
  rw [refOrder_eq, refDo_eq _ _ (isComp_start am)]
  have h1 := generateMap_get am f (by omega)
  have h2 := psi4_get am
  refine List.ext_getElem (by
    have := h1.1; have := h2.1; unfold generateMap at *; omega) fun i ha hb => ?_
  have e1 := h1.2 i (by unfold generateMap; exact ha)
  have e2 := h2.2 i hb
  exact rank_inj e1.1 e2.1 (e1.2.trans e2.2.symm)

/-! ## Nested loops over lists -/

theorem flatMap_get' {α β : Type} {f : α → List β} {n : ℕ} {L : List α} (h : ∀ x ∈ L, (f x).length = n) {i j : ℕ}
    {x : α} (hi : L[i]? = some x) (hj : j < n) : (L.flatMap f)[i * n + j]? = (f x)[j]? := by
  obtain ⟨hl, hx⟩ := List.getElem?_eq_some_iff.1 hi
  rw [flatMap_get h hl hj, hx]

theorem map_get' {α β : Type} {f : α → β} {L : List α} {i : ℕ} {x : α} (hi : L[i]? = some x) :
    (L.map f)[i]? = some (f x) := by rw [List.getElem?_map, hi]; rfl

theorem loop2L {α β γ : Type} (L1 : List α) (L2 : List β) (f : α → β → γ) :
    (L1.flatMap fun a => L2.map fun b => f a b).length = L1.length * L2.length ∧
    ∀ i j a b, L1[i]? = some a → L2[j]? = some b →
      (L1.flatMap fun a => L2.map fun b => f a b)[i * L2.length + j]? = some (f a b) := by
  refine ⟨by rw [flatMap_length_const (n := L2.length) (by simp)], fun i j a b h1 h2 => ?_⟩
  have hj : j < L2.length := (List.getElem?_eq_some_iff.1 h2).1
  rw [flatMap_get' (n := L2.length) (by simp) h1 hj]
  exact map_get' h2

theorem loop4L {α β γ δ ε : Type} (L1 : List α) (L2 : List β) (L3 : List γ) (L4 : List δ) (f : α → β → γ → δ → ε) :
    (L1.flatMap fun a => L2.flatMap fun b => L3.flatMap fun c => L4.map fun d => f a b c d).length =
      L1.length * (L2.length * (L3.length * L4.length)) ∧
    ∀ i j k l a b c d, L1[i]? = some a → L2[j]? = some b → L3[k]? = some c → L4[l]? = some d →
      (L1.flatMap fun a => L2.flatMap fun b => L3.flatMap fun c => L4.map fun d => f a b c d)[
        i * (L2.length * (L3.length * L4.length)) + (j * (L3.length * L4.length) + (k * L4.length + l))]? =
        some (f a b c d) := by
  have e3 : ∀ a b, (L3.flatMap fun c => L4.map fun d => f a b c d).length = L3.length * L4.length :=
    fun a b => (loop2L L3 L4 (f a b)).1
  have e2 : ∀ a, (L2.flatMap fun b => L3.flatMap fun c => L4.map fun d => f a b c d).length =
      L2.length * (L3.length * L4.length) := fun a =>
    flatMap_length_const fun b _ => e3 a b
  refine ⟨flatMap_length_const fun a _ => e2 a, fun i j k l a b c d h1 h2 h3 h4 => ?_⟩
  have hj : j < L2.length := (List.getElem?_eq_some_iff.1 h2).1
  have hk : k < L3.length := (List.getElem?_eq_some_iff.1 h3).1
  have hl : l < L4.length := (List.getElem?_eq_some_iff.1 h4).1
  have b3 : k * L4.length + l < L3.length * L4.length := by nlinarith
  have b2 : j * (L3.length * L4.length) + (k * L4.length + l) < L2.length * (L3.length * L4.length) := by
    have : (j + 1) * (L3.length * L4.length) ≤ L2.length * (L3.length * L4.length) := Nat.mul_le_mul_right _ hj
    rw [Nat.succ_mul] at this
    omega
  rw [flatMap_get' (fun x _ => e2 x) h1 b2, flatMap_get' (fun x _ => e3 a x) h2 b3]
  exact (loop2L L3 L4 (f a b)).2 k l c d h3 h4

/-! ## Stores -/

theorem putAll_iff (size : ℕ) : ∀ (l : List (ℕ × ℝ)) (mem : ℕ → ℝ),
    (putAll size mem l).isSome ↔ ∀ p ∈ l, p.1 < size := by
  intro l
  induction l with
  | nil => intro mem; simp [putAll]
  | cons p l ih =>
    intro mem
    obtain ⟨a, v⟩ := p
    rw [putAll]
    by_cases h : a < size
    · rw [if_pos h, ih]; simp [h]
    · rw [if_neg h]; simp [h]

/-- An address with one value gets it; other addresses keep their contents. -/
theorem putAll_spec (size : ℕ) : ∀ (l : List (ℕ × ℝ)) (mem m' : ℕ → ℝ), putAll size mem l = some m' →
    ∀ a, (∀ v, (a, v) ∈ l → (∀ v', (a, v') ∈ l → v' = v) → m' a = v) ∧ ((∀ v, (a, v) ∉ l) → m' a = mem a) := by
  intro l
  induction l with
  | nil =>
    intro mem m' h a
    simp only [putAll, Option.some.injEq] at h
    subst h
    simp
  | cons p l ih =>
    intro mem m' h a
    obtain ⟨b, w⟩ := p
    rw [putAll] at h
    split_ifs at h with hb
    obtain ⟨i1, i2⟩ := ih _ m' h a
    refine ⟨fun v hv hu => ?_, fun hn => ?_⟩
    · by_cases hl : ∃ v', (a, v') ∈ l
      · obtain ⟨v', hv'⟩ := hl
        have e := hu v' (by simp [hv'])
        subst e
        exact i1 v' hv' fun u hu' => hu u (by simp [hu'])
      · push Not at hl
        rw [i2 hl]
        have : (a, v) = (b, w) := by
          rcases List.mem_cons.1 hv with h | h
          · exact h
          · exact absurd h (hl v)
        simp only [Prod.mk.injEq] at this
        rw [this.1, this.2, Function.update_self]
    · rw [i2 fun v hv => hn v (by simp [hv])]
      refine Function.update_of_ne ?_ _ _
      rintro rfl
      exact hn w (by simp)

theorem putAll_append (size : ℕ) : ∀ (l l' : List (ℕ × ℝ)) (mem : ℕ → ℝ),
    putAll size mem (l ++ l') = (putAll size mem l).bind fun m => putAll size m l' := by
  intro l
  induction l with
  | nil => intro l' mem; simp [putAll]
  | cons p l ih =>
    intro l' mem
    obtain ⟨b, w⟩ := p
    simp only [List.cons_append, putAll]
    split_ifs
    · exact ih _ _
    · rfl

namespace RefArgs

variable (r : RefArgs)

theorem mem_stores {rows : List (List ℝ)} {a : ℕ} {v : ℝ} :
    (a, v) ∈ r.stores rows ↔ ∃ i idx row, rows[i]? = some row ∧ row[idx]? = some v ∧ a = i * r.n234 + idx := by
  unfold stores
  simp only [List.mem_flatMap, List.mem_map, Prod.mk.injEq]
  constructor
  · rintro ⟨⟨row, i⟩, hp, ⟨x, idx⟩, hv, rfl, rfl⟩
    rw [List.mem_zipIdx_iff_getElem?] at hp hv
    exact ⟨i, idx, row, hp, hv, rfl⟩
  · rintro ⟨i, idx, row, h1, h2, rfl⟩
    exact ⟨(row, i), List.mem_zipIdx_iff_getElem?.2 h1, (v, idx), List.mem_zipIdx_iff_getElem?.2 h2, rfl, rfl⟩

/-- Position of a combination of shells of the last three arrays. -/
def shellPos (j k l : ℕ) : ℕ := (j * r.n .K + k) * r.n .L + l

theorem shells_get (i j k l : ℕ) (hj : j < r.n .J) (hk : k < r.n .K) (hl : l < r.n .L) :
    (r.shells i)[r.shellPos j k l]? = some (four (r.sh .I i) (r.sh .J j) (r.sh .K k) (r.sh .L l)) := by
  have h := (loop4L [()] (List.range (r.n .J)) (List.range (r.n .K)) (List.range (r.n .L))
    fun _ j k l => four (r.sh .I i) (r.sh .J j) (r.sh .K k) (r.sh .L l)).2 0 j k l () j k l rfl
    (List.getElem?_range hj) (List.getElem?_range hk) (List.getElem?_range hl)
  simp only [List.flatMap_cons, List.flatMap_nil, List.append_nil, List.length_range] at h
  rw [shells, shellPos]
  convert h using 2
  ring

theorem shells_length (i : ℕ) : (r.shells i).length = r.n .J * r.n .K * r.n .L := by
  have h := (loop4L [()] (List.range (r.n .J)) (List.range (r.n .K)) (List.range (r.n .L))
    fun _ j k l => four (r.sh .I i) (r.sh .J j) (r.sh .K k) (r.sh .L l)).1
  simp only [List.flatMap_cons, List.flatMap_nil, List.append_nil, List.length_range] at h
  rw [shells, h]
  simp [mul_assoc]

theorem shells_mem {i : ℕ} {S : RRType → Shell ℝ} (h : S ∈ r.shells i) :
    ∃ j < r.n .J, ∃ k < r.n .K, ∃ l < r.n .L, S = four (r.sh .I i) (r.sh .J j) (r.sh .K k) (r.sh .L l) := by
  simp only [shells, List.mem_flatMap, List.mem_map, List.mem_range] at h
  obtain ⟨j, hj, k, hk, l, hl, rfl⟩ := h
  exact ⟨j, hj, k, hk, l, hl, rfl⟩

theorem comps_mem {g : RRType → Exp} : g ∈ r.comps ↔ ∀ t, IsComp (r.am t) (g t) := by
  simp only [comps, List.mem_flatMap, List.mem_map, refOrder_eq, psi4_ordOK.mem]
  constructor
  · rintro ⟨a, ha, b, hb, c, hc, d, hd, rfl⟩ t
    cases t <;> assumption
  · intro h
    refine ⟨g .I, h .I, g .J, h .J, g .K, h .K, g .L, h .L, ?_⟩
    funext t
    cases t <;> rfl

theorem comps_length : r.comps.length = r.ncart := by
  have h := (loop4L (refOrder (r.am .I)) (refOrder (r.am .J)) (refOrder (r.am .K)) (refOrder (r.am .L)) four).1
  rw [comps, h]
  simp only [refOrder_eq, (psi4_get _).1, ncart, mul_assoc]

/-- Position of a component: the one of the library. -/
def compPos (g : RRType → Exp) : ℕ := Qrt.index psi4List ⟨⟨g .I, g .J⟩, ⟨g .K, g .L⟩, 0⟩

theorem psi4_cidx_get {n : ℕ} {e : Exp} (h : IsComp n e) : (psi4List n)[cidx psi4List e]? = some e := by
  have ha : e.am.toNat = n := by
    have := h.2.2.2; unfold Exp.am; omega
  rw [cidx, ha]
  exact List.getElem?_idxOf ((psi4_ordOK.mem _ _).2 h)

theorem comps_get {g : RRType → Exp} (h : ∀ t, IsComp (r.am t) (g t)) : r.comps[compPos g]? = some g := by
  have e : ∀ t, (refOrder (r.am t))[cidx psi4List (g t)]? = some (g t) := fun t => by
    rw [refOrder_eq]; exact psi4_cidx_get (h t)
  have h' := (loop4L (refOrder (r.am .I)) (refOrder (r.am .J)) (refOrder (r.am .K)) (refOrder (r.am .L)) four).2
    _ _ _ _ _ _ _ _ (e .I) (e .J) (e .K) (e .L)
  have hl : ∀ t, (refOrder (r.am t)).length = Simint.ncart (g t).am := fun t => by
    rw [refOrder_eq, (psi4_get _).1]
    congr 1
    have := (h t).2.2.2; unfold Exp.am; omega
  rw [comps, compPos, index_pos4, pos4]
  rw [hl, hl, hl] at h'
  convert h' using 2
  · ring
  · funext t
    cases t <;> rfl

theorem compPos_lt {g : RRType → Exp} (h : ∀ t, IsComp (r.am t) (g t)) : compPos g < r.ncart := by
  rw [← r.comps_length]
  exact (List.getElem?_eq_some_iff.1 (r.comps_get h)).1

theorem shellPos_lt {j k l : ℕ} (hj : j < r.n .J) (hk : k < r.n .K) (hl : l < r.n .L) :
    r.shellPos j k l < r.n .J * r.n .K * r.n .L := by
  rw [← r.shells_length 0]
  exact (List.getElem?_eq_some_iff.1 (r.shells_get 0 j k l hj hk hl)).1

/-! ### Rows -/

/-- The row of values `v`. -/
noncomputable def rowOf (v : (RRType → Shell ℝ) → (RRType → Exp) → List ℝ) (i : ℕ) : List ℝ :=
  ((r.shells i).flatMap fun S => r.comps.map fun g => (S, g)).flatMap fun p => v p.1 p.2

/-- The values `v` are those of the computation `val`, and there are `w` for every combination. -/
structure Vals (val : (RRType → Shell ℝ) → (RRType → Exp) → Option (List ℝ))
    (v : (RRType → Shell ℝ) → (RRType → Exp) → List ℝ) (w : ℕ) : Prop where
  eq : ∀ i < r.n .I, ∀ j < r.n .J, ∀ k < r.n .K, ∀ l < r.n .L, ∀ g, (∀ t, IsComp (r.am t) (g t)) →
    val (four (r.sh .I i) (r.sh .J j) (r.sh .K k) (r.sh .L l)) g =
      some (v (four (r.sh .I i) (r.sh .J j) (r.sh .K k) (r.sh .L l)) g)
  len : ∀ S g, (v S g).length = w

variable {r} {val : (RRType → Shell ℝ) → (RRType → Exp) → Option (List ℝ)}
  {v : (RRType → Shell ℝ) → (RRType → Exp) → List ℝ} {w : ℕ}

theorem Vals.row (h : r.Vals val v w) {i : ℕ} (hi : i < r.n .I) : r.row val i = some (r.rowOf v i) := by
  unfold RefArgs.row rowOf
  rw [mapM_map_some (g := fun p => v p.1 p.2)]
  · simp [List.flatMap_def]
  · rintro ⟨S, g⟩ hp
    simp only [List.mem_flatMap, List.mem_map, Prod.mk.injEq] at hp
    obtain ⟨S', hS, g', hg, rfl, rfl⟩ := hp
    obtain ⟨j, hj, k, hk, l, hl, rfl⟩ := r.shells_mem hS
    exact h.eq i hi j hj k hk l hl g' (r.comps_mem.1 hg)

theorem Vals.rows (h : r.Vals val v w) :
    (List.range (r.n .I)).mapM (r.row val) = some ((List.range (r.n .I)).map (r.rowOf v)) :=
  mapM_map_some fun _ hi => h.row (List.mem_range.1 hi)

theorem rowOf_length (hw : ∀ S g, (v S g).length = w) (i : ℕ) : (r.rowOf v i).length = r.n234 * w := by
  unfold rowOf
  rw [flatMap_length_const (n := w) fun p _ => hw p.1 p.2, (loop2L _ _ _).1, r.shells_length, r.comps_length, n234]

theorem rowOf_get (hw : ∀ S g, (v S g).length = w) {i j k l : ℕ} (hj : j < r.n .J) (hk : k < r.n .K)
    (hl : l < r.n .L) {g : RRType → Exp} (hg : ∀ t, IsComp (r.am t) (g t)) {e : ℕ} (he : e < w) :
    (r.rowOf v i)[(r.shellPos j k l * r.ncart + compPos g) * w + e]? =
      (v (four (r.sh .I i) (r.sh .J j) (r.sh .K k) (r.sh .L l)) g)[e]? := by
  unfold rowOf
  have := (loop2L (r.shells i) r.comps fun S g => (S, g)).2 _ _ _ _ (r.shells_get i j k l hj hk hl) (r.comps_get hg)
  rw [r.comps_length] at this
  rw [flatMap_get' (fun p _ => hw p.1 p.2) this he]

/-- Rows that fit into the stride: every element of the output. -/
theorem Vals.stored (h : r.Vals val v w) {size : ℕ} {mem m' : ℕ → ℝ}
    (hm : ((List.range (r.n .I)).mapM (r.row val)).bind (fun rows => putAll size mem (r.stores rows)) = some m')
    (hfit : w = 1 ∨ r.n .I = 1) :
    (∀ i < r.n .I, ∀ j < r.n .J, ∀ k < r.n .K, ∀ l < r.n .L, ∀ g, (∀ t, IsComp (r.am t) (g t)) → ∀ e < w,
      (v (four (r.sh .I i) (r.sh .J j) (r.sh .K k) (r.sh .L l)) g)[e]? =
        some (m' ((((i * r.n .J + j) * r.n .K + k) * r.n .L + l) * (r.ncart * w) + (compPos g * w + e)))) ∧
    ∀ a, r.n .I * (r.n234 * w) ≤ a → m' a = mem a := by
  rw [h.rows, Option.bind_some] at hm
  have hs := putAll_spec size _ mem m' hm
  have hlen := fun i => rowOf_length (r := r) (v := v) h.len i
  refine ⟨fun i hi j hj k hk l hl g hg e he => ?_, fun a ha => ?_⟩
  · have hget := rowOf_get (i := i) h.len hj hk hl hg he
    set x := (v (four (r.sh .I i) (r.sh .J j) (r.sh .K k) (r.sh .L l)) g)[e]'(by rw [h.len]; exact he) with hx
    have hx' : (v (four (r.sh .I i) (r.sh .J j) (r.sh .K k) (r.sh .L l)) g)[e]? = some x :=
      List.getElem?_eq_getElem _
    rw [hx'] at hget ⊢
    set idx := (r.shellPos j k l * r.ncart + compPos g) * w + e with hidx
    have hidx' : idx < r.n234 * w := by
      rw [← hlen i]; exact (List.getElem?_eq_some_iff.1 hget).1
    have hrow : ∀ i < r.n .I, ((List.range (r.n .I)).map (r.rowOf v))[i]? = some (r.rowOf v i) := fun i hi =>
      map_get' (List.getElem?_range hi)
    have haddr : (((i * r.n .J + j) * r.n .K + k) * r.n .L + l) * (r.ncart * w) + (compPos g * w + e) =
        i * r.n234 + idx := by
      rcases hfit with rfl | h1
      · simp only [hidx, shellPos, n234]; ring
      · have : i = 0 := by omega
        subst this
        simp only [hidx, shellPos]; ring
    rw [haddr]
    refine congrArg some (((hs _).1 x ?_ ?_).symm)
    · exact r.mem_stores.2 ⟨i, idx, _, hrow i hi, hget, rfl⟩
    · intro v' hv'
      obtain ⟨i', idx', row, h1, h2, h3⟩ := r.mem_stores.1 hv'
      have hi' : i' < r.n .I := by
        have := (List.getElem?_eq_some_iff.1 h1).1
        simpa using this
      rw [hrow i' hi', Option.some.injEq] at h1
      subst h1
      have hb : idx' < r.n234 * w := by
        rw [← hlen i']; exact (List.getElem?_eq_some_iff.1 h2).1
      have : i = i' ∧ idx = idx' := by
        rcases hfit with rfl | h1
        · rw [mul_one] at hb hidx'
          have hpos : 0 < r.n234 := by omega
          have q1 : (i * r.n234 + idx) / r.n234 = i := by
            rw [mul_comm, Nat.mul_add_div hpos, Nat.div_eq_of_lt hidx', add_zero]
          have q2 : (i' * r.n234 + idx') / r.n234 = i' := by
            rw [mul_comm, Nat.mul_add_div hpos, Nat.div_eq_of_lt hb, add_zero]
          have : i = i' := by rw [← q1, ← q2, h3]
          subst this
          exact ⟨rfl, by omega⟩
        · have a1 : i = 0 := by omega
          have a2 : i' = 0 := by omega
          subst a1; subst a2
          exact ⟨rfl, by omega⟩
      obtain ⟨rfl, rfl⟩ := this
      rw [hget, Option.some.injEq] at h2
      exact h2.symm
  · refine (hs a).2 fun x hx => ?_
    obtain ⟨i', idx', row, h1, h2, h3⟩ := r.mem_stores.1 hx
    have hi' : i' < r.n .I := by
      have := (List.getElem?_eq_some_iff.1 h1).1
      simpa using this
    rw [map_get' (List.getElem?_range hi'), Option.some.injEq] at h1
    subst h1
    have hb : idx' < r.n234 * w := by
      rw [← hlen i']; exact (List.getElem?_eq_some_iff.1 h2).1
    have : (i' + 1) * (r.n234 * w) ≤ r.n .I * (r.n234 * w) := Nat.mul_le_mul_right _ hi'
    rcases hfit with rfl | h1
    · rw [mul_one, Nat.succ_mul] at *; omega
    · have a2 : i' = 0 := by omega
      subst a2
      omega

/-- The last row that covers an address. -/
theorem Vals.lastRow (h : r.Vals val v w) {size : ℕ} {mem m' : ℕ → ℝ}
    (hm : ((List.range (r.n .I)).mapM (r.row val)).bind (fun rows => putAll size mem (r.stores rows)) = some m')
    {i idx : ℕ} {u : ℝ} (hi : i < r.n .I) (hget : (r.rowOf v i)[idx]? = some u)
    (hlast : i + 1 = r.n .I ∨ idx < r.n234) : m' (i * r.n234 + idx) = u := by
  rw [h.rows, Option.bind_some] at hm
  obtain ⟨q, hq⟩ : ∃ q, r.n .I = i + 1 + q := ⟨r.n .I - (i + 1), by omega⟩
  have hp : (List.range (r.n .I)).map (r.rowOf v) = (List.range i).map (r.rowOf v) ++
      ((List.range (q + 1)).map (i + ·)).map (r.rowOf v) := by
    rw [hq, show i + 1 + q = i + (q + 1) by omega, List.range_add, List.map_append]
  obtain ⟨l2, hl2⟩ : ∃ l2 : List (ℕ × ℝ), l2 = ((((List.range (q + 1)).map (i + ·)).map (r.rowOf v)).zipIdx i).flatMap
      fun p => p.1.zipIdx.map fun v => (p.2 * r.n234 + v.2, v.1) := ⟨_, rfl⟩
  have hsplit : r.stores ((List.range (r.n .I)).map (r.rowOf v)) =
      r.stores ((List.range i).map (r.rowOf v)) ++ l2 := by
    rw [hp, hl2]
    simp only [RefArgs.stores]
    rw [List.zipIdx_append, List.flatMap_append]
    simp
  have hmem2 : ∀ a x, (a, x) ∈ l2 ↔ ∃ i' idx', i ≤ i' ∧ i' < r.n .I ∧ (r.rowOf v i')[idx']? = some x ∧
      a = i' * r.n234 + idx' := by
    intro a x
    rw [hl2]
    simp only [List.mem_flatMap, List.mem_map, Prod.mk.injEq]
    constructor
    · rintro ⟨⟨row, i'⟩, hp', ⟨u, idx'⟩, hv', rfl, rfl⟩
      rw [List.mem_zipIdx_iff_getElem?] at hv'
      rw [List.mk_mem_zipIdx_iff_le_and_getElem?_sub] at hp'
      obtain ⟨g1, g2⟩ := hp'
      simp only [List.getElem?_map] at g2
      obtain ⟨g3, g4⟩ : i' - i < q + 1 ∧ row = r.rowOf v i' := by
        by_cases hlt : i' - i < q + 1
        · rw [List.getElem?_range hlt] at g2
          simp only [Option.map_some, Option.some.injEq] at g2
          exact ⟨hlt, by rw [← g2]; congr 1; omega⟩
        · rw [List.getElem?_eq_none (by rw [List.length_range]; omega)] at g2
          simp at g2
      subst g4
      exact ⟨i', idx', g1, by omega, hv', rfl⟩
    · rintro ⟨i', idx', g1, g2, g3, rfl⟩
      refine ⟨(r.rowOf v i', i'), ?_, (x, idx'), List.mem_zipIdx_iff_getElem?.2 g3, rfl, rfl⟩
      rw [List.mk_mem_zipIdx_iff_le_and_getElem?_sub]
      refine ⟨g1, ?_⟩
      rw [List.getElem?_map, List.getElem?_map, List.getElem?_range (by omega)]
      simp only [Option.map_some]
      congr 2
      omega
  rw [hsplit, putAll_append] at hm
  cases hm1 : putAll size mem (r.stores ((List.range i).map (r.rowOf v))) with
  | none => rw [hm1] at hm; simp at hm
  | some m1 =>
    rw [hm1, Option.bind_some] at hm
    refine (putAll_spec size l2 m1 m' hm _).1 _ ((hmem2 _ _).2 ⟨i, idx, le_rfl, hi, hget, rfl⟩) ?_
    intro v' hv'
    obtain ⟨i', idx', g1, g2, g3, g4⟩ := (hmem2 _ _).1 hv'
    have : i' = i := by
      rcases hlast with h' | h'
      · omega
      · by_contra hne
        have : (i + 1) * r.n234 ≤ i' * r.n234 := Nat.mul_le_mul_right _ (by omega)
        rw [Nat.succ_mul] at this
        omega
    subst this
    have : idx' = idx := by omega
    subst this
    rw [hget, Option.some.injEq] at g3
    exact g3.symm

/-- The stores stay inside of the array exactly if it is large enough. -/
theorem Vals.fits (h : r.Vals val v w) (hw : 0 < w) (hpos : 0 < r.n .I ∧ 0 < r.n234) {size : ℕ} {mem : ℕ → ℝ} :
    (((List.range (r.n .I)).mapM (r.row val)).bind (fun rows => putAll size mem (r.stores rows))).isSome ↔
      (r.n .I - 1) * r.n234 + r.n234 * w ≤ size := by
  rw [h.rows, Option.bind_some, putAll_iff]
  have hlen := fun i => rowOf_length (r := r) (v := v) h.len i
  have hp : 0 < r.n234 * w := Nat.mul_pos hpos.2 hw
  constructor
  · intro hall
    have hi : r.n .I - 1 < r.n .I := by omega
    have hb : r.n234 * w - 1 < (r.rowOf v (r.n .I - 1)).length := by rw [hlen]; omega
    have := hall _ (r.mem_stores.2 ⟨r.n .I - 1, r.n234 * w - 1, _, map_get' (List.getElem?_range hi),
      List.getElem?_eq_getElem hb, rfl⟩)
    simp only at this
    omega
  · rintro hs ⟨a, x⟩ hx
    obtain ⟨i', idx', row, h1, h2, rfl⟩ := r.mem_stores.1 hx
    have hi' : i' < r.n .I := by
      have := (List.getElem?_eq_some_iff.1 h1).1
      simpa using this
    rw [map_get' (List.getElem?_range hi'), Option.some.injEq] at h1
    subst h1
    have hb : idx' < r.n234 * w := by
      rw [← hlen i']; exact (List.getElem?_eq_some_iff.1 h2).1
    have : i' * r.n234 ≤ (r.n .I - 1) * r.n234 := Nat.mul_le_mul_right _ (by omega)
    simp only
    omega

end RefArgs

end Simint
