import Verif.GeneralHRR
import Verif.Spec.HRR
import Verif.TypesLemmas
import Verif.Props.Tables

/-! Lemmas for the generic horizontal routines. -/

set_option autoImplicit false

namespace Simint

theorem forEach_eq {R β : Type} {n : ℕ} {f : ℕ → Option (List R)} {L : List β} {g : β → List R}
    (hl : L.length = n) (h : ∀ i (hi : i < L.length), f i = some (g L[i])) :
    forEach n f = some (L.flatMap g) := by
  unfold forEach
  subst hl
  have : ∀ k (hk : k ≤ L.length), (List.range k).foldl
      (fun acc i => acc.bind fun l => (f i).map fun r => l ++ r) (some []) =
      some ((L.take k).flatMap g) := by
    intro k
    induction k with
    | zero => simp
    | succ k ih =>
      intro hk
      rw [List.range_succ, List.foldl_append, ih (by omega)]
      simp only [List.foldl_cons, List.foldl_nil, Option.bind_some, h k (by omega),
        Option.map_some, Option.some.injEq]
      rw [List.take_succ_eq_append_getElem (by omega), List.flatMap_append]
      simp
  have := this L.length le_rfl
  simpa using this

theorem flatMap_length_const {α β : Type} {L : List α} {f : α → List β} {n : ℕ}
    (h : ∀ x ∈ L, (f x).length = n) : (L.flatMap f).length = L.length * n := by
  induction L with
  | nil => simp
  | cons x L ih =>
    rw [List.flatMap_cons, List.length_append, h x (by simp), ih (fun y hy => h y (by simp [hy]))]
    simp only [List.length_cons]; ring

theorem flatMap_get {α β : Type} {f : α → List β} {n : ℕ} : ∀ {L : List α},
    (∀ x ∈ L, (f x).length = n) → ∀ {i j : ℕ} (hi : i < L.length), j < n →
    (L.flatMap f)[i * n + j]? = (f L[i])[j]?
  | [], _, i, _, hi, _ => by simp at hi
  | x :: L, h, 0, j, _, hj => by
    rw [List.flatMap_cons, List.getElem?_append_left (by rw [h x (by simp)]; omega)]
    simp
  | x :: L, h, i + 1, j, hi, hj => by
    have hx := h x (by simp)
    rw [List.flatMap_cons, List.getElem?_append_right (by rw [hx]; nlinarith)]
    have : (i + 1) * n + j - (f x).length = i * n + j := by rw [hx]; rw [Nat.add_mul]; omega
    rw [this, flatMap_get (fun y hy => h y (by simp [hy])) (by simpa using hi) hj]
    simp

theorem nc_eq (n : ℕ) : nc n = ncart n := by simp [nc, ncart, mul_comm]

theorem psi4_length (n : ℕ) : (psi4List n).length = nc n := by rw [(psi4_get n).1, nc_eq]

theorem pairs_length (i j : ℕ) : (pairs psi4List i j).length = nc i * nc j := by
  unfold pairs
  rw [flatMap_length_const (n := nc j) (by simp [psi4_length]), psi4_length]

theorem cidx_psi4_lt {am : ℕ} {e : Exp} (h : IsComp am e) : cidx psi4List e < nc am := by
  have := psi4_ordOK.cidx_lt h.valid
  rwa [h.am_eq, ← nc_eq] at this

theorem psi4_getElem_cidx {am : ℕ} {e : Exp} (h : IsComp am e) :
    ∃ hi : cidx psi4List e < (psi4List am).length, (psi4List am)[cidx psi4List e] = e := by
  have hm : e ∈ psi4List am := (psi4_ordOK.mem _ _).2 h
  have hc : cidx psi4List e = (psi4List am).idxOf e := by
    unfold cidx; rw [h.am_eq]; rfl
  rw [hc]
  exact ⟨List.idxOf_lt_length_of_mem hm, List.getElem_idxOf _⟩

theorem cidx_psi4_getElem {am i : ℕ} (hi : i < (psi4List am).length) :
    IsComp am (psi4List am)[i] ∧ cidx psi4List (psi4List am)[i] = i := by
  have hc : IsComp am (psi4List am)[i] := (psi4_ordOK.mem _ _).1 (List.getElem_mem hi)
  refine ⟨hc, ?_⟩
  unfold cidx
  rw [hc.am_eq]
  exact (psi4_ordOK.nodup am).idxOf_getElem i hi

theorem pairs_get {i j : ℕ} {a b : Exp} (ha : IsComp i a) (hb : IsComp j b) :
    ∃ h : cidx psi4List a * nc j + cidx psi4List b < (pairs psi4List i j).length,
      (pairs psi4List i j)[cidx psi4List a * nc j + cidx psi4List b] = (a, b) := by
  have h1 := cidx_psi4_lt ha
  have h2 := cidx_psi4_lt hb
  obtain ⟨l1, e1⟩ := psi4_getElem_cidx ha
  obtain ⟨l2, e2⟩ := psi4_getElem_cidx hb
  have hlt : cidx psi4List a * nc j + cidx psi4List b < (pairs psi4List i j).length := by
    rw [pairs_length]; exact mix_lt h1 h2
  refine ⟨hlt, ?_⟩
  have := flatMap_get (L := psi4List i) (f := fun a => (psi4List j).map fun b => (a, b))
    (n := nc j) (by simp [psi4_length]) l1 h2
  rw [e1] at this
  rw [← Option.some.injEq, ← List.getElem?_eq_getElem]
  unfold pairs
  rw [this]
  simp [e2, l2]

variable {R : Type}

/-- Reading an element of a block, with the flat position built by the C code. -/
theorem rd_block {i j k l : ℕ} {F : Fam R} {a b : Exp} (ha : IsComp i a) (hb : IsComp j b)
    {n : ℕ} (hn : n < (pairs psi4List k l).length) {z : ℤ}
    (hz : z = (cidx psi4List a * nc j + cidx psi4List b) * (nc k * nc l) + n) :
    rd (block psi4List F i j k l) z =
      some (F a b (pairs psi4List k l)[n].1 (pairs psi4List k l)[n].2) := by
  obtain ⟨h1, h2⟩ := pairs_get ha hb
  have hn' := hn
  rw [pairs_length] at hn'
  have h0 : 0 ≤ z := by rw [hz]; positivity
  have hz' : z.toNat = (cidx psi4List a * nc j + cidx psi4List b) * (nc k * nc l) + n := by
    rw [hz]
    have : (((cidx psi4List a : ℤ) * nc j + cidx psi4List b) * (nc k * nc l) + n) =
      (((cidx psi4List a * nc j + cidx psi4List b) * (nc k * nc l) + n : ℕ) : ℤ) := by push_cast; ring
    rw [this, Int.toNat_natCast]
  rw [rd, if_pos h0, hz']
  have := flatMap_get (L := pairs psi4List i j)
    (f := fun ab => (pairs psi4List k l).map fun cd => F ab.1 ab.2 cd.1 cd.2)
    (n := nc k * nc l) (by simp [pairs_length]) h1 hn'
  unfold block
  rw [this, h2]
  simp [hn]

theorem recAt_psi4 {am i : ℕ} (ham : am ≤ 18) (hi : i < (psi4List am).length) :
    ∃ r, recAt am i = some r ∧
      (∀ d, 0 < (psi4List am)[i].get d →
        r.m1 d = cidx psi4List ((psi4List am)[i].step d (-1))) ∧
      (∀ d, r.m1 d = if ((psi4List am)[i].step d (-1)).Valid then
        (cidx psi4List ((psi4List am)[i].step d (-1)) : ℤ) else -1) ∧
      (∀ d, r.m2 d = if ((psi4List am)[i].step d (-2)).Valid then
        (cidx psi4List ((psi4List am)[i].step d (-2)) : ℤ) else -1) ∧
      (∀ d, r.p1 d = cidx psi4List ((psi4List am)[i].step d 1)) ∧
      (0 < am → ∃ d : Dir, dirOf r.dir = some d ∧ SmallestRight (psi4List am)[i] d ∧
        makDir (psi4List am)[i] = some d) ∧ r.ijk = (psi4List am)[i] := by
  obtain ⟨hc, hi'⟩ := cidx_psi4_getElem hi
  obtain ⟨r, h1, h2, h3, h4, h5, h6, h7⟩ := C07_recur_record ham hc
  rw [hi'] at h1
  refine ⟨r, by rw [recAt, if_pos ham, h1], ?_, h3, h4, h5, ?_, h2⟩
  · intro d hd
    rw [h3, if_pos ((Exp.valid_step_iff _ _ _ hc.valid).2 (by omega))]
  · intro hp
    obtain ⟨d, h8, h9⟩ := h7 hp
    refine ⟨d, ?_, h9, ?_⟩
    · rw [h8]; cases d <;> rfl
    · obtain ⟨d', h10, h11⟩ := makDir_spec hc.valid (by rw [hc.am_eq]; omega)
      rw [h10, smallestRight_unique h9 h11]

theorem dir_pos {e : Exp} {d : Dir} (h : SmallestRight e d) : 0 < e.get d := h.1

theorem isComp_down {n : ℕ} {e : Exp} {d : Dir} (h : IsComp n e) (hd : 0 < e.get d) :
    IsComp (n - 1) (e.step d (-1)) := by
  have h1 := h.valid.get_le_am d
  rw [h.am_eq] at h1
  exact (isComp_step h d (-1) (n - 1) (by omega)).2 (by omega)

theorem isComp_up {n : ℕ} {e : Exp} {d : Dir} (h : IsComp n e) : IsComp (n + 1) (e.step d 1) := by
  have h1 := (Exp.valid_iff _).1 h.valid d
  exact (isComp_step h d 1 (n + 1) (by simp)).2 (by omega)

/-- direction with a default for the (excluded) s case -/
def mdir (e : Exp) : Dir := (makDir e).getD .x

theorem block_nested (F : Fam R) (i j k l : ℕ) : block psi4List F i j k l =
    (psi4List i).flatMap fun a => (psi4List j).flatMap fun b =>
      (pairs psi4List k l).flatMap fun cd => [F a b cd.1 cd.2] := by
  unfold block
  conv_lhs => unfold pairs
  rw [List.flatMap_assoc]
  congr 1; funext a
  rw [List.flatMap_map]
  congr 1; funext b
  rw [List.map_eq_flatMap]; rfl

theorem block_nested' (F : Fam R) (i j k l : ℕ) : block psi4List F i j k l =
    (pairs psi4List i j).flatMap fun ab => (psi4List k).flatMap fun c =>
      (psi4List l).flatMap fun d => [F ab.1 ab.2 c d] := by
  unfold block
  congr 1; funext ab
  unfold pairs
  rw [List.map_flatMap]
  congr 1; funext c
  rw [List.map_map, List.map_eq_flatMap]; rfl

theorem hrrI_op {i j k l : ℕ} (hi : 0 < i) (hi' : i ≤ 18) (hj : j ≤ 18) (op : Dir → R → R → R)
    (F1 F2 : Fam R) :
    generalHrrIOp i j k l op (block psi4List F1 (i - 1) (j + 1) k l)
      (block psi4List F2 (i - 1) j k l) =
    some (block psi4List (fun a b c d =>
      op (mdir a) (F1 (a.step (mdir a) (-1)) (b.step (mdir a) 1) c d)
        (F2 (a.step (mdir a) (-1)) b c d)) i j k l) := by
  rw [generalHrrIOp]
  conv_rhs => rw [block_nested]
  simp only
  refine forEach_eq (psi4_length i) ?_
  intro x hx
  obtain ⟨ri, e1, a1, -, -, a3, a4, -⟩ := recAt_psi4 hi' hx
  obtain ⟨dir, d1, d2, d3⟩ := a4 hi
  have hca := (cidx_psi4_getElem hx).1
  have hmd : mdir (psi4List i)[x] = dir := by simp [mdir, d3]
  rw [e1, Option.bind_some]
  refine forEach_eq (psi4_length j) ?_
  intro y hy
  obtain ⟨rj, e2, -, -, -, b3, -, -⟩ := recAt_psi4 hj hy
  obtain ⟨hcb, hyc⟩ := cidx_psi4_getElem hy
  rw [e2, Option.bind_some, d1, Option.bind_some, hmd]
  refine forEach_eq (pairs_length k l) ?_
  intro n hn
  have r1 := rd_block (F := F1) (i := i - 1) (j := j + 1) (isComp_down hca d2.1)
    (isComp_up (d := dir) hcb) hn
    (z := ri.m1 dir * ↑((j + 2) * (j + 3) / 2) * ↑(nc k * nc l) + rj.p1 dir * ↑(nc k * nc l) + ↑n)
    (by rw [a1 dir d2.1, b3]; simp only [nc]; push_cast; ring)
  have r2 := rd_block (F := F2) (i := i - 1) (j := j) (isComp_down hca d2.1) hcb hn
    (z := ri.m1 dir * ↑(nc j) * ↑(nc k * nc l) + ↑y * ↑(nc k * nc l) + ↑n)
    (by rw [a1 dir d2.1, hyc]; push_cast; ring)
  rw [r1, r2]
  rfl

theorem hrrJ_op {i j k l : ℕ} (hj : 0 < j) (hi' : i ≤ 18) (hj' : j ≤ 18) (op : Dir → R → R → R)
    (F1 F2 : Fam R) :
    generalHrrJOp i j k l op (block psi4List F1 (i + 1) (j - 1) k l)
      (block psi4List F2 i (j - 1) k l) =
    some (block psi4List (fun a b c d =>
      op (mdir b) (F1 (a.step (mdir b) 1) (b.step (mdir b) (-1)) c d)
        (F2 a (b.step (mdir b) (-1)) c d)) i j k l) := by
  rw [generalHrrJOp]
  conv_rhs => rw [block_nested]
  simp only
  refine forEach_eq (psi4_length i) ?_
  intro x hx
  obtain ⟨ri, e1, -, -, -, a3, -, -⟩ := recAt_psi4 hi' hx
  obtain ⟨hca, hxc⟩ := cidx_psi4_getElem hx
  rw [e1, Option.bind_some]
  refine forEach_eq (psi4_length j) ?_
  intro y hy
  obtain ⟨rj, e2, b1, -, -, -, b4, -⟩ := recAt_psi4 hj' hy
  obtain ⟨dir, d1, d2, d3⟩ := b4 hj
  have hmd : mdir (psi4List j)[y] = dir := by simp [mdir, d3]
  obtain ⟨hcb, hyc⟩ := cidx_psi4_getElem hy
  rw [e2, Option.bind_some, d1, Option.bind_some, hmd]
  have hjj : j * (j + 1) / 2 = nc (j - 1) := by
    unfold nc; congr 1
    obtain ⟨j', rfl⟩ : ∃ j', j = j' + 1 := ⟨j - 1, by omega⟩
    simp only [Nat.add_sub_cancel]
  refine forEach_eq (pairs_length k l) ?_
  intro n hn
  have r1 := rd_block (F := F1) (i := i + 1) (j := j - 1) (isComp_up (d := dir) hca)
    (isComp_down hcb d2.1) hn
    (z := ri.p1 dir * ↑(j * (j + 1) / 2) * ↑(nc k * nc l) + rj.m1 dir * ↑(nc k * nc l) + ↑n)
    (by rw [b1 dir d2.1, a3, hjj]; push_cast; ring)
  have r2 := rd_block (F := F2) (i := i) (j := j - 1) hca (isComp_down hcb d2.1) hn
    (z := ↑x * ↑(j * (j + 1) / 2) * ↑(nc k * nc l) + rj.m1 dir * ↑(nc k * nc l) + ↑n)
    (by rw [b1 dir d2.1, hxc, hjj]; push_cast; ring)
  rw [r1, r2]
  rfl

/-- An element of the ket side of a block. -/
theorem rd_block' {i j k l : ℕ} {F : Fam R} {x : ℕ} (hx : x < (pairs psi4List i j).length)
    {c d : Exp} (hc : IsComp k c) (hd : IsComp l d) {z : ℤ}
    (hz : z = x * (nc k * nc l) + (cidx psi4List c * nc l + cidx psi4List d)) :
    rd (block psi4List F i j k l) z =
      some (F (pairs psi4List i j)[x].1 (pairs psi4List i j)[x].2 c d) := by
  obtain ⟨h1, h2⟩ := pairs_get hc hd
  have hn' := h1
  rw [pairs_length] at hn'
  have h0 : 0 ≤ z := by rw [hz]; positivity
  have hz' : z.toNat = x * (nc k * nc l) + (cidx psi4List c * nc l + cidx psi4List d) := by
    rw [hz]
    have : ((x : ℤ) * (nc k * nc l) + (cidx psi4List c * nc l + cidx psi4List d)) =
      ((x * (nc k * nc l) + (cidx psi4List c * nc l + cidx psi4List d) : ℕ) : ℤ) := by
      push_cast; ring
    rw [this, Int.toNat_natCast]
  rw [rd, if_pos h0, hz']
  have := flatMap_get (L := pairs psi4List i j)
    (f := fun ab => (pairs psi4List k l).map fun cd => F ab.1 ab.2 cd.1 cd.2)
    (n := nc k * nc l) (by simp [pairs_length]) hx hn'
  unfold block
  rw [this, List.getElem?_map, List.getElem?_eq_getElem h1, h2]
  simp

theorem hrrK_op {i j k l : ℕ} (hk : 0 < k) (hk' : k ≤ 18) (hl : l ≤ 18) (op : Dir → R → R → R)
    (F1 F2 : Fam R) :
    generalHrrKOp i j k l op (block psi4List F1 i j (k - 1) (l + 1))
      (block psi4List F2 i j (k - 1) l) =
    some (block psi4List (fun a b c d =>
      op (mdir c) (F1 a b (c.step (mdir c) (-1)) (d.step (mdir c) 1))
        (F2 a b (c.step (mdir c) (-1)) d)) i j k l) := by
  rw [generalHrrKOp]
  conv_rhs => rw [block_nested']
  simp only
  have hkk : k * (k + 1) / 2 = nc (k - 1) := by
    unfold nc; congr 1
    obtain ⟨j', rfl⟩ : ∃ j', k = j' + 1 := ⟨k - 1, by omega⟩
    simp only [Nat.add_sub_cancel]
  refine forEach_eq (pairs_length i j) ?_
  intro n hn
  refine forEach_eq (psi4_length k) ?_
  intro x hx
  obtain ⟨ri, e1, a1, -, -, a3, a4, -⟩ := recAt_psi4 hk' hx
  obtain ⟨dir, d1, d2, d3⟩ := a4 hk
  have hca := (cidx_psi4_getElem hx).1
  have hmd : mdir (psi4List k)[x] = dir := by simp [mdir, d3]
  rw [e1, Option.bind_some]
  refine forEach_eq (psi4_length l) ?_
  intro y hy
  obtain ⟨rj, e2, -, -, -, b3, -, -⟩ := recAt_psi4 hl hy
  obtain ⟨hcb, hyc⟩ := cidx_psi4_getElem hy
  rw [e2, Option.bind_some, d1, Option.bind_some, hmd]
  have r1 := rd_block' (F := F1) (k := k - 1) (l := l + 1) hn (isComp_down hca d2.1)
    (isComp_up (d := dir) hcb)
    (z := ↑n * ↑(k * (k + 1) / 2) * ↑((l + 2) * (l + 3) / 2) +
      ri.m1 dir * ↑((l + 2) * (l + 3) / 2) + rj.p1 dir)
    (by rw [a1 dir d2.1, b3, hkk]; simp only [nc]; push_cast; ring)
  have r2 := rd_block' (F := F2) (k := k - 1) (l := l) hn (isComp_down hca d2.1) hcb
    (z := ↑n * ↑(k * (k + 1) / 2) * ↑(nc l) + ri.m1 dir * ↑(nc l) + ↑y)
    (by rw [a1 dir d2.1, hyc, hkk]; push_cast; ring)
  rw [r1, r2]
  rfl

theorem hrrL_op {i j k l : ℕ} (hl : 0 < l) (hk' : k ≤ 18) (hl' : l ≤ 18) (op : Dir → R → R → R)
    (F1 F2 : Fam R) :
    generalHrrLOp i j k l op (block psi4List F1 i j (k + 1) (l - 1))
      (block psi4List F2 i j k (l - 1)) =
    some (block psi4List (fun a b c d =>
      op (mdir d) (F1 a b (c.step (mdir d) 1) (d.step (mdir d) (-1)))
        (F2 a b c (d.step (mdir d) (-1)))) i j k l) := by
  rw [generalHrrLOp]
  conv_rhs => rw [block_nested']
  simp only
  have hll : l * (l + 1) / 2 = nc (l - 1) := by
    unfold nc; congr 1
    obtain ⟨j', rfl⟩ : ∃ j', l = j' + 1 := ⟨l - 1, by omega⟩
    simp only [Nat.add_sub_cancel]
  refine forEach_eq (pairs_length i j) ?_
  intro n hn
  refine forEach_eq (psi4_length k) ?_
  intro x hx
  obtain ⟨ri, e1, -, -, -, a3, -, -⟩ := recAt_psi4 hk' hx
  obtain ⟨hca, hxc⟩ := cidx_psi4_getElem hx
  rw [e1, Option.bind_some]
  refine forEach_eq (psi4_length l) ?_
  intro y hy
  obtain ⟨rj, e2, b1, -, -, -, b4, -⟩ := recAt_psi4 hl' hy
  obtain ⟨dir, d1, d2, d3⟩ := b4 hl
  have hmd : mdir (psi4List l)[y] = dir := by simp [mdir, d3]
  obtain ⟨hcb, hyc⟩ := cidx_psi4_getElem hy
  rw [e2, Option.bind_some, d1, Option.bind_some, hmd]
  have r1 := rd_block' (F := F1) (k := k + 1) (l := l - 1) hn (isComp_up (d := dir) hca)
    (isComp_down hcb d2.1)
    (z := ↑n * ↑((k + 2) * (k + 3) / 2) * ↑(l * (l + 1) / 2) +
      ri.p1 dir * ↑(l * (l + 1) / 2) + rj.m1 dir)
    (by rw [b1 dir d2.1, a3, hll]; simp only [nc]; push_cast; ring)
  have r2 := rd_block' (F := F2) (k := k) (l := l - 1) hn hca (isComp_down hcb d2.1)
    (z := ↑n * ↑(nc k) * ↑(l * (l + 1) / 2) + ↑x * ↑(l * (l + 1) / 2) + rj.m1 dir)
    (by rw [b1 dir d2.1, hxc, hll]; push_cast; ring)
  rw [r1, r2]
  rfl

theorem hrrI_spec [CommRing R] {i j k l : ℕ} (hi : 0 < i) (hi' : i ≤ 18) (hj : j ≤ 18) (AB : Dir → R)
    (F1 F2 : Fam R) :
    generalHrrI i j k l AB (block psi4List F1 (i - 1) (j + 1) k l)
      (block psi4List F2 (i - 1) j k l) =
    some (block psi4List (fun a b c d =>
      F1 (a.step (mdir a) (-1)) (b.step (mdir a) 1) c d -
        AB (mdir a) * F2 (a.step (mdir a) (-1)) b c d) i j k l) :=
  hrrI_op hi hi' hj _ F1 F2

theorem hrrJ_spec [CommRing R] {i j k l : ℕ} (hj : 0 < j) (hi' : i ≤ 18) (hj' : j ≤ 18) (AB : Dir → R)
    (F1 F2 : Fam R) :
    generalHrrJ i j k l AB (block psi4List F1 (i + 1) (j - 1) k l)
      (block psi4List F2 i (j - 1) k l) =
    some (block psi4List (fun a b c d =>
      F1 (a.step (mdir b) 1) (b.step (mdir b) (-1)) c d +
        AB (mdir b) * F2 a (b.step (mdir b) (-1)) c d) i j k l) :=
  hrrJ_op hj hi' hj' _ F1 F2

theorem hrrK_spec [CommRing R] {i j k l : ℕ} (hk : 0 < k) (hk' : k ≤ 18) (hl : l ≤ 18) (CD : Dir → R)
    (F1 F2 : Fam R) :
    generalHrrK i j k l CD (block psi4List F1 i j (k - 1) (l + 1))
      (block psi4List F2 i j (k - 1) l) =
    some (block psi4List (fun a b c d =>
      F1 a b (c.step (mdir c) (-1)) (d.step (mdir c) 1) -
        CD (mdir c) * F2 a b (c.step (mdir c) (-1)) d) i j k l) :=
  hrrK_op hk hk' hl _ F1 F2

theorem hrrL_spec [CommRing R] {i j k l : ℕ} (hl : 0 < l) (hk' : k ≤ 18) (hl' : l ≤ 18) (CD : Dir → R)
    (F1 F2 : Fam R) :
    generalHrrL i j k l CD (block psi4List F1 i j (k + 1) (l - 1))
      (block psi4List F2 i j k (l - 1)) =
    some (block psi4List (fun a b c d =>
      F1 a b (c.step (mdir d) 1) (d.step (mdir d) (-1)) +
        CD (mdir d) * F2 a b c (d.step (mdir d) (-1))) i j k l) :=
  hrrL_op hl hk' hl' _ F1 F2

end Simint
