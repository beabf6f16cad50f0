import Verif.Spec.Boys
import Verif.OneElLoops

/-! Lemmas for the loops of `boys_F_split`. -/

set_option autoImplicit false

open Real

namespace Simint

section
variable {F : Type}

/-- The first `N` vectors of the array exist; elements selected by `W` hold the values `S`. -/
def BFill (N V : ℕ) (S : ℕ → ℕ → F) (W : ℕ → ℕ → Prop) (t : CBuf F) : Prop :=
  N * V ≤ t.size ∧ ∀ m v, m < N → v < V → W m v → t.val (m * V + v) = S m v

variable {N V : ℕ} {S : ℕ → ℕ → F} {W : ℕ → ℕ → Prop} {t : CBuf F}

theorem BFill.get (h : BFill N V S W t) {m v : ℕ} (hm : m < N) (hv : v < V) (hW : W m v) :
    t.get (m * V + v) = some (S m v) := by
  rw [CBuf.get_lt ((row_lt hm hv).trans_le h.1), h.2 m v hm hv hW]

theorem BFill.store (h : BFill N V S W t) {m v : ℕ} (hm : m < N) (hv : v < V) {y : F} (hy : y = S m v)
    (W' : ℕ → ℕ → Prop) (hW : ∀ m' v', m' < N → v' < V → W' m' v' → W m' v' ∨ (m' = m ∧ v' = v)) :
    ∃ t', t.set (m * V + v) y = some t' ∧ BFill N V S W' t' := by
  rw [CBuf.set_lt ((row_lt hm hv).trans_le h.1)]
  refine ⟨_, rfl, h.1, fun m' v' hm' hv' w => ?_⟩
  simp only
  split_ifs with he
  · obtain ⟨rfl, rfl⟩ := row_inj hv' hv he
    exact hy
  · rcases hW m' v' hm' hv' w with h1 | ⟨rfl, rfl⟩
    · exact h.2 m' v' hm' hv' h1
    · exact absurd rfl he

theorem BFill.mono (h : BFill N V S W t) {W' : ℕ → ℕ → Prop}
    (hW : ∀ m v, m < N → v < V → W' m v → W m v) : BFill N V S W' t :=
  ⟨h.1, fun m v hm hv w => h.2 m v hm hv (hW m v hm hv w)⟩

/-- A loop fails if one of its iterations fails in every state. -/
theorem forLoop_none {σ : Type} {lo hi : ℕ} {body : ℕ → σ → Option σ} {i : ℕ} (h1 : lo ≤ i) (h2 : i < hi)
    (hb : ∀ s, body i s = none) (s : σ) : forLoop lo hi body s = none := by
  unfold forLoop
  have hmem : i ∈ List.range' lo (hi - lo) := by
    rw [List.mem_range'_1]; omega
  obtain ⟨l1, l2, e⟩ := List.append_of_mem hmem
  rw [e, List.foldl_append, List.foldl_cons]
  have hn : ∀ l : List ℕ, l.foldl (fun s i => s.bind (body i)) (none : Option σ) = none := by
    intro l
    induction l with
    | nil => rfl
    | cons a l ih => simpa using ih
  cases h : l1.foldl (fun s i => s.bind (body i)) (some s) with
  | none => exact hn l2
  | some a => simpa [hb a] using hn l2

end

/-! ## Values -/

theorem gridGet_some {i j : ℕ} (hi : i < 366) (hj : j < 32) :
    (gridGet (i : ℤ) j : Option ℝ) = some ((boysGridN i j : ℝ) / 10 ^ 34) := by
  unfold gridGet
  rw [if_pos (by omega)]
  simp

theorem gridGet_none (i : ℤ) {j : ℕ} (hj : 32 ≤ j) : (gridGet i j : Option ℝ) = none := by
  unfold gridGet
  rw [if_neg (by omega)]

theorem longfacGet_some {n : ℕ} (h : n < 32) :
    (longfacGet n : Option ℝ) = some ((boysLongfacN.getD n 0 : ℝ) / 10 ^ 18) := by
  unfold longfacGet
  rw [if_pos h]

theorem longfacGet_none {n : ℕ} (h : 32 ≤ n) : (longfacGet n : Option ℝ) = none := by
  unfold longfacGet
  rw [if_neg (by omega)]

theorem lookupIdx_eq {x : ℝ} (hx : 0 ≤ x) : lookupIdx realBoys x = (gridIdx x : ℤ) := by
  unfold lookupIdx realBoys gridIdx
  simp only
  rw [if_pos (by positivity), show 10 * (x + 1 / 20) = 10 * x + 1 / 2 by ring,
    Int.natCast_floor_eq_floor (by positivity)]

theorem gridIdx_lt {x : ℝ} (h : x < 36.5) : gridIdx x < 366 := by
  unfold gridIdx
  rw [Nat.floor_lt' (by norm_num)]
  norm_num at h ⊢
  linarith

theorem gridIdx_near {x : ℝ} (hx : 0 ≤ x) : |(gridIdx x / 10 : ℝ) - x| ≤ 1 / 20 := by
  have h1 := Nat.floor_le (a := 10 * x + 1 / 2) (by positivity)
  have h2 := Nat.lt_floor_add_one (10 * x + 1 / 2)
  unfold gridIdx
  rw [abs_le]
  constructor <;> linarith

theorem taylorAt_some {x : ℝ} {m : ℕ} (hx : 0 ≤ x) (h : x < 36.5) (hm : m ≤ 24) :
    taylorAt realBoys x m = some (shortVal m x) := by
  unfold taylorAt taylorSum
  simp only [lookupIdx_eq hx]
  have hi := gridIdx_lt h
  rw [gridGet_some hi (show m + 0 < 32 by omega), gridGet_some hi (show m + 1 < 32 by omega),
    gridGet_some hi (show m + 2 < 32 by omega), gridGet_some hi (show m + 3 < 32 by omega),
    gridGet_some hi (show m + 4 < 32 by omega), gridGet_some hi (show m + 5 < 32 by omega),
    gridGet_some hi (show m + 6 < 32 by omega), gridGet_some hi (show m + 7 < 32 by omega)]
  simp only [Option.bind_some, Option.map_some, Option.some.injEq, shortVal]
  simp only [Finset.sum_range_succ, Finset.sum_range_zero, Nat.factorial]
  push_cast
  ring

theorem taylorAt_none (x : ℝ) {m : ℕ} (hm : 25 ≤ m) : taylorAt realBoys x m = none := by
  unfold taylorAt taylorSum
  simp only
  rw [gridGet_none _ (show 32 ≤ m + 7 by omega)]
  simp

/-- `sqrt(1/x) (1/x)^m`, `sqrt(pow(x, -(2m+1)))` and `pow(x, -(m+0.5))` are the same. -/
theorem sqrt_mul_pow {x : ℝ} (hx : 0 < x) (m : ℕ) : √(1 / x) * (1 / x) ^ m = x ^ (-((m : ℝ) + 1 / 2)) := by
  rw [one_div, Real.sqrt_eq_rpow, neg_add, rpow_add hx, rpow_neg hx.le, rpow_natCast, rpow_neg hx.le,
    Real.inv_rpow hx.le, inv_pow, mul_comm]

theorem sqrt_pow_odd {x : ℝ} (hx : 0 < x) (m : ℕ) :
    √(x ^ (-((2 * m + 1 : ℕ) : ℝ))) = x ^ (-((m : ℝ) + 1 / 2)) := by
  rw [Real.sqrt_eq_rpow, ← rpow_mul hx.le]
  congr 1
  push_cast
  ring

theorem longSingle_some {x : ℝ} (hx : 0 < x) {n : ℕ} (hn : n < 32) :
    longSingle realBoys x n = some (longVal n x) := by
  unfold longSingle longVal
  rw [longfacGet_some hn]
  simp only [realBoys, Option.map_some]
  rw [sqrt_pow_odd hx]

/-! ## Choice of the function -/

theorem lt_real (a b : ℝ) : realBoys.lt a b = true ↔ a < b := by simp [realBoys]

theorem laneMin_le (V : ℕ) (x : ℕ → ℝ) : ∀ v < V, laneMin realBoys V x ≤ x v := by
  unfold laneMin
  rcases V with _ | V
  · intro v hv; omega
  rw [Nat.add_sub_cancel]
  induction V with
  | zero =>
    intro v hv
    obtain rfl : v = 0 := by omega
    simp
  | succ V ih =>
    intro v hv
    rw [List.range'_concat, List.foldl_append]
    rw [List.foldl_cons, List.foldl_nil]
    set m := (List.range' 1 V).foldl _ _ with hm
    have ih' : ∀ v < V + 1, m ≤ x v := ih
    simp only [lt_real]
    split_ifs with hlt
    · rcases Nat.lt_or_ge v (V + 1) with h | h
      · exact hlt.le.trans (ih' v h)
      · obtain rfl : v = 1 + 1 * V := by omega
        exact le_rfl
    · rcases Nat.lt_or_ge v (V + 1) with h | h
      · exact ih' v h
      · obtain rfl : v = 1 + 1 * V := by omega
        exact not_lt.1 hlt

theorem le_laneMax (V : ℕ) (x : ℕ → ℝ) : ∀ v < V, x v ≤ laneMax realBoys V x := by
  unfold laneMax
  rcases V with _ | V
  · intro v hv; omega
  rw [Nat.add_sub_cancel]
  induction V with
  | zero =>
    intro v hv
    obtain rfl : v = 0 := by omega
    simp
  | succ V ih =>
    intro v hv
    rw [List.range'_concat, List.foldl_append]
    rw [List.foldl_cons, List.foldl_nil]
    set m := (List.range' 1 V).foldl _ _ with hm
    have ih' : ∀ v < V + 1, x v ≤ m := ih
    simp only [lt_real]
    split_ifs with hlt
    · rcases Nat.lt_or_ge v (V + 1) with h | h
      · exact (ih' v h).trans hlt.le
      · obtain rfl : v = 1 + 1 * V := by omega
        exact le_rfl
    · rcases Nat.lt_or_ge v (V + 1) with h | h
      · exact ih' v h
      · obtain rfl : v = 1 + 1 * V := by omega
        exact not_lt.1 hlt

theorem maxX_real : (boysMaxX : ℝ) = 36.5 := by unfold boysMaxX; norm_num

section
variable {V n : ℕ} {x : ℕ → ℝ} {Fd : CBuf ℝ} {N : ℕ}

theorem storeVec_ok {S : ℕ → ℕ → ℝ} {W : ℕ → ℕ → Prop} (h : BFill N V S W Fd) {i : ℕ} (hi : i < N)
    {y : ℕ → ℝ} (hy : ∀ v < V, y v = S i v) :
    ∃ Fd', storeVec V i y Fd = some Fd' ∧ BFill N V S (fun m v => W m v ∨ m = i) Fd' := by
  refine forLoop_then (I := fun k => BFill N V S fun m v => W m v ∨ (m = i ∧ v < k)) (Nat.zero_le V) ?_ ?_ ?_
  · exact h.mono fun m v _ _ w => by rcases w with w | w; exacts [w, absurd w.2 (by omega)]
  · intro k b _ hk hb
    refine hb.store hi hk (hy k hk) _ fun m' v' _ _ w => ?_
    rcases w with w | ⟨w, w'⟩
    · exact Or.inl (Or.inl w)
    · by_cases e : v' = k
      · exact Or.inr ⟨w, e⟩
      · exact Or.inl (Or.inr ⟨w, by omega⟩)
  · intro b hb
    exact hb.mono fun m v _ hv w => by rcases w with w | w; exacts [Or.inl w, Or.inr ⟨w, hv⟩]

/-- One lane, all orders, short range. -/
theorem boysTaylor_ok {S : ℕ → ℕ → ℝ} {W : ℕ → ℕ → Prop} (h : BFill N V S W Fd) {v : ℕ} (hv : v < V)
    (hn : n < N) (h0 : 0 ≤ x v) (h1 : x v < 36.5) (h24 : n ≤ 24)
    (hS : ∀ m ≤ n, shortVal m (x v) = S m v) :
    ∃ Fd', boysTaylor realBoys V v (x v) n Fd = some Fd' ∧
      BFill N V S (fun m w => W m w ∨ (m ≤ n ∧ w = v)) Fd' := by
  refine forLoop_then (I := fun k => BFill N V S fun m w => W m w ∨ (m < k ∧ w = v)) (Nat.zero_le _) ?_ ?_ ?_
  · exact h.mono fun m v _ _ w => by rcases w with w | w; exacts [w, absurd w.1 (by omega)]
  · intro k b _ hk hb
    rw [taylorAt_some h0 h1 (by omega), Option.bind_some, Nat.add_comm v]
    refine hb.store (by omega) hv (hS k (by omega)) _ fun m' v' _ _ w => ?_
    rcases w with w | ⟨w, w'⟩
    · exact Or.inl (Or.inl w)
    · by_cases e : m' = k
      · exact Or.inr ⟨e, w'⟩
      · exact Or.inl (Or.inr ⟨by omega, w'⟩)
  · intro b hb
    exact hb.mono fun m v _ hv w => by rcases w with w | w; exacts [Or.inl w, Or.inr ⟨by omega, w.2⟩]

/-- One lane, all orders, long range. -/
theorem boysLong_ok {S : ℕ → ℕ → ℝ} {W : ℕ → ℕ → Prop} (h : BFill N V S W Fd) {v : ℕ} (hv : v < V)
    (hn : n < N) (h0 : 0 < x v) (h32 : n < 32) (hS : ∀ m ≤ n, longVal m (x v) = S m v) :
    ∃ Fd', boysLong realBoys V v (x v) n Fd = some Fd' ∧
      BFill N V S (fun m w => W m w ∨ (m ≤ n ∧ w = v)) Fd' := by
  refine forLoop_map (I := fun k (st : CBuf ℝ × ℝ) => BFill N V S (fun m w => W m w ∨ (m < k ∧ w = v)) st.1 ∧
      st.2 = √(1 / x v) * (1 / x v) ^ k) (Nat.zero_le _) ⟨?_, ?_⟩ ?_ ?_
  · exact h.mono fun m v _ _ w => by rcases w with w | w; exacts [w, absurd w.1 (by omega)]
  · simp [realBoys]
  · rintro k ⟨b, x2⟩ _ hk ⟨hb, hx2⟩
    simp only at hb hx2
    rw [longfacGet_some (by omega), Option.bind_some, Nat.add_comm v]
    obtain ⟨b', e, hb'⟩ := hb.store (m := k) (v := v) (y := (boysLongfacN.getD k 0 : ℝ) / 10 ^ 18 * x2)
      (by omega) hv
      (by rw [hx2, sqrt_mul_pow h0, ← hS k (by omega), longVal]) (fun m w => W m w ∨ (m < k + 1 ∧ w = v))
      fun m' v' _ _ w => by
        rcases w with w | ⟨w, w'⟩
        · exact Or.inl (Or.inl w)
        · by_cases e : m' = k
          · exact Or.inr ⟨e, w'⟩
          · exact Or.inl (Or.inr ⟨by omega, w'⟩)
    refine ⟨_, by rw [e]; rfl, hb', ?_⟩
    simp only
    rw [hx2, pow_succ]
    ring
  · rintro ⟨b, x2⟩ ⟨hb, _⟩
    exact hb.mono fun m v _ hv w => by rcases w with w | w; exacts [Or.inl w, Or.inr ⟨by omega, w.2⟩]

theorem boysLongVec_ok {S : ℕ → ℕ → ℝ} (h : n < N) (hsz : N * V ≤ Fd.size) (h0 : ∀ v < V, 0 < x v)
    (h32 : n < 32) (hS : ∀ m ≤ n, ∀ v < V, longVal m (x v) = S m v) :
    ∃ Fd', boysLongVec realBoys V x n Fd = some Fd' ∧ BFill N V S (fun m _ => m ≤ n) Fd' := by
  refine forLoop_map (I := fun k (st : CBuf ℝ × (ℕ → ℝ)) => BFill N V S (fun m _ => m < k) st.1 ∧
      ∀ v < V, st.2 v = √(1 / x v) * (1 / x v) ^ k) (Nat.zero_le _) ⟨?_, ?_⟩ ?_ ?_
  · exact ⟨hsz, fun m v _ _ w => absurd w (by omega)⟩
  · simp [realBoys]
  · rintro k ⟨b, x2⟩ _ hk ⟨hb, hx2⟩
    simp only at hb hx2
    rw [longfacGet_some (by omega), Option.bind_some]
    obtain ⟨b', e, hb'⟩ := storeVec_ok hb (i := k) (by omega)
      (y := fun v => (boysLongfacN.getD k 0 : ℝ) / 10 ^ 18 * x2 v)
      (fun v hv => by rw [hx2 v hv, sqrt_mul_pow (h0 v hv), ← hS k (by omega) v hv, longVal])
    refine ⟨_, by rw [e]; rfl, hb'.mono fun m v _ _ w => ?_, fun v hv => ?_⟩
    · by_cases e : m = k
      · exact Or.inr e
      · exact Or.inl (by omega)
    · simp only
      rw [hx2 v hv, pow_succ]
      ring
  · rintro ⟨b, x2⟩ ⟨hb, _⟩
    exact hb.mono fun m v _ hv w => by omega

theorem boysTaylorVec_ok {S : ℕ → ℕ → ℝ} (h : n < N) (hsz : N * V ≤ Fd.size) (h0 : ∀ v < V, 0 ≤ x v)
    (h1 : ∀ v < V, x v < 36.5) (h24 : n ≤ 24) (hS : ∀ m ≤ n, ∀ v < V, shortVal m (x v) = S m v) :
    ∃ Fd', boysTaylorVec realBoys V x n Fd = some Fd' ∧ BFill N V S (fun m _ => m ≤ n) Fd' := by
  refine forLoop_then (I := fun k => BFill N V S fun m v => m ≤ n ∧ v < k) (Nat.zero_le _) ?_ ?_ ?_
  · exact ⟨hsz, fun m v _ _ w => absurd w.2 (by omega)⟩
  · intro k b _ hk hb
    have key := boysTaylor_ok hb hk h (h0 k hk) (h1 k hk) h24 (fun m hm => hS m hm k hk)
    unfold boysTaylor at key
    simp only [Nat.add_comm k] at key
    obtain ⟨b', e, hb'⟩ := key
    exact ⟨b', e, hb'.mono fun m v _ _ w => by
      by_cases e : v = k
      · exact Or.inr ⟨w.1, e⟩
      · exact Or.inl ⟨w.1, by omega⟩⟩
  · intro b hb
    exact hb.mono fun m v _ hv w => ⟨w, hv⟩

/-- Condition under which all accesses to the tables are inside. -/
def TabOK (V n : ℕ) (x : ℕ → ℝ) : Prop := n < 32 ∧ ∀ v < V, x v < 36.5 → n ≤ 24

theorem splitSmall_ok (vec : Bool) (h0 : ∀ v < V, 0 ≤ x v) (ht : TabOK V n x) (hn : n < N)
    (hsz : N * V ≤ Fd.size) :
    ∃ Fd', splitSmall realBoys V vec x n Fd = some Fd' ∧
      BFill N V (fun m v => topVal m (x v)) (fun m _ => m ≤ n) Fd' := by
  unfold splitSmall
  simp only [Bool.and_eq_true, lt_real, maxX_real]
  rcases Nat.eq_zero_or_pos V with rfl | hV
  · have hf : ∀ m v, m < N → v < 0 → m ≤ n → Fd.val (m * 0 + v) = topVal m (x v) := by
      intro m v _ hv; omega
    split_ifs with c1 c2
    · exact boysLongVec_ok hn hsz (by omega) ht.1 (by omega)
    · by_cases h24 : n ≤ 24
      · exact boysTaylorVec_ok hn hsz (by omega) (by omega) h24 (by omega)
      · exact ⟨Fd, by simp [boysTaylorVec, forLoop], hsz, hf⟩
    · exact ⟨Fd, by simp [forLoop], hsz, hf⟩
  split_ifs with c1 c2
  · have hl : ∀ v < V, 36.5 < x v := fun v hv => c1.2.trans_le (laneMin_le V x v hv)
    refine boysLongVec_ok hn hsz (fun v hv => lt_trans (by norm_num) (hl v hv)) ht.1 fun m _ v hv => ?_
    rw [topVal, if_neg (not_lt.2 (hl v hv).le)]
  · have hs : ∀ v < V, x v < 36.5 := fun v hv => (le_laneMax V x v hv).trans_lt c2.2
    refine boysTaylorVec_ok hn hsz h0 hs (ht.2 0 hV (hs 0 hV)) fun m _ v hv => ?_
    rw [topVal, if_pos (hs v hv)]
  · refine forLoop_then (I := fun k => BFill N V (fun m v => topVal m (x v)) fun m v => m ≤ n ∧ v < k)
      (Nat.zero_le _) ?_ ?_ ?_
    · exact ⟨hsz, fun m v _ _ w => absurd w.2 (by omega)⟩
    · intro k b _ hk hb
      have hmono : ∀ b', BFill N V (fun m v => topVal m (x v)) (fun m w => (m ≤ n ∧ w < k) ∨ (m ≤ n ∧ w = k)) b' →
          BFill N V (fun m v => topVal m (x v)) (fun m w => m ≤ n ∧ w < k + 1) b' := fun b' hb' =>
        hb'.mono fun m v _ _ w => by
          by_cases e : v = k
          · exact Or.inr ⟨w.1, e⟩
          · exact Or.inl ⟨w.1, by omega⟩
      split_ifs with hx
      · obtain ⟨b', e, hb'⟩ := boysTaylor_ok hb hk hn (h0 k hk) hx (ht.2 k hk hx)
          (fun m _ => by simp only [topVal, if_pos hx])
        exact ⟨b', e, hmono b' hb'⟩
      · obtain ⟨b', e, hb'⟩ := boysLong_ok hb hk hn (lt_of_lt_of_le (by norm_num) (not_lt.1 hx)) ht.1
          (fun m _ => by simp only [topVal, if_neg hx])
        exact ⟨b', e, hmono b' hb'⟩
    · intro b hb
      exact hb.mono fun m v _ hv w => ⟨w, hv⟩

theorem splitTop_ok {S : ℕ → ℕ → ℝ} (vec : Bool) (h0 : ∀ v < V, 0 ≤ x v) (ht : TabOK V n x) (hn : n < N)
    (hsz : N * V ≤ Fd.size) (hS : ∀ v < V, S n v = topVal n (x v)) :
    ∃ Fd', splitTop realBoys V vec x n Fd = some Fd' ∧ BFill N V S (fun m _ => m = n) Fd' := by
  unfold splitTop
  simp only [Bool.and_eq_true, lt_real, maxX_real]
  have hb0 : BFill N V S (fun m v => m = n ∧ v < 0) Fd := ⟨hsz, fun m v _ _ w => absurd w.2 (by omega)⟩
  have hstep : ∀ {k : ℕ} {b : CBuf ℝ} {y : ℝ}, k < V → BFill N V S (fun m v => m = n ∧ v < k) b →
      y = topVal n (x k) → ∃ b', b.set (n * V + k) y = some b' ∧
        BFill N V S (fun m v => m = n ∧ v < k + 1) b' := by
    intro k b y hk hb hy
    refine hb.store hn hk (by rw [hy, hS k hk]) _ fun m' v' _ _ w => ?_
    by_cases e : v' = k
    · exact Or.inr ⟨w.1, e⟩
    · exact Or.inl ⟨w.1, by omega⟩
  have hend : ∀ b, BFill N V S (fun m v => m = n ∧ v < V) b → BFill N V S (fun m _ => m = n) b :=
    fun b hb => hb.mono fun m v _ hv w => ⟨w, hv⟩
  split_ifs with c1 c2
  · have hl : ∀ v < V, 36.5 < x v := fun v hv => c1.2.trans_le (laneMin_le V x v hv)
    unfold boysLongSingleVec
    rw [longfacGet_some ht.1, Option.bind_some]
    obtain ⟨b', e, hb'⟩ := storeVec_ok hb0 hn
      (y := fun v => (boysLongfacN.getD n 0 : ℝ) / 10 ^ 18 * realBoys.pow (x v) (-((n : ℝ) + 1 / 2)))
      (fun v hv => by
        rw [hS v hv, topVal, if_neg (not_lt.2 (hl v hv).le)]
        rfl)
    exact ⟨b', e, hb'.mono fun m v _ _ w => Or.inr w⟩
  · have hs : ∀ v < V, x v < 36.5 := fun v hv => (le_laneMax V x v hv).trans_lt c2.2
    refine forLoop_then (I := fun k => BFill N V S fun m v => m = n ∧ v < k) (Nat.zero_le _) hb0 ?_ hend
    intro k b _ hk hb
    rw [taylorAt_some (h0 k hk) (hs k hk) (ht.2 k hk (hs k hk)), Option.bind_some]
    exact hstep hk hb (by rw [topVal, if_pos (hs k hk)])
  · refine forLoop_then (I := fun k => BFill N V S fun m v => m = n ∧ v < k) (Nat.zero_le _) hb0 ?_ hend
    intro k b _ hk hb
    split_ifs with hx
    · rw [taylorAt_some (h0 k hk) hx (ht.2 k hk hx), Option.bind_some]
      exact hstep hk hb (by rw [topVal, if_pos hx])
    · rw [longSingle_some (lt_of_lt_of_le (by norm_num) (not_lt.1 hx)) ht.1, Option.bind_some]
      exact hstep hk hb (by rw [topVal, if_neg hx])

theorem recurDown_ok (hn : n < N) {k : ℕ} (hk : k < n)
    (hb : BFill N V (fun m v => downVal m (x v) (n - m)) (fun m _ => k + 1 ≤ m ∧ m ≤ n) Fd) :
    ∃ Fd', recurDown realBoys V x k Fd = some Fd' ∧
      BFill N V (fun m v => downVal m (x v) (n - m)) (fun m _ => k ≤ m ∧ m ≤ n) Fd' := by
  refine forLoop_then (I := fun j => BFill N V (fun m v => downVal m (x v) (n - m))
    fun m v => (k + 1 ≤ m ∧ m ≤ n) ∨ (m = k ∧ v < j)) (Nat.zero_le _) ?_ ?_ ?_
  · exact hb.mono fun m v _ _ w => by rcases w with w | w; exacts [w, absurd w.2 (by omega)]
  · intro j b _ hj hb
    rw [hb.get (m := k + 1) (by omega) hj (Or.inl ⟨le_rfl, by omega⟩), Option.bind_some]
    refine hb.store (by omega) hj ?_ _ fun m' v' _ _ w => ?_
    · rw [show n - k = (n - (k + 1)) + 1 by omega, downVal]
      simp only [realBoys]
      rw [one_div, div_eq_inv_mul]
    · rcases w with w | ⟨w, w'⟩
      · exact Or.inl (Or.inl w)
      · by_cases e : v' = j
        · exact Or.inr ⟨w, e⟩
        · exact Or.inl (Or.inr ⟨w, by omega⟩)
  · intro b hb
    exact hb.mono fun m v _ hv w => by
      by_cases e : m = k
      · exact Or.inr ⟨e, hv⟩
      · exact Or.inl ⟨by omega, w.2⟩

theorem splitLarge_ok (vec : Bool) (h0 : ∀ v < V, 0 ≤ x v) (ht : TabOK V n x) (hn : n < N)
    (hsz : N * V ≤ Fd.size) :
    ∃ Fd', splitLarge realBoys V vec x n Fd = some Fd' ∧
      BFill N V (fun m v => downVal m (x v) (n - m)) (fun m _ => m ≤ n) Fd' := by
  obtain ⟨b, e, hb⟩ := splitTop_ok (S := fun m v => downVal m (x v) (n - m)) vec h0 ht hn hsz
    (fun v _ => by simp only [Nat.sub_self, downVal])
  unfold splitLarge
  rw [e, Option.bind_some]
  refine forLoop_then (I := fun k => BFill N V (fun m v => downVal m (x v) (n - m))
    fun m _ => n - k ≤ m ∧ m ≤ n) (Nat.zero_le _) ?_ ?_ ?_
  · exact hb.mono fun m v _ _ w => by omega
  · intro k b _ hk hb
    obtain ⟨b', e', hb'⟩ := recurDown_ok hn (k := n - 1 - k) (by omega)
      (hb.mono fun m v _ _ w => ⟨by omega, w.2⟩)
    exact ⟨b', e', hb'.mono fun m v _ _ w => ⟨by omega, w.2⟩⟩
  · intro b hb
    exact hb.mono fun m v _ hv w => ⟨by omega, w⟩

end

end Simint
