import Verif.Props.ValeevArrays

/-!
# Lemmas on the numerical derivatives of the reference program
-/

set_option autoImplicit false

open Real

namespace Simint

/-- The shells with coordinate `d` of center `t` moved by `x`. -/
noncomputable def shiftS (S : RRType → Shell ℝ) (t : RRType) (d : Dir) (x : ℝ) : RRType → Shell ℝ :=
  Function.update S t (copyMove (S t) d x)

theorem shiftS_eq (S : RRType → Shell ℝ) (t : RRType) (d : Dir) (x : ℝ) :
    shiftS S t d x = moveS S t d ((S t).pos d + x) := by
  funext s
  unfold shiftS moveS copyMove
  by_cases h : s = t
  · subst h; simp
  · rw [Function.update_of_ne h, if_neg h]

theorem shiftS_am (S : RRType → Shell ℝ) (t : RRType) (d : Dir) (x : ℝ) (s : RRType) :
    (shiftS S t d x s).am = (S s).am := by
  unfold shiftS
  by_cases h : s = t
  · subst h; simp [copyMove]
  · rw [Function.update_of_ne h]

theorem shiftS_pos {S : RRType → Shell ℝ} (h : PosExp S) (t : RRType) (d : Dir) (x : ℝ) : PosExp (shiftS S t d x) := by
  intro s m hm
  unfold shiftS at hm ⊢
  by_cases hs : s = t
  · subst hs
    simp only [Function.update_self, copyMove] at hm ⊢
    exact h s m hm
  · rw [Function.update_of_ne hs] at hm ⊢
    exact h s m hm

theorem shiftERI (S : RRType → Shell ℝ) (g : RRType → Exp) (t : RRType) (d : Dir) (x : ℝ) :
    shellERI (shiftS S t d x .I) (shiftS S t d x .J) (shiftS S t d x .K) (shiftS S t d x .L) (g .I) (g .J) (g .K) (g .L) =
      movedERI (S .I) (S .J) (S .K) (S .L) (g .I) (g .J) (g .K) (g .L) t d ((S t).pos d + x) := by
  rw [shiftS_eq, movedERI_eq]

theorem moveS_moveS (S : RRType → Shell ℝ) (t : RRType) (d : Dir) (v x : ℝ) :
    moveS (moveS S t d v) t d x = moveS S t d x := by
  funext s
  unfold moveS
  by_cases h : s = t
  · simp [h]
  · simp [h]

/-- The integral is differentiable everywhere. -/
theorem movedERI_hasDerivAt {S : RRType → Shell ℝ} (hS : PosExp S) {g : RRType → Exp} (hg : ∀ t, (g t).Valid)
    (t : RRType) (d : Dir) (v : ℝ) :
    HasDerivAt (movedERI (S .I) (S .J) (S .K) (S .L) (g .I) (g .J) (g .K) (g .L) t d)
      (gradERI (moveS S t d v) g t d) v := by
  have hp : PosExp (moveS S t d v) := by
    have := shiftS_pos hS t d (v - (S t).pos d)
    rwa [shiftS_eq, add_sub_cancel] at this
  have h := gradERI_hasDerivAt hp hg t d
  have e : movedERI (moveS S t d v .I) (moveS S t d v .J) (moveS S t d v .K) (moveS S t d v .L) (g .I) (g .J) (g .K)
      (g .L) t d = movedERI (S .I) (S .J) (S .K) (S .L) (g .I) (g .J) (g .K) (g .L) t d := by
    funext x
    rw [movedERI_eq, movedERI_eq, moveS_moveS]
  rw [e] at h
  have ec : (moveS S t d v t).pos d = v := by simp [moveS]
  rwa [ec] at h

/-- The integrals of one combination of shells in a buffer of the right size. -/
theorem oneQuartet_eq {bf : ℕ → ℝ → Option (List ℝ)} {S : RRType → Shell ℝ} (hS : PosExp S)
    (hn : amSum (fun t => (S t).am) < 200) (hb : BoysExact bf S (amSum fun t => (S t).am)) (junk : ℕ → ℝ) {size : ℕ}
    (hs : size = ncart (S .I).am * ncart (S .J).am * ncart (S .K).am * ncart (S .L).am) :
    ∃ b, oneQuartet bf false junk S size = some b ∧ ∀ g : RRType → Exp, (∀ t, IsComp (S t).am (g t)) →
      b (RefArgs.compPos g) = shellERI (S .I) (S .J) (S .K) (S .L) (g .I) (g .J) (g .K) (g .L) := by
  have hf : ∀ i : ℕ, ∀ j k l : ℕ, four ((⟨fun t _ => S t, fun _ => 1⟩ : RefArgs).sh .I i)
      ((⟨fun t _ => S t, fun _ => 1⟩ : RefArgs).sh .J j) ((⟨fun t _ => S t, fun _ => 1⟩ : RefArgs).sh .K k)
      ((⟨fun t _ => S t, fun _ => 1⟩ : RefArgs).sh .L l) = S := fun _ _ _ _ => by
    funext t; cases t <;> rfl
  have hok : RefOK ⟨fun t _ => S t, fun _ => 1⟩ bf 0 :=
    ⟨fun i _ j _ k _ l _ => by rw [hf]; exact hS, hn, fun i _ j _ k _ l _ => by rw [hf]; exact hb⟩
  have hc : (⟨fun t _ => S t, fun _ => 1⟩ : RefArgs).n234 = size := by
    rw [hs]; simp [RefArgs.n234, RefArgs.ncart, RefArgs.am]
  obtain ⟨b, h1, h2, -⟩ := C74_values hok (size := size) (by rw [hc]; simp) junk
  refine ⟨b, h1, fun g hg => ?_⟩
  have := h2 0 one_pos 0 one_pos 0 one_pos 0 one_pos (g .I) (g .J) (g .K) (g .L) ⟨hg .I, hg .J, hg .K, hg .L⟩
  simpa [RefArgs.quartet, RefArgs.compPos] using this

/-- Three digits: block of twelve times `N`, block of `N`, rest. -/
theorem digits {N q b x q' b' x' : ℕ} (hb : b < 12) (hx : x < N) (hb' : b' < 12) (hx' : x' < N)
    (h : q * (N * 12) + b * N + x = q' * (N * 12) + b' * N + x') : q = q' ∧ b = b' ∧ x = x' := by
  have hN : 0 < N := by omega
  have e : ∀ q b x : ℕ, q * (N * 12) + b * N + x = N * (q * 12 + b) + x := fun q b x => by ring
  rw [e, e] at h
  have h1 : (N * (q * 12 + b) + x) / N = q * 12 + b := by
    rw [Nat.mul_add_div hN, Nat.div_eq_of_lt hx, add_zero]
  have h2 : (N * (q' * 12 + b') + x') / N = q' * 12 + b' := by
    rw [Nat.mul_add_div hN, Nat.div_eq_of_lt hx', add_zero]
  have h3 : q * 12 + b = q' * 12 + b' := by rw [← h1, ← h2, h]
  have : q = q' ∧ b = b' := by omega
  obtain ⟨rfl, rfl⟩ := this
  exact ⟨rfl, rfl, by omega⟩

namespace RefArgs

variable {r : RefArgs}

theorem quartets_get {i j k l : ℕ} (hi : i < r.n .I) (hj : j < r.n .J) (hk : k < r.n .K) (hl : l < r.n .L) :
    r.quartets[r.quartet i j k l]? = some (four (r.sh .I i) (r.sh .J j) (r.sh .K k) (r.sh .L l)) := by
  have h := flatMap_get' (f := r.shells) (fun x _ => r.shells_length x) (List.getElem?_range hi)
    (r.shellPos_lt hj hk hl)
  rw [r.shells_get i j k l hj hk hl] at h
  rw [quartets, ← h]
  congr 1
  simp only [quartet, shellPos]; ring

theorem quartets_length : r.quartets.length = r.n .I * (r.n .J * r.n .K * r.n .L) := by
  rw [quartets, flatMap_length_const fun x _ => r.shells_length x, List.length_range]

theorem quartets_mem {S : RRType → Shell ℝ} (h : S ∈ r.quartets) :
    ∃ i < r.n .I, ∃ j < r.n .J, ∃ k < r.n .K, ∃ l < r.n .L,
      S = four (r.sh .I i) (r.sh .J j) (r.sh .K k) (r.sh .L l) := by
  simp only [quartets, List.mem_flatMap, List.mem_range] at h
  obtain ⟨i, hi, h⟩ := h
  obtain ⟨j, hj, k, hk, l, hl, e⟩ := r.shells_mem h
  exact ⟨i, hi, j, hj, k, hk, l, hl, e⟩

theorem refBlocks_spec : ∀ b ∈ refBlocks, b.1 = 3 * b.2.1.idx + b.2.2.idx ∧ b.1 < 12 := by decide

theorem refBlocks_mem (t : RRType) (d : Dir) : (3 * t.idx + d.idx, t, d) ∈ refBlocks := by
  cases t <;> cases d <;> decide

/-- The stores of `numDeriv1` for values `v` of a combination of shells, a coordinate and a number of a component. -/
def numStores (r : RefArgs) (v : (RRType → Shell ℝ) → RRType → Dir → ℕ → ℝ) : List (ℕ × ℝ) :=
  (r.quartets.zipIdx.map fun q => (refBlocks.map fun b => (List.range r.ncart).map fun x =>
    (q.2 * (r.ncart * 12) + b.1 * r.ncart + x, v q.1 b.2.1 b.2.2 x)).flatten).flatten

theorem mem_numStores {v : (RRType → Shell ℝ) → RRType → Dir → ℕ → ℝ} {a : ℕ} {u : ℝ} :
    (a, u) ∈ r.numStores v ↔ ∃ q S t d x, r.quartets[q]? = some S ∧ x < r.ncart ∧
      a = q * (r.ncart * 12) + (3 * t.idx + d.idx) * r.ncart + x ∧ u = v S t d x := by
  simp only [numStores, List.mem_flatten, List.mem_map]
  constructor
  · rintro ⟨_, ⟨⟨S, q⟩, hq, rfl⟩, hm⟩
    simp only [List.mem_flatten, List.mem_map] at hm
    obtain ⟨_, ⟨b, hb, rfl⟩, hm⟩ := hm
    simp only [List.mem_map, List.mem_range, Prod.mk.injEq] at hm
    obtain ⟨x, hx, rfl, rfl⟩ := hm
    refine ⟨q, S, b.2.1, b.2.2, x, List.mem_zipIdx_iff_getElem?.1 hq, hx, ?_, rfl⟩
    rw [← (refBlocks_spec b hb).1]
  · rintro ⟨q, S, t, d, x, hq, hx, rfl, rfl⟩
    refine ⟨_, ⟨(S, q), List.mem_zipIdx_iff_getElem?.2 hq, rfl⟩, ?_⟩
    simp only [List.mem_flatten, List.mem_map]
    refine ⟨_, ⟨(3 * t.idx + d.idx, t, d), refBlocks_mem t d, rfl⟩, ?_⟩
    simp only [List.mem_map, List.mem_range, Prod.mk.injEq]
    exact ⟨x, hx, rfl, rfl⟩

/-- The values of `numDeriv1`. -/
theorem numDeriv1_spec {bf : ℕ → ℝ → Option (List ℝ)} {norm : Bool} {junk : ℕ → ℝ}
    {bp bm : (RRType → Shell ℝ) → RRType → Dir → ℕ → ℝ}
    (hp : ∀ S ∈ r.quartets, ∀ t d, oneQuartet bf norm junk (shiftS S t d refDelta) r.ncart = some (bp S t d))
    (hm : ∀ S ∈ r.quartets, ∀ t d, oneQuartet bf norm junk (shiftS S t d (-refDelta)) r.ncart = some (bm S t d))
    {size : ℕ} (hs : r.n .I * (r.n .J * r.n .K * r.n .L) * (r.ncart * 12) ≤ size) (mem : ℕ → ℝ) :
    ∃ m, r.numDeriv1 bf norm junk size mem = some m ∧
      (∀ q S t d x, r.quartets[q]? = some S → x < r.ncart →
        m (q * (r.ncart * 12) + (3 * t.idx + d.idx) * r.ncart + x) =
          (bp S t d x - bm S t d x) / (2 * refDelta)) ∧
      ∀ a, r.n .I * (r.n .J * r.n .K * r.n .L) * (r.ncart * 12) ≤ a → m a = mem a := by
  set v : (RRType → Shell ℝ) → RRType → Dir → ℕ → ℝ := fun S t d x => (bp S t d x - bm S t d x) / (2 * refDelta) with hv
  have e : r.numDeriv1 bf norm junk size mem = putAll size mem (r.numStores v) := by
    unfold numDeriv1
    rw [mapM_map_some (g := fun q => (refBlocks.map fun b => (List.range r.ncart).map fun x =>
      (q.2 * (r.ncart * 12) + b.1 * r.ncart + x, v q.1 b.2.1 b.2.2 x)).flatten)]
    · rfl
    · rintro ⟨S, q⟩ hq
      have hS : S ∈ r.quartets := List.mem_of_getElem? (List.mem_zipIdx_iff_getElem?.1 hq)
      rw [mapM_map_some (g := fun b => (List.range r.ncart).map fun x =>
        (q * (r.ncart * 12) + b.1 * r.ncart + x, v S b.2.1 b.2.2 x))]
      · rfl
      · intro b _
        have h1 := hp S hS b.2.1 b.2.2
        have h2 := hm S hS b.2.1 b.2.2
        unfold shiftS at h1 h2
        simp only [formDeriv, h1, h2]
        rfl
  have bound : ∀ a u, (a, u) ∈ r.numStores v → a < r.n .I * (r.n .J * r.n .K * r.n .L) * (r.ncart * 12) := by
    intro a u h
    obtain ⟨q, S, t, d, x, hq, hx, rfl, -⟩ := mem_numStores.1 h
    have hq' : q < r.n .I * (r.n .J * r.n .K * r.n .L) := by
      rw [← quartets_length]; exact (List.getElem?_eq_some_iff.1 hq).1
    have h1 : (q + 1) * (r.ncart * 12) ≤ r.n .I * (r.n .J * r.n .K * r.n .L) * (r.ncart * 12) :=
      Nat.mul_le_mul_right _ hq'
    have h2 : (3 * t.idx + d.idx + 1) * r.ncart ≤ 12 * r.ncart :=
      Nat.mul_le_mul_right _ (by cases t <;> cases d <;> decide)
    rw [Nat.succ_mul] at h1 h2
    omega
  obtain ⟨m, hm'⟩ := Option.isSome_iff_exists.1 ((putAll_iff size (r.numStores v) mem).2
    fun p hp' => (bound p.1 p.2 hp').trans_le hs)
  have hspec := putAll_spec size _ mem m hm'
  refine ⟨m, e.trans hm', fun q S t d x hq hx => ?_, fun a ha => (hspec a).2 fun u hu => ?_⟩
  · refine (hspec _).1 _ (mem_numStores.2 ⟨q, S, t, d, x, hq, hx, rfl, rfl⟩) fun u hu => ?_
    obtain ⟨q', S', t', d', x', hq', hx', ha, rfl⟩ := mem_numStores.1 hu
    obtain ⟨rfl, e2, rfl⟩ := digits (by cases t <;> cases d <;> decide) hx (by cases t' <;> cases d' <;> decide) hx' ha
    rw [hq, Option.some.injEq] at hq'
    subst hq'
    have : t = t' ∧ d = d' := by
      cases t <;> cases t' <;> cases d <;> cases d' <;> first | exact ⟨rfl, rfl⟩ | (exfalso; revert e2; decide)
    obtain ⟨rfl, rfl⟩ := this
    rfl
  · exact absurd (bound a u hu) (by omega)

end RefArgs

end Simint
