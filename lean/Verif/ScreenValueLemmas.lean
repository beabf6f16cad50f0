import Verif.ScreenLemmas
import Verif.Screen
import Verif.SchwarzContracted
import Verif.Props.Dispatch
import Verif.Props.ShellScreen

/-!
# Lemmas about the screening values
-/

set_option autoImplicit false

namespace Simint

section
variable {F : Type} [Field F] [LinearOrder F]

theorem maxLoop_ge {l : List F} {v : F} (h : v ∈ l) : v ≤ maxLoop l := (foldl_max (fun x : F => x) l 0).2 v h

theorem maxLoop_nonneg (l : List F) : 0 ≤ maxLoop l := (foldl_max (fun x : F => x) l 0).1

theorem maxLoop_mem (l : List F) : maxLoop l = 0 ∨ maxLoop l ∈ l := by
  have : ∀ (l : List F) (m : F), l.foldl (fun m v => if v > m then v else m) m = m ∨
      l.foldl (fun m v => if v > m then v else m) m ∈ l := by
    intro l
    induction l with
    | nil => intro m; exact Or.inl rfl
    | cons b l ih =>
      intro m
      simp only [List.foldl_cons, List.mem_cons]
      rcases ih (if b > m then b else m) with h | h
      · rw [h]
        split
        · exact Or.inr (Or.inl rfl)
        · exact Or.inl rfl
      · exact Or.inr (Or.inr h)
  exact this l 0

end

theorem scrNcart_eq (A : Shell ℝ) : scrNcart A = ncart A.am := by
  unfold scrNcart ncart
  rw [if_pos (by omega), Int.toNat_natCast, mul_comm]

/-- The integrals `(ab|ab)` are those of the contracted shells. -/
theorem selfInts_spec (L : LibCfg) (hL : L.OK) (sh : ShCfg) (hl : 0 < sh.len) (big : ℝ) (w : ScrMem ℝ)
    {A B : Shell ℝ} (hA : A.OK) (hB : B.OK) (hf : Faithful A B) (hA' : A.am ≤ min L.use 7)
    (hB' : B.am ≤ min L.use 7) :
    ∃ o, L.selfInts realOps realShOps sh big w A B = some o ∧
      ∀ x y z v : Exp, x.Valid → y.Valid → z.Valid → v.Valid →
        x.am = A.am → y.am = B.am → z.am = A.am → v.am = B.am →
        o (Qrt.index psi4List ⟨⟨x, y⟩, ⟨z, v⟩, 0⟩) = shellERI A B A B x y z v := by
  have ham : ClassUpTo L.use ⟨A.am, B.am, A.am, B.am, ""⟩ :=
    ⟨rfl, by unfold QAM.Valid; simp only; omega, by simp only; omega, by simp only; omega, by simp only; omega,
      by simp only; omega⟩
  have h7 : topAM ⟨A.am, B.am, A.am, B.am, ""⟩ ≤ 7 := by unfold topAM; simp only; omega
  have hps : PairsOK [(A, B)] := by
    intro p hp
    rw [List.mem_singleton] at hp
    subst hp
    exact ⟨hA, hB, hf⟩
  obtain ⟨P, Q, r, h1, h2, h3, -, h5, -⟩ := C64_shells_partial L hL ham h7 { sh with screening := false } hl
    noScreen (fun _ _ _ _ => 0) (fun h => Bool.noConfusion h) big [(A, B)] [(A, B)] hps hps (by simp) (by simp)
    (by simp only [List.length_singleton, nshellSimd]; omega) w.buf w.buf
    (scrNcart A * scrNcart B * (scrNcart A * scrNcart B) + 8)
    (by simp only [List.length_singleton, ncartQ, scrNcart_eq]; omega) w.junk w.scratch w.junkAB w.hmem w.out
  rw [h1] at h2
  obtain rfl := Option.some.inj h2
  refine ⟨r.out, ?_, ?_⟩
  · unfold LibCfg.selfInts
    rw [h1, Option.bind_some]
    simp only [List.length_singleton] at h3
    rw [h3]
    rfl
  · intro x y z v vx vy vz vv ex ey ez ev
    have := h5 0 (by simp) 0 (by simp) x y z v vx vy vz vv ex ey ez ev
    simpa using this

/-- Above AM 7 the table has no entry. -/
theorem selfInts_missing (L : LibCfg) (sh : ShCfg) (big : ℝ) (w : ScrMem ℝ) (A B : Shell ℝ)
    (hA : A.am ≤ L.use) (hB : B.am ≤ L.use) (h7 : 7 < max A.am B.am) :
    L.selfInts realOps realShOps sh big w A B = none := by
  unfold LibCfg.selfInts
  cases completeList { sh with screening := false } realShOps noScreen big [(A, B)] w.buf with
  | none => rfl
  | some P =>
    have := C64_missing L (am := ⟨A.am, B.am, A.am, B.am, ""⟩)
      ⟨rfl, by unfold QAM.Valid; simp only; omega, by simp only; omega, by simp only; omega,
        by simp only; omega, by simp only; omega⟩ (by unfold topAM; simp only; omega)
      ⟨⟨sh.len, P.1, P.1, 0, scrNcart A * scrNcart B * (scrNcart A * scrNcart B) + 8, w.junk, w.scratch⟩, 1, 1,
        w.junkAB⟩ (fun h => lt_irrefl _ h.1) w.hmem w.out
    rw [Option.bind_some, this]
    rfl

/-- All integrals of two shells with themselves: an upper bound of them, and one of them. -/
theorem shellscreen_spec (L : LibCfg) (hL : L.OK) (sh : ShCfg) (hl : 0 < sh.len) (big : ℝ) (w : ScrMem ℝ)
    {A B : Shell ℝ} (hA : A.OK) (hB : B.OK) (hf : Faithful A B) (hA' : A.am ≤ min L.use 7)
    (hB' : B.am ≤ min L.use 7) :
    ∃ u, L.shellscreen realOps realShOps sh big w A B = some u ∧
      (∀ x y z v, IsComp A.am x → IsComp B.am y → IsComp A.am z → IsComp B.am v →
        |shellERI A B A B x y z v| ≤ u) ∧
      ∃ x y z v, IsComp A.am x ∧ IsComp B.am y ∧ IsComp A.am z ∧ IsComp B.am v ∧
        u = |shellERI A B A B x y z v| := by
  obtain ⟨o, h1, h2⟩ := selfInts_spec L hL sh hl big w hA hB hf hA' hB'
  have hN : scrNcart A * scrNcart B * (scrNcart A * scrNcart B) = ncartQ ⟨A.am, B.am, A.am, B.am, ""⟩ := by
    rw [scrNcart_eq, scrNcart_eq]; rfl
  have hv : QAM.Valid ⟨A.am, B.am, A.am, B.am, ""⟩ := by unfold QAM.Valid; simp only; omega
  refine ⟨_, by unfold LibCfg.shellscreen; rw [h1]; rfl, ?_, ?_⟩
  · intro x y z v hx hy hz hv'
    rw [← h2 x y z v hx.valid hy.valid hz.valid hv'.valid hx.am_eq hy.am_eq hz.am_eq hv'.am_eq]
    refine maxLoop_ge (List.mem_map.2 ⟨_, List.mem_range.2 ?_, rfl⟩)
    have := Qrt.index_lt psi4_ordOK (q := ⟨⟨x, y⟩, ⟨z, v⟩, 0⟩)
      ⟨⟨hx.valid, hy.valid⟩, ⟨hz.valid, hv'.valid⟩, le_rfl⟩
    rw [hN]
    simpa [Qrt.ncart, Dbl.ncart, ncartQ, hx.am_eq, hy.am_eq, hz.am_eq, hv'.am_eq] using this
  · have hall : ∀ n < scrNcart A * scrNcart B * (scrNcart A * scrNcart B), ∃ x y z v, IsComp A.am x ∧
        IsComp B.am y ∧ IsComp A.am z ∧ IsComp B.am v ∧ |o n| = |shellERI A B A B x y z v| := by
      intro n hn
      rw [hN] at hn
      obtain ⟨q, q1, q2, q3, rfl⟩ := Qrt.index_surj psi4_ordOK hv rfl hn
      obtain ⟨⟨x, y⟩, ⟨z, v⟩, m⟩ := q
      simp only at q2
      subst q2
      obtain ⟨⟨v1, v2⟩, ⟨v3, v4⟩, -⟩ := q1
      have e1 : x.am = A.am := congrArg (fun t => t.a) q3
      have e2 : y.am = B.am := congrArg (fun t => t.b) q3
      have e3 : z.am = A.am := congrArg (fun t => t.c) q3
      have e4 : v.am = B.am := congrArg (fun t => t.d) q3
      refine ⟨x, y, z, v, ⟨v1.1, v1.2.1, v1.2.2, e1⟩, ⟨v2.1, v2.2.1, v2.2.2, e2⟩, ⟨v3.1, v3.2.1, v3.2.2, e3⟩,
        ⟨v4.1, v4.2.1, v4.2.2, e4⟩, ?_⟩
      rw [h2 x y z v v1 v2 v3 v4 e1 e2 e3 e4]
    have hpos : 0 < scrNcart A * scrNcart B * (scrNcart A * scrNcart B) := by
      rw [scrNcart_eq, scrNcart_eq]
      have p1 : 0 < ncart A.am := ncart_pos (by omega)
      have p2 : 0 < ncart B.am := ncart_pos (by omega)
      positivity
    rcases maxLoop_mem ((List.range (scrNcart A * scrNcart B * (scrNcart A * scrNcart B))).map fun n => |o n|)
      with h | h
    · have h0 := maxLoop_ge (List.mem_map_of_mem (f := fun n => |o n|) (List.mem_range.2 hpos))
      obtain ⟨x, y, z, v, hx, hy, hz, hv', e⟩ := hall 0 hpos
      refine ⟨x, y, z, v, hx, hy, hz, hv', ?_⟩
      rw [h] at h0
      refine h.trans ?_
      rw [← e]
      exact le_antisymm (abs_nonneg _) h0
    · obtain ⟨n, hn, e⟩ := List.mem_map.1 h
      obtain ⟨x, y, z, v, hx, hy, hz, hv', e'⟩ := hall n (List.mem_range.1 hn)
      exact ⟨x, y, z, v, hx, hy, hz, hv', e.symm.trans e'⟩

theorem oneShell_ok {A : Shell ℝ} (h : A.OK) (ptr : ℕ) {i : ℕ} (hi : i < A.nprim) : (oneShell ptr A i).OK :=
  ⟨Nat.one_pos, fun _ _ => h.2 i hi⟩

theorem oneShell_faithful {p q : ℕ} (h : p ≠ q) (A B : Shell ℝ) (i j : ℕ) :
    Faithful (oneShell p A i) (oneShell q B j) := by
  intro hs
  simp [sameShell, oneShell, h] at hs

theorem shellERI_one (p q p' q' : ℕ) (A B C D : Shell ℝ) (i j k l : ℕ) (x y z v : Exp) :
    shellERI (oneShell p A i) (oneShell q B j) (oneShell p' C k) (oneShell q' D l) x y z v =
      A.coef i * B.coef j * (C.coef k * D.coef l) *
        coulomb (A.alpha i) (B.alpha j) (C.alpha k) (D.alpha l) A.pos B.pos C.pos D.pos x y z v := by
  unfold shellERI oneShell
  simp only [Finset.sum_range_one]

/-- Position read by the loops of `simint_primscreen_schwarz`. -/
theorem diag_index {x y : Exp} {a b : ℕ} (ex : x.am = a) (ey : y.am = b) :
    Qrt.index psi4List ⟨⟨x, y⟩, ⟨x, y⟩, 0⟩ = cidx psi4List x * ncart b * ncart a * ncart b +
      cidx psi4List x * ncart b + cidx psi4List y * ncart a * ncart b + cidx psi4List y := by
  simp only [Qrt.index, Dbl.index, Dbl.ncart, ex, ey]
  ring

/-- The value of a pair of primitives: an upper bound of the integrals `(xy|xy)`, and one of them. -/
theorem primVal_spec (L : LibCfg) (hL : L.OK) (sh : ShCfg) (hl : 0 < sh.len) (big : ℝ) (w : ScrMem ℝ)
    (hw : w.ptrA ≠ w.ptrB) {A B : Shell ℝ} (hA : A.OK) (hB : B.OK) (hA' : A.am ≤ min L.use 7)
    (hB' : B.am ≤ min L.use 7) {i j : ℕ} (hi : i < A.nprim) (hj : j < B.nprim) :
    ∃ v, L.primVal realOps realShOps sh big w A B i j = some v ∧
      (∀ x y, IsComp A.am x → IsComp B.am y → (A.coef i * B.coef j) ^ 2 *
        coulomb (A.alpha i) (B.alpha j) (A.alpha i) (B.alpha j) A.pos B.pos A.pos B.pos x y x y ≤ v) ∧
      ∃ x y, IsComp A.am x ∧ IsComp B.am y ∧ v = (A.coef i * B.coef j) ^ 2 *
        coulomb (A.alpha i) (B.alpha j) (A.alpha i) (B.alpha j) A.pos B.pos A.pos B.pos x y x y := by
  obtain ⟨o, h1, h2⟩ := selfInts_spec L hL sh hl big w (oneShell_ok hA w.ptrA hi) (oneShell_ok hB w.ptrB hj)
    (oneShell_faithful hw A B i j) hA' hB'
  have key : ∀ x y, IsComp A.am x → IsComp B.am y →
      o (cidx psi4List x * ncart B.am * ncart A.am * ncart B.am + cidx psi4List x * ncart B.am +
        cidx psi4List y * ncart A.am * ncart B.am + cidx psi4List y) =
      (A.coef i * B.coef j) ^ 2 *
        coulomb (A.alpha i) (B.alpha j) (A.alpha i) (B.alpha j) A.pos B.pos A.pos B.pos x y x y := by
    intro x y hx hy
    have := h2 x y x y hx.valid hy.valid hx.valid hy.valid hx.am_eq hy.am_eq hx.am_eq hy.am_eq
    rw [shellERI_one, diag_index hx.am_eq hy.am_eq] at this
    rw [this]
    ring
  have hnn : ∀ x y, 0 ≤ (A.coef i * B.coef j) ^ 2 *
        coulomb (A.alpha i) (B.alpha j) (A.alpha i) (B.alpha j) A.pos B.pos A.pos B.pos x y x y :=
    fun x y => mul_nonneg (sq_nonneg _) (coulomb_self_nonneg (hA.2 i hi) (hB.2 j hj) _ _ _ _)
  refine ⟨_, by unfold LibCfg.primVal; rw [h1]; rfl, ?_, ?_⟩
  · intro x y hx hy
    refine maxLoop_ge (List.mem_flatMap.2 ⟨cidx psi4List x, ?_, List.mem_map.2 ⟨cidx psi4List y, ?_, ?_⟩⟩)
    · have := psi4_ordOK.cidx_lt hx.valid
      rw [hx.am_eq] at this
      rw [List.mem_range, scrNcart_eq]
      exact this
    · have := psi4_ordOK.cidx_lt hy.valid
      rw [hy.am_eq] at this
      rw [List.mem_range, scrNcart_eq]
      exact this
    · rw [scrNcart_eq, scrNcart_eq, key x y hx hy, abs_of_nonneg (hnn x y)]
  · set l := (List.range (scrNcart A)).flatMap fun m => (List.range (scrNcart B)).map fun n =>
      |o (m * scrNcart B * scrNcart A * scrNcart B + m * scrNcart B + n * scrNcart A * scrNcart B + n)| with hldef
    have hmem : ∀ v ∈ l, ∃ x y, IsComp A.am x ∧ IsComp B.am y ∧ v = (A.coef i * B.coef j) ^ 2 *
        coulomb (A.alpha i) (B.alpha j) (A.alpha i) (B.alpha j) A.pos B.pos A.pos B.pos x y x y := by
      intro v hv
      rw [hldef, List.mem_flatMap] at hv
      obtain ⟨m, hm, hv⟩ := hv
      obtain ⟨n, hn, rfl⟩ := List.mem_map.1 hv
      rw [List.mem_range, scrNcart_eq] at hm hn
      obtain ⟨x, hx, ex, -⟩ := psi4_ordOK.cidx_surj A.am hm
      obtain ⟨y, hy, ey, -⟩ := psi4_ordOK.cidx_surj B.am hn
      refine ⟨x, y, hx, hy, ?_⟩
      rw [← ex, ← ey, scrNcart_eq, scrNcart_eq, key x y hx hy, abs_of_nonneg (hnn x y)]
    have hne : l ≠ [] := by
      intro h0
      have p1 : 0 < ncart A.am := ncart_pos (by omega)
      have p2 : 0 < ncart B.am := ncart_pos (by omega)
      have : |o (0 * scrNcart B * scrNcart A * scrNcart B + 0 * scrNcart B + 0 * scrNcart A * scrNcart B + 0)| ∈ l :=
        List.mem_flatMap.2 ⟨0, List.mem_range.2 (by rw [scrNcart_eq]; exact p1),
          List.mem_map.2 ⟨0, List.mem_range.2 (by rw [scrNcart_eq]; exact p2), rfl⟩⟩
      rw [h0] at this
      exact absurd this List.not_mem_nil
    show ∃ x y, IsComp A.am x ∧ IsComp B.am y ∧ maxLoop l = _
    rcases maxLoop_mem l with h | h
    · obtain ⟨v, hv⟩ := List.exists_mem_of_ne_nil l hne
      obtain ⟨x, y, hx, hy, e⟩ := hmem v hv
      refine ⟨x, y, hx, hy, ?_⟩
      have := maxLoop_ge hv
      rw [h] at this ⊢
      rw [e] at this
      exact le_antisymm (hnn x y) this
    · exact hmem _ h

end Simint
