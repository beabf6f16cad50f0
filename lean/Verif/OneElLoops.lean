import Verif.OneElLemmas
import Verif.OneElInt

/-! Lemmas for the loops that add primitive contributions to the output of one-electron integrals. -/

set_option autoImplicit false

namespace Simint

theorem forLoop_then {σ : Type} {lo hi : ℕ} {body : ℕ → σ → Option σ} {s : σ} {Q : σ → Prop}
    (I : ℕ → σ → Prop) (hle : lo ≤ hi) (h0 : I lo s)
    (hs : ∀ i s, lo ≤ i → i < hi → I i s → ∃ s', body i s = some s' ∧ I (i + 1) s')
    (hQ : ∀ s', I hi s' → Q s') : ∃ s', forLoop lo hi body s = some s' ∧ Q s' := by
  obtain ⟨s', e, h⟩ := forLoop_ok I hle h0 hs
  exact ⟨s', e, hQ s' h⟩

theorem forLoop_map {σ τ : Type} {lo hi : ℕ} {body : ℕ → σ → Option σ} {s : σ} {g : σ → τ} {Q : τ → Prop}
    (I : ℕ → σ → Prop) (hle : lo ≤ hi) (h0 : I lo s)
    (hs : ∀ i s, lo ≤ i → i < hi → I i s → ∃ s', body i s = some s' ∧ I (i + 1) s')
    (hQ : ∀ s', I hi s' → Q (g s')) : ∃ y, (forLoop lo hi body s).map g = some y ∧ Q y := by
  obtain ⟨s', e, h⟩ := forLoop_ok I hle h0 hs
  exact ⟨g s', by rw [e]; rfl, hQ s' h⟩

/-- Component number `n` of a shell of angular momentum `am`. -/
def compAt (am n : ℕ) : Exp := (psi4List am).getD n ⟨0, 0, 0⟩

theorem compAt_get {am n : ℕ} (h : n < (psi4List am).length) : compAt am n = (psi4List am)[n] := by
  simp [compAt, h]

theorem nc_pos (n : ℕ) : 0 < nc n := by
  rw [← psi4_length]
  exact List.length_pos_of_mem ((psi4_ordOK.mem n ⟨n, 0, 0⟩).2 ⟨by simp, by simp, by simp, by simp⟩)

theorem recAt_comp {am n : ℕ} (ham : am ≤ 18) (hn : n < nc am) :
    ∃ r, recAt am n = some r ∧ r.ijk = compAt am n ∧ IsComp am (compAt am n) := by
  rw [← psi4_length] at hn
  obtain ⟨r, h1, -, -, -, -, -, h2⟩ := recAt_psi4 ham hn
  exact ⟨r, h1, by rw [h2, compAt_get hn], by rw [compAt_get hn]; exact (cidx_psi4_getElem hn).1⟩

/-- The output has been incremented by `f` in its first `N` elements. -/
def Added (N : ℕ) (f : ℕ → ℝ) (b b' : CBuf ℝ) : Prop :=
  b'.size = b.size ∧ ∀ k, b'.val k = b.val k + if k < N then f k else 0

theorem Added.refl (N : ℕ) (b : CBuf ℝ) : Added N (fun _ => 0) b b := ⟨rfl, fun k => by simp⟩

theorem Added.trans {N : ℕ} {f g : ℕ → ℝ} {b b' b'' : CBuf ℝ} (h : Added N f b b') (h' : Added N g b' b'') :
    Added N (fun k => f k + g k) b b'' := by
  refine ⟨h'.1.trans h.1, fun k => ?_⟩
  rw [h'.2, h.2]
  split_ifs <;> ring

theorem Added.congr {N : ℕ} {f g : ℕ → ℝ} {b b' : CBuf ℝ} (h : Added N f b b')
    (hfg : ∀ k, k < N → f k = g k) : Added N g b b' := by
  refine ⟨h.1, fun k => ?_⟩
  rw [h.2]
  split_ifs with hk
  · rw [hfg k hk]
  · rfl

/-- The elements below `n` have been incremented by `f`. -/
theorem Added.step {f : ℕ → ℝ} {b b' : CBuf ℝ} {n : ℕ} (h : Added n f b b') (hn : n < b.size) :
    ∃ c, b'.get n = some (b.val n) ∧ b'.set n (b.val n + f n) = some c ∧ Added (n + 1) f b c := by
  have hn' : n < b'.size := by rw [h.1]; exact hn
  refine ⟨_, ?_, CBuf.set_lt hn' _, h.1, fun k => ?_⟩
  · rw [CBuf.get_lt hn', h.2]; simp
  · simp only
    by_cases e : k = n
    · subst e; simp
    · rw [if_neg e, h.2]
      by_cases e2 : k < n
      · rw [if_pos e2, if_pos (by omega)]
      · rw [if_neg e2, if_neg (by omega)]

theorem addComponents_ok {am1 am2 : ℕ} (h1 : am1 ≤ 18) (h2 : am2 ≤ 18) (c : ℝ)
    (val : RecurInfo → RecurInfo → Option ℝ) (v : Exp → Exp → ℝ)
    (hv : ∀ r1 r2, IsComp am1 r1.ijk → IsComp am2 r2.ijk → val r1 r2 = some (v r1.ijk r2.ijk))
    (out : CBuf ℝ) (hsz : nc am1 * nc am2 ≤ out.size) :
    ∃ out', addComponents am1 am2 c val out = some out' ∧
      Added (nc am1 * nc am2) (fun k => c * v (compAt am1 (k / nc am2)) (compAt am2 (k % nc am2)))
        out out' := by
  set f : ℕ → ℝ := fun k => c * v (compAt am1 (k / nc am2)) (compAt am2 (k % nc am2)) with hf
  unfold addComponents
  refine forLoop_map (I := fun n (st : CBuf ℝ × ℕ) => st.2 = n * nc am2 ∧ Added st.2 f out st.1)
    (Nat.zero_le _) ⟨by simp, ⟨rfl, fun k => by simp⟩⟩ ?_ fun st h => h.1 ▸ h.2
  intro n st _ hn hI
  refine forLoop_then (I := fun m st => st.2 = n * nc am2 + m ∧ Added st.2 f out st.1) (Nat.zero_le _)
    ⟨by rw [hI.1]; simp, hI.2⟩ ?_ fun st' h => ⟨by rw [h.1]; ring, h.2⟩
  clear hI
  intro m st _ hm hI
  obtain ⟨r1, e1, i1, c1⟩ := recAt_comp h1 hn
  obtain ⟨r2, e2, i2, c2⟩ := recAt_comp h2 hm
  rw [e1, e2, Option.bind_some, Option.bind_some, hv r1 r2 (by rw [i1]; exact c1) (by rw [i2]; exact c2),
    Option.bind_some]
  have hlt : st.2 < out.size := by rw [hI.1]; exact (row_lt hn hm).trans_le hsz
  obtain ⟨b, g1, g2, g3⟩ := hI.2.step hlt
  have hfe : f st.2 = c * v r1.ijk r2.ijk := by
    rw [hf, hI.1]
    simp only
    have hp := nc_pos am2
    rw [Nat.mul_comm, Nat.mul_add_div hp, Nat.div_eq_of_lt hm, Nat.mul_add_mod, Nat.mod_eq_of_lt hm,
      Nat.add_zero, i1, i2]
  rw [g1, Option.bind_some, ← hfe, g2]
  exact ⟨_, rfl, by simp only; omega, g3⟩

/-- Loops over pairs of primitives. -/
theorem pairLoop_ok {ω : Type} {n1 n2 N sz : ℕ} {body : ℕ → ℕ → ω × CBuf ℝ → Option (ω × CBuf ℝ)}
    (J : ω → Prop) (f : ℕ → ℕ → ℕ → ℝ)
    (hb : ∀ i j w out, i < n1 → j < n2 → J w → out.size = sz →
      ∃ w' out', body i j (w, out) = some (w', out') ∧ J w' ∧ Added N (f i j) out out')
    {w : ω} {out : CBuf ℝ} (hw : J w) (ho : out.size = sz) :
    ∃ w' out', forLoop 0 n1 (fun i st => forLoop 0 n2 (fun j st => body i j st) st) (w, out) =
        some (w', out') ∧ J w' ∧
      Added N (fun k => ∑ i ∈ Finset.range n1, ∑ j ∈ Finset.range n2, f i j k) out out' := by
  have key := forLoop_ok (lo := 0) (hi := n1) (s := (w, out))
    (body := fun i st => forLoop 0 n2 (fun j st => body i j st) st)
    (I := fun m (st : ω × CBuf ℝ) => J st.1 ∧
      Added N (fun k => ∑ i ∈ Finset.range m, ∑ j ∈ Finset.range n2, f i j k) out st.2) (Nat.zero_le _)
    ⟨hw, by simpa using Added.refl N out⟩ ?_
  · obtain ⟨⟨w', out'⟩, e, h⟩ := key
    exact ⟨w', out', e, h⟩
  intro i st _ hi hI
  refine forLoop_then (I := fun m st' => J st'.1 ∧
      Added N (fun k => ∑ j ∈ Finset.range m, f i j k) st.2 st'.2) (Nat.zero_le _)
    ⟨hI.1, by simpa using Added.refl N st.2⟩ ?_ fun st' h =>
      ⟨h.1, (hI.2.trans h.2).congr fun k _ => by rw [Finset.sum_range_succ]⟩
  intro j st' _ hj hI'
  obtain ⟨w', out', e, h1, h2⟩ := hb i j st'.1 st'.2 hi hj hI'.1 (by rw [hI'.2.1, hI.2.1, ho])
  refine ⟨(w', out'), e, h1, (hI'.2.trans h2).congr fun k _ => ?_⟩
  rw [Finset.sum_range_succ]

theorem workAt_eq {K nam1 nam2 : ℕ} {S : ℕ → ℕ → ℕ → ℝ} {t : CBuf ℝ}
    (h : Fill K nam1 nam2 S (fun _ _ _ => True) t) {k : ℕ} {x y : ℤ} (hk : k < K) (hx0 : 0 ≤ x)
    (hx : x < nam1) (hy0 : 0 ≤ y) (hy : y < nam2) :
    workAt nam2 (nam1 * nam2) t k x y = some (S k x.toNat y.toNat) := by
  obtain ⟨x, rfl⟩ := Int.eq_ofNat_of_zero_le hx0
  obtain ⟨y, rfl⟩ := Int.eq_ofNat_of_zero_le hy0
  have e : (k : ℤ) * ((nam1 * nam2 : ℕ) : ℤ) + ((x : ℤ) * nam2 + y) = (termIdx nam1 nam2 k x y : ℕ) := by
    unfold termIdx; push_cast; ring
  unfold workAt
  simp only
  rw [e, if_pos (by positivity), Int.toNat_natCast]
  simp only [Int.toNat_natCast]
  exact h.get hk (by omega) (by omega) trivial

theorem comp_bounds {am : ℕ} {e : Exp} (h : IsComp am e) (d : Dir) :
    0 ≤ e.get d ∧ e.get d < ((am + 1 : ℕ) : ℤ) := by
  have h1 := (Exp.valid_iff _).1 h.valid d
  have h2 := h.valid.get_le_am d
  rw [h.am_eq] at h2
  exact ⟨h1, by push_cast; omega⟩

theorem zeroBuf_ok {n : ℕ} {b : CBuf ℝ} (h : n ≤ b.size) :
    ∃ c, zeroBuf n b = some c ∧ c.size = b.size ∧ (∀ k, k < n → c.val k = 0) ∧
      ∀ k, n ≤ k → c.val k = b.val k := by
  refine ⟨_, if_pos h, rfl, fun k hk => if_pos hk, fun k hk => if_neg (by omega)⟩

/-- Reading off the elements of the output. -/
theorem Added.final {am1 am2 : ℕ} {g : Exp → Exp → ℝ} {b0 b b' : CBuf ℝ}
    (h : Added (nc am1 * nc am2) (fun k => g (compAt am1 (k / nc am2)) (compAt am2 (k % nc am2))) b b')
    (hs : b.size = b0.size) (hz : ∀ k, k < nc am1 * nc am2 → b.val k = 0)
    (hk : ∀ k, nc am1 * nc am2 ≤ k → b.val k = b0.val k) :
    b'.size = b0.size ∧ (∀ n m e1 e2, (psi4List am1)[n]? = some e1 → (psi4List am2)[m]? = some e2 →
      b'.val (n * nc am2 + m) = g e1 e2) ∧ ∀ k, nc am1 * nc am2 ≤ k → b'.val k = b0.val k := by
  refine ⟨h.1.trans hs, fun n m e1 e2 h1 h2 => ?_, fun k hk' => ?_⟩
  · obtain ⟨l1, i1⟩ := List.getElem?_eq_some_iff.1 h1
    obtain ⟨l2, i2⟩ := List.getElem?_eq_some_iff.1 h2
    have l2' := l2
    have l1' := l1
    rw [psi4_length] at l1' l2'
    have hlt := row_lt l1' l2'
    rw [h.2, hz _ hlt, if_pos hlt, zero_add]
    have hp := nc_pos am2
    simp only
    rw [Nat.mul_comm, Nat.mul_add_div hp, Nat.div_eq_of_lt l2', Nat.mul_add_mod, Nat.mod_eq_of_lt l2',
      Nat.add_zero, compAt_get l1, compAt_get l2, i1, i2]
  · rw [h.2, if_neg (by omega), add_zero, hk k hk']

end Simint
