import Verif.Workspace
import Mathlib.Data.Nat.Bitwise

/-! Helper lemmas for the work buffer. -/

set_option autoImplicit false

namespace Simint

theorem and_high_mask (a w k : ℕ) (hk : k ≤ w) (ha : a < 2 ^ w) :
    a &&& (2 ^ w - ((2 ^ k - 1) + 1)) = a / 2 ^ k * 2 ^ k := by
  apply Nat.eq_of_testBit_eq
  intro i
  rw [Nat.testBit_and, ← Nat.shiftRight_eq_div_pow, ← Nat.shiftLeft_eq, Nat.testBit_shiftLeft,
    Nat.testBit_shiftRight]
  have hp : (2 ^ k - 1) < 2 ^ w := by
    have : 2 ^ k ≤ 2 ^ w := Nat.pow_le_pow_right (by norm_num) hk
    have : 0 < 2 ^ k := Nat.two_pow_pos k
    omega
  rw [Nat.testBit_two_pow_sub_succ hp, Nat.testBit_two_pow_sub_one]
  by_cases h : k ≤ i
  · have e : k + (i - k) = i := by omega
    have h2 : ¬ i < k := by omega
    by_cases hw : i < w
    · simp [h, h2, hw]
    · have : a.testBit i = false :=
        Nat.testBit_lt_two_pow (lt_of_lt_of_le ha (Nat.pow_le_pow_right (by norm_num) (by omega)))
      simp [this, h, e]
  · have h2 : i < k := by omega
    simp [h, h2]

theorem simdRoundBV_toNat {w k : ℕ} (x : BitVec w) (hk : k < w)
    (hx : x.toNat + (2 ^ k - 1) < 2 ^ w) :
    (simdRoundBV (BitVec.ofNat w (2 ^ k)) x).toNat = simdRound (2 ^ k) x.toNat := by
  have hkw : 2 ^ k < 2 ^ w := Nat.pow_lt_pow_right (by norm_num) hk
  have hk0 : 0 < 2 ^ k := Nat.two_pow_pos k
  have h1w : 1 < 2 ^ w := lt_of_le_of_lt hk0 hkw
  have e1 : (BitVec.ofNat w (2 ^ k) - 1#w).toNat = 2 ^ k - 1 := by
    rw [BitVec.toNat_sub, BitVec.toNat_ofNat, BitVec.toNat_ofNat, Nat.mod_eq_of_lt hkw,
      Nat.mod_eq_of_lt h1w]
    have : 2 ^ w - 1 + 2 ^ k = (2 ^ k - 1) + 2 ^ w := by omega
    rw [this, Nat.add_mod_right, Nat.mod_eq_of_lt (by omega)]
  unfold simdRoundBV simdRound
  rw [BitVec.toNat_and, BitVec.toNat_not, BitVec.toNat_add, e1, Nat.mod_eq_of_lt hx]
  have := and_high_mask (x.toNat + (2 ^ k - 1)) w k hk.le hx
  rw [← this]
  congr 1
  omega

theorem simdRound_dvd (len x : ℕ) : len ∣ simdRound len x := Dvd.intro_left _ rfl

theorem le_simdRound {len : ℕ} (h : 0 < len) (x : ℕ) : x ≤ simdRound len x := by
  unfold simdRound
  have := Nat.div_add_mod (x + (len - 1)) len
  have h2 := Nat.mod_lt (x + (len - 1)) h
  rw [Nat.mul_comm] at this
  omega

theorem simdRound_lt {len : ℕ} (h : 0 < len) (x : ℕ) : simdRound len x < x + len := by
  unfold simdRound
  have := Nat.div_add_mod (x + (len - 1)) len
  rw [Nat.mul_comm] at this
  omega

theorem simdRound_le_of_dvd {len : ℕ} (h : 0 < len) {x y : ℕ} (hd : len ∣ y) (hxy : x ≤ y) :
    simdRound len x ≤ y := by
  obtain ⟨z, rfl⟩ := hd
  unfold simdRound
  rw [Nat.mul_comm]
  apply Nat.mul_le_mul_left
  rw [Nat.div_le_iff_le_mul_add_pred h]
  omega

theorem simdRound_mono {len : ℕ} (h : 0 < len) {x y : ℕ} (hxy : x ≤ y) :
    simdRound len x ≤ simdRound len y :=
  simdRound_le_of_dvd h (simdRound_dvd len y) (hxy.trans (le_simdRound h y))

theorem simdRound_of_dvd {len : ℕ} (h : 0 < len) {x : ℕ} (hd : len ∣ x) : simdRound len x = x :=
  le_antisymm (simdRound_le_of_dvd h hd le_rfl) (le_simdRound h x)

/-! ## carve -/

theorem carve_bounds (base unit : ℕ) (l : List (WName × ℕ)) : ∀ pt, ∀ a ∈ carve base unit pt l,
    base + unit * pt ≤ a.off ∧ a.off + a.size ≤ base + unit * (pt + total l) ∧
      unit ∣ (a.off - base) ∧ ∃ s, (a.name, s) ∈ l ∧ a.size = unit * s := by
  induction l with
  | nil => intro pt a h; simp [carve] at h
  | cons e r ih =>
    intro pt a h
    obtain ⟨n, s⟩ := e
    have ht : total ((n, s) :: r) = s + total r := by simp [total]
    rw [carve, List.mem_cons] at h
    rcases h with rfl | h
    · refine ⟨le_rfl, ?_, ⟨pt, by simp⟩, s, by simp, rfl⟩
      simp only [ht]
      rw [Nat.add_assoc, ← Nat.mul_add]
      exact Nat.add_le_add_left (Nat.mul_le_mul_left _ (by omega)) _
    · obtain ⟨h1, h2, h3, s', h4, h5⟩ := ih _ a h
      refine ⟨le_trans ?_ h1, le_trans h2 (le_of_eq ?_), h3, s', by simp [h4], h5⟩
      · exact Nat.add_le_add_left (Nat.mul_le_mul_left _ (by omega)) _
      · rw [ht]; congr 2; omega

theorem carve_disjoint (base unit : ℕ) (l : List (WName × ℕ)) : ∀ pt,
    (carve base unit pt l).Pairwise fun a b => a.off + a.size ≤ b.off := by
  induction l with
  | nil => intro pt; simp [carve]
  | cons e r ih =>
    intro pt
    obtain ⟨n, s⟩ := e
    rw [carve, List.pairwise_cons]
    refine ⟨fun b hb => ?_, ih _⟩
    have := (carve_bounds base unit r _ b hb).1
    simp only [Nat.mul_add] at this ⊢
    omega

theorem carve_names (base unit : ℕ) (l : List (WName × ℕ)) : ∀ pt,
    (carve base unit pt l).map WArr.name = l.map Prod.fst := by
  induction l with
  | nil => intro pt; rfl
  | cons e r ih => intro pt; obtain ⟨n, s⟩ := e; simp [carve, ih]

theorem carve_mem (base unit : ℕ) (l : List (WName × ℕ)) : ∀ pt n s, (n, s) ∈ l →
    ∃ a ∈ carve base unit pt l, a.name = n ∧ a.size = unit * s := by
  induction l with
  | nil => intro pt n s h; simp at h
  | cons e r ih =>
    intro pt n s h
    obtain ⟨n', s'⟩ := e
    rcases List.mem_cons.1 h with h | h
    · cases h; exact ⟨⟨n, base + unit * pt, unit * s⟩, by simp [carve], rfl, rfl⟩
    · obtain ⟨a, ha, h1, h2⟩ := ih (pt + s') n s h
      exact ⟨a, by simp [carve, ha], h1, h2⟩

theorem total_topEntries_le (final : QAM) (top : List QAM) :
    total (topEntries final top) ≤ (top.map ncartQ).sum := by
  unfold total topEntries
  induction top with
  | nil => simp
  | cons q r ih =>
    by_cases h : q = final
    · subst h; simp; simp at ih; omega
    · simp [h]; simp at ih; omega

theorem total_primEntries (mreq : QAM → ℤ) (all : List QAM) :
    total (primEntries mreq all) = (all.map (primVecs mreq)).sum := by
  simp [total, primEntries, Function.comp_def]

theorem total_hrrEntries (inter : List QAM) :
    total (hrrEntries inter) = (inter.map ncartQ).sum := by
  simp [total, hrrEntries, Function.comp_def]

/-! ## tables -/

theorem tabMax_ge (t : ℕ → ℕ) (mq v l : ℕ) : t l ≤ tabMax t mq v l := by
  unfold tabMax; split
  · subst_vars; exact le_max_left _ _
  · exact le_rfl

theorem logWork_mono (logs : List ((ℕ × ℕ × ℕ × ℕ) × WorkNumbers)) : ∀ (t : WorkTables) (l : ℕ),
    t.bcont l ≤ (logs.foldl logWork t).bcont l ∧ t.prim l ≤ (logs.foldl logWork t).prim l ∧
      t.cont l ≤ (logs.foldl logWork t).cont l := by
  induction logs with
  | nil => intro t l; simp
  | cons e r ih =>
    intro t l
    obtain ⟨h1, h2, h3⟩ := ih (logWork t e) l
    exact ⟨(tabMax_ge _ _ _ _).trans h1, (tabMax_ge _ _ _ _).trans h2, (tabMax_ge _ _ _ _).trans h3⟩

theorem logWork_covers (logs : List ((ℕ × ℕ × ℕ × ℕ) × WorkNumbers)) : ∀ (t : WorkTables),
    ∀ e ∈ logs, e.2.bcont ≤ (logs.foldl logWork t).bcont (maxAM e.1) ∧
      e.2.prim ≤ (logs.foldl logWork t).prim (maxAM e.1) ∧
      e.2.cont ≤ (logs.foldl logWork t).cont (maxAM e.1) := by
  induction logs with
  | nil => intro t e h; simp at h
  | cons f r ih =>
    intro t e h
    rcases List.mem_cons.1 h with rfl | h
    · obtain ⟨h1, h2, h3⟩ := logWork_mono r (logWork t e) (maxAM e.1)
      refine ⟨le_trans ?_ h1, le_trans ?_ h2, le_trans ?_ h3⟩ <;>
        · simp [logWork, tabMax]
    · exact ih (logWork t f) e h

theorem foldr_max_ge (l : List ℕ) (x : ℕ) (h : x ∈ l) : x ≤ l.foldr max 0 := by
  induction l with
  | nil => simp at h
  | cons y r ih =>
    rcases List.mem_cons.1 h with rfl | h
    · simp
    · simp [ih h]

theorem foldr_max_le (l : List ℕ) (b : ℕ) (h : ∀ x ∈ l, x ≤ b) : l.foldr max 0 ≤ b := by
  induction l with
  | nil => simp
  | cons y r ih =>
    simp only [List.foldr_cons, max_le_iff]
    exact ⟨h y (by simp), ih fun x hx => h x (by simp [hx])⟩

theorem le_prefixMax (t : ℕ → ℕ) {k l : ℕ} (h : k ≤ l) : t k ≤ prefixMax t l :=
  foldr_max_ge _ _ (List.mem_map_of_mem (List.mem_range.2 (by omega)))

theorem prefixMax_mono (t : ℕ → ℕ) {k l : ℕ} (h : k ≤ l) : prefixMax t k ≤ prefixMax t l := by
  apply foldr_max_le
  intro x hx
  obtain ⟨i, hi, rfl⟩ := List.mem_map.1 hx
  exact le_prefixMax t (by have := List.mem_range.1 hi; omega)

end Simint
