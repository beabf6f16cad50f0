import Verif.FlBoys
import Verif.BoysAcc
import Mathlib.Tactic.Linarith

/-! Lemmas on the Boys function with rounding. -/

set_option autoImplicit false

open Real

namespace Simint.FlBoys

theorem η_pos : 0 < η := by unfold η; positivity

theorem two_pow_le {a b : ℕ} (k : ℕ) (h : k * 10 ≤ b) (ha : (10 : ℝ) ^ a ≤ 2 ^ k) : (10 : ℝ) ^ (a * 10) ≤ 2 ^ b := by
  rw [pow_mul]
  refine (pow_le_pow_left₀ (by positivity) ha 10).trans ?_
  rw [← pow_mul]
  exact pow_le_pow_right₀ (by norm_num) h

theorem η_le : η ≤ 1 / 10 ^ 250 := by
  unfold η
  exact one_div_le_one_div_of_le (by positivity) (two_pow_le (a := 25) 107 (by norm_num) (by norm_num))

theorem fl_err {A : Arith} (h : Rounds A) {y : ℝ} (hy : |y| ≤ 10 ^ 200) :
    |A.fl y - y| ≤ 11103 / 10 ^ 20 * |y| + η := by
  have h1 := h.fl y (hy.trans (two_pow_le (a := 20) 100 (by norm_num) (by norm_num)))
  have h2 : u ≤ 11103 / 10 ^ 20 := by unfold u; norm_num
  have h3 := mul_le_mul_of_nonneg_right h2 (abs_nonneg y)
  linarith

theorem mac_err {A : Arith} (h : Rounds A) {a b c : ℝ} (hab : |a * b| ≤ 10 ^ 150) (hc : |c| ≤ 10 ^ 150) :
    |A.mac a b c - (a * b + c)| ≤ 223 / 10 ^ 18 * (|a * b| + |c|) + 3 * η := by
  have ha := abs_nonneg (a * b)
  have hc0 := abs_nonneg c
  have hη := η_pos
  have hη' := η_le
  have hs := abs_add_le (a * b) c
  rcases h.mac a b c with e | e <;> rw [e]
  · have h1 := fl_err h (y := a * b + c) (by linarith)
    linarith
  · have h0 := fl_err h (y := a * b) (by linarith)
    set p := A.fl (a * b)
    have hp : |p| ≤ |a * b| + |p - a * b| := by
      have := abs_add_le (a * b) (p - a * b); rwa [add_sub_cancel] at this
    have hs' := abs_add_le p c
    have h1 := fl_err h (y := p + c) (by linarith)
    have h2 : |A.fl (p + c) - (a * b + c)| ≤ |A.fl (p + c) - (p + c)| + |p - a * b| := by
      have := abs_add_le (A.fl (p + c) - (p + c)) (p - a * b)
      rwa [show A.fl (p + c) - (p + c) + (p - a * b) = A.fl (p + c) - (a * b + c) by ring] at this
    linarith

theorem sum_err {A : Arith} (h : Rounds A) {p q a b : ℝ} (ha : |a| ≤ 10 ^ 150) (hb : |b| ≤ 10 ^ 150)
    (hp : |p - a| ≤ 11103 / 10 ^ 20 * |a| + η) (hq : |q - b| ≤ 11103 / 10 ^ 20 * |b| + η) :
    |A.fl (p + q) - (a + b)| ≤ 223 / 10 ^ 18 * (|a| + |b|) + 4 * η := by
  have ha0 := abs_nonneg a
  have hb0 := abs_nonneg b
  have hη := η_pos
  have hη' := η_le
  have hp' : |p| ≤ |a| + |p - a| := by
    have := abs_add_le a (p - a); rwa [add_sub_cancel] at this
  have hq' : |q| ≤ |b| + |q - b| := by
    have := abs_add_le b (q - b); rwa [add_sub_cancel] at this
  have hs := abs_add_le p q
  have h1 := fl_err h (y := p + q) (by linarith)
  have h2 : |A.fl (p + q) - (a + b)| ≤ |A.fl (p + q) - (p + q)| + (|p - a| + |q - b|) := by
    have h3 := abs_add_le (A.fl (p + q) - (p + q)) (p - a + (q - b))
    have h4 := abs_add_le (p - a) (q - b)
    rw [show A.fl (p + q) - (p + q) + (p - a + (q - b)) = A.fl (p + q) - (a + b) by ring] at h3
    linarith
  linarith

theorem dot_err {A : Arith} (h : Rounds A) {a b c d : ℝ} (hab : |a * b| ≤ 10 ^ 150)
    (hcd : |c * d| ≤ 10 ^ 150) :
    |A.dot a b c d - (a * b + c * d)| ≤ 223 / 10 ^ 18 * (|a * b| + |c * d|) + 4 * η := by
  have hz : ∀ y : ℝ, |y - y| ≤ 11103 / 10 ^ 20 * |y| + η := fun y => by
    rw [sub_self, abs_zero]; have := η_pos; positivity
  have hab' := fl_err h (hab.trans (by norm_num))
  have hcd' := fl_err h (hcd.trans (by norm_num))
  rcases h.dot a b c d with e | e | e <;> rw [e]
  · exact sum_err h hab hcd hab' hcd'
  · exact sum_err h hab hcd (hz _) hcd'
  · exact sum_err h hab hcd hab' (hz _)

/-! ## Relative errors -/

/-- Relative error at most `δ`. -/
def Rel (δ a b : ℝ) : Prop := |a - b| ≤ δ * b

theorem Rel.mul {δ₁ δ₂ a b c d : ℝ} (h₁ : Rel δ₁ a b) (h₂ : Rel δ₂ c d) (hb : 0 ≤ b) (hd : 0 ≤ d)
    (hδ : 0 ≤ δ₁) : Rel (δ₁ + δ₂ + δ₁ * δ₂) (a * c) (b * d) := by
  unfold Rel at *
  have e : a * c - b * d = (a - b) * (c - d) + (a - b) * d + b * (c - d) := by ring
  rw [e]
  refine (abs_add_three _ _ _).trans ?_
  rw [abs_mul, abs_mul, abs_mul, abs_of_nonneg hb, abs_of_nonneg hd]
  have i1 := mul_le_mul h₁ h₂ (abs_nonneg _) (mul_nonneg hδ hb)
  have i2 := mul_le_mul_of_nonneg_right h₁ hd
  have i3 := mul_le_mul_of_nonneg_left h₂ hb
  nlinarith

theorem Rel.mono {δ δ' a b : ℝ} (h : Rel δ a b) (hd : δ ≤ δ') (hb : 0 ≤ b) : Rel δ' a b :=
  le_trans h (mul_le_mul_of_nonneg_right hd hb)

theorem Rel.fl {A : Arith} (hA : Rounds A) {δ a b : ℝ} (h : Rel δ a b) (h1 : δ ≤ 1 / 1000)
    (hb : 1 / 10 ^ 225 ≤ b) (hb' : b ≤ 10 ^ 150) : Rel (δ + 1112 / 10 ^ 19) (A.fl a) b := by
  unfold Rel at *
  have hb0 : 0 < b := lt_of_lt_of_le (by positivity) hb
  have hδb : δ * b ≤ 1 / 1000 * b := mul_le_mul_of_nonneg_right h1 hb0.le
  have ha : |a| ≤ b + |a - b| := by
    have := abs_add_le b (a - b); rwa [add_sub_cancel, abs_of_pos hb0] at this
  have hη : η ≤ 1 / 10 ^ 23 * b := η_le.trans (by
    have := mul_le_mul_of_nonneg_left hb (by positivity : (0 : ℝ) ≤ 1 / 10 ^ 23)
    refine le_trans ?_ this
    norm_num)
  have h2 := fl_err hA (y := a) (by linarith)
  have h3 := abs_sub_le (A.fl a) a b
  rw [add_mul]
  clear hb hb'
  linarith

theorem Rel.refl {b : ℝ} : Rel 0 b b := by unfold Rel; simp

theorem Rel.sqrt {δ a b : ℝ} (h : Rel δ a b) (hb : 0 < b) (hδ : 0 ≤ δ) : Rel δ √a √b := by
  unfold Rel at *
  have hs : 0 < √b := Real.sqrt_pos.2 hb
  rcases le_total 0 a with ha | ha
  · have e : √a - √b = (a - b) / (√a + √b) := by
      rw [eq_div_iff (by positivity)]
      nlinarith [Real.mul_self_sqrt ha, Real.mul_self_sqrt hb.le]
    rw [e, abs_div, abs_of_pos (by positivity : 0 < √a + √b), div_le_iff₀ (by positivity)]
    refine h.trans ?_
    have := Real.mul_self_sqrt hb.le
    have h5 : 0 ≤ δ * √b * √a := by positivity
    nlinarith
  · rw [Real.sqrt_eq_zero_of_nonpos ha, zero_sub, abs_neg, abs_of_pos hs]
    have h1 : b ≤ δ * b := by
      have := neg_abs_le (a - b); linarith
    have h2 : 1 ≤ δ := by by_contra hc; push Not at hc; nlinarith
    nlinarith

/-! ## Downward recursion -/

theorem down_step {A : Arith} (h : Rounds A) {x f g δ : ℝ} {m : ℕ} (hx : 0 ≤ x) (hx' : x ≤ 2 ^ 30)
    (hm : m ≤ 24) (hf : 0 ≤ f) (hf' : f ≤ 4) (hg : Rel δ g f) (hδ : 9 / 10 ^ 16 ≤ δ) (hδ' : δ ≤ 1 / 10 ^ 13)
    (hlow : 1 / 10 ^ 225 ≤ (2 * x * f + exp (-x)) / (2 * m + 1)) :
    Rel (δ + 6 / 10 ^ 16)
      (A.fl (A.fl (1 / (2 * (m : ℝ) + 1)) * A.mac (A.fl (2 * x)) g (A.exp (-x))))
      ((2 * x * f + exp (-x)) / (2 * m + 1)) := by
  have hη := η_pos
  have hη' := η_le
  have hmr : (m : ℝ) ≤ 24 := by exact_mod_cast hm
  have hm0 : (0 : ℝ) ≤ m := Nat.cast_nonneg m
  have hp : (0 : ℝ) < 2 * m + 1 := by positivity
  have he := exp_pos (-x)
  have he1 : exp (-x) ≤ 1 := exp_le_one_iff.2 (by linarith)
  set e := exp (-x) with hedef
  set q := 2 * x * f with hq
  have hq0 : 0 ≤ q := by positivity
  have hq' : q ≤ 10 ^ 20 := by
    have := mul_le_mul (mul_le_mul_of_nonneg_left hx' (by norm_num : (0 : ℝ) ≤ 2)) hf' hf (by positivity)
    exact this.trans (by norm_num)
  -- the factors
  have hX := fl_err h (y := 2 * x) (by rw [abs_of_nonneg (by positivity)]; linarith)
  rw [abs_of_nonneg (by positivity : 0 ≤ 2 * x)] at hX
  set X := A.fl (2 * x)
  have hE := h.exp (-x) (by linarith)
  rw [← hedef] at hE
  set E := A.exp (-x)
  have hEe : |E - e| ≤ δ * e + η := by
    have : 1 / 2 ^ 50 * e ≤ δ * e := mul_le_mul_of_nonneg_right (by linarith) he.le
    linarith
  -- product
  have hδ0 : 0 ≤ δ := by linarith
  have hP : |X * g - q| ≤ δ * q + 1111 / 10 ^ 19 * q + 10 * η := by
    have e1 : X * g - q = X * (g - f) + (X - 2 * x) * f := by rw [hq]; ring
    have hXa : |X| ≤ 2 * x + (11103 / 10 ^ 20 * (2 * x) + η) := by
      have := abs_add_le (2 * x) (X - 2 * x)
      rw [add_sub_cancel, abs_of_nonneg (by positivity : 0 ≤ 2 * x)] at this
      linarith
    have i1 : |X| * |g - f| ≤ (2 * x + (11103 / 10 ^ 20 * (2 * x) + η)) * (δ * f) :=
      mul_le_mul hXa hg (abs_nonneg _) (by positivity)
    have i2 : |X - 2 * x| * f ≤ (11103 / 10 ^ 20 * (2 * x) + η) * f := mul_le_mul_of_nonneg_right hX hf
    have i3 : (2 * x + (11103 / 10 ^ 20 * (2 * x) + η)) * (δ * f) =
        δ * q + 11103 / 10 ^ 20 * (δ * q) + η * (δ * f) := by rw [hq]; ring
    have i4 : (11103 / 10 ^ 20 * (2 * x) + η) * f = 11103 / 10 ^ 20 * q + η * f := by rw [hq]; ring
    have i5 : δ * q ≤ 1 / 10 ^ 13 * q := mul_le_mul_of_nonneg_right hδ' hq0
    have i6 : η * f ≤ η * 4 := mul_le_mul_of_nonneg_left hf' hη.le
    have i7 : η * (δ * f) ≤ η * 4 := by
      refine mul_le_mul_of_nonneg_left ?_ hη.le
      nlinarith
    have tri := abs_add_le (X * (g - f)) ((X - 2 * x) * f)
    rw [abs_mul, abs_mul, abs_of_nonneg hf] at tri
    rw [e1]
    linarith
  have i5 : δ * q ≤ 1 / 10 ^ 13 * q := mul_le_mul_of_nonneg_right hδ' hq0
  have i5' : δ * e ≤ 1 / 10 ^ 13 * e := mul_le_mul_of_nonneg_right hδ' he.le
  have hPa : |X * g| ≤ q + |X * g - q| := by
    have := abs_add_le q (X * g - q); rwa [add_sub_cancel, abs_of_nonneg hq0] at this
  have hEa : |E| ≤ e + |E - e| := by
    have := abs_add_le e (E - e); rwa [add_sub_cancel, abs_of_pos he] at this
  have hM := mac_err h (a := X) (b := g) (c := E) (by linarith) (by linarith)
  set M := A.mac X g E
  set s := q + e with hs
  have hsl : 1 / 10 ^ 225 ≤ s := by
    refine hlow.trans (div_le_self (by positivity) ?_)
    linarith
  have hηs : η ≤ 1 / 10 ^ 25 * s := by
    have := mul_le_mul_of_nonneg_left hsl (by positivity : (0 : ℝ) ≤ 1 / 10 ^ 25)
    refine hη'.trans (le_trans ?_ this)
    norm_num
  have hMs : Rel (δ + 336 / 10 ^ 18) M s := by
    unfold Rel
    have tri : |M - s| ≤ |M - (X * g + E)| + (|X * g - q| + |E - e|) := by
      have h3 := abs_add_le (M - (X * g + E)) (X * g - q + (E - e))
      have h4 := abs_add_le (X * g - q) (E - e)
      rw [show M - (X * g + E) + (X * g - q + (E - e)) = M - s by rw [hs]; ring] at h3
      linarith
    have : (δ + 336 / 10 ^ 18) * s = δ * q + δ * e + 336 / 10 ^ 18 * s := by rw [hs]; ring
    rw [this]
    linarith
  have hD : Rel (0 + 1112 / 10 ^ 19) (A.fl (1 / (2 * (m : ℝ) + 1))) (1 / (2 * m + 1)) := by
    have hc1 : 1 / (2 * (m : ℝ) + 1) ≤ 1 := by rw [div_le_one hp]; linarith
    have hc2 : 1 / 100 ≤ 1 / (2 * (m : ℝ) + 1) := one_div_le_one_div_of_le hp (by linarith)
    exact Rel.refl.fl h (by norm_num) (le_trans (by norm_num) hc2) (hc1.trans (by norm_num))
  have hs0 : 0 ≤ s := by positivity
  have hDM := hD.mul hMs (by positivity) hs0 (by norm_num)
  have ecs : 1 / (2 * (m : ℝ) + 1) * s = s / (2 * m + 1) := by ring
  rw [ecs] at hDM
  have hup : s / (2 * (m : ℝ) + 1) ≤ 10 ^ 150 := by
    refine (div_le_self hs0 (by linarith)).trans ?_
    rw [hs]
    linarith
  refine ((hDM.mono (δ' := δ + 449 / 10 ^ 18) ?_ (by positivity)).fl h (by linarith) hlow hup).mono ?_ (by positivity)
  · linarith
  · linarith

/-- All iterations, relative to a sequence `G` that satisfies the recursion. -/
theorem down_err {A : Arith} (h : Rounds A) {x t δ : ℝ} {G : ℕ → ℝ} (hx : 0 ≤ x) (hx' : x ≤ 2 ^ 30) {n : ℕ}
    (hn : n ≤ 24) (hG : ∀ m < n, G m = (2 * x * G (m + 1) + exp (-x)) / (2 * m + 1))
    (hlow : ∀ m ≤ n, 1 / 10 ^ 225 ≤ G m) (hup : ∀ m ≤ n, G m ≤ 4)
    (hδ : 9 / 10 ^ 16 ≤ δ) (hδ' : δ ≤ 5 / 10 ^ 14) (ht : Rel δ t (G n)) :
    ∀ (k m : ℕ), m + k = n → Rel (δ + k * (6 / 10 ^ 16)) (down A x t m k) (G m) := by
  intro k
  induction k with
  | zero => intro m hm; obtain rfl : m = n := by omega
            simpa [down] using ht
  | succ k ih =>
    intro m hm
    have h1 := ih (m + 1) (by omega)
    have hk : (k : ℝ) ≤ 24 := by exact_mod_cast (show k ≤ 24 by omega)
    have hl := hlow m (by omega)
    rw [hG m (by omega)] at hl ⊢
    have h0 : (0 : ℝ) ≤ G (m + 1) := le_trans (by positivity) (hlow (m + 1) (by omega))
    have := down_step h (m := m) hx hx' (by omega) h0 (hup (m + 1) (by omega)) h1 (by
      have : (0 : ℝ) ≤ k * (6 / 10 ^ 16) := by positivity
      linarith) (by linarith) hl
    rw [down]
    refine this.mono ?_ (le_trans (by positivity) hl)
    push_cast
    linarith

/-! ## Table lookup -/

theorem idx_ok {A : Arith} (h : Rounds A) {x : ℝ} (hx : 0 ≤ x) (hx' : x < 36.5) :
    ∃ i : ℕ, i < 366 ∧ idx A x = i ∧ |(i / 10 : ℝ) - x| ≤ 1 / 20 + 13 / 10 ^ 15 := by
  have hη := η_pos
  have hη' := η_le
  norm_num at hx'
  have h1 := fl_err h (y := 1 / 20) (by rw [abs_of_pos (by norm_num)]; norm_num)
  rw [abs_of_pos (by norm_num : (0 : ℝ) < 1 / 20), abs_le] at h1
  set w := A.fl (1 / 20)
  obtain ⟨h1a, h1b⟩ := h1
  have hw : 0 ≤ x + w := by linarith
  have h2 := fl_err h (y := x + w) (by rw [abs_of_nonneg hw]; linarith)
  rw [abs_of_nonneg hw, abs_le] at h2
  set a := A.fl (x + w)
  obtain ⟨h2a, h2b⟩ := h2
  have ha : 0 ≤ 10 * a := by linarith
  have h3 := fl_err h (y := 10 * a) (by rw [abs_of_nonneg ha]; linarith)
  rw [abs_of_nonneg ha, abs_le] at h3
  obtain ⟨h3a, h3b⟩ := h3
  unfold idx
  set b := A.fl (10 * a)
  have hb1 : 10 * (x + 1 / 20) - 1 / 10 ^ 13 * (5 / 4) ≤ b := by linarith
  have hb2 : b ≤ 10 * (x + 1 / 20) + 1 / 10 ^ 13 * (5 / 4) := by linarith
  have hb0 : 0 ≤ b := by linarith
  have f1 := Nat.floor_le hb0
  have f2 := Nat.lt_floor_add_one b
  refine ⟨⌊b⌋₊, ?_, ?_, ?_⟩
  · rw [Nat.floor_lt hb0]; push_cast; linarith
  · simp only [realBoys]
    rw [if_pos hb0, Int.natCast_floor_eq_floor hb0]
  · rw [abs_le]
    constructor <;> linarith

theorem delta_ok {A : Arith} (h : Rounds A) {x : ℝ} {i : ℕ} (hx : 0 ≤ x) (hx' : x < 36.5) (hi : i < 366)
    (he : idx A x = i) (hn : |(i / 10 : ℝ) - x| ≤ 1 / 20 + 13 / 10 ^ 15) :
    |delta A x - ((i / 10 : ℝ) - x)| ≤ 82 / 10 ^ 16 := by
  have hη := η_pos
  have hη' := η_le
  norm_num at hx'
  have hir : (i : ℝ) ≤ 365 := by exact_mod_cast (show i ≤ 365 by omega)
  have hi0 : (0 : ℝ) ≤ i := Nat.cast_nonneg i
  have h1 := fl_err h (y := 1 / 10) (by rw [abs_of_pos (by norm_num)]; norm_num)
  rw [abs_of_pos (by norm_num : (0 : ℝ) < 1 / 10)] at h1
  unfold delta
  rw [he]
  push_cast
  set w := A.fl (1 / 10)
  have h2 : |(i : ℝ) * w - i / 10| ≤ 365 * (11103 / 10 ^ 20 * (1 / 10) + η) := by
    rw [show (i : ℝ) * w - i / 10 = i * (w - 1 / 10) by ring, abs_mul, abs_of_nonneg hi0]
    exact mul_le_mul hir h1 (abs_nonneg _) (by norm_num)
  rw [abs_le] at h2 hn
  obtain ⟨h2a, h2b⟩ := h2
  obtain ⟨hna, hnb⟩ := hn
  have hiw : |(i : ℝ) * w| ≤ 365001 / 10000 := by rw [abs_le]; constructor <;> linarith
  rcases h.mac i w (-x) with e | e <;> rw [e]
  · have h3 := fl_err h (y := i * w + -x) (by rw [abs_le]; constructor <;> linarith)
    have h4 : |(i : ℝ) * w + -x| ≤ 1 / 10 := by rw [abs_le]; constructor <;> linarith
    rw [abs_le] at h3 ⊢
    obtain ⟨h3a, h3b⟩ := h3
    constructor <;> linarith
  · have h0 := fl_err h (y := i * w) (by linarith)
    rw [abs_le] at h0
    obtain ⟨h0a, h0b⟩ := h0
    set p := A.fl (i * w)
    have h4 : |p + -x| ≤ 1 / 10 := by rw [abs_le]; constructor <;> linarith
    have h3 := fl_err h (y := p + -x) (by linarith)
    rw [abs_le] at h3 ⊢
    obtain ⟨h3a, h3b⟩ := h3
    constructor <;> linarith

/-! ## Taylor series -/

/-- Lower bound of the Boys function in the short range. -/
theorem boysF_low {m : ℕ} {x : ℝ} (hx : 0 ≤ x) (hx' : x ≤ 36.5) (hm : m ≤ 31) : 1 / 10 ^ 18 ≤ boysF m x := by
  have hr := boysF_rec m x
  have h1 := boysF_nonneg (m + 1) x
  have h2 : exp (-36.5) ≤ exp (-x) := exp_le_exp.2 (by linarith)
  have h3 := exp_365.1
  have hm' : (m : ℝ) ≤ 31 := by exact_mod_cast hm
  have h0 := boysF_nonneg m x
  have h4 : 0 ≤ 2 * x * boysF (m + 1) x := by positivity
  have h5 : (m : ℝ) * boysF m x ≤ 31 * boysF m x := mul_le_mul_of_nonneg_right hm' h0
  have h6 : 0.00000000000000014 ≤ exp (-x) := le_trans (by norm_num at *; linarith) h2
  norm_num at h6 ⊢
  linarith

theorem grid_err {A : Arith} (h : Rounds A) {i j : ℕ} (hi : i < 366) (hj : j < 32) {B : ℝ}
    (hB : boysF j (i / 10) ≤ B) (hB1 : B ≤ 1) (hB0 : 1 / 10 ^ 18 ≤ B) :
    ∃ g, grid A i j = some g ∧ |g - boysF j (i / 10)| ≤ 117 / 10 ^ 18 * B := by
  have hη' := η_le
  unfold grid
  rw [gridGet_some hi hj]
  refine ⟨_, rfl, ?_⟩
  have hg : EntryOK (boysGridN i j) (boysF j (i / 10)) := grid_ok hi hj
  unfold EntryOK at hg
  have hF := boysF_nonneg j (i / 10)
  set F := boysF j (i / 10)
  set g := (boysGridN i j : ℝ) / 10 ^ 34
  have hga : |g| ≤ F + |g - F| := by
    have := abs_add_le F (g - F); rwa [add_sub_cancel, abs_of_nonneg hF] at this
  have h1 := fl_err h (y := g) (by linarith)
  have h2 := abs_sub_le (A.fl g) g F
  linarith

/-- One term of the sum. -/
theorem term_err {A : Arith} (h : Rounds A) {d t S g F f B : ℝ} (hd : |d| ≤ 501 / 10000) (hB0 : 1 / 10 ^ 18 ≤ B)
    (hB1 : B ≤ 1) (ht : |t - S| ≤ 6 / 10 ^ 16 * B) (hS : |S| ≤ 11 / 10 * B) (hF : 0 ≤ F) (hFB : F ≤ B)
    (hg : |g - F| ≤ 117 / 10 ^ 18 * B) (hf : 1 ≤ f) (hf' : f ≤ 10000) :
    |term A d t f g - (d * S + F / f)| ≤ 6 / 10 ^ 16 * B ∧ |d * S + F / f| ≤ 11 / 10 * B := by
  have hη := η_pos
  have hη' := η_le
  have hf0 : 0 < f := by linarith
  have hc1 : 1 / f ≤ 1 := by rw [div_le_one hf0]; exact hf
  have hc0 : 0 < 1 / f := by positivity
  set c := 1 / f with hc
  have h1 := fl_err h (y := c) (by rw [abs_of_pos hc0]; linarith)
  rw [abs_of_pos hc0] at h1
  unfold term
  rw [← hc]
  set C := A.fl c
  have hga : |g| ≤ F + |g - F| := by
    have := abs_add_le F (g - F); rwa [add_sub_cancel, abs_of_nonneg hF] at this
  have hta : |t| ≤ |S| + |t - S| := by
    have := abs_add_le S (t - S); rwa [add_sub_cancel] at this
  have hFf : F / f = c * F := by rw [hc]; ring
  rw [hFf]
  have hcF : c * F ≤ B := by nlinarith
  have hcF0 : 0 ≤ c * F := by positivity
  have hq : |C * g - c * F| ≤ 23 / 10 ^ 17 * B := by
    have e : C * g - c * F = (C - c) * g + c * (g - F) := by ring
    have i1 : |C - c| * |g| ≤ (1111 / 10 ^ 19) * (1001 / 1000 * B) :=
      mul_le_mul (by linarith) (by linarith) (abs_nonneg _) (by norm_num)
    have i2 : c * |g - F| ≤ 1 * (117 / 10 ^ 18 * B) := mul_le_mul hc1 hg (abs_nonneg _) (by norm_num)
    have tri := abs_add_le ((C - c) * g) (c * (g - F))
    rw [abs_mul, abs_mul, abs_of_pos hc0] at tri
    rw [e]
    linarith
  have hqa : |C * g| ≤ c * F + |C * g - c * F| := by
    have := abs_add_le (c * F) (C * g - c * F); rwa [add_sub_cancel, abs_of_nonneg hcF0] at this
  have hdt : |d * t| ≤ 6 / 100 * B := by
    rw [abs_mul]
    have := mul_le_mul hd (show |t| ≤ 111 / 100 * B by linarith) (abs_nonneg _) (by norm_num)
    linarith
  have hdt2 : |d * t - d * S| ≤ 31 / 10 ^ 18 * B := by
    rw [← mul_sub, abs_mul]
    have := mul_le_mul hd ht (abs_nonneg _) (by norm_num)
    linarith
  have hD := dot_err h (a := d) (b := t) (c := C) (d := g) (by linarith) (by linarith)
  constructor
  · have h3 := abs_add_le (A.dot d t C g - (d * t + C * g)) (d * t - d * S + (C * g - c * F))
    have h4 := abs_add_le (d * t - d * S) (C * g - c * F)
    rw [show A.dot d t C g - (d * t + C * g) + (d * t - d * S + (C * g - c * F)) =
      A.dot d t C g - (d * S + c * F) by ring] at h3
    linarith
  · have h3 := abs_add_le (d * S) (c * F)
    rw [abs_mul, abs_of_nonneg hcF0] at h3
    have := mul_le_mul hd hS (abs_nonneg _) (by norm_num)
    linarith

/-- The two terms without a factor. -/
theorem term1_err {A : Arith} (h : Rounds A) {d t S g F B : ℝ} (hd : |d| ≤ 501 / 10000) (hB0 : 1 / 10 ^ 18 ≤ B)
    (hB1 : B ≤ 1) (ht : |t - S| ≤ 6 / 10 ^ 16 * B) (hS : |S| ≤ 11 / 10 * B) (hF : 0 ≤ F) (hFB : F ≤ B)
    (hg : |g - F| ≤ 117 / 10 ^ 18 * B) :
    |A.mac d t g - (d * S + F)| ≤ 6 / 10 ^ 16 * B ∧ |d * S + F| ≤ 11 / 10 * B := by
  have hη := η_pos
  have hη' := η_le
  have hga : |g| ≤ F + |g - F| := by
    have := abs_add_le F (g - F); rwa [add_sub_cancel, abs_of_nonneg hF] at this
  have hta : |t| ≤ |S| + |t - S| := by
    have := abs_add_le S (t - S); rwa [add_sub_cancel] at this
  have hdt : |d * t| ≤ 6 / 100 * B := by
    rw [abs_mul]
    have := mul_le_mul hd (show |t| ≤ 111 / 100 * B by linarith) (abs_nonneg _) (by norm_num)
    linarith
  have hdt2 : |d * t - d * S| ≤ 31 / 10 ^ 18 * B := by
    rw [← mul_sub, abs_mul]
    have := mul_le_mul hd ht (abs_nonneg _) (by norm_num)
    linarith
  have hD := mac_err h (a := d) (b := t) (c := g) (by linarith) (by linarith)
  constructor
  · have h3 := abs_add_le (A.mac d t g - (d * t + g)) (d * t - d * S + (g - F))
    have h4 := abs_add_le (d * t - d * S) (g - F)
    rw [show A.mac d t g - (d * t + g) + (d * t - d * S + (g - F)) = A.mac d t g - (d * S + F) by ring] at h3
    linarith
  · have h3 := abs_add_le (d * S) F
    rw [abs_mul, abs_of_nonneg hF] at h3
    have := mul_le_mul hd hS (abs_nonneg _) (by norm_num)
    linarith

/-- The last term. -/
theorem last_err {A : Arith} (h : Rounds A) {g F B : ℝ} (hB0 : 1 / 10 ^ 18 ≤ B) (hB1 : B ≤ 1) (hF : 0 ≤ F)
    (hFB : F ≤ B) (hg : |g - F| ≤ 117 / 10 ^ 18 * B) :
    |A.fl (A.fl (1 / 5040) * g) - F / 5040| ≤ 6 / 10 ^ 16 * B ∧ |F / 5040| ≤ 11 / 10 * B := by
  have hη := η_pos
  have hη' := η_le
  have h1 := fl_err h (y := 1 / 5040) (by rw [abs_of_pos (by norm_num)]; norm_num)
  rw [abs_of_pos (by norm_num : (0 : ℝ) < 1 / 5040)] at h1
  set C := A.fl (1 / 5040)
  have hga : |g| ≤ F + |g - F| := by
    have := abs_add_le F (g - F); rwa [add_sub_cancel, abs_of_nonneg hF] at this
  have hq : |C * g - F / 5040| ≤ 1 / 10 ^ 18 * B := by
    have e : C * g - F / 5040 = (C - 1 / 5040) * g + 1 / 5040 * (g - F) := by ring
    have i1 : |C - 1 / 5040| * |g| ≤ (3 / 10 ^ 20) * (1001 / 1000 * B) :=
      mul_le_mul (by linarith) (by linarith) (abs_nonneg _) (by norm_num)
    have tri := abs_add_le ((C - 1 / 5040) * g) (1 / 5040 * (g - F))
    rw [abs_mul, abs_mul, abs_of_pos (by norm_num : (0 : ℝ) < 1 / 5040)] at tri
    rw [e]
    linarith
  have hqa : |C * g| ≤ F / 5040 + |C * g - F / 5040| := by
    have := abs_add_le (F / 5040) (C * g - F / 5040)
    rwa [add_sub_cancel, abs_of_nonneg (by positivity : 0 ≤ F / 5040)] at this
  have h2 := fl_err h (y := C * g) (by linarith)
  have h3 := abs_sub_le (A.fl (C * g)) (C * g) (F / 5040)
  refine ⟨by linarith, ?_⟩
  rw [abs_of_nonneg (by positivity)]
  linarith

theorem exp_small' : exp (501 / 10000) ≤ 1.06 := by
  have h := Real.exp_bound' (x := 501 / 10000) (by norm_num) (by norm_num) (n := 4) (by norm_num)
  refine h.trans ?_
  simp only [Finset.sum_range_succ, Finset.sum_range_zero, Nat.factorial]
  norm_num

theorem exp_tiny : exp (82 / 10 ^ 16) ≤ 1 + 83 / 10 ^ 16 := by
  have h := Real.exp_bound' (x := 82 / 10 ^ 16) (by norm_num) (by norm_num) (n := 2) (by norm_num)
  refine h.trans ?_
  simp only [Finset.sum_range_succ, Finset.sum_range_zero, Nat.factorial]
  norm_num

/-- Short range: the value of one order. -/
theorem taylor_ok {A : Arith} (h : Rounds A) {m : ℕ} {x : ℝ} (hx : 0 ≤ x) (hx' : x < 36.5) (hm : m ≤ 24) :
    ∃ y, taylor A x m = some y ∧ Rel (105 / 10 ^ 16) y (boysF m x) := by
  obtain ⟨i, hi, he, hn⟩ := idx_ok h hx hx'
  have hδ := delta_ok h hx hx' hi he hn
  unfold taylor
  rw [he]
  set d := delta A x
  set y : ℝ := (i : ℝ) / 10 with hy
  have hd : |d| ≤ 501 / 10000 := by
    rw [abs_le] at hδ hn ⊢
    obtain ⟨a1, a2⟩ := hδ
    obtain ⟨b1, b2⟩ := hn
    constructor <;> linarith
  have hy0 : 0 ≤ y := by positivity
  have hy1 : y ≤ 36.5 := by
    have : (i : ℝ) ≤ 365 := by exact_mod_cast (show i ≤ 365 by omega)
    rw [hy]; norm_num; linarith
  set B := boysF m y with hBdef
  have hB0 : 1 / 10 ^ 18 ≤ B := boysF_low hy0 hy1 (by omega)
  have hB1 : B ≤ 1 := boysF_le_one hy0
  have hF0 : ∀ k, 0 ≤ boysF (m + k) y := fun k => boysF_nonneg _ _
  have hFB : ∀ k, boysF (m + k) y ≤ B := fun k => boysF_anti (by omega) y
  have hg : ∀ k < 8, ∃ g, grid A i (m + k) = some g ∧ |g - boysF (m + k) y| ≤ 117 / 10 ^ 18 * B :=
    fun k hk => grid_err h hi (by omega) (hFB k) hB1 hB0
  obtain ⟨g0, e0, k0⟩ := hg 0 (by norm_num)
  obtain ⟨g1, e1, k1⟩ := hg 1 (by norm_num)
  obtain ⟨g2, e2, k2⟩ := hg 2 (by norm_num)
  obtain ⟨g3, e3, k3⟩ := hg 3 (by norm_num)
  obtain ⟨g4, e4, k4⟩ := hg 4 (by norm_num)
  obtain ⟨g5, e5, k5⟩ := hg 5 (by norm_num)
  obtain ⟨g6, e6, k6⟩ := hg 6 (by norm_num)
  obtain ⟨g7, e7, k7⟩ := hg 7 (by norm_num)
  unfold taylorSum
  beta_reduce
  rw [e0, e1, e2, e3, e4, e5, e6, e7]
  refine ⟨_, rfl, ?_⟩
  dsimp only
  have s7 := last_err h hB0 hB1 (hF0 7) (hFB 7) k7
  have s6 := term_err h (f := 720) hd hB0 hB1 s7.1 s7.2 (hF0 6) (hFB 6) k6 (by norm_num) (by norm_num)
  have s5 := term_err h (f := 120) hd hB0 hB1 s6.1 s6.2 (hF0 5) (hFB 5) k5 (by norm_num) (by norm_num)
  have s4 := term_err h (f := 24) hd hB0 hB1 s5.1 s5.2 (hF0 4) (hFB 4) k4 (by norm_num) (by norm_num)
  have s3 := term_err h (f := 6) hd hB0 hB1 s4.1 s4.2 (hF0 3) (hFB 3) k3 (by norm_num) (by norm_num)
  have s2 := term_err h (f := 2) hd hB0 hB1 s3.1 s3.2 (hF0 2) (hFB 2) k2 (by norm_num) (by norm_num)
  have s1 := term1_err h hd hB0 hB1 s2.1 s2.2 (hF0 1) (hFB 1) k1
  have s0 := (term1_err h hd hB0 hB1 s1.1 s1.2 (hF0 0) (hFB 0) k0).1
  set res := A.mac d (A.mac d _ g1) g0
  -- exact sum
  have hx2 : y - (y - d) = d := by ring
  have hT := boysF_taylor (x := y - d) (y := y) (by rw [hx2]; linarith) m
  rw [hx2] at hT
  have hsum : ∑ k ∈ Finset.range 8, d ^ k / k.factorial * boysF (m + k) y =
      d * (d * (d * (d * (d * (d * (d * (boysF (m + 7) y / 5040) + boysF (m + 6) y / 720) + boysF (m + 5) y / 120)
        + boysF (m + 4) y / 24) + boysF (m + 3) y / 6) + boysF (m + 2) y / 2) + boysF (m + 1) y)
        + boysF (m + 0) y := by
    simp only [Finset.sum_range_succ, Finset.sum_range_zero, Nat.factorial]
    norm_num
    ring
  rw [← hsum] at s0
  set S := ∑ k ∈ Finset.range 8, d ^ k / k.factorial * boysF (m + k) y
  have hrem : |d| ^ 8 * (9 / 322560) * boysF (m + 8) y ≤ 112 / 10 ^ 17 * B := by
    have p8 : |d| ^ 8 ≤ (501 / 10000) ^ 8 := pow_le_pow_left₀ (abs_nonneg d) hd 8
    have := mul_le_mul (mul_le_mul_of_nonneg_right p8 (by norm_num : (0 : ℝ) ≤ 9 / 322560)) (hFB 8) (hF0 8)
      (by norm_num)
    refine this.trans (mul_le_mul_of_nonneg_right (by norm_num) (by linarith))
  -- shifts
  have hδ' := abs_le.1 hδ
  have hF1 : boysF m (y - d) ≤ exp (82 / 10 ^ 16) * boysF m x := boysF_shift (by linarith [hδ'.2]) (by norm_num) m
  have hF2 : boysF m x ≤ exp (82 / 10 ^ 16) * boysF m (y - d) := boysF_shift (by linarith [hδ'.1]) (by norm_num) m
  have hBs : B ≤ exp (501 / 10000) * boysF m (y - d) :=
    boysF_shift (by have := (abs_le.1 hd).1; linarith) (by norm_num) m
  have p1 := boysF_nonneg m x
  have p2 := boysF_nonneg m (y - d)
  have q1 := mul_le_mul_of_nonneg_right exp_tiny p1
  have q2 := mul_le_mul_of_nonneg_right exp_tiny p2
  have q3 := mul_le_mul_of_nonneg_right exp_small' p2
  unfold Rel
  have hFF : |boysF m (y - d) - boysF m x| ≤ 84 / 10 ^ 16 * boysF m x := by
    rw [abs_le]; constructor <;> linarith
  have t1 := abs_sub_le res S (boysF m x)
  have t2 := abs_sub_le S (boysF m (y - d)) (boysF m x)
  rw [abs_sub_comm S (boysF m (y - d))] at t2
  norm_num at q3
  linarith

/-! ## Long range -/

theorem rpow_bounds {x : ℝ} {m : ℕ} (hx : 1 ≤ x) (hx' : x ≤ 10 ^ 8) (hm : m ≤ 24) :
    1 / 10 ^ 200 ≤ x ^ (-((m : ℝ) + 1 / 2)) ∧ x ^ (-((m : ℝ) + 1 / 2)) ≤ 1 := by
  have hx0 : 0 < x := by linarith
  have hm' : (m : ℝ) ≤ 24 := by exact_mod_cast hm
  constructor
  · have h1 : x ^ (-(25 : ℕ) : ℝ) ≤ x ^ (-((m : ℝ) + 1 / 2)) :=
      rpow_le_rpow_of_exponent_le hx (by push_cast; linarith)
    refine le_trans ?_ h1
    rw [rpow_neg hx0.le, rpow_natCast, ← one_div]
    refine one_div_le_one_div_of_le (by positivity) ?_
    refine (pow_le_pow_left₀ hx0.le hx' 25).trans_eq ?_
    rw [← pow_mul]
  · exact rpow_le_one_of_one_le_of_nonpos hx (by have : (0 : ℝ) ≤ m := Nat.cast_nonneg m
                                                 linarith)

theorem facs_bounds : ∀ n < 25, 4 * 10 ^ 17 ≤ boysLongfacN.getD n 0 ∧ boysLongfacN.getD n 0 ≤ 10 ^ 43 := by
  decide +kernel

theorem fac_bounds {n : ℕ} (hn : n ≤ 24) :
    4 / 10 ≤ (boysLongfacN.getD n 0 : ℝ) / 10 ^ 18 ∧ (boysLongfacN.getD n 0 : ℝ) / 10 ^ 18 ≤ 10 ^ 25 := by
  obtain ⟨h1, h2⟩ := facs_bounds n (by omega)
  generalize boysLongfacN.getD n 0 = k at *
  have h1' : (4 * 10 ^ 17 : ℝ) ≤ k := by exact_mod_cast h1
  have h2' : (k : ℝ) ≤ 10 ^ 43 := by exact_mod_cast h2
  rw [le_div_iff₀ (by positivity), div_le_iff₀ (by positivity)]
  constructor
  · linarith
  · linarith

theorem fac_rel {A : Arith} (h : Rounds A) {n : ℕ} (hn : n ≤ 24) :
    ∃ f, longfac A n = some f ∧ Rel (1112 / 10 ^ 19) f ((boysLongfacN.getD n 0 : ℝ) / 10 ^ 18) := by
  unfold longfac
  rw [longfacGet_some (by omega)]
  refine ⟨_, rfl, ?_⟩
  obtain ⟨h1, h2⟩ := fac_bounds hn
  have := Rel.refl.fl h (b := (boysLongfacN.getD n 0 : ℝ) / 10 ^ 18) (by norm_num) (by linarith) (by linarith)
  rwa [zero_add] at this

theorem pow_rel {A : Arith} (h : Rounds A) {x p : ℝ} (hx : 1 ≤ x) (hp : p ≤ 0) (hl : 1 / 10 ^ 225 ≤ x ^ p) :
    Rel (89 / 10 ^ 17) (A.pow x p) (x ^ p) := by
  have h1 := h.pow x p hx hp
  have hη := η_le
  have : η ≤ 1 / 10 ^ 25 * x ^ p := by
    have := mul_le_mul_of_nonneg_left hl (by positivity : (0 : ℝ) ≤ 1 / 10 ^ 25)
    refine hη.trans (le_trans ?_ this)
    norm_num
  unfold Rel
  linarith

theorem longVal_bounds {x : ℝ} {m : ℕ} (hx : 1 ≤ x) (hx' : x ≤ 10 ^ 8) (hm : m ≤ 24) :
    4 / 10 * (1 / 10 ^ 200) ≤ longVal m x ∧ longVal m x ≤ 10 ^ 25 * 1 := by
  obtain ⟨p1, p2⟩ := rpow_bounds hx hx' hm
  obtain ⟨f1, f2⟩ := fac_bounds hm
  unfold longVal
  have : (0 : ℝ) ≤ x ^ (-((m : ℝ) + 1 / 2)) := le_trans (by positivity) p1
  exact ⟨mul_le_mul f1 p1 (by positivity) (by linarith), mul_le_mul f2 p2 this (by positivity)⟩

/-- Factor times power, rounded. -/
theorem fac_mul {A : Arith} (h : Rounds A) {x f y δ : ℝ} {m : ℕ} (hx : 1 ≤ x) (hx' : x ≤ 10 ^ 8) (hm : m ≤ 24)
    (hf : Rel (1112 / 10 ^ 19) f ((boysLongfacN.getD m 0 : ℝ) / 10 ^ 18))
    (hy : Rel δ y (x ^ (-((m : ℝ) + 1 / 2)))) (hδ : δ ≤ 105 / 10 ^ 17) (hδ0 : 0 ≤ δ) :
    Rel (13 / 10 ^ 16) (A.fl (f * y)) (longVal m x) := by
  obtain ⟨f1, f2⟩ := fac_bounds hm
  obtain ⟨p1, p2⟩ := rpow_bounds hx hx' hm
  obtain ⟨b1, b2⟩ := longVal_bounds hx hx' hm
  have hb : 0 ≤ longVal m x := le_trans (by positivity) b1
  have h1 := hf.mul hy (by linarith) (le_trans (by positivity) p1) (by norm_num)
  have h2 : Rel _ (f * y) (longVal m x) := h1
  exact ((h2.mono (δ' := 117 / 10 ^ 17) (by linarith) hb).fl h (by norm_num) (by linarith) (by linarith)).mono
    (by norm_num) hb

theorem longSingleVec_ok {A : Arith} (h : Rounds A) {x : ℝ} {n : ℕ} (hx : 1 ≤ x) (hx' : x ≤ 10 ^ 8) (hn : n ≤ 24) :
    ∃ y, longSingleVec A x n = some y ∧ Rel (13 / 10 ^ 16) y (longVal n x) := by
  obtain ⟨f, e, hf⟩ := fac_rel h hn
  unfold longSingleVec
  rw [e]
  have hn0 : (0 : ℝ) ≤ n := Nat.cast_nonneg n
  exact ⟨_, rfl, fac_mul h hx hx' hn hf (pow_rel h hx (by linarith)
    (le_trans (by norm_num) (rpow_bounds hx hx' hn).1)) (by norm_num) (by norm_num)⟩

theorem longSingle_ok {A : Arith} (h : Rounds A) {x : ℝ} {n : ℕ} (hx : 1 ≤ x) (hx' : x ≤ 10 ^ 8) (hn : n ≤ 24)
    (hp : x ^ (2 * n + 1) ≤ 10 ^ 225) :
    ∃ y, longSingle A x n = some y ∧ Rel (13 / 10 ^ 16) y (longVal n x) := by
  obtain ⟨f, e, hf⟩ := fac_rel h hn
  unfold longSingle
  rw [e]
  have hx0 : 0 < x := by linarith
  have hl : 1 / 10 ^ 225 ≤ x ^ (-((2 * n + 1 : ℕ) : ℝ)) := by
    rw [rpow_neg hx0.le, rpow_natCast, ← one_div]
    exact one_div_le_one_div_of_le (by positivity) hp
  have h1 := (pow_rel h hx (by simp only [Left.neg_nonpos_iff]; positivity) hl).sqrt (lt_of_lt_of_le (by positivity) hl) (by norm_num)
  rw [sqrt_pow_odd hx0] at h1
  obtain ⟨p1, p2⟩ := rpow_bounds hx hx' hn
  have h2 := h1.fl h (by norm_num) (by linarith) (by linarith)
  exact ⟨_, rfl, fac_mul h hx hx' hn hf h2 (by norm_num) (by norm_num)⟩

theorem longX2_rel {A : Arith} (h : Rounds A) {x : ℝ} (hx : 1 ≤ x) (hx' : x ≤ 10 ^ 8) : ∀ i : ℕ, i ≤ 3 →
    Rel ((i + 1) * (23 / 10 ^ 17)) (longX2 A x i) (x ^ (-((i : ℝ) + 1 / 2))) := by
  have hx0 : 0 < x := by linarith
  have hu : 1 / x ≤ 1 := by rw [div_le_one hx0]; exact hx
  have hl : 1 / 10 ^ 8 ≤ 1 / x := one_div_le_one_div_of_le hx0 hx'
  have h1 := Rel.refl.fl h (b := 1 / x) (by norm_num) (by linarith) (by linarith)
  have hp : 0 < 1 / x := by positivity
  intro i
  induction i with
  | zero =>
    intro _
    have h2 := h1.sqrt hp (by norm_num)
    have e := sqrt_mul_pow hx0 0
    rw [pow_zero, mul_one] at e
    rw [e] at h2
    obtain ⟨p1, p2⟩ := rpow_bounds (m := 0) hx hx' (by norm_num)
    exact (h2.fl h (by norm_num) (by linarith) (by linarith)).mono (by norm_num) (by linarith)
  | succ i ih =>
    intro hi
    obtain ⟨p1, p2⟩ := rpow_bounds (m := i) hx hx' (by omega)
    obtain ⟨q1, q2⟩ := rpow_bounds (m := i + 1) hx hx' (by omega)
    have hi' : (i : ℝ) ≤ 2 := by exact_mod_cast (show i ≤ 2 by omega)
    have hi0 : (0 : ℝ) ≤ i := Nat.cast_nonneg i
    have e : x ^ (-((i : ℝ) + 1 / 2)) * (1 / x) = x ^ (-(((i + 1 : ℕ) : ℝ) + 1 / 2)) := by
      rw [← sqrt_mul_pow hx0 i, ← sqrt_mul_pow hx0 (i + 1), pow_succ]; ring
    have h2 := (ih (by omega)).mul h1 (by linarith) hp.le (by positivity)
    rw [e] at h2
    rw [longX2]
    refine ((h2.mono (δ' := (i + 1) * (23 / 10 ^ 17) + 1113 / 10 ^ 19) ?_ (by linarith)).fl h ?_
      (by linarith) (by linarith)).mono ?_ (by linarith)
    · linarith
    · linarith
    · push_cast; linarith

theorem long_ok {A : Arith} (h : Rounds A) {x : ℝ} {m : ℕ} (hx : 1 ≤ x) (hx' : x ≤ 10 ^ 8) (hm : m ≤ 3) :
    ∃ y, long A x m = some y ∧ Rel (13 / 10 ^ 16) y (longVal m x) := by
  obtain ⟨f, e, hf⟩ := fac_rel h (n := m) (by omega)
  unfold long
  rw [e]
  have hm' : (m : ℝ) ≤ 3 := by exact_mod_cast hm
  exact ⟨_, rfl, fac_mul h hx hx' (by omega) hf (longX2_rel h hx hx' m hm) (by linarith) (by positivity)⟩

/-! ## Bounds of the exact recursion in the long range -/

theorem downVal_bounds {x : ℝ} (hx : 36.5 ≤ x) (hx' : x ≤ 10 ^ 8) : ∀ (k m : ℕ), m + k ≤ 24 →
    4 / 10 * (1 / 10 ^ 200) ≤ downVal m x k ∧ downVal m x k ≤ 4 := by
  intro k m hmk
  have hx0 : 0 < x := lt_of_lt_of_le (by norm_num) hx
  have hx1 : 1 ≤ x := le_trans (by norm_num) hx
  have ht : ∀ m, topVal m x = longVal m x := fun m => by rw [topVal, if_neg (not_lt.2 hx)]
  have hlow : ∀ (k m : ℕ), m + k ≤ 24 → 4 / 10 * (1 / 10 ^ 200) ≤ downVal m x k := by
    intro k
    induction k with
    | zero => intro m hm; rw [downVal, ht]; exact (longVal_bounds hx1 hx' hm).1
    | succ k ih =>
      intro m hm
      have h1 := ih (m + 1) (by omega)
      have hm' : (m : ℝ) ≤ 24 := by exact_mod_cast (show m ≤ 24 by omega)
      rw [downVal, le_div_iff₀ (by positivity)]
      have he := exp_pos (-x)
      have h3 : (2 * (m : ℝ) + 1) ≤ 2 * x := by norm_num at hx; linarith
      have h4 := mul_le_mul h3 h1 (by positivity) (by linarith)
      linarith
  refine ⟨hlow k m hmk, ?_⟩
  have h1 := downVal_err x k m
  have h2 := longVal_inf (n := m + k) hx0 (by omega)
  have ha := ampl_pos hx0 k m
  have hi := ampl_inf hx0 k m
  rw [ht] at h1
  have hb := boysInf_pos (m + k) hx0
  have hF := boysF_nonneg (m + k) x
  have h3 : longVal (m + k) x ≤ 2 * boysInf (m + k) x := by have := (abs_le.1 h2).2; linarith
  have h4 : ampl m x k * (longVal (m + k) x - boysF (m + k) x) ≤ 2 * boysInf m x := by
    have := mul_le_mul_of_nonneg_left (show longVal (m + k) x - boysF (m + k) x ≤ 2 * boysInf (m + k) x by linarith) ha.le
    linarith
  have h5 : boysInf m x ≤ 1 + 1 / 3 := by
    rw [boysInf_split m hx0]
    have hm' : (m : ℝ) ≤ 24 := by exact_mod_cast (show m ≤ 24 by omega)
    have hx2 : (73 : ℝ) ≤ 2 * x := by norm_num at hx; linarith
    have t := boysTail_le (n := m) (x := x) (by linarith)
    have he : exp (-x) ≤ 1 := exp_le_one_iff.2 (by linarith)
    have t2 : exp (-x) / (2 * x - (2 * m + 1)) ≤ 1 / 3 :=
      div_le_div₀ (by norm_num) he (by norm_num) (by linarith)
    have := boysF_le_one (n := m) hx0.le
    linarith
  have h6 := boysF_le_one (n := m) hx0.le
  linarith

end Simint.FlBoys
