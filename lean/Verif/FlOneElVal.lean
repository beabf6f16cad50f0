import Verif.FlOneElSum

/-! Integrals of pairs of primitives on doubles. -/

set_option autoImplicit false

open MeasureTheory

namespace Simint.FlOneEl

open FlBoys FlPrim VRRRound

theorem ShellsIn.prim {A B : Shell ℝ} {R : ℝ} (h : ShellsIn A B R) {i j : ℕ} (hi : i < A.nprim)
    (hj : j < B.nprim) : PrimIn (A.alpha i) (B.alpha j) R :=
  ⟨h.alo i hi, h.ahi i hi, h.blo j hj, h.bhi j hj, (abs_nonneg _).trans (h.apos .x), h.rhi⟩

theorem ShellsIn.posA {A B : Shell ℝ} {R : ℝ} (h : ShellsIn A B R) : A.Pos := fun i hi =>
  lt_of_lt_of_le (by positivity) (h.alo i hi)

theorem ShellsIn.posB {A B : Shell ℝ} {R : ℝ} (h : ShellsIn A B R) : B.Pos := fun j hj =>
  lt_of_lt_of_le (by positivity) (h.blo j hj)

theorem workAt_near {K nam1 nam2 : ℕ} {Q : ℕ → ℕ → ℕ → ℝ → Prop} {t : CBuf ℝ}
    (h : FillR K nam1 nam2 Q (fun _ _ _ => True) t) {k : ℕ} {x y : ℤ} (hk : k < K) (hx0 : 0 ≤ x)
    (hx : x < nam1) (hy0 : 0 ≤ y) (hy : y < nam2) :
    ∃ v, workAt nam2 (nam1 * nam2) t k x y = some v ∧ Q k x.toNat y.toNat v := by
  obtain ⟨x, rfl⟩ := Int.eq_ofNat_of_zero_le hx0
  obtain ⟨y, rfl⟩ := Int.eq_ofNat_of_zero_le hy0
  have e : (k : ℤ) * ((nam1 * nam2 : ℕ) : ℤ) + ((x : ℤ) * nam2 + y) = (termIdx nam1 nam2 k x y : ℕ) := by
    unfold termIdx; push_cast; ring
  unfold workAt
  simp only
  rw [e, if_pos (by positivity), Int.toNat_natCast]
  simp only [Int.toNat_natCast]
  exact h.get hk (by omega) (by omega) trivial

theorem comp_sum {am1 am2 : ℕ} {a b : Exp} (ha : IsComp am1 a) (hb : IsComp am2 b) :
    a.x.toNat + b.x.toNat + (a.y.toNat + b.y.toNat) + (a.z.toNat + b.z.toNat) = am1 + am2 ∧
    (a.x + b.x).toNat = a.x.toNat + b.x.toNat ∧ (a.y + b.y).toNat = a.y.toNat + b.y.toNat ∧
    (a.z + b.z).toNat = a.z.toNat + b.z.toNat := by
  have h1 := fun d => (comp_bounds ha d).1
  have h2 := fun d => (comp_bounds hb d).1
  have x1 := h1 .x; have y1 := h1 .y; have z1 := h1 .z
  have x2 := h2 .x; have y2 := h2 .y; have z2 := h2 .z
  simp only [Exp.get] at x1 y1 z1 x2 y2 z2
  have e1 := ha.am_eq
  have e2 := hb.am_eq
  simp only [Exp.am] at e1 e2
  obtain ⟨ax, ay, az⟩ := a
  obtain ⟨bx, b_y, bz⟩ := b
  simp only at *
  omega

/-- The bound of one pair of primitives in `overlapMax`. -/
noncomputable def ovlPair (A B : Shell ℝ) (R : ℝ) (a b : Exp) (i j : ℕ) : ℝ :=
  ovlSize (A.alpha i) (A.pos .x) (B.alpha j) (B.pos .x) R (a.x + b.x).toNat *
     ovlSize (A.alpha i) (A.pos .y) (B.alpha j) (B.pos .y) R (a.y + b.y).toNat *
     ovlSize (A.alpha i) (A.pos .z) (B.alpha j) (B.pos .z) R (a.z + b.z).toNat

/-- The bound of one pair of primitives in `kineticMax`. -/
noncomputable def kinPair (A B : Shell ℝ) (R : ℝ) (a b : Exp) (i j : ℕ) : ℝ :=
  ovlPair A B R a b i j * (kinScale (A.alpha i) (B.alpha j) R (a.x + b.x).toNat +
     kinScale (A.alpha i) (B.alpha j) R (a.y + b.y).toNat +
     kinScale (A.alpha i) (B.alpha j) R (a.z + b.z).toNat)

section
variable {F : Arith} (hF : Sound F) {A B : Shell ℝ} {R : ℝ} (h : ShellsIn A B R) {i j : ℕ}
  (hi : i < A.nprim) (hj : j < B.nprim)
include hF h hi hj

theorem overlap_val (ha1 : A.am ≤ 18) (ha2 : B.am ≤ 18) {work : CBuf ℝ}
    (f : FillR 3 (A.am + 1) (B.am + 1) (fun k => OvlOK (A.alpha i) A.pos (B.alpha j) B.pos R (dirC k))
      (fun _ _ _ => True) work)
    {r1 r2 : RecurInfo} (c1 : IsComp A.am r1.ijk) (c2 : IsComp B.am r2.ijk) :
    ∃ w, ((workAt (B.am + 1) ((A.am + 1) * (B.am + 1)) work 0 r1.ijk.x r2.ijk.x).bind fun wx =>
      (workAt (B.am + 1) ((A.am + 1) * (B.am + 1)) work 1 r1.ijk.y r2.ijk.y).bind fun wy =>
      (workAt (B.am + 1) ((A.am + 1) * (B.am + 1)) work 2 r1.ijk.z r2.ijk.z).map fun wz =>
        F.fl (F.fl (wx * wy) * wz)) = some w ∧
      (Approx (116 + 11 * (A.am + B.am)) w
        (∫ r : R3, primG (A.alpha i) A.pos r1.ijk r.dir * primG (B.alpha j) B.pos r2.ijk r.dir)
        (ovlPair A B R r1.ijk r2.ijk i j + S 360) ∧ ovlPair A B R r1.ijk r2.ijk i j ≤ T 684) := by
  have b1 := comp_bounds c1
  have b2 := comp_bounds c2
  obtain ⟨wx, ex, qx⟩ := workAt_near (x := r1.ijk.x) (y := r2.ijk.x) f (show 0 < 3 by omega)
    (b1 .x).1 (b1 .x).2 (b2 .x).1 (b2 .x).2
  obtain ⟨wy, ey, qy⟩ := workAt_near (x := r1.ijk.y) (y := r2.ijk.y) f (show 1 < 3 by omega)
    (b1 .y).1 (b1 .y).2 (b2 .y).1 (b2 .y).2
  obtain ⟨wz, ez, qz⟩ := workAt_near (x := r1.ijk.z) (y := r2.ijk.z) f (show 2 < 3 by omega)
    (b1 .z).1 (b1 .z).2 (b2 .z).1 (b2 .z).2
  obtain ⟨s0, s1, s2, s3⟩ := comp_sum c1 c2
  have r := ovl_prod hF (h.prim hi hj) h.apos h.bpos (by omega) qx qy qz
  refine ⟨_, by rw [ex, Option.bind_some, ey, Option.bind_some, ez]; rfl, ?_⟩
  unfold ovlPair
  rw [overlap_prim (h.posA i hi) (h.posB j hj), s1, s2, s3]
  rw [s0] at r
  exact r

theorem kinetic_val (ha1 : A.am ≤ 18) (ha2 : B.am ≤ 18) {work : CBuf ℝ}
    (f : FillR 6 (A.am + 1) (B.am + 1) (KeQ (A.alpha i) A.pos (B.alpha j) B.pos R) (fun _ _ _ => True) work)
    {r1 r2 : RecurInfo} (c1 : IsComp A.am r1.ijk) (c2 : IsComp B.am r2.ijk) :
    ∃ w, ((workAt (B.am + 1) ((A.am + 1) * (B.am + 1)) work 0 r1.ijk.x r2.ijk.x).bind fun sx =>
      (workAt (B.am + 1) ((A.am + 1) * (B.am + 1)) work 1 r1.ijk.y r2.ijk.y).bind fun sy =>
      (workAt (B.am + 1) ((A.am + 1) * (B.am + 1)) work 2 r1.ijk.z r2.ijk.z).bind fun sz =>
      (workAt (B.am + 1) ((A.am + 1) * (B.am + 1)) work 3 r1.ijk.x r2.ijk.x).bind fun tx =>
      (workAt (B.am + 1) ((A.am + 1) * (B.am + 1)) work 4 r1.ijk.y r2.ijk.y).bind fun ty =>
      (workAt (B.am + 1) ((A.am + 1) * (B.am + 1)) work 5 r1.ijk.z r2.ijk.z).map fun tz =>
        F.mac (F.fl (sx * sy)) tz (F.dot (F.fl (tx * sy)) sz (F.fl (sx * ty)) sz)) = some w ∧
      (Approx (150 + 11 * (A.am + B.am)) w
        (∫ r : R3, primG (A.alpha i) A.pos r1.ijk r.dir *
          (-1 / 2 * laplace (primG (B.alpha j) B.pos r2.ijk) r.dir))
        (kinPair A B R r1.ijk r2.ijk i j + S 240) ∧ kinPair A B R r1.ijk r2.ijk i j ≤ T 804) := by
  have b1 := comp_bounds c1
  have b2 := comp_bounds c2
  obtain ⟨wx, ex, qx⟩ := workAt_near (x := r1.ijk.x) (y := r2.ijk.x) f (show 0 < 6 by omega)
    (b1 .x).1 (b1 .x).2 (b2 .x).1 (b2 .x).2
  obtain ⟨wy, ey, qy⟩ := workAt_near (x := r1.ijk.y) (y := r2.ijk.y) f (show 1 < 6 by omega)
    (b1 .y).1 (b1 .y).2 (b2 .y).1 (b2 .y).2
  obtain ⟨wz, ez, qz⟩ := workAt_near (x := r1.ijk.z) (y := r2.ijk.z) f (show 2 < 6 by omega)
    (b1 .z).1 (b1 .z).2 (b2 .z).1 (b2 .z).2
  obtain ⟨vx, gx, px⟩ := workAt_near (x := r1.ijk.x) (y := r2.ijk.x) f (show 3 < 6 by omega)
    (b1 .x).1 (b1 .x).2 (b2 .x).1 (b2 .x).2
  obtain ⟨vy, gy, py⟩ := workAt_near (x := r1.ijk.y) (y := r2.ijk.y) f (show 4 < 6 by omega)
    (b1 .y).1 (b1 .y).2 (b2 .y).1 (b2 .y).2
  obtain ⟨vz, gz, pz⟩ := workAt_near (x := r1.ijk.z) (y := r2.ijk.z) f (show 5 < 6 by omega)
    (b1 .z).1 (b1 .z).2 (b2 .z).1 (b2 .z).2
  obtain ⟨s0, s1, s2, s3⟩ := comp_sum c1 c2
  have r := kin_prod hF (h.prim hi hj) h.apos h.bpos (by omega) qx qy qz px py pz
  refine ⟨_, by rw [ex, Option.bind_some, ey, Option.bind_some, ez, Option.bind_some, gx, Option.bind_some,
    gy, Option.bind_some, gz]; rfl, ?_⟩
  unfold kinPair ovlPair
  rw [kinetic_prim (h.posA i hi) (h.posB j hj), s1, s2, s3]
  rw [s0] at r
  exact r

/-- Product of the coefficients and a value of size `V`. -/
theorem coef_near {V σ : ℝ} {n e l : ℕ} {v' v : ℝ} (av : Approx l v' v (V + S n)) (hV : V ≤ T e) (V0 : 0 ≤ V)
    (hn : 102 < n) (he : e + 102 ≤ 1022) (h1 : S (n - 102) ≤ σ) (h2 : S (1016 - e) ≤ σ) :
    Approx 1 (F.fl (A.coef i * B.coef j)) (A.coef i * B.coef j) (|A.coef i * B.coef j| + κ) ∧
    (|A.coef i * B.coef j| + κ) * (V + S n) + 2 * κ ≤ |A.coef i * B.coef j| * V + 2 * σ := by
  have hκ := κ_pos
  have hc : |A.coef i * B.coef j| ≤ T 100 := h.coef i hi j hj
  have c0 := abs_nonneg (A.coef i * B.coef j)
  set c := |A.coef i * B.coef j| with hcd
  have Sn := S_pos n
  refine ⟨?_, ?_⟩
  · have := (show Approx 0 (A.coef i * B.coef j) (A.coef i * B.coef j) c from
      ⟨le_rfl, by simp [γ_zero]⟩).fl hF.toRounds (ov_T (by norm_num) c0 (hc.trans (T_le (by norm_num))))
    exact this
  · have a1 : c * S n ≤ S (n - 100) := by
      have := mul_le_mul_of_nonneg_right hc Sn.le
      refine this.trans (le_of_eq ?_)
      unfold FlPrim.T FlPrim.S
      rw [show (2 : ℝ) ^ n = 2 ^ 100 * 2 ^ (n - 100) by rw [← pow_add]; congr 1; omega]
      field_simp
    have a2 : κ * V ≤ S (1022 - e) := by
      rw [← κT (show e + (1022 - e) = 1022 by omega)]
      exact mul_le_mul_of_nonneg_left hV hκ.le
    have a3 : κ * S n ≤ S (n - 100) := by
      have k1 : κ ≤ 1 := κS ▸ S_one 1022
      have := mul_le_mul_of_nonneg_right k1 Sn.le
      have := S_le (show n - 100 ≤ n by omega)
      linarith
    have a4 : 2 * κ ≤ S (1020 - e) := by
      have := S_twice (show 1022 = 1021 + 1 by norm_num)
      have := S_le (show 1020 - e ≤ 1021 by omega)
      rw [κS]; linarith
    have b1 := S_twice (show n - 100 = n - 101 + 1 by omega)
    have b2 := S_twice (show n - 101 = n - 102 + 1 by omega)
    have b3 := S_le (show 1016 - e ≤ 1022 - e by omega)
    have b4 := S_le (show 1016 - e ≤ 1020 - e by omega)
    have b5 := S_twice (show 1022 - e = 1021 - e + 1 by omega)
    have b6 := S_twice (show 1021 - e = 1020 - e + 1 by omega)
    have b7 := S_twice (show 1020 - e = 1019 - e + 1 by omega)
    have b8 := S_le (show 1016 - e ≤ 1019 - e by omega)
    nlinarith

theorem ovlPair_bounds {a b : Exp} (c1 : IsComp A.am a) (c2 : IsComp B.am b) (ha1 : A.am ≤ 18) (ha2 : B.am ≤ 18) :
    0 ≤ ovlPair A B R a b i j ∧ ovlPair A B R a b i j ≤ T 684 := by
  obtain ⟨s0, s1, s2, s3⟩ := comp_sum c1 c2
  have l := fun d n hn => ovlSize_le (d := d) hF (h.prim hi hj) h.apos h.bpos n hn
  have p := fun d n => ovlSize_nonneg (h.prim hi hj) (A := A.pos d) (B := B.pos d) n
  unfold ovlPair
  refine ⟨mul_nonneg (mul_nonneg (p _ _) (p _ _)) (p _ _), ?_⟩
  exact mul_T (mul_T (l .x _ (by omega)) (l .y _ (by omega)) (p _ _) le_rfl) (l .z _ (by omega)) (p _ _) (by omega)

theorem kinPair_bounds {a b : Exp} (c1 : IsComp A.am a) (c2 : IsComp B.am b) (ha1 : A.am ≤ 18) (ha2 : B.am ≤ 18) :
    0 ≤ kinPair A B R a b i j ∧ kinPair A B R a b i j ≤ T 804 := by
  obtain ⟨s0, s1, s2, s3⟩ := comp_sum c1 c2
  obtain ⟨o1, o2⟩ := ovlPair_bounds hF h hi hj c1 c2 ha1 ha2
  have l := fun n hn => kinScale_le (h.prim hi hj) n hn
  have p := fun n => ((h.prim hi hj).ar.pos.le).trans (kinScale_nonneg (h.prim hi hj) n)
  unfold kinPair
  have w1 := T_twice (show 118 + 1 = 119 by norm_num)
  have w2 := T_twice (show 119 + 1 = 120 by norm_num)
  have p1 := p (a.x + b.x).toNat
  have p2 := p (a.y + b.y).toNat
  have p3 := p (a.z + b.z).toNat
  have l1 := l (a.x + b.x).toNat (by omega)
  have l2 := l (a.y + b.y).toNat (by omega)
  have l3 := l (a.z + b.z).toNat (by omega)
  exact ⟨mul_nonneg o1 (by linarith), mul_T (m := 120) o2 (by linarith [T_pos 118]) (by linarith) (by norm_num)⟩

end

theorem T_S {n m : ℕ} (h : n ≤ m) : T n * S m = S (m - n) := by
  unfold FlPrim.T FlPrim.S
  rw [show (2 : ℝ) ^ m = 2 ^ n * 2 ^ (m - n) by rw [← pow_add]; congr 1; omega]
  field_simp

/-- Sums over pairs of primitives. -/
theorem pair_sum {A B : Shell ℝ} {R : ℝ} (h : ShellsIn A B R) {V : ℕ → ℕ → ℝ} {δ M : ℝ} {e : ℕ}
    (hV : ∀ i j, i < A.nprim → j < B.nprim → V i j ≤ T e) (V0 : ∀ i j, i < A.nprim → j < B.nprim → 0 ≤ V i j)
    (he : e ≤ 804) (δ0 : 0 ≤ δ) (h1 : δ ≤ 1) (hM : T 19 * δ ≤ M) :
    (∑ i ∈ Finset.range A.nprim, ∑ j ∈ Finset.range B.nprim, (|A.coef i * B.coef j| * V i j + δ)) ≤ T 1000 ∧
    (∑ i ∈ Finset.range A.nprim, ∑ j ∈ Finset.range B.nprim, (|A.coef i * B.coef j| * V i j + δ)) ≤
      (∑ i ∈ Finset.range A.nprim, ∑ j ∈ Finset.range B.nprim, |A.coef i * B.coef j| * V i j) + M := by
  have cnt : ((A.nprim * B.nprim : ℕ) : ℝ) ≤ T 19 := by
    have := h.prims
    unfold FlPrim.T
    exact_mod_cast this
  have cnt0 : (0 : ℝ) ≤ ((A.nprim * B.nprim : ℕ) : ℝ) := Nat.cast_nonneg _
  constructor
  · have each : ∀ i ∈ Finset.range A.nprim, ∀ j ∈ Finset.range B.nprim,
        |A.coef i * B.coef j| * V i j + δ ≤ T 905 := by
      intro i hi j hj
      rw [Finset.mem_range] at hi hj
      exact add_T (n := 904) (mul_T (h.coef i hi j hj) (hV i j hi hj) (V0 i j hi hj) (by omega))
        (h1.trans (T_one 904)) le_rfl
    have := Finset.sum_le_sum fun i hi => Finset.sum_le_sum (each i hi)
    refine this.trans ?_
    simp only [Finset.sum_const, Finset.card_range, nsmul_eq_mul]
    rw [← mul_assoc, ← Nat.cast_mul]
    exact mul_T cnt le_rfl (T_pos _).le (by norm_num)
  · simp only [Finset.sum_add_distrib, Finset.sum_const, Finset.card_range, nsmul_eq_mul]
    have := mul_le_mul_of_nonneg_right cnt δ0
    push_cast at this
    linarith

end Simint.FlOneEl
