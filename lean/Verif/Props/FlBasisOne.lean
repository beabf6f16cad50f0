import Verif.Spec.FlBasisOne
import Verif.Props.FlBasis
import Verif.Props.FlOneEl
import Verif.Props.FlPot

/-!
# From basis sets to one-electron integrals on doubles (C98)
-/

set_option autoImplicit false

open Real MeasureTheory

namespace Simint.FlBasisOne

open FlBoys (Arith ieee rn)
open FlNorm (NormIn coef_near powOK_ieee normalize_eq result PowOK approx_sum)
open FlOneEl (ShellsIn overlapMax kineticMax ovlSize kinScale moment reach gexp1)
open FlPot (FieldIn potentialMax argOf potSize)
open FlBasis

/-! ## Errors of coefficients -/

/-- An integral over two shells is a sum over their terms. -/
structure Bilinear (J : Shell ℝ → Shell ℝ → ℝ) (A B : Shell ℝ) (w : ℕ → ℕ → ℝ) : Prop where
  sum : ∀ a b, J (withCoef A a) (withCoef B b) =
    ∑ i ∈ Finset.range A.nprim, ∑ j ∈ Finset.range B.nprim, a i * b j * w i j
  one : ∀ i < A.nprim, ∀ j < B.nprim, J (onePrim A i) (onePrim B j) = A.coef i * B.coef j * w i j

theorem onePrim_pos {A : Shell ℝ} (hA : A.Pos) {i : ℕ} (hi : i < A.nprim) : (onePrim A i).Pos := fun _ _ => hA i hi

section
variable {A B : Shell ℝ} (hA : A.Pos) (hB : B.Pos) (x y : Exp)
include hA hB

theorem bilinear_overlap : Bilinear (fun A B => overlapInt A B x y) A B fun i j =>
    ∫ r : R3, primG (A.alpha i) A.pos x r.dir * primG (B.alpha j) B.pos y r.dir := by
  refine ⟨fun a b => overlapInt_eq (A := withCoef A a) (B := withCoef B b) hA hB x y, fun i hi j hj => ?_⟩
  rw [overlapInt_eq (onePrim_pos hA hi) (onePrim_pos hB hj)]
  simp [onePrim]

theorem bilinear_kinetic : Bilinear (fun A B => kineticInt A B x y) A B fun i j =>
    ∫ r : R3, primG (A.alpha i) A.pos x r.dir * (-1 / 2 * laplace (primG (B.alpha j) B.pos y) r.dir) := by
  refine ⟨fun a b => kineticInt_eq (A := withCoef A a) (B := withCoef B b) hA hB x y, fun i hi j hj => ?_⟩
  rw [kineticInt_eq (onePrim_pos hA hi) (onePrim_pos hB hj)]
  simp [onePrim]

theorem bilinear_potential (centers : List (ℝ × (Dir → ℝ))) :
    Bilinear (fun A B => potentialInt centers A B x y) A B fun i j =>
      (centers.map fun c => -c.1 * ∫ r : R3, primG (A.alpha i) A.pos x r.dir * primG (B.alpha j) B.pos y r.dir /
        √(dist2 r.dir c.2)).sum := by
  have key : ∀ {A B : Shell ℝ}, A.Pos → B.Pos → potentialInt centers A B x y =
      ∑ i ∈ Finset.range A.nprim, ∑ j ∈ Finset.range B.nprim, A.coef i * B.coef j *
      (centers.map fun c => -c.1 * ∫ r : R3, primG (A.alpha i) A.pos x r.dir * primG (B.alpha j) B.pos y r.dir /
        √(dist2 r.dir c.2)).sum := by
    intro A B hA hB
    rw [potentialInt_eq hA hB]
    simp only [potential_one hA hB]
    clear * -
    induction centers with
    | nil => simp
    | cons c cs ih =>
      simp only [List.map_cons, List.sum_cons, ih, mul_add, Finset.sum_add_distrib]
      congr 1
      rw [Finset.mul_sum]
      refine Finset.sum_congr rfl fun i _ => ?_
      rw [Finset.mul_sum]
      exact Finset.sum_congr rfl fun j _ => by ring
  refine ⟨fun a b => key (A := withCoef A a) (B := withCoef B b) hA hB, fun i hi j hj => ?_⟩
  rw [key (onePrim_pos hA hi) (onePrim_pos hB hj)]
  simp only [onePrim, Finset.sum_range_one]

end

/-- Errors of coefficients in integrals over two shells. -/
theorem Bilinear.near {J : Shell ℝ → Shell ℝ → ℝ} {A B : Shell ℝ} {w : ℕ → ℕ → ℝ} (h : Bilinear J A B w)
    {a b : ℕ → ℝ} {ka kb : ℕ} (hA : ∀ i < A.nprim, |a i - A.coef i| ≤ γ ka * |A.coef i|)
    (hB : ∀ i < B.nprim, |b i - B.coef i| ≤ γ kb * |B.coef i|) :
    |J (withCoef A a) (withCoef B b) - J A B| ≤ γ (ka + kb) * termsAbs J A B := by
  have e : J A B = _ := h.sum A.coef B.coef
  have e2 : termsAbs J A B = ∑ i ∈ Finset.range A.nprim, ∑ j ∈ Finset.range B.nprim, |A.coef i * B.coef j * w i j| :=
    Finset.sum_congr rfl fun i hi => Finset.sum_congr rfl fun j hj => by
      rw [h.one i (Finset.mem_range.1 hi) j (Finset.mem_range.1 hj)]
  rw [h.sum, e, e2]
  refine Approx.err (approx_sum fun i hi => approx_sum fun j hj => ?_)
  rw [Finset.mem_range] at hi hj
  have h := ((Approx.mk le_rfl (hA i hi)).mul (Approx.mk le_rfl (hB j hj))).mul (Approx.refl (w i j))
  simp only [← abs_mul] at h
  exact h

/-- What errors are measured with hardly depends on the errors of the coefficients. -/
theorem two_size {nA nB : ℕ} {a b a' b' : ℕ → ℝ} {V : ℕ → ℕ → ℝ} (hV : ∀ i < nA, ∀ j < nB, 0 ≤ V i j)
    (hA : ∀ i < nA, |a' i| ≤ 9 / 8 * |a i|) (hB : ∀ i < nB, |b' i| ≤ 9 / 8 * |b i|) :
    ∑ i ∈ Finset.range nA, ∑ j ∈ Finset.range nB, |a' i * b' j| * V i j ≤
      2 * ∑ i ∈ Finset.range nA, ∑ j ∈ Finset.range nB, |a i * b j| * V i j := by
  rw [Finset.mul_sum]
  refine Finset.sum_le_sum fun i hi => ?_
  rw [Finset.mul_sum]
  refine Finset.sum_le_sum fun j hj => ?_
  rw [Finset.mem_range] at hi hj
  rw [← mul_assoc]
  refine mul_le_mul_of_nonneg_right ?_ (hV i hi j hj)
  have := mul_le_mul (hA i hi) (hB j hj) (abs_nonneg _) (by positivity)
  rw [abs_mul, abs_mul]
  have : 0 ≤ |a i| * |b j| := by positivity
  linarith

/-! ## Shells after normalisation -/

/-- A shell after normalisation. -/
theorem normed {F : Arith} (hF : Sound F) (hpow : PowOK F) {A : Shell ℝ} {K : ℕ} (hA : NormIn A K) :
    ∃ a, FlNorm.normalizeShell F A = some (withCoef (normedShell A) a) ∧
      (∀ i < A.nprim, |a i - (normedShell A).coef i| ≤ γ (normRound A K) * |(normedShell A).coef i|) ∧
      (∀ i < A.nprim, |a i| ≤ 9 / 8 * |(normedShell A).coef i|) ∧ normRound A K ≤ 2 ^ 19 := by
  obtain ⟨v, hv, r⟩ := coef_near hF hpow hA
  have hk : normRound A K ≤ 2 ^ 19 := by
    have h := hA.count
    have hm : K * (3 * A.am + 27 + A.nprim * A.nprim) ≤ 2 ^ 18 := (Nat.mul_le_mul_left K (by omega)).trans h
    norm_num at hm
    unfold normRound
    norm_num
    omega
  have near : ∀ i < A.nprim, |(result F A v).coef i - (normedShell A).coef i| ≤
      γ (normRound A K) * |(normedShell A).coef i| := by
    intro i hi
    rw [unit_coef (normIn_pos (s := A) hA)]
    exact r i hi
  refine ⟨(result F A v).coef, normalize_eq hv, near, fun i hi => ?_, hk⟩
  have h2 : γ (normRound A K) ≤ 1 / 8 := by
    refine (γ_le (hk.trans (by norm_num))).trans ?_
    have : ((normRound A K : ℕ) : ℝ) ≤ 2 ^ 19 := by exact_mod_cast hk
    calc _ ≤ (2 : ℝ) ^ 19 * (1 / 2 ^ 52) := mul_le_mul_of_nonneg_right this (by norm_num)
      _ ≤ 1 / 8 := by norm_num
  have h4 := mul_le_mul_of_nonneg_right h2 (abs_nonneg ((normedShell A).coef i))
  have h5 := abs_sub_abs_le_abs_sub ((result F A v).coef i) ((normedShell A).coef i)
  have h6 := near i hi
  linarith

/-- Errors of the integral over the shells after normalisation and of the coefficients together. -/
theorem combine_one {J : Shell ℝ → Shell ℝ → ℝ} {A B : Shell ℝ} {w : ℕ → ℕ → ℝ}
    (hJ : Bilinear J (normedShell A) (normedShell B) w) {a b : ℕ → ℝ} {K k : ℕ} {M M' v : ℝ}
    (hA : ∀ i < A.nprim, |a i - (normedShell A).coef i| ≤ γ (normRound A K) * |(normedShell A).coef i|)
    (hB : ∀ i < B.nprim, |b i - (normedShell B).coef i| ≤ γ (normRound B K) * |(normedShell B).coef i|)
    (kA : normRound A K ≤ 2 ^ 19) (kB : normRound B K ≤ 2 ^ 19)
    (hv : |v - J (withCoef (normedShell A) a) (withCoef (normedShell B) b)| ≤ k * (1 / 2 ^ 52) * M') (hM : M' ≤ 2 * M) :
    OneError J A B K k M v := by
  have h1 := hJ.near hA hB
  have t0 : 0 ≤ termsAbs J (normedShell A) (normedShell B) :=
    Finset.sum_nonneg fun _ _ => Finset.sum_nonneg fun _ _ => abs_nonneg _
  have h2 := h1.trans (mul_le_mul_of_nonneg_right (γ_le (k := normRound A K + normRound B K) (by norm_num at kA kB ⊢; omega)) t0)
  have h3 := hv.trans (mul_le_mul_of_nonneg_left hM (by positivity))
  unfold OneError
  exact (abs_sub_le _ _ _).trans (add_le_add h3 h2)

section
variable {F : Arith} (hF : Sound F) (hpow : PowOK F) {A B : Shell ℝ} {K : ℕ} {R : ℝ}

section
variable (h : ShellsIn (normedShell A) (normedShell B) R)
include h

theorem overlapMax_near {a b : ℕ → ℝ} (hA : ∀ i < A.nprim, |a i| ≤ 9 / 8 * |(normedShell A).coef i|)
    (hB : ∀ i < B.nprim, |b i| ≤ 9 / 8 * |(normedShell B).coef i|) (x y : Exp) :
    overlapMax (withCoef (normedShell A) a) (withCoef (normedShell B) b) R x y ≤
      2 * overlapMax (normedShell A) (normedShell B) R x y := by
  unfold overlapMax
  have s0 : (0 : ℝ) < 1 / 2 ^ 200 := by positivity
  rw [mul_add]
  refine add_le_add (two_size (fun i hi j hj => ?_) hA hB) (by linarith)
  have p := h.prim hi hj
  have q := fun d n => FlOneEl.ovlSize_nonneg p (A := A.pos d) (B := B.pos d) n
  exact mul_nonneg (mul_nonneg (q .x _) (q .y _)) (q .z _)

theorem kineticMax_near {a b : ℕ → ℝ} (hA : ∀ i < A.nprim, |a i| ≤ 9 / 8 * |(normedShell A).coef i|)
    (hB : ∀ i < B.nprim, |b i| ≤ 9 / 8 * |(normedShell B).coef i|) (x y : Exp) :
    kineticMax (withCoef (normedShell A) a) (withCoef (normedShell B) b) R x y ≤
      2 * kineticMax (normedShell A) (normedShell B) R x y := by
  unfold kineticMax
  have s0 : (0 : ℝ) < 1 / 2 ^ 100 := by positivity
  rw [mul_add]
  simp only [mul_assoc |_|]
  refine add_le_add (two_size (fun i hi j hj => ?_) hA hB) (by linarith)
  have p := h.prim hi hj
  have q := fun d n => FlOneEl.ovlSize_nonneg p (A := A.pos d) (B := B.pos d) n
  have r := fun n => p.ar.pos.le.trans (FlOneEl.kinScale_nonneg p n)
  exact mul_nonneg (mul_nonneg (mul_nonneg (q .x _) (q .y _)) (q .z _)) (add_nonneg (add_nonneg (r _) (r _)) (r _))

theorem shells_in {a b : ℕ → ℝ} (hA : ∀ i < A.nprim, |a i| ≤ 9 / 8 * |(normedShell A).coef i|)
    (hB : ∀ i < B.nprim, |b i| ≤ 9 / 8 * |(normedShell B).coef i|)
    (hc : ∀ i < A.nprim, ∀ j < B.nprim, |(normedShell A).coef i * (normedShell B).coef j| ≤ 2 ^ 99) :
    ShellsIn (withCoef (normedShell A) a) (withCoef (normedShell B) b) R := by
  refine ⟨h.prims, h.alo, h.ahi, h.blo, h.bhi, h.apos, h.bpos, h.rhi, fun i hi j hj => ?_⟩
  have h1 := mul_le_mul (hA i hi) (hB j hj) (abs_nonneg _) (by positivity)
  have h2 := hc i hi j hj
  rw [abs_mul] at h2
  change |a i * b j| ≤ _
  rw [abs_mul]
  have : (0 : ℝ) < 2 ^ 99 := by positivity
  have e : (2 : ℝ) ^ 100 = 2 * 2 ^ 99 := by ring
  nlinarith

end

include hF hpow

/-- **C98, overlap.** -/
theorem C98_overlap (hA : NormIn A K) (hB : NormIn B K) (am1 : A.am ≤ 18) (am2 : B.am ≤ 18)
    (h : ShellsIn (normedShell A) (normedShell B) R)
    (hc : ∀ i < A.nprim, ∀ j < B.nprim, |(normedShell A).coef i * (normedShell B).coef j| ≤ 2 ^ 99)
    (work0 : ℕ → ℝ) (integrals : CBuf ℝ) (hsz : nc A.am * nc B.am ≤ integrals.size) :
    ∃ A' B' out, FlNorm.normalizeShell F A = some A' ∧ FlNorm.normalizeShell F B = some B' ∧
      FlOneEl.osoeiOverlap F A' B' work0 integrals = some out ∧ out.size = integrals.size ∧
      (∀ n m e1 e2, (psi4List A.am)[n]? = some e1 → (psi4List B.am)[m]? = some e2 →
        OneError (fun A B => overlapInt A B e1 e2) A B K (118 + 11 * (A.am + B.am) + A.nprim * B.nprim)
          (overlapMax (normedShell A) (normedShell B) R e1 e2) (out.val (n * nc B.am + m))) ∧
      ∀ k, nc A.am * nc B.am ≤ k → out.val k = integrals.val k := by
  obtain ⟨a, ea, a1, a2, a3⟩ := normed hF hpow hA
  obtain ⟨b, eb, b1, b2, b3⟩ := normed hF hpow hB
  obtain ⟨out, e, h1, h2, h3⟩ := FlOneEl.C92_overlap hF (sh1 := withCoef (normedShell A) a)
    (sh2 := withCoef (normedShell B) b) am1 am2 (shells_in h a2 b2 hc) work0 integrals hsz
  refine ⟨_, _, out, ea, eb, e, h1, fun n m e1 e2 hn hm => ?_, h3⟩
  exact combine_one (bilinear_overlap (A := normedShell A) (B := normedShell B) (normIn_pos (s := A) hA) (normIn_pos (s := B) hB) e1 e2)
    a1 b1 a3 b3 (h2 n m e1 e2 hn hm) (overlapMax_near h a2 b2 e1 e2)

/-- **C98, kinetic energy.** -/
theorem C98_kinetic (hA : NormIn A K) (hB : NormIn B K) (am1 : A.am ≤ 18) (am2 : B.am ≤ 18)
    (h : ShellsIn (normedShell A) (normedShell B) R)
    (hc : ∀ i < A.nprim, ∀ j < B.nprim, |(normedShell A).coef i * (normedShell B).coef j| ≤ 2 ^ 99)
    (work0 : ℕ → ℝ) (integrals : CBuf ℝ) (hsz : nc A.am * nc B.am ≤ integrals.size) :
    ∃ A' B' out, FlNorm.normalizeShell F A = some A' ∧ FlNorm.normalizeShell F B = some B' ∧
      FlOneEl.osoeiKe F A' B' work0 integrals = some out ∧ out.size = integrals.size ∧
      (∀ n m e1 e2, (psi4List A.am)[n]? = some e1 → (psi4List B.am)[m]? = some e2 →
        OneError (fun A B => kineticInt A B e1 e2) A B K (152 + 11 * (A.am + B.am) + A.nprim * B.nprim)
          (kineticMax (normedShell A) (normedShell B) R e1 e2) (out.val (n * nc B.am + m))) ∧
      ∀ k, nc A.am * nc B.am ≤ k → out.val k = integrals.val k := by
  obtain ⟨a, ea, a1, a2, a3⟩ := normed hF hpow hA
  obtain ⟨b, eb, b1, b2, b3⟩ := normed hF hpow hB
  obtain ⟨out, e, h1, h2, h3⟩ := FlOneEl.C92_kinetic hF (sh1 := withCoef (normedShell A) a)
    (sh2 := withCoef (normedShell B) b) am1 am2 (shells_in h a2 b2 hc) work0 integrals hsz
  refine ⟨_, _, out, ea, eb, e, h1, fun n m e1 e2 hn hm => ?_, h3⟩
  exact combine_one (bilinear_kinetic (A := normedShell A) (B := normedShell B) (normIn_pos (s := A) hA) (normIn_pos (s := B) hB) e1 e2)
    a1 b1 a3 b3 (h2 n m e1 e2 hn hm) (kineticMax_near h a2 b2 e1 e2)

/-- **C98, norms.**  The overlap of a component of a normalised shell with itself, as the library computes it. -/
theorem C98_norm (hA : NormIn A K) (am1 : A.am ≤ 18) (h : ShellsIn (normedShell A) (normedShell A) R)
    (hc : ∀ i < A.nprim, ∀ j < A.nprim, |(normedShell A).coef i * (normedShell A).coef j| ≤ 2 ^ 99)
    (work0 : ℕ → ℝ) (integrals : CBuf ℝ) (hsz : nc A.am * nc A.am ≤ integrals.size) :
    ∃ A' out, FlNorm.normalizeShell F A = some A' ∧ FlOneEl.osoeiOverlap F A' A' work0 integrals = some out ∧
      ∀ n e, (psi4List A.am)[n]? = some e → |out.val (n * nc A.am + n) - compRatio A.am e| ≤
        (118 + 11 * (A.am + A.am) + A.nprim * A.nprim : ℕ) * (1 / 2 ^ 52) *
          (2 * overlapMax (normedShell A) (normedShell A) R e e) +
        (K * (6 * A.am + 74 + 2 * (A.nprim * A.nprim)) + 12 : ℕ) * (1 / 2 ^ 52) * compRatio A.am e := by
  obtain ⟨a, ea, a1, a2, a3⟩ := normed hF hpow hA
  obtain ⟨out, e, h1, h2, h3⟩ := FlOneEl.C92_overlap hF (sh1 := withCoef (normedShell A) a)
    (sh2 := withCoef (normedShell A) a) am1 am1 (shells_in h a2 a2 hc) work0 integrals hsz
  obtain ⟨A', ea', hn⟩ := FlNorm.C95_norm hF hpow hA
  rw [ea, Option.some.injEq] at ea'
  subst ea'
  refine ⟨_, out, ea, e, fun n x hx => ?_⟩
  have v : x.x.toNat + x.y.toNat + x.z.toNat = A.am := by
    have h0 := (psi4_ordOK.mem A.am x).1 (List.mem_of_getElem? hx)
    unfold IsComp at h0
    omega
  have i1 := (h2 n n x x hx hx).trans (mul_le_mul_of_nonneg_left (overlapMax_near h a2 a2 x x) (by positivity))
  exact (abs_sub_le _ _ _).trans (add_le_add i1 (hn x v))

end

section
variable {F : Arith} (hF : Sound F) (hpow : PowOK F) {A B : Shell ℝ} {K : ℕ} {R : ℝ}
  {centers : List (ℝ × (Dir → ℝ))} (h : FieldIn (normedShell A) (normedShell B) centers R)

include h in
theorem potentialMax_near {a b : ℕ → ℝ} (hA : ∀ i < A.nprim, |a i| ≤ 9 / 8 * |(normedShell A).coef i|)
    (hB : ∀ i < B.nprim, |b i| ≤ 9 / 8 * |(normedShell B).coef i|) :
    potentialMax centers (withCoef (normedShell A) a) (withCoef (normedShell B) b) R ≤
      2 * potentialMax centers (normedShell A) (normedShell B) R := by
  unfold potentialMax
  have s0 : (0 : ℝ) < 1 / 2 ^ 200 := by positivity
  rw [mul_add, ← List.sum_map_mul_left]
  refine add_le_add (List.sum_le_sum fun c _ => ?_) (by linarith)
  simp only [mul_assoc c.1, abs_mul c.1, mul_assoc |c.1|, mul_left_comm |c.1|]
  refine two_size (fun i hi j hj => mul_nonneg (abs_nonneg _) ?_) hA hB
  exact FlPot.potSize_nonneg (h.prim hi hj) (A := A.pos) (B := B.pos) (A.am + B.am)

include hF hpow h

/-- **C98, potential**, arguments of the Boys function up to 36. -/
theorem C98_potential (hA : NormIn A K) (hB : NormIn B K) (am1 : A.am ≤ 18) (am2 : B.am ≤ 18)
    (ca : ∀ i < A.nprim, |(normedShell A).coef i| ≤ 2 ^ 49) (cb : ∀ i < B.nprim, |(normedShell B).coef i| ≤ 2 ^ 49)
    (vec : Bool) {V : ℕ} (hV : 0 < V) (ham : A.am + B.am ≤ 24)
    (hX : ∀ i < A.nprim, ∀ j < B.nprim, 3 * reach R ^ 2 * (A.alpha i + B.alpha j) ≤ 2 ^ 40)
    (hT : ∀ c ∈ centers, ∀ i < A.nprim, ∀ j < B.nprim, argOf (A.alpha i) A.pos (B.alpha j) B.pos c.2 ≤ 36)
    (work0 : AmWork ℝ) (integrals : CBuf ℝ) (hsz : nc A.am * nc B.am ≤ integrals.size) :
    ∃ A' B' out, FlNorm.normalizeShell F A = some A' ∧ FlNorm.normalizeShell F B = some B' ∧
      FlPot.osoeiPotential F vec V centers A' B' work0 integrals = some out ∧ out.size = integrals.size ∧
      (∀ n m e1 e2, (psi4List A.am)[n]? = some e1 → (psi4List B.am)[m]? = some e2 →
        OneError (fun A B => potentialInt centers A B e1 e2) A B K
          (290 + 11 * (A.am + B.am) + centers.length * (A.nprim * B.nprim))
          (potentialMax centers (normedShell A) (normedShell B) R) (out.val (n * nc B.am + m))) ∧
      ∀ k, nc A.am * nc B.am ≤ k → out.val k = integrals.val k := by
  obtain ⟨a, ea, a1, a2, a3⟩ := normed hF hpow hA
  obtain ⟨b, eb, b1, b2, b3⟩ := normed hF hpow hB
  have two : ∀ {x y : ℝ}, x ≤ 9 / 8 * y → y ≤ 2 ^ 49 → x ≤ 2 ^ 50 := by
    intro x y h1 h2
    norm_num at h2 ⊢
    linarith
  have hin : FieldIn (withCoef (normedShell A) a) (withCoef (normedShell B) b) centers R :=
    ⟨h.prims, h.alo, h.ahi, h.blo, h.bhi, h.apos, h.bpos, h.cpos, h.rhi, fun i hi => two (a2 i hi) (ca i hi),
      fun i hi => two (b2 i hi) (cb i hi), h.charge⟩
  obtain ⟨out, e, h1, h2, h3⟩ := FlPot.C93_near hF hin am1 am2 vec hV ham hX hT work0 integrals hsz
  refine ⟨_, _, out, ea, eb, e, h1, fun n m e1 e2 hn hm => ?_, h3⟩
  exact combine_one (bilinear_potential (A := normedShell A) (B := normedShell B) (normIn_pos (s := A) hA) (normIn_pos (s := B) hB) e1
    e2 centers) a1 b1 a3 b3 (h2 n m e1 e2 hn hm) (potentialMax_near h a2 b2)

/-- **C98, potential**, angular momenta up to 3 together and arguments of the Boys function up to `10^7`. -/
theorem C98_potential_far (hA : NormIn A K) (hB : NormIn B K)
    (ca : ∀ i < A.nprim, |(normedShell A).coef i| ≤ 2 ^ 49) (cb : ∀ i < B.nprim, |(normedShell B).coef i| ≤ 2 ^ 49)
    (vec : Bool) {V : ℕ} (hV : 0 < V) (ham : A.am + B.am < 4)
    (hX : ∀ i < A.nprim, ∀ j < B.nprim, 3 * reach R ^ 2 * (A.alpha i + B.alpha j) ≤ 2 ^ 40)
    (hT : ∀ c ∈ centers, ∀ i < A.nprim, ∀ j < B.nprim, argOf (A.alpha i) A.pos (B.alpha j) B.pos c.2 ≤ 10 ^ 7)
    (work0 : AmWork ℝ) (integrals : CBuf ℝ) (hsz : nc A.am * nc B.am ≤ integrals.size) :
    ∃ A' B' out, FlNorm.normalizeShell F A = some A' ∧ FlNorm.normalizeShell F B = some B' ∧
      FlPot.osoeiPotential F vec V centers A' B' work0 integrals = some out ∧ out.size = integrals.size ∧
      (∀ n m e1 e2, (psi4List A.am)[n]? = some e1 → (psi4List B.am)[m]? = some e2 →
        OneError (fun A B => potentialInt centers A B e1 e2) A B K
          (9974 + 11 * (A.am + B.am) + centers.length * (A.nprim * B.nprim))
          (potentialMax centers (normedShell A) (normedShell B) R) (out.val (n * nc B.am + m))) ∧
      ∀ k, nc A.am * nc B.am ≤ k → out.val k = integrals.val k := by
  obtain ⟨a, ea, a1, a2, a3⟩ := normed hF hpow hA
  obtain ⟨b, eb, b1, b2, b3⟩ := normed hF hpow hB
  have two : ∀ {x y : ℝ}, x ≤ 9 / 8 * y → y ≤ 2 ^ 49 → x ≤ 2 ^ 50 := by
    intro x y h1 h2
    norm_num at h2 ⊢
    linarith
  have hin : FieldIn (withCoef (normedShell A) a) (withCoef (normedShell B) b) centers R :=
    ⟨h.prims, h.alo, h.ahi, h.blo, h.bhi, h.apos, h.bpos, h.cpos, h.rhi, fun i hi => two (a2 i hi) (ca i hi),
      fun i hi => two (b2 i hi) (cb i hi), h.charge⟩
  obtain ⟨out, e, h1, h2, h3⟩ := FlPot.C93_low hF hin vec hV ham hX hT work0 integrals hsz
  refine ⟨_, _, out, ea, eb, e, h1, fun n m e1 e2 hn hm => ?_, h3⟩
  exact combine_one (bilinear_potential (A := normedShell A) (B := normedShell B) (normIn_pos (s := A) hA) (normIn_pos (s := B) hB) e1
    e2 centers) a1 b1 a3 b3 (h2 n m e1 e2 hn hm) (potentialMax_near h a2 b2)

end

/-! ## The hypotheses can be met -/

theorem two_in : ShellsIn (normedShell (twoShell 1 0)) (normedShell (twoShell 2 1)) 1 := by
  have m1 := twoShell_moderate 1 (x := 0) (Or.inl rfl)
  have m2 := twoShell_moderate 2 (x := 1) (Or.inr rfl)
  refine ⟨by norm_num [normedShell, twoShell], fun i hi => ?_, fun i hi => ?_, fun i hi => ?_, fun i hi => ?_, m1.pos,
    m2.pos, by norm_num, fun i hi j hj => ?_⟩
  · exact le_trans (by norm_num) (m1.lo i hi)
  · exact (m1.hi i hi).trans (by norm_num)
  · exact le_trans (by norm_num) (m2.lo i hi)
  · exact (m2.hi i hi).trans (by norm_num)
  · rw [abs_mul]
    exact (mul_le_mul (twoShell_unit 1 0 hi) (twoShell_unit 2 1 hj) (abs_nonneg _) (by positivity)).trans (by norm_num)

/-- Non-trivial case: two p shells with two primitives each. -/
example (fused : Bool) (work0 : ℕ → ℝ) (integrals : CBuf ℝ) (hsz : 9 ≤ integrals.size) :
    ∃ A' B' out, FlNorm.normalizeShell (ieee fused) (twoShell 1 0) = some A' ∧
      FlNorm.normalizeShell (ieee fused) (twoShell 2 1) = some B' ∧
      FlOneEl.osoeiKe (ieee fused) A' B' work0 integrals = some out ∧
      OneError (fun A B => kineticInt A B ⟨0, 0, 1⟩ ⟨1, 0, 0⟩) (twoShell 1 0) (twoShell 2 1) 2 178
        (kineticMax (normedShell (twoShell 1 0)) (normedShell (twoShell 2 1)) 1 ⟨0, 0, 1⟩ ⟨1, 0, 0⟩) (out.val 6) := by
  obtain ⟨A', B', out, eA, eB, e, -, h, -⟩ := C98_kinetic (sound_ieee fused) (powOK_ieee fused) (twoShell_norm 1 0)
    (twoShell_norm 2 1) (show 1 ≤ 18 by norm_num) (show 1 ≤ 18 by norm_num) two_in (fun i hi j hj => by
      rw [abs_mul]
      exact (mul_le_mul (twoShell_unit 1 0 hi) (twoShell_unit 2 1 hj) (abs_nonneg _) (by positivity)).trans
        (by norm_num)) work0 integrals hsz
  exact ⟨A', B', out, eA, eB, e, h 2 0 _ _ rfl rfl⟩

end Simint.FlBasisOne
