import Verif.OneElLoops

/-!
# Overlap and kinetic energy integrals (C46, C47, C48)

Exact arithmetic: `sqrt`, `exp` and `PI` are the real functions and number.  Work arrays start with
arbitrary contents.
-/

set_option autoImplicit false

open MeasureTheory

namespace Simint

/-- C46: for every direction `d`, the recursion leaves the one-dimensional overlap integral of
`(x-A)^i exp(-a1 (x-A)^2)` and `(x-B)^j exp(-a2 (x-B)^2)` in element `(d,i,j)` of `terms`; no access
is outside the array. -/
theorem C46_overlap_terms {a1 a2 : ℝ} (h1 : 0 < a1) (h2 : 0 < a2) (A B : Dir → ℝ) {nam1 nam2 : ℕ}
    (hn1 : 0 < nam1) (hn2 : 0 < nam2) (t : CBuf ℝ) (hsz : t.size = 3 * nam1 * nam2) :
    ∃ t', overlapTerms realOE a1 A a2 B nam1 nam2 t = some t' ∧ t'.size = t.size ∧
      ∀ d i j, d < 3 → i < nam1 → j < nam2 → t'.val (d * nam1 * nam2 + (i * nam2 + j)) =
        ∫ x : ℝ, ((x - A (dirC d)) ^ i * Real.exp (-a1 * (x - A (dirC d)) ^ 2)) *
          ((x - B (dirC d)) ^ j * Real.exp (-a2 * (x - B (dirC d)) ^ 2)) := by
  obtain ⟨t', e, f⟩ := overlapTerms_ok h1 h2 A B hn1 hn2 t hsz
  exact ⟨t', e, f.1.trans hsz.symm, fun d i j hd hi hj => f.2 d i j hd hi hj trivial⟩

/-- C47: for every direction `d`, element `(d+3,i,j)` is the one-dimensional kinetic energy integral
(`-1/2` times the second derivative of the second function) and element `(d,i,j)` the overlap. -/
theorem C47_kinetic_terms {a1 a2 : ℝ} (h1 : 0 < a1) (h2 : 0 < a2) (A B : Dir → ℝ) {nam1 nam2 : ℕ}
    (hn1 : 0 < nam1) (hn2 : 0 < nam2) (t : CBuf ℝ) (hsz : t.size = 6 * nam1 * nam2) :
    ∃ t', keTerms realOE a1 A a2 B nam1 nam2 t = some t' ∧ t'.size = t.size ∧
      (∀ d i j, d < 3 → i < nam1 → j < nam2 → t'.val (d * nam1 * nam2 + (i * nam2 + j)) =
        ∫ x : ℝ, ((x - A (dirC d)) ^ i * Real.exp (-a1 * (x - A (dirC d)) ^ 2)) *
          ((x - B (dirC d)) ^ j * Real.exp (-a2 * (x - B (dirC d)) ^ 2))) ∧
      ∀ d i j, d < 3 → i < nam1 → j < nam2 → t'.val ((d + 3) * nam1 * nam2 + (i * nam2 + j)) =
        ∫ x : ℝ, ((x - A (dirC d)) ^ i * Real.exp (-a1 * (x - A (dirC d)) ^ 2)) *
          (-1 / 2 * iteratedDeriv 2
            (fun x => (x - B (dirC d)) ^ j * Real.exp (-a2 * (x - B (dirC d)) ^ 2)) x) := by
  obtain ⟨t', e, f⟩ := keTerms_ok h1 h2 A B hn1 hn2 t hsz
  refine ⟨t', e, f.1.trans hsz.symm, fun d i j hd hi hj => ?_, fun d i j hd hi hj => ?_⟩
  · have := f.2 d i j (by omega) hi hj trivial
    simp only [keTab, if_pos hd] at this
    exact this
  · have := f.2 (d + 3) i j (by omega) hi hj trivial
    simp only [keTab, if_neg (show ¬ d + 3 < 3 by omega), Nat.add_sub_cancel] at this
    exact this

theorem overlap_val {sh1 sh2 : Shell ℝ} {a1 a2 : ℝ} (h1 : 0 < a1) (h2 : 0 < a2) {work : CBuf ℝ}
    (f : Fill 3 (sh1.am + 1) (sh2.am + 1) (ovlTab a1 sh1.pos a2 sh2.pos) (fun _ _ _ => True) work)
    {r1 r2 : RecurInfo} (c1 : IsComp sh1.am r1.ijk) (c2 : IsComp sh2.am r2.ijk) :
    ((workAt (sh2.am + 1) ((sh1.am + 1) * (sh2.am + 1)) work 0 r1.ijk.x r2.ijk.x).bind fun wx =>
      (workAt (sh2.am + 1) ((sh1.am + 1) * (sh2.am + 1)) work 1 r1.ijk.y r2.ijk.y).bind fun wy =>
      (workAt (sh2.am + 1) ((sh1.am + 1) * (sh2.am + 1)) work 2 r1.ijk.z r2.ijk.z).map fun wz =>
        wx * wy * wz) =
    some (∫ r : R3, primG a1 sh1.pos r1.ijk r.dir * primG a2 sh2.pos r2.ijk r.dir) := by
  have b1 := comp_bounds c1
  have b2 := comp_bounds c2
  rw [workAt_eq (x := r1.ijk.x) (y := r2.ijk.x) f (by omega) (b1 .x).1 (b1 .x).2 (b2 .x).1 (b2 .x).2, Option.bind_some,
    workAt_eq (x := r1.ijk.y) (y := r2.ijk.y) f (by omega) (b1 .y).1 (b1 .y).2 (b2 .y).1 (b2 .y).2, Option.bind_some,
    workAt_eq (x := r1.ijk.z) (y := r2.ijk.z) f (by omega) (b1 .z).1 (b1 .z).2 (b2 .z).1 (b2 .z).2, Option.map_some,
    overlap_prim h1 h2]
  rfl

theorem kinetic_val {sh1 sh2 : Shell ℝ} {a1 a2 : ℝ} (h1 : 0 < a1) (h2 : 0 < a2) {work : CBuf ℝ}
    (f : Fill 6 (sh1.am + 1) (sh2.am + 1) (keTab a1 sh1.pos a2 sh2.pos) (fun _ _ _ => True) work)
    {r1 r2 : RecurInfo} (c1 : IsComp sh1.am r1.ijk) (c2 : IsComp sh2.am r2.ijk) :
    ((workAt (sh2.am + 1) ((sh1.am + 1) * (sh2.am + 1)) work 0 r1.ijk.x r2.ijk.x).bind fun sx =>
      (workAt (sh2.am + 1) ((sh1.am + 1) * (sh2.am + 1)) work 1 r1.ijk.y r2.ijk.y).bind fun sy =>
      (workAt (sh2.am + 1) ((sh1.am + 1) * (sh2.am + 1)) work 2 r1.ijk.z r2.ijk.z).bind fun sz =>
      (workAt (sh2.am + 1) ((sh1.am + 1) * (sh2.am + 1)) work 3 r1.ijk.x r2.ijk.x).bind fun tx =>
      (workAt (sh2.am + 1) ((sh1.am + 1) * (sh2.am + 1)) work 4 r1.ijk.y r2.ijk.y).bind fun ty =>
      (workAt (sh2.am + 1) ((sh1.am + 1) * (sh2.am + 1)) work 5 r1.ijk.z r2.ijk.z).map fun tz =>
        tx * sy * sz + sx * ty * sz + sx * sy * tz) =
    some (∫ r : R3, primG a1 sh1.pos r1.ijk r.dir *
      (-1 / 2 * laplace (primG a2 sh2.pos r2.ijk) r.dir)) := by
  have b1 := comp_bounds c1
  have b2 := comp_bounds c2
  rw [workAt_eq (x := r1.ijk.x) (y := r2.ijk.x) f (by omega) (b1 .x).1 (b1 .x).2 (b2 .x).1 (b2 .x).2, Option.bind_some,
    workAt_eq (x := r1.ijk.y) (y := r2.ijk.y) f (by omega) (b1 .y).1 (b1 .y).2 (b2 .y).1 (b2 .y).2, Option.bind_some,
    workAt_eq (x := r1.ijk.z) (y := r2.ijk.z) f (by omega) (b1 .z).1 (b1 .z).2 (b2 .z).1 (b2 .z).2, Option.bind_some,
    workAt_eq (x := r1.ijk.x) (y := r2.ijk.x) f (by omega) (b1 .x).1 (b1 .x).2 (b2 .x).1 (b2 .x).2, Option.bind_some,
    workAt_eq (x := r1.ijk.y) (y := r2.ijk.y) f (by omega) (b1 .y).1 (b1 .y).2 (b2 .y).1 (b2 .y).2, Option.bind_some,
    workAt_eq (x := r1.ijk.z) (y := r2.ijk.z) f (by omega) (b1 .z).1 (b1 .z).2 (b2 .z).1 (b2 .z).2, Option.map_some,
    kinetic_prim h1 h2]
  rfl

/-- C48: element `n*ncart(am2) + m` of the output is the overlap integral of components `n` and `m` of
the contracted shells; nothing else is written and no access is outside an array. -/
theorem C48_overlap {sh1 sh2 : Shell ℝ} (am1 : sh1.am ≤ 18) (am2 : sh2.am ≤ 18) (h1 : sh1.Pos)
    (h2 : sh2.Pos) (work0 : ℕ → ℝ) (integrals : CBuf ℝ)
    (hsz : nc sh1.am * nc sh2.am ≤ integrals.size) :
    ∃ out, osoeiOverlap realOE sh1 sh2 work0 integrals = some out ∧ out.size = integrals.size ∧
      (∀ n m e1 e2, (psi4List sh1.am)[n]? = some e1 → (psi4List sh2.am)[m]? = some e2 →
        out.val (n * nc sh2.am + m) = overlapInt sh1 sh2 e1 e2) ∧
      ∀ k, nc sh1.am * nc sh2.am ≤ k → out.val k = integrals.val k := by
  unfold osoeiOverlap
  simp only
  obtain ⟨z, e0, z1, z2, z3⟩ := zeroBuf_ok hsz
  rw [e0, Option.bind_some]
  obtain ⟨w', out', e1, -, ha⟩ := pairLoop_ok (n1 := sh1.nprim) (n2 := sh2.nprim)
    (N := nc sh1.am * nc sh2.am) (sz := integrals.size)
    (body := fun i j st =>
      (overlapTerms realOE (sh1.alpha i) sh1.pos (sh2.alpha j) sh2.pos (sh1.am + 1) (sh2.am + 1) st.1).bind
      fun work =>
      (addComponents sh1.am sh2.am (sh1.coef i * sh2.coef j) (fun r1 r2 =>
        (workAt (sh2.am + 1) ((sh1.am + 1) * (sh2.am + 1)) work 0 r1.ijk.x r2.ijk.x).bind fun wx =>
        (workAt (sh2.am + 1) ((sh1.am + 1) * (sh2.am + 1)) work 1 r1.ijk.y r2.ijk.y).bind fun wy =>
        (workAt (sh2.am + 1) ((sh1.am + 1) * (sh2.am + 1)) work 2 r1.ijk.z r2.ijk.z).map fun wz =>
          wx * wy * wz) st.2).map fun out => (work, out))
    (J := fun w => w.size = 3 * (sh1.am + 1) * (sh2.am + 1))
    (fun i j k => sh1.coef i * sh2.coef j *
      ∫ r : R3, primG (sh1.alpha i) sh1.pos (compAt sh1.am (k / nc sh2.am)) r.dir *
        primG (sh2.alpha j) sh2.pos (compAt sh2.am (k % nc sh2.am)) r.dir)
    (by
      intro i j w out hi hj hw hout
      obtain ⟨work, e, f⟩ := overlapTerms_ok (h1 i hi) (h2 j hj) sh1.pos sh2.pos
        (Nat.succ_pos sh1.am) (Nat.succ_pos sh2.am) w hw
      obtain ⟨o, e2, f2⟩ := addComponents_ok am1 am2 (sh1.coef i * sh2.coef j) _
        (fun e1 e2 => ∫ r : R3, primG (sh1.alpha i) sh1.pos e1 r.dir * primG (sh2.alpha j) sh2.pos e2 r.dir)
        (fun r1 r2 c1 c2 => overlap_val (h1 i hi) (h2 j hj) f c1 c2) out (by rw [hout]; exact hsz)
      refine ⟨work, o, ?_, f.1, f2⟩
      simp only at e ⊢
      rw [e, Option.bind_some, e2]; rfl)
    (w := ⟨3 * ((sh1.am + 1) * (sh2.am + 1)), work0⟩) (by simp only; ring) z1
  rw [e1]
  refine ⟨out', rfl, ?_⟩
  refine Added.final (g := overlapInt sh1 sh2) (ha.congr fun k _ => ?_) z1 z2 z3
  rw [overlapInt_eq h1 h2]

/-- C48: same for the kinetic energy. -/
theorem C48_kinetic {sh1 sh2 : Shell ℝ} (am1 : sh1.am ≤ 18) (am2 : sh2.am ≤ 18) (h1 : sh1.Pos)
    (h2 : sh2.Pos) (work0 : ℕ → ℝ) (integrals : CBuf ℝ)
    (hsz : nc sh1.am * nc sh2.am ≤ integrals.size) :
    ∃ out, osoeiKe realOE sh1 sh2 work0 integrals = some out ∧ out.size = integrals.size ∧
      (∀ n m e1 e2, (psi4List sh1.am)[n]? = some e1 → (psi4List sh2.am)[m]? = some e2 →
        out.val (n * nc sh2.am + m) = kineticInt sh1 sh2 e1 e2) ∧
      ∀ k, nc sh1.am * nc sh2.am ≤ k → out.val k = integrals.val k := by
  unfold osoeiKe
  simp only
  obtain ⟨z, e0, z1, z2, z3⟩ := zeroBuf_ok hsz
  rw [e0, Option.bind_some]
  obtain ⟨w', out', e1, -, ha⟩ := pairLoop_ok (n1 := sh1.nprim) (n2 := sh2.nprim)
    (N := nc sh1.am * nc sh2.am) (sz := integrals.size)
    (body := fun i j st =>
      (keTerms realOE (sh1.alpha i) sh1.pos (sh2.alpha j) sh2.pos (sh1.am + 1) (sh2.am + 1) st.1).bind
      fun work =>
      (addComponents sh1.am sh2.am (sh1.coef i * sh2.coef j) (fun r1 r2 =>
        (workAt (sh2.am + 1) ((sh1.am + 1) * (sh2.am + 1)) work 0 r1.ijk.x r2.ijk.x).bind fun sx =>
        (workAt (sh2.am + 1) ((sh1.am + 1) * (sh2.am + 1)) work 1 r1.ijk.y r2.ijk.y).bind fun sy =>
        (workAt (sh2.am + 1) ((sh1.am + 1) * (sh2.am + 1)) work 2 r1.ijk.z r2.ijk.z).bind fun sz =>
        (workAt (sh2.am + 1) ((sh1.am + 1) * (sh2.am + 1)) work 3 r1.ijk.x r2.ijk.x).bind fun tx =>
        (workAt (sh2.am + 1) ((sh1.am + 1) * (sh2.am + 1)) work 4 r1.ijk.y r2.ijk.y).bind fun ty =>
        (workAt (sh2.am + 1) ((sh1.am + 1) * (sh2.am + 1)) work 5 r1.ijk.z r2.ijk.z).map fun tz =>
          tx * sy * sz + sx * ty * sz + sx * sy * tz) st.2).map fun out => (work, out))
    (J := fun w => w.size = 6 * (sh1.am + 1) * (sh2.am + 1))
    (fun i j k => sh1.coef i * sh2.coef j *
      ∫ r : R3, primG (sh1.alpha i) sh1.pos (compAt sh1.am (k / nc sh2.am)) r.dir *
        (-1 / 2 * laplace (primG (sh2.alpha j) sh2.pos (compAt sh2.am (k % nc sh2.am))) r.dir))
    (by
      intro i j w out hi hj hw hout
      obtain ⟨work, e, f⟩ := keTerms_ok (h1 i hi) (h2 j hj) sh1.pos sh2.pos
        (Nat.succ_pos sh1.am) (Nat.succ_pos sh2.am) w hw
      obtain ⟨o, e2, f2⟩ := addComponents_ok am1 am2 (sh1.coef i * sh2.coef j) _
        (fun e1 e2 => ∫ r : R3, primG (sh1.alpha i) sh1.pos e1 r.dir *
          (-1 / 2 * laplace (primG (sh2.alpha j) sh2.pos e2) r.dir))
        (fun r1 r2 c1 c2 => kinetic_val (h1 i hi) (h2 j hj) f c1 c2) out (by rw [hout]; exact hsz)
      refine ⟨work, o, ?_, f.1, f2⟩
      simp only at e ⊢
      rw [e, Option.bind_some, e2]; rfl)
    (w := ⟨6 * ((sh1.am + 1) * (sh2.am + 1)), work0⟩) (by simp only; ring) z1
  rw [e1]
  refine ⟨out', rfl, ?_⟩
  refine Added.final (g := kineticInt sh1 sh2) (ha.congr fun k _ => ?_) z1 z2 z3
  rw [kineticInt_eq h1 h2]

/-! ## Concrete cases -/

/-- Overlap and kinetic energy integral of `exp(-x^2)` with itself in one direction. -/
example : ovl1 1 0 1 0 0 0 = √(Real.pi / 2) ∧ kin1 1 0 1 0 0 0 = √(Real.pi / 2) / 2 := by
  have h1 := ovl1_zero (α := 1) (β := 1) one_pos one_pos 0 0
  have h2 := kin1_zero (α := 1) (β := 1) one_pos one_pos 0 0
  have e : ovl1 1 0 1 0 0 0 = √(Real.pi / 2) := by
    rw [h1]; norm_num [mul_one_div]
  refine ⟨e, ?_⟩
  rw [h2, e]; norm_num; ring

/-- A contracted p shell and a d shell. -/
def demoP : Shell ℝ where
  ptr := 1
  am := 1
  nprim := 2
  pos := fun _ => 0
  alpha := fun i => if i = 0 then 3 else 1
  coef := fun i => if i = 0 then 2 else -1

noncomputable def demoD : Shell ℝ where
  ptr := 2
  am := 2
  nprim := 1
  pos := fun d => match d with | .x => 1 | .y => 0 | .z => -2
  alpha := fun _ => 1 / 2
  coef := fun _ => 1

example (work0 : ℕ → ℝ) : ∃ out, osoeiOverlap realOE demoP demoD work0 ⟨18, fun _ => 7⟩ = some out ∧
    out.val (1 * 6 + 4) = overlapInt demoP demoD ⟨0, 1, 0⟩ ⟨0, 1, 1⟩ := by
  obtain ⟨out, e, -, h, -⟩ := C48_overlap (sh1 := demoP) (sh2 := demoD) (by decide) (by decide)
    (fun i _ => by simp only [demoP]; split_ifs <;> norm_num)
    (fun i _ => by simp only [demoD]; norm_num) work0 ⟨18, fun _ => 7⟩ (by decide)
  exact ⟨out, e, h 1 4 ⟨0, 1, 0⟩ ⟨0, 1, 1⟩ (by decide) (by decide)⟩

example (work0 : ℕ → ℝ) : ∃ out, osoeiKe realOE demoP demoD work0 ⟨18, fun _ => 7⟩ = some out ∧
    out.val (1 * 6 + 4) = kineticInt demoP demoD ⟨0, 1, 0⟩ ⟨0, 1, 1⟩ := by
  obtain ⟨out, e, -, h, -⟩ := C48_kinetic (sh1 := demoP) (sh2 := demoD) (by decide) (by decide)
    (fun i _ => by simp only [demoP]; split_ifs <;> norm_num)
    (fun i _ => by simp only [demoD]; norm_num) work0 ⟨18, fun _ => 7⟩ (by decide)
  exact ⟨out, e, h 1 4 ⟨0, 1, 0⟩ ⟨0, 1, 1⟩ (by decide) (by decide)⟩

/-- Run of the model over the rationals with stand-ins for `sqrt`, `exp` and `PI`. -/
def demoQ (am : ℕ) (x : ℚ) : Shell ℚ :=
  ⟨1, am, 1, fun d => match d with | .x => x | _ => 0, fun _ => 1, fun _ => 1⟩

def opsQ : OEOps ℚ := ⟨fun _ => 1, fun _ => 1, 3⟩

#guard ((osoeiOverlap opsQ (demoQ 1 0) (demoQ 1 1) (fun _ => 99) ⟨9, fun _ => 5⟩).map fun b =>
  (List.range 10).map b.val) = some [0, 0, 0, 0, 1 / 4, 0, 0, 0, 1 / 4, 5]
#guard ((osoeiOverlap opsQ (demoQ 1 0) (demoQ 1 1) (fun _ => 99) ⟨8, fun _ => 5⟩).map fun b =>
  (List.range 10).map b.val) = none
#guard ((osoeiKe opsQ (demoQ 0 0) (demoQ 1 0) (fun _ => 99) ⟨3, fun _ => 5⟩).map fun b =>
  (List.range 3).map b.val) = some [0, 0, 0]
#guard ((osoeiKe opsQ (demoQ 0 0) (demoQ 0 0) (fun _ => 99) ⟨1, fun _ => 5⟩).map fun b =>
  (List.range 1).map b.val) = some [3 / 2]

end Simint
