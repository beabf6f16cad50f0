import Verif.PotLemmas

/-!
# Potential integrals (C49)

Exact arithmetic and an exact Boys function.  The array `amwork` starts with arbitrary contents, so
the result does not depend on elements that were not initialised.
-/

set_option autoImplicit false

open MeasureTheory Real

namespace Simint

/-- C49, any field and any functions: if `V` satisfies the start values and the Obara–Saika recurrences
of a pair of Gaussians and a point charge, the routine leaves `V 0` in the row `(am1,am2)`; every
access is inside the work array. -/
theorem C49_recursion {F : Type} [Field F] {g : AmDim} {ops : OEOps F} {boys : ℕ → F → F}
    (h1 : g.am1 ≤ 18) (h2 : g.am2 ≤ 18) {a1 a2 : F} {A B C : Dir → F} {V : ℕ → Exp → Exp → F}
    (hB : RecBra V (oePar a1 A a2 B) fun d => (a1 * A d + a2 * B d) * (oePar a1 A a2 B).oop - C d)
    (hK : RecKet V (oePar a1 A a2 B) fun d => (a1 * A d + a2 * B d) * (oePar a1 A a2 B).oop - C d)
    (h0 : ∀ n, V n ⟨0, 0, 0⟩ ⟨0, 0, 0⟩ =
      boys n ((((a1 * A .x + a2 * B .x) * (oePar a1 A a2 B).oop - C .x) *
          ((a1 * A .x + a2 * B .x) * (oePar a1 A a2 B).oop - C .x) +
        ((a1 * A .y + a2 * B .y) * (oePar a1 A a2 B).oop - C .y) *
          ((a1 * A .y + a2 * B .y) * (oePar a1 A a2 B).oop - C .y) +
        ((a1 * A .z + a2 * B .z) * (oePar a1 A a2 B).oop - C .z) *
          ((a1 * A .z + a2 * B .z) * (oePar a1 A a2 B).oop - C .z)) * (a1 + a2)) * 2 * ops.pi *
        (oePar a1 A a2 B).oop * ops.exp (-(oePar a1 A a2 B).mu * ((A .x - B .x) * (A .x - B .x) +
          (A .y - B .y) * (A .y - B .y) + (A .z - B .z) * (A .z - B .z)))) (w : AmWork F) :
    ∃ w', potPrim ops boys g a1 A a2 B C w = some w' ∧
      ∀ n o, n < nc g.am1 → o < nc g.am2 →
        w' g.am1 g.am2 (n * nc g.am2 + o) = V 0 (compAt g.am1 n) (compAt g.am2 o) :=
  potPrim_ok h1 h2 hB hK h0 w

section
variable {α β : ℝ} (hα : 0 < α) (hβ : 0 < β) (A B C : Dir → ℝ)

/-- Auxiliary integrals of a pair of primitives and a charge. -/
noncomputable def nucV (n : ℕ) (a b : Exp) : ℝ :=
  (nucOf hα hβ A B C).nuc (2 / √π * exp (-(α * β / (α + β)) * dist2 A B)) n a b

theorem nucV_P (d : Dir) : (nucOf hα hβ A B C).P d = (α * A d + β * B d) * (oePar α A β B).oop := by
  simp only [nucOf, oePar]; ring

theorem nucV_ket : RecKet (nucV hα hβ A B C) (oePar α A β B)
    fun d => (α * A d + β * B d) * (oePar α A β B).oop - C d := by
  intro n a b d ha hb
  have := (nucOf hα hβ A B C).nuc_right (2 / √π * exp (-(α * β / (α + β)) * dist2 A B)) n d ha hb
  rw [nucV_P] at this
  exact this

theorem nucV_bra : RecBra (nucV hα hβ A B C) (oePar α A β B)
    fun d => (α * A d + β * B d) * (oePar α A β B).oop - C d := by
  intro n a d ha
  have := (nucOf hα hβ A B C).nuc_left (b := ⟨0, 0, 0⟩)
    (2 / √π * exp (-(α * β / (α + β)) * dist2 A B)) n d ha (by simp [Exp.Valid])
  rw [nucV_P, show (Exp.get ⟨0, 0, 0⟩ d : ℤ) = 0 by cases d <;> rfl] at this
  unfold nucV
  rw [this]
  simp only [nucOf, oePar]
  push_cast; ring

theorem nucV_start (n : ℕ) : nucV hα hβ A B C n ⟨0, 0, 0⟩ ⟨0, 0, 0⟩ =
      boysF n ((((α * A .x + β * B .x) * (oePar α A β B).oop - C .x) *
          ((α * A .x + β * B .x) * (oePar α A β B).oop - C .x) +
        ((α * A .y + β * B .y) * (oePar α A β B).oop - C .y) *
          ((α * A .y + β * B .y) * (oePar α A β B).oop - C .y) +
        ((α * A .z + β * B .z) * (oePar α A β B).oop - C .z) *
          ((α * A .z + β * B .z) * (oePar α A β B).oop - C .z)) * (α + β)) * 2 * realOE.pi *
        (oePar α A β B).oop * realOE.exp (-(oePar α A β B).mu * ((A .x - B .x) * (A .x - B .x) +
          (A .y - B .y) * (A .y - B .y) + (A .z - B .z) * (A .z - B .z))) := by
  unfold nucV
  rw [NucPair.nuc_start]
  have e1 : dist2 (nucOf hα hβ A B C).P (nucOf hα hβ A B C).C * (nucOf hα hβ A B C).p =
      (((α * A .x + β * B .x) * (oePar α A β B).oop - C .x) *
          ((α * A .x + β * B .x) * (oePar α A β B).oop - C .x) +
        ((α * A .y + β * B .y) * (oePar α A β B).oop - C .y) *
          ((α * A .y + β * B .y) * (oePar α A β B).oop - C .y) +
        ((α * A .z + β * B .z) * (oePar α A β B).oop - C .z) *
          ((α * A .z + β * B .z) * (oePar α A β B).oop - C .z)) * (α + β) := by
    simp only [dist2, nucV_P]
    simp only [nucOf]; ring
  have e2 : -(α * β / (α + β)) * dist2 A B = -(oePar α A β B).mu * ((A .x - B .x) * (A .x - B .x) +
          (A .y - B .y) * (A .y - B .y) + (A .z - B .z) * (A .z - B .z)) := by
    simp only [dist2, oePar]; ring
  rw [e1, e2]
  have hpi : √π ≠ 0 := (Real.sqrt_pos.2 pi_pos).ne'
  simp only [nucOf, oePar, realOE]
  field_simp

end

theorem potPrim_real {g : AmDim} (h1 : g.am1 ≤ 18) (h2 : g.am2 ≤ 18) {α β : ℝ} (hα : 0 < α) (hβ : 0 < β)
    (A B C : Dir → ℝ) (w : AmWork ℝ) :
    ∃ w', potPrim realOE boysF g α A β B C w = some w' ∧
      ∀ n o, n < nc g.am1 → o < nc g.am2 → w' g.am1 g.am2 (n * nc g.am2 + o) =
        ∫ r : R3, primG α A (compAt g.am1 n) r.dir * primG β B (compAt g.am2 o) r.dir /
          √(dist2 r.dir C) := by
  obtain ⟨w', e, h⟩ := potPrim_ok (ops := realOE) h1 h2 (nucV_bra hα hβ A B C) (nucV_ket hα hβ A B C)
    (nucV_start hα hβ A B C) w
  refine ⟨w', e, fun n o hn ho => ?_⟩
  rw [h n o hn ho]
  exact nuc_integral hα hβ A B C _ _

theorem potCenter_ok {sh1 sh2 : Shell ℝ} (am1 : sh1.am ≤ 18) (am2 : sh2.am ≤ 18) (h1 : sh1.Pos)
    (h2 : sh2.Pos) (c : ℝ × (Dir → ℝ)) {w : AmWork ℝ} {out : CBuf ℝ}
    (hsz : nc sh1.am * nc sh2.am ≤ out.size) :
    ∃ w' out', forLoop 0 sh1.nprim (fun a st =>
      forLoop 0 sh2.nprim (fun b (st : AmWork ℝ × CBuf ℝ) =>
        (potPrim realOE boysF ⟨sh1.am, sh2.am⟩ (sh1.alpha a) sh1.pos (sh2.alpha b) sh2.pos c.2 st.1).bind
        fun w => (forLoop 0 (nc sh1.am * nc sh2.am) (fun i out =>
          (AmDim.get ⟨sh1.am, sh2.am⟩ w sh1.am sh2.am i).bind fun v => (out.get i).bind fun o =>
          out.set i (o - v * c.1 * sh1.coef a * sh2.coef b)) st.2).map fun out => (w, out)) st)
        (w, out) = some (w', out') ∧
      Added (nc sh1.am * nc sh2.am) (fun k => -c.1 * ∫ r : R3,
        contrG sh1 (compAt sh1.am (k / nc sh2.am)) r.dir *
        contrG sh2 (compAt sh2.am (k % nc sh2.am)) r.dir / √(dist2 r.dir c.2)) out out' := by
  obtain ⟨w', out', e1, -, ha⟩ := pairLoop_ok (n1 := sh1.nprim) (n2 := sh2.nprim)
    (N := nc sh1.am * nc sh2.am) (sz := out.size) (w := w) (out := out)
    (body := fun a b st =>
        (potPrim realOE boysF ⟨sh1.am, sh2.am⟩ (sh1.alpha a) sh1.pos (sh2.alpha b) sh2.pos c.2 st.1).bind
        fun w => (forLoop 0 (nc sh1.am * nc sh2.am) (fun i out =>
          (AmDim.get ⟨sh1.am, sh2.am⟩ w sh1.am sh2.am i).bind fun v => (out.get i).bind fun o =>
          out.set i (o - v * c.1 * sh1.coef a * sh2.coef b)) st.2).map fun out => (w, out))
    (J := fun _ => True)
    (fun i j k => -(∫ r : R3, primG (sh1.alpha i) sh1.pos (compAt sh1.am (k / nc sh2.am)) r.dir *
        primG (sh2.alpha j) sh2.pos (compAt sh2.am (k % nc sh2.am)) r.dir / √(dist2 r.dir c.2)) *
        c.1 * sh1.coef i * sh2.coef j)
    (by
      intro i j w out' hi hj _ hout
      obtain ⟨w', e, f⟩ := potPrim_real (g := ⟨sh1.am, sh2.am⟩) am1 am2 (h1 i hi) (h2 j hj) sh1.pos
        sh2.pos c.2 w
      simp only at e ⊢
      rw [e, Option.bind_some]
      set T : ℕ → ℝ := fun k => -(∫ r : R3, primG (sh1.alpha i) sh1.pos (compAt sh1.am (k / nc sh2.am)) r.dir *
        primG (sh2.alpha j) sh2.pos (compAt sh2.am (k % nc sh2.am)) r.dir / √(dist2 r.dir c.2)) *
        c.1 * sh1.coef i * sh2.coef j with hT
      obtain ⟨o, e2, f2⟩ : ∃ o, _ = some o ∧ Added (nc sh1.am * nc sh2.am) T out' o :=
        forLoop_ok (lo := 0) (hi := nc sh1.am * nc sh2.am) (s := out')
        (body := fun i' out =>
          (AmDim.get ⟨sh1.am, sh2.am⟩ w' sh1.am sh2.am i').bind fun v => (out.get i').bind fun o =>
          out.set i' (o - v * c.1 * sh1.coef i * sh2.coef j))
        (I := fun k o => Added k T out' o) (Nat.zero_le _) ⟨rfl, fun k => by simp⟩ (by
          intro k o _ hk hA
          have hp := nc_pos sh2.am
          have hn : k / nc sh2.am < nc sh1.am := Nat.div_lt_of_lt_mul (by rwa [Nat.mul_comm])
          have ho : k % nc sh2.am < nc sh2.am := Nat.mod_lt _ hp
          have hd : k / nc sh2.am * nc sh2.am + k % nc sh2.am = k := Nat.div_add_mod' _ _
          rw [am_get (g := ⟨sh1.am, sh2.am⟩) w' (m := 0) (n := k / nc sh2.am) (o := k % nc sh2.am) le_rfl
            le_rfl (by simp) hn ho (by
              rw [Nat.cast_zero, zero_mul, zero_add]; exact_mod_cast hd.symm), Option.bind_some]
          have hv := f _ _ hn ho
          simp only at hv
          rw [show amIdx sh1.am sh2.am 0 (k / nc sh2.am) (k % nc sh2.am) =
            k / nc sh2.am * nc sh2.am + k % nc sh2.am by unfold amIdx; ring, hv]
          obtain ⟨o', g1, g2, g3⟩ := hA.step (show k < out'.size by omega)
          rw [g1, Option.bind_some]
          refine ⟨o', ?_, g3⟩
          rw [← g2, hT]
          congr 1
          simp only; ring)
      rw [e2]
      exact ⟨w', o, rfl, trivial, f2⟩) trivial rfl
  refine ⟨w', out', e1, ha.congr fun k _ => ?_⟩
  rw [potential_one h1 h2, Finset.mul_sum]
  refine Finset.sum_congr rfl fun i _ => ?_
  rw [Finset.mul_sum]
  refine Finset.sum_congr rfl fun j _ => ?_
  ring

/-- C49: element `n*ncart(am2) + m` of the output is the integral over space of component `n` of the
first shell times component `m` of the second in the field of the given charges; nothing else is
written and no access is outside an array. -/
theorem C49_potential {sh1 sh2 : Shell ℝ} (am1 : sh1.am ≤ 18) (am2 : sh2.am ≤ 18) (h1 : sh1.Pos)
    (h2 : sh2.Pos) (centers : List (ℝ × (Dir → ℝ))) (work0 : AmWork ℝ) (integrals : CBuf ℝ)
    (hsz : nc sh1.am * nc sh2.am ≤ integrals.size) :
    ∃ out, osoeiPotential realOE boysF centers sh1 sh2 work0 integrals = some out ∧
      out.size = integrals.size ∧
      (∀ n m e1 e2, (psi4List sh1.am)[n]? = some e1 → (psi4List sh2.am)[m]? = some e2 →
        out.val (n * nc sh2.am + m) = potentialInt centers sh1 sh2 e1 e2) ∧
      ∀ k, nc sh1.am * nc sh2.am ≤ k → out.val k = integrals.val k := by
  unfold osoeiPotential
  simp only
  obtain ⟨z, e0, z1, z2, z3⟩ := zeroBuf_ok hsz
  rw [e0, Option.bind_some]
  obtain ⟨w', out', e1, ha⟩ : ∃ w' out', centers.foldl (fun st c => st.bind fun st =>
      forLoop 0 sh1.nprim (fun a st =>
      forLoop 0 sh2.nprim (fun b (st : AmWork ℝ × CBuf ℝ) =>
        (potPrim realOE boysF ⟨sh1.am, sh2.am⟩ (sh1.alpha a) sh1.pos (sh2.alpha b) sh2.pos c.2 st.1).bind
        fun w => (forLoop 0 (nc sh1.am * nc sh2.am) (fun i out =>
          (AmDim.get ⟨sh1.am, sh2.am⟩ w sh1.am sh2.am i).bind fun v => (out.get i).bind fun o =>
          out.set i (o - v * c.1 * sh1.coef a * sh2.coef b)) st.2).map fun out => (w, out)) st) st)
      (some (work0, z)) = some (w', out') ∧ Added (nc sh1.am * nc sh2.am) (fun k =>
        (centers.map fun c => -c.1 * ∫ r : R3,
          contrG sh1 (compAt sh1.am (k / nc sh2.am)) r.dir *
          contrG sh2 (compAt sh2.am (k % nc sh2.am)) r.dir / √(dist2 r.dir c.2)).sum) z out' := by
    rw [← z1] at hsz
    clear e0 z1 z2 z3
    induction centers generalizing work0 z with
    | nil => exact ⟨work0, z, rfl, by simpa using Added.refl _ z⟩
    | cons c cs ih =>
      obtain ⟨w1, o1, e2, a2⟩ := potCenter_ok am1 am2 h1 h2 c (w := work0) hsz
      obtain ⟨w2, o2, e3, a3⟩ := ih w1 o1 (by rw [a2.1]; exact hsz)
      refine ⟨w2, o2, ?_, (a2.trans a3).congr fun k _ => ?_⟩
      · rw [List.foldl_cons, Option.bind_some, e2, e3]
      · rw [List.map_cons, List.sum_cons]
  rw [e1]
  refine ⟨out', rfl, ?_⟩
  refine Added.final (g := potentialInt centers sh1 sh2) (ha.congr fun k _ => ?_) z1 z2 z3
  rw [potentialInt_eq h1 h2]

/-! ## Concrete cases -/

/-- A p shell and an f shell in the field of two charges. -/
def demoV (am : ℕ) (x : ℝ) : Shell ℝ := ⟨1, am, 2, fun _ => x, fun i => i + 1, fun _ => 1⟩

example (work0 : AmWork ℝ) : ∃ out, osoeiPotential realOE boysF [(1, fun _ => 0), (8, fun _ => 2)]
      (demoV 1 0) (demoV 3 1) work0 ⟨30, fun _ => 7⟩ = some out ∧
    out.val (2 * 10 + 4) = potentialInt [(1, fun _ => 0), (8, fun _ => 2)] (demoV 1 0) (demoV 3 1)
      ⟨0, 0, 1⟩ ⟨1, 1, 1⟩ := by
  obtain ⟨out, e, -, h, -⟩ := C49_potential (sh1 := demoV 1 0) (sh2 := demoV 3 1) (by decide) (by decide)
    (fun i _ => by simp only [demoV]; positivity)
    (fun i _ => by simp only [demoV]; positivity) [(1, fun _ => 0), (8, fun _ => 2)] work0
    ⟨30, fun _ => 7⟩ (by decide)
  exact ⟨out, e, h 2 4 ⟨0, 0, 1⟩ ⟨1, 1, 1⟩ (by decide) (by decide)⟩

/-- Run of the model over the rationals with stand-ins for `exp`, `PI` and the Boys function. -/
def demoVQ (am : ℕ) (x : ℚ) : Shell ℚ := ⟨1, am, 1, fun _ => x, fun _ => 1, fun _ => 1⟩

#guard ((osoeiPotential ⟨fun _ => 1, fun _ => 1, (3 : ℚ)⟩ (fun n _ => 1 / (2 * n + 1)) [(1, fun _ => 0)]
  (demoVQ 0 0) (demoVQ 0 0) (fun _ _ _ => 99) ⟨1, fun _ => 5⟩).map fun b => b.val 0) = some (-3)
#guard ((osoeiPotential ⟨fun _ => 1, fun _ => 1, (3 : ℚ)⟩ (fun n _ => 1 / (2 * n + 1)) [(1, fun _ => 0)]
  (demoVQ 1 0) (demoVQ 1 0) (fun _ _ _ => 99) ⟨9, fun _ => 5⟩).map fun b => (List.range 9).map b.val) =
  some [-1 / 2, 0, 0, 0, -1 / 2, 0, 0, 0, -1 / 2]
#guard ((osoeiPotential ⟨fun _ => 1, fun _ => 1, (3 : ℚ)⟩ (fun n _ => 1 / (2 * n + 1)) [(1, fun _ => 0)]
  (demoVQ 2 0) (demoVQ 2 1) (fun _ _ _ => 99) ⟨36, fun _ => 5⟩).map fun b => (List.range 36).map b.val) =
  (osoeiPotential ⟨fun _ => 1, fun _ => 1, (3 : ℚ)⟩ (fun n _ => 1 / (2 * n + 1)) [(1, fun _ => 0)]
  (demoVQ 2 0) (demoVQ 2 1) (fun _ _ _ => 0) ⟨36, fun _ => 5⟩).map fun b => (List.range 36).map b.val

end Simint
