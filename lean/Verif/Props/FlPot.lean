import Verif.FlPotSum
import Verif.FlOneElVal
import Verif.Props.FlBoys
import Verif.Props.FlPrim

/-!
# Rounding errors of potential integrals (C93)

The values of the Boys function are those of `boys_F_split` on doubles (C83); the rest of the routine
adds a number of roundings that grows with the angular momentum and the number of terms.
-/

set_option autoImplicit false

open Real

namespace Simint.FlPot

open FlBoys (Arith Rounds u ieee)
open FlPrim (T S T_def S_def T_pos S_pos T_one T_le S_le T_add T_mul T_twice S_twice S_one κT κS ov_T mul_T add_T)
open FlOneEl

section
variable {F : Arith} (hF : Sound F) {sh1 sh2 : Shell ℝ} (am1 : sh1.am ≤ 18) (am2 : sh2.am ≤ 18)
  {centers : List (ℝ × (Dir → ℝ))} {R : ℝ} (h : FieldIn sh1 sh2 centers R) {vec : Bool} {V kb : ℕ}
  (hk : kb ≤ 2 ^ 18)
  (hboys : ∀ c ∈ centers, ∀ i < sh1.nprim, ∀ j < sh2.nprim, ∀ n ≤ sh1.am + sh2.am, ∃ y,
    FlBoys.split F vec V (fun _ => potArg F (sh1.alpha i) sh1.pos (sh2.alpha j) sh2.pos c.2)
      (sh1.am + sh2.am) n 0 = some y ∧
    |y - boysF n (potArg F (sh1.alpha i) sh1.pos (sh2.alpha j) sh2.pos c.2)| ≤
      ((1 + u) ^ kb - 1) * boysF n (potArg F (sh1.alpha i) sh1.pos (sh2.alpha j) sh2.pos c.2))
include hF am1 am2 h hk hboys

/-- One center. -/
theorem center_near {c : ℝ × (Dir → ℝ)} (hc : c ∈ centers) {sz m : ℕ} {f0 : ℕ → ℝ} {g0 : ℝ}
    (hm : kb + 64 + 11 * (sh1.am + sh2.am) ≤ m) (hm2 : m + sh1.nprim * sh2.nprim ≤ 2 ^ 20)
    (hT : g0 + (∑ i ∈ Finset.range sh1.nprim, ∑ j ∈ Finset.range sh2.nprim,
      (termSize sh1 sh2 R c i j + S 900)) ≤ T 1000)
    (hsz : nc sh1.am * nc sh2.am ≤ sz) {w : AmWork ℝ} {out : CBuf ℝ} (ho : out.size = sz)
    (hz : ∀ k, k < nc sh1.am * nc sh2.am → Approx m (out.val k) (f0 k) g0) :
    ∃ w' out', forLoop 0 sh1.nprim (fun a st =>
      forLoop 0 sh2.nprim (fun b (st : AmWork ℝ × CBuf ℝ) =>
        (potPrim F vec V ⟨sh1.am, sh2.am⟩ (sh1.alpha a) sh1.pos (sh2.alpha b) sh2.pos c.2 st.1).bind
        fun w => (forLoop 0 (nc sh1.am * nc sh2.am) (fun i out =>
          (AmDim.get ⟨sh1.am, sh2.am⟩ w sh1.am sh2.am i).bind fun v => (out.get i).bind fun o =>
          out.set i (F.mac (-F.fl (F.fl (v * c.1) * sh1.coef a)) (sh2.coef b) o)) st.2).map
        fun out => (w, out)) st) (w, out) = some (w', out') ∧ out'.size = sz ∧
      (∀ k, k < nc sh1.am * nc sh2.am → Approx (m + sh1.nprim * sh2.nprim) (out'.val k)
        (f0 k + -c.1 * ∫ r : R3, contrG sh1 (compAt sh1.am (k / nc sh2.am)) r.dir *
          contrG sh2 (compAt sh2.am (k % nc sh2.am)) r.dir / √(dist2 r.dir c.2))
        (g0 + ∑ i ∈ Finset.range sh1.nprim, ∑ j ∈ Finset.range sh2.nprim,
          (termSize sh1 sh2 R c i j + S 900))) ∧
      ∀ k, nc sh1.am * nc sh2.am ≤ k → out'.val k = out.val k := by
  obtain ⟨w', out', e1, o1, o2, o3⟩ := pairLoop_add hF.toRounds (n1 := sh1.nprim) (n2 := sh2.nprim)
    (N := nc sh1.am * nc sh2.am) (sz := sz) (m := m) (w := w) (out := out)
    (body := fun a b st =>
        (potPrim F vec V ⟨sh1.am, sh2.am⟩ (sh1.alpha a) sh1.pos (sh2.alpha b) sh2.pos c.2 st.1).bind
        fun w => (forLoop 0 (nc sh1.am * nc sh2.am) (fun i out =>
          (AmDim.get ⟨sh1.am, sh2.am⟩ w sh1.am sh2.am i).bind fun v => (out.get i).bind fun o =>
          out.set i (F.mac (-F.fl (F.fl (v * c.1) * sh1.coef a)) (sh2.coef b) o)) st.2).map
        fun out => (w, out))
    (fun i j k => -((∫ r : R3, primG (sh1.alpha i) sh1.pos (compAt sh1.am (k / nc sh2.am)) r.dir *
        primG (sh2.alpha j) sh2.pos (compAt sh2.am (k % nc sh2.am)) r.dir / √(dist2 r.dir c.2)) *
        c.1 * sh1.coef i) * sh2.coef j)
    (fun i j => termSize sh1 sh2 R c i j + S 900) f0 g0 hm2
    (fun i j hi hj => add_nonneg (termSize_bounds am1 am2 h hc hi hj).1 (S_pos _).le) hT
    (by
      intro i j w out' hi hj hout
      obtain ⟨w', e, f⟩ := prim_near hF (h.prim hi hj) h.apos h.bpos (h.cpos c hc) (vec := vec) (V := V) hk
        (g := ⟨sh1.am, sh2.am⟩) am1 am2 (fun n hn => hboys c hc i hi j hj n hn) w
      simp only at e f ⊢
      rw [e, Option.bind_some]
      obtain ⟨o, e2, f2⟩ : ∃ o : CBuf ℝ, _ = some o ∧ (o.size = out'.size ∧
          (∀ k, k < nc sh1.am * nc sh2.am → o.val k = F.mac (-F.fl (F.fl (w' sh1.am sh2.am k * c.1) *
            sh1.coef i)) (sh2.coef j) (out'.val k)) ∧
          ∀ k, nc sh1.am * nc sh2.am ≤ k → o.val k = out'.val k) :=
        forLoop_ok (lo := 0) (hi := nc sh1.am * nc sh2.am) (s := out')
        (body := fun i' out =>
          (AmDim.get ⟨sh1.am, sh2.am⟩ w' sh1.am sh2.am i').bind fun v => (out.get i').bind fun o =>
          out.set i' (F.mac (-F.fl (F.fl (v * c.1) * sh1.coef i)) (sh2.coef j) o))
        (I := fun n o => o.size = out'.size ∧ (∀ k, k < n → o.val k = F.mac (-F.fl (F.fl (w' sh1.am sh2.am k * c.1) *
            sh1.coef i)) (sh2.coef j) (out'.val k)) ∧ ∀ k, n ≤ k → o.val k = out'.val k)
        (Nat.zero_le _) ⟨rfl, fun k hk => absurd hk (by omega), fun k _ => rfl⟩ (by
          intro k o _ hk hI
          have hp := nc_pos sh2.am
          have hn : k / nc sh2.am < nc sh1.am := Nat.div_lt_of_lt_mul (by rwa [Nat.mul_comm])
          have ho : k % nc sh2.am < nc sh2.am := Nat.mod_lt _ hp
          have hd : k / nc sh2.am * nc sh2.am + k % nc sh2.am = k := Nat.div_add_mod' _ _
          beta_reduce
          rw [am_get (g := ⟨sh1.am, sh2.am⟩) w' (m := 0) (n := k / nc sh2.am) (o := k % nc sh2.am) le_rfl
            le_rfl (by simp) hn ho (by
              rw [Nat.cast_zero, zero_mul, zero_add]; exact_mod_cast hd.symm), Option.bind_some,
            show amIdx sh1.am sh2.am 0 (k / nc sh2.am) (k % nc sh2.am) = k by
              unfold amIdx; rw [Nat.zero_mul, Nat.zero_add, hd]]
          have hlt : k < o.size := by rw [hI.1]; omega
          rw [CBuf.get_lt hlt, Option.bind_some, CBuf.set_lt hlt]
          refine ⟨_, rfl, hI.1, fun k' hk' => ?_, fun k' hk' => ?_⟩
          · simp only
            by_cases e : k' = k
            · subst e
              rw [if_pos rfl, hI.2.2 k' le_rfl]
            · rw [if_neg e]
              exact hI.2.1 k' (by omega)
          · simp only
            rw [if_neg (by omega)]
            exact hI.2.2 k' (by omega))
      rw [e2]
      refine ⟨w', o, rfl, f2.1.trans hout, fun k hk' => ?_, f2.2.2⟩
      have hp := nc_pos sh2.am
      have hn : k / nc sh2.am < nc sh1.am := Nat.div_lt_of_lt_mul (by rwa [Nat.mul_comm])
      have ho : k % nc sh2.am < nc sh2.am := Nat.mod_lt _ hp
      have hd : k / nc sh2.am * nc sh2.am + k % nc sh2.am = k := Nat.div_add_mod' _ _
      have fv := f _ _ hn ho
      rw [hd] at fv
      obtain ⟨C, c1, c2⟩ := term_near hF am1 am2 h hc hi hj (by norm_num at hk ⊢; omega) fv
      exact ⟨_, _, _, _, _, _, _, _, c1, Approx.refl (sh2.coef j), by omega, rfl, c2, f2.2.1 k hk'⟩) ho hz
  refine ⟨w', out', e1, o1, fun k hk' => ?_, o3⟩
  have := o2 k hk'
  rw [potential_one h.posA h.posB, Finset.mul_sum]
  convert this using 3
  rw [Finset.mul_sum]
  refine Finset.sum_congr rfl fun j _ => ?_
  ring

theorem centers_near {cs : List (ℝ × (Dir → ℝ))} (hcs : ∀ c ∈ cs, c ∈ centers) {sz m : ℕ} {f0 : ℕ → ℝ} {g0 : ℝ}
    (hm : kb + 64 + 11 * (sh1.am + sh2.am) ≤ m) (hm2 : m + cs.length * (sh1.nprim * sh2.nprim) ≤ 2 ^ 20)
    (hT : g0 + (cs.map fun c => ∑ i ∈ Finset.range sh1.nprim, ∑ j ∈ Finset.range sh2.nprim,
      (termSize sh1 sh2 R c i j + S 900)).sum ≤ T 1000)
    (hsz : nc sh1.am * nc sh2.am ≤ sz) {w : AmWork ℝ} {out : CBuf ℝ} (ho : out.size = sz)
    (hz : ∀ k, k < nc sh1.am * nc sh2.am → Approx m (out.val k) (f0 k) g0) :
    ∃ w' out', cs.foldl (fun st c => st.bind fun st => forLoop 0 sh1.nprim (fun a st =>
      forLoop 0 sh2.nprim (fun b (st : AmWork ℝ × CBuf ℝ) =>
        (potPrim F vec V ⟨sh1.am, sh2.am⟩ (sh1.alpha a) sh1.pos (sh2.alpha b) sh2.pos c.2 st.1).bind
        fun w => (forLoop 0 (nc sh1.am * nc sh2.am) (fun i out =>
          (AmDim.get ⟨sh1.am, sh2.am⟩ w sh1.am sh2.am i).bind fun v => (out.get i).bind fun o =>
          out.set i (F.mac (-F.fl (F.fl (v * c.1) * sh1.coef a)) (sh2.coef b) o)) st.2).map
        fun out => (w, out)) st) st) (some (w, out)) = some (w', out') ∧ out'.size = sz ∧
      (∀ k, k < nc sh1.am * nc sh2.am → Approx (m + cs.length * (sh1.nprim * sh2.nprim)) (out'.val k)
        (f0 k + (cs.map fun c => -c.1 * ∫ r : R3, contrG sh1 (compAt sh1.am (k / nc sh2.am)) r.dir *
          contrG sh2 (compAt sh2.am (k % nc sh2.am)) r.dir / √(dist2 r.dir c.2)).sum)
        (g0 + (cs.map fun c => ∑ i ∈ Finset.range sh1.nprim, ∑ j ∈ Finset.range sh2.nprim,
          (termSize sh1 sh2 R c i j + S 900)).sum)) ∧
      ∀ k, nc sh1.am * nc sh2.am ≤ k → out'.val k = out.val k := by
  induction cs generalizing w out m f0 g0 with
  | nil => exact ⟨w, out, rfl, ho, fun k hk' => by simpa using hz k hk', fun k _ => rfl⟩
  | cons c cs ih =>
    have hc := hcs c (by simp)
    have hcs' : ∀ c ∈ cs, c ∈ centers := fun c hc => hcs c (by simp [hc])
    rw [List.length_cons, Nat.add_mul, Nat.one_mul] at hm2
    rw [List.map_cons, List.sum_cons] at hT
    have rest : 0 ≤ (cs.map fun c => ∑ i ∈ Finset.range sh1.nprim, ∑ j ∈ Finset.range sh2.nprim,
        (termSize sh1 sh2 R c i j + S 900)).sum := by
      refine List.sum_nonneg fun x hx => ?_
      obtain ⟨c', hc', rfl⟩ := List.mem_map.1 hx
      exact Finset.sum_nonneg fun i hi => Finset.sum_nonneg fun j hj =>
        add_nonneg (termSize_bounds am1 am2 h (hcs' c' hc') (Finset.mem_range.1 hi) (Finset.mem_range.1 hj)).1
          (S_pos _).le
    obtain ⟨w1, o1, e1, z1, a1, r1⟩ := center_near hF am1 am2 h hk hboys hc hm (by omega) (by linarith) hsz
      (w := w) ho hz
    obtain ⟨w2, o2, e2, z2, a2, r2⟩ := ih hcs' (m := m + sh1.nprim * sh2.nprim) (by omega) (by omega)
      (by rw [add_assoc]; exact hT) (w := w1) z1 a1
    refine ⟨w2, o2, ?_, z2, fun k hk' => ?_, fun k hk' => (r2 k hk').trans (r1 k hk')⟩
    · rw [List.foldl_cons, Option.bind_some, e1, e2]
    · have := a2 k hk'
      rw [List.map_cons, List.sum_cons, List.map_cons, List.sum_cons, List.length_cons,
        show m + (cs.length + 1) * (sh1.nprim * sh2.nprim) =
          m + sh1.nprim * sh2.nprim + cs.length * (sh1.nprim * sh2.nprim) by ring, ← add_assoc (f0 k),
        ← add_assoc g0]
      exact this

/-- C93: two shells and charges of moderate size, values of the Boys function that have a relative error
of `kb` roundings at the computed arguments: the routine finishes without an access outside an array,
and element `n*ncart(am2) + m` of the output differs from the integral over space of component `n` of
the first shell times component `m` of the second in the field of the charges by at most
`kb + 64 + 11 l` plus the number of terms, times `2^-52` times `potentialMax`, whatever the work array
contained before; nothing else is written. -/
theorem C93_potential (work0 : AmWork ℝ) (integrals : CBuf ℝ) (hsz : nc sh1.am * nc sh2.am ≤ integrals.size) :
    ∃ out, osoeiPotential F vec V centers sh1 sh2 work0 integrals = some out ∧ out.size = integrals.size ∧
      (∀ n m e1 e2, (psi4List sh1.am)[n]? = some e1 → (psi4List sh2.am)[m]? = some e2 →
        |out.val (n * nc sh2.am + m) - potentialInt centers sh1 sh2 e1 e2| ≤
          (kb + 64 + 11 * (sh1.am + sh2.am) + centers.length * (sh1.nprim * sh2.nprim) : ℕ) * (1 / 2 ^ 52) *
            potentialMax centers sh1 sh2 R) ∧
      ∀ k, nc sh1.am * nc sh2.am ≤ k → out.val k = integrals.val k := by
  have hp := h.prims
  unfold osoeiPotential
  simp only
  obtain ⟨z, e0, z1, z2, z3⟩ := zeroBuf_ok hsz
  rw [e0, Option.bind_some]
  -- sizes
  have cnt : ((centers.length * (sh1.nprim * sh2.nprim) : ℕ) : ℝ) ≤ T 19 := by
    unfold FlPrim.T; exact_mod_cast hp
  have tot : ∀ cs : List (ℝ × (Dir → ℝ)), (∀ c ∈ cs, c ∈ centers) →
      (cs.map fun c => ∑ i ∈ Finset.range sh1.nprim, ∑ j ∈ Finset.range sh2.nprim,
        (termSize sh1 sh2 R c i j + S 900)).sum ≤ ((cs.length * (sh1.nprim * sh2.nprim) : ℕ) : ℝ) * T 906 ∧
      (cs.map fun c => ∑ i ∈ Finset.range sh1.nprim, ∑ j ∈ Finset.range sh2.nprim,
        (termSize sh1 sh2 R c i j + S 900)).sum =
        (cs.map fun c => ∑ i ∈ Finset.range sh1.nprim, ∑ j ∈ Finset.range sh2.nprim,
          termSize sh1 sh2 R c i j).sum + ((cs.length * (sh1.nprim * sh2.nprim) : ℕ) : ℝ) * S 900 := by
    intro cs hcs
    induction cs with
    | nil => simp
    | cons c cs ih =>
      have ih := ih fun c hc => hcs c (by simp [hc])
      have each : ∀ i ∈ Finset.range sh1.nprim, ∀ j ∈ Finset.range sh2.nprim,
          termSize sh1 sh2 R c i j + S 900 ≤ T 906 := fun i hi j hj =>
        add_T (termSize_bounds am1 am2 h (hcs c (by simp)) (Finset.mem_range.1 hi) (Finset.mem_range.1 hj)).2
          ((S_one _).trans (T_one 905)) le_rfl
      have s1 := Finset.sum_le_sum fun i hi => Finset.sum_le_sum (each i hi)
      have s2 : (∑ i ∈ Finset.range sh1.nprim, ∑ j ∈ Finset.range sh2.nprim, (termSize sh1 sh2 R c i j + S 900)) =
          (∑ i ∈ Finset.range sh1.nprim, ∑ j ∈ Finset.range sh2.nprim, termSize sh1 sh2 R c i j) +
            ((sh1.nprim * sh2.nprim : ℕ) : ℝ) * S 900 := by
        simp only [Finset.sum_add_distrib, Finset.sum_const, Finset.card_range, nsmul_eq_mul]
        push_cast; ring
      simp only [Finset.sum_const, Finset.card_range, nsmul_eq_mul] at s1
      rw [← mul_assoc, ← Nat.cast_mul] at s1
      simp only [List.map_cons, List.sum_cons, List.length_cons, Nat.add_mul, Nat.one_mul]
      rw [Nat.cast_add, add_mul, add_mul]
      exact ⟨by linarith [ih.1], by rw [ih.2, s2]; ring⟩
  obtain ⟨t1, t2⟩ := tot centers fun _ hc => hc
  have t3 : (centers.map fun c => ∑ i ∈ Finset.range sh1.nprim, ∑ j ∈ Finset.range sh2.nprim,
      (termSize sh1 sh2 R c i j + S 900)).sum ≤ T 1000 :=
    t1.trans (mul_T cnt le_rfl (T_pos _).le (by norm_num))
  have t4 : (centers.map fun c => ∑ i ∈ Finset.range sh1.nprim, ∑ j ∈ Finset.range sh2.nprim,
      (termSize sh1 sh2 R c i j + S 900)).sum ≤ potentialMax centers sh1 sh2 R := by
    rw [t2]
    have k1 := mul_le_mul_of_nonneg_right cnt (S_pos 900).le
    rw [T_S (show 19 ≤ 900 by norm_num)] at k1
    have k2 : S (900 - 19) ≤ S 200 := S_le (by norm_num)
    have e : potentialMax centers sh1 sh2 R = (centers.map fun c => ∑ i ∈ Finset.range sh1.nprim,
        ∑ j ∈ Finset.range sh2.nprim, termSize sh1 sh2 R c i j).sum + S 200 := rfl
    rw [e]
    linarith
  obtain ⟨w', out', e1, o1, o2, o3⟩ := centers_near hF am1 am2 h hk hboys (cs := centers) (fun _ hc => hc)
    (sz := integrals.size) (m := kb + 64 + 11 * (sh1.am + sh2.am)) (f0 := fun _ => 0) (g0 := 0) le_rfl
    (by norm_num at hk ⊢; omega) (by rw [zero_add]; exact t3) hsz (w := work0) (out := z) z1
    (fun k hk' => by rw [z2 k hk']; exact ⟨by simp, by simp⟩)
  rw [e1]
  refine ⟨out', rfl, o1, fun n m e1 e2 l1 l2 => ?_, fun k hk' => (o3 k hk').trans (z3 k hk')⟩
  obtain ⟨l1, i1⟩ := List.getElem?_eq_some_iff.1 l1
  obtain ⟨l2, i2⟩ := List.getElem?_eq_some_iff.1 l2
  have l2' := l2
  have l1' := l1
  rw [psi4_length] at l1' l2'
  have hlt := row_lt l1' l2'
  have A1 := o2 _ hlt
  have hd : (n * nc sh2.am + m) / nc sh2.am = n := by
    rw [Nat.mul_comm, Nat.mul_add_div (nc_pos _), Nat.div_eq_of_lt l2', Nat.add_zero]
  have hr : (n * nc sh2.am + m) % nc sh2.am = m := by
    rw [Nat.mul_comm, Nat.mul_add_mod, Nat.mod_eq_of_lt l2']
  simp only [hd, hr, compAt_get l1, compAt_get l2, i1, i2, zero_add] at A1
  rw [potentialInt_eq h.posA h.posB]
  exact A1.err.trans (mul_le_mul (γ_le (by norm_num at hk ⊢; omega)) t4 A1.nonneg (by positivity))

end

/-! ## With the Boys function of the code -/

section
variable {F : Arith} (hF : Sound F) {sh1 sh2 : Shell ℝ} {centers : List (ℝ × (Dir → ℝ))} {R : ℝ}
  (h : FieldIn sh1 sh2 centers R)
include hF h

/-- The computed arguments are close to the exact ones if exponents and distances are not both large. -/
theorem arg_close {i j : ℕ} (hi : i < sh1.nprim) (hj : j < sh2.nprim) {c : ℝ × (Dir → ℝ)} (hc : c ∈ centers)
    (hX : 3 * reach R ^ 2 * (sh1.alpha i + sh2.alpha j) ≤ 2 ^ 40) :
    0 ≤ potArg F (sh1.alpha i) sh1.pos (sh2.alpha j) sh2.pos c.2 ∧
    |potArg F (sh1.alpha i) sh1.pos (sh2.alpha j) sh2.pos c.2 -
      argOf (sh1.alpha i) sh1.pos (sh2.alpha j) sh2.pos c.2| ≤ 1 / 10 := by
  obtain ⟨x0, hx⟩ := arg_near hF (h.prim hi hj) h.apos h.bpos (h.cpos c hc)
  refine ⟨x0, hx.err.trans ?_⟩
  have g := γ_le (k := 19) (by norm_num)
  refine (mul_le_mul g (show _ ≤ (2 : ℝ) ^ 40 + 1 by linarith) hx.nonneg (by positivity)).trans ?_
  norm_num

/-- C93, arguments of the Boys function up to 36 and total angular momentum up to 24: 290 roundings
and 11 for each unit of angular momentum. -/
theorem C93_near (am1 : sh1.am ≤ 18) (am2 : sh2.am ≤ 18) (vec : Bool) {V : ℕ} (hV : 0 < V)
    (ham : sh1.am + sh2.am ≤ 24)
    (hX : ∀ i < sh1.nprim, ∀ j < sh2.nprim, 3 * reach R ^ 2 * (sh1.alpha i + sh2.alpha j) ≤ 2 ^ 40)
    (hT : ∀ c ∈ centers, ∀ i < sh1.nprim, ∀ j < sh2.nprim,
      argOf (sh1.alpha i) sh1.pos (sh2.alpha j) sh2.pos c.2 ≤ 36)
    (work0 : AmWork ℝ) (integrals : CBuf ℝ) (hsz : nc sh1.am * nc sh2.am ≤ integrals.size) :
    ∃ out, osoeiPotential F vec V centers sh1 sh2 work0 integrals = some out ∧ out.size = integrals.size ∧
      (∀ n m e1 e2, (psi4List sh1.am)[n]? = some e1 → (psi4List sh2.am)[m]? = some e2 →
        |out.val (n * nc sh2.am + m) - potentialInt centers sh1 sh2 e1 e2| ≤
          (290 + 11 * (sh1.am + sh2.am) + centers.length * (sh1.nprim * sh2.nprim) : ℕ) * (1 / 2 ^ 52) *
            potentialMax centers sh1 sh2 R) ∧
      ∀ k, nc sh1.am * nc sh2.am ≤ k → out.val k = integrals.val k := by
  refine C93_potential hF am1 am2 h (vec := vec) (V := V) (kb := 226) (by norm_num) ?_ work0 integrals hsz
  intro c hc i hi j hj n hn
  obtain ⟨x0, x1⟩ := arg_close hF h hi hj hc (hX i hi j hj)
  have x2 := (abs_le.1 x1).2
  have x3 := hT c hc i hi j hj
  obtain ⟨y, e, q⟩ := FlBoys.C83_near hF.toRounds vec (x := fun _ => potArg F (sh1.alpha i) sh1.pos (sh2.alpha j)
    sh2.pos c.2) hV x0 (by norm_num; linarith) ham hn
  exact ⟨y, e, q.trans (mul_le_mul_of_nonneg_right (FlPrim.γ_ge (by norm_num)) (boysF_nonneg _ _))⟩

/-- C93, total angular momentum up to 3: arguments of the Boys function up to `10^7`, whether they are
looked up in the table or not. -/
theorem C93_low (vec : Bool) {V : ℕ} (hV : 0 < V) (ham : sh1.am + sh2.am < 4)
    (hX : ∀ i < sh1.nprim, ∀ j < sh2.nprim, 3 * reach R ^ 2 * (sh1.alpha i + sh2.alpha j) ≤ 2 ^ 40)
    (hT : ∀ c ∈ centers, ∀ i < sh1.nprim, ∀ j < sh2.nprim,
      argOf (sh1.alpha i) sh1.pos (sh2.alpha j) sh2.pos c.2 ≤ 10 ^ 7)
    (work0 : AmWork ℝ) (integrals : CBuf ℝ) (hsz : nc sh1.am * nc sh2.am ≤ integrals.size) :
    ∃ out, osoeiPotential F vec V centers sh1 sh2 work0 integrals = some out ∧ out.size = integrals.size ∧
      (∀ n m e1 e2, (psi4List sh1.am)[n]? = some e1 → (psi4List sh2.am)[m]? = some e2 →
        |out.val (n * nc sh2.am + m) - potentialInt centers sh1 sh2 e1 e2| ≤
          (9974 + 11 * (sh1.am + sh2.am) + centers.length * (sh1.nprim * sh2.nprim) : ℕ) * (1 / 2 ^ 52) *
            potentialMax centers sh1 sh2 R) ∧
      ∀ k, nc sh1.am * nc sh2.am ≤ k → out.val k = integrals.val k := by
  refine C93_potential hF (by omega) (by omega) h (vec := vec) (V := V) (kb := 9910) (by norm_num) ?_ work0
    integrals hsz
  intro c hc i hi j hj n hn
  obtain ⟨x0, x1⟩ := arg_close hF h hi hj hc (hX i hi j hj)
  have x2 := (abs_le.1 x1).2
  have x3 := hT c hc i hi j hj
  have b := boysF_nonneg n (potArg F (sh1.alpha i) sh1.pos (sh2.alpha j) sh2.pos c.2)
  rcases lt_or_ge (potArg F (sh1.alpha i) sh1.pos (sh2.alpha j) sh2.pos c.2) 36.5 with x4 | x4
  · obtain ⟨y, e, q⟩ := FlBoys.C83_near hF.toRounds vec (x := fun _ => potArg F (sh1.alpha i) sh1.pos (sh2.alpha j)
      sh2.pos c.2) hV x0 x4 (by omega) hn
    exact ⟨y, e, q.trans (mul_le_mul_of_nonneg_right (FlPrim.γ_ge (by norm_num)) b)⟩
  · obtain ⟨y, e, q⟩ := FlBoys.C83_far_small hF.toRounds vec (x := fun _ => potArg F (sh1.alpha i) sh1.pos
      (sh2.alpha j) sh2.pos c.2) hV x4 (by norm_num at x3 ⊢; linarith) ham hn
    exact ⟨y, e, q.trans (mul_le_mul_of_nonneg_right (FlPrim.γ_ge (by norm_num)) b)⟩

end

/-! ## Concrete cases -/

/-- The shells of C49 and two charges are of moderate size. -/
theorem demo_in : FieldIn (demoV 1 0) (demoV 3 1) [(1, fun _ => 0), (8, fun _ => 2)] 2 where
  prims := by simp [demoV]
  alo := fun i _ => by
    simp only [demoV]
    have : (0 : ℝ) ≤ i := Nat.cast_nonneg i
    norm_num; linarith
  ahi := fun i hi => by
    simp only [demoV] at hi ⊢
    have : (i : ℝ) ≤ 2 := by exact_mod_cast hi.le
    norm_num; linarith
  blo := fun i _ => by
    simp only [demoV]
    have : (0 : ℝ) ≤ i := Nat.cast_nonneg i
    norm_num; linarith
  bhi := fun i hi => by
    simp only [demoV] at hi ⊢
    have : (i : ℝ) ≤ 2 := by exact_mod_cast hi.le
    norm_num; linarith
  apos := fun d => by simp [demoV]
  bpos := fun d => by simp [demoV]
  cpos := by
    intro c hc d
    simp only [List.mem_cons, List.not_mem_nil, or_false] at hc
    rcases hc with rfl | rfl <;> simp
  rhi := by norm_num
  acoef := fun i _ => by simp only [demoV]; norm_num
  bcoef := fun i _ => by simp only [demoV]; norm_num
  charge := by
    intro c hc
    simp only [List.mem_cons, List.not_mem_nil, or_false] at hc
    rcases hc with rfl | rfl <;> norm_num

/-- Doubles, with or without fused multiply and add, scalar or vector registers: 342 roundings. -/
example (fused vec : Bool) (work0 : AmWork ℝ) : ∃ out, osoeiPotential (ieee fused) vec 4
      [(1, fun _ => 0), (8, fun _ => 2)] (demoV 1 0) (demoV 3 1) work0 ⟨30, fun _ => 7⟩ = some out ∧
    |out.val (2 * 10 + 4) - potentialInt [(1, fun _ => 0), (8, fun _ => 2)] (demoV 1 0) (demoV 3 1)
      ⟨0, 0, 1⟩ ⟨1, 1, 1⟩| ≤ 342 * (1 / 2 ^ 52) *
        potentialMax [(1, fun _ => 0), (8, fun _ => 2)] (demoV 1 0) (demoV 3 1) 2 := by
  obtain ⟨out, e, -, h, -⟩ := C93_near (sound_ieee fused) demo_in (show 1 ≤ 18 by norm_num) (show 3 ≤ 18 by norm_num) vec (V := 4)
    (by norm_num)
    (show 1 + 3 ≤ 24 by norm_num)
    (fun i hi j hj => by
      simp only [demoV] at hi hj ⊢
      have h1 : (i : ℝ) ≤ 2 := by exact_mod_cast hi.le
      have h2 : (j : ℝ) ≤ 2 := by exact_mod_cast hj.le
      have h3 : (2 * 2 + 1 / 2 ^ 20 : ℝ) ^ 2 ≤ 25 := by norm_num
      have h4 : 0 ≤ (i : ℝ) + 1 + (j + 1) := by positivity
      unfold reach
      nlinarith)
    (fun c hc i hi j hj => by
      simp only [demoV] at hi hj ⊢
      have hi' : i = 0 ∨ i = 1 := by omega
      have hj' : j = 0 ∨ j = 1 := by omega
      simp only [List.mem_cons, List.not_mem_nil, or_false] at hc
      unfold argOf dist2
      rcases hc with rfl | rfl <;> rcases hi' with rfl | rfl <;> rcases hj' with rfl | rfl <;> norm_num)
    work0 ⟨30, fun _ => 7⟩ (show nc 1 * nc 3 ≤ 30 by decide)
  have b := h 2 4 ⟨0, 0, 1⟩ ⟨1, 1, 1⟩ (show (psi4List 1)[2]? = _ by decide)
    (show (psi4List 3)[4]? = _ by decide)
  rw [show ((290 + 11 * ((demoV 1 0).am + (demoV 3 1).am) + [((1 : ℝ), fun _ : Dir => (0 : ℝ)),
    (8, fun _ => 2)].length * ((demoV 1 0).nprim * (demoV 3 1).nprim) : ℕ) : ℝ) = 342 by
    norm_num [demoV]] at b
  exact ⟨out, e, b⟩

end Simint.FlPot
