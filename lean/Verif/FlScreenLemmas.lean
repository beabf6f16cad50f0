import Verif.Spec.FlScreen
import Verif.Props.FlShells
import Verif.Props.Screen

/-! Lemmas for C100: rounded comparisons, the maximum of a list, the primitives that are left out. -/

set_option autoImplicit false

open Finset

namespace Simint

open FlBoys (Arith ieee u η)
open FlPrim (shOps)

/-! ### Comparisons -/

theorem η_small : 4 * η ≤ 1 / 2 ^ 1000 := by
  have h0 : (0 : ℝ) ≤ 1 / 2 ^ 1000 := by positivity
  have e : η = 1 / 2 ^ 1000 * (1 / 2 ^ 75) := by
    unfold η
    rw [show (1075 : ℕ) = 1000 + 75 from rfl, pow_add]
    ring
  have h1 : (1 : ℝ) / 2 ^ 75 ≤ 1 / 4 := by norm_num
  have := mul_le_mul_of_nonneg_left h1 h0
  rw [← e] at this
  linarith

theorem below_tol {F : Arith} (hF : Sound F) {x t : ℝ} (h0 : 0 ≤ x) (hx : x ≤ 2 ^ 1023) (ht : |t| ≤ 2 ^ 500)
    (h : F.fl x < F.fl (t * t)) : x ≤ tolSq t := by
  have h1 := hF.fl x (by rwa [abs_of_nonneg h0])
  rw [abs_of_nonneg h0] at h1
  have ht2 : |t * t| ≤ 2 ^ 1023 := by
    rw [abs_mul]
    refine (mul_le_mul ht ht (abs_nonneg _) (by positivity)).trans ?_
    rw [← pow_add]
    exact pow_le_pow_right₀ (by norm_num) (by norm_num)
  have h2 := hF.fl (t * t) ht2
  rw [abs_of_nonneg (mul_self_nonneg t)] at h2
  have a1 := (abs_le.1 h1).1
  have a2 := (abs_le.1 h2).2
  have h3 := η_small
  have hη := FlBoys.η_pos
  unfold tolSq
  set E : ℝ := 1 / 2 ^ 1000
  have hs : 0 ≤ t ^ 2 := sq_nonneg t
  have hu : u = 1 / 2 ^ 53 := rfl
  rw [hu] at a1 a2
  have e : t * t = t ^ 2 := (sq t).symm
  rw [e] at a2 h
  nlinarith

/-! ### The maximum -/

section
variable (sh : ShCfg) (hsc : sh.screening = true) (ops : ShOps ℝ) (val : Shell ℝ → Shell ℝ → ℕ → ℕ → ℝ) (big : ℝ)
  (ps : List (Shell ℝ × Shell ℝ))
include hsc

theorem max_ge {s : ℕ} (hs : s < ps.length) {p : ℕ × ℕ} (hp : p ∈ primOrder ps[s].1 ps[s].2) :
    val ps[s].1 ps[s].2 p.1 p.2 ≤ (fillPairs sh ops (fastSchwarz val) big ps).screenMax := by
  obtain ⟨-, h2⟩ := fill_screenMax sh ops (fastSchwarz val) hsc big ps ps.length le_rfl
  rw [fillAfter_length] at h2
  refine le_trans ?_ (h2 s hs hs)
  exact (foldl_max (fun q : ℕ × ℕ => val ps[s].1 ps[s].2 q.1 q.2) _ 0).2 p hp

theorem max_big : big ≤ (fillPairs sh ops (fastSchwarz val) big ps).screenMax := by
  obtain ⟨h1, -⟩ := fill_screenMax sh ops (fastSchwarz val) hsc big ps ps.length le_rfl
  rwa [fillAfter_length] at h1

theorem max_le {V : ℝ} (hV : 0 ≤ V) (hb : big ≤ V) (hv : ∀ p ∈ ps, ∀ i < p.1.nprim, ∀ j < p.2.nprim,
    val p.1 p.2 i j ≤ V) : (fillPairs sh ops (fastSchwarz val) big ps).screenMax ≤ V := by
  have fold : ∀ (l : List (ℕ × ℕ)) (f : ℕ × ℕ → ℝ) (m : ℝ), m ≤ V → (∀ p ∈ l, f p ≤ V) →
      l.foldl (fun m p => if f p > m then f p else m) m ≤ V := by
    intro l f
    induction l with
    | nil => intro m hm _; exact hm
    | cons q l ih =>
      intro m hm hl
      rw [List.foldl_cons]
      refine ih _ ?_ fun p hp => hl p (List.mem_cons_of_mem _ hp)
      split
      · exact hl q List.mem_cons_self
      · exact hm
  have key : ∀ s ≤ ps.length, (fillAfter sh ops (fastSchwarz val) big ps s).screenMax ≤ V := by
    intro s
    induction s with
    | zero => intro _; exact hb
    | succ s ih =>
      intro h
      rw [fillAfter_succ sh ops (fastSchwarz val) big ps (by omega)]
      have e : (fillStep sh ops (fastSchwarz val) ps.length (fillAfter sh ops (fastSchwarz val) big ps s)
          ps[s]).screenMax =
          if (fastSchwarz val ps[s].1 ps[s].2).2 > (fillAfter sh ops (fastSchwarz val) big ps s).screenMax then
            (fastSchwarz val ps[s].1 ps[s].2).2
          else (fillAfter sh ops (fastSchwarz val) big ps s).screenMax := by
        unfold fillStep; simp only; rw [if_pos hsc]
      rw [e]
      split
      · refine fold _ (fun q => val ps[s].1 ps[s].2 q.1 q.2) 0 hV fun p hp => ?_
        obtain ⟨h1, h2, -⟩ := (mem_primOrder _ _ _ _).1 hp
        exact hv _ (List.getElem_mem _) _ h1 _ h2
      · exact ih (by omega)
  have := key ps.length le_rfl
  rwa [fillAfter_length] at this

end

/-! ### Primitives that are left out -/

theorem mult_nonneg (A B : Shell ℝ) (i j : ℕ) : 0 ≤ FlPrim.mult A B i j := by
  unfold FlPrim.mult; split <;> norm_num

/-- One of them. -/
theorem drop_one {A B C D : Shell ℝ} {i j k l : ℕ} (hA : 0 < A.alpha i) (hB : 0 < B.alpha j) (hC : 0 < C.alpha k)
    (hD : 0 < D.alpha l) {x y z w : Exp} {v v' m e t V : ℝ} (h1 : primSelf A B i j x y ≤ m * v + e)
    (h2 : primSelf C D k l z w ≤ m * v' + e) (h3 : v * v' ≤ tolSq t) (hm0 : 0 ≤ m) (he : 0 ≤ e) (hv : v ≤ V) (hv' : v' ≤ V) :
    |FlPrim.coefs A B C D i j k l * coulomb (A.alpha i) (B.alpha j) (C.alpha k) (D.alpha l) A.pos B.pos C.pos D.pos
      x y z w| ≤ FlPrim.mult A B i j * FlPrim.mult C D k l * dropMax m t e V := by
  have hm := mult_nonneg A B i j
  have hn := mult_nonneg C D k l
  have hs := coulomb_schwarz hA hB hC hD A.pos B.pos C.pos D.pos x y z w
  have n1 : 0 ≤ primSelf A B i j x y := mul_nonneg (sq_nonneg _) (coulomb_self_nonneg hA hB _ _ _ _)
  have n2 : 0 ≤ primSelf C D k l z w := mul_nonneg (sq_nonneg _) (coulomb_self_nonneg hC hD _ _ _ _)
  have hp : primSelf A B i j x y * primSelf C D k l z w ≤ m ^ 2 * tolSq t + 2 * m * e * V + e ^ 2 := by
    refine (mul_le_mul h1 h2 n2 (n1.trans h1)).trans ?_
    have a1 := mul_le_mul_of_nonneg_left h3 (sq_nonneg m)
    have a2 := mul_le_mul_of_nonneg_left hv (mul_nonneg hm0 he)
    have a3 := mul_le_mul_of_nonneg_left hv' (mul_nonneg hm0 he)
    linarith
  have hsq : (A.coef i * B.coef j * (C.coef k * D.coef l) *
      coulomb (A.alpha i) (B.alpha j) (C.alpha k) (D.alpha l) A.pos B.pos C.pos D.pos x y z w) ^ 2 ≤
      m ^ 2 * tolSq t + 2 * m * e * V + e ^ 2 := by
    refine le_trans ?_ hp
    unfold primSelf
    calc _ = (A.coef i * B.coef j) ^ 2 * (C.coef k * D.coef l) ^ 2 *
          coulomb (A.alpha i) (B.alpha j) (C.alpha k) (D.alpha l) A.pos B.pos C.pos D.pos x y z w ^ 2 := by ring
      _ ≤ (A.coef i * B.coef j) ^ 2 * (C.coef k * D.coef l) ^ 2 * _ :=
          mul_le_mul_of_nonneg_left hs (by positivity)
      _ = _ := by ring
  have h := Real.abs_le_sqrt hsq
  have e1 : FlPrim.coefs A B C D i j k l * coulomb (A.alpha i) (B.alpha j) (C.alpha k) (D.alpha l) A.pos B.pos C.pos
      D.pos x y z w = FlPrim.mult A B i j * FlPrim.mult C D k l * (A.coef i * B.coef j * (C.coef k * D.coef l) *
      coulomb (A.alpha i) (B.alpha j) (C.alpha k) (D.alpha l) A.pos B.pos C.pos D.pos x y z w) := by
    unfold FlPrim.coefs; ring
  rw [e1, abs_mul, abs_of_nonneg (mul_nonneg hm hn)]
  exact mul_le_mul_of_nonneg_left h (mul_nonneg hm hn)

section
variable {F : Arith} {len : ℕ} {c : Call ℝ} {psP psQ : List (Shell ℝ × Shell ℝ)} {S T : ℕ → PairData} {R : ℝ}

open Classical in
/-- All of them: a bound for each adds up to the bound times the number of quartets. -/
theorem drop_all (hP : FilledWith F len c.P psP S R) (hQ : FilledWith F len c.Q psQ T R) {ab cd : ℕ}
    (hab : ab < psP.length) (hcd : cd < psQ.length) (fP : Faithful psP[ab].1 psP[ab].2)
    (fQ : Faithful psQ[cd].1 psQ[cd].2) (x y z w : Exp) {D : ℝ} (hD : 0 ≤ D) (keep : ℕ → ℕ → Prop)
    (h : ∀ k < c.P.nprim12 ab, ∀ l < c.Q.nprim12 cd, ¬ keep k l → |exactPrim S T ab cd k l x y z w| ≤
        FlPrim.mult psP[ab].1 psP[ab].2 ((S ab).prim k).1 ((S ab).prim k).2 *
          FlPrim.mult psQ[cd].1 psQ[cd].2 ((T cd).prim l).1 ((T cd).prim l).2 * D) :
    |(∑ k ∈ range (c.P.nprim12 ab), ∑ l ∈ range (c.Q.nprim12 cd),
        if keep k l then exactPrim S T ab cd k l x y z w else 0) -
      shellERI psP[ab].1 psP[ab].2 psQ[cd].1 psQ[cd].2 x y z w| ≤
      (psP[ab].1.nprim * psP[ab].2.nprim) * (psQ[cd].1.nprim * psQ[cd].2.nprim) * D := by
  let c0 : Call ℝ := { c with tol := 0 }
  have t0 : c0.tol ≤ 0 := le_rfl
  rw [← exactERI_shells (c := c0) t0 hP hQ hab hcd fP fQ]
  have hsum := overKept_shells (c := c0) t0 hP hQ hab hcd fun p q =>
    FlPrim.mult psP[ab].1 psP[ab].2 p.1 p.2 * FlPrim.mult psQ[cd].1 psQ[cd].2 q.1 q.2 * D
  have hk : ∀ i j, c0.KeptFl F i j := fun i j => ⟨fun h => absurd h.1 (lt_irrefl _), fun h => absurd h.1 (lt_irrefl _)⟩
  have hcount : overStored psP[ab].1 psP[ab].2 psQ[cd].1 psQ[cd].2 (fun i j k l =>
      FlPrim.mult psP[ab].1 psP[ab].2 i j * FlPrim.mult psQ[cd].1 psQ[cd].2 k l * D) =
      (psP[ab].1.nprim * psP[ab].2.nprim) * (psQ[cd].1.nprim * psQ[cd].2.nprim) * D := by
    unfold overStored
    have hin : ∀ i j, (∑ k ∈ range psQ[cd].1.nprim, ∑ l ∈ range psQ[cd].2.nprim,
        if StoredPrims psQ[cd].1 psQ[cd].2 k l then FlPrim.mult psP[ab].1 psP[ab].2 i j *
          FlPrim.mult psQ[cd].1 psQ[cd].2 k l * D else 0) =
        FlPrim.mult psP[ab].1 psP[ab].2 i j * (psQ[cd].1.nprim * psQ[cd].2.nprim * D) := by
      intro i j
      have := folded_sum (A := psQ[cd].1) (B := psQ[cd].2) (fun _ _ => FlPrim.mult psP[ab].1 psP[ab].2 i j * D)
        fun _ _ _ _ _ => rfl
      simp only [sum_const, card_range, nsmul_eq_mul] at this
      rw [show FlPrim.mult psP[ab].1 psP[ab].2 i j * (psQ[cd].1.nprim * psQ[cd].2.nprim * D) =
        psQ[cd].1.nprim * (psQ[cd].2.nprim * (FlPrim.mult psP[ab].1 psP[ab].2 i j * D)) by ring, ← this]
      refine sum_congr rfl fun k _ => sum_congr rfl fun l _ => ?_
      split_ifs
      · ring
      · rfl
    simp only [hin]
    rw [folded_sum (fun _ _ => (psQ[cd].1.nprim * psQ[cd].2.nprim * D : ℝ)) fun _ _ _ _ _ => rfl]
    simp only [sum_const, card_range, nsmul_eq_mul]
    ring
  rw [← hcount, ← hsum]
  unfold exactERI overKept
  rw [← sum_sub_distrib]
  refine (abs_sum_le_sum_abs _ _).trans (sum_le_sum fun k hk' => ?_)
  rw [← sum_sub_distrib]
  refine (abs_sum_le_sum_abs _ _).trans (sum_le_sum fun l hl' => ?_)
  rw [mem_range] at hk' hl'
  rw [if_pos (hk _ _), if_pos (hk _ _)]
  by_cases hkept : keep k l
  · rw [if_pos hkept, sub_self, abs_zero]
    exact mul_nonneg (mul_nonneg (mult_nonneg _ _ _ _) (mult_nonneg _ _ _ _)) hD
  · rw [if_neg hkept, zero_sub, abs_neg]
    exact h k hk' l hl' hkept

theorem primSize_nonneg (hF : Sound F) {ab cd k l : ℕ}
    (hP : PairMod (S ab).A (S ab).B ((S ab).prim k).1 ((S ab).prim k).2 R)
    (hQ : PairMod (T cd).A (T cd).B ((T cd).prim l).1 ((T cd).prim l).2 R) {n : ℕ} :
    0 ≤ primSize S T R ab cd n k l := by
  have h0 := FlPrim.startMax_low hF hP.pairIn hQ.pairIn
  obtain ⟨D0, D1⟩ := hP.diff_le
  obtain ⟨p0, p1⟩ := hP.inv
  have hκ := κ_pos
  unfold primSize VRRRound.growth
  refine mul_nonneg ((by positivity : (0 : ℝ) ≤ 11 / 2 ^ 1022).trans h0) (prod_nonneg fun j _ => ?_)
  have h1 : 0 ≤ FlPrim.stepMax R := by unfold FlPrim.stepMax; linarith
  have h2 : 0 ≤ FlPrim.lowMax ((S ab).A.alpha ((S ab).prim k).1 + (S ab).B.alpha ((S ab).prim k).2)
      ((T cd).A.alpha ((T cd).prim l).1 + (T cd).B.alpha ((T cd).prim l).2) := by
    unfold FlPrim.lowMax
    have := le_max_left (1 / 2 * (1 / ((S ab).A.alpha ((S ab).prim k).1 + (S ab).B.alpha ((S ab).prim k).2)))
      (1 / 2 * (1 / ((T cd).A.alpha ((T cd).prim l).1 + (T cd).B.alpha ((T cd).prim l).2)))
    linarith
  positivity

/-- Leaving out primitives does not increase what errors are measured with. -/
theorem sizeMax_le_shells (hP : FilledWith F len c.P psP S R)
    (hQ : FilledWith F len c.Q psQ T R) {ab cd : ℕ} (hab : ab < psP.length) (hcd : cd < psQ.length) (n : ℕ)
    (hF : Sound F) :
    sizeMax F c S T R ab cd n ≤ shellSize psP[ab].1 psP[ab].2 psQ[cd].1 psQ[cd].2 R n := by
  classical
  let c0 : Call ℝ := { c with tol := 0 }
  rw [← sizeMax_shells (c := c0) le_rfl hP hQ hab hcd]
  have hk : ∀ i j, c0.KeptFl F i j := fun i j => ⟨fun h => absurd h.1 (lt_irrefl _), fun h => absurd h.1 (lt_irrefl _)⟩
  unfold sizeMax
  refine add_le_add (sum_le_sum fun k hk' => sum_le_sum fun l hl' => ?_) le_rfl
  rw [mem_range] at hk' hl'
  rw [if_pos (hk _ _)]
  split_ifs
  · exact le_rfl
  · have hab' : ab < c.P.nclip := by rw [hP.nclip]; exact hab
    have hcd' : cd < c.Q.nclip := by rw [hQ.nclip]; exact hcd
    exact primSize_nonneg hF (hP.mods ab hab' k hk') (hQ.mods cd hcd' l hl')

end

/-! ### Values of pairs of primitives -/

theorem oneShell_moderate {A : Shell ℝ} {R : ℝ} (h : A.Moderate R) (ptr : ℕ) {i : ℕ} (hi : i < A.nprim) :
    (oneShell ptr A i).Moderate R :=
  ⟨Nat.one_pos, fun _ _ => h.lo i hi, fun _ _ => h.hi i hi, fun _ _ => h.coef i hi, h.pos, h.double⟩

/-- The addresses do not matter as long as they differ. -/
theorem shellSize_one {p q : ℕ} (h : p ≠ q) (A B : Shell ℝ) (i j : ℕ) (R : ℝ) (n : ℕ) :
    shellSize (oneShell p A i) (oneShell q B j) (oneShell p A i) (oneShell q B j) R n =
      shellSize (oneShell 0 A i) (oneShell 1 B j) (oneShell 0 A i) (oneShell 1 B j) R n := by
  have e1 : sameShell (oneShell p A i) (oneShell q B j) = false := by simp [sameShell, oneShell, h]
  have e2 : sameShell (oneShell 0 A i) (oneShell 1 B j) = false := by simp [sameShell, oneShell]
  unfold shellSize overStored StoredPrims FlPrim.startMax FlPrim.factorMax FlPrim.mult
  rw [e1, e2]
  rfl

theorem pairPrims_one {p q : ℕ} (h : p ≠ q) (A B : Shell ℝ) (i j : ℕ) :
    pairPrims (oneShell p A i) (oneShell q B j) = 1 := by
  have e1 : sameShell (oneShell p A i) (oneShell q B j) = false := by simp [sameShell, oneShell, h]
  unfold pairPrims
  rw [e1]
  rfl

/-- A computed value: it bounds the integrals up to the error of the computed ones, and is not above all of them
by more. -/
theorem flPrimVal_spec (fused : Bool) (b : Build) {g : GenCfg} (hg : g.OK) (sh : ShCfg) (hl : 0 < sh.len)
    (big : ℝ) (w : FlScrMem (ieee fused)) (hw : w.ptrA ≠ w.ptrB) (hod : ∀ k, IsDouble (ieee fused) (w.out k).val)
    {A B : Shell ℝ} {R : ℝ} (hR0 : 0 ≤ R) (hR : R ≤ 2 ^ 10) (hA : A.Moderate R) (hB : B.Moderate R)
    (ham : A.am + B.am ≤ 12) {i j : ℕ} (hi : i < A.nprim) (hj : j < B.nprim)
    (hx : ArgsBelow (oneShell 0 A i) (oneShell 1 B j) (oneShell 0 A i) (oneShell 1 B j) R 36.5) :
    ∃ v, flPrimVal (ieee fused) b g sh big w A B i j = some v ∧ 0 ≤ v ∧
      (∀ x y, IsComp A.am x → IsComp B.am y → primSelf A B i j x y ≤ v + selfErr A B R i j) ∧
      ∃ x y, IsComp A.am x ∧ IsComp B.am y ∧ v ≤ primSelf A B i j x y + selfErr A B R i j := by
  have hmod : PairsModerate [(oneShell w.ptrA A i, oneShell w.ptrB B j)] R := by
    intro p hp
    rw [List.mem_singleton] at hp
    subst hp
    exact ⟨oneShell_moderate hA _ hi, oneShell_moderate hB _ hj, oneShell_faithful hw A B i j⟩
  have hf : ClassOK ⟨A.am, B.am, A.am, B.am, ""⟩ :=
    ⟨by unfold QAM.Valid; simp only; omega, rfl, by simp only; omega, by simp only; omega⟩
  have hL : totalL ⟨A.am, B.am, A.am, B.am, ""⟩ = 2 * (A.am + B.am) := by unfold totalL; simp only; omega
  have htol : (ieee fused).fl ((0 : ℝ) * 0) ≤ 0 := (C87_ieee fused).1.nonpos _ (by norm_num)
  have hN : scrNcart A * scrNcart B * (scrNcart A * scrNcart B) = ncartQ ⟨A.am, B.am, A.am, B.am, ""⟩ := by
    rw [scrNcart_eq, scrNcart_eq]; rfl
  obtain ⟨P, Q, o, eP, eQ, r, h1, -⟩ := C89_shells fused b hg hf (by omega) { sh with screening := false } hl noScreen
    (fun _ _ _ _ => 0) (fun h => absurd h (by simp)) big [(oneShell w.ptrA A i, oneShell w.ptrB B j)]
    [(oneShell w.ptrA A i, oneShell w.ptrB B j)] hR0 hR hmod hmod
    (batchesFull_one (by rw [List.length_singleton]; simp only; omega))
    (fun p hp q hq => by
      rw [List.mem_singleton] at hp hq
      subst hp hq
      simp only
      rw [pairPrims_one hw]; norm_num)
    (fun p hp q hq => by
      rw [List.mem_singleton] at hp hq
      subst hp hq
      exact hx) w.buf w.buf _ htol
    (scrNcart A * scrNcart B * (scrNcart A * scrNcart B) + 8)
    (by rw [List.length_singleton, hN]; omega) w.junk w.scratch w.hmem w.out hod
  rw [eP] at eQ
  obtain rfl := Option.some.inj eQ
  have key : ∀ x y, IsComp A.am x → IsComp B.am y →
      |(o (cidx psi4List x * ncart B.am * ncart A.am * ncart B.am + cidx psi4List x * ncart B.am +
        cidx psi4List y * ncart A.am * ncart B.am + cidx psi4List y)).val - primSelf A B i j x y| ≤
      selfErr A B R i j := by
    intro x y hx hy
    have h := h1 0 Nat.one_pos 0 Nat.one_pos x y x y hx.valid hy.valid hx.valid hy.valid hx.am_eq hy.am_eq hx.am_eq
      hy.am_eq
    simp only [List.getElem_cons_zero, zero_mul, zero_add] at h
    rw [shellERI_one, diag_index hx.am_eq hy.am_eq, pairPrims_one hw, hL, shellSize_one hw] at h
    have en : (min (A.am : ℤ) B.am + min (A.am : ℤ) B.am).toNat = 2 * min A.am B.am := by omega
    rw [en] at h
    have es : primSelf A B i j x y = A.coef i * B.coef j * (A.coef i * B.coef j) *
        coulomb (A.alpha i) (B.alpha j) (A.alpha i) (B.alpha j) A.pos B.pos A.pos B.pos x y x y := by
      unfold primSelf; ring
    rw [es]
    refine h.trans (le_of_eq ?_)
    unfold selfErr
    congr 3
    omega
  have hnn : ∀ x y, 0 ≤ primSelf A B i j x y := fun x y => mul_nonneg (sq_nonneg _)
    (coulomb_self_nonneg (lt_of_lt_of_le (by norm_num) (hA.lo i hi)) (lt_of_lt_of_le (by norm_num) (hB.lo j hj)) _ _ _ _)
  have hcall : flPrimVal (ieee fused) b g sh big w A B i j = some (maxLoop ((List.range (scrNcart A)).flatMap fun m =>
      (List.range (scrNcart B)).map fun n =>
      |(o (m * scrNcart B * scrNcart A * scrNcart B + m * scrNcart B + n * scrNcart A * scrNcart B + n)).val|)) := by
    unfold flPrimVal
    rw [eP, Option.bind_some]
    unfold flOstei
    rw [if_neg fun h => lt_irrefl _ h.1]
    show ((flFunction (ieee fused) b g _ _ _ _).map _).map _ = _
    rw [r]
    rfl
  set l := (List.range (scrNcart A)).flatMap fun m => (List.range (scrNcart B)).map fun n =>
      |(o (m * scrNcart B * scrNcart A * scrNcart B + m * scrNcart B + n * scrNcart A * scrNcart B + n)).val| with hldef
  refine ⟨_, hcall, maxLoop_nonneg _, ?_, ?_⟩
  · intro x y hx hy
    have hk := key x y hx hy
    have hm : |(o (cidx psi4List x * ncart B.am * ncart A.am * ncart B.am + cidx psi4List x * ncart B.am +
        cidx psi4List y * ncart A.am * ncart B.am + cidx psi4List y)).val| ∈ l := by
      refine List.mem_flatMap.2 ⟨cidx psi4List x, ?_, List.mem_map.2 ⟨cidx psi4List y, ?_, ?_⟩⟩
      · have := psi4_ordOK.cidx_lt hx.valid
        rw [hx.am_eq] at this
        rw [List.mem_range, scrNcart_eq]
        exact this
      · have := psi4_ordOK.cidx_lt hy.valid
        rw [hy.am_eq] at this
        rw [List.mem_range, scrNcart_eq]
        exact this
      · rw [scrNcart_eq, scrNcart_eq]
    have h3 := maxLoop_ge hm
    have h4 := (abs_le.1 hk).1
    have h5 := le_abs_self (o (cidx psi4List x * ncart B.am * ncart A.am * ncart B.am + cidx psi4List x * ncart B.am +
        cidx psi4List y * ncart A.am * ncart B.am + cidx psi4List y)).val
    linarith
  · have hmem : ∀ v ∈ l, ∃ x y, IsComp A.am x ∧ IsComp B.am y ∧ v ≤ primSelf A B i j x y + selfErr A B R i j := by
      intro v hv
      rw [hldef, List.mem_flatMap] at hv
      obtain ⟨m, hm, hv⟩ := hv
      obtain ⟨n, hn, rfl⟩ := List.mem_map.1 hv
      rw [List.mem_range, scrNcart_eq] at hm hn
      obtain ⟨x, hx, ex, -⟩ := psi4_ordOK.cidx_surj A.am hm
      obtain ⟨y, hy, ey, -⟩ := psi4_ordOK.cidx_surj B.am hn
      refine ⟨x, y, hx, hy, ?_⟩
      have hk := key x y hx hy
      rw [scrNcart_eq, scrNcart_eq, ← ex, ← ey]
      have h0 := hnn x y
      obtain ⟨k1, k2⟩ := abs_le.1 hk
      exact abs_le.2 ⟨by linarith, by linarith⟩
    rcases maxLoop_mem l with h | h
    · refine ⟨⟨A.am, 0, 0⟩, ⟨B.am, 0, 0⟩, ⟨by simp, le_rfl, le_rfl, by simp⟩, ⟨by simp, le_rfl, le_rfl, by simp⟩, ?_⟩
      rw [h]
      have hk := (abs_nonneg _).trans (key ⟨A.am, 0, 0⟩ ⟨B.am, 0, 0⟩ ⟨by simp, le_rfl, le_rfl, by simp⟩
        ⟨by simp, le_rfl, le_rfl, by simp⟩)
      exact add_nonneg (hnn _ _) hk
    · exact hmem _ h

end Simint
