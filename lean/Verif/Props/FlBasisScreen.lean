import Verif.Spec.FlBasisScreen
import Verif.Props.FlSsss
import Verif.Props.SsssDelayedScreen

/-!
# C105: from basis sets to screened (ss|ss) integrals on doubles
-/

set_option autoImplicit false

open Real

namespace Simint

open FlBoys (ieee rn)
open FlPrim (shOps)
open FlFast (s0 value)
open FlBasis

theorem shellSize_nonneg {A B C D : Shell ℝ} (hA : A.Pos) (hB : B.Pos) (hC : C.Pos) (hD : D.Pos) {R : ℝ} (hR : 0 ≤ R)
    (n : ℕ) : 0 ≤ shellSize A B C D R n := by
  have c : ∀ x : ℝ, |x| ≤ 9 / 8 * |x| := fun x => by linarith [abs_nonneg x]
  have := size_near (a' := A.coef) (b' := B.coef) (c' := C.coef) (d' := D.coef) hA hB hC hD (fun _ _ => c _)
    (fun _ _ => c _) (fun _ _ => c _) (fun _ _ => c _) hR n
  change shellSize A B C D R n ≤ _ at this
  linarith

/-- Split an error. -/
theorem clamp {v E a d : ℝ} (ha : 0 ≤ a) (hd : 0 ≤ d) (h : |v - E| ≤ a + d) : ∃ v', |v - v'| ≤ d ∧ |v' - E| ≤ a := by
  rw [abs_le] at h
  by_cases h1 : a < v - E
  · exact ⟨E + a, by rw [abs_le]; constructor <;> linarith, by rw [abs_le]; constructor <;> linarith⟩
  by_cases h2 : v - E < -a
  · exact ⟨E - a, by rw [abs_le]; constructor <;> linarith, by rw [abs_le]; constructor <;> linarith⟩
  exact ⟨v, by simpa using hd, by rw [abs_le]; constructor <;> linarith⟩

section
variable {G G' : List (Shell ℝ)} {K : ℕ} {R : ℝ} (hG : BasisIn G K R)
variable (h : ∀ i < G.length, ∃ c, shellAt G' i = withCoef (shellAt G i) c ∧ ∀ j < (shellAt G i).nprim,
        |c j - (normedShell (shellAt G i)).coef j| ≤
          γ (normRound (shellAt G i) K) * |(normedShell (shellAt G i)).coef j|)
include hG h

theorem drop_finish {kb : ℕ} {p q : ℕ × ℕ} (hp : p.1 < G.length ∧ p.2 < G.length)
    (hq : q.1 < G.length ∧ q.2 < G.length) (hR : 0 ≤ R) {v d : ℝ} (hd : 0 ≤ d)
    (hv : |v - shellERI (shellAt G' p.1) (shellAt G' p.2) (shellAt G' q.1) (shellAt G' q.2) s0 s0 s0 s0| ≤
      errCount kb ssss (pairPrims (shellAt G' p.1) (shellAt G' p.2) * pairPrims (shellAt G' q.1) (shellAt G' q.2)) *
        (1 / 2 ^ 52) * shellSize (shellAt G' p.1) (shellAt G' p.2) (shellAt G' q.1) (shellAt G' q.2) R 0 +
      quartets (shellAt G' p.1) (shellAt G' p.2) (shellAt G' q.1) (shellAt G' q.2) * d) :
    DropError G K R kb p q v
      (quartets (shellAt G p.1) (shellAt G p.2) (shellAt G q.1) (shellAt G q.2) * d) := by
  have pos : ∀ {i}, i < G.length → (shellAt G' i).Pos := fun {i} hi j hj =>
    lt_of_lt_of_le (by norm_num) ((moderate hG h hi).lo j hj)
  have s := shellSize_nonneg (pos hp.1) (pos hp.2) (pos hq.1) (pos hq.2) hR 0
  have np : ∀ {i}, i < G.length → (shellAt G' i).nprim = (shellAt G i).nprim := fun {i} hi => by
    obtain ⟨c, e, -⟩ := h i hi
    rw [e]
    rfl
  obtain ⟨v', h1, h2⟩ := clamp (by positivity)
    (mul_nonneg (by unfold quartets; positivity) hd) hv
  refine ⟨v', ?_, finish hG h hp hq hR ?_⟩
  · unfold quartets at h1 ⊢
    rw [np hp.1, np hp.2, np hq.1, np hq.2] at h1
    exact h1
  · rw [show (min ssss.a ssss.b + min ssss.c ssss.d).toNat = 0 from rfl, pow_zero, mul_one,
      show totalL ssss = 0 from rfl]
    exact h2

theorem fast_transport {prs : List (ℕ × ℕ)} (hp : InArray prs G.length) {V : ℝ} (hV : FastBelow G prs V) :
    ∀ p ∈ pairsAt G' prs, ∀ i < p.1.nprim, ∀ j < p.2.nprim, fastVal p.1 p.2 i j ≤ 2 * V := by
  intro p hp' i hi j hj
  obtain ⟨q, hq, rfl⟩ := List.mem_map.1 hp'
  obtain ⟨c1, e1, -⟩ := h _ (hp q hq).1
  obtain ⟨c2, e2, -⟩ := h _ (hp q hq).2
  dsimp only at hi hj ⊢
  rw [e1] at hi ⊢
  rw [e2] at hj ⊢
  have a1 := coef_le hG h (hp q hq).1 e1 hi
  have a2 := coef_le hG h (hp q hq).2 e2 hj
  have hv := hV q hq i hi j hj
  refine le_trans ?_ (mul_le_mul_of_nonneg_left hv zero_le_two)
  have sq : ∀ {x y : ℝ}, |x| ≤ 9 / 8 * |y| → x * x ≤ 81 / 64 * (y * y) := fun {x y} hh => by
    have := mul_self_le_mul_self (abs_nonneg x) hh
    rw [abs_mul_abs_self] at this
    have e : 9 / 8 * |y| * (9 / 8 * |y|) = 81 / 64 * (|y| * |y|) := by ring
    rw [e, abs_mul_abs_self] at this
    exact this
  have b1 := sq a1
  have b2 := sq a2
  have m := mul_le_mul b1 b2 (mul_self_nonneg _) (mul_nonneg (by norm_num) (mul_self_nonneg _))
  unfold fastVal
  have ea : ∀ m i, (normedShell (shellAt G m)).alpha i = (shellAt G m).alpha i := fun _ _ => rfl
  have ep : ∀ m, (normedShell (shellAt G m)).pos = (shellAt G m).pos := fun _ => rfl
  have pa : 0 < (shellAt G q.1).alpha i + (shellAt G q.2).alpha j := add_pos
    (lt_of_lt_of_le (by norm_num) (hG.lo _ (shellAt_mem (hp q hq).1) i hi))
    (lt_of_lt_of_le (by norm_num) (hG.lo _ (shellAt_mem (hp q hq).2) j hj))
  simp only [withCoef, ea, ep]
  generalize (normedShell (shellAt G q.1)).coef i = y1 at m ⊢
  generalize (normedShell (shellAt G q.2)).coef j = y2 at m ⊢
  rw [mul_left_comm (2 : ℝ)]
  refine mul_le_mul_of_nonneg_left (a := √2 * π ^ ((5 : ℝ) / 2) * _ * _) ?_ (by positivity)
  have n0 : 0 ≤ y1 * y1 * (y2 * y2) := mul_nonneg (mul_self_nonneg _) (mul_self_nonneg _)
  nlinarith

theorem am_transport {prs : List (ℕ × ℕ)} (hp : InArray prs G.length)
    (ham : ∀ p ∈ pairsAt G prs, p.1.am = 0 ∧ p.2.am = 0) : ∀ p ∈ pairsAt G' prs, p.1.am = 0 ∧ p.2.am = 0 := by
  intro p hp'
  obtain ⟨q, hq, rfl⟩ := List.mem_map.1 hp'
  obtain ⟨c1, e1, -⟩ := h _ (hp q hq).1
  obtain ⟨c2, e2, -⟩ := h _ (hp q hq).2
  dsimp only
  rw [e1, e2]
  exact ham _ (List.mem_map_of_mem hq)

end

/-- **C105.** IEEE doubles, from a basis set to screened integrals over s shells: `simint_normalize_shells`, the
complete fill of two lists with the fast screening values and `simint_compute_ostei` with a positive tolerance all run,
with the hand-written function of the library.  Each integral has the errors of C96 plus what screening leaves out; if
the call returns -1, zero has them. -/
theorem C105_basis (fused : Bool) (b : Build) (sh : ShCfg) (hl : 0 < sh.len)
    (hsc : sh.screening = true) {big : ℝ} (hb0 : 0 ≤ big) (hb : big ≤ 2 ^ 500)
    {G : List (Shell ℝ)} {K : ℕ} {R : ℝ} (hR0 : 0 ≤ R) (hR : R ≤ 2 ^ 10) (hG : BasisIn G K R)
    (prP prQ : List (ℕ × ℕ)) (hP : InArray prP G.length) (hQ : InArray prQ G.length)
    (hbra : BatchesFull sh.len (pairsAt G prP))
    (hn : ∀ p ∈ pairsAt G prP, ∀ q ∈ pairsAt G prQ, pairPrims p.1 p.2 * pairPrims q.1 q.2 ≤ 2 ^ 49)
    (hx : ∀ p ∈ pairsAt G prP, ∀ q ∈ pairsAt G prQ, ArgsBelow p.1 p.2 q.1 q.2 R 36.5)
    (hamP : ∀ p ∈ pairsAt G prP, p.1.am = 0 ∧ p.2.am = 0) (hamQ : ∀ p ∈ pairsAt G prQ, p.1.am = 0 ∧ p.2.am = 0)
    {V : ℝ} (hV0 : 0 ≤ V) (hV1 : 2 * V ≤ 2 ^ 400) (hVP : FastBelow G prP V) (hVQ : FastBelow G prQ V)
    (memP memQ : ℕ → ℝ) {t : ℝ} (ht0 : 0 < t) (ht : t ≤ 2 ^ 500) (outSize : ℕ)
    (hout : prP.length * prQ.length ≤ outSize) (junk : VPar ℝ)
    (scratch : ℕ → ℕ → ℕ → VMem ℝ) (out : ℕ → Fd (ieee fused)) (hod : ∀ k, IsDouble (ieee fused) (out k).val) :
    ∃ G' P Q n o, FlNorm.normalizeShells (ieee fused) G = some G' ∧
      completeList sh (shOps (ieee fused)) (fastSchwarz (value (ieee fused))) big (pairsAt G' prP) memP = some P ∧
      completeList sh (shOps (ieee fused)) (fastSchwarz (value (ieee fused))) big (pairsAt G' prQ) memQ = some Q ∧
      flOsteiSsss (ieee fused) b ⟨sh.len, P.1, Q.1, t, outSize, junk, scratch⟩ out =
        some (n, fun k => ⟨Q.1.screen k⟩, o) ∧
      (n = -1 ∧ o = out ∧
        (∀ ab (hab : ab < prP.length) cd (hcd : cd < prQ.length),
          DropError G K R 226 prP[ab] prQ[cd] 0 (dropAt G t V prP[ab] prQ[cd])) ∨
      n = prP.length * prQ.length ∧
        (∀ ab (hab : ab < prP.length) cd (hcd : cd < prQ.length),
          DropError G K R 226 prP[ab] prQ[cd] (o (ab * prQ.length + cd)).val (dropAt G t V prP[ab] prQ[cd])) ∧
        ∀ k, prP.length * prQ.length ≤ k → o k = out k) := by
  obtain ⟨G', eG, -, hh⟩ := normalise_basis fused hG.norm
  have hn' := transport hh (fun A B C D => pairPrims A B * pairPrims C D ≤ 2 ^ 49)
    (fun _ _ _ _ _ _ _ _ hh => hh) hP hQ hn
  have hx' := transport hh (fun A B C D => ArgsBelow A B C D R 36.5) (fun _ _ _ _ _ _ _ _ hh => hh) hP hQ hx
  have lP : (pairsAt G' prP).length = prP.length := List.length_map _
  have lQ : (pairsAt G' prQ).length = prQ.length := List.length_map _
  have aP := am_transport hG hh hP hamP
  have aQ := am_transport hG hh hQ hamQ
  have vP := fast_transport hG hh hP hVP
  have vQ := fast_transport hG hh hQ hVQ
  obtain ⟨P, Q, n, o, eP, eQ, r, hr⟩ := C102_screened fused b sh hl hsc hb0 hb (pairsAt G' prP)
    (pairsAt G' prQ) hR0 hR (pairs_moderate hG hh hP) (pairs_moderate hG hh hQ) (full_transport hh hP hbra) hn' hx'
    (fun p hp => (List.mem_append.1 hp).elim (aP p) (aQ p)) (V := 2 * V) (by linarith) hV1
    (fun p hp => (List.mem_append.1 hp).elim (vP p) (vQ p)) memP memQ ht0 ht outSize (by rw [lP, lQ]; exact hout)
    junk scratch out hod
  have hd : 0 ≤ FlFast.dropMax t (2 * V) := by unfold FlFast.dropMax; positivity
  have pos : ∀ {i}, i < G.length → (shellAt G' i).Pos := fun {i} hi j hj =>
    lt_of_lt_of_le (by norm_num) ((moderate hG hh hi).lo j hj)
  refine ⟨G', P, Q, n, o, eG, eP, eQ, r, ?_⟩
  rcases hr with ⟨r1, r2, r3⟩ | ⟨r1, r2, r3⟩
  · refine Or.inl ⟨r1, r2, fun ab hab cd hcd => ?_⟩
    have u := r3 ab (by rw [lP]; exact hab) cd (by rw [lQ]; exact hcd)
    simp only [pairsAt, List.getElem_map] at u
    have p1 := hP _ (List.getElem_mem hab)
    have q1 := hQ _ (List.getElem_mem hcd)
    refine drop_finish hG hh p1 q1 hR0 hd ?_
    have s := shellSize_nonneg (pos p1.1) (pos p1.2) (pos q1.1) (pos q1.2) hR0 0
    rw [zero_sub, abs_neg]
    exact u.trans (le_add_of_nonneg_left (by positivity))
  · rw [lP, lQ] at r1 r3
    refine Or.inr ⟨r1, fun ab hab cd hcd => ?_, r3⟩
    have u := r2 ab (by rw [lP]; exact hab) cd (by rw [lQ]; exact hcd)
    simp only [pairsAt, List.getElem_map, List.length_map] at u
    have p1 := hP _ (List.getElem_mem hab)
    have q1 := hQ _ (List.getElem_mem hcd)
    exact drop_finish hG hh p1 q1 hR0 hd u

/-- **C105, arguments of the Boys function up to 10^8.** -/
theorem C105_basis_far (fused : Bool) (b : Build) (sh : ShCfg) (hl : 0 < sh.len)
    (hsc : sh.screening = true) {big : ℝ} (hb0 : 0 ≤ big) (hb : big ≤ 2 ^ 500)
    {G : List (Shell ℝ)} {K : ℕ} {R : ℝ} (hR0 : 0 ≤ R) (hR : R ≤ 2 ^ 10) (hG : BasisIn G K R)
    (prP prQ : List (ℕ × ℕ)) (hP : InArray prP G.length) (hQ : InArray prQ G.length)
    (hbra : BatchesFull sh.len (pairsAt G prP))
    (hn : ∀ p ∈ pairsAt G prP, ∀ q ∈ pairsAt G prQ, pairPrims p.1 p.2 * pairPrims q.1 q.2 ≤ 2 ^ 49)
    (hx : ∀ p ∈ pairsAt G prP, ∀ q ∈ pairsAt G prQ, ArgsBelow p.1 p.2 q.1 q.2 R (10 ^ 8))
    (hamP : ∀ p ∈ pairsAt G prP, p.1.am = 0 ∧ p.2.am = 0) (hamQ : ∀ p ∈ pairsAt G prQ, p.1.am = 0 ∧ p.2.am = 0)
    {V : ℝ} (hV0 : 0 ≤ V) (hV1 : 2 * V ≤ 2 ^ 400) (hVP : FastBelow G prP V) (hVQ : FastBelow G prQ V)
    (memP memQ : ℕ → ℝ) {t : ℝ} (ht0 : 0 < t) (ht : t ≤ 2 ^ 500) (outSize : ℕ)
    (hout : prP.length * prQ.length ≤ outSize) (junk : VPar ℝ)
    (scratch : ℕ → ℕ → ℕ → VMem ℝ) (out : ℕ → Fd (ieee fused)) (hod : ∀ k, IsDouble (ieee fused) (out k).val) :
    ∃ G' P Q n o, FlNorm.normalizeShells (ieee fused) G = some G' ∧
      completeList sh (shOps (ieee fused)) (fastSchwarz (value (ieee fused))) big (pairsAt G' prP) memP = some P ∧
      completeList sh (shOps (ieee fused)) (fastSchwarz (value (ieee fused))) big (pairsAt G' prQ) memQ = some Q ∧
      flOsteiSsss (ieee fused) b ⟨sh.len, P.1, Q.1, t, outSize, junk, scratch⟩ out =
        some (n, fun k => ⟨Q.1.screen k⟩, o) ∧
      (n = -1 ∧ o = out ∧
        (∀ ab (hab : ab < prP.length) cd (hcd : cd < prQ.length),
          DropError G K R 9910 prP[ab] prQ[cd] 0 (dropAt G t V prP[ab] prQ[cd])) ∨
      n = prP.length * prQ.length ∧
        (∀ ab (hab : ab < prP.length) cd (hcd : cd < prQ.length),
          DropError G K R 9910 prP[ab] prQ[cd] (o (ab * prQ.length + cd)).val (dropAt G t V prP[ab] prQ[cd])) ∧
        ∀ k, prP.length * prQ.length ≤ k → o k = out k) := by
  obtain ⟨G', eG, -, hh⟩ := normalise_basis fused hG.norm
  have hn' := transport hh (fun A B C D => pairPrims A B * pairPrims C D ≤ 2 ^ 49)
    (fun _ _ _ _ _ _ _ _ hh => hh) hP hQ hn
  have hx' := transport hh (fun A B C D => ArgsBelow A B C D R (10 ^ 8)) (fun _ _ _ _ _ _ _ _ hh => hh) hP hQ hx
  have lP : (pairsAt G' prP).length = prP.length := List.length_map _
  have lQ : (pairsAt G' prQ).length = prQ.length := List.length_map _
  have aP := am_transport hG hh hP hamP
  have aQ := am_transport hG hh hQ hamQ
  have vP := fast_transport hG hh hP hVP
  have vQ := fast_transport hG hh hQ hVQ
  obtain ⟨P, Q, n, o, eP, eQ, r, hr⟩ := C102_screened_far fused b sh hl hsc hb0 hb (pairsAt G' prP)
    (pairsAt G' prQ) hR0 hR (pairs_moderate hG hh hP) (pairs_moderate hG hh hQ) (full_transport hh hP hbra) hn' hx'
    (fun p hp => (List.mem_append.1 hp).elim (aP p) (aQ p)) (V := 2 * V) (by linarith) hV1
    (fun p hp => (List.mem_append.1 hp).elim (vP p) (vQ p)) memP memQ ht0 ht outSize (by rw [lP, lQ]; exact hout)
    junk scratch out hod
  have hd : 0 ≤ FlFast.dropMax t (2 * V) := by unfold FlFast.dropMax; positivity
  have pos : ∀ {i}, i < G.length → (shellAt G' i).Pos := fun {i} hi j hj =>
    lt_of_lt_of_le (by norm_num) ((moderate hG hh hi).lo j hj)
  refine ⟨G', P, Q, n, o, eG, eP, eQ, r, ?_⟩
  rcases hr with ⟨r1, r2, r3⟩ | ⟨r1, r2, r3⟩
  · refine Or.inl ⟨r1, r2, fun ab hab cd hcd => ?_⟩
    have u := r3 ab (by rw [lP]; exact hab) cd (by rw [lQ]; exact hcd)
    simp only [pairsAt, List.getElem_map] at u
    have p1 := hP _ (List.getElem_mem hab)
    have q1 := hQ _ (List.getElem_mem hcd)
    refine drop_finish hG hh p1 q1 hR0 hd ?_
    have s := shellSize_nonneg (pos p1.1) (pos p1.2) (pos q1.1) (pos q1.2) hR0 0
    rw [zero_sub, abs_neg]
    exact u.trans (le_add_of_nonneg_left (by positivity))
  · rw [lP, lQ] at r1 r3
    refine Or.inr ⟨r1, fun ab hab cd hcd => ?_, r3⟩
    have u := r2 ab (by rw [lP]; exact hab) cd (by rw [lQ]; exact hcd)
    simp only [pairsAt, List.getElem_map, List.length_map] at u
    have p1 := hP _ (List.getElem_mem hab)
    have q1 := hQ _ (List.getElem_mem hcd)
    exact drop_finish hG hh p1 q1 hR0 hd u

/-- **C105, AVX512 builds.** The same with the function that collects vectors in a buffer (C104). -/
theorem C105_avx512 (fused : Bool) (b : Build) (al : AllSum 8) (h : HSum 8) (sh : ShCfg) (h8 : sh.len = 8)
    (hsc : sh.screening = true) {big : ℝ} (hb0 : 0 ≤ big) (hb : big ≤ 2 ^ 500)
    {G : List (Shell ℝ)} {K : ℕ} {R : ℝ} (hR0 : 0 ≤ R) (hR : R ≤ 2 ^ 10) (hG : BasisIn G K R)
    (prP prQ : List (ℕ × ℕ)) (hP : InArray prP G.length) (hQ : InArray prQ G.length)
    (hbra : BatchesFull sh.len (pairsAt G prP))
    (hn : ∀ p ∈ pairsAt G prP, ∀ q ∈ pairsAt G prQ, pairPrims p.1 p.2 * pairPrims q.1 q.2 ≤ 2 ^ 49)
    (hx : ∀ p ∈ pairsAt G prP, ∀ q ∈ pairsAt G prQ, ArgsBelow p.1 p.2 q.1 q.2 R 36.5)
    (hamP : ∀ p ∈ pairsAt G prP, p.1.am = 0 ∧ p.2.am = 0) (hamQ : ∀ p ∈ pairsAt G prQ, p.1.am = 0 ∧ p.2.am = 0)
    {V : ℝ} (hV0 : 0 ≤ V) (hV1 : 2 * V ≤ 2 ^ 400) (hVP : FastBelow G prP V) (hVQ : FastBelow G prQ V)
    (memP memQ : ℕ → ℝ) {t : ℝ} (ht0 : 0 < t) (ht : t ≤ 2 ^ 500) (outSize : ℕ)
    (hout : prP.length * prQ.length ≤ outSize) (junk : VPar ℝ)
    (scratch : ℕ → ℕ → ℕ → VMem ℝ) (out : ℕ → Fd (ieee fused)) (hod : ∀ k, IsDouble (ieee fused) (out k).val) :
    ∃ G' P Q n o, FlNorm.normalizeShells (ieee fused) G = some G' ∧
      completeList sh (shOps (ieee fused)) (fastSchwarz (value (ieee fused))) big (pairsAt G' prP) memP = some P ∧
      completeList sh (shOps (ieee fused)) (fastSchwarz (value (ieee fused))) big (pairsAt G' prQ) memQ = some Q ∧
      flOsteiSsssDelayed (ieee fused) b al h ⟨sh.len, P.1, Q.1, t, outSize, junk, scratch⟩ out =
        some (n, fun k => ⟨Q.1.screen k⟩, o) ∧
      (n = -1 ∧ o = out ∧
        (∀ ab (hab : ab < prP.length) cd (hcd : cd < prQ.length),
          DropError G K R 226 prP[ab] prQ[cd] 0 (dropAt G t V prP[ab] prQ[cd])) ∨
      n = prP.length * prQ.length ∧
        (∀ ab (hab : ab < prP.length) cd (hcd : cd < prQ.length),
          DropError G K R 226 prP[ab] prQ[cd] (o (ab * prQ.length + cd)).val (dropAt G t V prP[ab] prQ[cd])) ∧
        ∀ k, prP.length * prQ.length ≤ k → o k = out k) := by
  obtain ⟨G', eG, -, hh⟩ := normalise_basis fused hG.norm
  have hn' := transport hh (fun A B C D => pairPrims A B * pairPrims C D ≤ 2 ^ 49)
    (fun _ _ _ _ _ _ _ _ hh => hh) hP hQ hn
  have hx' := transport hh (fun A B C D => ArgsBelow A B C D R 36.5) (fun _ _ _ _ _ _ _ _ hh => hh) hP hQ hx
  have lP : (pairsAt G' prP).length = prP.length := List.length_map _
  have lQ : (pairsAt G' prQ).length = prQ.length := List.length_map _
  have aP := am_transport hG hh hP hamP
  have aQ := am_transport hG hh hQ hamQ
  have vP := fast_transport hG hh hP hVP
  have vQ := fast_transport hG hh hQ hVQ
  obtain ⟨P, Q, n, o, eP, eQ, r, hr⟩ := C104_screened fused b al h sh h8 hsc hb0 hb (pairsAt G' prP)
    (pairsAt G' prQ) hR0 hR (pairs_moderate hG hh hP) (pairs_moderate hG hh hQ) (full_transport hh hP hbra) hn' hx'
    (fun p hp => (List.mem_append.1 hp).elim (aP p) (aQ p)) (V := 2 * V) (by linarith) hV1
    (fun p hp => (List.mem_append.1 hp).elim (vP p) (vQ p)) memP memQ ht0 ht outSize (by rw [lP, lQ]; exact hout)
    junk scratch out hod
  have hd : 0 ≤ FlFast.dropMax t (2 * V) := by unfold FlFast.dropMax; positivity
  have pos : ∀ {i}, i < G.length → (shellAt G' i).Pos := fun {i} hi j hj =>
    lt_of_lt_of_le (by norm_num) ((moderate hG hh hi).lo j hj)
  refine ⟨G', P, Q, n, o, eG, eP, eQ, r, ?_⟩
  rcases hr with ⟨r1, r2, r3⟩ | ⟨r1, r2, r3⟩
  · refine Or.inl ⟨r1, r2, fun ab hab cd hcd => ?_⟩
    have u := r3 ab (by rw [lP]; exact hab) cd (by rw [lQ]; exact hcd)
    simp only [pairsAt, List.getElem_map] at u
    have p1 := hP _ (List.getElem_mem hab)
    have q1 := hQ _ (List.getElem_mem hcd)
    refine drop_finish hG hh p1 q1 hR0 hd ?_
    have s := shellSize_nonneg (pos p1.1) (pos p1.2) (pos q1.1) (pos q1.2) hR0 0
    rw [zero_sub, abs_neg]
    exact u.trans (le_add_of_nonneg_left (by positivity))
  · rw [lP, lQ] at r1 r3
    refine Or.inr ⟨r1, fun ab hab cd hcd => ?_, r3⟩
    have u := r2 ab (by rw [lP]; exact hab) cd (by rw [lQ]; exact hcd)
    simp only [pairsAt, List.getElem_map, List.length_map] at u
    have p1 := hP _ (List.getElem_mem hab)
    have q1 := hQ _ (List.getElem_mem hcd)
    have s := shellSize_nonneg (pos p1.1) (pos p1.2) (pos q1.1) (pos q1.2) hR0 0
    refine drop_finish hG hh p1 q1 hR0 hd (u.trans (add_le_add (mul_le_mul_of_nonneg_right
      (mul_le_mul_of_nonneg_right (Nat.cast_le.2 ?_) (by norm_num)) s) le_rfl))
    unfold errCount
    rw [show totalL ssss = 0 from rfl]
    omega

/-- **C105, AVX512 builds, arguments of the Boys function up to 10^8.** -/
theorem C105_avx512_far (fused : Bool) (b : Build) (al : AllSum 8) (h : HSum 8) (sh : ShCfg) (h8 : sh.len = 8)
    (hsc : sh.screening = true) {big : ℝ} (hb0 : 0 ≤ big) (hb : big ≤ 2 ^ 500)
    {G : List (Shell ℝ)} {K : ℕ} {R : ℝ} (hR0 : 0 ≤ R) (hR : R ≤ 2 ^ 10) (hG : BasisIn G K R)
    (prP prQ : List (ℕ × ℕ)) (hP : InArray prP G.length) (hQ : InArray prQ G.length)
    (hbra : BatchesFull sh.len (pairsAt G prP))
    (hn : ∀ p ∈ pairsAt G prP, ∀ q ∈ pairsAt G prQ, pairPrims p.1 p.2 * pairPrims q.1 q.2 ≤ 2 ^ 49)
    (hx : ∀ p ∈ pairsAt G prP, ∀ q ∈ pairsAt G prQ, ArgsBelow p.1 p.2 q.1 q.2 R (10 ^ 8))
    (hamP : ∀ p ∈ pairsAt G prP, p.1.am = 0 ∧ p.2.am = 0) (hamQ : ∀ p ∈ pairsAt G prQ, p.1.am = 0 ∧ p.2.am = 0)
    {V : ℝ} (hV0 : 0 ≤ V) (hV1 : 2 * V ≤ 2 ^ 400) (hVP : FastBelow G prP V) (hVQ : FastBelow G prQ V)
    (memP memQ : ℕ → ℝ) {t : ℝ} (ht0 : 0 < t) (ht : t ≤ 2 ^ 500) (outSize : ℕ)
    (hout : prP.length * prQ.length ≤ outSize) (junk : VPar ℝ)
    (scratch : ℕ → ℕ → ℕ → VMem ℝ) (out : ℕ → Fd (ieee fused)) (hod : ∀ k, IsDouble (ieee fused) (out k).val) :
    ∃ G' P Q n o, FlNorm.normalizeShells (ieee fused) G = some G' ∧
      completeList sh (shOps (ieee fused)) (fastSchwarz (value (ieee fused))) big (pairsAt G' prP) memP = some P ∧
      completeList sh (shOps (ieee fused)) (fastSchwarz (value (ieee fused))) big (pairsAt G' prQ) memQ = some Q ∧
      flOsteiSsssDelayed (ieee fused) b al h ⟨sh.len, P.1, Q.1, t, outSize, junk, scratch⟩ out =
        some (n, fun k => ⟨Q.1.screen k⟩, o) ∧
      (n = -1 ∧ o = out ∧
        (∀ ab (hab : ab < prP.length) cd (hcd : cd < prQ.length),
          DropError G K R 9910 prP[ab] prQ[cd] 0 (dropAt G t V prP[ab] prQ[cd])) ∨
      n = prP.length * prQ.length ∧
        (∀ ab (hab : ab < prP.length) cd (hcd : cd < prQ.length),
          DropError G K R 9910 prP[ab] prQ[cd] (o (ab * prQ.length + cd)).val (dropAt G t V prP[ab] prQ[cd])) ∧
        ∀ k, prP.length * prQ.length ≤ k → o k = out k) := by
  obtain ⟨G', eG, -, hh⟩ := normalise_basis fused hG.norm
  have hn' := transport hh (fun A B C D => pairPrims A B * pairPrims C D ≤ 2 ^ 49)
    (fun _ _ _ _ _ _ _ _ hh => hh) hP hQ hn
  have hx' := transport hh (fun A B C D => ArgsBelow A B C D R (10 ^ 8)) (fun _ _ _ _ _ _ _ _ hh => hh) hP hQ hx
  have lP : (pairsAt G' prP).length = prP.length := List.length_map _
  have lQ : (pairsAt G' prQ).length = prQ.length := List.length_map _
  have aP := am_transport hG hh hP hamP
  have aQ := am_transport hG hh hQ hamQ
  have vP := fast_transport hG hh hP hVP
  have vQ := fast_transport hG hh hQ hVQ
  obtain ⟨P, Q, n, o, eP, eQ, r, hr⟩ := C104_screened_far fused b al h sh h8 hsc hb0 hb (pairsAt G' prP)
    (pairsAt G' prQ) hR0 hR (pairs_moderate hG hh hP) (pairs_moderate hG hh hQ) (full_transport hh hP hbra) hn' hx'
    (fun p hp => (List.mem_append.1 hp).elim (aP p) (aQ p)) (V := 2 * V) (by linarith) hV1
    (fun p hp => (List.mem_append.1 hp).elim (vP p) (vQ p)) memP memQ ht0 ht outSize (by rw [lP, lQ]; exact hout)
    junk scratch out hod
  have hd : 0 ≤ FlFast.dropMax t (2 * V) := by unfold FlFast.dropMax; positivity
  have pos : ∀ {i}, i < G.length → (shellAt G' i).Pos := fun {i} hi j hj =>
    lt_of_lt_of_le (by norm_num) ((moderate hG hh hi).lo j hj)
  refine ⟨G', P, Q, n, o, eG, eP, eQ, r, ?_⟩
  rcases hr with ⟨r1, r2, r3⟩ | ⟨r1, r2, r3⟩
  · refine Or.inl ⟨r1, r2, fun ab hab cd hcd => ?_⟩
    have u := r3 ab (by rw [lP]; exact hab) cd (by rw [lQ]; exact hcd)
    simp only [pairsAt, List.getElem_map] at u
    have p1 := hP _ (List.getElem_mem hab)
    have q1 := hQ _ (List.getElem_mem hcd)
    refine drop_finish hG hh p1 q1 hR0 hd ?_
    have s := shellSize_nonneg (pos p1.1) (pos p1.2) (pos q1.1) (pos q1.2) hR0 0
    rw [zero_sub, abs_neg]
    exact u.trans (le_add_of_nonneg_left (by positivity))
  · rw [lP, lQ] at r1 r3
    refine Or.inr ⟨r1, fun ab hab cd hcd => ?_, r3⟩
    have u := r2 ab (by rw [lP]; exact hab) cd (by rw [lQ]; exact hcd)
    simp only [pairsAt, List.getElem_map, List.length_map] at u
    have p1 := hP _ (List.getElem_mem hab)
    have q1 := hQ _ (List.getElem_mem hcd)
    have s := shellSize_nonneg (pos p1.1) (pos p1.2) (pos q1.1) (pos q1.2) hR0 0
    refine drop_finish hG hh p1 q1 hR0 hd (u.trans (add_le_add (mul_le_mul_of_nonneg_right
      (mul_le_mul_of_nonneg_right (Nat.cast_le.2 ?_) (by norm_num)) s) le_rfl))
    unfold errCount
    rw [show totalL ssss = 0 from rfl]
    omega

/-! ### The hypotheses can be met -/

theorem sShell_norm (ptr : ℕ) (x : ℝ) : FlNorm.NormIn (sShell ptr x) 2 := by
  have am : (sShell ptr x).am = 0 := rfl
  have np : (sShell ptr x).nprim = 1 := rfl
  refine FlNorm.normIn_nonneg (by rw [am]; norm_num) (fun j _ => ?_) (fun j _ => ?_) (fun j _ => ?_) (fun j _ => ?_)
    (fun j _ => ?_) ⟨0, by rw [np]; norm_num, ?_⟩ (by rw [np]; norm_num)
  · simp only [sShell]; norm_num
  · simp only [sShell]; norm_num
  · simp only [sShell]; norm_num
  · right; simp only [sShell]; norm_num
  · simp only [sShell]; norm_num
  · simp only [sShell]; norm_num

theorem sShell_unit (ptr : ℕ) (x : ℝ) (j : ℕ) : |(normedShell (sShell ptr x)).coef j| ≤ 8 := by
  rw [unit_coef fun i _ => (by simp only [sShell]; norm_num)]
  have e1 : (primNorm (sShell ptr x)).coef j = 1 := by simp [primNorm, sShell]
  have q : 1 / 4 ≤ FlNorm.normSq (sShell ptr x) (sShell ptr x).coef := by
    unfold FlNorm.normSq
    have np : (sShell ptr x).nprim = 1 := rfl
    have h1 : (sShell ptr x).coef 0 = 1 := rfl
    have h2 : (sShell ptr x).alpha 0 = 1 := rfl
    have h3 : ((sShell ptr x).am : ℝ) = 0 := Nat.cast_zero
    rw [np]
    simp only [Finset.sum_range_succ, Finset.sum_range_zero, zero_add]
    rw [h1, h2, h3, mul_one, one_rpow, one_mul]
    refine one_div_le_one_div_of_le (rpow_pos_of_pos (by norm_num) _) ?_
    calc ((1 : ℝ) + 1) ^ ((0 : ℝ) + 3 / 2) ≤ 2 ^ ((2 : ℕ) : ℝ) := by
          rw [one_add_one_eq_two]
          exact rpow_le_rpow_of_exponent_le (by norm_num) (by norm_num)
      _ = 4 := by rw [rpow_natCast]; norm_num
  have n1 : 1 ≤ normFacExact (sShell ptr x).am := by
    have e : normFacExact (sShell ptr x).am = π * √π := by
      have : oddFac 0 = 1 := rfl
      show normFacExact 0 = _
      simp [normFacExact, this]
    have h3 := pi_gt_three
    have h4 : 1 ≤ √π := by
      rw [one_le_sqrt]
      linarith
    rw [e]
    nlinarith
  have s1 : FlNorm.scale (sShell ptr x) ≤ 8 := by
    unfold FlNorm.scale
    rw [div_le_iff₀ (sqrt_pos.2 (by positivity))]
    have : 1 / 8 ≤ √(FlNorm.normSq (sShell ptr x) (sShell ptr x).coef * normFacExact (sShell ptr x).am) := by
      refine le_sqrt_of_sq_le ?_
      nlinarith
    linarith
  have s0 : 0 ≤ FlNorm.scale (sShell ptr x) := by unfold FlNorm.scale; positivity
  rw [e1, mul_one, abs_of_nonneg s0]
  exact s1

theorem sShell_basis : BasisIn [sShell 1 0, sShell 2 1] 2 1 := by
  have m : ∀ s ∈ [sShell 1 0, sShell 2 1], s = sShell 1 0 ∨ s = sShell 2 1 := fun s hs => by simpa using hs
  have mod : ∀ s ∈ [sShell 1 0, sShell 2 1], s.Moderate 1 := fun s hs => by
    rcases m s hs with rfl | rfl
    · exact sShell_moderate 1 (Or.inl rfl)
    · exact sShell_moderate 2 (Or.inr rfl)
  refine ⟨fun s hs => ?_, fun s hs => (mod s hs).prims, fun s hs => (mod s hs).lo, fun s hs => (mod s hs).hi,
    fun s hs i hi => ?_, fun s hs => (mod s hs).pos, fun s hs => (mod s hs).double, fun i hi j hj e => ?_⟩
  · rcases m s hs with rfl | rfl <;> exact sShell_norm _ _
  · rcases m s hs with rfl | rfl <;> exact (sShell_unit _ _ _).trans (by norm_num)
  · have hi' : i = 0 ∨ i = 1 := by simp at hi; omega
    have hj' : j = 0 ∨ j = 1 := by simp at hj; omega
    rcases hi' with rfl | rfl <;> rcases hj' with rfl | rfl <;> first | rfl | (exfalso; revert e; simp [shellAt, sShell])

theorem sShell_fast : FastBelow [sShell 1 0, sShell 2 1] [(0, 1)] (2 ^ 18) := by
  intro p hp i _ j _
  obtain rfl := List.mem_singleton.1 hp
  have c1 := sShell_unit 1 0 i
  have c2 := sShell_unit 2 1 j
  show fastVal (normedShell (sShell 1 0)) (normedShell (sShell 2 1)) i j ≤ 2 ^ 18
  have sq : ∀ {x : ℝ}, |x| ≤ 8 → x * x ≤ 64 := fun {x} hh => by
    have := mul_self_le_mul_self (abs_nonneg x) hh
    rw [abs_mul_abs_self] at this
    linarith
  have m := mul_le_mul (sq c1) (sq c2) (mul_self_nonneg _) (by norm_num)
  unfold fastVal
  have a1 : (normedShell (sShell 1 0)).alpha i = 1 := rfl
  have a2 : (normedShell (sShell 2 1)).alpha j = 1 := rfl
  have p1 : (normedShell (sShell 1 0)).pos = fun d => if d = .x then 0 else 0 := rfl
  have p2 : (normedShell (sShell 2 1)).pos = fun d => if d = .x then 1 else 0 := rfl
  simp only [a1, a2, p1, p2]
  generalize (normedShell (sShell 1 0)).coef i = y1 at m ⊢
  generalize (normedShell (sShell 2 1)).coef j = y2 at m ⊢
  have k1 : √2 ≤ (2 : ℝ) := by rw [sqrt_le_left (by norm_num)]; norm_num
  have k2 : π ^ ((5 : ℝ) / 2) ≤ 32 := by
    calc π ^ ((5 : ℝ) / 2) ≤ 4 ^ ((5 : ℝ) / 2) := rpow_le_rpow pi_pos.le pi_le_four (by norm_num)
      _ = 32 := by
        rw [show (4 : ℝ) = 2 ^ (2 : ℝ) by norm_num, ← rpow_mul (by norm_num), show (2 : ℝ) * (5 / 2) = (5 : ℕ) by norm_num,
          rpow_natCast]
        norm_num
  have k3 : ((1 : ℝ) / (1 + 1)) ^ ((5 : ℝ) / 2) ≤ 1 := rpow_le_one (by norm_num) (by norm_num) (by norm_num)
  have h1 := mul_le_mul k1 k2 (by positivity) zero_le_two
  have h2 := mul_le_mul h1 k3 (by positivity) (by norm_num)
  have k4 : ∀ z : ℝ, 0 ≤ z → Real.exp (-2 * (1 * 1 / (1 + 1)) * z) ≤ 1 := fun z hz => by
    rw [exp_le_one_iff]
    nlinarith
  have k5 : ∀ u v w : ℝ, _ := fun u v w => mul_le_mul h2
    (k4 (u * u + v * v + w * w) (by nlinarith [mul_self_nonneg u, mul_self_nonneg v, mul_self_nonneg w]))
    (exp_pos _).le (by norm_num)
  have e : y1 * y1 * y2 * y2 = y1 * y1 * (y2 * y2) := by ring
  rw [e]
  refine (mul_le_mul (k5 _ _ _) m (mul_nonneg (mul_self_nonneg _) (mul_self_nonneg _)) (by norm_num)).trans ?_
  norm_num

/-- Non-trivial case: two s shells, a pair of them in each list, tolerance 10^-10, AVX512 build. -/
example (fused : Bool) (b : Build) (junk : VPar ℝ) (scratch : ℕ → ℕ → ℕ → VMem ℝ)
    (mem : ℕ → ℝ) (out : ℕ → Fd (ieee fused)) (hod : ∀ k, IsDouble (ieee fused) (out k).val) :
    let G := [sShell 1 0, sShell 2 1]
    ∃ G' P n o, FlNorm.normalizeShells (ieee fused) G = some G' ∧
      completeList ⟨8, true, false⟩ (shOps (ieee fused)) (fastSchwarz (value (ieee fused))) 1e99
        (pairsAt G' [(0, 1)]) mem = some P ∧
      flOsteiSsssDelayed (ieee fused) b (.avx512 halves8) halves8 ⟨8, P.1, P.1, 1 / 10 ^ 10, 1, junk, scratch⟩ out =
        some (n, fun k => ⟨P.1.screen k⟩, o) ∧
      (n = 1 → DropError G 2 1 226 (0, 1) (0, 1) (o 0).val (1.0001 / 10 ^ 10)) := by
  intro G
  have one : ∀ p ∈ pairsAt G [(0, 1)], p = (sShell 1 0, sShell 2 1) := fun p hp => List.mem_singleton.1 hp
  have inA : InArray [(0, 1)] G.length := by intro p hp; simp at hp; subst hp; simp [G]
  have big : (1e99 : ℝ) ≤ 2 ^ 500 := by
    calc (1e99 : ℝ) = (10 ^ 33) ^ 3 := by norm_num
      _ ≤ (2 ^ 110) ^ 3 := pow_le_pow_left₀ (by norm_num) (by norm_num) 3
      _ = 2 ^ 330 := by rw [← pow_mul]
      _ ≤ 2 ^ 500 := pow_le_pow_right₀ (by norm_num) (by norm_num)
  have two : (1 : ℝ) ≤ 2 ^ 500 := one_le_pow₀ (by norm_num)
  obtain ⟨G', P, Q, n, o, eG, h1, h2, h3, h4⟩ := C105_avx512 fused b (.avx512 halves8) halves8 ⟨8, true, false⟩ rfl rfl
    (by norm_num) big zero_le_one (by norm_num) sShell_basis [(0, 1)] [(0, 1)] inA inA
    (batchesFull_one (by decide))
    (fun p hp q hq => by
      rw [one p hp, one q hq]
      have : pairPrims (sShell 1 0) (sShell 2 1) = 1 := by decide
      simp only [this]
      norm_num)
    (fun p hp q hq => by rw [one p hp, one q hq]; exact sShell_args)
    (fun p hp => by rw [one p hp]; exact ⟨rfl, rfl⟩) (fun p hp => by rw [one p hp]; exact ⟨rfl, rfl⟩)
    (V := 2 ^ 18) (by norm_num)
    (by rw [← pow_succ']; exact pow_le_pow_right₀ (by norm_num) (by norm_num)) sShell_fast sShell_fast
    mem mem (t := 1 / 10 ^ 10) (by norm_num) (le_trans (by norm_num) two) 1 (by decide) junk scratch out hod
  rw [h1] at h2
  obtain rfl := Option.some.inj h2
  refine ⟨G', P, n, o, eG, h1, h3, fun hn => ?_⟩
  rcases h4 with ⟨e, -⟩ | ⟨-, h, -⟩
  · rw [hn] at e
    exact absurd e (by decide)
  · obtain ⟨v', u1, u2⟩ := h 0 (by decide) 0 (by decide)
    refine ⟨v', u1.trans ?_, u2⟩
    have e1 : quartets (sShell 1 0) (sShell 2 1) (sShell 1 0) (sShell 2 1) = 1 := by simp [quartets, sShell]
    show quartets (sShell 1 0) (sShell 2 1) (sShell 1 0) (sShell 2 1) * _ ≤ _
    rw [e1, one_mul]
    unfold FlFast.dropMax
    norm_num

end Simint
