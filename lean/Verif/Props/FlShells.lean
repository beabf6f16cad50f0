import Verif.FlShellsLemmas
import Verif.BatchLemmas

/-!
# Property C89: from shells to integrals on doubles

Complete fills with rounding, followed by a call of a generated function.
-/

set_option autoImplicit false

open Real Finset

namespace Simint

open FlBoys (Arith ieee rn lastPlace)
open FlPrim (shOps)

theorem rn_multiple (y : ℝ) : ∃ n : ℤ, rn y = n * 2 ^ (-1074 : ℤ) := by
  obtain ⟨k, hk⟩ := Int.eq_ofNat_of_zero_le (a := lastPlace y + 1074) (by
    have : (-1074 : ℤ) ≤ lastPlace y := le_max_right _ _
    omega)
  refine ⟨round (y / 2 ^ lastPlace y) * 2 ^ k, ?_⟩
  have e : lastPlace y = (k : ℤ) + -1074 := by omega
  have : (2 : ℝ) ^ lastPlace y = 2 ^ k * 2 ^ (-1074 : ℤ) := by
    rw [e, zpow_add₀ (by norm_num), zpow_natCast]
  unfold rn
  rw [this]
  push_cast
  ring

theorem Shell.Moderate.multiple {A : Shell ℝ} {R : ℝ} (h : A.Moderate R) (d : Dir) :
    ∃ n : ℤ, A.pos d = n * 2 ^ (-1074 : ℤ) := by
  obtain ⟨n, hn⟩ := rn_multiple (A.pos d)
  have e : rn (A.pos d) = A.pos d := h.double d
  exact ⟨n, by rw [← e]; exact hn⟩

theorem Shell.Moderate.pair {A B : Shell ℝ} {R : ℝ} (hA : A.Moderate R) (hB : B.Moderate R) (hR : R ≤ 2 ^ 10)
    {i j : ℕ} (hi : i < A.nprim) (hj : j < B.nprim) : PairMod A B i j R := by
  refine ⟨hA.lo i hi, hA.hi i hi, hB.lo j hj, hB.hi j hj, hA.pos, hB.pos, hR, ?_⟩
  rw [abs_mul]
  calc |A.coef i| * |B.coef j| ≤ 2 ^ 30 * 2 ^ 30 :=
        mul_le_mul (hA.coef i hi) (hB.coef j hj) (abs_nonneg _) (by positivity)
    _ = 2 ^ 60 := by norm_num

/-- The pairs of primitives of a list after a complete fill. -/
structure FilledWith (F : Arith) (len : ℕ) (M : MSP ℝ) (ps : List (Shell ℝ × Shell ℝ)) (S : ℕ → PairData)
    (R : ℝ) : Prop where
  nclip : M.nclip = ps.length
  count : ∀ s (hs : s < ps.length), M.nprim12 s = pairPrims ps[s].1 ps[s].2
  shells : ∀ s (hs : s < ps.length), (S s).A = ps[s].1 ∧ (S s).B = ps[s].2
  order : ∀ s (hs : s < ps.length), ∃ ord : List (ℕ × ℕ), ord.Perm (primOrder ps[s].1 ps[s].2) ∧
    (S s).prim = fun k => ord.getD k (0, 0)
  holds : HoldsFl F M (paddedStart len M.nprim12) S R
  mods : ∀ s < M.nclip, ∀ k < M.nprim12 s, PairMod (S s).A (S s).B ((S s).prim k).1 ((S s).prim k).2 R
  index : ∀ s (_ : s < ps.length), ∀ k < M.nprim12 s, ((S s).prim k).1 < (S s).A.nprim ∧
    ((S s).prim k).2 < (S s).B.nprim
  tight : tightStart M.nprim12 M.nclip ≤ M.alloc
  padded : ∀ s < M.nclip, simdRound len (paddedStart len M.nprim12 s + M.nprim12 s) ≤ M.alloc
  pos : ∀ i < M.alloc, 0 < M.alpha i

theorem FilledWith.starts {F : Arith} {len : ℕ} {M : MSP ℝ} {ps : List (Shell ℝ × Shell ℝ)} {S : ℕ → PairData}
    {R : ℝ} (h : FilledWith F len M ps S R) (hl : 0 < len) (hb : BatchesFull len ps) :
    ∀ s < M.nclip, tightStart M.nprim12 s = paddedStart len M.nprim12 s := by
  rw [h.nclip]
  exact starts_of_full hl hb fun s hs => by rw [h.count s hs, storedCount_eq]

/-- **C89, lists.** A complete fill on doubles (with or without screening values and the sort by screening
values, whatever the memory contains) succeeds; the list holds the rounded values of the stored pairs of
primitives of each pair of shells, each of them once; all exponents are positive.  If derivatives are
compiled in, the arrays of exponents hold theirs; with screening, the screening values are in the same order. -/
theorem C89_list (fused : Bool) (sh : ShCfg) (hl : 0 < sh.len) (scr : PrimScreen ℝ)
    (val : Shell ℝ → Shell ℝ → ℕ → ℕ → ℝ) (hscr : sh.screening = true → ExactScr scr val) (big : ℝ)
    (ps : List (Shell ℝ × Shell ℝ)) {R : ℝ} (hR : R ≤ 2 ^ 10) (hps : PairsModerate ps R) (mf : ℕ → ℝ) :
    ∃ M, completeList sh (shOps (ieee fused)) scr big ps mf = some M ∧
      ∃ S, FilledWith (ieee fused) sh.len M.1 ps S R ∧
        (sh.deriv = true → ∀ s < ps.length, ∀ k < M.1.nprim12 s,
          M.2.1 (paddedStart sh.len M.1.nprim12 s + k) = FlPrim.value (ieee fused) (S s).A (S s).B ((S s).prim k).1
            ((S s).prim k).2 .alpha2 ∧
          M.2.2 (paddedStart sh.len M.1.nprim12 s + k) = FlPrim.value (ieee fused) (S s).A (S s).B ((S s).prim k).1
            ((S s).prim k).2 .beta2) ∧
        (sh.screening = true → ∀ s < ps.length, ∀ k < M.1.nprim12 s,
          M.1.screen (paddedStart sh.len M.1.nprim12 s + k) =
            val (S s).A (S s).B ((S s).prim k).1 ((S s).prim k).2) ∧
        M.1.screenMax = (fillPairs sh (shOps (ieee fused)) scr big ps).screenMax := by
  obtain ⟨M, e, hn, ha, hmax, hd, hpad⟩ := complete_elems sh hl (shOps (ieee fused)) scr val hscr big ps
    (fun p hp => ⟨(hps p hp).1.prims, (hps p hp).2.1.prims⟩) mf
  obtain ⟨r1, r2⟩ := complete_room hl e
  have hd' : ∀ s, ∃ ord : List (ℕ × ℕ), ∀ hs : s < ps.length, ord.Perm (primOrder ps[s].1 ps[s].2) ∧
      ∀ k < M.1.nprim12 s, ∀ v, v = (shOps (ieee fused)).prim ps[s].1 ps[s].2 (ord.getD k (0, 0)).1
          (ord.getD k (0, 0)).2 →
        let i := paddedStart sh.len M.1.nprim12 s + k
        M.1.alpha i = v .alpha ∧ M.1.prefac i = v .prefac ∧ (∀ d, M.1.pos d i = v (.pos d)) ∧
          (∀ d, M.1.PA d i = v (.PA d)) ∧ (∀ d, M.1.PB d i = v (.PB d)) ∧
          (sh.deriv = true → M.2.1 i = v .alpha2 ∧ M.2.2 i = v .beta2) ∧
          (sh.screening = true → M.1.screen i =
            val ps[s].1 ps[s].2 ((ord.getD k (0, 0)).1) ((ord.getD k (0, 0)).2)) := by
    intro s
    by_cases hs : s < ps.length
    · obtain ⟨ord, h⟩ := (hd s hs).2.2
      exact ⟨ord, fun _ => h⟩
    · exact ⟨[], fun h => absurd h hs⟩
  choose ord hord using hd'
  have hmod : ∀ s (hs : s < ps.length), ps[s].1.Moderate R ∧ ps[s].2.Moderate R :=
    fun s hs => ⟨(hps _ (List.getElem_mem hs)).1, (hps _ (List.getElem_mem hs)).2.1⟩
  let S : ℕ → PairData := fun s =>
    if hs : s < ps.length then ⟨ps[s].1, ps[s].2, fun k => (ord s).getD k (0, 0)⟩
    else ⟨⟨0, 0, 0, 0, 0, 0⟩, ⟨0, 0, 0, 0, 0, 0⟩, fun _ => (0, 0)⟩
  have hS : ∀ s (hs : s < ps.length), S s = ⟨ps[s].1, ps[s].2, fun k => (ord s).getD k (0, 0)⟩ :=
    fun s hs => dif_pos hs
  have hidx : ∀ s (_ : s < ps.length), ∀ k < M.1.nprim12 s, ((S s).prim k).1 < (S s).A.nprim ∧
      ((S s).prim k).2 < (S s).B.nprim := by
    intro s hs k hk
    rw [hS s hs]
    have hlen : (ord s).length = M.1.nprim12 s := by
      rw [(hord s hs).1.length_eq, primOrder_length, (hd s hs).1]
    have hm : (ord s).getD k (0, 0) ∈ primOrder ps[s].1 ps[s].2 := by
      rw [List.getD_eq_getElem _ _ (by omega)]
      exact (hord s hs).1.mem_iff.1 (List.getElem_mem _)
    have := (mem_primOrder ps[s].1 ps[s].2 _ _).1 hm
    exact ⟨this.1, this.2.1⟩
  have hmods : ∀ s < M.1.nclip, ∀ k < M.1.nprim12 s,
      PairMod (S s).A (S s).B ((S s).prim k).1 ((S s).prim k).2 R := by
    intro s hs k hk
    rw [hn] at hs
    obtain ⟨i1, i2⟩ := hidx s hs k hk
    rw [hS s hs] at i1 i2 ⊢
    exact (hmod s hs).1.pair (hmod s hs).2 hR i1 i2
  have hel : ∀ s (hs : s < ps.length), ∀ k < M.1.nprim12 s, FlPrim.Elem M.1
      (paddedStart sh.len M.1.nprim12 s + k) (FlPrim.value (ieee fused) (S s).A (S s).B ((S s).prim k).1
        ((S s).prim k).2) := by
    intro s hs k hk
    obtain ⟨h1, h2, h3, h4, h5, -⟩ := (hord s hs).2 k hk _ rfl
    rw [hS s hs]
    exact ⟨h1, h2, h3, h4, h5⟩
  refine ⟨M, e, S, ⟨hn, fun s hs => (hd s hs).1, fun s hs => by rw [hS s hs]; exact ⟨rfl, rfl⟩,
    fun s hs => ⟨ord s, (hord s hs).1, by rw [hS s hs]⟩, ⟨?_, ?_, ?_, ?_⟩, hmods, hidx, r1,
    fun s hs => r2 s (by rw [← hn]; exact hs), ?_⟩, fun hder s hs k hk => by
      rw [hS s hs]; exact ((hord s hs).2 k hk _ rfl).2.2.2.2.2.1 hder, fun hsc s hs k hk => by
      rw [hS s hs]; exact ((hord s hs).2 k hk _ rfl).2.2.2.2.2.2 hsc, hmax⟩
  · intro s hs d
    rw [hn] at hs
    rw [hS s hs, (hd s hs).2.1 d]
    exact HRRRound.C84_diff fused ps[s].1.pos ps[s].2.pos (hmod s hs).1.multiple (hmod s hs).2.multiple d
  · intro s hs d
    rw [hn] at hs
    rw [hS s hs]
    exact ⟨(hmod s hs).1.pos d, (hmod s hs).2.pos d⟩
  · intro s hs k hk
    rw [hn] at hs
    exact hel s hs k hk
  · intro s hs k hk
    exact (hmods s hs k hk).pairIn
  · intro i hi
    by_cases hin : ∃ s < ps.length, paddedStart sh.len M.1.nprim12 s ≤ i ∧
        i < paddedStart sh.len M.1.nprim12 s + M.1.nprim12 s
    · obtain ⟨s, hs, l1, l2⟩ := hin
      obtain ⟨k, rfl⟩ := Nat.exists_eq_add_of_le l1
      have hk : k < M.1.nprim12 s := by omega
      rw [(hel s hs k hk).alpha]
      have hm := hmods s (by rw [hn]; exact hs) k hk
      have hp := (FlPrim.C86_pair (C87_ieee fused).1 hm.pairIn).1
      have hs1 := hm.sum.1
      have h1 := (abs_le.1 hp).1
      have h0 : (0 : ℝ) < 1 / 2 ^ 9 := by positivity
      have h2 : (1 : ℝ) / 2 ^ 52 * ((S s).A.alpha ((S s).prim k).1 + (S s).B.alpha ((S s).prim k).2) ≤
          1 / 2 * ((S s).A.alpha ((S s).prim k).1 + (S s).B.alpha ((S s).prim k).2) :=
        mul_le_mul_of_nonneg_right (by norm_num) (by linarith)
      linarith
    · rw [hpad i hi fun s hs hc => hin ⟨s, hs, hc⟩]
      exact one_pos

/-! ### The integrals -/

section
variable {F : Arith} {len : ℕ} {c : Call ℝ} {psP psQ : List (Shell ℝ × Shell ℝ)} {S T : ℕ → PairData} {R : ℝ}

open Classical in
/-- Sums over the evaluated primitives without screening. -/
theorem overKept_shells (htol : c.tol ≤ 0) (hP : FilledWith F len c.P psP S R)
    (hQ : FilledWith F len c.Q psQ T R) {ab cd : ℕ} (hab : ab < psP.length) (hcd : cd < psQ.length)
    (f : ℕ × ℕ → ℕ × ℕ → ℝ) :
    overKept F c ab cd (fun k l => f ((S ab).prim k) ((T cd).prim l)) =
      overStored psP[ab].1 psP[ab].2 psQ[cd].1 psQ[cd].2 fun i j k l => f (i, j) (k, l) := by
  obtain ⟨o1, p1, e1⟩ := hP.order ab hab
  obtain ⟨o2, p2, e2⟩ := hQ.order cd hcd
  unfold overKept overStored
  have hk : ∀ i j, c.KeptFl F i j := fun i j => ⟨fun h => absurd h.1 (not_lt.2 htol), fun h => absurd h.1 (not_lt.2 htol)⟩
  simp only [hk, if_true, e1, e2]
  rw [stored_prims_sum p1 (hP.count ab hab) (fun i j => ∑ l ∈ range (c.Q.nprim12 cd),
    f (i, j) (o2.getD l (0, 0)))]
  refine sum_congr rfl fun i _ => sum_congr rfl fun j _ => ?_
  split_ifs with h
  · exact stored_prims_sum p2 (hQ.count cd hcd) (fun k l => f (i, j) (k, l))
  · rfl

theorem sizeMax_shells (htol : c.tol ≤ 0) (hP : FilledWith F len c.P psP S R)
    (hQ : FilledWith F len c.Q psQ T R) {ab cd : ℕ} (hab : ab < psP.length) (hcd : cd < psQ.length) (n : ℕ) :
    sizeMax F c S T R ab cd n = shellSize psP[ab].1 psP[ab].2 psQ[cd].1 psQ[cd].2 R n := by
  obtain ⟨s1, s2⟩ := hP.shells ab hab
  obtain ⟨t1, t2⟩ := hQ.shells cd hcd
  unfold sizeMax shellSize
  rw [← overKept_shells htol hP hQ hab hcd fun p q =>
    VRRRound.growth (FlPrim.startMax psP[ab].1 psP[ab].2 psQ[cd].1 psQ[cd].2 p.1 p.2 q.1 q.2 R) (FlPrim.stepMax R)
      (FlPrim.lowMax (psP[ab].1.alpha p.1 + psP[ab].2.alpha p.2) (psQ[cd].1.alpha q.1 + psQ[cd].2.alpha q.2)) n]
  unfold primSize
  rw [s1, s2, t1, t2]

theorem exactERI_shells (htol : c.tol ≤ 0) (hP : FilledWith F len c.P psP S R)
    (hQ : FilledWith F len c.Q psQ T R) {ab cd : ℕ} (hab : ab < psP.length) (hcd : cd < psQ.length)
    (fP : Faithful psP[ab].1 psP[ab].2) (fQ : Faithful psQ[cd].1 psQ[cd].2) (x y z w : Exp) :
    exactERI F c S T ab cd x y z w = shellERI psP[ab].1 psP[ab].2 psQ[cd].1 psQ[cd].2 x y z w := by
  classical
  obtain ⟨s1, s2⟩ := hP.shells ab hab
  obtain ⟨t1, t2⟩ := hQ.shells cd hcd
  unfold exactERI exactPrim
  rw [s1, s2, t1, t2]
  rw [overKept_shells htol hP hQ hab hcd fun p q =>
    FlPrim.coefs psP[ab].1 psP[ab].2 psQ[cd].1 psQ[cd].2 p.1 p.2 q.1 q.2 *
      coulomb (psP[ab].1.alpha p.1) (psP[ab].2.alpha p.2) (psQ[cd].1.alpha q.1) (psQ[cd].2.alpha q.2)
        psP[ab].1.pos psP[ab].2.pos psQ[cd].1.pos psQ[cd].2.pos x y z w]
  generalize psP[ab].1 = A at fP ⊢
  generalize psP[ab].2 = B at fP ⊢
  generalize psQ[cd].1 = C at fQ ⊢
  generalize psQ[cd].2 = D at fQ ⊢
  unfold overStored shellERI
  simp only
  have hket : ∀ i j, (∑ k ∈ range C.nprim, ∑ l ∈ range D.nprim, if StoredPrims C D k l then
      FlPrim.coefs A B C D i j k l * coulomb (A.alpha i) (B.alpha j) (C.alpha k) (D.alpha l) A.pos B.pos C.pos
        D.pos x y z w else 0) = FlPrim.mult A B i j * ∑ k ∈ range C.nprim, ∑ l ∈ range D.nprim,
      A.coef i * B.coef j * (C.coef k * D.coef l) * coulomb (A.alpha i) (B.alpha j) (C.alpha k) (D.alpha l) A.pos
        B.pos C.pos D.pos x y z w := by
    intro i j
    rw [← folded_sum (fun k l => A.coef i * B.coef j * (C.coef k * D.coef l) * coulomb (A.alpha i) (B.alpha j)
      (C.alpha k) (D.alpha l) A.pos B.pos C.pos D.pos x y z w) ?_, mul_sum]
    · refine sum_congr rfl fun k _ => ?_
      rw [mul_sum]
      refine sum_congr rfl fun l _ => ?_
      split_ifs
      · unfold FlPrim.coefs
        ring
      · rw [mul_zero]
    · intro hs k hk l hl
      obtain ⟨hp, hd⟩ := fQ hs
      rw [← (hd l hl).1, ← (hd l hl).2, ← (hd k hk).1, ← (hd k hk).2,
        coulomb_ket_sum (add_comm (C.alpha k) (C.alpha l)) _ _ hp]
      ring
  simp only [hket]
  rw [folded_sum (fun i j => ∑ k ∈ range C.nprim, ∑ l ∈ range D.nprim,
      A.coef i * B.coef j * (C.coef k * D.coef l) * coulomb (A.alpha i) (B.alpha j) (C.alpha k) (D.alpha l) A.pos
        B.pos C.pos D.pos x y z w)]
  intro hs i hi j hj
  obtain ⟨hp, hd⟩ := fP hs
  refine sum_congr rfl fun k _ => sum_congr rfl fun l _ => ?_
  rw [← (hd j hj).1, ← (hd j hj).2, ← (hd i hi).1, ← (hd i hi).2,
    coulomb_bra_sum (add_comm (A.alpha i) (A.alpha j)) _ _ hp]
  ring

/-- The computed arguments of the Boys function. -/
theorem fx_shells (hF : Sound F) (hP : FilledWith F len c.P psP S R) (hQ : FilledWith F len c.Q psQ T R)
    (hbra : ∀ s < c.P.nclip, tightStart c.P.nprim12 s = paddedStart len c.P.nprim12 s) (hlen : c.len = len)
    {X : ℝ} (hx : ∀ ab (hab : ab < psP.length) cd (hcd : cd < psQ.length),
      ArgsBelow psP[ab].1 psP[ab].2 psQ[cd].1 psQ[cd].2 R X) :
    ∀ ab < c.P.nclip, ∀ cd < c.Q.nclip, ∀ k < c.P.nprim12 ab, ∀ l < c.Q.nprim12 cd,
      FlPrim.fx F c.P c.Q (tightStart c.P.nprim12 ab + k) (paddedStart c.len c.Q.nprim12 cd + l) < X := by
  intro ab hab cd hcd k hk l hl
  rw [hbra ab hab, hlen]
  have h := (FlPrim.C86_arg hF (hP.mods ab hab k hk).pairIn (hQ.mods cd hcd l hl).pairIn
    (hP.holds.prims ab hab k hk) (hQ.holds.prims cd hcd l hl)).2
  rw [hP.nclip] at hab
  rw [hQ.nclip] at hcd
  obtain ⟨i1, i2⟩ := hP.index ab hab k hk
  obtain ⟨j1, j2⟩ := hQ.index cd hcd l hl
  obtain ⟨s1, s2⟩ := hP.shells ab hab
  obtain ⟨t1, t2⟩ := hQ.shells cd hcd
  rw [s1] at i1 h
  rw [s2] at i2 h
  rw [t1] at j1 h
  rw [t2] at j2 h
  have hb := hx ab hab cd hcd _ i1 _ i2 _ j1 _ j2
  unfold shellArg shellArgErr redExp at hb
  linarith [(abs_le.1 h).2]

end

/-- Common part of the two theorems below. -/
theorem shells_aux (fused : Bool) (b : Build) {g : GenCfg} (hg : g.OK) {final : QAM} (hf : ClassOK final)
    (hL : totalL final ≤ 24) (sh : ShCfg) (hl : 0 < sh.len) (scr : PrimScreen ℝ)
    (val : Shell ℝ → Shell ℝ → ℕ → ℕ → ℝ) (hscr : sh.screening = true → ExactScr scr val) (big : ℝ)
    (psP psQ : List (Shell ℝ × Shell ℝ)) {R : ℝ} (hR0 : 0 ≤ R) (hR : R ≤ 2 ^ 10) (hP : PairsModerate psP R)
    (hQ : PairsModerate psQ R) (hbra : BatchesFull sh.len psP)
    (hn : ∀ p ∈ psP, ∀ q ∈ psQ, pairPrims p.1 p.2 * pairPrims q.1 q.2 ≤ 2 ^ 49)
    {kb : ℕ} (hkb : kb ≤ 2 ^ 19) {X : ℝ}
    (hx : ∀ p ∈ psP, ∀ q ∈ psQ, ArgsBelow p.1 p.2 q.1 q.2 R X)
    (hX : ∀ (c : Call ℝ) (S T : ℕ → PairData), c.len = sh.len →
      HoldsFl (ieee fused) c.P (tightStart c.P.nprim12) S R →
      HoldsFl (ieee fused) c.Q (paddedStart c.len c.Q.nprim12) T R →
      (∀ ab < c.P.nclip, ∀ cd < c.Q.nclip, ∀ k < c.P.nprim12 ab, ∀ l < c.Q.nprim12 cd,
        FlPrim.fx (ieee fused) c.P c.Q (tightStart c.P.nprim12 ab + k)
          (paddedStart c.len c.Q.nprim12 cd + l) < X) → BoysOK (ieee fused) c b.vec (totalL final) kb)
    (memP memQ : ℕ → ℝ) (tol : ℝ) (htol : tol ≤ 0) (outSize : ℕ)
    (hout : psP.length * psQ.length * ncartQ final ≤ outSize) (junk : VPar ℝ)
    (scratch : ℕ → ℕ → ℕ → VMem ℝ) (hmem : HMem (Fd (ieee fused))) (out : ℕ → Fd (ieee fused))
    (hod : ∀ k, IsDouble (ieee fused) (out k).val) :
    ∃ P Q o, completeList sh (shOps (ieee fused)) scr big psP memP = some P ∧
      completeList sh (shOps (ieee fused)) scr big psQ memQ = some Q ∧
      flFunction (ieee fused) b g final ⟨sh.len, P.1, Q.1, tol, outSize, junk, scratch⟩ hmem out
        = some (psP.length * psQ.length, o) ∧
      (∀ ab (hab : ab < psP.length) cd (hcd : cd < psQ.length) (x y z w : Exp),
        x.Valid → y.Valid → z.Valid → w.Valid →
        x.am = final.a → y.am = final.b → z.am = final.c → w.am = final.d →
        |(o ((ab * psQ.length + cd) * ncartQ final + Qrt.index psi4List ⟨⟨x, y⟩, ⟨z, w⟩, 0⟩)).val -
            shellERI psP[ab].1 psP[ab].2 psQ[cd].1 psQ[cd].2 x y z w| ≤
          errCount kb final (pairPrims psP[ab].1 psP[ab].2 * pairPrims psQ[cd].1 psQ[cd].2) * (1 / 2 ^ 52) *
            (shellSize psP[ab].1 psP[ab].2 psQ[cd].1 psQ[cd].2 R (totalL final) *
              (2 + 2 * R) ^ (min final.a final.b + min final.c final.d).toNat)) ∧
      ∀ k, psP.length * psQ.length * ncartQ final ≤ k → o k = out k := by
  obtain ⟨P, eP, S, fP, -⟩ := C89_list fused sh hl scr val hscr big psP hR hP memP
  obtain ⟨Q, eQ, T, fQ, -⟩ := C89_list fused sh hl scr val hscr big psQ hR hQ memQ
  have hF := (C87_ieee fused).1
  have hst := (C87_ieee fused).2
  let c : Call ℝ := ⟨sh.len, P.1, Q.1, tol, outSize, junk, scratch⟩
  have hc : CallOK final c := ⟨hl, fun s hs => by
      have hs' : s < psQ.length := by rw [← fQ.nclip]; exact hs
      show 0 < Q.1.nprim12 s
      rw [fQ.count s hs']
      exact pairPrims_pos (hQ _ (List.getElem_mem hs')).1.prims (hQ _ (List.getElem_mem hs')).2.1.prims,
    fP.tight, fQ.padded, fP.pos, fQ.pos, by show P.1.nclip * Q.1.nclip * _ ≤ _; rw [fP.nclip, fQ.nclip]; exact hout⟩
  have htp : ∀ s < c.P.nclip, tightStart c.P.nprim12 s = paddedStart sh.len c.P.nprim12 s :=
    fP.starts hl hbra
  have hS : HoldsFl (ieee fused) c.P (tightStart c.P.nprim12) S R := by
    refine ⟨fP.holds.AB, fP.holds.pos, fun s hs k hk => ?_, fP.holds.size⟩
    rw [htp s hs]
    exact fP.holds.prims s hs k hk
  have hT : HoldsFl (ieee fused) c.Q (paddedStart c.len c.Q.nprim12) T R := fQ.holds
  have hfx := fx_shells (c := c) hF fP fQ htp rfl (X := X) fun ab hab cd hcd =>
    hx _ (List.getElem_mem hab) _ (List.getElem_mem hcd)
  have hn' : ∀ ab < c.P.nclip, ∀ cd < c.Q.nclip, c.P.nprim12 ab * c.Q.nprim12 cd ≤ 2 ^ 49 := by
    intro ab hab cd hcd
    have hab' : ab < psP.length := by rw [← fP.nclip]; exact hab
    have hcd' : cd < psQ.length := by rw [← fQ.nclip]; exact hcd
    show P.1.nprim12 ab * Q.1.nprim12 cd ≤ _
    rw [fP.count ab hab', fQ.count cd hcd']
    exact hn _ (List.getElem_mem hab') _ (List.getElem_mem hcd')
  obtain ⟨o, r, h1, h2⟩ := C88_function hF hst b hg hf hL hc hS hT hkb (hX c S T rfl hS hT hfx) hn'
    (fun ab hab cd hcd => sizeMax_moderate hF hR0 hR (fP.mods ab hab) (fQ.mods cd hcd) (hn' ab hab cd hcd) hL)
    hmem out hod
  have e1 : c.P.nclip = psP.length := fP.nclip
  have e2 : c.Q.nclip = psQ.length := fQ.nclip
  rw [e1, e2] at r h2
  refine ⟨P, Q, o, eP, eQ, r, fun ab hab cd hcd x y z w vx vy vz vw ex ey ez ew => ?_, h2⟩
  have h := h1 ab (by rw [e1]; exact hab) cd (by rw [e2]; exact hcd) x y z w vx vy vz vw ex ey ez ew
  rw [exactERI_shells (c := c) htol fP fQ hab hcd (hP _ (List.getElem_mem hab)).2.2
    (hQ _ (List.getElem_mem hcd)).2.2, sizeMax_shells (c := c) htol fP fQ hab hcd, e2] at h
  have n1 : c.P.nprim12 ab = pairPrims psP[ab].1 psP[ab].2 := fP.count ab hab
  have n2 : c.Q.nprim12 cd = pairPrims psQ[cd].1 psQ[cd].2 := fQ.count cd hcd
  rw [n1, n2] at h
  exact h

/-- **C89.** From shells to integrals on IEEE doubles: fill two lists from pairs of shells of moderate size
(any memory, with or without screening values, at most one batch of bra pairs, pairs may repeat a shell) and
call the generated function of the class without screening.  If the arguments of the Boys function are below
36.5, every step runs, and each integral differs from the sum over all primitives of the four shells by at
most `(672 + 92 L + 6 (N - 1) + 3 n) * 2^-52` times the sum of the bounds of the primitives times
`(2 + 2R)^n`; `N`: pairs of primitives, `n`: angular momentum on the stepped centers. -/
theorem C89_shells (fused : Bool) (b : Build) {g : GenCfg} (hg : g.OK) {final : QAM} (hf : ClassOK final)
    (hL : totalL final ≤ 24) (sh : ShCfg) (hl : 0 < sh.len) (scr : PrimScreen ℝ)
    (val : Shell ℝ → Shell ℝ → ℕ → ℕ → ℝ) (hscr : sh.screening = true → ExactScr scr val) (big : ℝ)
    (psP psQ : List (Shell ℝ × Shell ℝ)) {R : ℝ} (hR0 : 0 ≤ R) (hR : R ≤ 2 ^ 10) (hP : PairsModerate psP R)
    (hQ : PairsModerate psQ R) (hbra : BatchesFull sh.len psP)
    (hn : ∀ p ∈ psP, ∀ q ∈ psQ, pairPrims p.1 p.2 * pairPrims q.1 q.2 ≤ 2 ^ 49)
    (hx : ∀ p ∈ psP, ∀ q ∈ psQ, ArgsBelow p.1 p.2 q.1 q.2 R 36.5)
    (memP memQ : ℕ → ℝ) (tol : ℝ) (htol : tol ≤ 0) (outSize : ℕ)
    (hout : psP.length * psQ.length * ncartQ final ≤ outSize) (junk : VPar ℝ)
    (scratch : ℕ → ℕ → ℕ → VMem ℝ) (hmem : HMem (Fd (ieee fused))) (out : ℕ → Fd (ieee fused))
    (hod : ∀ k, IsDouble (ieee fused) (out k).val) :
    ∃ P Q o, completeList sh (shOps (ieee fused)) scr big psP memP = some P ∧
      completeList sh (shOps (ieee fused)) scr big psQ memQ = some Q ∧
      flFunction (ieee fused) b g final ⟨sh.len, P.1, Q.1, tol, outSize, junk, scratch⟩ hmem out
        = some (psP.length * psQ.length, o) ∧
      (∀ ab (hab : ab < psP.length) cd (hcd : cd < psQ.length) (x y z w : Exp),
        x.Valid → y.Valid → z.Valid → w.Valid →
        x.am = final.a → y.am = final.b → z.am = final.c → w.am = final.d →
        |(o ((ab * psQ.length + cd) * ncartQ final + Qrt.index psi4List ⟨⟨x, y⟩, ⟨z, w⟩, 0⟩)).val -
            shellERI psP[ab].1 psP[ab].2 psQ[cd].1 psQ[cd].2 x y z w| ≤
          (672 + 92 * totalL final + 6 * (pairPrims psP[ab].1 psP[ab].2 * pairPrims psQ[cd].1 psQ[cd].2 - 1) +
              3 * (min final.a final.b + min final.c final.d).toNat : ℕ) * (1 / 2 ^ 52) *
            (shellSize psP[ab].1 psP[ab].2 psQ[cd].1 psQ[cd].2 R (totalL final) *
              (2 + 2 * R) ^ (min final.a final.b + min final.c final.d).toNat)) ∧
      ∀ k, psP.length * psQ.length * ncartQ final ≤ k → o k = out k := by
  have hF := (C87_ieee fused).1
  obtain ⟨P, Q, o, eP, eQ, r, h1, h2⟩ := shells_aux fused b hg hf hL sh hl scr val hscr big psP psQ hR0 hR hP hQ hbra
    hn (kb := 226) (by norm_num) hx (fun c S T e hS hT hfx => C88_near hF (by rw [e]; exact hl) hS hT b.vec hL hfx)
    memP memQ tol htol outSize hout junk scratch hmem out hod
  refine ⟨P, Q, o, eP, eQ, r, fun ab hab cd hcd x y z w vx vy vz vw ex ey ez ew => ?_, h2⟩
  have h := h1 ab hab cd hcd x y z w vx vy vz vw ex ey ez ew
  have e : errCount 226 final (pairPrims psP[ab].1 psP[ab].2 * pairPrims psQ[cd].1 psQ[cd].2) =
      672 + 92 * totalL final + 6 * (pairPrims psP[ab].1 psP[ab].2 * pairPrims psQ[cd].1 psQ[cd].2 - 1) +
        3 * (min final.a final.b + min final.c final.d).toNat := by
    unfold errCount
    omega
  rw [e] at h
  exact h

/-- **C89, arguments of the Boys function up to `10^8`**, total angular momentum at most 3. -/
theorem C89_shells_far (fused : Bool) (b : Build) {g : GenCfg} (hg : g.OK) {final : QAM} (hf : ClassOK final)
    (hL : totalL final < 4) (sh : ShCfg) (hl : 0 < sh.len) (scr : PrimScreen ℝ)
    (val : Shell ℝ → Shell ℝ → ℕ → ℕ → ℝ) (hscr : sh.screening = true → ExactScr scr val) (big : ℝ)
    (psP psQ : List (Shell ℝ × Shell ℝ)) {R : ℝ} (hR0 : 0 ≤ R) (hR : R ≤ 2 ^ 10) (hP : PairsModerate psP R)
    (hQ : PairsModerate psQ R) (hbra : BatchesFull sh.len psP)
    (hn : ∀ p ∈ psP, ∀ q ∈ psQ, pairPrims p.1 p.2 * pairPrims q.1 q.2 ≤ 2 ^ 49)
    (hx : ∀ p ∈ psP, ∀ q ∈ psQ, ArgsBelow p.1 p.2 q.1 q.2 R (10 ^ 8))
    (memP memQ : ℕ → ℝ) (tol : ℝ) (htol : tol ≤ 0) (outSize : ℕ)
    (hout : psP.length * psQ.length * ncartQ final ≤ outSize) (junk : VPar ℝ)
    (scratch : ℕ → ℕ → ℕ → VMem ℝ) (hmem : HMem (Fd (ieee fused))) (out : ℕ → Fd (ieee fused))
    (hod : ∀ k, IsDouble (ieee fused) (out k).val) :
    ∃ P Q o, completeList sh (shOps (ieee fused)) scr big psP memP = some P ∧
      completeList sh (shOps (ieee fused)) scr big psQ memQ = some Q ∧
      flFunction (ieee fused) b g final ⟨sh.len, P.1, Q.1, tol, outSize, junk, scratch⟩ hmem out
        = some (psP.length * psQ.length, o) ∧
      (∀ ab (hab : ab < psP.length) cd (hcd : cd < psQ.length) (x y z w : Exp),
        x.Valid → y.Valid → z.Valid → w.Valid →
        x.am = final.a → y.am = final.b → z.am = final.c → w.am = final.d →
        |(o ((ab * psQ.length + cd) * ncartQ final + Qrt.index psi4List ⟨⟨x, y⟩, ⟨z, w⟩, 0⟩)).val -
            shellERI psP[ab].1 psP[ab].2 psQ[cd].1 psQ[cd].2 x y z w| ≤
          errCount 9910 final (pairPrims psP[ab].1 psP[ab].2 * pairPrims psQ[cd].1 psQ[cd].2) * (1 / 2 ^ 52) *
            (shellSize psP[ab].1 psP[ab].2 psQ[cd].1 psQ[cd].2 R (totalL final) *
              (2 + 2 * R) ^ (min final.a final.b + min final.c final.d).toNat)) ∧
      ∀ k, psP.length * psQ.length * ncartQ final ≤ k → o k = out k := by
  have hF := (C87_ieee fused).1
  exact shells_aux fused b hg hf (by omega) sh hl scr val hscr big psP psQ hR0 hR hP hQ hbra
    hn (kb := 9910) (by norm_num) hx (fun c S T e hS hT hfx => C88_far hF (by rw [e]; exact hl) hS hT b.vec hL
      fun ab hab cd hcd k hk l hl => (hfx ab hab cd hcd k hk l hl).le)
    memP memQ tol htol outSize hout junk scratch hmem out hod

/-! ### The hypotheses can be met -/

/-- A shell with two primitives at `(x, 0, 0)`. -/
noncomputable def twoShell (ptr : ℕ) (x : ℝ) : Shell ℝ :=
  ⟨ptr, 1, 2, fun d => if d = .x then x else 0, fun i => if i = 0 then 1 else 1 / 2, fun _ => 1⟩

theorem twoShell_moderate (ptr : ℕ) {x : ℝ} (hx : x = 0 ∨ x = 1) : (twoShell ptr x).Moderate 1 := by
  refine ⟨two_pos, fun i _ => ?_, fun i _ => ?_, fun i _ => ?_, fun d => ?_, fun d => ?_⟩
  · simp only [twoShell]; split_ifs <;> norm_num
  · simp only [twoShell]; split_ifs <;> norm_num
  · simp only [twoShell]; norm_num
  · simp only [twoShell]; rcases hx with rfl | rfl <;> split_ifs <;> norm_num
  · have h1 : rn 1 = 1 := by simpa using rn_int 1 0 (by norm_num) (by norm_num)
    show rn (if d = .x then x else 0) = if d = .x then x else 0
    rcases hx with rfl | rfl <;> split_ifs
    · exact rn_zero
    · exact rn_zero
    · exact h1
    · exact rn_zero

theorem twoShell_center {p q : ℕ} {x y : ℝ} (hx : x = 0 ∨ x = 1) (hy : y = 0 ∨ y = 1) (i j : ℕ) (d : Dir) :
    0 ≤ FlPrim.center (twoShell p x) (twoShell q y) i j d ∧
      FlPrim.center (twoShell p x) (twoShell q y) i j d ≤ 1 := by
  have hp : ∀ (p : ℕ) (x : ℝ), (x = 0 ∨ x = 1) → 0 ≤ (twoShell p x).pos d ∧ (twoShell p x).pos d ≤ 1 := by
    intro p x hx
    simp only [twoShell]
    rcases hx with rfl | rfl <;> split_ifs <;> norm_num
  have ha : ∀ (p : ℕ) (x : ℝ) (i : ℕ), 0 < (twoShell p x).alpha i := by
    intro p x i
    simp only [twoShell]; split_ifs <;> norm_num
  obtain ⟨a1, a2⟩ := hp p x hx
  obtain ⟨b1, b2⟩ := hp q y hy
  have h1 := ha p x i
  have h2 := ha q y j
  unfold FlPrim.center
  constructor
  · positivity
  · rw [div_le_one (by linarith)]
    nlinarith

theorem twoShell_args (p q r s : ℕ) {x y z w : ℝ} (hx : x = 0 ∨ x = 1) (hy : y = 0 ∨ y = 1) (hz : z = 0 ∨ z = 1)
    (hw : w = 0 ∨ w = 1) : ArgsBelow (twoShell p x) (twoShell q y) (twoShell r z) (twoShell s w) 1 36.5 := by
  intro i _ j _ k _ l _
  have ha : ∀ (p : ℕ) (x : ℝ) (i : ℕ), 0 < (twoShell p x).alpha i ∧ (twoShell p x).alpha i ≤ 1 := by
    intro p x i
    simp only [twoShell]; split_ifs <;> norm_num
  have hr : 0 ≤ redExp (twoShell p x) (twoShell q y) (twoShell r z) (twoShell s w) i j k l ∧
      redExp (twoShell p x) (twoShell q y) (twoShell r z) (twoShell s w) i j k l ≤ 2 := by
    obtain ⟨a1, a2⟩ := ha p x i
    obtain ⟨b1, b2⟩ := ha q y j
    obtain ⟨c1, c2⟩ := ha r z k
    obtain ⟨d1, d2⟩ := ha s w l
    unfold redExp
    refine ⟨by positivity, ?_⟩
    rw [div_le_iff₀ (by linarith)]
    nlinarith [mul_nonneg (add_nonneg a1.le b1.le) (add_nonneg c1.le d1.le)]
  have hd : dist2 (FlPrim.center (twoShell p x) (twoShell q y) i j)
      (FlPrim.center (twoShell r z) (twoShell s w) k l) ≤ 3 := by
    have h := fun d => twoShell_center (p := p) (q := q) hx hy i j d
    have h' := fun d => twoShell_center (p := r) (q := s) hz hw k l d
    unfold dist2
    have sq : ∀ d, (FlPrim.center (twoShell p x) (twoShell q y) i j d -
        FlPrim.center (twoShell r z) (twoShell s w) k l d) ^ 2 ≤ 1 := by
      intro d
      rw [sq_le_one_iff_abs_le_one, abs_le]
      obtain ⟨h1, h2⟩ := h d
      obtain ⟨h3, h4⟩ := h' d
      constructor <;> linarith
    linarith [sq .x, sq .y, sq .z]
  have hd0 : 0 ≤ dist2 (FlPrim.center (twoShell p x) (twoShell q y) i j)
      (FlPrim.center (twoShell r z) (twoShell s w) k l) := by unfold dist2; positivity
  have h1 : shellArg (twoShell p x) (twoShell q y) (twoShell r z) (twoShell s w) i j k l ≤ 3 * 2 :=
    mul_le_mul hd hr.2 hr.1 (by norm_num)
  have h2 : shellArgErr (twoShell p x) (twoShell q y) (twoShell r z) (twoShell s w) i j k l 1 ≤ 1 := by
    unfold shellArgErr
    have e : FlPrim.diffMax 1 ≤ 3 := by
      have : (1 : ℝ) / 2 ^ 800 ≤ 1 := by
        rw [div_le_one (by positivity)]
        exact one_le_pow₀ (by norm_num)
      exact le_trans (add_le_add (le_of_eq (mul_one 2)) this) (by norm_num)
    have e0 : 0 ≤ FlPrim.diffMax 1 := by unfold FlPrim.diffMax; positivity
    have e2 : FlPrim.diffMax 1 ^ 2 ≤ 9 := by nlinarith
    have e3 : FlPrim.diffMax 1 ^ 2 * redExp (twoShell p x) (twoShell q y) (twoShell r z) (twoShell s w) i j k l ≤
        9 * 2 := mul_le_mul e2 hr.2 hr.1 (by norm_num)
    have : 3 * FlPrim.diffMax 1 ^ 2 * redExp (twoShell p x) (twoShell q y) (twoShell r z) (twoShell s w) i j k l + 1 ≤
        55 := by linarith
    calc _ ≤ 24 * (1 / 2 ^ 52) * (55 : ℝ) := mul_le_mul_of_nonneg_left this (by norm_num)
      _ ≤ 1 := by norm_num
  linarith

/-- Non-trivial case: p shells with two primitives each at two centers, a pair of a shell with itself in the
bra, two pairs in the ket, vectors of four lanes, IEEE doubles: all 162 integrals have an error of at most
`1094 * 2^-52` times 16 times the bound. -/
example (fused : Bool) (b : Build) {g : GenCfg} (hg : g.OK) (junk : VPar ℝ) (scratch : ℕ → ℕ → ℕ → VMem ℝ)
    (memP memQ : ℕ → ℝ) (hmem : HMem (Fd (ieee fused))) (out : ℕ → Fd (ieee fused))
    (hod : ∀ k, IsDouble (ieee fused) (out k).val) :
    let A := twoShell 1 0
    let B := twoShell 2 1
    ∃ P Q o, completeList ⟨4, false, false⟩ (shOps (ieee fused)) noScreen 1e99 [(A, A)] memP = some P ∧
      completeList ⟨4, false, false⟩ (shOps (ieee fused)) noScreen 1e99 [(A, B), (B, B)] memQ = some Q ∧
      flFunction (ieee fused) b g ⟨1, 1, 1, 1, ""⟩ ⟨4, P.1, Q.1, 0, 162, junk, scratch⟩ hmem out = some (2, o) ∧
      |(o 81).val - shellERI A A B B ⟨1, 0, 0⟩ ⟨1, 0, 0⟩ ⟨1, 0, 0⟩ ⟨1, 0, 0⟩| ≤
        1094 * (1 / 2 ^ 52) * (shellSize A A B B 1 4 * 16) ∧
      o 162 = out 162 := by
  intro A B
  have hf : ClassOK (⟨1, 1, 1, 1, ""⟩ : QAM) := ⟨by unfold QAM.Valid; decide, rfl, by decide, by decide⟩
  have mA : A.Moderate 1 := twoShell_moderate 1 (.inl rfl)
  have mB : B.Moderate 1 := twoShell_moderate 2 (.inr rfl)
  have nAA : pairPrims A A = 3 := by decide
  have nBB : pairPrims B B = 3 := by decide
  have nAB : pairPrims A B = 4 := by decide
  obtain ⟨P, Q, o, eP, eQ, r, h1, h2⟩ := C89_shells fused b hg hf (by decide) ⟨4, false, false⟩ (by decide) noScreen
    (fun _ _ _ _ => 0) (fun h => by simp at h) 1e99 [(A, A)] [(A, B), (B, B)] (R := 1) (by norm_num) (by norm_num)
    (by
      intro p hp
      simp only [List.mem_singleton] at hp
      subst hp
      exact ⟨mA, mA, fun _ => ⟨rfl, fun _ _ => ⟨rfl, rfl⟩⟩⟩)
    (by
      intro p hp
      simp only [List.mem_cons, List.not_mem_nil, or_false] at hp
      rcases hp with rfl | rfl
      · exact ⟨mA, mB, fun h => absurd h (by decide)⟩
      · exact ⟨mB, mB, fun _ => ⟨rfl, fun _ _ => ⟨rfl, rfl⟩⟩⟩)
    (batchesFull_one (by decide))
    (by
      intro p hp q hq
      simp only [List.mem_singleton] at hp
      simp only [List.mem_cons, List.not_mem_nil, or_false] at hq
      subst hp
      rcases hq with rfl | rfl
      · simp only [nAA, nAB]; norm_num
      · simp only [nAA, nBB]; norm_num)
    (by
      intro p hp q hq
      simp only [List.mem_singleton] at hp
      simp only [List.mem_cons, List.not_mem_nil, or_false] at hq
      subst hp
      rcases hq with rfl | rfl
      · exact twoShell_args 1 1 1 2 (.inl rfl) (.inl rfl) (.inl rfl) (.inr rfl)
      · exact twoShell_args 1 1 2 2 (.inl rfl) (.inl rfl) (.inr rfl) (.inr rfl))
    memP memQ 0 le_rfl 162 (by decide) junk scratch hmem out hod
  refine ⟨P, Q, o, eP, eQ, r, ?_, h2 162 (by decide)⟩
  have := h1 0 (by decide) 1 (by decide) ⟨1, 0, 0⟩ ⟨1, 0, 0⟩ ⟨1, 0, 0⟩ ⟨1, 0, 0⟩ (by decide) (by decide)
    (by decide) (by decide) rfl rfl rfl rfl
  have ei : (0 * [(A, B), (B, B)].length + 1) * ncartQ ⟨1, 1, 1, 1, ""⟩ +
      Qrt.index psi4List ⟨⟨⟨1, 0, 0⟩, ⟨1, 0, 0⟩⟩, ⟨⟨1, 0, 0⟩, ⟨1, 0, 0⟩⟩, 0⟩ = 81 := by decide
  rw [ei] at this
  refine this.trans (le_of_eq ?_)
  have e1 : totalL (⟨1, 1, 1, 1, ""⟩ : QAM) = 4 := by decide
  have e2 : (min (1 : ℤ) 1 + min 1 1).toNat = 2 := by decide
  simp only [List.getElem_cons_zero, List.getElem_cons_succ, e1, e2, nAA, nBB]
  norm_num

end Simint
