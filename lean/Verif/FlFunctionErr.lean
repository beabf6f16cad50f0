import Verif.FlFunctionLemmas
import Verif.Spec.FlFunction
import Verif.Props.FlPrim
import Verif.Props.FlSum
import Verif.Props.HRRRound

/-! Lemmas on the error of a complete function: screening on doubles, sums over the evaluated primitives,
the error of contracted integrals. -/

set_option autoImplicit false

namespace Simint

open Finset
open FlBoys (Arith Rounds u)
open FlPrim (PairIn Elem coefs startMax stepMax lowMax)
open VRRRound (growth)

/-! ## Screening -/

theorem vectorMax_val {F : Arith} (len : ℕ) (v : ℕ → Fd F) :
    (vectorMax len v).val = vectorMax len fun n => (v n).val := by
  have h : ∀ (l : List ℕ) (m : Fd F),
      (l.foldl (fun m n => if v n > m then v n else m) m).val =
        l.foldl (fun m n => if (v n).val > m then (v n).val else m) m.val := by
    intro l
    induction l with
    | nil => intro m; rfl
    | cons a l ih =>
      intro m
      rw [List.foldl_cons, List.foldl_cons, ih]
      congr 1
      by_cases hm : v a > m
      · have h' : (v a).val > m.val := hm
        rw [if_pos hm, if_pos h']
      · have h' : ¬ (v a).val > m.val := hm
        rw [if_neg hm, if_neg h']
  exact h _ _

section
variable {F : Arith} {b : Build} {g : GenCfg} {final : QAM} {c : Call ℝ} {H : HRRAlgo} {A : VRRAlgo}

theorem kept_iff (i j : ℕ) : (flEnv F b g final c H A).Kept i j ↔ c.KeptFl F i j := by
  have hv := vectorMax_val (F := F) c.len
    (fun n => (⟨c.P.screen i⟩ * ⟨c.Q.screen (j / c.len * c.len + n)⟩ : Fd F))
  have hv' : vectorMax c.len (fun n => F.fl (c.P.screen i * c.Q.screen (j / c.len * c.len + n))) =
    (vectorMax c.len (fun n => (⟨c.P.screen i⟩ * ⟨c.Q.screen (j / c.len * c.len + n)⟩ : Fd F))).val := hv.symm
  unfold Call.KeptFl
  rw [hv']
  exact Iff.rfl

theorem overPrims_eq (ab cd : ℕ) (f : ℕ → ℕ → ℝ) :
    overPrims (flEnv F b g final c H A) ab cd f = overKept F c ab cd fun k l =>
      f (tightStart c.P.nprim12 ab + k) (paddedStart c.len c.Q.nprim12 cd + l) := by
  unfold overPrims overKept
  refine Finset.sum_congr rfl fun k _ => Finset.sum_congr rfl fun l _ => ?_
  have := kept_iff (F := F) (b := b) (g := g) (final := final) (c := c) (H := H) (A := A)
    (tightStart c.P.nprim12 ab + k) (paddedStart c.len c.Q.nprim12 cd + l)
  by_cases h : c.KeptFl F (tightStart c.P.nprim12 ab + k) (paddedStart c.len c.Q.nprim12 cd + l)
  · rw [if_pos h]; exact if_pos (this.2 h)
  · rw [if_neg h]; exact if_neg fun h' => h (this.1 h')

end

/-! ## Sums over the evaluated primitives -/

section
variable {F : Arith} {c : Call ℝ} {ab cd : ℕ}

theorem overKept_le {f f' : ℕ → ℕ → ℝ}
    (h : ∀ k < c.P.nprim12 ab, ∀ l < c.Q.nprim12 cd,
      c.KeptFl F (tightStart c.P.nprim12 ab + k) (paddedStart c.len c.Q.nprim12 cd + l) → f k l ≤ f' k l) :
    overKept F c ab cd f ≤ overKept F c ab cd f' := by
  refine Finset.sum_le_sum fun k hk => Finset.sum_le_sum fun l hl => ?_
  split_ifs with hh
  · exact h k (mem_range.1 hk) l (mem_range.1 hl) hh
  · exact le_rfl

theorem overKept_nonneg {f : ℕ → ℕ → ℝ}
    (h : ∀ k < c.P.nprim12 ab, ∀ l < c.Q.nprim12 cd, 0 ≤ f k l) : 0 ≤ overKept F c ab cd f := by
  refine Finset.sum_nonneg fun k hk => Finset.sum_nonneg fun l hl => ?_
  split_ifs
  · exact h k (mem_range.1 hk) l (mem_range.1 hl)
  · exact le_rfl

theorem overKept_mul (r : ℝ) (f : ℕ → ℕ → ℝ) :
    overKept F c ab cd (fun k l => r * f k l) = r * overKept F c ab cd f := by
  unfold overKept
  rw [Finset.mul_sum]
  refine Finset.sum_congr rfl fun k _ => ?_
  rw [Finset.mul_sum]
  refine Finset.sum_congr rfl fun l _ => ?_
  split_ifs <;> simp

theorem overKept_abs (f : ℕ → ℕ → ℝ) : |overKept F c ab cd f| ≤ overKept F c ab cd fun k l => |f k l| := by
  unfold overKept
  refine (Finset.abs_sum_le_sum_abs _ _).trans (Finset.sum_le_sum fun k _ => ?_)
  refine (Finset.abs_sum_le_sum_abs _ _).trans (Finset.sum_le_sum fun l _ => ?_)
  split_ifs <;> simp

theorem overKept_single {f : ℕ → ℕ → ℝ} (h : ∀ k < c.P.nprim12 ab, ∀ l < c.Q.nprim12 cd, 0 ≤ f k l)
    {k l : ℕ} (hk : k < c.P.nprim12 ab) (hl : l < c.Q.nprim12 cd)
    (hh : c.KeptFl F (tightStart c.P.nprim12 ab + k) (paddedStart c.len c.Q.nprim12 cd + l)) :
    f k l ≤ overKept F c ab cd f := by
  classical
  have h0 : ∀ k ∈ range (c.P.nprim12 ab), ∀ l ∈ range (c.Q.nprim12 cd),
      0 ≤ if c.KeptFl F (tightStart c.P.nprim12 ab + k) (paddedStart c.len c.Q.nprim12 cd + l) then f k l
        else 0 := by
    intro k hk l hl
    split_ifs
    · exact h k (mem_range.1 hk) l (mem_range.1 hl)
    · exact le_rfl
  have h1 := Finset.single_le_sum (h0 k (mem_range.2 hk)) (mem_range.2 hl)
  have h2 := Finset.single_le_sum (fun k hk => Finset.sum_nonneg (h0 k hk)) (mem_range.2 hk)
  rw [if_pos hh] at h1
  unfold overKept
  convert h1.trans h2 using 4

end

/-! ## What errors are measured with -/

section
variable {F : Arith} {c : Call ℝ} {S T : ℕ → PairData} {R : ℝ} {ab cd : ℕ}

theorem primSize_facts (hF : Sound F) (hS : HoldsFl F c.P (tightStart c.P.nprim12) S R)
    (hT : HoldsFl F c.Q (paddedStart c.len c.Q.nprim12) T R) (hab : ab < c.P.nclip) (hcd : cd < c.Q.nclip)
    {k l : ℕ} (hk : k < c.P.nprim12 ab) (hl : l < c.Q.nprim12 cd) :
    (∀ n, 11 * κ ≤ primSize S T R ab cd n k l) ∧ Monotone fun n => primSize S T R ab cd n k l := by
  have hP := hS.size ab hab k hk
  have hQ := hT.size cd hcd l hl
  have h0 := FlPrim.startMax_low hF hP hQ
  have hκ := κ_pos
  have e : (11 : ℝ) / 2 ^ 1022 = 11 * κ := by unfold κ; ring
  rw [e] at h0
  have hw : 0 ≤ stepMax R := by
    have := (FlPrim.diffMax_le hF hP).2
    unfold stepMax; positivity
  have hv : 0 ≤ lowMax ((S ab).A.alpha ((S ab).prim k).1 + (S ab).B.alpha ((S ab).prim k).2)
      ((T cd).A.alpha ((T cd).prim l).1 + (T cd).B.alpha ((T cd).prim l).2) := by
    have p0 := hP.sumR.pos
    unfold lowMax
    have : 0 ≤ max (1 / 2 * (1 / ((S ab).A.alpha ((S ab).prim k).1 + (S ab).B.alpha ((S ab).prim k).2)))
      (1 / 2 * (1 / ((T cd).A.alpha ((T cd).prim l).1 + (T cd).B.alpha ((T cd).prim l).2))) :=
      le_max_of_le_left (by positivity)
    linarith
  have hm := VRRRound.growth_mono (M := startMax (S ab).A (S ab).B (T cd).A (T cd).B ((S ab).prim k).1
    ((S ab).prim k).2 ((T cd).prim l).1 ((T cd).prim l).2 R) (by linarith) hw hv
  refine ⟨fun n => h0.trans ?_, hm⟩
  have := hm (Nat.zero_le n)
  simpa [primSize, growth] using this

theorem sizeMax_facts (hF : Sound F) (hS : HoldsFl F c.P (tightStart c.P.nprim12) S R)
    (hT : HoldsFl F c.Q (paddedStart c.len c.Q.nprim12) T R) (hab : ab < c.P.nclip) (hcd : cd < c.Q.nclip) :
    (∀ n, 2 * κ ≤ sizeMax F c S T R ab cd n) ∧ (Monotone (sizeMax F c S T R ab cd)) ∧
      ∀ n, overKept F c ab cd (primSize S T R ab cd n) ≤ sizeMax F c S T R ab cd n := by
  have hκ := κ_pos
  have e : 2 * κ ≤ 1 / 2 ^ 1000 := by
    have h1 := FlPrim.κT (show 1 + 1021 = 1022 by norm_num)
    have h2 : FlPrim.S 1021 ≤ FlPrim.S 1000 := FlPrim.S_le (by norm_num)
    have h3 : FlPrim.T 1 = 2 := by unfold FlPrim.T; norm_num
    rw [h3] at h1
    rw [FlPrim.S_def]
    linarith
  refine ⟨fun n => ?_, fun n m h => ?_, fun n => ?_⟩
  · have : 0 ≤ overKept F c ab cd (primSize S T R ab cd n) := overKept_nonneg fun k hk l hl => by
      have := (primSize_facts hF hS hT hab hcd hk hl).1 n
      linarith
    unfold sizeMax
    linarith
  · unfold sizeMax
    have := overKept_le (F := F) (c := c) (ab := ab) (cd := cd) (f := primSize S T R ab cd n)
      (f' := primSize S T R ab cd m) fun k hk l hl _ => (primSize_facts hF hS hT hab hcd hk hl).2 h
    linarith
  · unfold sizeMax
    linarith

end

/-! ## Contracted integrals -/

section
variable {F : Arith} {b : Build} {g : GenCfg} {final : QAM} {c : Call ℝ} {H : HRRAlgo} {A : VRRAlgo}
  {S T : ℕ → PairData} {R : ℝ}

theorem prim_err (hF : Sound F) (hst : Stable F) (hg : g.OK) {dir : RRType × RRType} {ams : List QAM} {L : ℕ}
    (hL : L ≤ 36) (hA : AlgosOK g dir ams L H A)
    (hS : HoldsFl F c.P (tightStart c.P.nprim12) S R)
    (hT : HoldsFl F c.Q (paddedStart c.len c.Q.nprim12) T R) {kb : ℕ} (hkb : kb ≤ 2 ^ 19)
    (hboys : BoysOK F c b.vec L kb) {ab cd : ℕ} (hab : ab < c.P.nclip) (hcd : cd < c.Q.nclip)
    {k l : ℕ} (hk : k < c.P.nprim12 ab) (hl : l < c.Q.nprim12 cd)
    (hkept : c.KeptFl F (tightStart c.P.nprim12 ab + k) (paddedStart c.len c.Q.nprim12 cd + l))
    (hgr : 3 * primSize S T R ab cd L k l ≤ 2 ^ 1022)
    {q : Qrt} (hq : q.Valid) (hqt : q.am4 ∈ H.top.map QAM.notag) :
    |exactPrim S T ab cd k l q.bra.left q.bra.right q.ket.left q.ket.right| ≤
        primSize S T R ab cd q.am.toNat k l ∧
      |(flPrim F b g A L c (tightStart c.P.nprim12 ab + k)
        (paddedStart c.len c.Q.nprim12 cd + l) ⟨c.Q.prefac (paddedStart c.len c.Q.nprim12 cd + l)⟩ q.am4
        (q.index psi4List)).val - exactPrim S T ab cd k l q.bra.left q.bra.right q.ket.left q.ket.right| ≤
        (kb + 110 + 46 * q.am.toNat : ℕ) * (1 / 2 ^ 52) * primSize S T R ab cd q.am.toNat k l := by
  have hdiv : (paddedStart c.len c.Q.nprim12 cd + l) / c.len * c.len +
      (paddedStart c.len c.Q.nprim12 cd + l) % c.len = paddedStart c.len c.Q.nprim12 cd + l := by
    rw [Nat.mul_comm]; exact Nat.div_add_mod _ _
  have hlt : q.index psi4List < ncartQ q.am4 := Qrt.index_lt psi4_ordOK hq
  obtain ⟨m, r, h⟩ := FlPrim.lane_err hg hL hA F hF (S ab).A (S ab).B (T cd).A (T cd).B ((S ab).prim k).1
    ((S ab).prim k).2
    ((T cd).prim l).1 ((T cd).prim l).2 R (hS.size ab hab k hk) (hT.size cd hcd l hl) c.P c.Q
    (tightStart c.P.nprim12 ab + k) ((paddedStart c.len c.Q.nprim12 cd + l) / c.len * c.len)
    ((paddedStart c.len c.Q.nprim12 cd + l) % c.len) (hS.prims ab hab k hk)
    (by rw [hdiv]; exact hT.prims cd hcd l hl) b.vec c.len kb hkb
    (by rw [hdiv]; exact hboys ab hab cd hcd k hk l hl hkept) hgr c.junk
    (c.scratch (tightStart c.P.nprim12 ab + k) ((paddedStart c.len c.Q.nprim12 cd + l) / c.len * c.len)
      ((paddedStart c.len c.Q.nprim12 cd + l) % c.len))
  have hval : (flPrim F b g A L c (tightStart c.P.nprim12 ab + k)
      (paddedStart c.len c.Q.nprim12 cd + l) ⟨c.Q.prefac (paddedStart c.len c.Q.nprim12 cd + l)⟩ q.am4
      (q.index psi4List)).val = m q.am4 (q.index psi4List) := by
    unfold flPrim
    rw [hdiv] at r
    split_ifs with h0
    · exact ((lane_good hF hst hg hA r q.am4 hqt _ hlt).2 h0).symm
    · rw [r]
  have hb := h q hq hqt
  rw [← hval] at hb
  exact hb

theorem contracted_err (hF : Sound F) (hst : Stable F) (hg : g.OK) (hf : ClassOK final)
    (hL : totalL final ≤ 24) (hc : CallOK final c) (e : g.algos final = some (H, A))
    (hA : AlgosOK g (hrrDirections final) [final] (totalL final) H A)
    (hS : HoldsFl F c.P (tightStart c.P.nprim12) S R)
    (hT : HoldsFl F c.Q (paddedStart c.len c.Q.nprim12) T R) {kb : ℕ} (hkb : kb ≤ 2 ^ 19)
    (hboys : BoysOK F c b.vec (totalL final) kb) {ab cd : ℕ} (hab : ab < c.P.nclip) (hcd : cd < c.Q.nclip)
    (hn : c.P.nprim12 ab * c.Q.nprim12 cd ≤ 2 ^ 49)
    (hov : 4 * sizeMax F c S T R ab cd (totalL final) ≤ 2 ^ 1022)
    {q : Qrt} (hq : q.Valid) (hqt : q.am4 ∈ H.top) {x : ℝ}
    (hx : SumOf F x (quartetValues (flEnv F b g final c H A) (flPrim F b g A (totalL final) c) ab cd q.am4
      (q.index psi4List))) :
    |exactERI F c S T ab cd q.bra.left q.bra.right q.ket.left q.ket.right| ≤
        sizeMax F c S T R ab cd q.am.toNat ∧
      |x - exactERI F c S T ab cd q.bra.left q.bra.right q.ket.left q.ket.right| ≤
        (kb + 110 + 46 * q.am.toNat + 3 * (c.P.nprim12 ab * c.Q.nprim12 cd - 1) : ℕ) * (1 / 2 ^ 52) *
          sizeMax F c S T R ab cd q.am.toNat := by
  have hκ := κ_pos
  have hqa : q.am.toNat ≤ totalL final := by
    obtain ⟨A', e', -, M, m1, m2, -⟩ := C15_orders_sufficient psi4_ordOK psi4_start hg.V
      (vrrDirections_nodup _) (vrrDirections_mem (classTargets psi4List (H.top.map QAM.notag))) hA.top_ok
    rw [hA.vcreate, Option.some.injEq] at e'
    subst e'
    rw [hA.mreq, Option.some.injEq] at m1
    subst m1
    have := m2 q.am4 (List.mem_map.2 ⟨_, hqt, notag_eq (hA.tag1 hf _ hqt)⟩)
    simp only [Qrt.am4] at this
    unfold Qrt.am
    omega
  have hqt' : q.am4 ∈ H.top.map QAM.notag := List.mem_map.2 ⟨_, hqt, notag_eq (hA.tag1 hf _ hqt)⟩
  have hlt : q.index psi4List < ncartQ q.am4 := Qrt.index_lt psi4_ordOK hq
  obtain ⟨s1, s2, s3⟩ := sizeMax_facts hF hS hT hab hcd
  have sle := s2 hqa
  have hK : (kb + 110 + 46 * q.am.toNat : ℕ) * ((1 : ℝ) / 2 ^ 52) ≤ 1 := by
    have h1 : kb + 110 + 46 * q.am.toNat ≤ 2 ^ 20 := by norm_num at hkb ⊢; omega
    have h2 : ((kb + 110 + 46 * q.am.toNat : ℕ) : ℝ) ≤ 2 ^ 20 := by exact_mod_cast h1
    have h3 : ((kb + 110 + 46 * q.am.toNat : ℕ) : ℝ) * (1 / 2 ^ 52) ≤ 2 ^ 20 * (1 / 2 ^ 52) := by gcongr
    refine h3.trans (by norm_num)
  set K := ((kb + 110 + 46 * q.am.toNat : ℕ) : ℝ) * ((1 : ℝ) / 2 ^ 52) with hKdef
  have hK0 : 0 ≤ K := by positivity
  set G := primSize S T R ab cd q.am.toNat with hG
  have hG0 : ∀ k < c.P.nprim12 ab, ∀ l < c.Q.nprim12 cd, κ ≤ G k l := fun k hk l hl => by
    have := (primSize_facts hF hS hT hab hcd hk hl).1 q.am.toNat
    linarith
  set Y : ℕ → ℕ → ℝ := fun k l => exactPrim S T ab cd k l q.bra.left q.bra.right q.ket.left q.ket.right
    with hY
  -- one primitive
  have prim : ∀ k < c.P.nprim12 ab, ∀ l < c.Q.nprim12 cd,
      c.KeptFl F (tightStart c.P.nprim12 ab + k) (paddedStart c.len c.Q.nprim12 cd + l) →
      |Y k l| ≤ G k l ∧ |(flPrim F b g A (totalL final) c (tightStart c.P.nprim12 ab + k)
        (paddedStart c.len c.Q.nprim12 cd + l) ⟨c.Q.prefac (paddedStart c.len c.Q.nprim12 cd + l)⟩ q.am4
        (q.index psi4List)).val - Y k l| ≤ K * G k l := by
    intro k hk l hl hkept
    have hfacts := fun k hk l hl => primSize_facts hF hS hT hab hcd (k := k) (l := l) hk hl
    have hgr : 3 * primSize S T R ab cd (totalL final) k l ≤ 2 ^ 1022 := by
      have h1 := overKept_single (F := F) (c := c) (ab := ab) (cd := cd)
        (f := primSize S T R ab cd (totalL final))
        (fun k hk l hl => by have := (hfacts k hk l hl).1 (totalL final); linarith) hk hl hkept
      have h2 := s3 (totalL final)
      have h3 := s1 (totalL final)
      refine le_trans ?_ hov
      linarith
    exact prim_err hF hst hg (by omega) hA hS hT hkb hboys hab hcd hk hl hkept hgr hq hqt'
  have hex : exactERI F c S T ab cd q.bra.left q.bra.right q.ket.left q.ket.right = overKept F c ab cd Y := rfl
  have habs : |overKept F c ab cd Y| ≤ overKept F c ab cd G :=
    (overKept_abs Y).trans (overKept_le fun k hk l hl hkept => (prim k hk l hl hkept).1)
  rw [hex]
  refine ⟨habs.trans (s3 _), ?_⟩
  have key := C87_total hF hst (flEnv F b g final c H A) (flPrim F b g A (totalL final) c)
    (flEnv_laneWise hF hst hg hf hL hA hc.braPos hc.ketPos) ab cd q.am4 (q.index psi4List) x hx
    (fun i j => flPrim_double hF hst hg hf hA i j _ hqt hlt)
    (hn.trans (by norm_num))
    (fun i j => Y (i - tightStart c.P.nprim12 ab) (j - paddedStart c.len c.Q.nprim12 cd))
    (fun i j => K * G (i - tightStart c.P.nprim12 ab) (j - paddedStart c.len c.Q.nprim12 cd))
    (by
      intro k hk l hl hkept
      have := (prim k hk l hl ((kept_iff _ _).1 hkept)).2
      simp only [show (flEnv F b g final c H A).len = c.len from rfl,
        show (flEnv F b g final c H A).P.nprim12 = c.P.nprim12 from rfl,
        show (flEnv F b g final c H A).Q.nprim12 = c.Q.nprim12 from rfl, Nat.add_sub_cancel_left]
      exact this)
  have hmaj : overKept F c ab cd (fun k l => |Y k l| + K * G k l + κ) ≤ 3 * overKept F c ab cd G := by
    rw [← overKept_mul]
    refine overKept_le fun k hk l hl hkept => ?_
    have h1 : |Y k l| ≤ G k l := (prim k hk l hl hkept).1
    have h2 := hG0 k hk l hl
    have h3 : K * G k l ≤ 1 * G k l := mul_le_mul_of_nonneg_right hK (by linarith)
    linarith
  rw [overPrims_eq, overPrims_eq, overPrims_eq] at key
  simp only [Nat.add_sub_cancel_left] at key
  have s0 := s3 q.am.toNat
  have key := key (by
    have := s1 q.am.toNat
    have := overKept_nonneg (F := F) (c := c) (ab := ab) (cd := cd) (f := G)
      fun k hk l hl => hκ.le.trans (hG0 k hk l hl)
    refine le_trans ?_ hov
    linarith)
  rw [overKept_mul] at key
  refine key.trans ?_
  have hN : (0 : ℝ) ≤ (((flEnv F b g final c H A).P.nprim12 ab * (flEnv F b g final c H A).Q.nprim12 cd - 1 : ℕ) : ℝ) *
    (1 / 2 ^ 52) := by positivity
  have h1 := mul_le_mul_of_nonneg_left (hmaj.trans (mul_le_mul_of_nonneg_left s0 (by norm_num : (0 : ℝ) ≤ 3))) hN
  have h2 := mul_le_mul_of_nonneg_left s0 hK0
  refine (add_le_add h2 h1).trans (le_of_eq ?_)
  simp only [hKdef, show (flEnv F b g final c H A).P.nprim12 = c.P.nprim12 from rfl,
    show (flEnv F b g final c H A).Q.nprim12 = c.Q.nprim12 from rfl]
  push_cast
  ring

end

/-! ## The horizontal stage -/

theorem size_majorant {lb lk : Bool} {AB CD : Dir → ℝ} {R : ℝ} (hR : 0 ≤ R) (hAB : ∀ d, |AB d| ≤ 2 * R)
    (hCD : ∀ d, |CD d| ≤ 2 * R) {σ : ℕ → ℝ} (hm : Monotone σ) (h2 : ∀ n, 2 * κ ≤ σ n) :
    HRRRound.Majorant lb lk AB CD fun a b c d => σ (a.am + b.am + c.am + d.am).toNat *
      (2 + 2 * R) ^ ((if lb then a else b).am + (if lk then c else d).am).toNat := by
  have hκ := κ_pos
  have key : ∀ (h : ℝ) (s n : ℕ), |h| ≤ 2 * R →
      σ (s + 1) * (2 + 2 * R) ^ n + |h| * (σ s * (2 + 2 * R) ^ n) + 2 * κ ≤
        σ (s + 1) * (2 + 2 * R) ^ (n + 1) := by
    intro h s n hh
    have p1 : 1 ≤ (2 + 2 * R) ^ n := one_le_pow₀ (by linarith)
    have g1 := h2 s
    have g2 := h2 (s + 1)
    have g3 := hm (Nat.le_succ s)
    have e1 : |h| * (σ s * (2 + 2 * R) ^ n) ≤ 2 * R * (σ (s + 1) * (2 + 2 * R) ^ n) := by
      refine mul_le_mul hh (mul_le_mul_of_nonneg_right g3 (by positivity)) ?_ (by positivity)
      exact mul_nonneg (by linarith) (by positivity)
    have e2 : 2 * κ * 1 ≤ σ (s + 1) * (2 + 2 * R) ^ n := mul_le_mul g2 p1 (by norm_num) (by linarith)
    rw [pow_succ]
    nlinarith
  constructor
  · intro a b c d i ha hb hc hd
    have ha := ha.am_nonneg
    have hb := hb.am_nonneg
    have hc := hc.am_nonneg
    have hd := hd.am_nonneg
    have t1 : (a.am + (b.am + 1) + c.am + d.am).toNat = (a.am + b.am + c.am + d.am).toNat + 1 := by omega
    have t2 : (a.am + 1 + b.am + c.am + d.am).toNat = (a.am + b.am + c.am + d.am).toNat + 1 := by omega
    cases lb <;> cases lk <;> simp only [if_true, if_false, Bool.false_eq_true, Exp.am_step, t1, t2]
    · rw [show (b.am + 1 + d.am).toNat = (b.am + d.am).toNat + 1 by omega]; exact key _ _ _ (hAB i)
    · rw [show (b.am + 1 + c.am).toNat = (b.am + c.am).toNat + 1 by omega]; exact key _ _ _ (hAB i)
    · rw [show (a.am + 1 + d.am).toNat = (a.am + d.am).toNat + 1 by omega]; exact key _ _ _ (hAB i)
    · rw [show (a.am + 1 + c.am).toNat = (a.am + c.am).toNat + 1 by omega]; exact key _ _ _ (hAB i)
  · intro a b c d i ha hb hc hd
    have ha := ha.am_nonneg
    have hb := hb.am_nonneg
    have hc := hc.am_nonneg
    have hd := hd.am_nonneg
    have t1 : (a.am + b.am + c.am + (d.am + 1)).toNat = (a.am + b.am + c.am + d.am).toNat + 1 := by omega
    have t2 : (a.am + b.am + (c.am + 1) + d.am).toNat = (a.am + b.am + c.am + d.am).toNat + 1 := by omega
    cases lb <;> cases lk <;> simp only [if_true, if_false, Bool.false_eq_true, Exp.am_step, t1, t2]
    · rw [show (b.am + (d.am + 1)).toNat = (b.am + d.am).toNat + 1 by omega]; exact key _ _ _ (hCD i)
    · rw [show (b.am + (c.am + 1)).toNat = (b.am + c.am).toNat + 1 by omega]; exact key _ _ _ (hCD i)
    · rw [show (a.am + (d.am + 1)).toNat = (a.am + d.am).toNat + 1 by omega]; exact key _ _ _ (hCD i)
    · rw [show (a.am + (c.am + 1)).toNat = (a.am + c.am).toNat + 1 by omega]; exact key _ _ _ (hCD i)

theorem directions_stepped (final : QAM) :
    (steppedAM (hrrDirections final).1 final.bra + steppedAM (hrrDirections final).2 final.ket).toNat =
      (min final.a final.b + min final.c final.d).toNat := by
  congr 1
  unfold hrrDirections steppedAM
  simp only [QAM.bra, QAM.ket]
  congr 1
  · split_ifs with h1 h2 h2
    · omega
    · simp [RRType.isLeft] at h2
    · simp [RRType.isLeft] at h2
    · omega
  · split_ifs with h1 h2 h2
    · omega
    · simp [RRType.isLeft] at h2
    · simp [RRType.isLeft] at h2
    · omega

section
variable {F : Arith} {b : Build} {g : GenCfg} {final : QAM} {c : Call ℝ} {H : HRRAlgo} {A : VRRAlgo}
  {S T : ℕ → PairData} {R : ℝ}

theorem exactERI_hrr (hS : HoldsFl F c.P (tightStart c.P.nprim12) S R)
    (hT : HoldsFl F c.Q (paddedStart c.len c.Q.nprim12) T R) {ab cd : ℕ} (hab : ab < c.P.nclip)
    (hcd : cd < c.Q.nclip) :
    HRRFam (fun d => (S ab).A.pos d - (S ab).B.pos d) (fun d => (T cd).A.pos d - (T cd).B.pos d)
      (exactERI F c S T ab cd) := by
  classical
  unfold exactERI overKept
  refine HRRFam.sum _ fun k hk => HRRFam.sum _ fun l hl => HRRFam.ite _ (HRRFam.smul _ ?_)
  have hP := hS.size ab hab k (mem_range.1 hk)
  have hQ := hT.size cd hcd l (mem_range.1 hl)
  exact coulomb_hrr hP.ar.pos hP.br.pos hQ.ar.pos hQ.br.pos _ _ _ _

theorem pow_two_le {k : ℕ} (h : k ≤ 2 ^ 52) : (1 + u) ^ k ≤ 2 := by
  have hg := γ_le h
  unfold γ at hg
  have : (k : ℝ) ≤ 2 ^ 52 := by exact_mod_cast h
  have : (k : ℝ) * (1 / 2 ^ 52) ≤ 2 ^ 52 * (1 / 2 ^ 52) := by gcongr
  norm_num at this hg ⊢
  linarith

theorem horizontal_err (hF : Sound F) (hst : Stable F) (hg : g.OK) (hf : ClassOK final)
    (hL : totalL final ≤ 24) (hc : CallOK final c) (e : g.algos final = some (H, A))
    (hA : AlgosOK g (hrrDirections final) [final] (totalL final) H A)
    (hS : HoldsFl F c.P (tightStart c.P.nprim12) S R)
    (hT : HoldsFl F c.Q (paddedStart c.len c.Q.nprim12) T R) {kb : ℕ} (hkb : kb ≤ 2 ^ 19)
    (hboys : BoysOK F c b.vec (totalL final) kb) {ab cd : ℕ} (hab : ab < c.P.nclip) (hcd : cd < c.Q.nclip)
    (hn : c.P.nprim12 ab * c.Q.nprim12 cd ≤ 2 ^ 49)
    (hov : 4 * (sizeMax F c S T R ab cd (totalL final) * (2 + 2 * R) ^ totalL final) ≤ 2 ^ 1022)
    {X : QAM → ℕ → Fd F} (hX : ∀ t ∈ H.top, ∀ k < ncartQ t, SumOf F (X t k).val
      (quartetValues (flEnv F b g final c H A) (flPrim F b g A (totalL final) c) ab cd t k)) :
    ∃ m', HRRRound.runM F b.fuse b.fuseB b.fuseK psi4List g.enumD g.he g.hg H
      (fun d => c.P.AB d ab) (fun d => c.Q.AB d cd) H.order (fun t k => (X t k).val) = some m' ∧
      ∀ x y z w : Exp, x.Valid → y.Valid → z.Valid → w.Valid →
        x.am = final.a → y.am = final.b → z.am = final.c → w.am = final.d →
        |m' final (Qrt.index psi4List ⟨⟨x, y⟩, ⟨z, w⟩, 0⟩) - exactERI F c S T ab cd x y z w| ≤
          errCount kb final (c.P.nprim12 ab * c.Q.nprim12 cd) * (1 / 2 ^ 52) *
            (sizeMax F c S T R ab cd (totalL final) *
              (2 + 2 * R) ^ (min final.a final.b + min final.c final.d).toNat) := by
  have hκ := κ_pos
  have hR : 0 ≤ R := (abs_nonneg _).trans (hS.pos ab hab .x).1
  have hX1 : 1 ≤ 2 + 2 * R := by linarith
  obtain ⟨s1, s2, s3⟩ := sizeMax_facts hF hS hT hab hcd
  have hp1 : ∀ n, 1 ≤ (2 + 2 * R) ^ n := fun n => one_le_pow₀ hX1
  have hov' : 4 * sizeMax F c S T R ab cd (totalL final) ≤ 2 ^ 1022 := by
    refine le_trans ?_ hov
    have h1 := s1 (totalL final)
    have h2 := hp1 (totalL final)
    have : sizeMax F c S T R ab cd (totalL final) * 1 ≤
        sizeMax F c S T R ab cd (totalL final) * (2 + 2 * R) ^ totalL final :=
      mul_le_mul_of_nonneg_left h2 (by linarith)
    linarith
  obtain ⟨H', e', key⟩ := HRRRound.C84_general hg.D hg.Q (bty := (hrrDirections final).1)
    (kty := (hrrDirections final).2)
    (by simp only [hrrDirections]; split <;> simp) (by simp only [hrrDirections]; split <;> simp)
    (ams := [final]) (by simpa using hf.valid) (by simpa using ⟨hf.bra, hf.ket⟩) g.he g.hg
  rw [hA.hcreate, Option.some.injEq] at e'
  subst e'
  have hcl := hrrCreate_closed hg.Q hA.hcreate
    (Pr := fun q => q.a + q.b ≤ final.a + final.b ∧ q.c + q.d ≤ final.c + final.d)
    (fun q ⟨h1, h2⟩ d hd => by
      have := deps_sums hA.hok.bra hA.hok.ket hd
      exact ⟨by omega, by omega⟩)
    (fun q hq => by rw [List.mem_singleton.1 hq]; exact ⟨le_rfl, le_rfl⟩)
  have hstep : ∀ (ty : RRType) (p : ℤ × ℤ), 0 ≤ p.1 → 0 ≤ p.2 → steppedAM ty p ≤ p.1 + p.2 := by
    intro ty p h1 h2
    unfold steppedAM
    split <;> omega
  set K := kb + 110 + 46 * totalL final + 3 * (c.P.nprim12 ab * c.Q.nprim12 cd - 1) with hKdef
  have hK : ∀ n ≤ 24, 2 * K + 3 * n ≤ 2 ^ 52 := by
    intro n hn'
    norm_num at hkb hn ⊢
    omega
  have hdiff : ∀ a b : ℝ, |a| ≤ R ∧ |b| ≤ R → |a - b| ≤ 2 * R := by
    intro a b ⟨h1, h2⟩
    exact (abs_sub a b).trans (by linarith)
  have tot : ∀ {q : QAM}, q.a + q.b ≤ final.a + final.b ∧ q.c + q.d ≤ final.c + final.d →
      (q.a + q.b + q.c + q.d).toNat ≤ totalL final := by
    intro q h
    unfold totalL
    omega
  obtain ⟨m', r, hm⟩ := key F hF.toRounds b.fuse b.fuseB b.fuseK
    (fun d => (S ab).A.pos d - (S ab).B.pos d) (fun d => (T cd).A.pos d - (T cd).B.pos d)
    (fun d => c.P.AB d ab) (fun d => c.Q.AB d cd) (hS.AB ab hab) (hT.AB cd hcd)
    (fun _ => exactERI F c S T ab cd)
    (fun _ a b c' d => sizeMax F c S T R ab cd (a.am + b.am + c'.am + d.am).toNat *
      (2 + 2 * R) ^ ((if (hrrDirections final).1.isLeft then a else b).am +
        (if (hrrDirections final).2.isLeft then c' else d).am).toNat)
    (fun _ => exactERI_hrr hS hT hab hcd)
    (fun _ => size_majorant hR (fun d => hdiff _ _ (hS.pos ab hab d)) (fun d => hdiff _ _ (hT.pos cd hcd d)) s2 s1)
    (2 * K) (by
      intro q hq x y z w vx vy vz vw ex ey ez ew
      have hb := tot (hcl.2 q hq)
      have hx := vx.am_nonneg
      have hy := vy.am_nonneg
      have hz := vz.am_nonneg
      have hw := vw.am_nonneg
      have h1 := hstep (hrrDirections final).1 q.bra (by rw [show q.bra.1 = q.a from rfl]; omega)
        (by rw [show q.bra.2 = q.b from rfl]; omega)
      have h2 := hstep (hrrDirections final).2 q.ket (by rw [show q.ket.1 = q.c from rfl]; omega)
        (by rw [show q.ket.2 = q.d from rfl]; omega)
      have hle : (steppedAM (hrrDirections final).1 q.bra + steppedAM (hrrDirections final).2 q.ket).toNat ≤
          totalL final := by
        simp only [QAM.bra, QAM.ket] at h1 h2 ⊢
        omega
      rw [HRRRound.am_stepped (hrrDirections final).1 (p := q.bra) ex ey,
        HRRRound.am_stepped (hrrDirections final).2 (p := q.ket) ez ew, ex, ey, ez, ew]
      have g1 := pow_two_le (hK _ (hle.trans hL))
      have g2 : sizeMax F c S T R ab cd (q.a + q.b + q.c + q.d).toNat *
          (2 + 2 * R) ^ (steppedAM (hrrDirections final).1 q.bra + steppedAM (hrrDirections final).2 q.ket).toNat ≤
          sizeMax F c S T R ab cd (totalL final) * (2 + 2 * R) ^ totalL final :=
        mul_le_mul (s2 hb) (pow_le_pow_right₀ hX1 hle) (by positivity) (by
          have := s1 (totalL final); linarith)
      have g0 : 0 ≤ sizeMax F c S T R ab cd (q.a + q.b + q.c + q.d).toNat *
          (2 + 2 * R) ^ (steppedAM (hrrDirections final).1 q.bra +
            steppedAM (hrrDirections final).2 q.ket).toNat :=
        mul_nonneg (by have := s1 (q.a + q.b + q.c + q.d).toNat; linarith) (by positivity)
      have e2 : (2 : ℝ) ^ 1023 = 2 * 2 ^ 1022 := by rw [← pow_succ']
      rw [e2]
      refine mul_le_mul g1 (le_trans ?_ hov) g0 (by norm_num)
      have : 0 ≤ sizeMax F c S T R ab cd (totalL final) * (2 + 2 * R) ^ totalL final := g0.trans g2
      linarith)
    (fun t k => (X t k).val) (by
      intro q hq x y z w vx vy vz vw ex ey ez ew
      set Z : Qrt := ⟨⟨x, y⟩, ⟨z, w⟩, 0⟩ with hZ
      have hv : Z.Valid := ⟨⟨vx, vy⟩, ⟨vz, vw⟩, le_rfl⟩
      have et : Z.am4 = q := by
        have := hA.tag1 hf q hq
        obtain ⟨a', b', c', d', tag⟩ := q
        simp only at this ex ey ez ew
        simp only [hZ, Qrt.am4, ex, ey, ez, ew, this]
      have hlt : Z.index psi4List < ncartQ q := by
        have := Qrt.index_lt psi4_ordOK hv
        rw [← et]
        exact this
      have hZam : Z.am.toNat = (x.am + y.am + z.am + w.am).toNat := by
        simp only [hZ, Qrt.am]
        congr 1
        ring
      obtain ⟨c1, c2⟩ := contracted_err hF hst hg hf hL hc e hA hS hT hkb hboys hab hcd hn hov' hv
        (by rw [et]; exact hq) (hX Z.am4 (by rw [et]; exact hq) (Z.index psi4List) (by rw [et]; exact hlt))
      rw [hZam] at c1 c2
      rw [et] at c2
      have hpos : 0 ≤ sizeMax F c S T R ab cd (x.am + y.am + z.am + w.am).toNat := by
        have := s1 (x.am + y.am + z.am + w.am).toNat
        linarith
      have hmul := le_mul_of_one_le_right hpos (hp1 ((if (hrrDirections final).1.isLeft then x else y).am +
        (if (hrrDirections final).2.isLeft then z else w).am).toNat)
      refine ⟨c1.trans hmul, c2.trans ?_⟩
      have hle : kb + 110 + 46 * (x.am + y.am + z.am + w.am).toNat +
          3 * (c.P.nprim12 ab * c.Q.nprim12 cd - 1) ≤ K := by
        have := tot (hcl.1 q hq)
        rw [ex, ey, ez, ew]
        omega
      have hγ : ((kb + 110 + 46 * (x.am + y.am + z.am + w.am).toNat +
          3 * (c.P.nprim12 ab * c.Q.nprim12 cd - 1) : ℕ) : ℝ) * (1 / 2 ^ 52) ≤ γ (2 * K) := by
        have h1 : ((kb + 110 + 46 * (x.am + y.am + z.am + w.am).toNat +
          3 * (c.P.nprim12 ab * c.Q.nprim12 cd - 1) : ℕ) : ℝ) ≤ (K : ℕ) := by exact_mod_cast hle
        refine FlPrim.γ_ge ?_
        push_cast at h1 ⊢
        linarith
      exact mul_le_mul hγ hmul hpos (γ_nonneg _))
  refine ⟨m', r, ?_⟩
  intro x y z w vx vy vz vw ex ey ez ew
  have h := (hm final (by simp) x y z w vx vy vz vw ex ey ez ew).2
  rw [HRRRound.am_stepped (hrrDirections final).1 (p := final.bra) ex ey,
    HRRRound.am_stepped (hrrDirections final).2 (p := final.ket) ez ew, ex, ey, ez, ew,
    directions_stepped] at h
  refine h.trans ?_
  have hmin : (min final.a final.b + min final.c final.d).toNat ≤ 24 := by
    obtain ⟨v1, v2, v3, v4⟩ := hf.valid
    unfold totalL at hL
    omega
  refine mul_le_mul_of_nonneg_right (γ_le (hK _ hmin)) ?_
  exact mul_nonneg (by have := s1 (totalL final); unfold totalL at this; linarith) (by positivity)

end

end Simint
