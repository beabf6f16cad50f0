import Verif.FlFunctionErr
import Verif.Spec.FlDeriv
import Verif.Props.Deriv

/-! Lemmas on derivative functions on doubles. -/

set_option autoImplicit false

namespace Simint

open Finset
open FlBoys (Arith Rounds u η)

/-! ## The primitive stage -/

/-- Value of a primitive quartet with the factor of its class, as it is computed. -/
noncomputable def flDPrim (F : Arith) (b : Build) (g : GenCfg) (A : VRRAlgo) (L : ℕ) (c : DerivCall ℝ) (i j : ℕ)
    (pf : Fd F) (t : QAM) (k : ℕ) : Fd F :=
  if t.tag = "" then flPrim F b g A L c.toCall i j pf t k
  else ⟨F.fl (c.cfac t.tag i j * (flPrim F b g A L c.toCall i j pf t.notag k).val)⟩

section
variable {F : Arith} {b : Build} {g : GenCfg} {final : QAM} {c : DerivCall ℝ} {H : HRRAlgo} {A : VRRAlgo}
  {dir : RRType × RRType} {ams : List QAM} {L : ℕ}

theorem flPrim_double_of (hF : Sound F) (hS : Stable F) (hg : g.OK) (hA : AlgosOK g dir ams L H A) (c : Call ℝ)
    (i j : ℕ) (pf : Fd F) {t : QAM} (ht : t ∈ H.top.map QAM.notag) {k : ℕ} (hk : k < ncartQ t) :
    IsDouble F (flPrim F b g A L c i j pf t k).val := by
  unfold flPrim
  split_ifs
  · exact hS.zero
  · split
    · rename_i m e
      exact (lane_good hF hS hg hA e t ht k hk).1
    · exact hS.zero

theorem flDPrim_double (hF : Sound F) (hS : Stable F) (hg : g.OK) (hA : AlgosOK g dir ams L H A) (i j : ℕ)
    (pf : Fd F) {t : QAM} (ht : t ∈ H.top) {k : ℕ} (hk : k < ncartQ t) :
    IsDouble F (flDPrim F b g A L c i j pf t k).val := by
  unfold flDPrim
  split_ifs with h
  · exact flPrim_double_of hF hS hg hA _ i j pf (List.mem_map.2 ⟨t, ht, notag_eq h⟩) hk
  · exact hS.idem _

theorem flDerivEnv_laneWise (hF : Sound F) (hS : Stable F) (hg : g.OK)
    (hA : AlgosOK g dir ams (totalL final + 1) H A) (hL : totalL final + 1 ≤ 24)
    (hp : ∀ i < c.P.alloc, 0 < c.P.alpha i) (hq : ∀ j < c.Q.alloc, 0 < c.Q.alpha j) :
    LaneWise (flDerivEnv F b g final c H A) (flDPrim F b g A (totalL final + 1) c) := by
  refine ⟨?_, fun i j t k => ?_⟩
  · intro i j pf hi hdvd hj
    change i < c.P.alloc at hi
    change c.len ∣ j at hdvd
    change j + c.len ≤ c.Q.alloc at hj
    have hs : ∀ n < c.len, (FlPrim.lane F g b.vec c.len A (totalL final + 1) c.junk c.P c.Q i j n (pf n).val
        (c.scratch i j n)).isSome := fun n hn =>
      lane_isSome hF hS hg hA hL hn (hp i hi).le (hq _ (by omega)).le
    refine ⟨_, by
      show (flVec F b g A (totalL final + 1) c.toCall i j pf).map _ = _
      unfold flVec
      simp only
      rw [if_pos hs, Option.map_some], ?_⟩
    intro n hn t ht k hk
    change n < c.len at hn
    have ht' : t ∈ H.top := by simpa [flDerivEnv] using ht
    obtain ⟨m, e⟩ := Option.isSome_iff_exists.1 (hs n hn)
    obtain ⟨w, rfl⟩ := hdvd
    have d1 : (c.len * w + n) / c.len * c.len = c.len * w := by
      rw [Nat.mul_add_div (by omega), Nat.div_eq_of_lt hn, Nat.add_zero, Nat.mul_comm]
    have d2 : (c.len * w + n) % c.len = n := by rw [Nat.mul_add_mod, Nat.mod_eq_of_lt hn]
    have key : ∀ t' ∈ H.top.map QAM.notag, k < ncartQ t' →
        (⟨m t' k⟩ : Fd F) = flPrim F b g A (totalL final + 1) c.toCall i (c.len * w + n) (pf n) t' k := by
      intro t' ht'' hk'
      have hgd := lane_good hF hS hg hA e t' ht'' k hk'
      unfold flPrim
      rw [d1, d2]
      simp only [e]
      split_ifs with h0
      · exact Fd.val_injective (hgd.2 h0)
      · rfl
    have hn' : t.notag ∈ H.top.map QAM.notag := List.mem_map.2 ⟨t, ht', rfl⟩
    simp only [e, Option.getD_some]
    unfold flDPrim
    split_ifs with h
    · exact key t (List.mem_map.2 ⟨t, ht', notag_eq h⟩) hk
    · have := key t.notag hn' hk
      rw [← this]
  · have h0 : ∀ t k, flPrim F b g A (totalL final + 1) c.toCall i j 0 t k = 0 := fun t k => by
      unfold flPrim; exact if_pos rfl
    unfold flDPrim
    rw [h0, h0]
    split_ifs
    · rfl
    · exact Fd.val_injective (by
        show F.fl (c.cfac t.tag i j * 0) = 0
        rw [mul_zero, hS.zero])

theorem keptD_iff (i j : ℕ) : (flDerivEnv F b g final c H A).Kept i j ↔ c.toCall.KeptFl F i j := by
  have hv := vectorMax_val (F := F) c.len
    (fun n => (⟨c.P.screen i⟩ * ⟨c.Q.screen (j / c.len * c.len + n)⟩ : Fd F))
  have hv' : vectorMax c.len (fun n => F.fl (c.P.screen i * c.Q.screen (j / c.len * c.len + n))) =
    (vectorMax c.len (fun n => (⟨c.P.screen i⟩ * ⟨c.Q.screen (j / c.len * c.len + n)⟩ : Fd F))).val := hv.symm
  unfold Call.KeptFl
  rw [hv']
  exact Iff.rfl

theorem overPrimsD_eq (ab cd : ℕ) (f : ℕ → ℕ → ℝ) :
    overPrims (flDerivEnv F b g final c H A) ab cd f = overKept F c.toCall ab cd fun k l =>
      f (tightStart c.P.nprim12 ab + k) (paddedStart c.len c.Q.nprim12 cd + l) := by
  unfold overPrims overKept
  refine Finset.sum_congr rfl fun k _ => Finset.sum_congr rfl fun l _ => ?_
  have := keptD_iff (F := F) (b := b) (g := g) (final := final) (c := c) (H := H) (A := A)
    (tightStart c.P.nprim12 ab + k) (paddedStart c.len c.Q.nprim12 cd + l)
  by_cases h : c.toCall.KeptFl F (tightStart c.P.nprim12 ab + k) (paddedStart c.len c.Q.nprim12 cd + l)
  · rw [if_pos h]; exact if_pos (this.2 h)
  · rw [if_neg h]; exact if_neg fun h' => h (this.1 h')

end

/-! ## Families with factors -/

section
variable (F : Arith) (c : Call ℝ) (S T : ℕ → PairData) (ab cd : ℕ)

/-- Factor of a class. -/
noncomputable def tagFl (tag : String) (k l : ℕ) : ℝ :=
  if tag = "" then 1 else
    if tag = "2a" then expFl S T ab cd .I k l
    else if tag = "2b" then expFl S T ab cd .J k l
    else if tag = "2c" then expFl S T ab cd .K k l
    else expFl S T ab cd .L k l

/-- Exact contracted integrals with factors. -/
noncomputable def exactW (tag : String) (x y z w : Exp) : ℝ :=
  overKept F c ab cd fun k l => tagFl S T ab cd tag k l * exactPrim S T ab cd k l x y z w

end

section
variable {F : Arith} {c : DerivCall ℝ} {S T : ℕ → PairData} {R : ℝ} {ab cd : ℕ}

theorem exactW_none (x y z w : Exp) : exactW F c.toCall S T ab cd "" x y z w = exactERI F c.toCall S T ab cd x y z w := by
  unfold exactW exactERI tagFl
  simp

theorem cfac_tagFl (hP : HoldsExpsFl c.P c.alpha2P c.beta2P (tightStart c.P.nprim12) S)
    (hQ : HoldsExpsFl c.Q c.alpha2Q c.beta2Q (paddedStart c.len c.Q.nprim12) T) (hab : ab < c.P.nclip)
    (hcd : cd < c.Q.nclip) {k l : ℕ} (hk : k < c.P.nprim12 ab) (hl : l < c.Q.nprim12 cd) {tag : String}
    (ht : tag ≠ "") :
    |c.cfac tag (tightStart c.P.nprim12 ab + k) (paddedStart c.len c.Q.nprim12 cd + l) -
      tagFl S T ab cd tag k l| ≤ 1 / 2 ^ 52 * tagFl S T ab cd tag k l := by
  have h1 := hP.a ab hab k hk
  have h2 := hP.b ab hab k hk
  have h3 := hQ.a cd hcd l hl
  have h4 := hQ.b cd hcd l hl
  unfold DerivCall.cfac tagFl expFl
  rw [if_neg ht]
  split_ifs <;> assumption

theorem PairData.mean_pos {S : PairData} {k : ℕ} (ha : 0 < S.A.alpha (S.prim k).1) (hb : 0 < S.B.alpha (S.prim k).2) :
    0 < S.meanA k ∧ 0 < S.meanB k := by
  unfold PairData.meanA PairData.meanB
  constructor <;> split_ifs <;> linarith

theorem tagFl_facts (hS : HoldsFl F c.P (tightStart c.P.nprim12) S R)
    (hT : HoldsFl F c.Q (paddedStart c.len c.Q.nprim12) T R) (hab : ab < c.P.nclip) (hcd : cd < c.Q.nclip)
    {k l : ℕ} (hk : k < c.P.nprim12 ab) (hl : l < c.Q.nprim12 cd) (tag : String) :
    0 ≤ tagFl S T ab cd tag k l ∧ tagFl S T ab cd tag k l ≤ expWeight S T ab cd k l ∧
      1 ≤ expWeight S T ab cd k l := by
  have hP := hS.size ab hab k hk
  have hQ := hT.size cd hcd l hl
  obtain ⟨p1, p2⟩ := PairData.mean_pos hP.ar.pos hP.br.pos
  obtain ⟨p3, p4⟩ := PairData.mean_pos hQ.ar.pos hQ.br.pos
  unfold tagFl expWeight expFl
  simp only
  split_ifs <;> refine ⟨by linarith, by linarith, by linarith⟩

theorem gradSize_facts (hF : Sound F) (hS : HoldsFl F c.P (tightStart c.P.nprim12) S R)
    (hT : HoldsFl F c.Q (paddedStart c.len c.Q.nprim12) T R) (hab : ab < c.P.nclip) (hcd : cd < c.Q.nclip) :
    (∀ n, 2 * κ ≤ gradSize F c.toCall S T R ab cd n) ∧ (Monotone (gradSize F c.toCall S T R ab cd)) ∧
      (∀ n, overKept F c.toCall ab cd (fun k l => expWeight S T ab cd k l * primSize S T R ab cd n k l) ≤
        gradSize F c.toCall S T R ab cd n) := by
  have hκ := κ_pos
  have e : 2 * κ ≤ 1 / 2 ^ 1000 := by
    have h1 := FlPrim.κT (show 1 + 1021 = 1022 by norm_num)
    have h2 : FlPrim.S 1021 ≤ FlPrim.S 1000 := FlPrim.S_le (by norm_num)
    have h3 : FlPrim.T 1 = 2 := by unfold FlPrim.T; norm_num
    rw [h3] at h1
    rw [FlPrim.S_def]
    linarith
  have hf := fun k hk l hl => primSize_facts (c := c.toCall) hF hS hT hab hcd (k := k) (l := l) hk hl
  have hw := fun k hk l hl => (tagFl_facts (c := c) hS hT hab hcd (k := k) (l := l) hk hl "").2.2
  refine ⟨fun n => ?_, fun n m h => ?_, fun n => ?_⟩
  · have : 0 ≤ overKept F c.toCall ab cd (fun k l => expWeight S T ab cd k l * primSize S T R ab cd n k l) :=
      overKept_nonneg fun k hk l hl => by
        have h1 := (hf k hk l hl).1 n
        have h2 := hw k hk l hl
        exact mul_nonneg (by linarith) (by linarith)
    unfold gradSize
    linarith
  · unfold gradSize
    have := overKept_le (F := F) (c := c.toCall) (ab := ab) (cd := cd)
      (f := fun k l => expWeight S T ab cd k l * primSize S T R ab cd n k l)
      (f' := fun k l => expWeight S T ab cd k l * primSize S T R ab cd m k l) fun k hk l hl _ =>
        mul_le_mul_of_nonneg_left ((hf k hk l hl).2 h) (by have := hw k hk l hl; linarith)
    linarith
  · unfold gradSize
    linarith

theorem exactW_hrr (hS : HoldsFl F c.P (tightStart c.P.nprim12) S R)
    (hT : HoldsFl F c.Q (paddedStart c.len c.Q.nprim12) T R) (hab : ab < c.P.nclip)
    (hcd : cd < c.Q.nclip) (tag : String) :
    HRRFam (fun d => (S ab).A.pos d - (S ab).B.pos d) (fun d => (T cd).A.pos d - (T cd).B.pos d)
      (exactW F c.toCall S T ab cd tag) := by
  classical
  unfold exactW overKept
  refine HRRFam.sum _ fun k hk => HRRFam.sum _ fun l hl => HRRFam.ite _ (HRRFam.smul _ (HRRFam.smul _ ?_))
  have hP := hS.size ab hab k (mem_range.1 hk)
  have hQ := hT.size cd hcd l (mem_range.1 hl)
  exact coulomb_hrr hP.ar.pos hP.br.pos hQ.ar.pos hQ.br.pos _ _ _ _

end

/-! ## Contracted integrals -/

section
variable {F : Arith} {b : Build} {g : GenCfg} {final : QAM} {c : DerivCall ℝ} {H : HRRAlgo} {A : VRRAlgo}
  {S T : ℕ → PairData} {R : ℝ}

/-- One primitive with its factor. -/
theorem primD_err (hF : Sound F) {f' f v' v K G W : ℝ} (f0 : 0 ≤ f) (fW : f ≤ W)
    (hf : |f' - f| ≤ 1 / 2 ^ 52 * f) (hG : κ ≤ G)
    (hW : 1 ≤ W) (hK1 : K ≤ 1) (hv : |v| ≤ G) (he : |v' - v| ≤ K * G) (hov : 3 * (W * G) ≤ 2 ^ 1023) :
    |f * v| ≤ W * G ∧ |F.fl (f' * v') - f * v| ≤ (K + 4 * (1 / 2 ^ 52)) * (W * G) := by
  have hκ := κ_pos
  have hG0 : 0 ≤ G := hκ.le.trans hG
  have e1 : |f * v| ≤ W * G := by
    rw [abs_mul, abs_of_nonneg f0]
    exact mul_le_mul fW hv (abs_nonneg _) (by linarith)
  have e2 : |f * v' - f * v| ≤ K * (W * G) := by
    rw [← mul_sub, abs_mul, abs_of_nonneg f0]
    calc f * |v' - v| ≤ W * (K * G) := mul_le_mul fW he (abs_nonneg _) (by linarith)
      _ = K * (W * G) := by ring
  have hWG : G ≤ W * G := le_mul_of_one_le_left hG0 hW
  have hWG0 := hG0.trans hWG
  have ev : |v'| ≤ 2 * G := by
    have h := abs_add_le (v' - v) v
    rw [sub_add_cancel] at h
    have : K * G ≤ 1 * G := mul_le_mul_of_nonneg_right hK1 hG0
    linarith
  have e4 : |f' * v' - f * v'| ≤ 2 * (1 / 2 ^ 52) * (W * G) := by
    rw [← sub_mul, abs_mul]
    have hf2 : 1 / 2 ^ 52 * f ≤ 1 / 2 ^ 52 * W := mul_le_mul_of_nonneg_left fW (by positivity)
    calc |f' - f| * |v'| ≤ (1 / 2 ^ 52 * W) * (2 * G) :=
          mul_le_mul (hf.trans hf2) ev (abs_nonneg _) (by positivity)
      _ = _ := by ring
  have hε : 2 * (1 / 2 ^ 52) * (W * G) ≤ 1 * (W * G) := mul_le_mul_of_nonneg_right (by norm_num) hWG0
  have e3 : |f' * v'| ≤ 3 * (W * G) := by
    have h0 : |f * v'| ≤ 2 * (W * G) := by
      rw [abs_mul, abs_of_nonneg f0]
      calc f * |v'| ≤ W * (2 * G) := mul_le_mul fW ev (abs_nonneg _) (by linarith)
        _ = 2 * (W * G) := by ring
    have h := abs_add_le (f' * v' - f * v') (f * v')
    rw [sub_add_cancel] at h
    linarith
  refine ⟨e1, ?_⟩
  have r := hF.fl (f' * v') (e3.trans hov)
  clear hov
  have h := abs_add_le (F.fl (f' * v') - f' * v') (f' * v' - f * v')
  rw [sub_add_sub_cancel] at h
  have h' := abs_add_le (F.fl (f' * v') - f * v') (f * v' - f * v)
  rw [sub_add_sub_cancel] at h'
  have hη : η ≤ u * (W * G) := by
    rw [η_eq]
    exact mul_le_mul_of_nonneg_left (hG.trans hWG) u_pos.le
  have hu : u * |f' * v'| ≤ u * (3 * (W * G)) := mul_le_mul_of_nonneg_left e3 u_pos.le
  have hu' : u * (W * G) * 4 ≤ 2 * (1 / 2 ^ 52) * (W * G) := by
    have : u * 4 ≤ 2 * (1 / 2 ^ 52) := by unfold u; norm_num
    calc u * (W * G) * 4 = u * 4 * (W * G) := by ring
      _ ≤ _ := mul_le_mul_of_nonneg_right this hWG0
  linarith

theorem contractedD_err (hF : Sound F) (hst : Stable F) (hg : g.OK) {dir : RRType × RRType} {ams : List QAM}
    (hL : totalL final + 1 ≤ 24) (hc : DerivCallOK final c.toCall)
    (hA : AlgosOK g dir ams (totalL final + 1) H A)
    (hS : HoldsFl F c.P (tightStart c.P.nprim12) S R)
    (hT : HoldsFl F c.Q (paddedStart c.len c.Q.nprim12) T R)
    (hP : HoldsExpsFl c.P c.alpha2P c.beta2P (tightStart c.P.nprim12) S)
    (hQ : HoldsExpsFl c.Q c.alpha2Q c.beta2Q (paddedStart c.len c.Q.nprim12) T) {kb : ℕ} (hkb : kb ≤ 2 ^ 19)
    (hboys : BoysOK F c.toCall b.vec (totalL final + 1) kb) {ab cd : ℕ} (hab : ab < c.P.nclip)
    (hcd : cd < c.Q.nclip) (hn : c.P.nprim12 ab * c.Q.nprim12 cd ≤ 2 ^ 49)
    (hov : 4 * gradSize F c.toCall S T R ab cd (totalL final + 1) ≤ 2 ^ 1022)
    {t : QAM} (ht : t ∈ H.top) {q : Qrt} (hq : q.Valid) (hqt : t.notag = q.am4) {x : ℝ}
    (hx : SumOf F x (quartetValues (flDerivEnv F b g final c H A) (flDPrim F b g A (totalL final + 1) c) ab cd t
      (q.index psi4List))) :
    |exactW F c.toCall S T ab cd t.tag q.bra.left q.bra.right q.ket.left q.ket.right| ≤
        gradSize F c.toCall S T R ab cd q.am.toNat ∧
      |x - exactW F c.toCall S T ab cd t.tag q.bra.left q.bra.right q.ket.left q.ket.right| ≤
        (kb + 114 + 46 * q.am.toNat + 3 * (c.P.nprim12 ab * c.Q.nprim12 cd - 1) : ℕ) * (1 / 2 ^ 52) *
          gradSize F c.toCall S T R ab cd q.am.toNat := by
  have hκ := κ_pos
  have hqt' : q.am4 ∈ H.top.map QAM.notag := List.mem_map.2 ⟨t, ht, hqt⟩
  have hqa : q.am.toNat ≤ totalL final + 1 := by
    obtain ⟨A', e', -, M, m1, m2, -⟩ := C15_orders_sufficient psi4_ordOK psi4_start hg.V
      (vrrDirections_nodup _) (vrrDirections_mem (classTargets psi4List (H.top.map QAM.notag))) hA.top_ok
    rw [hA.vcreate, Option.some.injEq] at e'
    subst e'
    rw [hA.mreq, Option.some.injEq] at m1
    subst m1
    have := m2 q.am4 hqt'
    simp only [Qrt.am4] at this
    unfold Qrt.am
    omega
  have hlt : q.index psi4List < ncartQ q.am4 := Qrt.index_lt psi4_ordOK hq
  have hlt' : q.index psi4List < ncartQ t := by
    have e2 : ncartQ t = ncartQ t.notag := rfl
    rw [e2, hqt]
    exact hlt
  obtain ⟨s1, s2, s3⟩ := gradSize_facts (c := c) hF hS hT hab hcd
  have sle := s2 hqa
  set K0 := ((kb + 110 + 46 * q.am.toNat : ℕ) : ℝ) * ((1 : ℝ) / 2 ^ 52) with hK0def
  set K := ((kb + 114 + 46 * q.am.toNat : ℕ) : ℝ) * ((1 : ℝ) / 2 ^ 52) with hKdef
  have hKK : K = K0 + 4 * (1 / 2 ^ 52) := by
    rw [hKdef, hK0def]; push_cast; ring
  have hK : K ≤ 1 := by
    have h1 : kb + 114 + 46 * q.am.toNat ≤ 2 ^ 20 := by norm_num at hkb ⊢; omega
    have h2 : ((kb + 114 + 46 * q.am.toNat : ℕ) : ℝ) ≤ 2 ^ 20 := by exact_mod_cast h1
    have h3 : ((kb + 114 + 46 * q.am.toNat : ℕ) : ℝ) * (1 / 2 ^ 52) ≤ 2 ^ 20 * (1 / 2 ^ 52) := by gcongr
    refine h3.trans (by norm_num)
  have hK00 : 0 ≤ K0 := by positivity
  have hK0 : 0 ≤ K := by positivity
  have hK01 : K0 ≤ 1 := by
    have : (0 : ℝ) ≤ 4 * (1 / 2 ^ 52) := by positivity
    linarith
  set G := primSize S T R ab cd q.am.toNat with hG
  set W := expWeight S T ab cd with hW
  set Y : ℕ → ℕ → ℝ := fun k l => tagFl S T ab cd t.tag k l *
    exactPrim S T ab cd k l q.bra.left q.bra.right q.ket.left q.ket.right with hY
  have hfacts := fun k hk l hl => primSize_facts (c := c.toCall) hF hS hT hab hcd (k := k) (l := l) hk hl
  have hw := fun k hk l hl => tagFl_facts (c := c) hS hT hab hcd (k := k) (l := l) hk hl t.tag
  have hG0 : ∀ k < c.P.nprim12 ab, ∀ l < c.Q.nprim12 cd, κ ≤ G k l := fun k hk l hl => by
    have := (hfacts k hk l hl).1 q.am.toNat
    linarith
  have hWG : ∀ k < c.P.nprim12 ab, ∀ l < c.Q.nprim12 cd, κ ≤ W k l * G k l := fun k hk l hl => by
    have h1 := hG0 k hk l hl
    have h2 := le_mul_of_one_le_left (hκ.le.trans h1) (hw k hk l hl).2.2
    linarith
  -- one primitive
  have prim : ∀ k < c.P.nprim12 ab, ∀ l < c.Q.nprim12 cd,
      c.toCall.KeptFl F (tightStart c.P.nprim12 ab + k) (paddedStart c.len c.Q.nprim12 cd + l) →
      |Y k l| ≤ W k l * G k l ∧ |(flDPrim F b g A (totalL final + 1) c (tightStart c.P.nprim12 ab + k)
        (paddedStart c.len c.Q.nprim12 cd + l) ⟨c.Q.prefac (paddedStart c.len c.Q.nprim12 cd + l)⟩ t
        (q.index psi4List)).val - Y k l| ≤ K * (W k l * G k l) := by
    intro k hk l hl hkept
    have hf := hfacts k hk l hl
    obtain ⟨w0, w1, w2⟩ := hw k hk l hl
    have hsz : ∀ n, primSize S T R ab cd n k l ≤ W k l * primSize S T R ab cd n k l := fun n =>
      le_mul_of_one_le_left (by have := hf.1 n; linarith) w2
    have hbig : ∀ n, W k l * primSize S T R ab cd n k l ≤ gradSize F c.toCall S T R ab cd n := fun n => by
      refine le_trans ?_ (s3 n)
      exact overKept_single (F := F) (c := c.toCall) (ab := ab) (cd := cd)
        (f := fun k l => W k l * primSize S T R ab cd n k l)
        (fun k hk l hl => by
          have h1 := (hfacts k hk l hl).1 n
          have h2 := (hw k hk l hl).2.2
          exact mul_nonneg (by linarith) (by linarith)) hk hl hkept
    have hgr : 3 * primSize S T R ab cd (totalL final + 1) k l ≤ 2 ^ 1022 := by
      have h1 := hsz (totalL final + 1)
      have h2 := hbig (totalL final + 1)
      have h3 := s1 (totalL final + 1)
      refine le_trans ?_ hov
      linarith
    obtain ⟨p1, p2⟩ := prim_err hF hst hg (by omega) hA hS hT hkb hboys hab hcd hk hl hkept hgr hq hqt'
    have hW0 : 0 ≤ W k l * G k l := hκ.le.trans (hWG k hk l hl)
    by_cases htag : t.tag = ""
    · have e1 : Y k l = exactPrim S T ab cd k l q.bra.left q.bra.right q.ket.left q.ket.right := by
        simp only [hY, tagFl, if_pos htag, one_mul]
      have e2 : q.am4 = t := by rw [← hqt]; exact notag_eq htag
      rw [e1]
      unfold flDPrim
      rw [if_pos htag, ← e2]
      refine ⟨p1.trans (hsz _), p2.trans ?_⟩
      have h1 : K0 * G k l ≤ K0 * (W k l * G k l) := mul_le_mul_of_nonneg_left (hsz _) hK00
      have h2 : K0 ≤ K := by
        rw [hKK]
        exact le_add_of_nonneg_right (by positivity)
      exact h1.trans (mul_le_mul_of_nonneg_right h2 hW0)
    · unfold flDPrim
      rw [if_neg htag, hqt, hKK]
      exact primD_err hF w0 w1 (cfac_tagFl hP hQ hab hcd hk hl htag) (hG0 k hk l hl) w2 hK01 p1 p2 (by
        have h1 := hbig q.am.toNat
        have e2 : (2 : ℝ) ^ 1023 = 2 * 2 ^ 1022 := by rw [← pow_succ']
        rw [e2]
        have h3 : 3 * (W k l * G k l) ≤ 4 * gradSize F c.toCall S T R ab cd (totalL final + 1) := by
          have := s1 (totalL final + 1)
          linarith
        refine (h3.trans hov).trans (le_mul_of_one_le_left (by positivity) (by norm_num)))
  have hex : exactW F c.toCall S T ab cd t.tag q.bra.left q.bra.right q.ket.left q.ket.right =
    overKept F c.toCall ab cd Y := rfl
  have habs : |overKept F c.toCall ab cd Y| ≤ overKept F c.toCall ab cd fun k l => W k l * G k l :=
    (overKept_abs Y).trans (overKept_le fun k hk l hl hkept => (prim k hk l hl hkept).1)
  rw [hex]
  refine ⟨habs.trans (s3 _), ?_⟩
  have key := C87_total hF hst (flDerivEnv F b g final c H A) (flDPrim F b g A (totalL final + 1) c)
    (flDerivEnv_laneWise hF hst hg hA hL hc.braPos hc.ketPos) ab cd t (q.index psi4List) x hx
    (fun i j => flDPrim_double hF hst hg hA i j _ ht hlt')
    (hn.trans (by norm_num))
    (fun i j => Y (i - tightStart c.P.nprim12 ab) (j - paddedStart c.len c.Q.nprim12 cd))
    (fun i j => K * (W (i - tightStart c.P.nprim12 ab) (j - paddedStart c.len c.Q.nprim12 cd) *
      G (i - tightStart c.P.nprim12 ab) (j - paddedStart c.len c.Q.nprim12 cd)))
    (by
      intro k hk l hl hkept
      have := (prim k hk l hl ((keptD_iff _ _).1 hkept)).2
      simp only [show (flDerivEnv F b g final c H A).len = c.len from rfl,
        show (flDerivEnv F b g final c H A).P.nprim12 = c.P.nprim12 from rfl,
        show (flDerivEnv F b g final c H A).Q.nprim12 = c.Q.nprim12 from rfl, Nat.add_sub_cancel_left]
      exact this)
  have hmaj : overKept F c.toCall ab cd (fun k l => |Y k l| + K * (W k l * G k l) + κ) ≤
      3 * overKept F c.toCall ab cd fun k l => W k l * G k l := by
    rw [← overKept_mul]
    refine overKept_le fun k hk l hl hkept => ?_
    have h1 : |Y k l| ≤ W k l * G k l := (prim k hk l hl hkept).1
    have h2 := hWG k hk l hl
    have h3 : K * (W k l * G k l) ≤ 1 * (W k l * G k l) := mul_le_mul_of_nonneg_right hK (by linarith)
    linarith
  rw [overPrimsD_eq, overPrimsD_eq, overPrimsD_eq] at key
  simp only [Nat.add_sub_cancel_left] at key
  have s0 := s3 q.am.toNat
  have key := key (by
    have := s1 q.am.toNat
    have := overKept_nonneg (F := F) (c := c.toCall) (ab := ab) (cd := cd) (f := fun k l => W k l * G k l)
      fun k hk l hl => hκ.le.trans (hWG k hk l hl)
    refine le_trans ?_ hov
    linarith)
  rw [overKept_mul] at key
  refine key.trans ?_
  have hN : (0 : ℝ) ≤ (((flDerivEnv F b g final c H A).P.nprim12 ab *
    (flDerivEnv F b g final c H A).Q.nprim12 cd - 1 : ℕ) : ℝ) * (1 / 2 ^ 52) := by positivity
  have h1 := mul_le_mul_of_nonneg_left (hmaj.trans (mul_le_mul_of_nonneg_left s0 (by norm_num : (0 : ℝ) ≤ 3))) hN
  have h2 := mul_le_mul_of_nonneg_left s0 hK0
  refine (add_le_add h2 h1).trans (le_of_eq ?_)
  simp only [hKdef, show (flDerivEnv F b g final c H A).P.nprim12 = c.P.nprim12 from rfl,
    show (flDerivEnv F b g final c H A).Q.nprim12 = c.Q.nprim12 from rfl]
  push_cast
  ring

end

end Simint
