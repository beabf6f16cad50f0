import Verif.DriverLoopLemmas
import Verif.SimdLemmas
import Mathlib.Algebra.Order.BigOperators.Ring.Finset
import Mathlib.Analysis.SpecialFunctions.Pow.Real

/-!
# Properties of the driver loops (C24-C28, C30)
-/

set_option autoImplicit false

namespace Simint

open Finset

/-! ## C24: lanes are credited to the shell that owns the primitive -/

/-- State before vector `v` of a batch: shell the output pointer stands on, and the three counters
of `WriteShellOffsets`. -/
def sweep (len : ℕ) (nprim12 : ℕ → ℕ) (cd nb : ℕ) : ℕ → ℕ × ℕ × ℕ × ℕ
  | 0 => (0, 0, 0, nprim12 cd)
  | v + 1 =>
    let s := sweep len nprim12 cd nb v
    let r := shellOffsets len nprim12 cd nb s.2.1 s.2.2.1 s.2.2.2
    (s.1 + (if r.adv then 1 else 0) + r.last, r.icd, r.iprim, r.nprim)

/-- Shell to which lane `n` of vector `v` is added. -/
def laneShell (len : ℕ) (nprim12 : ℕ → ℕ) (cd nb v n : ℕ) : ℕ :=
  let s := sweep len nprim12 cd nb v
  let r := shellOffsets len nprim12 cd nb s.2.1 s.2.2.1 s.2.2.2
  s.1 + (if r.adv then 1 else 0) + r.offs.getD n 0

theorem sweep_eq {len : ℕ} (hlen : 0 < len) (nprim12 : ℕ → ℕ) (cd nb v : ℕ) :
    sweep len nprim12 cd nb v =
      (before (fun i => nprim12 (cd + i)) nb (v * len), before (fun i => nprim12 (cd + i)) nb (v * len),
        v * len, tightStart (fun i => nprim12 (cd + i))
          (before (fun i => nprim12 (cd + i)) nb (v * len) + 1)) := by
  induction v with
  | zero => simp [sweep, before, tightStart]
  | succ v ih =>
    rw [sweep, ih]
    simp only
    obtain ⟨h1, h2, h3, h4, h5, h6, _⟩ := shellOffsets_eq hlen nprim12 cd nb (v * len) _ rfl
    rw [h4, h5, h6, h2, Nat.succ_mul]
    refine Prod.ext ?_ rfl
    simp only
    have hb : before (fun i => nprim12 (cd + i)) nb (v * len + len)
        = owner (fun i => nprim12 (cd + i)) nb (v * len + (len - 1)) := by
      unfold owner; congr 1; omega
    rw [hb]
    have hm := owner_mono (fun i => nprim12 (cd + i)) nb
      (show v * len ≤ v * len + (len - 1) by omega)
    split at h3 <;> simp_all <;> omega

/-- C24: for every vector length and every list of positive primitive counts, lane `n` of vector
`v` is added to shell `s` exactly if primitive `v*len+n` of the batch belongs to `s`; the output
pointer always stands on the shell counter. -/
theorem C24_lane_owner {len : ℕ} (hlen : 0 < len) (nprim12 : ℕ → ℕ) (cd nb : ℕ) (hnb : 0 < nb)
    (hpos : ∀ s < nb, 0 < nprim12 (cd + s)) (v n : ℕ) (hn : n < len)
    (hk : v * len + n < ∑ s ∈ range nb, nprim12 (cd + s)) (s : ℕ) :
    (laneShell len nprim12 cd nb v n = s ↔ Owns (fun i => nprim12 (cd + i)) (v * len + n) s) ∧
    (sweep len nprim12 cd nb v).1 = (sweep len nprim12 cd nb v).2.1 := by
  refine ⟨?_, by rw [sweep_eq hlen]⟩
  rw [← owner_iff _ nb hnb hpos hk]
  unfold laneShell
  rw [sweep_eq hlen]
  simp only
  obtain ⟨h1, h2, h3, h4, h5, h6, _⟩ := shellOffsets_eq hlen nprim12 cd nb (v * len) _ rfl
  rw [h1 n hn]
  have hm := owner_mono (fun i => nprim12 (cd + i)) nb (show v * len ≤ v * len + n by omega)
  have e : (before (fun i => nprim12 (cd + i)) nb (v * len) + if (shellOffsets len nprim12 cd nb
      (before (fun i => nprim12 (cd + i)) nb (v * len)) (v * len)
      (tightStart (fun i => nprim12 (cd + i))
        (before (fun i => nprim12 (cd + i)) nb (v * len) + 1))).adv = true then 1 else 0)
      = owner (fun i => nprim12 (cd + i)) nb (v * len) := by
    rw [← h3]; split <;> rfl
  rw [e]
  constructor <;> intro h <;> omega

/-- Every lane below the total count has an owner, so the equivalence above is not empty. -/
theorem C24_owner_exists (nprim12 : ℕ → ℕ) (nb k : ℕ) (hk : k < ∑ s ∈ range nb, nprim12 s) :
    ∃ s < nb, Owns nprim12 k s := by
  induction nb with
  | zero => simp at hk
  | succ n ih =>
    by_cases h : k < ∑ s ∈ range n, nprim12 s
    · obtain ⟨s, hs, ho⟩ := ih h
      exact ⟨s, by omega, ho⟩
    · exact ⟨n, by omega, by omega, hk⟩

-- three shells with 3, 1 and 2 primitives in vectors of four
example : (List.range 6).map (fun k => laneShell 4 (fun s => [3, 1, 2].getD s 0) 0 3 (k / 4) (k % 4))
    = [0, 0, 0, 1, 2, 2] := by decide +kernel

/-- The counters advance by at most one shell per lane: a shell without primitives breaks the
assignment (so the restriction to positive counts in C24 is necessary). -/
theorem C24_empty_shell_wrong : ∃ (nprim12 : ℕ → ℕ) (nb v n : ℕ), n < 1 ∧
    v * 1 + n < ∑ s ∈ range nb, nprim12 s ∧
    ¬ Owns nprim12 (v * 1 + n) (laneShell 1 nprim12 0 nb v n) :=
  ⟨fun s => [1, 0, 1].getD s 0, 3, 1, 0, by decide, by decide, by
    unfold Owns; decide +kernel⟩

section
variable {F : Type} [AddCommMonoid F] [Mul F] [LinearOrder F]

/-! ## C25: contracted result is the sum over primitives -/

/-- C25, classes without horizontal stage: the call succeeds, returns the number of quartets, and
component `c` of the quartet of bra shell `ab` and ket shell `cd` is the sum over the primitives
of these shells; elements behind the last quartet are not touched. -/
theorem C25_direct (e : DEnv F) (final : QAM) (prim : ℕ → ℕ → F → QAM → ℕ → F)
    (hprim : LaneWise e prim) (hok : ListsOK e) (htop : e.tops = [final])
    (hsize : e.P.nclip * e.Q.nclip * ncartQ final ≤ e.size final) (out : ℕ → F) :
    ∃ res, runDirect e final out = some (e.P.nclip * e.Q.nclip, res) ∧
      (∀ ab < e.P.nclip, ∀ cd < e.Q.nclip, ∀ c < ncartQ final,
        res ((ab * e.Q.nclip + cd) * ncartQ final + c) = contractedPair e prim ab cd final c) ∧
      ∀ k, e.P.nclip * e.Q.nclip * ncartQ final ≤ k → res k = out k := by
  refine ⟨_, runDirect_eq e final prim hprim hok htop hsize out, ?_, ?_⟩
  · intro ab hab cd hcd c hc
    have hq : ab * e.Q.nclip + cd < e.P.nclip * e.Q.nclip := by
      have : (ab + 1) * e.Q.nclip ≤ e.P.nclip * e.Q.nclip := Nat.mul_le_mul_right _ hab
      rw [Nat.succ_mul] at this; omega
    have hlt : (ab * e.Q.nclip + cd) * ncartQ final + c < e.P.nclip * e.Q.nclip * ncartQ final := by
      have : (ab * e.Q.nclip + cd + 1) * ncartQ final ≤ e.P.nclip * e.Q.nclip * ncartQ final :=
        Nat.mul_le_mul_right _ hq
      rw [Nat.succ_mul] at this; omega
    have e1 : ((ab * e.Q.nclip + cd) * ncartQ final + c) / ncartQ final = ab * e.Q.nclip + cd := by
      rw [Nat.mul_comm, Nat.mul_add_div (by omega), Nat.div_eq_of_lt hc, Nat.add_zero]
    have e2 : ((ab * e.Q.nclip + cd) * ncartQ final + c) % ncartQ final = c := by
      rw [Nat.mul_comm, Nat.mul_add_mod, Nat.mod_eq_of_lt hc]
    have e3 : (ab * e.Q.nclip + cd) / e.Q.nclip = ab := by
      rw [Nat.mul_comm, Nat.mul_add_div (by omega), Nat.div_eq_of_lt hcd, Nat.add_zero]
    have e4 : (ab * e.Q.nclip + cd) % e.Q.nclip = cd := by
      rw [Nat.mul_comm, Nat.mul_add_mod, Nat.mod_eq_of_lt hcd]
    unfold outAfter
    rw [if_pos hlt, e1, e2]
    simp only [e3, e4]
  · intro k hk
    unfold outAfter
    rw [if_neg (by omega)]

/-- C25, classes with horizontal stage: component `c` of a quartet is what the horizontal stage
makes of the contracted values of that quartet (`res`), for every content of the intermediate
arrays. -/
theorem C25_hrr (e : DEnv F) (h : HEnv F) (final : QAM) (hfin : 0 < h.blk)
    (prim : ℕ → ℕ → F → QAM → ℕ → F) (hprim : LaneWise e prim)
    (res : ℕ → ℕ → ℕ → F) (hh : HrrOn e h final (contractedPair e prim) res) (hok : ListsOK e)
    (hsize : ∀ t ∈ e.tops, nshellSimd e.len * ncartQ t ≤ e.size t)
    (hout : e.P.nclip * e.Q.nclip * h.blk ≤ h.outSize) (hmem : HMem F) (out : ℕ → F) :
    ∃ o, runHrr e h final hmem out = some (e.P.nclip * e.Q.nclip, o) ∧
      (∀ ab < e.P.nclip, ∀ cd < e.Q.nclip, ∀ c < h.blk,
        o ((ab * e.Q.nclip + cd) * h.blk + c) = res ab cd c) ∧
      ∀ k, e.P.nclip * e.Q.nclip * h.blk ≤ k → o k = out k :=
  runHrr_some e h final hfin _ (batch_on e prim hprim hok hsize) res hh hok hout hmem out

end

/-! ### Bra layout

The driver reads the bra primitives without gaps (`istart = iend`, OSTEI_Writer.cpp:470-475, 739;
ostei_s_s_s_s.c:317), but the fill routines pad every batch of `2*len` shells. -/

theorem padded_ge_tight {len : ℕ} (hlen : 0 < len) (np : ℕ → ℕ) (s : ℕ) :
    tightStart np s ≤ paddedStart len np s := by
  induction s with
  | zero => simp [tightStart, paddedStart]
  | succ s ih =>
    rw [tightStart_succ, paddedStart]
    split
    · exact le_trans (by omega) (le_simdRound hlen _)
    · omega

/-- The two layouts agree for the first `n` shells exactly if every complete batch among them that
is followed by another shell holds a multiple of `len` primitives. -/
theorem C25_bra_layout {len : ℕ} (hlen : 0 < len) (np : ℕ → ℕ) (n : ℕ) :
    (∀ s < n, tightStart np s = paddedStart len np s) ↔
      ∀ b, (b + 1) * nshellSimd len < n → len ∣ ∑ k ∈ range ((b + 1) * nshellSimd len), np k := by
  constructor
  · intro h b hb
    have := paddedStart_dvd len np (b + 1)
    rw [← h _ hb] at this
    exact this
  · intro h s
    induction s with
    | zero => intro _; simp [tightStart, paddedStart]
    | succ s ih =>
      intro hs
      rw [paddedStart, ← ih (by omega), ← tightStart_succ]
      split
      · rename_i hm
        obtain ⟨q, hq⟩ := Nat.dvd_of_mod_eq_zero hm
        obtain ⟨b, rfl⟩ : ∃ b, q = b + 1 := ⟨q - 1, by
          have : q ≠ 0 := by rintro rfl; omega
          omega⟩
        have hq' : s + 1 = (b + 1) * nshellSimd len := by rw [hq, Nat.mul_comm]; rfl
        rw [simdRound_of_dvd hlen]
        rw [hq'] at hs ⊢
        exact h b hs
      · rfl

/-- Corollary: lists of at most `2*len` bra shells are always read correctly. -/
theorem C25_bra_small {len : ℕ} (hlen : 0 < len) (np : ℕ → ℕ) (n : ℕ) (hn : n ≤ nshellSimd len) :
    ∀ s < n, tightStart np s = paddedStart len np s := by
  rw [C25_bra_layout hlen]
  intro b hb
  exfalso
  rw [Nat.succ_mul] at hb
  omega

/-- Corollary: scalar builds always read correctly. -/
theorem C25_bra_scalar (np : ℕ → ℕ) (n : ℕ) : ∀ s < n, tightStart np s = paddedStart 1 np s := by
  rw [C25_bra_layout (by omega)]
  intro b _
  exact one_dvd _

/-- A list with one shell per primitive count in `np`, prefactor `1` at its primitives, `0` in the
padding lanes (as the fill routines store it). -/
def demoList (len n : ℕ) (np : ℕ → ℕ) (alloc : ℕ) : MSP ℤ :=
  { nclip := n, nprim12 := np, alloc := alloc
    prefac := fun i => if ∃ s < n, paddedStart len np s ≤ i ∧ i < paddedStart len np s + np s
      then 1 else 0
    screen := fun i => if ∃ s < n, paddedStart len np s ≤ i ∧ i < paddedStart len np s + np s
      then 1 else 0
    screenMax := 1
    alpha := fun _ => 1, pos := fun _ _ => 0, PA := fun _ _ => 0, PB := fun _ _ => 0
    AB := fun _ _ => 0 }

/-- A call whose primitive integral is the product of the two prefactors. -/
def demoEnv (len : ℕ) (P Q : MSP ℤ) (tol : ℤ) : DEnv ℤ :=
  { len := len, tops := [⟨0, 0, 0, 0, ""⟩], P := P, Q := Q, tol := tol, size := fun _ => 100
    vec := fun i _ pf => some fun n _ _ => P.prefac i * pf n }

theorem demo_laneWise (len : ℕ) (P Q : MSP ℤ) (tol : ℤ) :
    LaneWise (demoEnv len P Q tol) (fun i _ pf _ _ => P.prefac i * pf) where
  lane := fun _ _ _ _ _ _ => ⟨_, rfl, fun _ _ _ _ _ _ => rfl⟩
  zero := fun _ _ _ _ => mul_zero _

/-- Bra list with 1, 1, 1, 2, 1 primitives, ket list with one shell; vectors of two. -/
def demoBra : MSP ℤ := demoList 2 5 (fun s => [1, 1, 1, 2, 1].getD s 0) 8

/-- Ket list with shells of 3, 1, 2 primitives. -/
def demoKet : MSP ℤ := demoList 2 3 (fun s => [3, 1, 2].getD s 0) 6

/-- The hypotheses of C25 hold for the demonstration call. -/
theorem demo_ok : ListsOK (demoEnv 2 demoBra demoKet 0) where
  len := by decide
  prims := by decide
  bra := by decide
  ket := by decide
  tops := by decide
  ncart := by decide

-- the first four bra shells are correct, the fifth (its primitive is at position 6) gives zero
example : (runDirect (demoEnv 2 demoBra demoKet 0) ⟨0, 0, 0, 0, ""⟩ (fun _ => 7)).map
    (fun r => (r.1, (List.range 16).map r.2))
      = some (15, [3, 1, 2, 3, 1, 2, 3, 1, 2, 6, 2, 4, 0, 0, 0, 7]) := by decide +kernel

/-- With the padded bra layout that the fill routines produce, results of bra shells behind an
incomplete batch are wrong: here the sum over the primitives is 3, the function returns 0. -/
theorem C25_bra_padding_wrong : ∃ (e : DEnv ℤ) (prim : ℕ → ℕ → ℤ → QAM → ℕ → ℤ) (final : QAM)
    (res : ℕ → ℤ), LaneWise e prim ∧ ListsOK e ∧ e.tops = [final] ∧
    runDirect e final (fun _ => 0) = some (e.P.nclip * e.Q.nclip, res) ∧
    ∃ ab < e.P.nclip, ∃ cd < e.Q.nclip,
      res ((ab * e.Q.nclip + cd) * ncartQ final) ≠
        contracted e (fun i j => prim i j (e.Q.prefac j) final 0)
          (paddedStart e.len e.P.nprim12 ab) (e.P.nprim12 ab)
          (paddedStart e.len e.Q.nprim12 cd) (e.Q.nprim12 cd) := by
  obtain ⟨res, h1, h2, _⟩ := C25_direct (demoEnv 2 demoBra demoKet 0) ⟨0, 0, 0, 0, ""⟩ _
    (demo_laneWise 2 demoBra demoKet 0) demo_ok rfl (by decide) (fun _ => 0)
  refine ⟨_, _, _, res, demo_laneWise 2 demoBra demoKet 0, demo_ok, rfl, h1, 4, by decide, 0,
    by decide, ?_⟩
  rw [← Nat.add_zero ((4 * _ + 0) * _), h2 4 (by decide) 0 (by decide) 0 (by decide)]
  unfold contractedPair
  decide +kernel

/-! ## C26, C27: padding lanes and clipping -/

section
variable {F : Type} [AddCommMonoid F] [Mul F] [LinearOrder F]

theorem kept_same {e e' : DEnv F} {prim prim' : ℕ → ℕ → F → QAM → ℕ → F}
    (h : SameShells e e' prim prim') (hlen : 0 < e.len) {i j : ℕ} (hi : e.BraReal i)
    (hj : e.KetReal j) : e.Kept i j ↔ e'.Kept i j := by
  unfold DEnv.Kept DEnv.skipBra DEnv.skipVec
  have hc : e.check ↔ e'.check := by unfold DEnv.check; rw [h.tol]
  by_cases hch : e.check
  · obtain ⟨s1, s2, s3⟩ := h.screen hch
    have hv : vectorMax e.len (fun n => e.P.screen i * e.Q.screen (j / e.len * e.len + n))
        = vectorMax e'.len (fun n => e'.P.screen i * e'.Q.screen (j / e'.len * e'.len + n)) := by
      rw [← h.len, ← s2 i hi]
      unfold vectorMax
      simp only
      rw [s3 j hj 0 hlen]
      have : ∀ (l : List ℕ) m, (∀ n ∈ l, n < e.len) →
          l.foldl (fun m n => if e.P.screen i * e.Q.screen (j / e.len * e.len + n) > m
            then e.P.screen i * e.Q.screen (j / e.len * e.len + n) else m) m =
          l.foldl (fun m n => if e.P.screen i * e'.Q.screen (j / e.len * e.len + n) > m
            then e.P.screen i * e'.Q.screen (j / e.len * e.len + n) else m) m := by
        intro l
        induction l with
        | nil => intro m _; rfl
        | cons a r ih =>
          intro m hm
          simp only [List.foldl_cons]
          rw [s3 j hj a (hm a (by simp))]
          exact ih _ fun n hn => hm n (by simp [hn])
      apply this
      intro n hn
      have := List.mem_range'_1.1 hn
      omega
    rw [hv, ← s2 i hi, ← s1, ← h.tol, hc]
  · simp only [hch, hc.not.1 hch, false_and, not_false_eq_true, and_self]

theorem tightStart_congr {np np' : ℕ → ℕ} {n : ℕ} (h : ∀ s < n, np s = np' s) :
    tightStart np n = tightStart np' n := sum_congr rfl fun s hs => h s (mem_range.1 hs)

theorem paddedStart_congr {len : ℕ} {np np' : ℕ → ℕ} {n : ℕ} (h : ∀ s < n, np s = np' s) :
    paddedStart len np n = paddedStart len np' n := by
  induction n with
  | zero => rfl
  | succ n ih => rw [paddedStart, paddedStart, ih fun s hs => h s (by omega), h n (by omega)]

theorem contracted_same {e e' : DEnv F} {prim prim' : ℕ → ℕ → F → QAM → ℕ → F}
    (h : SameShells e e' prim prim') (hlen : 0 < e.len) {ab cd : ℕ} (hab : ab < e.P.nclip)
    (hcd : cd < e.Q.nclip) {t : QAM} (ht : t ∈ e.tops) {c : ℕ} (hc : c < ncartQ t) :
    contractedPair e prim ab cd t c = contractedPair e' prim' ab cd t c := by
  unfold contractedPair contracted
  rw [← h.len, ← h.braCounts ab hab, ← h.ketCounts cd hcd,
    tightStart_congr (np := e.P.nprim12) (np' := e'.P.nprim12) (n := ab)
      (fun s hs => h.braCounts s (by omega)),
    paddedStart_congr (np := e.Q.nprim12) (np' := e'.Q.nprim12) (n := cd)
      (fun s hs => h.ketCounts s (by omega))]
  refine sum_congr rfl fun a ha => sum_congr rfl fun b hb => ?_
  rw [← tightStart_congr (np := e.P.nprim12) (np' := e'.P.nprim12) (n := ab)
      (fun s hs => h.braCounts s (by omega)),
    ← paddedStart_congr (np := e.Q.nprim12) (np' := e'.Q.nprim12) (n := cd)
      (fun s hs => h.ketCounts s (by omega))]
  have hi : e.BraReal (tightStart e.P.nprim12 ab + a) := ⟨ab, hab, a, mem_range.1 ha, rfl⟩
  have hj : e.KetReal (paddedStart e.len e.Q.nprim12 cd + b) := ⟨cd, hcd, b, mem_range.1 hb, rfl⟩
  have hk := kept_same h hlen hi hj
  simp only
  rw [h.values _ _ hi hj t ht c hc]
  by_cases hkk : e.Kept (tightStart e.P.nprim12 ab + a) (paddedStart e.len e.Q.nprim12 cd + b)
  · rw [if_pos hkk, if_pos (hk.1 hkk)]
  · rw [if_neg hkk, if_neg fun x => hkk (hk.2 x)]

/-- C26 and C27 in one statement, without horizontal stage: two calls whose lists describe the
same first shells return the same count and the same output — whatever is stored in padding
lanes, behind the clip, or in the unused part of the arrays. -/
theorem C26_same_shells_direct {e e' : DEnv F} {prim prim' : ℕ → ℕ → F → QAM → ℕ → F}
    (h : SameShells e e' prim prim') (final : QAM) (htop : e.tops = [final])
    (hprim : LaneWise e prim) (hprim' : LaneWise e' prim') (hok : ListsOK e) (hok' : ListsOK e')
    (hsize : e.P.nclip * e.Q.nclip * ncartQ final ≤ e.size final)
    (hsize' : e.P.nclip * e.Q.nclip * ncartQ final ≤ e'.size final) (out : ℕ → F) :
    runDirect e final out = runDirect e' final out := by
  rw [runDirect_eq e final prim hprim hok htop hsize out,
    runDirect_eq e' final prim' hprim' hok' (h.tops ▸ htop)
      (by rw [← h.braClip, ← h.ketClip]; exact hsize') out, ← h.braClip, ← h.ketClip]
  congr 2
  funext idx
  unfold outAfter
  split
  · rename_i hlt
    have hn := hok.ncart final (by simp [htop])
    have hq : idx / ncartQ final < e.P.nclip * e.Q.nclip := (Nat.div_lt_iff_lt_mul hn).2 hlt
    have hQ : 0 < e.Q.nclip := Nat.pos_of_ne_zero fun h0 => by simp [h0] at hq
    exact contracted_same h hok.len ((Nat.div_lt_iff_lt_mul hQ).2 hq) (Nat.mod_lt _ hQ)
      (by simp [htop]) (Nat.mod_lt _ hn)
  · rfl

/-- The same with a horizontal stage that only looks at the components of the arrays. -/
theorem C26_same_shells_hrr {e e' : DEnv F} {prim prim' : ℕ → ℕ → F → QAM → ℕ → F}
    (h : SameShells e e' prim prim') (hv hv' : HEnv F) (hblk : hv'.blk = hv.blk) (final : QAM)
    (hfin : 0 < hv.blk)
    (hspec : ℕ → ℕ → (QAM → ℕ → F) → ℕ → F)
    (hlocal : ∀ ab cd X Y, (∀ t ∈ e.tops, ∀ i < ncartQ t, X t i = Y t i) →
      ∀ c < hv.blk, hspec ab cd X c = hspec ab cd Y c)
    (hh : HrrOK e hv final hspec) (hh' : HrrOK e' hv' final hspec)
    (hprim : LaneWise e prim) (hprim' : LaneWise e' prim') (hok : ListsOK e) (hok' : ListsOK e')
    (hsize : ∀ t ∈ e.tops, nshellSimd e.len * ncartQ t ≤ e.size t)
    (hsize' : ∀ t ∈ e.tops, nshellSimd e.len * ncartQ t ≤ e'.size t)
    (hout : e.P.nclip * e.Q.nclip * hv.blk ≤ hv.outSize)
    (hout' : e.P.nclip * e.Q.nclip * hv.blk ≤ hv'.outSize)
    (hmem hmem' : HMem F) (out : ℕ → F) :
    runHrr e hv final hmem out = runHrr e' hv' final hmem' out := by
  rw [runHrr_eq e hv final hfin prim hprim _ (hh.on _) hok hsize hout hmem out,
    runHrr_eq e' hv' final (by rw [hblk]; exact hfin) prim' hprim' _ (hh'.on _) hok'
      (by rw [← h.tops, ← h.len]; exact hsize')
      (by rw [← h.braClip, ← h.ketClip, hblk]; exact hout') hmem' out, ← h.braClip, ← h.ketClip, hblk]
  congr 2
  funext idx
  unfold outAfter
  split
  · rename_i hlt
    have hq : idx / hv.blk < e.P.nclip * e.Q.nclip := (Nat.div_lt_iff_lt_mul hfin).2 hlt
    have hQ : 0 < e.Q.nclip := Nat.pos_of_ne_zero fun h0 => by simp [h0] at hq
    unfold finalVal
    rw [← h.ketClip]
    exact hlocal _ _ _ _ (fun t ht i hi => contracted_same h hok.len
      ((Nat.div_lt_iff_lt_mul hQ).2 hq) (Nat.mod_lt _ hQ) ht hi) _ (Nat.mod_lt _ hfin)
  · rfl

/-- C27: the output of a call clipped to `n` ket shells is the output of a call with a list that
has only these `n` shells, and the count is the number of quartets written. -/
theorem C27_clip_prefix (e e' : DEnv F) (n : ℕ) (hn : e.Q.nclip = n)
    (prim prim' : ℕ → ℕ → F → QAM → ℕ → F) (final : QAM)
    (h : SameShells e e' prim prim') (htop : e.tops = [final])
    (hprim : LaneWise e prim) (hprim' : LaneWise e' prim') (hok : ListsOK e) (hok' : ListsOK e')
    (hsize : e.P.nclip * n * ncartQ final ≤ e.size final)
    (hsize' : e.P.nclip * n * ncartQ final ≤ e'.size final) (out : ℕ → F) :
    ∃ res, runDirect e final out = some (e.P.nclip * n, res) ∧
      runDirect e' final out = some (e.P.nclip * n, res) ∧
      ∀ k, e.P.nclip * n * ncartQ final ≤ k → res k = out k := by
  subst hn
  obtain ⟨res, h1, _, h3⟩ := C25_direct e final prim hprim hok htop hsize out
  exact ⟨res, h1, by rw [← C26_same_shells_direct h final htop hprim hprim' hok hok' hsize hsize' out,
    h1], h3⟩

end

/-- Demonstration list with different garbage `g` behind the last primitive. -/
def demoPad (g : ℤ) : MSP ℤ :=
  { demoList 2 1 (fun _ => 1) 2 with
    prefac := fun i => if i = 0 then 1 else g, screen := fun i => if i = 0 then 1 else g }

-- unscreened: garbage in the padding lane has no influence
example : (runDirect (demoEnv 2 (demoPad 0) (demoPad 5) 0) ⟨0, 0, 0, 0, ""⟩ (fun _ => 7)).map
    (fun r => (r.1, (List.range 2).map r.2)) = some (1, [1, 7]) := by decide +kernel

/-- With screening the screening values in padding lanes do matter: they can keep a vector alive
that would be skipped otherwise (so the condition on `screen` in `SameShells` is necessary). -/
theorem C26_screen_padding_matters : ∃ (e e' : DEnv ℤ) (prim : ℕ → ℕ → ℤ → QAM → ℕ → ℤ)
    (final : QAM), LaneWise e prim ∧ LaneWise e' prim ∧ ListsOK e ∧ ListsOK e' ∧
    e.len = e'.len ∧ e.tops = e'.tops ∧ e.tol = e'.tol ∧ e.P = e'.P ∧
    e.Q.nclip = e'.Q.nclip ∧ e.Q.nprim12 = e'.Q.nprim12 ∧
    (∀ j, e.KetReal j → e.Q.prefac j = e'.Q.prefac j ∧ e.Q.screen j = e'.Q.screen j) ∧
    (runDirect e final (fun _ => 0)).map (fun r => r.2 0)
      ≠ (runDirect e' final (fun _ => 0)).map (fun r => r.2 0) := by
  let P : MSP ℤ := { demoPad 0 with screen := fun _ => 1 }
  let Q : ℤ → MSP ℤ := fun g => { demoPad g with screenMax := 9 }
  have ok : ∀ g, ListsOK (demoEnv 2 P (Q g) 2) := fun g =>
    { len := (by decide : (0:ℕ) < 2)
      prims := fun s _ => (by decide : (0:ℕ) < 1)
      bra := (by decide : tightStart (fun _ => 1) 1 ≤ 2)
      ket := fun s hs => by
        have : s < 1 := hs
        obtain rfl : s = 0 := by omega
        exact (by decide : simdRound 2 (paddedStart 2 (fun _ => 1) 0 + 1) ≤ 2)
      tops := by simp [demoEnv]
      ncart := by intro t ht; simp only [demoEnv, List.mem_singleton] at ht; subst ht; decide }
  refine ⟨demoEnv 2 P (Q 0) 2, demoEnv 2 P (Q 9) 2, _, ⟨0, 0, 0, 0, ""⟩,
    demo_laneWise 2 P (Q 0) 2, demo_laneWise 2 P (Q 9) 2, ok 0, ok 9, rfl, rfl, rfl, rfl, rfl, rfl, ?_,
    by decide +kernel⟩
  rintro j ⟨s, hs, b, hb, rfl⟩
  have h1 : s < 1 := hs
  have h2 : b < 1 := hb
  obtain rfl : s = 0 := by omega
  obtain rfl : b = 0 := by omega
  exact ⟨rfl, rfl⟩

/-! ## C28: screening -/

section
variable {F : Type} [Field F] [LinearOrder F] [IsStrictOrderedRing F]

/-- C28: a pair whose bound reaches the tolerance is never dropped, if the bra screening value is
not negative and `screen_max` bounds the ket screening values. -/
theorem C28_kept (e : DEnv F) (hlen : 0 < e.len) (i j : ℕ) (hi : 0 ≤ e.P.screen i)
    (hj : e.Q.screen j ≤ e.Q.screenMax) (h : e.tol ≤ e.P.screen i * e.Q.screen j) : e.Kept i j := by
  refine ⟨fun hs => ?_, fun hs => ?_⟩
  · exact absurd hs.2 (not_lt.2 (h.trans (mul_le_mul_of_nonneg_left hj hi)))
  · refine absurd hs.2 (not_lt.2 (h.trans ?_))
    have := vectorMax_ge (len := e.len)
      (fun n => e.P.screen i * e.Q.screen (j / e.len * e.len + n)) (n := j % e.len)
      (Nat.mod_lt _ hlen)
    simp only [Nat.mul_comm (j / e.len) e.len, Nat.div_add_mod j e.len] at this
    simp only [Nat.mul_comm (j / e.len) e.len]
    exact this

/-- Without a positive tolerance nothing is dropped. -/
theorem C28_off (e : DEnv F) (h : e.tol ≤ 0) (i j : ℕ) : e.Kept i j :=
  ⟨fun hs => absurd hs.1 (not_lt.2 h), fun hs => absurd hs.1 (not_lt.2 h)⟩

theorem unscreened_kept (e : DEnv F) (i j : ℕ) : e.unscreened.Kept i j := C28_off _ le_rfl i j

/-- C28: the screened value differs from the unscreened one by the contributions of pairs whose
bound is below the tolerance, and by nothing else. -/
theorem C28_difference (e : DEnv F) (hlen : 0 < e.len) (prim : ℕ → ℕ → F → QAM → ℕ → F)
    (ab cd : ℕ) (t : QAM) (c : ℕ) (hscr : ∀ i, 0 ≤ e.P.screen i)
    (hmax : ∀ j, e.Q.screen j ≤ e.Q.screenMax) :
    ∃ D : Finset (ℕ × ℕ),
      (∀ p ∈ D, e.P.screen p.1 * e.Q.screen p.2 < e.tol ∧
        p.1 ∈ Finset.Ico (tightStart e.P.nprim12 ab) (tightStart e.P.nprim12 ab + e.P.nprim12 ab) ∧
        p.2 ∈ Finset.Ico (paddedStart e.len e.Q.nprim12 cd)
          (paddedStart e.len e.Q.nprim12 cd + e.Q.nprim12 cd)) ∧
      contractedPair e.unscreened prim ab cd t c = contractedPair e prim ab cd t c
        + ∑ p ∈ D, prim p.1 p.2 (e.Q.prefac p.2) t c := by
  classical
  refine ⟨((Finset.Ico (tightStart e.P.nprim12 ab) (tightStart e.P.nprim12 ab + e.P.nprim12 ab)) ×ˢ
    (Finset.Ico (paddedStart e.len e.Q.nprim12 cd)
      (paddedStart e.len e.Q.nprim12 cd + e.Q.nprim12 cd))).filter (fun p => ¬ e.Kept p.1 p.2),
    ?_, ?_⟩
  · rintro ⟨i, j⟩ hp
    obtain ⟨hp, hk⟩ := Finset.mem_filter.1 hp
    obtain ⟨h1, h2⟩ := Finset.mem_product.1 hp
    refine ⟨?_, h1, h2⟩
    by_contra hge
    exact hk (C28_kept e hlen i j (hscr i) (hmax j) (not_lt.1 hge))
  · unfold contractedPair contracted
    rw [Finset.sum_filter, Finset.sum_product, Finset.sum_Ico_eq_sum_range, Nat.add_sub_cancel_left]
    simp only [Finset.sum_Ico_eq_sum_range, Nat.add_sub_cancel_left]
    rw [← Finset.sum_add_distrib]
    refine Finset.sum_congr rfl fun a _ => ?_
    rw [← Finset.sum_add_distrib]
    refine Finset.sum_congr rfl fun b _ => ?_
    rw [if_pos (unscreened_kept e _ _)]
    simp only [DEnv.unscreened]
    split <;> simp_all

end

/-- C28, size of the error: if the screening values are Schwarz bounds (`|primitive|² ≤ screen_i ·
screen_j`) and the tolerance handed to the function is the square of `eps`
(`simint_compute_ostei`, skel/simint/ostei/ostei.c:16-21), each contracted value changes by at
most `eps` per dropped pair. -/
theorem C28_error (e : DEnv ℝ) (hlen : 0 < e.len) (prim : ℕ → ℕ → ℝ → QAM → ℕ → ℝ)
    (ab cd : ℕ) (t : QAM) (c : ℕ) (eps : ℝ) (heps : 0 ≤ eps) (htol : e.tol = eps * eps)
    (hscr : ∀ i, 0 ≤ e.P.screen i) (hmax : ∀ j, e.Q.screen j ≤ e.Q.screenMax)
    (hbound : ∀ i j, (prim i j (e.Q.prefac j) t c) ^ 2 ≤ e.P.screen i * e.Q.screen j) :
    |contractedPair e.unscreened prim ab cd t c - contractedPair e prim ab cd t c|
      ≤ (e.P.nprim12 ab * e.Q.nprim12 cd : ℕ) * eps := by
  obtain ⟨D, hD, he⟩ := C28_difference e hlen prim ab cd t c hscr hmax
  rw [he, add_sub_cancel_left]
  have hcard : D.card ≤ e.P.nprim12 ab * e.Q.nprim12 cd := by
    have hsub : D ⊆ (Finset.Ico (tightStart e.P.nprim12 ab)
        (tightStart e.P.nprim12 ab + e.P.nprim12 ab)) ×ˢ (Finset.Ico (paddedStart e.len e.Q.nprim12 cd)
          (paddedStart e.len e.Q.nprim12 cd + e.Q.nprim12 cd)) :=
      fun p hp => Finset.mem_product.2 (hD p hp).2
    have := Finset.card_le_card hsub
    simpa [Finset.card_product] using this
  calc |∑ p ∈ D, prim p.1 p.2 (e.Q.prefac p.2) t c|
      ≤ ∑ p ∈ D, |prim p.1 p.2 (e.Q.prefac p.2) t c| := Finset.abs_sum_le_sum_abs _ _
    _ ≤ ∑ _p ∈ D, eps := by
        refine Finset.sum_le_sum fun p hp => ?_
        have h1 := hbound p.1 p.2
        have h2 := (hD p hp).1
        rw [htol] at h2
        have h3 : (prim p.1 p.2 (e.Q.prefac p.2) t c) ^ 2 ≤ eps ^ 2 := by nlinarith
        exact abs_le_of_sq_le_sq h3 heps
    _ = (D.card : ℝ) * eps := by rw [Finset.sum_const, nsmul_eq_mul]
    _ ≤ (e.P.nprim12 ab * e.Q.nprim12 cd : ℕ) * eps :=
        mul_le_mul_of_nonneg_right (by exact_mod_cast hcard) heps

/-- `simint_compute_ostei`, skel/simint/ostei/ostei.c:10-24: `none` is the return value `-1`
(nothing computed), otherwise the tolerance handed to the function. -/
noncomputable def computeOstei (screenTol pmax qmax : ℝ) : Option ℝ :=
  if screenTol > 0 ∧ pmax * qmax < screenTol * screenTol then none else some (screenTol * screenTol)

/-- C28: when a whole list is refused, every pair of primitives has a bound below the tolerance. -/
theorem C28_refused (P Q : MSP ℝ) (screenTol : ℝ) (hr : computeOstei screenTol P.screenMax Q.screenMax = none)
    (hP : ∀ i, P.screen i ≤ P.screenMax) (hQ : ∀ j, 0 ≤ Q.screen j ∧ Q.screen j ≤ Q.screenMax)
    (hP0 : 0 ≤ P.screenMax) (i j : ℕ) : P.screen i * Q.screen j < screenTol * screenTol := by
  unfold computeOstei at hr
  split at hr
  · rename_i h
    refine lt_of_le_of_lt ?_ h.2
    exact le_trans (mul_le_mul_of_nonneg_right (hP i) (hQ j).1)
      (mul_le_mul_of_nonneg_left (hQ j).2 hP0)
  · simp at hr

/-- The two forms of `vector_max` (start value lane 0 or `0.0`) decide alike whenever the
tolerance is positive, which is the only case in which they are consulted. -/
theorem C28_vector_max {F : Type} [Zero F] [LinearOrder F] {len : ℕ} (hlen : 0 < len) (v : ℕ → F)
    {tol : F} (ht : 0 < tol) : vectorMaxSse len v < tol ↔ vectorMax len v < tol := by
  rw [vectorMaxSse_eq hlen, max_lt_iff]
  exact ⟨fun h => h.2, fun h => ⟨ht, h⟩⟩

-- a skipped vector in the middle does not disturb the bookkeeping: shells of 3, 1, 2 primitives in
-- vectors of two, the second vector (primitives 2 and 3) is skipped
example : (runDirect (demoEnv 2 (demoList 2 1 (fun _ => 1) 2)
    { demoKet with screen := fun j => if j = 2 ∨ j = 3 then 0 else 5, screenMax := 5 } 2)
      ⟨0, 0, 0, 0, ""⟩ (fun _ => 7)).map (fun r => (r.1, (List.range 4).map r.2))
    = some (3, [2, 0, 2, 7]) := by decide +kernel

/-! ## C30: contraction helpers -/

section
variable {F : Type} [CommRing F]

/-- C30: `contract` adds lane `n` to the block selected by its offset, component by component;
nothing else changes. -/
theorem C30_contract (size len ncart : ℕ) (off : ℕ → ℕ) (src : ℕ → ℕ → F) (ptr : ℕ) (b : ℕ → F)
    (h : ∀ n < len, ptr + off n * ncart + ncart ≤ size) :
    ∃ b', contract size len ncart off src ptr b = some b' ∧
      (∀ s, ∀ np < ncart, b' (ptr + s * ncart + np)
        = b (ptr + s * ncart + np) + ∑ n ∈ (range len).filter (fun n => off n = s), src np n) ∧
      ∀ k, (∀ n < len, k < ptr + off n * ncart ∨ ptr + off n * ncart + ncart ≤ k) → b' k = b k := by
  refine ⟨_, contract_eq size len ncart off src ptr b h, ?_, ?_⟩
  · intro s np hnp
    congr 1
    rw [sum_filter]
    refine sum_congr rfl fun n hn => ?_
    by_cases ho : off n = s
    · rw [if_pos ho, sum_eq_single np]
      · rw [ho, if_pos rfl]
      · intro x _ hx; rw [ho, if_neg (by omega)]
      · intro hx; exact absurd (mem_range.2 hnp) hx
    · rw [if_neg ho]
      refine sum_eq_zero fun x hx => ?_
      have hx' := mem_range.1 hx
      rw [if_neg]
      intro heq
      apply ho
      have e1 : off n * ncart + x = s * ncart + np := by omega
      have e2 : (off n * ncart + x) / ncart = off n := by
        rw [Nat.mul_comm, Nat.mul_add_div (by omega), Nat.div_eq_of_lt hx', Nat.add_zero]
      have e3 : (s * ncart + np) / ncart = s := by
        rw [Nat.mul_comm, Nat.mul_add_div (by omega), Nat.div_eq_of_lt hnp, Nat.add_zero]
      rw [← e2, ← e3, e1]
  · intro k hk
    rw [sum_eq_zero, add_zero]
    intro n hn
    refine sum_eq_zero fun x hx => ?_
    have := hk n (mem_range.1 hn)
    have := mem_range.1 hx
    rw [if_neg (by omega)]

/-- C30: all forms of `contract_all` — the plain one, the horizontal adds of AVX, the transposition
of AVX512, the reductions — add the sum over the lanes to each component. -/
theorem C30_contract_all (size ncart : ℕ) (src : ℕ → ℕ → F) (ptr : ℕ) (b : ℕ → F)
    (h : ptr + ncart ≤ size) :
    (∀ len, contractAll size len ncart src ptr b = some fun k => b k +
      (if ptr ≤ k ∧ k < ptr + ncart then ∑ n ∈ range len, src (k - ptr) n else 0)) ∧
    (∀ len, contractAllReduce size len ncart src ptr b = contractAll size len ncart src ptr b) ∧
    contractAllAvx size ncart src ptr b = contractAll size 4 ncart src ptr b ∧
    contractAllAvx512 size ncart src ptr b = contractAll size 8 ncart src ptr b :=
  ⟨fun len => contractAll_eq size len ncart src ptr b h,
   fun len => by rw [contractAllReduce_eq size len ncart src ptr b h, contractAll_eq _ _ _ _ _ _ h],
   by rw [contractAllAvx_eq size ncart src ptr b h, contractAll_eq _ _ _ _ _ _ h],
   by rw [contractAllAvx512_eq size ncart src ptr b h, contractAll_eq _ _ _ _ _ _ h]⟩

/-- C30: with a factor, each helper is the one without applied to the scaled values. -/
theorem C30_contract_fac (size len ncart : ℕ) (fac : ℕ → F) (off : ℕ → ℕ) (src : ℕ → ℕ → F)
    (ptr : ℕ) (b : ℕ → F) (h : ∀ n < len, ptr + off n * ncart + ncart ≤ size)
    (h0 : ptr + ncart ≤ size) :
    contractFacScalar size len ncart fac off src ptr b
      = contract size len ncart off (fun np n => fac n * src np n) ptr b ∧
    contractFac size len ncart fac off src ptr b
      = contract size len ncart off (fun np n => fac n * src np n) ptr b ∧
    contractAllFac size len ncart fac src ptr b
      = contractAll size len ncart (fun np n => fac n * src np n) ptr b ∧
    contractAllFacReduce size len ncart fac src ptr b
      = contractAll size len ncart (fun np n => fac n * src np n) ptr b ∧
    contractAllFacAvx size ncart fac src ptr b
      = contractAll size 4 ncart (fun np n => fac n * src np n) ptr b := by
  refine ⟨rfl, ?_, ?_, ?_, ?_⟩
  · rw [contractFac_eq _ _ _ _ _ _ _ _ h, contract_eq _ _ _ _ _ _ _ h]
  · rw [contractAllFac, contractFac_eq _ _ _ _ _ _ _ _ (by intro n _; simpa using h0), contractAll,
      contract_eq _ _ _ _ _ _ _ (by intro n _; simpa using h0)]
  · rw [contractAllFacReduce, contractAllReduce_eq _ _ _ _ _ _ h0, contractAll_eq _ _ _ _ _ _ h0]
  · rw [contractAllFacAvx, contractAllAvx_eq _ _ _ _ _ h0, contractAll_eq _ _ _ _ _ _ h0]

/-- C30: a helper whose destination block does not fit is undefined behaviour. -/
theorem C30_out_of_bounds (size len ncart : ℕ) (off : ℕ → ℕ) (src : ℕ → ℕ → F) (ptr : ℕ)
    (b : ℕ → F) (h : ∃ n < len, ∃ np < ncart, size ≤ ptr + off n * ncart + np) :
    contract size len ncart off src ptr b = none := by
  obtain ⟨n, hn, np, hnp, h⟩ := h
  exact addList_none _ _ _ ⟨_, List.mem_flatMap.2 ⟨n, List.mem_range.2 hn,
    List.mem_map.2 ⟨np, List.mem_range.2 hnp, rfl⟩⟩, h⟩

end

-- six components, four lanes: one block of horizontal adds and a remainder of two
example : (contractAllAvx 6 6 (fun np n => (10 * np + n : ℤ)) 0 (fun _ => 0)).map
    (fun b => (List.range 6).map b) = some [6, 46, 86, 126, 166, 206] := by decide +kernel

end Simint
