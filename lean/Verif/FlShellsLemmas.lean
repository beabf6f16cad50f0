import Verif.Spec.FlShells
import Verif.Props.FlFunction
import Verif.Props.SortFill
import Verif.Props.Driver
import Verif.Screen

/-! Lemmas for C89: contents of a list after a complete fill with any arithmetic, sums over its
elements. -/

set_option autoImplicit false

open Finset

namespace Simint

/-! ### Complete fills with any arithmetic -/

section
variable {F : Type} [Field F] [LinearOrder F]

theorem perm_getD {α : Type} {l : List α} {n : ℕ} (hn : l.length = n) (σ : Equiv.Perm (Fin n)) (d : α) :
    (List.ofFn fun k : Fin n => l.getD (σ k) d).Perm l := by
  refine List.Perm.trans (Equiv.Perm.ofFn_comp_perm σ fun k : Fin n => l.getD k d) (List.Perm.of_eq ?_)
  refine List.ext_getElem (by rw [List.length_ofFn, hn]) fun k k1 k2 => ?_
  rw [List.getElem_ofFn]
  exact List.getD_eq_getElem _ _ k2

/-- A list made by a complete fill, with any arithmetic: numbers of primitives, contents of the elements of
each pair in some order, differences of centers, exponents of the other elements. -/
theorem complete_elems (sh : ShCfg) (hl : 0 < sh.len) (ops : ShOps F) (scr : PrimScreen F)
    (val : Shell F → Shell F → ℕ → ℕ → F) (hscr : sh.screening = true → ExactScr scr val) (big : F)
    (ps : List (Shell F × Shell F)) (hps : ∀ p ∈ ps, 0 < p.1.nprim ∧ 0 < p.2.nprim) (mf : ℕ → F) :
    ∃ M, completeList sh ops scr big ps mf = some M ∧ M.1.nclip = ps.length ∧
      M.1.alloc = allocPrims sh.len ps ∧ M.1.screenMax = (fillPairs sh ops scr big ps).screenMax ∧
      (∀ s (hs : s < ps.length), M.1.nprim12 s = pairPrims ps[s].1 ps[s].2 ∧
        (∀ d, M.1.AB d s = ops.sub (ps[s].1.pos d) (ps[s].2.pos d)) ∧
        ∃ ord : List (ℕ × ℕ), ord.Perm (primOrder ps[s].1 ps[s].2) ∧
          ∀ k < M.1.nprim12 s, ∀ v, v = ops.prim ps[s].1 ps[s].2 (ord.getD k (0, 0)).1 (ord.getD k (0, 0)).2 →
            let i := paddedStart sh.len M.1.nprim12 s + k
            M.1.alpha i = v .alpha ∧ M.1.prefac i = v .prefac ∧ (∀ d, M.1.pos d i = v (.pos d)) ∧
              (∀ d, M.1.PA d i = v (.PA d)) ∧ (∀ d, M.1.PB d i = v (.PB d)) ∧
              (sh.deriv = true → M.2.1 i = v .alpha2 ∧ M.2.2 i = v .beta2) ∧
              (sh.screening = true → M.1.screen i =
                val ps[s].1 ps[s].2 (ord.getD k (0, 0)).1 (ord.getD k (0, 0)).2)) ∧
      ∀ i < M.1.alloc, (∀ s < ps.length, ¬ (paddedStart sh.len M.1.nprim12 s ≤ i ∧
        i < paddedStart sh.len M.1.nprim12 s + M.1.nprim12 s)) → M.1.alpha i = 1 := by
  obtain ⟨h1, h2⟩ := layout_aux sh hl ops scr val hscr big ps mf
  obtain ⟨-, -, -, hn12, -⟩ := C37_fill_writes_allocation sh hl ops scr val hscr big ps
  have hlen : (fillPairs sh ops scr big ps).nprim12.length = ps.length := by rw [hn12, List.length_map]
  have hn : ∀ s (hs : s < ps.length),
      (fillPairs sh ops scr big ps).nprim12.getD s 0 = pairPrims ps[s].1 ps[s].2 := by
    intro s hs
    rw [hn12]
    exact npOf_countsOf hs
  have key : ∃ m', completeFill sh ops scr big ps mf = some m' ∧
      (∀ s < ps.length, ∃ σ : Equiv.Perm (Fin ((fillPairs sh ops scr big ps).nprim12.getD s 0)),
        ∀ a, PerPrim sh a → ∀ k : Fin _, m' a (paddedStart sh.len
            (fun s => (fillPairs sh ops scr big ps).nprim12.getD s 0) s + k) =
          bufView sh ps.length (allocPrims sh.len ps) (applyFlat sh ps.length (allocPrims sh.len ps)
            (fillPairs sh ops scr big ps).log mf) a (paddedStart sh.len
            (fun s => (fillPairs sh ops scr big ps).nprim12.getD s 0) s + σ k)) ∧
      ∀ a i, (PerPrim sh a → ∀ s < ps.length, ¬ (paddedStart sh.len
          (fun s => (fillPairs sh ops scr big ps).nprim12.getD s 0) s ≤ i ∧ i < paddedStart sh.len
          (fun s => (fillPairs sh ops scr big ps).nprim12.getD s 0) s +
            (fillPairs sh ops scr big ps).nprim12.getD s 0)) →
        m' a i = bufView sh ps.length (allocPrims sh.len ps) (applyFlat sh ps.length (allocPrims sh.len ps)
            (fillPairs sh ops scr big ps).log mf) a i := by
    by_cases hs : sh.screening = true
    · obtain ⟨m', e, r⟩ := C41_fill sh hl hs ops scr val (hscr hs) big ps hps mf
      exact ⟨m', e, r.perm, r.rest⟩
    · refine ⟨_, ?_, fun s _ => ⟨1, fun a _ k => rfl⟩, fun a i _ => rfl⟩
      unfold completeFill
      simp only
      rw [if_neg hs]
  obtain ⟨m', e, hσ, hrest⟩ := key
  refine ⟨(mspOf m' (allocPrims sh.len ps) (fillPairs sh ops scr big ps).nprim12
      (fillPairs sh ops scr big ps).screenMax, m' .alpha2, m' .beta2), ?_, hlen, rfl, rfl, ?_, ?_⟩
  · unfold completeList
    rw [e, Option.map_some]
  · intro s hs
    obtain ⟨σ, hσ⟩ := hσ s hs
    have hol : (primOrder ps[s].1 ps[s].2).length = (fillPairs sh ops scr big ps).nprim12.getD s 0 :=
      (h1 s hs).1.1
    refine ⟨hn s hs, fun d => ?_, List.ofFn fun k => (primOrder ps[s].1 ps[s].2).getD (σ k) (0, 0),
      perm_getD hol σ _, ?_⟩
    · exact (hrest (.AB d) s fun h => h.elim).trans ((h1 s hs).2 d)
    · rintro k hk v rfl
      have hk : k < (fillPairs sh ops scr big ps).nprim12.getD s 0 := hk
      have hb : (σ ⟨k, hk⟩ : ℕ) < (primOrder ps[s].1 ps[s].2).length := by rw [hol]; exact (σ ⟨k, hk⟩).2
      have eg : (List.ofFn fun k => (primOrder ps[s].1 ps[s].2).getD (σ k) (0, 0)).getD k (0, 0) =
          (primOrder ps[s].1 ps[s].2)[(σ ⟨k, hk⟩ : ℕ)] := by
        rw [List.getD_eq_getElem _ _ (by rw [List.length_ofFn]; exact hk), List.getElem_ofFn]
        exact List.getD_eq_getElem _ _ hb
      rw [eg]
      have get : ∀ a, PerPrim sh a → a ≠ .screen → m' a (paddedStart sh.len
          (fun s => (fillPairs sh ops scr big ps).nprim12.getD s 0) s + k) = ops.prim ps[s].1 ps[s].2
          ((primOrder ps[s].1 ps[s].2)[(σ ⟨k, hk⟩ : ℕ)]).1 ((primOrder ps[s].1 ps[s].2)[(σ ⟨k, hk⟩ : ℕ)]).2 a :=
        fun a ha hne => (hσ a ha ⟨k, hk⟩).trans (((h1 s hs).1.2 _ hb).1 a ha hne)
      exact ⟨get _ trivial (by decide), get _ trivial (by decide), fun d => get (.pos d) trivial (by simp),
        fun d => get (.PA d) trivial (by simp), fun d => get (.PB d) trivial (by simp),
        fun hd => ⟨get .alpha2 hd (by decide), get .beta2 hd (by decide)⟩,
        fun hs' => (hσ .screen hs' ⟨k, hk⟩).trans (((h1 s hs).1.2 _ hb).2 hs')⟩
  · intro i hi hno
    exact (hrest .alpha i fun _ s hs => hno s hs).trans ((h2 i hi hno).2.1)

/-- Room for vectors at the end of each pair, and for the tight layout. -/
theorem complete_room {sh : ShCfg} (hl : 0 < sh.len) {ops : ShOps F} {scr : PrimScreen F} {big : F}
    {ps : List (Shell F × Shell F)} {mf : ℕ → F} {M : MSP F × (ℕ → F) × (ℕ → F)}
    (e : completeList sh ops scr big ps mf = some M) :
    tightStart M.1.nprim12 M.1.nclip ≤ M.1.alloc ∧
    ∀ s < ps.length, simdRound sh.len (paddedStart sh.len M.1.nprim12 s + M.1.nprim12 s) ≤ M.1.alloc := by
  unfold completeList at e
  obtain ⟨m, -, rfl⟩ := Option.map_eq_some_iff.1 e
  obtain ⟨-, -, i3, -⟩ := fill_inv sh hl ops scr big ps ps.length le_rfl
  have hlen : (countsOf ps).length = ps.length := by simp [countsOf]
  have i3' := i3
  rw [fillAfter_length, ← hlen, List.take_length] at i3
  have hal : allocPrims sh.len ps = fillIdx sh.len (countsOf ps) (countsOf ps).length := countPrims_eq hl _
  constructor
  · change tightStart (fun s => (fillPairs sh ops scr big ps).nprim12.getD s 0)
      (fillPairs sh ops scr big ps).nprim12.length ≤ allocPrims sh.len ps
    rw [i3, hal]
    exact tightStart_le_fillIdx hl _ le_rfl
  · intro s hs
    have e := start_eq sh hl ops scr big ps hs
    change simdRound sh.len (paddedStart sh.len (fun s => (fillPairs sh ops scr big ps).nprim12.getD s 0) s +
      (fillPairs sh ops scr big ps).nprim12.getD s 0) ≤ allocPrims sh.len ps
    rw [← e, hal, i3]
    have e2 : (countsOf ps).getD s 0 = npOf (countsOf ps) s := rfl
    rw [e2]
    have hd : sh.len ∣ fillIdx sh.len (countsOf ps) (countsOf ps).length := by
      unfold fillIdx
      rw [if_pos rfl]
      exact simdRound_dvd _ _
    refine simdRound_le_of_dvd hl hd ?_
    exact (fillIdx_mono hl _ (by omega)).trans (fillIdx_le hl _ (by omega) (by omega))

end

/-! ### Sums over the elements of a pair -/

theorem sum_getD {α : Type} (l : List α) (d : α) (f : α → ℝ) :
    ∑ k ∈ range l.length, f (l.getD k d) = (l.map f).sum := by
  induction l with
  | nil => rfl
  | cons a l ih =>
    rw [List.length_cons, sum_range_succ', List.map_cons, List.sum_cons, ← ih, add_comm]
    rfl

open Classical in
theorem stored_prims_sum {A B : Shell ℝ} {ord : List (ℕ × ℕ)} (h : ord.Perm (primOrder A B)) {n : ℕ}
    (hn : n = pairPrims A B) (f : ℕ → ℕ → ℝ) :
    ∑ k ∈ range n, f (ord.getD k (0, 0)).1 (ord.getD k (0, 0)).2 =
      ∑ i ∈ range A.nprim, ∑ j ∈ range B.nprim, if StoredPrims A B i j then f i j else 0 := by
  have e : n = ord.length := by rw [hn, h.length_eq, primOrder_length]
  rw [e, sum_getD ord (0, 0) fun p => f p.1 p.2, (h.map _).sum_eq, primOrder_sum]
  refine sum_congr rfl fun i hi => ?_
  rw [mem_range] at hi
  by_cases hs : sameShell A B = true
  · have hnp : A.nprim = B.nprim := by
      unfold sameShell at hs; simp only [Bool.and_eq_true, decide_eq_true_eq] at hs; exact hs.1
    rw [if_pos hs, ← sum_filter]
    refine sum_congr ?_ fun _ _ => rfl
    ext j
    simp only [mem_range, mem_filter, StoredPrims, hs, forall_const]
    omega
  · rw [if_neg hs]
    refine sum_congr rfl fun j _ => ?_
    rw [if_pos (show StoredPrims A B i j from fun h' => absurd h' hs)]

open Classical in
/-- Folding of pairs of one shell with itself. -/
theorem folded_sum {A B : Shell ℝ} (w : ℕ → ℕ → ℝ)
    (hw : sameShell A B = true → ∀ i < A.nprim, ∀ j < A.nprim, w i j = w j i) :
    (∑ i ∈ range A.nprim, ∑ j ∈ range B.nprim,
      if StoredPrims A B i j then FlPrim.mult A B i j * w i j else 0) =
    ∑ i ∈ range A.nprim, ∑ j ∈ range B.nprim, w i j := by
  by_cases hs : sameShell A B = true
  · have hnp : A.nprim = B.nprim := by
      unfold sameShell at hs; simp only [Bool.and_eq_true, decide_eq_true_eq] at hs; exact hs.1
    rw [← hnp, square_sum A.nprim w]
    refine sum_congr rfl fun i hi => ?_
    rw [mem_range] at hi
    rw [← sum_filter]
    have : (range A.nprim).filter (fun j => StoredPrims A B i j) = range (i + 1) := by
      ext j
      simp only [mem_range, mem_filter, StoredPrims, hs, forall_const]
      omega
    rw [this, sum_range_succ]
    congr 1
    · refine sum_congr rfl fun j hj => ?_
      rw [mem_range] at hj
      rw [hw hs j (by omega) i hi]
      have : FlPrim.mult A B i j = 2 := by
        unfold FlPrim.mult
        rw [hs, if_pos]
        simp only [Bool.true_and, decide_eq_true_eq]
        omega
      rw [this]
      ring
    · have : FlPrim.mult A B i i = 1 := by
        unfold FlPrim.mult
        rw [if_neg (by simp)]
      rw [this, one_mul]
  · refine sum_congr rfl fun i _ => sum_congr rfl fun j _ => ?_
    rw [if_pos (show StoredPrims A B i j from fun h' => absurd h' hs)]
    have : FlPrim.mult A B i j = 1 := by
      unfold FlPrim.mult
      rw [if_neg (by simp [hs])]
    rw [this, one_mul]

end Simint
