import Verif.ScreenTestLemmas
import Verif.Props.FastScreen

/-!
# Property C77: the program that counts what the screening leaves
-/

set_option autoImplicit false

open Real

namespace Simint

/-- Usable shells, each with its own data (every shell that is read from a file is allocated by itself). -/
def BasisOK (n : ℕ) (s : ℕ → Shell ℝ) : Prop :=
  (∀ i < n, (s i).OK) ∧ ∀ i < n, ∀ j < n, i ≠ j → (s i).ptr ≠ (s j).ptr

/-- Values of the pairs of shells, every pair once. -/
noncomputable def pairValues (n : ℕ) (s : ℕ → Shell ℝ) : Multiset ℝ :=
  (Multiset.range n).bind fun i => (Multiset.range (i + 1)).map fun j => fastShell (s i) (s j)

/-- Values of the pairs of primitives, every pair once. -/
noncomputable def primValues (n : ℕ) (s : ℕ → Shell ℝ) : Multiset ℝ :=
  (Multiset.range n).bind fun i => (Multiset.range (i + 1)).bind fun j =>
    (Multiset.range (s i).nprim).bind fun a =>
      (Multiset.range (if i = j then a + 1 else (s j).nprim)).map fun b => fastVal (s i) (s j) a b

/-- Some pair of shells has a number of pairs of primitives that does not fill whole vectors. -/
def Ragged (len n : ℕ) (s : ℕ → Shell ℝ) : Prop :=
  ∃ i < n, ∃ j ≤ i, ¬ len ∣ if i = j then (s i).nprim * ((s i).nprim + 1) / 2 else (s i).nprim * (s j).nprim

/-- What the report has to contain: the number of pairs and of unordered pairs of pairs, and how many of them
have a product of values that reaches the tolerance. -/
structure GoodReport (tol2 : ℝ) (n : ℕ) (s : ℕ → Shell ℝ) (R : STReport) : Prop where
  nshell : R.nshell = n
  nshellpair : R.nshellpair = (n + 1).choose 2
  shellMax : IsGreatest (insert 0 {v | v ∈ pairValues n s}) R.shellMax
  pairSig : R.pairSig = (pairValues n s).countP (tol2 ≤ · * R.shellMax)
  pairInsig : R.pairInsig = (pairValues n s).countP (· * R.shellMax < tol2)
  primPair : R.primPair = Multiset.card (primValues n s)
  primPairSig : R.primPairSig = (primValues n s).countP (tol2 ≤ · * R.primMax)
  primPairInsig : R.primPairInsig = (primValues n s).countP (· * R.primMax < tol2)
  quartet : R.quartet = (R.nshellpair + 1).choose 2
  quartetSig : R.quartetSig = (pairValues n s).sym2.countP (tol2 ≤ Sym2.mul ·)
  quartetInsig : R.quartetInsig = (pairValues n s).sym2.countP (Sym2.mul · < tol2)
  primQuartet : R.primQuartet = (R.primPair + 1).choose 2
  primQuartetSig : R.primQuartetSig = (primValues n s).sym2.countP (tol2 ≤ Sym2.mul ·)
  primQuartetInsig : R.primQuartetInsig = (primValues n s).sym2.countP (Sym2.mul · < tol2)

theorem BasisOK.same {n : ℕ} {s : ℕ → Shell ℝ} (h : BasisOK n s) {i j : ℕ} (hi : i < n) (hj : j < n) :
    sameShell (s i) (s j) = decide (i = j) := by
  unfold sameShell
  by_cases e : i = j
  · subst e; simp
  · simp [e, h.2 i hi j hj e]

theorem BasisOK.faithful {n : ℕ} {s : ℕ → Shell ℝ} (h : BasisOK n s) {i j : ℕ} (hi : i < n) (hj : j < n) :
    Faithful (s i) (s j) := by
  intro hs
  rw [h.same hi hj, decide_eq_true_eq] at hs
  subst hs
  exact ⟨rfl, fun _ _ => ⟨rfl, rfl⟩⟩

theorem BasisOK.prims {n : ℕ} {s : ℕ → Shell ℝ} (h : BasisOK n s) {t : ℕ × ℕ} (ht : t ∈ triLoop n) :
    pairPrims (s t.1) (s t.2) = stNprim s t := by
  obtain ⟨h1, h2⟩ := mem_triLoop.1 ht
  unfold pairPrims stNprim
  rw [h.same h1 (h2.trans_lt h1)]
  simp only [decide_eq_true_eq]

theorem foldl_max_eq {l : List ℝ} (m : ℝ) : IsGreatest (insert m {v | v ∈ l}) (l.foldl max m) := by
  induction l generalizing m with
  | nil => simp
  | cons a l ih =>
    obtain ⟨h1, h2⟩ := ih (max m a)
    rw [List.foldl_cons]
    constructor
    · rcases h1 with h1 | h1
      · rw [h1]
        rcases le_total m a with h | h
        · rw [max_eq_right h]; exact Or.inr (List.mem_cons_self)
        · rw [max_eq_left h]; exact Or.inl rfl
      · exact Or.inr (List.mem_cons_of_mem _ h1)
    · rintro v (rfl | hv)
      · exact (le_max_left _ _).trans (h2 (Or.inl rfl))
      · rcases List.mem_cons.1 hv with rfl | hv
        · exact (le_max_right _ _).trans (h2 (Or.inl rfl))
        · exact h2 (Or.inr hv)

theorem simdRound_eq_iff {len x : ℕ} (h : 0 < len) : simdRound len x = x ↔ len ∣ x :=
  ⟨fun e => e ▸ simdRound_dvd _ _, fun hd => simdRound_of_dvd h hd⟩

theorem choose_two (n : ℕ) : n * (n + 1) / 2 = (n + 1).choose 2 := by
  rw [Nat.choose_two_right, Nat.add_sub_cancel, mul_comm]

/-- The pairs that the program makes. -/
theorem screenTest_pairs (sh : ShCfg) (hl : 0 < sh.len) (hsc : sh.screening = true) (big tol2 : ℝ)
    (mf : ℕ × ℕ → ℕ → ℝ) {n : ℕ} {s : ℕ → Shell ℝ} (h : BasisOK n s) :
    ∃ f : ℕ × ℕ → STPair,
      screenTest sh big tol2 mf n s = some (stReport sh.len tol2 n s ((triLoop n).map f)) ∧
      ∀ t ∈ triLoop n, (f t).nprim = stNprim s t ∧
        (Multiset.range (stNprim s t)).map (f t).screen =
          (((primOrder (s t.1) (s t.2)).map fun p => fastVal (s t.1) (s t.2) p.1 p.2 : List ℝ) : Multiset ℝ) ∧
        (f t).screenMax = max big ((fastSchwarz fastVal (s t.1) (s t.2)).2) := by
  have key : ∀ t : ℕ × ℕ, ∃ Q, t ∈ triLoop n → stPair sh big (mf t) (s t.1) (s t.2) = some Q ∧
      Q.nprim = stNprim s t ∧ (Multiset.range (stNprim s t)).map Q.screen =
          (((primOrder (s t.1) (s t.2)).map fun p => fastVal (s t.1) (s t.2) p.1 p.2 : List ℝ) : Multiset ℝ) ∧
        Q.screenMax = max big ((fastSchwarz fastVal (s t.1) (s t.2)).2) := by
    intro t
    by_cases ht : t ∈ triLoop n
    · obtain ⟨h1, h2⟩ := mem_triLoop.1 ht
      obtain ⟨Q, hQ⟩ := stPair_spec sh hl hsc big (mf t) (h.1 _ h1) (h.1 _ (h2.trans_lt h1))
        (h.faithful h1 (h2.trans_lt h1))
      rw [h.prims ht] at hQ
      exact ⟨Q, fun _ => hQ⟩
    · exact ⟨⟨0, fun _ => 0, 0⟩, fun h => absurd h ht⟩
  choose f hf using key
  refine ⟨f, ?_, fun t ht => (hf t ht).2⟩
  unfold screenTest
  rw [mapM_some (g := f) fun t ht => (hf t ht).1]
  rfl

section
variable {len n : ℕ} {tol2 : ℝ} {s : ℕ → Shell ℝ} {f : ℕ × ℕ → STPair}

/-- Values of the pairs of primitives, in the order in which they are stored. -/
theorem block_values (hb : BasisOK n s)
    (hf : ∀ t ∈ triLoop n, (Multiset.range (stNprim s t)).map (f t).screen =
      (((primOrder (s t.1) (s t.2)).map fun p => fastVal (s t.1) (s t.2) p.1 p.2 : List ℝ) : Multiset ℝ)) :
    ((Multiset.range (triLoop n).length).bind fun k =>
      (Multiset.range (((triLoop n).map (stNprim s)).getD k 0)).map
        (((triLoop n).map f).getD k ⟨0, fun _ => 0, 0⟩).screen) = primValues n s := by
  have e1 : ∀ k ∈ Multiset.range (triLoop n).length,
      (Multiset.range (((triLoop n).map (stNprim s)).getD k 0)).map
        (((triLoop n).map f).getD k ⟨0, fun _ => 0, 0⟩).screen =
      (fun t : ℕ × ℕ => (Multiset.range (stNprim s t)).map (f t).screen) ((triLoop n).getD k (0, 0)) := by
    intro k hk
    have hk' : k < (triLoop n).length := Multiset.mem_range.1 hk
    rw [List.getD_eq_getElem _ _ (by simpa using hk'), List.getD_eq_getElem _ _ (by simpa using hk'),
      List.getElem_map, List.getElem_map, List.getD_eq_getElem _ _ hk']
  rw [Multiset.bind_congr e1, range_bind_getD (triLoop n) (0, 0) fun t : ℕ × ℕ =>
    (Multiset.range (stNprim s t)).map (f t).screen]
  have e2 : (triLoop n : Multiset (ℕ × ℕ)).bind (fun t => (Multiset.range (stNprim s t)).map (f t).screen) =
      (triLoop n : Multiset (ℕ × ℕ)).bind fun t => (((primOrder (s t.1) (s t.2)).map
        fun p => fastVal (s t.1) (s t.2) p.1 p.2 : List ℝ) : Multiset ℝ) :=
    Multiset.bind_congr fun t ht => hf t (Multiset.mem_coe.1 ht)
  rw [e2, triLoop_bind]
  unfold primValues
  refine Multiset.bind_congr fun i hi => Multiset.bind_congr fun j hj => ?_
  have hi' : i < n := Multiset.mem_range.1 hi
  have hj' : j < n := (Nat.lt_succ_iff.1 (Multiset.mem_range.1 hj)).trans_lt hi'
  dsimp only
  unfold primOrder
  rw [hb.same hi' hj', ← Multiset.map_coe, ← Multiset.coe_bind, Multiset.map_bind]
  refine Multiset.bind_congr fun a _ => ?_
  rw [← Multiset.map_coe, Multiset.map_map]
  simp only [decide_eq_true_eq]
  rfl

theorem primVals_values (m : ℝ) {np : List ℕ} {P : List STPair} :
    (stPrimVals np P m : Multiset ℝ) = ((Multiset.range P.length).bind fun k =>
      (Multiset.range (np.getD k 0)).map (P.getD k ⟨0, fun _ => 0, 0⟩).screen).map (· * m) := by
  unfold stPrimVals
  rw [← Multiset.coe_bind, Multiset.map_bind]
  refine Multiset.bind_congr fun k _ => ?_
  rw [Multiset.map_map]
  rfl

theorem primQuartets_values {np : List ℕ} {P : List STPair} :
    (stPrimQuartets np P : Multiset ℝ) = ((Multiset.range P.length).bind fun k =>
      (Multiset.range (np.getD k 0)).map (P.getD k ⟨0, fun _ => 0, 0⟩).screen).sym2.map Sym2.mul := by
  rw [← blocks_sym2 (fun k => np.getD k 0) fun k => (P.getD k ⟨0, fun _ => 0, 0⟩).screen]
  unfold stPrimQuartets
  rw [← Multiset.coe_bind, triLoop_bind, Multiset.map_bind]
  refine Multiset.bind_congr fun i _ => ?_
  rw [Multiset.map_bind]
  refine Multiset.bind_congr fun k _ => ?_
  rw [Multiset.map_bind, ← Multiset.coe_bind]
  refine Multiset.bind_congr fun p _ => ?_
  rw [Multiset.map_map]
  rfl

theorem shellQuartets_values {scr : List ℝ} :
    (stShellQuartets scr.length scr : Multiset ℝ) = (scr : Multiset ℝ).sym2.map Sym2.mul := by
  unfold stShellQuartets
  rw [triLoop_map, ← range_map_getD scr 0, ← range_sym2, Multiset.map_bind]
  refine Multiset.bind_congr fun i _ => ?_
  rw [Multiset.map_map]
  rfl

/-- Everything about the second half of the program. -/
theorem stReport_eq (hl : 0 < len) (hb : BasisOK n s) (hf : ∀ t ∈ triLoop n, (f t).nprim = stNprim s t ∧
    (Multiset.range (stNprim s t)).map (f t).screen =
      (((primOrder (s t.1) (s t.2)).map fun p => fastVal (s t.1) (s t.2) p.1 p.2 : List ℝ) : Multiset ℝ)) :
    (Ragged len n s → stReport len tol2 n s ((triLoop n).map f) = .error .prims) ∧
    (¬ Ragged len n s → ∃ R, stReport len tol2 n s ((triLoop n).map f) = .ok R ∧ GoodReport tol2 n s R ∧
      R.primMax = ((triLoop n).map f).foldl (fun m p => max m p.screenMax) 0) := by
  classical
  have hlen : ((triLoop n).map f).length = n * (n + 1) / 2 := by rw [List.length_map, triLoop_length]
  have hscr : ((triLoop n).map fun t => fastShell (s t.1) (s t.2)).length = n * (n + 1) / 2 := by
    rw [List.length_map, triLoop_length]
  have hnp : ((triLoop n).map (stNprim s)).length = n * (n + 1) / 2 := by rw [List.length_map, triLoop_length]
  have hany : ((List.range ((triLoop n).map f).length).any fun ij =>
      simdRound len (((triLoop n).map (stNprim s)).getD ij 0) !=
        (((triLoop n).map f).getD ij ⟨0, fun _ => 0, 0⟩).nprim) = true ↔ Ragged len n s := by
    rw [List.any_eq_true]
    have inner : ∀ k (hk : k < (triLoop n).length), (simdRound len (((triLoop n).map (stNprim s)).getD k 0) !=
        (((triLoop n).map f).getD k ⟨0, fun _ => 0, 0⟩).nprim) = true ↔ ¬ len ∣ stNprim s (triLoop n)[k] := by
      intro k hk
      rw [List.getD_eq_getElem _ _ (by simpa using hk), List.getD_eq_getElem _ _ (by simpa using hk),
        List.getElem_map, List.getElem_map, (hf _ (List.getElem_mem hk)).1, bne_iff_ne, ne_eq, simdRound_eq_iff hl]
    constructor
    · rintro ⟨k, hk, hk'⟩
      rw [List.mem_range, List.length_map] at hk
      obtain ⟨h1, h2⟩ := mem_triLoop.1 (List.getElem_mem hk)
      exact ⟨_, h1, _, h2, (inner k hk).1 hk'⟩
    · rintro ⟨i, hi, j, hj, hd⟩
      obtain ⟨k, hk, e⟩ := List.getElem_of_mem (mem_triLoop.2 ⟨hi, hj⟩ : (i, j) ∈ triLoop n)
      refine ⟨k, by rw [List.mem_range, List.length_map]; exact hk, (inner k hk).2 ?_⟩
      rw [e]
      exact hd
  have hpv : (((triLoop n).map fun t => fastShell (s t.1) (s t.2) : List ℝ) : Multiset ℝ) = pairValues n s :=
    triLoop_map n _
  have hblock := block_values hb fun t ht => (hf t ht).2
  rw [← List.length_map (f := f)] at hblock
  have c1 := stCount_total tol2 (((triLoop n).map fun t => fastShell (s t.1) (s t.2)).map fun v => v *
    ((triLoop n).map fun t => fastShell (s t.1) (s t.2)).foldl max 0)
  rw [List.length_map, hscr] at c1
  have hq : (stShellQuartets ((triLoop n).map f).length ((triLoop n).map fun t => fastShell (s t.1) (s t.2)) :
      Multiset ℝ) = (pairValues n s).sym2.map Sym2.mul := by
    rw [hlen, ← hscr, shellQuartets_values, hpv]
  have c3 := stCount_card tol2 hq
  rw [Multiset.card_map, Multiset.card_sym2, ← hpv, Multiset.coe_card, hscr, ← choose_two] at c3
  have hpp : ∀ m, (stPrimVals ((triLoop n).map (stNprim s)) ((triLoop n).map f) m : Multiset ℝ) =
      (primValues n s).map (· * m) := fun m => by rw [primVals_values, hblock]
  have hpq : (stPrimQuartets ((triLoop n).map (stNprim s)) ((triLoop n).map f) : Multiset ℝ) =
      (primValues n s).sym2.map Sym2.mul := by rw [primQuartets_values, hblock]
  have c2 := fun m => stCount_card tol2 (hpp m)
  simp only [Multiset.card_map] at c2
  have c4 := stCount_card tol2 hpq
  rw [Multiset.card_map, Multiset.card_sym2, ← choose_two] at c4
  have d1 : (stCounts tol2 n s ((triLoop n).map f)).nshellpair = n * (n + 1) / 2 := rfl
  have d2 : (stCounts tol2 n s ((triLoop n).map f)).pairInsig + (stCounts tol2 n s ((triLoop n).map f)).pairSig =
      n * (n + 1) / 2 := c1
  have d3 : (stCounts tol2 n s ((triLoop n).map f)).primPair = Multiset.card (primValues n s) := c2 _
  have d4 : (stCounts tol2 n s ((triLoop n).map f)).quartet = n * (n + 1) / 2 * (n * (n + 1) / 2 + 1) / 2 := c3
  have d5 : (stCounts tol2 n s ((triLoop n).map f)).primQuartet =
      Multiset.card (primValues n s) * (Multiset.card (primValues n s) + 1) / 2 := c4
  have e0 : stReport len tol2 n s ((triLoop n).map f) = if Ragged len n s then .error .prims else
      .ok (stCounts tol2 n s ((triLoop n).map f)) := by
    rw [hlen] at hany
    simp only [stReport, hany, d1, d2, d3, d4, d5, hscr, hnp, hlen, ne_eq, not_true_eq_false, if_false]
  refine ⟨fun hr => e0.trans (if_pos hr), fun hr => ⟨_, e0.trans (if_neg hr), ?_, rfl⟩⟩
  have k1 := stCount_eq tol2 (((triLoop n).map fun t => fastShell (s t.1) (s t.2)).map fun v => v *
    ((triLoop n).map fun t => fastShell (s t.1) (s t.2)).foldl max 0)
  have k2 := fun m => stCount_eq tol2 (stPrimVals ((triLoop n).map (stNprim s)) ((triLoop n).map f) m)
  have k3 := stCount_eq tol2 (stShellQuartets ((triLoop n).map f).length
    ((triLoop n).map fun t => fastShell (s t.1) (s t.2)))
  have k4 := stCount_eq tol2 (stPrimQuartets ((triLoop n).map (stNprim s)) ((triLoop n).map f))
  rw [← Multiset.map_coe, hpv, Multiset.countP_map, Multiset.countP_map] at k1
  simp only [hpp, Multiset.countP_map] at k2
  rw [hq, Multiset.countP_map, Multiset.countP_map] at k3
  rw [hpq, Multiset.countP_map, Multiset.countP_map] at k4
  refine ⟨rfl, choose_two n, ?_, ?_, ?_, d3, ?_, ?_, ?_, ?_, ?_, ?_, ?_, ?_⟩
  · have := foldl_max_eq (l := (triLoop n).map fun t => fastShell (s t.1) (s t.2)) 0
    simp only [← Multiset.mem_coe, hpv] at this
    exact this
  · rw [Multiset.countP_eq_card_filter]
    exact congrArg Prod.snd k1
  · rw [Multiset.countP_eq_card_filter]
    exact congrArg Prod.fst k1
  · rw [Multiset.countP_eq_card_filter]
    exact congrArg Prod.snd (k2 _)
  · rw [Multiset.countP_eq_card_filter]
    exact congrArg Prod.fst (k2 _)
  · rw [d4, d1, choose_two]
  · rw [Multiset.countP_eq_card_filter]
    exact congrArg Prod.snd k3
  · rw [Multiset.countP_eq_card_filter]
    exact congrArg Prod.fst k3
  · rw [d5, d3, choose_two]
  · rw [Multiset.countP_eq_card_filter]
    exact congrArg Prod.snd k4
  · rw [Multiset.countP_eq_card_filter]
    exact congrArg Prod.fst k4

end

/-! ### The results -/

/-- **C77.** The program throws exactly if some pair of shells has a number of pairs of primitives that is not a
multiple of the length of the vectors: the number that it compares with is not padded.  All its other checks
succeed for every basis set. -/
theorem C77_throws (sh : ShCfg) (hl : 0 < sh.len) (hsc : sh.screening = true) (big tol2 : ℝ)
    (mf : ℕ × ℕ → ℕ → ℝ) {n : ℕ} {s : ℕ → Shell ℝ} (h : BasisOK n s) (e : STError) :
    screenTest sh big tol2 mf n s = some (.error e) ↔ e = .prims ∧ Ragged sh.len n s := by
  obtain ⟨f, h1, h2⟩ := screenTest_pairs sh hl hsc big tol2 mf h
  obtain ⟨h3, h4⟩ := stReport_eq (tol2 := tol2) hl h fun t ht => ⟨(h2 t ht).1, (h2 t ht).2.1⟩
  rw [h1]
  by_cases hr : Ragged sh.len n s
  · rw [h3 hr]
    constructor
    · intro he
      cases he
      exact ⟨rfl, hr⟩
    · rintro ⟨rfl, -⟩
      rfl
  · obtain ⟨R, e1, -⟩ := h4 hr
    rw [e1]
    exact ⟨fun he => (by cases he), fun he => absurd he.2 hr⟩

/-- **C77, the report.** If it does not throw, the numbers are those of the pairs and of the unordered pairs of
pairs, each counted once, and they do not depend on the order in which the primitives are stored. -/
theorem C77_report_partial (sh : ShCfg) (hl : 0 < sh.len) (hsc : sh.screening = true) (big tol2 : ℝ)
    (mf : ℕ × ℕ → ℕ → ℝ) {n : ℕ} {s : ℕ → Shell ℝ} (h : BasisOK n s) (hr : ¬ Ragged sh.len n s) :
    ∃ R, screenTest sh big tol2 mf n s = some (.ok R) ∧ GoodReport tol2 n s R := by
  obtain ⟨f, h1, h2⟩ := screenTest_pairs sh hl hsc big tol2 mf h
  obtain ⟨R, h3, h4, -⟩ := (stReport_eq (tol2 := tol2) hl h fun t ht => ⟨(h2 t ht).1, (h2 t ht).2.1⟩).2 hr
  exact ⟨R, by rw [h1, h3], h4⟩

/-- Without vectors there is no exception. -/
theorem C77_scalar {n : ℕ} {s : ℕ → Shell ℝ} : ¬ Ragged 1 n s :=
  fun ⟨_, _, _, _, h⟩ => h (one_dvd _)

/-- The program throws for every basis set with a shell of three primitives (STO-3G) when the vectors have four
elements, and for every basis set with a shell of one primitive with any vectors. -/
theorem C77_throws_false (sh : ShCfg) (hsc : sh.screening = true) (big tol2 : ℝ)
    (mf : ℕ × ℕ → ℕ → ℝ) {n : ℕ} {s : ℕ → Shell ℝ} (h : BasisOK n s)
    (hs : (sh.len = 4 ∧ ∃ i < n, (s i).nprim = 3) ∨ (1 < sh.len ∧ ∃ i < n, (s i).nprim = 1)) :
    screenTest sh big tol2 mf n s = some (.error .prims) := by
  have hl : 0 < sh.len := by rcases hs with ⟨h, -⟩ | ⟨h, -⟩ <;> omega
  refine (C77_throws sh hl hsc big tol2 mf h _).2 ⟨rfl, ?_⟩
  rcases hs with ⟨h4, i, hi, e⟩ | ⟨h1, i, hi, e⟩
  · refine ⟨i, hi, i, le_rfl, ?_⟩
    rw [if_pos rfl, e, h4]
    decide
  · refine ⟨i, hi, i, le_rfl, ?_⟩
    rw [if_pos rfl, e]
    intro hd
    have := Nat.le_of_dvd (by norm_num) hd
    omega

/-- The largest value of a pair of primitives is at least the number that `screen_max` starts with. -/
theorem C77_primMax (sh : ShCfg) (hl : 0 < sh.len) (hsc : sh.screening = true) (big tol2 : ℝ)
    (mf : ℕ × ℕ → ℕ → ℝ) {n : ℕ} (hn : 0 < n) {s : ℕ → Shell ℝ} (h : BasisOK n s) {R : STReport}
    (hR : screenTest sh big tol2 mf n s = some (.ok R)) : big ≤ R.primMax := by
  obtain ⟨f, h1, h2⟩ := screenTest_pairs sh hl hsc big tol2 mf h
  obtain ⟨h3, h4⟩ := stReport_eq (tol2 := tol2) hl h fun t ht => ⟨(h2 t ht).1, (h2 t ht).2.1⟩
  rw [h1] at hR
  by_cases hr : Ragged sh.len n s
  · rw [h3 hr] at hR
    cases hR
  obtain ⟨R', e1, -, e2⟩ := h4 hr
  rw [e1] at hR
  cases hR
  rw [e2]
  have hm : (0, 0) ∈ triLoop n := mem_triLoop.2 ⟨hn, le_rfl⟩
  have hg := foldl_max_eq (l := ((triLoop n).map f).map STPair.screenMax) 0
  rw [List.foldl_map] at hg
  refine le_trans ?_ (hg.2 (Or.inr (List.mem_map_of_mem (List.mem_map_of_mem hm))))
  rw [(h2 _ hm).2.2]
  exact le_max_left _ _

/-- Two s shells at a distance. -/
noncomputable def farShell (d : ℝ) (i : ℕ) : Shell ℝ :=
  ⟨i, 0, 1, fun c => if c = .x then d * i else 0, fun _ => 1, fun _ => 1⟩

theorem farShell_ok (d : ℝ) (n : ℕ) : BasisOK n (farShell d) :=
  ⟨fun _ _ => ⟨Nat.one_pos, fun _ _ => one_pos⟩, fun _ _ _ _ h => h⟩

/-- Value of two of these shells. -/
theorem farShell_val (d : ℝ) (i j : ℕ) : fastVal (farShell d i) (farShell d j) 0 0 =
    √2 * π ^ ((5 : ℝ) / 2) * (1 / 2) ^ ((5 : ℝ) / 2) * exp (-(d * (i - j)) ^ 2) := by
  simp only [fastVal, farShell, if_true, reduceCtorEq, if_false]
  norm_num
  left
  ring

theorem farShell_factor : (1 / 8 : ℝ) ≤ √2 * π ^ ((5 : ℝ) / 2) * (1 / 2) ^ ((5 : ℝ) / 2) ∧
    √2 * π ^ ((5 : ℝ) / 2) * (1 / 2) ^ ((5 : ℝ) / 2) ≤ 128 := by
  have h1 : (1 : ℝ) ≤ √2 := by rw [Real.one_le_sqrt]; norm_num
  have h2 : √2 ≤ 2 := by rw [Real.sqrt_le_left (by norm_num)]; norm_num
  have p1 : (1 : ℝ) ≤ π := by linarith [Real.two_le_pi]
  have h3 : (1 : ℝ) ≤ π ^ ((5 : ℝ) / 2) := Real.one_le_rpow p1 (by norm_num)
  have h4 : π ^ ((5 : ℝ) / 2) ≤ 64 := by
    calc π ^ ((5 : ℝ) / 2) ≤ π ^ (3 : ℝ) := Real.rpow_le_rpow_of_exponent_le p1 (by norm_num)
      _ = π ^ 3 := by norm_cast
      _ ≤ 4 ^ 3 := pow_le_pow_left₀ Real.pi_pos.le Real.pi_le_four 3
      _ = 64 := by norm_num
  have h5 : (1 / 8 : ℝ) ≤ (1 / 2 : ℝ) ^ ((5 : ℝ) / 2) := by
    calc (1 / 8 : ℝ) = (1 / 2 : ℝ) ^ (3 : ℝ) := by norm_num
      _ ≤ _ := Real.rpow_le_rpow_of_exponent_ge (by norm_num) (by norm_num) (by norm_num)
  have h6 : (1 / 2 : ℝ) ^ ((5 : ℝ) / 2) ≤ 1 := Real.rpow_le_one (by norm_num) (by norm_num) (by norm_num)
  have h7 : (1 : ℝ) ≤ √2 * π ^ ((5 : ℝ) / 2) := by nlinarith
  have h8 : √2 * π ^ ((5 : ℝ) / 2) ≤ 128 := by nlinarith
  constructor <;> nlinarith

theorem farShell_mem {d v : ℝ} : v ∈ primValues 2 (farShell d) ↔
    v = fastVal (farShell d 0) (farShell d 0) 0 0 ∨ v = fastVal (farShell d 1) (farShell d 0) 0 0 ∨
      v = fastVal (farShell d 1) (farShell d 1) 0 0 := by
  simp only [primValues, Multiset.range_succ, Multiset.range_zero, Multiset.cons_bind, Multiset.zero_bind,
    Multiset.mem_add, Multiset.mem_map, Multiset.mem_cons, farShell]
  simp
  tauto

/-- **C77, the pairs of primitives.** The program prints how many pairs of primitives are never significant. It
multiplies by `screen_max`, which is never below 1e99, and so it finds none, although a pair of primitives has no
partner with which it reaches the tolerance. -/
theorem C77_never_false : ∃ s : ℕ → Shell ℝ, BasisOK 2 s ∧
    (∀ (sh : ShCfg), sh.len = 1 → sh.screening = true → ∀ (mf : ℕ × ℕ → ℕ → ℝ),
      ∃ R, screenTest sh 1e99 (1e-14 * 1e-14) mf 2 s = some (.ok R) ∧ R.primPairInsig = 0) ∧
    ∃ v ∈ primValues 2 s, ∀ w ∈ primValues 2 s, v * w < 1e-14 * 1e-14 := by
  obtain ⟨k1, k2⟩ := farShell_factor
  obtain ⟨K, hK⟩ : ∃ K, K = √2 * π ^ ((5 : ℝ) / 2) * (1 / 2) ^ ((5 : ℝ) / 2) := ⟨_, rfl⟩
  rw [← hK] at k1 k2
  have hpos : 0 < K := by linarith
  -- distance at which the value is 1e-50
  have hlog : 0 ≤ log (K / 1e-50) := Real.log_nonneg (by rw [le_div_iff₀ (by norm_num)]; norm_num; linarith)
  let d := √(log (K / 1e-50))
  have hd : d ^ 2 = log (K / 1e-50) := Real.sq_sqrt hlog
  have v0 : ∀ i, fastVal (farShell d i) (farShell d i) 0 0 = K := fun i => by
    rw [farShell_val, ← hK]; simp
  have v1 : fastVal (farShell d 1) (farShell d 0) 0 0 = 1e-50 := by
    rw [farShell_val, ← hK]
    have e : (-(d * ((1 : ℕ) - (0 : ℕ) : ℝ)) ^ 2) = -log (K / 1e-50) := by
      rw [← hd]; push_cast; ring
    rw [e, Real.exp_neg, Real.exp_log (by positivity)]
    field_simp
  have hm : ∀ v, v ∈ primValues 2 (farShell d) ↔ v = K ∨ v = 1e-50 := by
    intro v
    rw [farShell_mem, v0, v0, v1]
    tauto
  refine ⟨farShell d, farShell_ok d 2, fun sh hl hsc mf => ?_, 1e-50, (hm _).2 (Or.inr rfl), fun w hw => ?_⟩
  · have hl' : 0 < sh.len := by rw [hl]; exact one_pos
    obtain ⟨R, hR, hg⟩ := C77_report_partial sh hl' hsc 1e99 (1e-14 * 1e-14) mf (farShell_ok d 2)
      (by rw [hl]; exact C77_scalar)
    refine ⟨R, hR, ?_⟩
    have hbig := C77_primMax sh hl' hsc _ _ mf (by norm_num) (farShell_ok d 2) hR
    rw [hg.primPairInsig, Multiset.countP_eq_zero]
    intro v hv
    rw [not_lt]
    rcases (hm v).1 hv with rfl | rfl
    · have : (1 / 8 : ℝ) * 1e99 ≤ v * R.primMax := mul_le_mul k1 hbig (by norm_num) hpos.le
      exact le_trans (by norm_num) this
    · have : (1e-50 : ℝ) * 1e99 ≤ 1e-50 * R.primMax := mul_le_mul_of_nonneg_left hbig (by norm_num)
      exact le_trans (by norm_num) this
  · rcases (hm w).1 hw with rfl | rfl
    · have : (1e-50 : ℝ) * w ≤ 1e-50 * 128 := mul_le_mul_of_nonneg_left k2 (by norm_num)
      exact this.trans_lt (by norm_num)
    · norm_num

/-- A report: one shell with two primitives. -/
example (mf : ℕ × ℕ → ℕ → ℝ) : ∃ R, screenTest ⟨1, true, false⟩ 1e99 1e-28 mf 1
    (fun _ => ⟨0, 0, 2, fun _ => 0, fun i => i + 1, fun _ => 1⟩) = some (.ok R) ∧
    R.nshellpair = 1 ∧ R.primPair = 3 ∧ R.quartet = 1 ∧ R.primQuartet = 6 := by
  have hb : BasisOK 1 (fun _ => (⟨0, 0, 2, fun _ => 0, fun i => i + 1, fun _ => 1⟩ : Shell ℝ)) :=
    ⟨fun _ _ => ⟨Nat.two_pos, fun i _ => by positivity⟩, fun i hi j hj h => absurd (by omega) h⟩
  obtain ⟨R, h1, h2⟩ := C77_report_partial ⟨1, true, false⟩ one_pos rfl 1e99 1e-28 mf hb C77_scalar
  have hp : R.primPair = 3 := by
    rw [h2.primPair]
    simp [primValues, Multiset.range_succ]
  refine ⟨R, h1, ?_, hp, ?_, ?_⟩
  · rw [h2.nshellpair]; rfl
  · rw [h2.quartet, h2.nshellpair]; rfl
  · rw [h2.primQuartet, hp]; rfl

/-- The same shell with vectors of two elements is rejected. -/
example (mf : ℕ × ℕ → ℕ → ℝ) : screenTest ⟨2, true, false⟩ 1e99 1e-28 mf 1
    (fun _ => ⟨0, 0, 2, fun _ => 0, fun i => i + 1, fun _ => 1⟩) = some (.error .prims) := by
  have hb : BasisOK 1 (fun _ => (⟨0, 0, 2, fun _ => 0, fun i => i + 1, fun _ => 1⟩ : Shell ℝ)) :=
    ⟨fun _ _ => ⟨Nat.two_pos, fun i _ => by positivity⟩, fun i hi j hj h => absurd (by omega) h⟩
  refine (C77_throws ⟨2, true, false⟩ two_pos rfl 1e99 1e-28 mf hb _).2 ⟨rfl, 0, one_pos, 0, le_rfl, ?_⟩
  decide

end Simint
