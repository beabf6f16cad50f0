import Verif.PermuteLemmas

/-!
# Properties C31, C32, C33, C52: permuted classes

Which functions exist, and that a wrapper returns the integrals of its own class.
-/

set_option autoImplicit false

open Real Finset

namespace Simint

/-! ## C33 -/

theorem cidx_lt' {e : Exp} (h : e.Valid) : cidx psi4List e < ncart e.am :=
  psi4_ordOK.cidx_lt h

theorem dbl_index_comm {x y : Exp} (hx : x.Valid) (hy : y.Valid) (h : x.am = 0 ∨ y.am = 0) :
    Dbl.index psi4List ⟨x, y⟩ = Dbl.index psi4List ⟨y, x⟩ := by
  have n0 : ncart 0 = 1 := by decide
  have hx' := cidx_lt' hx
  have hy' := cidx_lt' hy
  simp only [Dbl.index]
  rcases h with h | h
  · rw [h, n0] at hx'
    have : cidx psi4List x = 0 := by omega
    rw [this, h, n0]; omega
  · rw [h, n0] at hy'
    have : cidx psi4List y = 0 := by omega
    rw [this, h, n0]; omega

/-- **C33.** Whenever the reorder is omitted, the component at a place of the computed class is the
component at the same place of the permuted class: the two layouts coincide. -/
theorem C33_layouts_coincide (am : QAM) (s12 s34 : Bool) (hs : isSpecialPerm (permAM am s12 s34) = true)
    {x y z w : Exp} (hx : x.Valid) (hy : y.Valid) (hz : z.Valid) (hw : w.Valid)
    (ex : x.am = (permAM am s12 s34).a) (ey : y.am = (permAM am s12 s34).b)
    (ez : z.am = (permAM am s12 s34).c) (ew : w.am = (permAM am s12 s34).d) :
    Qrt.index psi4List ⟨⟨if s12 then y else x, if s12 then x else y⟩,
      ⟨if s34 then w else z, if s34 then z else w⟩, 0⟩ =
    Qrt.index psi4List ⟨⟨x, y⟩, ⟨z, w⟩, 0⟩ := by
  have hz4 : (x.am = 0 ∨ y.am = 0) ∧ (z.am = 0 ∨ w.am = 0) := by
    rw [ex, ey, ez, ew]
    generalize permAM am s12 s34 = p at hs
    simp only [isSpecialPerm] at hs
    split at hs
    · rename_i h; exact ⟨Or.inl h.1.1, h.2⟩
    · split at hs
      · rename_i h; exact ⟨h.2, Or.inl h.1.1⟩
      · exact absurd hs (by simp)
  have e1 := dbl_index_comm hx hy hz4.1
  have e2 := dbl_index_comm hz hw hz4.2
  have e3 : Dbl.ncart ⟨z, w⟩ = Dbl.ncart ⟨w, z⟩ := by simp only [Dbl.ncart, Nat.mul_comm]
  cases s12 <;> cases s34 <;>
    simp only [Qrt.index, if_true, if_false, Bool.false_eq_true, e1, e2, e3]

/-- The condition of the code is also sharp for swaps that are written: if neither center of the
exchanged pairs is an s shell, the layouts differ. -/
theorem C33_sharp : Qrt.index psi4List ⟨⟨⟨2, 0, 0⟩, ⟨0, 1, 0⟩⟩, ⟨⟨0, 0, 0⟩, ⟨0, 0, 0⟩⟩, 0⟩ ≠
    Qrt.index psi4List ⟨⟨⟨0, 1, 0⟩, ⟨2, 0, 0⟩⟩, ⟨⟨0, 0, 0⟩, ⟨0, 0, 0⟩⟩, 0⟩ := by decide

/-- Non-trivial case: `(s d | p s)` obtained from `(d s | p s)`. -/
example : isSpecialPerm (permAM ⟨2, 0, 1, 0, ""⟩ true false) = true := by decide

/-! ## C32 -/

/-- **C32.** The function of a permuted class, called with lists that hold the shell pairs in the
order of that class, runs and stores the contracted integrals in the component order of that class
(compare `C59_function`).  `nshell12` has to be positive for the lists whose arrays are exchanged and
not below the number of pairs computed. -/
theorem C32_permuted {g : GenCfg} (hg : g.OK) {am : QAM} (hf : ClassOK am) (s12 s34 : Bool)
    {c : PermCall ℝ} (hc : CallOK (permAM am s12 s34) c.toCall) {S T : ℕ → ShellPair}
    (hS : Holds c.P (tightStart c.P.nprim12) S) (hT : Holds c.Q (paddedStart c.len c.Q.nprim12) T)
    (hP : 0 < c.nP ∧ c.P.nclip ≤ c.nP) (hQ : 0 < c.nQ ∧ c.Q.nclip ≤ c.nQ) (hmem : HMem ℝ)
    (out : ℕ → ℝ) :
    ∃ o, permFunction g realOps am s12 s34 c hmem out = some (c.P.nclip * c.Q.nclip, o) ∧
      (∀ ab < c.P.nclip, ∀ cd < c.Q.nclip, ∀ x y z w : Exp, x.Valid → y.Valid → z.Valid → w.Valid →
        x.am = (permAM am s12 s34).a → y.am = (permAM am s12 s34).b →
        z.am = (permAM am s12 s34).c → w.am = (permAM am s12 s34).d →
        o ((ab * c.Q.nclip + cd) * ncartQ (permAM am s12 s34)
            + Qrt.index psi4List ⟨⟨x, y⟩, ⟨z, w⟩, 0⟩) =
          screenedERI c.toCall (tightStart c.P.nprim12 ab) (paddedStart c.len c.Q.nprim12 cd) (S ab)
            (T cd) x y z w) ∧
      ∀ k, c.P.nclip * c.Q.nclip * ncartQ (permAM am s12 s34) ≤ k → o k = out k := by
  have hN : ncartQ (permAM am s12 s34) = ncartQ am := by
    cases s12 <;> cases s34 <;> simp [permAM, ncartQ, Nat.mul_comm]
  rw [hN]
  -- the inner call
  have iP : (c.inner s12 s34).P = if s12 then swapMSP c.P c.nP c.junkAB else c.P := rfl
  have iQ : (c.inner s12 s34).Q = if s34 then swapMSP c.Q c.nQ c.junkAB else c.Q := rfl
  have p1 : (c.inner s12 s34).P.nclip = c.P.nclip := by rw [iP]; cases s12 <;> rfl
  have p2 : (c.inner s12 s34).P.nprim12 = c.P.nprim12 := by rw [iP]; cases s12 <;> rfl
  have p3 : (c.inner s12 s34).P.alloc = c.P.alloc := by rw [iP]; cases s12 <;> rfl
  have p4 : (c.inner s12 s34).P.alpha = c.P.alpha := by rw [iP]; cases s12 <;> rfl
  have p5 : (c.inner s12 s34).P.screen = c.P.screen := by rw [iP]; cases s12 <;> rfl
  have q1 : (c.inner s12 s34).Q.nclip = c.Q.nclip := by rw [iQ]; cases s34 <;> rfl
  have q2 : (c.inner s12 s34).Q.nprim12 = c.Q.nprim12 := by rw [iQ]; cases s34 <;> rfl
  have q3 : (c.inner s12 s34).Q.alloc = c.Q.alloc := by rw [iQ]; cases s34 <;> rfl
  have q4 : (c.inner s12 s34).Q.alpha = c.Q.alpha := by rw [iQ]; cases s34 <;> rfl
  have q5 : (c.inner s12 s34).Q.screen = c.Q.screen := by rw [iQ]; cases s34 <;> rfl
  have q6 : (c.inner s12 s34).Q.screenMax = c.Q.screenMax := by rw [iQ]; cases s34 <;> rfl
  have hin : CallOK am (c.inner s12 s34) := by
    refine ⟨hc.len, ?_, ?_, ?_, ?_, ?_, ?_⟩
    · rw [q1, q2]; exact hc.prims
    · rw [p1, p2, p3]; exact hc.bra
    · rw [q1, q2, q3]; exact hc.ket
    · rw [p3, p4]; exact hc.braPos
    · rw [q3, q4]; exact hc.ketPos
    · rw [p1, q1, ← hN]; exact hc.out
  have hS' : Holds (c.inner s12 s34).P (tightStart (c.inner s12 s34).P.nprim12)
      (fun s => (S s).swapIf s12) := by
    rw [p2, iP]
    cases s12
    · exact hS
    · exact hS.swap hP.2 _
  have hT' : Holds (c.inner s12 s34).Q (paddedStart (c.inner s12 s34).len (c.inner s12 s34).Q.nprim12)
      (fun s => (T s).swapIf s34) := by
    rw [q2, iQ]
    cases s34
    · exact hT
    · exact hT.swap hQ.2 _
  obtain ⟨o1, e1, v1, r1⟩ := C59_function hg hf hin hS' hT' hmem out
  rw [p1, q1] at e1 v1 r1
  have hk : ∀ i j, c.toCall.Kept i j ↔ (c.inner s12 s34).Kept i j := by
    intro i j
    unfold Call.Kept
    rw [p5, q5, q6]
    exact Iff.rfl
  -- values of the inner call in terms of the requested components
  have hval : ∀ ab < c.P.nclip, ∀ cd < c.Q.nclip, ∀ x y z w : Exp, x.Valid → y.Valid → z.Valid →
      w.Valid → x.am = (permAM am s12 s34).a → y.am = (permAM am s12 s34).b →
      z.am = (permAM am s12 s34).c → w.am = (permAM am s12 s34).d →
      o1 ((ab * c.Q.nclip + cd) * ncartQ am + Qrt.index psi4List
        ⟨⟨if s12 then y else x, if s12 then x else y⟩, ⟨if s34 then w else z, if s34 then z else w⟩, 0⟩) =
        screenedERI c.toCall (tightStart c.P.nprim12 ab) (paddedStart c.len c.Q.nprim12 cd) (S ab)
          (T cd) x y z w := by
    intro ab hab cd hcd x y z w vx vy vz vw ex ey ez ew
    have := v1 ab hab cd hcd (if s12 then y else x) (if s12 then x else y) (if s34 then w else z)
      (if s34 then z else w) (by cases s12 <;> assumption) (by cases s12 <;> assumption)
      (by cases s34 <;> assumption) (by cases s34 <;> assumption)
      (by cases s12 <;> cases s34 <;> simpa [permAM] using (by assumption))
      (by cases s12 <;> cases s34 <;> simpa [permAM] using (by assumption))
      (by cases s12 <;> cases s34 <;> simpa [permAM] using (by assumption))
      (by cases s12 <;> cases s34 <;> simpa [permAM] using (by assumption))
    rw [this, p2, q2]
    exact screenedERI_perm c.toCall (c.inner s12 s34) hk _ _ s12 s34 (S ab) (T cd) x y z w
  have hz : ¬ ((s12 && decide (c.nP = 0)) || (s34 && decide (c.nQ = 0))) = true := by
    have h1 := hP.1; have h2 := hQ.1
    simp only [Bool.or_eq_true, Bool.and_eq_true, decide_eq_true_eq]
    omega
  unfold permFunction
  rw [if_neg hz, e1, Option.bind_some]
  by_cases hs : isSpecialPerm (permAM am s12 s34) = true
  · rw [if_pos hs]
    refine ⟨o1, rfl, ?_, r1⟩
    intro ab hab cd hcd x y z w vx vy vz vw ex ey ez ew
    rw [← hval ab hab cd hcd x y z w vx vy vz vw ex ey ez ew,
      C33_layouts_coincide am s12 s34 hs vx vy vz vw ex ey ez ew]
  · rw [if_neg hs, if_pos (by rw [← hN]; exact hc.out)]
    obtain ⟨o2, e2, w1, w2⟩ := permLoop_spec am s12 s34 (c.P.nclip * c.Q.nclip) o1
    refine ⟨o2, by rw [e2]; rfl, ?_, fun k hk => (w2 k hk).trans (r1 k hk)⟩
    intro ab hab cd hcd x y z w vx vy vz vw ex ey ez ew
    rw [← hval ab hab cd hcd x y z w vx vy vz vw ex ey ez ew]
    have hq : ab * c.Q.nclip + cd < c.P.nclip * c.Q.nclip := by
      have : (ab + 1) * c.Q.nclip ≤ c.P.nclip * c.Q.nclip := Nat.mul_le_mul_right _ hab
      rw [Nat.succ_mul] at this; omega
    have hlt : Qrt.index psi4List ⟨⟨x, y⟩, ⟨z, w⟩, 0⟩ < ncartQ am := by
      have h := Qrt.index_lt psi4_ordOK (q := ⟨⟨x, y⟩, ⟨z, w⟩, 0⟩) ⟨⟨vx, vy⟩, ⟨vz, vw⟩, le_rfl⟩
      rw [← hN]
      simpa [ncartQ, Qrt.ncart, Dbl.ncart, ex, ey, ez, ew] using h
    have b1 := w1 _ hq _ hlt
    have b2 := (permBuffer_spec am s12 s34 (ab * c.Q.nclip + cd) o1).2 (cidx psi4List x)
      (by rw [← ex]; exact cidx_lt' vx) (cidx psi4List y) (by rw [← ey]; exact cidx_lt' vy)
      (cidx psi4List z) (by rw [← ez]; exact cidx_lt' vz) (cidx psi4List w)
      (by rw [← ew]; exact cidx_lt' vw)
    rw [← ey, ← ez, ← ew, ← index_pos4, b1, Option.some.injEq] at b2
    rw [b2, index_pos4]
    congr 2
    cases s12 <;> cases s34 <;> simp only [permAM] at ex ey ez ew <;>
      simp [unperm, ex, ey, ez, ew]

/-- The in-place reorder is an exact permutation of the values of each quartet: the value for
components `a b c d` of the permuted class comes from the same components in the order of the
computed class, and nothing else changes. -/
theorem C32_reorder {F : Type} [Field F] (am : QAM) (s12 s34 : Bool) (n : ℕ) (o : ℕ → F) :
    ∃ o', (List.range n).foldlM (fun o q => permQuartet am s12 s34 q o) o = some o' ∧
      (∀ q < n, ∀ a < ncart (permAM am s12 s34).a, ∀ b < ncart (permAM am s12 s34).b,
        ∀ c < ncart (permAM am s12 s34).c, ∀ d < ncart (permAM am s12 s34).d,
        o' (q * ncartQ am + ((a * ncart (permAM am s12 s34).b + b) *
            (ncart (permAM am s12 s34).c * ncart (permAM am s12 s34).d) +
            (c * ncart (permAM am s12 s34).d + d))) =
          o (q * ncartQ am + (((if s12 then b else a) * ncart am.b + (if s12 then a else b)) *
            (ncart am.c * ncart am.d) +
            ((if s34 then d else c) * ncart am.d + (if s34 then c else d))))) ∧
      ∀ k, n * ncartQ am ≤ k → o' k = o k := by
  obtain ⟨o', e, h1, h2⟩ := permLoop_spec am s12 s34 n o
  refine ⟨o', e, ?_, h2⟩
  intro q hq a ha b hb c hc d hd
  have hN : ncart (permAM am s12 s34).a * ncart (permAM am s12 s34).b *
      (ncart (permAM am s12 s34).c * ncart (permAM am s12 s34).d) = ncartQ am := by
    cases s12 <;> cases s34 <;> simp [permAM, ncartQ, Nat.mul_comm]
  have hlt := pos4_lt ha hb hc hd
  rw [hN] at hlt
  have b1 := h1 q hq _ hlt
  rw [(permBuffer_spec am s12 s34 q o).2 a ha b hb c hc d hd, Option.some.injEq] at b1
  exact b1.symm

/-- Non-trivial case: the reorder of `(p d | s s)` from `(d p | s s)` transposes a 6 by 3 matrix. -/
example : permBuffer (F := ℚ) ⟨2, 1, 0, 0, ""⟩ true false 0 (fun k => k) =
    [0, 3, 6, 9, 12, 15, 1, 4, 7, 10, 13, 16, 2, 5, 8, 11, 14, 17] := by decide +kernel

/-! ## C31, C52 -/

theorem mem_allQuartets {maxam : ℤ} {q : QAM} : q ∈ allQuartets maxam ↔
    q.tag = "" ∧ q.Valid ∧ q.a ≤ maxam ∧ q.b ≤ maxam ∧ q.c ≤ maxam ∧ q.d ≤ maxam := by
  have hr : ∀ i : ℤ, (∃ n < (maxam + 1).toNat, (n : ℤ) = i) ↔ 0 ≤ i ∧ i ≤ maxam := by
    intro i
    constructor
    · rintro ⟨n, hn, rfl⟩; omega
    · intro h; exact ⟨i.toNat, by omega, by omega⟩
  simp only [allQuartets, List.mem_flatMap, List.mem_map, List.mem_range, hr]
  constructor
  · rintro ⟨i, hi, j, hj, k, hk, l, hl, rfl⟩
    exact ⟨rfl, ⟨hi.1, hj.1, hk.1, hl.1⟩, hi.2, hj.2, hk.2, hl.2⟩
  · rintro ⟨ht, ⟨h1, h2, h3, h4⟩, h5, h6, h7, h8⟩
    obtain ⟨a, b, c, d, t⟩ := q
    simp only at ht
    subst ht
    exact ⟨a, ⟨h1, h5⟩, b, ⟨h2, h6⟩, c, ⟨h3, h7⟩, d, ⟨h4, h8⟩, rfl⟩

theorem allQuartets_nodup (maxam : ℤ) : (allQuartets maxam).Nodup := by
  have hr : ((List.range (maxam + 1).toNat).map fun (i : ℕ) => (i : ℤ)).Nodup :=
    List.nodup_range.map fun _ _ h => Int.ofNat.inj h
  unfold allQuartets
  simp only
  generalize (List.range (maxam + 1).toNat).map (fun (i : ℕ) => (i : ℤ)) = r at hr
  refine List.nodup_flatMap.2 ⟨fun i _ => List.nodup_flatMap.2 ⟨fun j _ => List.nodup_flatMap.2
    ⟨fun k _ => hr.map fun a b h => by simpa using h, ?_⟩, ?_⟩, ?_⟩
  all_goals
    refine hr.imp fun {a b} hab => ?_
    intro x hx hx'
    simp only [List.mem_flatMap, List.mem_map] at hx hx'
  · obtain ⟨_, _, rfl⟩ := hx
    obtain ⟨_, _, h⟩ := hx'
    simp at h; exact hab h.1.symm
  · obtain ⟨_, _, _, _, rfl⟩ := hx
    obtain ⟨_, _, _, _, h⟩ := hx'
    simp at h; exact hab h.1.symm
  · obtain ⟨_, _, _, _, _, _, rfl⟩ := hx
    obtain ⟨_, _, _, _, _, _, h⟩ := hx'
    simp at h; exact hab h.1.symm

/-- **C52.** The work list has no duplicates; it consists of the symmetry-unique classes up to the
maximum AM, and of the other classes below the permutation threshold. -/
theorem C52_work_list (maxam p : ℤ) : (validQuartets maxam p).Nodup ∧
    ∀ q : QAM, q ∈ validQuartets maxam p ↔ (q.tag = "" ∧ q.Valid ∧ q.a ≤ maxam ∧ q.b ≤ maxam ∧
      q.c ≤ maxam ∧ q.d ≤ maxam) ∧ ((q.b ≤ q.a ∧ q.d ≤ q.c) ∨
        (q.a < p ∧ q.b < p ∧ q.c < p ∧ q.d < p)) := by
  refine ⟨(allQuartets_nodup maxam).filter _, fun q => ?_⟩
  rw [validQuartets, List.mem_filter, mem_allQuartets]
  refine and_congr_right fun _ => ?_
  rw [Bool.or_eq_true, decide_eq_true_eq]
  refine or_congr ?_ ?_
  · unfold uniqueQuartet
    split
    · rename_i h; simp; omega
    · split
      · rename_i h; simp; omega
      · simp; omega
  · unfold maxQ; simp [max_lt_iff, and_assoc]

theorem mem_definedBy {q x : QAM} : x ∈ definedBy q true ↔ x = q ∨
    (q.a ≠ q.b ∧ x = permAM q true false) ∨ (q.c ≠ q.d ∧ x = permAM q false true) ∨
    (q.a ≠ q.b ∧ q.c ≠ q.d ∧ x = permAM q true true) := by
  simp only [definedBy, if_true, List.mem_cons, List.mem_map, List.mem_filter, List.not_mem_nil,
    or_false]
  refine or_congr Iff.rfl ?_
  constructor
  · rintro ⟨s, ⟨hs, h⟩, rfl⟩
    rcases hs with rfl | rfl | rfl <;> simp [permSkipped, permAM] at h ⊢
    · exact Or.inl fun e => h e.symm
    · exact Or.inr (Or.inl fun e => h e.symm)
    · exact Or.inr (Or.inr ⟨fun e => h.1 e.symm, fun e => h.2 e.symm⟩)
  · rintro (⟨h, rfl⟩ | ⟨h, rfl⟩ | ⟨h, h', rfl⟩)
    · exact ⟨(true, false), ⟨by simp, by simpa [permSkipped, permAM] using fun e => h e.symm⟩, rfl⟩
    · exact ⟨(false, true), ⟨by simp, by simpa [permSkipped, permAM] using fun e => h e.symm⟩, rfl⟩
    · exact ⟨(true, true), ⟨by simp, by
        simpa [permSkipped, permAM] using ⟨fun e => h e.symm, fun e => h' e.symm⟩⟩, rfl⟩

/-- The class whose generator run defines the function of class `q`. -/
def runOf (p : ℤ) (q : QAM) : QAM :=
  if maxQ q < p then q else ⟨max q.a q.b, min q.a q.b, max q.c q.d, min q.c q.d, q.tag⟩

theorem maxQ_perm (q : QAM) (s12 s34 : Bool) : maxQ (permAM q s12 s34) = maxQ q := by
  cases s12 <;> cases s34 <;> simp [permAM, maxQ] <;> omega

theorem definedBy_run {maxam p : ℤ} {q x : QAM} (hq : q ∈ validQuartets maxam p)
    (hx : x ∈ definedBy q (finalPermute p q)) : q = runOf p x := by
  obtain ⟨-, h⟩ := ((C52_work_list maxam p).2 q).1 hq
  by_cases hp : maxQ q < p
  · have e : finalPermute p q = false := by simp [finalPermute, hp]
    rw [e] at hx
    simp only [definedBy, List.mem_singleton, Bool.false_eq_true, if_false] at hx
    subst hx
    simp [runOf, hp]
  · have e : finalPermute p q = true := by simp [finalPermute]; omega
    have hu : q.b ≤ q.a ∧ q.d ≤ q.c := by
      rcases h with h | h
      · exact h
      · exfalso; apply hp; unfold maxQ; simp [max_lt_iff]; omega
    have hm : maxQ x = maxQ q := by
      rw [e, mem_definedBy] at hx
      rcases hx with rfl | ⟨-, rfl⟩ | ⟨-, rfl⟩ | ⟨-, -, rfl⟩
      · rfl
      all_goals exact maxQ_perm _ _ _
    rw [runOf, hm, if_neg hp]
    rw [e, mem_definedBy] at hx
    obtain ⟨a, b, c, d, t⟩ := q
    simp only at hu
    rcases hx with rfl | ⟨-, rfl⟩ | ⟨-, rfl⟩ | ⟨-, -, rfl⟩ <;>
      simp [permAM, max_eq_left, min_eq_right, max_eq_right, min_eq_left, hu.1, hu.2]

theorem definedBy_nodup (q : QAM) (b : Bool) : (definedBy q b).Nodup := by
  obtain ⟨x, y, z, w, t⟩ := q
  cases b
  · simp [definedBy]
  · simp only [definedBy, if_true]
    by_cases h1 : x = y <;> by_cases h2 : z = w
    · subst h1 h2; simp [permSkipped, permAM]
    · subst h1
      have h2' : ¬ w = z := fun e => h2 e.symm
      simp [permSkipped, permAM, h2, h2']
    · subst h2
      have h1' : ¬ y = x := fun e => h1 e.symm
      simp [permSkipped, permAM, h1, h1']
    · have h1' : ¬ y = x := fun e => h1 e.symm
      have h2' : ¬ w = z := fun e => h2 e.symm
      simp [permSkipped, permAM, h1, h1', h2, h2']

/-- **C31.** For every maximum AM and every permutation threshold: every class up to the maximum AM
has a function, no class has two, and no other functions are defined. `enum` is the order in which
the runs of the set `valid` happen. -/
theorem C31_exactly_once {enum : List QAM → List QAM} (he : ∀ l, l.Nodup → (enum l).Perm l)
    (maxam p : ℤ) : (allDefined enum maxam p).Nodup ∧ ∀ q : QAM, q ∈ allDefined enum maxam p ↔
      q.tag = "" ∧ q.Valid ∧ q.a ≤ maxam ∧ q.b ≤ maxam ∧ q.c ≤ maxam ∧ q.d ≤ maxam := by
  have hv := C52_work_list maxam p
  have hperm := he _ hv.1
  refine ⟨?_, fun q => ?_⟩
  · refine List.nodup_flatMap.2 ⟨fun q _ => definedBy_nodup q _, ?_⟩
    have hnd : (enum (validQuartets maxam p)).Nodup := hperm.nodup_iff.2 hv.1
    refine (List.pairwise_iff_getElem.2 fun i j hi hj hij => ?_)
    intro x hx hx'
    have m1 := hperm.mem_iff.1 (List.getElem_mem hi)
    have m2 := hperm.mem_iff.1 (List.getElem_mem hj)
    have := (definedBy_run m1 hx).trans (definedBy_run m2 hx').symm
    have := (List.Nodup.getElem_inj_iff hnd).1 this
    omega
  · simp only [allDefined, List.mem_flatMap]
    constructor
    · rintro ⟨r, hr, hx⟩
      rw [hperm.mem_iff] at hr
      obtain ⟨⟨h1, ⟨n1, n2, n3, n4⟩, h3, h4, h5, h6⟩, -⟩ := (hv.2 r).1 hr
      have hx' : q ∈ definedBy r true := by
        cases h : finalPermute p r
        · rw [h] at hx
          simp only [definedBy, List.mem_singleton, Bool.false_eq_true, if_false] at hx
          rw [hx]; simp [definedBy]
        · rw [h] at hx; exact hx
      rw [mem_definedBy] at hx'
      rcases hx' with rfl | ⟨-, rfl⟩ | ⟨-, rfl⟩ | ⟨-, -, rfl⟩ <;>
        simp only [permAM, QAM.Valid, if_true, if_false, Bool.false_eq_true, h1, n1, n2, n3, n4, h3, h4,
          h5, h6, and_self, true_and]
    · rintro ⟨h1, ⟨n1, n2, n3, n4⟩, h3, h4, h5, h6⟩
      by_cases hp : maxQ q < p
      · refine ⟨q, ?_, by simp [definedBy]⟩
        rw [hperm.mem_iff, hv.2]
        refine ⟨⟨h1, ⟨n1, n2, n3, n4⟩, h3, h4, h5, h6⟩, Or.inr ?_⟩
        unfold maxQ at hp
        simp [max_lt_iff] at hp
        omega
      · have key : ∀ r : QAM, q ∈ definedBy r true → maxQ r = maxQ q → r.tag = "" → r.Valid →
            r.a ≤ maxam → r.b ≤ maxam → r.c ≤ maxam → r.d ≤ maxam → r.b ≤ r.a → r.d ≤ r.c →
            ∃ a ∈ enum (validQuartets maxam p), q ∈ definedBy a (finalPermute p a) := by
          intro r hr hm t1 t2 t3 t4 t5 t6 t7 t8
          refine ⟨r, ?_, ?_⟩
          · rw [hperm.mem_iff, hv.2]
            exact ⟨⟨t1, t2, t3, t4, t5, t6⟩, Or.inl ⟨t7, t8⟩⟩
          · have : finalPermute p r = true := by simp [finalPermute, hm]; omega
            rw [this]; exact hr
        obtain ⟨a, b, c, d, t⟩ := q
        simp only at h1 n1 n2 n3 n4 h3 h4 h5 h6
        subst h1
        by_cases h12 : b ≤ a <;> by_cases h34 : d ≤ c
        · exact key ⟨a, b, c, d, ""⟩ (by simp [definedBy]) rfl rfl ⟨n1, n2, n3, n4⟩ h3 h4 h5 h6 h12 h34
        · refine key ⟨a, b, d, c, ""⟩ ?_ (maxQ_perm ⟨a, b, c, d, ""⟩ false true) rfl ⟨n1, n2, n4, n3⟩ h3 h4 h6 h5
            h12 (by simp only; omega)
          rw [mem_definedBy]
          exact Or.inr (Or.inr (Or.inl ⟨by simp only; omega, rfl⟩))
        · refine key ⟨b, a, c, d, ""⟩ ?_ (maxQ_perm ⟨a, b, c, d, ""⟩ true false) rfl ⟨n2, n1, n3, n4⟩ h4 h3 h5 h6
            (by simp only; omega) h34
          rw [mem_definedBy]
          exact Or.inr (Or.inl ⟨by simp only; omega, rfl⟩)
        · refine key ⟨b, a, d, c, ""⟩ ?_ (maxQ_perm ⟨a, b, c, d, ""⟩ true true) rfl ⟨n2, n1, n4, n3⟩ h4 h3 h6 h5
            (by simp only; omega) (by simp only; omega)
          rw [mem_definedBy]
          exact Or.inr (Or.inr (Or.inr ⟨by simp only; omega, by simp only; omega, rfl⟩))

theorem amchar_nodup : amchar.Nodup := by decide +kernel

/-- Functions of different classes have different names (as far as there are letters). -/
theorem C31_names {q q' : QAM} {s : List Char} (ht : q.tag = q'.tag) (h : functionName q = some s)
    (h' : functionName q' = some s) : q = q' := by
  have hch : ∀ {i j : ℤ} {c : Char}, (if 0 ≤ i then amchar[i.toNat]? else none) = some c →
      (if 0 ≤ j then amchar[j.toNat]? else none) = some c → i = j := by
    intro i j c h1 h2
    split at h1
    · split at h2
      · obtain ⟨hi, e1⟩ := List.getElem?_eq_some_iff.1 h1
        obtain ⟨hj, e2⟩ := List.getElem?_eq_some_iff.1 h2
        have := (List.Nodup.getElem_inj_iff amchar_nodup).1 (e1.trans e2.symm)
        omega
      · simp at h2
    · simp at h1
  simp only [functionName, Option.bind_eq_some_iff, Option.map_eq_some_iff] at h h'
  obtain ⟨a, ha, b, hb, c, hc, d, hd, rfl⟩ := h
  obtain ⟨a', ha', b', hb', c', hc', d', hd', e⟩ := h'
  have e' := List.append_cancel_left e
  simp only [List.cons.injEq, and_true, true_and] at e'
  obtain ⟨rfl, rfl, rfl, rfl⟩ := e'
  obtain ⟨x, y, z, w, t⟩ := q
  obtain ⟨x', y', z', w', t'⟩ := q'
  simp only at ha hb hc hd ha' hb' hc' hd' ht
  rw [hch ha ha', hch hb hb', hch hc hc', hch hd hd', ht]

/-- Every class up to AM 59 has a name. -/
theorem C31_named {q : QAM} (h : q.Valid) (ha : q.a < 60) (hb : q.b < 60) (hc : q.c < 60)
    (hd : q.d < 60) : (functionName q).isSome := by
  have hl : amchar.length = 60 := by decide +kernel
  obtain ⟨h1, h2, h3, h4⟩ := h
  have hch : ∀ i : ℤ, 0 ≤ i → i < 60 → ∃ c, (if 0 ≤ i then amchar[i.toNat]? else none) = some c := by
    intro i h h'
    rw [if_pos h]
    exact ⟨_, List.getElem?_eq_getElem (by omega)⟩
  obtain ⟨_, e1⟩ := hch _ h1 ha
  obtain ⟨_, e2⟩ := hch _ h2 hb
  obtain ⟨_, e3⟩ := hch _ h3 hc
  obtain ⟨_, e4⟩ := hch _ h4 hd
  simp [functionName, e1, e2, e3, e4]

/-- Non-trivial case: maximum AM 1, permutation from AM 1 on: 9 runs define 16 functions. -/
example : (validQuartets 1 1).length = 9 ∧ (allDefined id 1 1).length = 16 := by decide +kernel

example : definedBy ⟨2, 1, 1, 0, ""⟩ true =
    [⟨2, 1, 1, 0, ""⟩, ⟨1, 2, 1, 0, ""⟩, ⟨2, 1, 0, 1, ""⟩, ⟨1, 2, 0, 1, ""⟩] := by decide +kernel

end Simint
