import Verif.DerivPermute
import Verif.Props.Permute
import Verif.Props.Deriv

/-!
# Property C35: derivative functions of permuted classes
-/

set_option autoImplicit false

open Real Finset

namespace Simint

/-! ### Loops -/

theorem loop4_blocks {β : Type} {na nb nc nd B : ℕ} (f : ℕ → ℕ → ℕ → ℕ → List β)
    (hB : ∀ a b c d, (f a b c d).length = B) :
    ((List.range na).flatMap fun a => (List.range nb).flatMap fun b =>
      (List.range nc).flatMap fun c => (List.range nd).flatMap fun d => f a b c d).length =
        na * nb * (nc * nd) * B ∧
    ∀ a < na, ∀ b < nb, ∀ c < nc, ∀ d < nd, ∀ k < B,
      ((List.range na).flatMap fun a => (List.range nb).flatMap fun b =>
        (List.range nc).flatMap fun c => (List.range nd).flatMap fun d =>
          f a b c d)[pos4 nb nc nd a b c d * B + k]? = (f a b c d)[k]? := by
  have l1 : ∀ a b c, ((List.range nd).flatMap fun d => f a b c d).length = nd * B := fun a b c => by
    rw [length_flatMap_const (k := B) fun d _ => hB a b c d, List.length_range]
  have l2 : ∀ a b, ((List.range nc).flatMap fun c => (List.range nd).flatMap fun d =>
      f a b c d).length = nc * (nd * B) := fun a b => by
    rw [length_flatMap_const (k := nd * B) fun c _ => l1 a b c, List.length_range]
  have l3 : ∀ a, ((List.range nb).flatMap fun b => (List.range nc).flatMap fun c =>
      (List.range nd).flatMap fun d => f a b c d).length = nb * (nc * (nd * B)) := fun a => by
    rw [length_flatMap_const (k := nc * (nd * B)) fun b _ => l2 a b, List.length_range]
  have mixlt : ∀ {n m i j : ℕ}, i < n → j < m → i * m + j < n * m := by
    intro n m i j hi hj
    have : (i + 1) * m ≤ n * m := Nat.mul_le_mul_right _ hi
    rw [Nat.succ_mul] at this; omega
  refine ⟨?_, ?_⟩
  · rw [length_flatMap_const (k := nb * (nc * (nd * B))) fun a _ => l3 a, List.length_range]; ring
  · intro a ha b hb c hc d hd k hk
    have h1 := mixlt hd hk
    have h2 := mixlt hc h1
    have h3 := mixlt hb h2
    have e : pos4 nb nc nd a b c d * B + k =
        a * (nb * (nc * (nd * B))) + (b * (nc * (nd * B)) + (c * (nd * B) + (d * B + k))) := by
      unfold pos4; ring
    rw [e, getElem?_flatMap_range (fun a _ => l3 a) ha h3, getElem?_flatMap_range (fun b _ => l2 a b) hb h2,
      getElem?_flatMap_range (fun c _ => l1 a b c) hc h1, getElem?_flatMap_range (fun d _ => hB a b c d) hd hk]

/-- A loop that replaces block `q` by a list computed from block `q`. -/
theorem blockLoop {F : Type} [Zero F] (B : ℕ) (buf : ℕ → (ℕ → F) → List F)
    (hlen : ∀ q o, (buf q o).length = B)
    (hcongr : ∀ q (o o' : ℕ → F), (∀ k < B, o (q * B + k) = o' (q * B + k)) → buf q o = buf q o')
    (step : ℕ → (ℕ → F) → Option (ℕ → F))
    (hstep : ∀ q o, step q o = some fun k => if q * B ≤ k ∧ k < q * B + B then
      (buf q o).getD (k - q * B) 0 else o k) (n : ℕ) (o : ℕ → F) :
    ∃ o', (List.range n).foldlM (fun o q => step q o) o = some o' ∧
      (∀ q < n, ∀ k < B, (buf q o)[k]? = some (o' (q * B + k))) ∧ ∀ k, n * B ≤ k → o' k = o k := by
  induction n with
  | zero => exact ⟨o, rfl, fun q hq => absurd hq (by omega), fun k _ => rfl⟩
  | succ n ih =>
    obtain ⟨o1, e, h1, h2⟩ := ih
    have hb : buf n o1 = buf n o := hcongr n o1 o fun k _ => h2 _ (by omega)
    have hl := hlen n o
    refine ⟨_, by
      rw [List.range_succ, List.foldlM_append, e]
      simp only [List.foldlM_cons, List.foldlM_nil, bind_pure, Option.bind_eq_bind, Option.bind_some]
      rw [hstep, hb], ?_, ?_⟩
    · intro q hq k hk
      by_cases hqn : q = n
      · subst hqn
        rw [if_pos ⟨by omega, by omega⟩, Nat.add_sub_cancel_left, List.getD_eq_getElem?_getD,
          List.getElem?_eq_getElem (by omega)]
        rfl
      · have hlt : q * B + k < n * B := by
          have : (q + 1) * B ≤ n * B := Nat.mul_le_mul_right _ (by omega)
          rw [Nat.succ_mul] at this; omega
        rw [if_neg (by omega)]
        exact h1 q (by omega) k hk
    · intro k hk
      rw [Nat.succ_mul] at hk
      rw [if_neg (by omega)]
      exact h2 k (by omega)

/-! ### Blocks of twelve -/

/-- Center of the computed class that is center `t` of the permuted class. -/
def permCenter (s12 s34 : Bool) : RRType → RRType
  | .I => if s12 then .J else .I
  | .J => if s12 then .I else .J
  | .K => if s34 then .L else .K
  | .L => if s34 then .K else .L

section
variable {F : Type} [Field F]

theorem dPermBlock_length (s12 s34 : Bool) (o : ℕ → F) (src : ℕ) :
    (dPermBlock s12 s34 o src).length = 12 := by
  cases s12 <;> cases s34 <;> simp [dPermBlock]

theorem dPermBlock_get (s12 s34 : Bool) (o : ℕ → F) (src : ℕ) (t : RRType) (i : Dir) :
    (dPermBlock s12 s34 o src)[3 * t.idx + i.idx]? =
      some (o (src + (3 * (permCenter s12 s34 t).idx + i.idx))) := by
  cases s12 <;> cases s34 <;> cases t <;> cases i <;>
    simp [dPermBlock, permCenter, RRType.idx, Dir.idx, List.range_succ, Nat.add_assoc]

theorem idx12 {k : ℕ} (hk : k < 12) : ∃ (t : RRType) (i : Dir), k = 3 * t.idx + i.idx := by
  have : ∀ k : Fin 12, ∃ (t : RRType) (i : Dir), k.1 = 3 * t.idx + i.idx := by
    intro k
    fin_cases k
    · exact ⟨.I, .x, rfl⟩
    · exact ⟨.I, .y, rfl⟩
    · exact ⟨.I, .z, rfl⟩
    · exact ⟨.J, .x, rfl⟩
    · exact ⟨.J, .y, rfl⟩
    · exact ⟨.J, .z, rfl⟩
    · exact ⟨.K, .x, rfl⟩
    · exact ⟨.K, .y, rfl⟩
    · exact ⟨.K, .z, rfl⟩
    · exact ⟨.L, .x, rfl⟩
    · exact ⟨.L, .y, rfl⟩
    · exact ⟨.L, .z, rfl⟩
  exact this ⟨k, hk⟩

theorem idx12_lt (t : RRType) (i : Dir) : 3 * t.idx + i.idx < 12 := by
  cases t <;> cases i <;> decide

theorem permAM_ncart (am : QAM) (s12 s34 : Bool) :
    ncart (permAM am s12 s34).a * ncart (permAM am s12 s34).b *
      (ncart (permAM am s12 s34).c * ncart (permAM am s12 s34).d) = ncartQ am := by
  cases s12 <;> cases s34 <;> simp [permAM, ncartQ, Nat.mul_comm, Nat.mul_left_comm]

theorem dPermBuffer_spec (am : QAM) (s12 s34 : Bool) (q : ℕ) (o : ℕ → F) :
    (dPermBuffer am s12 s34 q o).length = 12 * ncartQ am ∧
    ∀ a < ncart (permAM am s12 s34).a, ∀ b < ncart (permAM am s12 s34).b,
    ∀ c < ncart (permAM am s12 s34).c, ∀ d < ncart (permAM am s12 s34).d, ∀ (t : RRType) (i : Dir),
      (dPermBuffer am s12 s34 q o)[12 * pos4 (ncart (permAM am s12 s34).b) (ncart (permAM am s12 s34).c)
        (ncart (permAM am s12 s34).d) a b c d + (3 * t.idx + i.idx)]? =
      some (o (q * (12 * ncartQ am) + (12 * pos4 (ncart am.b) (ncart am.c) (ncart am.d)
        (unperm s12 s34 a b c d).1 (unperm s12 s34 a b c d).2.1 (unperm s12 s34 a b c d).2.2.1
        (unperm s12 s34 a b c d).2.2.2 + (3 * (permCenter s12 s34 t).idx + i.idx)))) := by
  unfold dPermBuffer
  simp only
  refine ⟨?_, ?_⟩
  · rw [(loop4_blocks (B := 12) _ fun a b c d => dPermBlock_length _ _ _ _).1, permAM_ncart,
      Nat.mul_comm]
  · intro a ha b hb c hc d hd t i
    rw [Nat.mul_comm 12 (pos4 _ _ _ a b c d),
      (loop4_blocks (B := 12) _ fun a b c d => dPermBlock_length _ _ _ _).2 a ha b hb c hc d hd _
        (idx12_lt t i), dPermBlock_get]
    congr 2
    cases s12 <;> cases s34 <;> simp only [unperm, pos4, if_true, if_false, Bool.false_eq_true] <;> ring

theorem dPermBuffer_congr (am : QAM) (s12 s34 : Bool) (q : ℕ) (o o' : ℕ → F)
    (h : ∀ k < 12 * ncartQ am, o (q * (12 * ncartQ am) + k) = o' (q * (12 * ncartQ am) + k)) :
    dPermBuffer am s12 s34 q o = dPermBuffer am s12 s34 q o' := by
  have h1 := dPermBuffer_spec am s12 s34 q o
  have h2 := dPermBuffer_spec am s12 s34 q o'
  apply List.ext_getElem?
  intro k
  by_cases hk : k < 12 * ncartQ am
  · have hk1 : k / 12 < ncartQ am := by omega
    rw [← permAM_ncart am s12 s34] at hk1
    obtain ⟨a, ha, b, hb, c, hc, d, hd, e⟩ := pos4_surj hk1
    obtain ⟨t, i, e2⟩ := idx12 (Nat.mod_lt k (by decide : 12 > 0))
    have ek : k = 12 * pos4 (ncart (permAM am s12 s34).b) (ncart (permAM am s12 s34).c)
        (ncart (permAM am s12 s34).d) a b c d + (3 * t.idx + i.idx) := by
      rw [← e, ← e2]; omega
    rw [ek, h1.2 a ha b hb c hc d hd, h2.2 a ha b hb c hc d hd, h]
    have hlt : pos4 (ncart am.b) (ncart am.c) (ncart am.d)
        (unperm s12 s34 a b c d).1 (unperm s12 s34 a b c d).2.1 (unperm s12 s34 a b c d).2.2.1
        (unperm s12 s34 a b c d).2.2.2 < ncartQ am := by
      unfold ncartQ
      apply pos4_lt
      all_goals
        revert ha hb hc hd
        cases s12 <;> cases s34 <;> simp [permAM, unperm] <;> omega
    have := idx12_lt (permCenter s12 s34 t) i
    omega
  · rw [List.getElem?_eq_none (by omega), List.getElem?_eq_none (by omega)]

end

/-- **C35, reorder.** Over any field, every number of quartets and every content of the output: the
reorder moves, for component `(a b c d)` of the permuted class, center `t` and direction `i`, the
value that the computed class stores for the same component, center and direction; nothing behind
the quartets changes. -/
theorem C35_reorder {F : Type} [Field F] (am : QAM) (s12 s34 : Bool) (n : ℕ) (o : ℕ → F) :
    ∃ o', (List.range n).foldlM (fun o q => dPermQuartet am s12 s34 q o) o = some o' ∧
      (∀ q < n, ∀ a < ncart (permAM am s12 s34).a, ∀ b < ncart (permAM am s12 s34).b,
        ∀ c < ncart (permAM am s12 s34).c, ∀ d < ncart (permAM am s12 s34).d, ∀ (t : RRType) (i : Dir),
        o' (q * (12 * ncartQ am) + (12 * ((a * ncart (permAM am s12 s34).b + b) *
            (ncart (permAM am s12 s34).c * ncart (permAM am s12 s34).d) +
            (c * ncart (permAM am s12 s34).d + d)) + (3 * t.idx + i.idx))) =
          o (q * (12 * ncartQ am) + (12 * (((if s12 then b else a) * ncart am.b + (if s12 then a else b)) *
            (ncart am.c * ncart am.d) +
            ((if s34 then d else c) * ncart am.d + (if s34 then c else d))) +
            (3 * (permCenter s12 s34 t).idx + i.idx)))) ∧
      ∀ k, n * (12 * ncartQ am) ≤ k → o' k = o k := by
  obtain ⟨o', e, h1, h2⟩ := blockLoop (12 * ncartQ am) (dPermBuffer (F := F) am s12 s34)
    (fun q o => (dPermBuffer_spec am s12 s34 q o).1) (dPermBuffer_congr am s12 s34)
    (dPermQuartet am s12 s34) (fun q o => by
      unfold dPermQuartet
      simp only
      rw [if_pos (dPermBuffer_spec am s12 s34 q o).1, Nat.mul_assoc]) n o
  refine ⟨o', e, ?_, h2⟩
  intro q hq a ha b hb c hc d hd t i
  have hlt := pos4_lt ha hb hc hd
  rw [permAM_ncart] at hlt
  have h12 := idx12_lt t i
  have b1 := h1 q hq (12 * pos4 (ncart (permAM am s12 s34).b) (ncart (permAM am s12 s34).c)
        (ncart (permAM am s12 s34).d) a b c d + (3 * t.idx + i.idx)) (by omega)
  rw [(dPermBuffer_spec am s12 s34 q o).2 a ha b hb c hc d hd t i, Option.some.injEq] at b1
  exact b1.symm

/-- Non-trivial case: the reorder for `(s p | s s)` from `(p s | s s)`: twelve values of each of the
three components stay together, the values of the first two centers change places. -/
example : dPermBuffer (F := ℚ) ⟨1, 0, 0, 0, ""⟩ true false 0 (fun k => k) =
    [3, 4, 5, 0, 1, 2, 6, 7, 8, 9, 10, 11, 15, 16, 17, 12, 13, 14, 18, 19, 20, 21, 22, 23,
      27, 28, 29, 24, 25, 26, 30, 31, 32, 33, 34, 35] := by decide +kernel

/-! ### Derivatives -/

theorem HoldsExps.swap {M : MSP ℝ} {al be : ℕ → ℝ} {start : ℕ → ℕ} {S : ℕ → ShellPair}
    (h : HoldsExps M al be start S) (n : ℕ) (junk : Dir → ℕ → ℝ) :
    HoldsExps (swapMSP M n junk) be al start (fun s => (S s).swap) := by
  refine ⟨fun s hs k hk => ?_, fun s hs k hk => ?_⟩
  · have hk' : k < (S s).prims.length := by simpa [ShellPair.swap] using hk
    rw [h.b s hs k hk']
    simp [ShellPair.swap]
  · have hk' : k < (S s).prims.length := by simpa [ShellPair.swap] using hk
    rw [h.a s hs k hk']
    simp [ShellPair.swap]

theorem moveCenter_perm (s12 s34 : Bool) (S T : ShellPair) (t : RRType) (i : Dir) (v : ℝ) :
    moveCenter (S.swapIf s12) (T.swapIf s34) (permCenter s12 s34 t) i v =
      ((moveCenter S T t i v).1.swapIf s12, (moveCenter S T t i v).2.swapIf s34) := by
  cases s12 <;> cases s34 <;> cases t <;> rfl

theorem centerOf_perm (s12 s34 : Bool) (S T : ShellPair) (t : RRType) (i : Dir) :
    centerOf (S.swapIf s12) (T.swapIf s34) (permCenter s12 s34 t) i = centerOf S T t i := by
  cases s12 <;> cases s34 <;> cases t <;> rfl

/-- **C35.** The derivative function of a permuted class, called with lists that hold the shell
pairs in the order of that class, runs and stores, for each component in the order of that class and
each center in the order of that class, the derivatives of the contracted integral (compare
`C61_function`). -/
theorem C35_permuted {g : GenCfg} (hg : g.OK) {am : QAM} (hf : DerivClassOK am) (s12 s34 : Bool)
    {c : DPermCall ℝ} (hc : DerivCallOK (permAM am s12 s34) c.toCall) {S T : ℕ → ShellPair}
    (hS : Holds c.P (tightStart c.P.nprim12) S) (hT : Holds c.Q (paddedStart c.len c.Q.nprim12) T)
    (eP : HoldsExps c.P c.alpha2P c.beta2P (tightStart c.P.nprim12) S)
    (eQ : HoldsExps c.Q c.alpha2Q c.beta2Q (paddedStart c.len c.Q.nprim12) T)
    (hP : 0 < c.nP ∧ c.P.nclip ≤ c.nP) (hQ : 0 < c.nQ ∧ c.Q.nclip ≤ c.nQ) (hmem : HMem ℝ)
    (out : ℕ → ℝ) :
    ∃ o, dPermFunction g realOps am s12 s34 c hmem out = some (c.P.nclip * c.Q.nclip, o) ∧
      (∀ ab < c.P.nclip, ∀ cd < c.Q.nclip, ∀ x y z w : Exp, x.Valid → y.Valid → z.Valid → w.Valid →
        x.am = (permAM am s12 s34).a → y.am = (permAM am s12 s34).b →
        z.am = (permAM am s12 s34).c → w.am = (permAM am s12 s34).d → ∀ (t : RRType) (i : Dir),
        HasDerivAt (fun v => screenedERI c.toCall (tightStart c.P.nprim12 ab)
            (paddedStart c.len c.Q.nprim12 cd) (moveCenter (S ab) (T cd) t i v).1
            (moveCenter (S ab) (T cd) t i v).2 x y z w)
          (o ((ab * c.Q.nclip + cd) * (12 * ncartQ (permAM am s12 s34)) +
            (12 * Qrt.index psi4List ⟨⟨x, y⟩, ⟨z, w⟩, 0⟩ + (3 * t.idx + i.idx))))
          (centerOf (S ab) (T cd) t i)) ∧
      ∀ k, c.P.nclip * c.Q.nclip * (12 * ncartQ (permAM am s12 s34)) ≤ k → o k = out k := by
  have hN : ncartQ (permAM am s12 s34) = ncartQ am := permAM_ncart am s12 s34
  rw [hN]
  have iP : (c.inner s12 s34).P = if s12 then swapMSP c.P c.nP c.junkAB else c.P := rfl
  have iQ : (c.inner s12 s34).Q = if s34 then swapMSP c.Q c.nQ c.junkAB else c.Q := rfl
  have p1 : (c.inner s12 s34).P.nclip = c.P.nclip := by rw [iP]; cases s12 <;> rfl
  have p2 : (c.inner s12 s34).P.nprim12 = c.P.nprim12 := by rw [iP]; cases s12 <;> rfl
  have p3 : (c.inner s12 s34).P.alloc = c.P.alloc := by rw [iP]; cases s12 <;> rfl
  have p4 : (c.inner s12 s34).P.alpha = c.P.alpha := by rw [iP]; cases s12 <;> rfl
  have p5 : (c.inner s12 s34).P.screen = c.P.screen := by rw [iP]; cases s12 <;> rfl
  have q1 : (c.inner s12 s34).Q.nclip = c.Q.nclip := by rw [iQ]; cases s34 <;> rfl
  have q2 : (c.inner s12 s34).Q.nprim12 = c.Q.nprim12 := by rw [iQ]; cases s34 <;> rfl
  have q3 : (c.inner s12 s34).Q.alloc = c.Q.alloc := by rw [iQ]; cases s34 <;> rfl
  have q4 : (c.inner s12 s34).Q.alpha = c.Q.alpha := by rw [iQ]; cases s34 <;> rfl
  have q5 : (c.inner s12 s34).Q.screen = c.Q.screen := by rw [iQ]; cases s34 <;> rfl
  have q6 : (c.inner s12 s34).Q.screenMax = c.Q.screenMax := by rw [iQ]; cases s34 <;> rfl
  have hin : DerivCallOK am (c.inner s12 s34).toCall := by
    refine ⟨hc.len, ?_, ?_, ?_, ?_, ?_, ?_⟩
    · rw [q1, q2]; exact hc.prims
    · rw [p1, p2, p3]; exact hc.bra
    · rw [q1, q2, q3]; exact hc.ket
    · rw [p3, p4]; exact hc.braPos
    · rw [q3, q4]; exact hc.ketPos
    · rw [p1, q1, ← hN]; exact hc.out
  have hS' : Holds (c.inner s12 s34).P (tightStart (c.inner s12 s34).P.nprim12)
      (fun s => (S s).swapIf s12) := by
    rw [p2, iP]
    cases s12
    · exact hS
    · exact hS.swap hP.2 _
  have hT' : Holds (c.inner s12 s34).Q (paddedStart (c.inner s12 s34).len (c.inner s12 s34).Q.nprim12)
      (fun s => (T s).swapIf s34) := by
    rw [q2, iQ]
    cases s34
    · exact hT
    · exact hT.swap hQ.2 _
  have eP' : HoldsExps (c.inner s12 s34).P (c.inner s12 s34).alpha2P (c.inner s12 s34).beta2P
      (tightStart (c.inner s12 s34).P.nprim12) (fun s => (S s).swapIf s12) := by
    rw [p2, iP]
    cases s12
    · exact eP
    · exact eP.swap _ _
  have eQ' : HoldsExps (c.inner s12 s34).Q (c.inner s12 s34).alpha2Q (c.inner s12 s34).beta2Q
      (paddedStart (c.inner s12 s34).len (c.inner s12 s34).Q.nprim12) (fun s => (T s).swapIf s34) := by
    rw [q2, iQ]
    cases s34
    · exact eQ
    · exact eQ.swap _ _
  obtain ⟨o1, e1, v1, r1⟩ := C61_function hg hf hin hS' hT' eP' eQ' hmem out
  rw [p1, q1] at e1 v1 r1
  have hk : ∀ i j, c.toCall.Kept i j ↔ (c.inner s12 s34).toCall.Kept i j := by
    intro i j
    unfold Call.Kept
    rw [p5, q5, q6]
    exact Iff.rfl
  have hval : ∀ ab < c.P.nclip, ∀ cd < c.Q.nclip, ∀ x y z w : Exp, x.Valid → y.Valid → z.Valid →
      w.Valid → x.am = (permAM am s12 s34).a → y.am = (permAM am s12 s34).b →
      z.am = (permAM am s12 s34).c → w.am = (permAM am s12 s34).d → ∀ (t : RRType) (i : Dir),
      HasDerivAt (fun v => screenedERI c.toCall (tightStart c.P.nprim12 ab)
          (paddedStart c.len c.Q.nprim12 cd) (moveCenter (S ab) (T cd) t i v).1
          (moveCenter (S ab) (T cd) t i v).2 x y z w)
        (o1 ((ab * c.Q.nclip + cd) * (12 * ncartQ am) + (12 * Qrt.index psi4List
          ⟨⟨if s12 then y else x, if s12 then x else y⟩, ⟨if s34 then w else z, if s34 then z else w⟩, 0⟩
          + (3 * (permCenter s12 s34 t).idx + i.idx))))
        (centerOf (S ab) (T cd) t i) := by
    intro ab hab cd hcd x y z w vx vy vz vw ex ey ez ew t i
    have := v1 ab hab cd hcd (if s12 then y else x) (if s12 then x else y) (if s34 then w else z)
      (if s34 then z else w) (by cases s12 <;> assumption) (by cases s12 <;> assumption)
      (by cases s34 <;> assumption) (by cases s34 <;> assumption)
      (by cases s12 <;> cases s34 <;> simpa [permAM] using (by assumption))
      (by cases s12 <;> cases s34 <;> simpa [permAM] using (by assumption))
      (by cases s12 <;> cases s34 <;> simpa [permAM] using (by assumption))
      (by cases s12 <;> cases s34 <;> simpa [permAM] using (by assumption))
      (permCenter s12 s34 t) i
    rw [p2, q2, centerOf_perm] at this
    refine this.congr_of_eventuallyEq (Filter.Eventually.of_forall fun v => ?_)
    beta_reduce
    rw [moveCenter_perm]
    exact (screenedERI_perm c.toCall (c.inner s12 s34).toCall hk _ _ s12 s34 _ _ x y z w).symm
  have hz : ¬ ((s12 && decide (c.nP = 0)) || (s34 && decide (c.nQ = 0))) = true := by
    have h1 := hP.1; have h2 := hQ.1
    simp only [Bool.or_eq_true, Bool.and_eq_true, decide_eq_true_eq]
    omega
  unfold dPermFunction
  rw [if_neg hz, e1, Option.bind_some]
  have hout := hc.out
  rw [hN] at hout
  rw [if_pos hout]
  obtain ⟨o2, e2, w1, w2⟩ := C35_reorder am s12 s34 (c.P.nclip * c.Q.nclip) o1
  refine ⟨o2, by rw [e2]; rfl, ?_, fun k hk => (w2 k hk).trans (r1 k hk)⟩
  intro ab hab cd hcd x y z w vx vy vz vw ex ey ez ew t i
  refine (hval ab hab cd hcd x y z w vx vy vz vw ex ey ez ew t i).congr_deriv ?_
  have hq : ab * c.Q.nclip + cd < c.P.nclip * c.Q.nclip := by
    have : (ab + 1) * c.Q.nclip ≤ c.P.nclip * c.Q.nclip := Nat.mul_le_mul_right _ hab
    rw [Nat.succ_mul] at this; omega
  have b2 := w1 _ hq (cidx psi4List x)
    (by rw [← ex]; exact cidx_lt' vx) (cidx psi4List y) (by rw [← ey]; exact cidx_lt' vy)
    (cidx psi4List z) (by rw [← ez]; exact cidx_lt' vz) (cidx psi4List w)
    (by rw [← ew]; exact cidx_lt' vw) t i
  rw [index_pos4 _ x y z w, ey, ez, ew]
  refine Eq.trans ?_ b2.symm
  rw [index_pos4]
  congr 3
  cases s12 <;> cases s34 <;> simp only [permAM] at ex ey ez ew <;>
    simp [pos4, ex, ey, ez, ew]

end Simint
