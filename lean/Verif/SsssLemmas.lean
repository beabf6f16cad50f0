import Verif.Ssss
import Verif.HsumLanes
import Verif.DriverLoopLemmas
import Verif.Spec.Driver

/-! Simulation of the hand-written (ss|ss) function by the generated loops. -/

set_option autoImplicit false

namespace Simint

open Finset

theorem foldlM_sim {σ τ : Type} (f : σ → ℕ → Option σ) (g : τ → ℕ → Option τ)
    (R : ℕ → σ → τ → Prop) (N : ℕ)
    (h : ∀ v < N, ∀ s t t', R v s t → g t v = some t' → ∃ s', f s v = some s' ∧ R (v + 1) s' t') :
    ∀ n ≤ N, ∀ s t t', R 0 s t → (List.range n).foldlM g t = some t' →
      ∃ s', (List.range n).foldlM f s = some s' ∧ R n s' t' := by
  intro n
  induction n with
  | zero =>
    intro _ s t t' hR hg
    simp only [List.range_zero, List.foldlM_nil] at hg ⊢
    cases hg
    exact ⟨s, rfl, hR⟩
  | succ n ih =>
    intro hn s t t' hR hg
    rw [List.range_succ, foldlM_snoc] at hg ⊢
    cases ht : (List.range n).foldlM g t with
    | none => rw [ht] at hg; simp at hg
    | some t1 =>
      rw [ht, Option.bind_some] at hg
      obtain ⟨s1, hs, hR1⟩ := ih (by omega) s t t1 hR ht
      obtain ⟨s2, hs2, hR2⟩ := h n (by omega) s1 t1 t' hR1 hg
      exact ⟨s2, by rw [hs, Option.bind_some, hs2], hR2⟩

theorem foldlM_sim' {σ τ : Type} (f : σ → ℕ → Option σ) (g : τ → ℕ → Option τ)
    (R : σ → τ → Prop)
    (h : ∀ v s t t', R s t → g t v = some t' → ∃ s', f s v = some s' ∧ R s' t') :
    ∀ (l : List ℕ) s t t', R s t → l.foldlM g t = some t' →
      ∃ s', l.foldlM f s = some s' ∧ R s' t' := by
  intro l
  induction l with
  | nil =>
    intro s t t' hR hg
    simp only [List.foldlM_nil] at hg ⊢
    cases hg
    exact ⟨s, rfl, hR⟩
  | cons a l ih =>
    intro s t t' hR hg
    rw [List.foldlM_cons] at hg ⊢
    cases ht : g t a with
    | none => rw [ht] at hg; simp at hg
    | some t1 =>
      rw [ht] at hg
      obtain ⟨s1, hs, hR1⟩ := h a s t t1 hR ht
      rw [hs]
      exact ih s1 t1 t' hR1 hg

theorem paddedStart_mono {len : ℕ} (hlen : 0 < len) (np : ℕ → ℕ) : Monotone (paddedStart len np) :=
  monotone_nat_of_le_succ fun s => by
    rw [paddedStart]
    split
    · exact le_trans (by omega) (le_simdRound hlen _)
    · omega

section
variable {F : Type} [Add F] [Zero F] [Mul F] [LinearOrder F]

/-- End of batch `b`: one past its last primitive. -/
def batchStop (e : DEnv F) (b : ℕ) : ℕ :=
  batchEnd e.Q.nprim12 (b * nshellSimd e.len) (nshellBatch e.len e.Q.nclip (b * nshellSimd e.len))
    (paddedStart e.len e.Q.nprim12 (b * nshellSimd e.len))

/-- Lanes behind the last primitive of a batch. -/
def Tail (e : DEnv F) (k : ℕ) : Prop :=
  ∃ b, b * nshellSimd e.len < e.Q.nclip ∧ batchStop e b ≤ k ∧ k < simdRound e.len (batchStop e b)

open Classical in
/-- The ket list with the screening values of the tail lanes set to zero. -/
noncomputable def zeroed (e : DEnv F) : DEnv F :=
  { e with Q := { e.Q with screen := fun k => if Tail e k then 0 else e.Q.screen k } }

/-- What the function may have done to the screening values so far. -/
def ScreenInv (e : DEnv F) (s : ℕ → F) : Prop := ∀ k, s k = e.Q.screen k ∨ (Tail e k ∧ s k = 0)

theorem not_tail (e : DEnv F) (hlen : 0 < e.len) (b : ℕ) (hb : b * nshellSimd e.len < e.Q.nclip)
    (k : ℕ) (h1 : paddedStart e.len e.Q.nprim12 (b * nshellSimd e.len) ≤ k) (h2 : k < batchStop e b) :
    ¬ Tail e k := by
  rintro ⟨b', hb', h3, h4⟩
  have hmono := paddedStart_mono hlen e.Q.nprim12
  rcases lt_trichotomy b' b with h | rfl | h
  · have hle : (b' + 1) * nshellSimd e.len ≤ b * nshellSimd e.len := Nat.mul_le_mul_right _ h
    have := jstart_next e hlen b' (by omega)
    have h5 := hmono hle
    unfold batchStop at h4
    omega
  · omega
  · have hle : (b + 1) * nshellSimd e.len ≤ b' * nshellSimd e.len := Nat.mul_le_mul_right _ h
    have h6 := jstart_next e hlen b (by omega)
    have h5 := hmono hle
    have h7 := le_simdRound hlen (batchStop e b)
    have h8 : paddedStart e.len e.Q.nprim12 (b' * nshellSimd e.len) ≤ batchStop e b' := by
      unfold batchStop; rw [batchEnd_eq]; omega
    unfold batchStop at h2 h7 h8 h3
    omega

theorem ssssVec_sim (e : DEnv F) (al : AllSum e.len) (final : QAM) (hn : ncartQ final = 1) (htop : e.tops = [final])
    (hlen : 0 < e.len) (b : ℕ) (hb : b * nshellSimd e.len < e.Q.nclip) (i v : ℕ)
    (hv : v < nvec e.len (paddedStart e.len e.Q.nprim12 (b * nshellSimd e.len)) (batchStop e b))
    (s : SSt F) (t t' : DSt F)
    (hc : (t.icd, t.iprim, t.nprim) = ssssCounters e.len e.Q.nprim12 (b * nshellSimd e.len)
      (nshellBatch e.len e.Q.nclip (b * nshellSimd e.len)) v)
    (hp : t.ptr final = s.ptr) (hm : t.mem final = s.mem) (hs : ScreenInv e s.screen)
    (hg : vecStepBy (zeroed e) al (b * nshellSimd e.len)
      (nshellBatch e.len e.Q.nclip (b * nshellSimd e.len)) (batchStop e b) i t
      (paddedStart e.len e.Q.nprim12 (b * nshellSimd e.len) + v * e.len) = some t') :
    ∃ s', ssssVec e al final (b * nshellSimd e.len)
        (nshellBatch e.len e.Q.nclip (b * nshellSimd e.len))
        (paddedStart e.len e.Q.nprim12 (b * nshellSimd e.len)) (batchStop e b) i s v = some s' ∧
      (t'.icd, t'.iprim, t'.nprim) = ssssCounters e.len e.Q.nprim12 (b * nshellSimd e.len)
        (nshellBatch e.len e.Q.nclip (b * nshellSimd e.len)) (v + 1) ∧
      t'.ptr final = s'.ptr ∧ t'.mem final = s'.mem ∧ ScreenInv e s'.screen := by
  set cd := b * nshellSimd e.len with hcd
  set nb := nshellBatch e.len e.Q.nclip cd with hnb
  set jstart := paddedStart e.len e.Q.nprim12 cd with hjs
  set jend := batchStop e b with hje
  set j := jstart + v * e.len with hj
  have hdvd : e.len ∣ jstart := paddedStart_dvd e.len e.Q.nprim12 b
  have hjlt : j < jend := by
    unfold nvec at hv
    have h1 := (Nat.le_div_iff_mul_le hlen).1 (show v + 1 ≤ _ from hv)
    rw [Nat.succ_mul] at h1
    omega
  have hround : j + e.len ≤ simdRound e.len jend := by
    obtain ⟨q, hq⟩ := hdvd
    have hjm : e.len ∣ j + e.len := ⟨q + v + 1, by rw [hj, hq]; ring⟩
    obtain ⟨p, hp'⟩ := simdRound_dvd e.len jend
    obtain ⟨r, hr⟩ := hjm
    have h3 := le_simdRound hlen jend
    rw [hr, hp']
    apply Nat.mul_le_mul_left
    by_contra hlt
    have : e.len * (p + 1) ≤ e.len * r := Nat.mul_le_mul_left _ (by omega)
    rw [Nat.mul_succ] at this
    omega
  have hstart : ∀ n, paddedStart e.len e.Q.nprim12 (b * nshellSimd e.len) ≤ j + n := fun n => by
    show jstart ≤ j + n
    omega
  have htail : ∀ k, jend ≤ k → k < j + e.len → Tail e k := fun k h1 h2 =>
    ⟨b, hb, h1, lt_of_lt_of_le h2 hround⟩
  -- lanes seen by the screening test
  set scr := (if e.check then zeroTail e.len j jend s.screen else s.screen) with hscr
  have hlane : e.check → ∀ n < e.len, scr (j + n) = (zeroed e).Q.screen (j + n) := by
    intro hch n hn'
    rw [hscr, if_pos hch]
    unfold zeroTail
    by_cases hlt : j + n < jend
    · have hnt := not_tail e hlen b hb (j + n) (hstart n) hlt
      have e1 : (zeroed e).Q.screen (j + n) = e.Q.screen (j + n) := by simp [zeroed, hnt]
      rw [e1]
      have e2 : s.screen (j + n) = e.Q.screen (j + n) := by
        rcases hs (j + n) with h | h
        · exact h
        · exact absurd h.1 hnt
      split
      · simp only
        rw [if_neg (by omega), e2]
      · exact e2
    · have ht : Tail e (j + n) := htail _ (by omega) (by omega)
      have e1 : (zeroed e).Q.screen (j + n) = 0 := by simp [zeroed, ht]
      rw [e1, if_pos (by omega), if_pos (by omega)]
  have hinv : ScreenInv e scr := by
    intro k
    rw [hscr]
    by_cases hch : e.check
    · rw [if_pos hch]
      unfold zeroTail
      split
      · simp only
        split
        · rename_i hk
          exact Or.inr ⟨htail _ hk.1 hk.2, rfl⟩
        · exact hs k
      · exact hs k
    · rw [if_neg hch]; exact hs k
  have hmax : e.check → vectorMax e.len (fun n => e.P.screen i * scr (j + n))
      = vectorMax e.len (fun n => e.P.screen i * (zeroed e).Q.screen (j + n)) := by
    intro hch
    unfold vectorMax
    have : ∀ (l : List ℕ) m, (∀ n ∈ l, n < e.len) →
        l.foldl (fun m n => if e.P.screen i * scr (j + n) > m
          then e.P.screen i * scr (j + n) else m) m =
        l.foldl (fun m n => if e.P.screen i * (zeroed e).Q.screen (j + n) > m
          then e.P.screen i * (zeroed e).Q.screen (j + n) else m) m := by
      intro l
      induction l with
      | nil => intro m _; rfl
      | cons a r ih =>
        intro m hm
        simp only [List.foldl_cons]
        rw [hlane hch a (hm a (by simp))]
        exact ih _ fun n hn => hm n (by simp [hn])
    simp only
    rw [hlane hch 0 hlen]
    apply this
    intro n hn
    have := List.mem_range'_1.1 hn
    omega
  have hskip : (zeroed e).skipVec i j ↔
      (e.check ∧ vectorMax e.len (fun n => e.P.screen i * scr (j + n)) < e.tol) := by
    unfold DEnv.skipVec
    constructor
    · rintro ⟨h1, h2⟩
      exact ⟨h1, by rw [hmax h1]; exact h2⟩
    · rintro ⟨h1, h2⟩
      exact ⟨h1, by rw [hmax h1] at h2; exact h2⟩
  obtain ⟨ticd, tiprim, tnprim, tptr, tmem⟩ := t
  simp only at hc hp hm
  have hr : shellOffsets e.len e.Q.nprim12 cd nb ticd tiprim tnprim
      = offsetInfo e.len e.Q.nprim12 cd nb v := by
    unfold offsetInfo
    rw [← hc]
  unfold vecStepBy at hg
  unfold ssssVec
  simp only at hg ⊢
  have z1 : (zeroed e).len = e.len := rfl
  have z2 : (zeroed e).Q.nprim12 = e.Q.nprim12 := rfl
  have z3 : (zeroed e).Q.alloc = e.Q.alloc := rfl
  have z4 : (zeroed e).vec = e.vec := rfl
  have z5 : (zeroed e).Q.prefac = e.Q.prefac := rfl
  rw [z1, z2, z3, z4, z5, hr] at hg
  rw [← hj, ← hscr]
  set r := offsetInfo e.len e.Q.nprim12 cd nb v with hrr
  have hcount : (r.icd, r.iprim, r.nprim) = ssssCounters e.len e.Q.nprim12 cd nb (v + 1) := by
    rw [ssssCounters, hrr]
    rfl
  have hptr : (if r.adv = true then tptr final + ncartQ final else tptr final)
      = if r.adv = true then s.ptr + 1 else s.ptr := by rw [hp, hn]
  by_cases hal : j + e.len ≤ e.Q.alloc
  · rw [if_pos hal] at hg ⊢
    by_cases hsk : (zeroed e).skipVec i j
    · rw [if_pos hsk] at hg
      rw [if_pos (hskip.1 hsk)]
      simp only [Option.some.injEq] at hg
      subst hg
      refine ⟨_, rfl, hcount, ?_, hm, hinv⟩
      simp only
      rw [hptr, hn, Nat.mul_one]
    · rw [if_neg hsk] at hg
      rw [if_neg fun h => hsk (hskip.2 h)]
      cases hvec : e.vec i j (maskLoad (if j + e.len < jend then e.len else jend - j)
          e.Q.prefac j) with
      | none => rw [hvec] at hg; simp at hg
      | some src =>
        rw [hvec, Option.bind_some] at hg
        rw [Option.bind_some]
        unfold accumulateBy at hg
        have z6 : (zeroed e).tops = [final] := htop
        have z7 : (zeroed e).size = e.size := rfl
        rw [z6, z7] at hg
        simp only [List.foldlM_cons, List.foldlM_nil] at hg
        have hptr' : (fun t => if r.adv = true then tptr t + ncartQ t else tptr t) final
            = if r.adv = true then s.ptr + 1 else s.ptr := hptr
        rw [hptr, hn, hm] at hg
        cases hacc : (if r.last = 0 then
            contractAllBy al (e.size final) 1 (fun np n => src n final np)
              (if r.adv = true then s.ptr + 1 else s.ptr) s.mem
          else contract (e.size final) e.len 1 (fun n => r.offs.getD n 0)
            (fun np n => src n final np) (if r.adv = true then s.ptr + 1 else s.ptr) s.mem) with
        | none => erw [hacc] at hg; simp at hg
        | some b' =>
          erw [hacc] at hg
          simp only [Option.map_some, Option.bind_eq_bind, Option.bind_some, Option.pure_def] at hg
          simp only [Option.some.injEq] at hg
          subst hg
          refine ⟨_, rfl, hcount, ?_, ?_, hinv⟩
          · simp only
            split
            · exact hptr
            · simp only
              rw [hptr, hn, Nat.mul_one]
          · simp only [Function.update_self]
  · rw [if_neg hal] at hg; simp at hg

theorem ssssPrim_sim (e : DEnv F) (al : AllSum e.len) (final : QAM) (hn : ncartQ final = 1) (htop : e.tops = [final])
    (hlen : 0 < e.len) (b : ℕ) (hb : b * nshellSimd e.len < e.Q.nclip) (abcd i : ℕ)
    (s : (ℕ → F) × (ℕ → F)) (t t' : QAM → ℕ → F) (hs : ScreenInv e s.1) (hm : t final = s.2)
    (hg : braPrimBy (zeroed e) al abcd (b * nshellSimd e.len)
      (nshellBatch e.len e.Q.nclip (b * nshellSimd e.len))
      (paddedStart e.len e.Q.nprim12 (b * nshellSimd e.len)) (batchStop e b) t i = some t') :
    ∃ s', ssssPrim e al final abcd (b * nshellSimd e.len)
        (nshellBatch e.len e.Q.nclip (b * nshellSimd e.len))
        (paddedStart e.len e.Q.nprim12 (b * nshellSimd e.len)) (batchStop e b) s i = some s' ∧
      ScreenInv e s'.1 ∧ t' final = s'.2 := by
  unfold braPrimBy at hg
  unfold ssssPrim
  have z1 : (zeroed e).P = e.P := rfl
  have z2 : (zeroed e).skipBra i ↔ e.skipBra i := Iff.rfl
  rw [z1] at hg
  by_cases hal : i < e.P.alloc
  · rw [if_pos hal] at hg ⊢
    by_cases hsk : e.skipBra i
    · rw [if_pos (z2.2 hsk)] at hg
      rw [if_pos hsk]
      cases hg
      exact ⟨s, rfl, hs, hm⟩
    · rw [if_neg (fun h => hsk (z2.1 h))] at hg
      rw [if_neg hsk]
      have z3 : (zeroed e).len = e.len := rfl
      have z4 : (zeroed e).Q.nprim12 = e.Q.nprim12 := rfl
      rw [z3, z4] at hg
      cases ht : (List.range (nvec e.len (paddedStart e.len e.Q.nprim12 (b * nshellSimd e.len))
          (batchStop e b))).foldlM
          (fun st v => vecStepBy (zeroed e) al (b * nshellSimd e.len)
            (nshellBatch e.len e.Q.nclip (b * nshellSimd e.len)) (batchStop e b) i st
            (paddedStart e.len e.Q.nprim12 (b * nshellSimd e.len) + v * e.len))
          { icd := 0, iprim := 0, nprim := e.Q.nprim12 (b * nshellSimd e.len)
            ptr := fun t => abcd * ncartQ t, mem := t } with
      | none => rw [ht] at hg; simp at hg
      | some d =>
        rw [ht, Option.map_some] at hg
        obtain ⟨s', hs', h1, h2, h3, h4⟩ := foldlM_sim
          (ssssVec e al final (b * nshellSimd e.len)
            (nshellBatch e.len e.Q.nclip (b * nshellSimd e.len))
            (paddedStart e.len e.Q.nprim12 (b * nshellSimd e.len)) (batchStop e b) i) _
          (fun v (s : SSt F) (t : DSt F) =>
            (t.icd, t.iprim, t.nprim) = ssssCounters e.len e.Q.nprim12 (b * nshellSimd e.len)
              (nshellBatch e.len e.Q.nclip (b * nshellSimd e.len)) v ∧
            t.ptr final = s.ptr ∧ t.mem final = s.mem ∧ ScreenInv e s.screen) _
          (fun v hv s t t' hR hg => ssssVec_sim e al final hn htop hlen b hb i v hv s t t' hR.1 hR.2.1
            hR.2.2.1 hR.2.2.2 hg) _ le_rfl ⟨s.1, abcd, s.2⟩ _ d
          ⟨rfl, by simp [hn], hm, hs⟩ ht
        refine ⟨(s'.screen, s'.mem), by rw [hs', Option.map_some], h4, ?_⟩
        simp only [Option.some.injEq] at hg
        rw [← hg]
        exact h3
  · rw [if_neg hal] at hg; simp at hg

/-- The output of the hand-written function is that of the generated loops on the list whose tail
lanes have screening value zero; it changes screening values of tail lanes only, to zero. -/
theorem runSsssBy_sim (e : DEnv F) (al : AllSum e.len) (final : QAM) (hn : ncartQ final = 1) (htop : e.tops = [final])
    (hlen : 0 < e.len) (out : ℕ → F) (c : ℕ) (res : ℕ → F)
    (hrun : runDirectBy (zeroed e) al final out = some (c, res)) :
    ∃ s', runSsssBy e al final out = some (c, s', res) ∧ ScreenInv e s' := by
  unfold runDirectBy at hrun
  unfold runSsssBy
  have z1 : (zeroed e).P = e.P := rfl
  have z2 : (zeroed e).Q.nclip = e.Q.nclip := rfl
  have z3 : (zeroed e).size = e.size := rfl
  have z4 : (zeroed e).len = e.len := rfl
  have z5 : (zeroed e).Q.nprim12 = e.Q.nprim12 := rfl
  simp only [z1, z2, z3, hn] at hrun ⊢
  by_cases hsz : e.P.nclip * e.Q.nclip * 1 ≤ e.size final
  · rw [if_pos hsz] at hrun ⊢
    cases ht : (List.range e.P.nclip).foldlM (bodyDirectBy (zeroed e) al)
        (0, 0, fun _ k => if k < e.P.nclip * e.Q.nclip * 1 then 0 else out k) with
    | none => rw [ht] at hrun; simp at hrun
    | some t =>
      rw [ht, Option.map_some] at hrun
      obtain ⟨s', hs', h1, h2, h3, h4⟩ := foldlM_sim (ssssBody e al final) (bodyDirectBy (zeroed e) al)
        (fun _ (s : ℕ × ℕ × (ℕ → F) × (ℕ → F)) (t : ℕ × ℕ × (QAM → ℕ → F)) =>
          t.1 = s.1 ∧ t.2.1 = s.2.1 ∧ ScreenInv e s.2.2.1 ∧ t.2.2 final = s.2.2.2) e.P.nclip
        (by
          rintro ab _ ⟨s1, s2, s3⟩ ⟨t1, t2, t3⟩ t' ⟨h1, h2, h3, h4⟩ hg
          simp only at h1 h2 h3 h4
          subst h1 h2
          unfold bodyDirectBy at hg
          unfold ssssBody
          simp only [z1, z2, z4] at hg ⊢
          cases ht : (List.range (nbatches e.len e.Q.nclip)).foldlM
              (batchDirectBy (zeroed e) al t1 (t1 + e.P.nprim12 ab)) ⟨t2, 0, t3⟩ with
          | none => rw [ht] at hg; simp at hg
          | some d =>
            rw [ht, Option.map_some] at hg
            obtain ⟨s', hs', k1, k2, k3, k4⟩ := foldlM_sim
              (ssssBatch e al final t1 (t1 + e.P.nprim12 ab))
              (batchDirectBy (zeroed e) al t1 (t1 + e.P.nprim12 ab))
              (fun b (s : ℕ × ℕ × (ℕ → F) × (ℕ → F)) (t : DirectSt F) =>
                (t.abcd = s.1 ∧ t.jstart = s.2.1) ∧
                (b * nshellSimd e.len < e.Q.nclip →
                  t.jstart = paddedStart e.len e.Q.nprim12 (b * nshellSimd e.len)) ∧
                ScreenInv e s.2.2.1 ∧ t.mem final = s.2.2.2) (nbatches e.len e.Q.nclip)
              (by
                rintro b hbn ⟨u1, u2, u3⟩ ⟨v1, v2, v3⟩ v' ⟨⟨h1, h2⟩, h3, h4, h5⟩ hg
                have hb := (lt_nbatches hlen).1 hbn
                simp only at h1 h2 h3 h4 h5
                have hj := h3 hb
                subst h1 h2
                unfold batchDirectBy at hg
                unfold ssssBatch
                simp only [z2, z4, z5] at hg ⊢
                rw [hj] at hg ⊢
                cases hbr : braPrimsBy (zeroed e) al v1 (b * nshellSimd e.len)
                    (nshellBatch e.len e.Q.nclip (b * nshellSimd e.len))
                    (paddedStart e.len e.Q.nprim12 (b * nshellSimd e.len))
                    (batchEnd e.Q.nprim12 (b * nshellSimd e.len)
                      (nshellBatch e.len e.Q.nclip (b * nshellSimd e.len))
                      (paddedStart e.len e.Q.nprim12 (b * nshellSimd e.len)))
                    t1 (t1 + e.P.nprim12 ab) v3 with
                | none => rw [hbr] at hg; simp at hg
                | some m =>
                  rw [hbr, Option.map_some] at hg
                  unfold braPrimsBy at hbr
                  obtain ⟨s', hs', k1, k2⟩ := foldlM_sim'
                    (ssssPrim e al final v1 (b * nshellSimd e.len)
                      (nshellBatch e.len e.Q.nclip (b * nshellSimd e.len))
                      (paddedStart e.len e.Q.nprim12 (b * nshellSimd e.len)) (batchStop e b)) _
                    (fun (s : (ℕ → F) × (ℕ → F)) (t : QAM → ℕ → F) =>
                      ScreenInv e s.1 ∧ t final = s.2)
                    (fun i s t t' hR hg => ssssPrim_sim e al final hn htop hlen b hb v1 i s t t' hR.1
                      hR.2 hg) _ u3 v3 m ⟨h4, h5⟩ hbr
                  simp only [Option.some.injEq] at hg
                  subst hg
                  refine ⟨(v1 + nshellBatch e.len e.Q.nclip (b * nshellSimd e.len),
                    simdRound e.len (batchStop e b), s'), ?_, ⟨rfl, rfl⟩, ?_, k1, k2⟩
                  · unfold batchStop at hs' ⊢
                    rw [hs', Option.map_some]
                  · intro hb'
                    exact jstart_next e hlen b hb') _ le_rfl (t2, 0, s3) ⟨t2, 0, t3⟩ d
              ⟨⟨rfl, rfl⟩, fun _ => by simp [paddedStart], h3, h4⟩ ht
            simp only [Option.some.injEq] at hg
            subst hg
            refine ⟨(t1 + e.P.nprim12 ab, s'.1, s'.2.2), by rw [hs', Option.map_some], rfl, k1.1, k3, k4⟩)
        _ le_rfl (0, 0, e.Q.screen, fun k => if k < e.P.nclip * e.Q.nclip * 1 then 0 else out k) _ t
        ⟨rfl, rfl, fun k => Or.inl rfl, rfl⟩ ht
      simp only [Option.some.injEq, Prod.mk.injEq] at hrun
      exact ⟨s'.2.2.1, by rw [hs', Option.map_some, ← h4, hrun.1, hrun.2], h3⟩
  · rw [if_neg hsz] at hrun; simp at hrun

/-- The primitives of the first shells are never behind the end of a batch. -/
theorem real_not_tail (e : DEnv F) (hlen : 0 < e.len) (j : ℕ) (hj : e.KetReal j) : ¬ Tail e j := by
  obtain ⟨s, hs, b, hb, rfl⟩ := hj
  have hN : 0 < nshellSimd e.len := by unfold nshellSimd; omega
  have hdiv : s / nshellSimd e.len * nshellSimd e.len + s % nshellSimd e.len = s :=
    Nat.div_add_mod' s _
  have hr : s % nshellSimd e.len < nshellSimd e.len := Nat.mod_lt _ hN
  have hlt : s / nshellSimd e.len * nshellSimd e.len < e.Q.nclip := by omega
  obtain ⟨n1, n2, n3, n4⟩ := nshellBatch_spec hlen hlt
  have hp := paddedStart_add e.len e.Q.nprim12 (s / nshellSimd e.len) (s % nshellSimd e.len) hr
  rw [hdiv] at hp
  refine not_tail e hlen (s / nshellSimd e.len) hlt _ (by omega) ?_
  unfold batchStop
  rw [batchEnd_eq, hp, Nat.add_assoc]
  apply Nat.add_lt_add_left
  have h1 : tightStart (fun k => e.Q.nprim12 (s / nshellSimd e.len * nshellSimd e.len + k))
      (s % nshellSimd e.len + 1) ≤ tightStart
        (fun k => e.Q.nprim12 (s / nshellSimd e.len * nshellSimd e.len + k))
        (nshellBatch e.len e.Q.nclip (s / nshellSimd e.len * nshellSimd e.len)) :=
    tightStart_mono _ (by omega)
  rw [tightStart_succ, hdiv] at h1
  omega

/-- Elements behind the end of a batch belong to the last vector of one of the first shells. -/
theorem tail_in_last (e : DEnv F) (hlen : 0 < e.len) {k : ℕ} (hk : Tail e k) :
    ∃ s < e.Q.nclip, k < simdRound e.len (paddedStart e.len e.Q.nprim12 s + e.Q.nprim12 s) := by
  obtain ⟨b, hb, -, h2⟩ := hk
  obtain ⟨n1, n2, n3, n4⟩ := nshellBatch_spec hlen hb
  set n := nshellBatch e.len e.Q.nclip (b * nshellSimd e.len) with hn
  refine ⟨b * nshellSimd e.len + (n - 1), by omega, ?_⟩
  rw [paddedStart_add e.len e.Q.nprim12 b (n - 1) (by omega)]
  unfold batchStop at h2
  rw [batchEnd_eq, ← hn] at h2
  obtain ⟨m, hm⟩ : ∃ m, n = m + 1 := ⟨n - 1, by omega⟩
  rw [hm] at h2 ⊢
  rw [tightStart_succ, ← Nat.add_assoc] at h2
  exact h2

/-! ### Calls without screening -/

theorem vecStepBy_noscreen (e : DEnv F) (al : AllSum e.len) (hc : ¬ e.check) (s : ℕ → F) :
    vecStepBy { e with Q := { e.Q with screen := s } } al = vecStepBy e al := by
  funext cd nb jend i st j
  unfold vecStepBy
  simp only
  have h1 : ¬ e.skipVec i j := fun h => hc h.1
  have h2 : ¬ DEnv.skipVec { e with Q := { e.Q with screen := s } } i j := fun h => hc h.1
  rw [if_neg h1, if_neg h2]
  rfl

theorem braPrimsBy_noscreen (e : DEnv F) (al : AllSum e.len) (hc : ¬ e.check) (s : ℕ → F) :
    braPrimsBy { e with Q := { e.Q with screen := s } } al = braPrimsBy e al := by
  funext abcd cd nb jstart jend i1 i2 mem
  have : braPrimBy { e with Q := { e.Q with screen := s } } al = braPrimBy e al := by
    funext abcd cd nb jstart jend mem i
    unfold braPrimBy
    rw [vecStepBy_noscreen e al hc s]
    rfl
  unfold braPrimsBy
  rw [this]

theorem runDirectBy_noscreen (e : DEnv F) (al : AllSum e.len) (hc : ¬ e.check) (s : ℕ → F) (final : QAM) (out : ℕ → F) :
    runDirectBy { e with Q := { e.Q with screen := s } } al final out = runDirectBy e al final out := by
  have h1 : batchDirectBy { e with Q := { e.Q with screen := s } } al = batchDirectBy e al := by
    funext i1 i2 st b
    unfold batchDirectBy
    rw [braPrimsBy_noscreen e al hc s]
  have h2 : bodyDirectBy { e with Q := { e.Q with screen := s } } al = bodyDirectBy e al := by
    funext st ab
    unfold bodyDirectBy
    rw [h1]
  unfold runDirectBy
  rw [h2]

theorem foldlM_keeps {σ τ : Type} (p : σ → τ) (f : σ → ℕ → Option σ) (h : ∀ s v s', f s v = some s' → p s' = p s) :
    ∀ (l : List ℕ) (s s' : σ), l.foldlM f s = some s' → p s' = p s
  | [], s, s', e => by
    simp only [List.foldlM_nil, Option.pure_def, Option.some.injEq] at e
    rw [e]
  | v :: l, s, s', e => by
    rw [List.foldlM_cons, Option.bind_eq_bind, Option.bind_eq_some_iff] at e
    obtain ⟨t, h1, h2⟩ := e
    exact (foldlM_keeps p f h l t s' h2).trans (h s v t h1)

/-- Without screening the hand-written function leaves the screening values alone. -/
theorem runSsssBy_keeps (e : DEnv F) (al : AllSum e.len) (hc : ¬ e.check) (final : QAM) (out : ℕ → F) {n : ℕ} {scr res : ℕ → F}
    (hrun : runSsssBy e al final out = some (n, scr, res)) : scr = e.Q.screen := by
  have hv : ∀ cd nb jstart jend i (s : SSt F) v s', ssssVec e al final cd nb jstart jend i s v = some s' →
      s'.screen = s.screen := by
    intro cd nb jstart jend i s v s' h
    unfold ssssVec at h
    simp only at h
    rw [if_neg hc] at h
    rw [if_neg (fun h' : _ ∧ _ => hc h'.1)] at h
    by_cases h1 : jstart + v * e.len + e.len ≤ e.Q.alloc
    · rw [if_pos h1] at h
      obtain ⟨src, -, h⟩ := Option.bind_eq_some_iff.1 h
      obtain ⟨m, -, h⟩ := Option.map_eq_some_iff.1 h
      rw [← h]
    · rw [if_neg h1] at h
      cases h
  have hp : ∀ abcd cd nb jstart jend (s : (ℕ → F) × (ℕ → F)) i s',
      ssssPrim e al final abcd cd nb jstart jend s i = some s' → s'.1 = s.1 := by
    intro abcd cd nb jstart jend s i s' h
    unfold ssssPrim at h
    split_ifs at h
    · rw [← Option.some.inj h]
    · obtain ⟨t, h1, h2⟩ := Option.map_eq_some_iff.1 h
      rw [← h2]
      exact foldlM_keeps SSt.screen _ (hv _ _ _ _ _) _ _ _ h1
  have hb : ∀ i1 i2 (s : ℕ × ℕ × (ℕ → F) × (ℕ → F)) b s', ssssBatch e al final i1 i2 s b = some s' →
      s'.2.2.1 = s.2.2.1 := by
    intro i1 i2 s b s' h
    unfold ssssBatch at h
    obtain ⟨t, h1, h2⟩ := Option.map_eq_some_iff.1 h
    rw [← h2]
    exact foldlM_keeps Prod.fst _ (hp _ _ _ _ _) _ _ _ h1
  have hB : ∀ (s : ℕ × ℕ × (ℕ → F) × (ℕ → F)) ab s', ssssBody e al final s ab = some s' → s'.2.2.1 = s.2.2.1 := by
    intro s ab s' h
    unfold ssssBody at h
    obtain ⟨t, h1, h2⟩ := Option.map_eq_some_iff.1 h
    rw [← h2]
    have := foldlM_keeps (fun s : ℕ × ℕ × (ℕ → F) × (ℕ → F) => s.2.2.1) _ (hb _ _) _ _ _ h1
    exact this
  unfold runSsssBy at hrun
  simp only at hrun
  split_ifs at hrun
  obtain ⟨t, h1, h2⟩ := Option.map_eq_some_iff.1 hrun
  rw [← (Prod.mk.inj (Prod.mk.inj h2).2).1]
  exact foldlM_keeps (fun s : ℕ × ℕ × (ℕ → F) × (ℕ → F) => s.2.2.1) _ hB _ _ _ h1

/-- If the elements behind the batches have screening value zero, or nothing is screened, the hand-written function
gives the output of the generated loops and leaves its lists unchanged. -/
theorem runSsssBy_same (e : DEnv F) (al : AllSum e.len) (final : QAM) (hn : ncartQ final = 1) (htop : e.tops = [final]) (hlen : 0 < e.len)
    (hz : e.check → ∀ k, Tail e k → e.Q.screen k = 0) (out : ℕ → F) (c : ℕ) (res : ℕ → F)
    (hrun : runDirectBy e al final out = some (c, res)) : runSsssBy e al final out = some (c, e.Q.screen, res) := by
  classical
  by_cases hc : e.check
  · have hsw : ∀ f : ℕ → F, f = e.Q.screen →
        runDirectBy ({ e with Q := { e.Q with screen := f } } : DEnv F) al final out
          = runDirectBy e al final out := by
      rintro f rfl
      rfl
    have hz' : runDirectBy (zeroed e) al final out = some (c, res) := by
      refine (hsw _ ?_).trans hrun
      funext k
      split_ifs with h
      · exact (hz hc k h).symm
      · rfl
    obtain ⟨s, h1, h2⟩ := runSsssBy_sim e al final hn htop hlen out c res hz'
    have : s = e.Q.screen := funext fun k => (h2 k).elim id fun h => h.2.trans (hz hc k h.1).symm
    rw [h1, this]
  · obtain ⟨s, h1, h2⟩ := runSsssBy_sim e al final hn htop hlen out c res
      ((runDirectBy_noscreen e al hc _ final out).trans hrun)
    rw [h1, runSsssBy_keeps e al hc final out h1]

/-- `runSsssBy_sim` for builds whose `contract_all` is the loop over lanes. -/
theorem runSsss_sim (e : DEnv F) (final : QAM) (hn : ncartQ final = 1) (htop : e.tops = [final])
    (hlen : 0 < e.len) (out : ℕ → F) (c : ℕ) (res : ℕ → F)
    (hrun : runDirect (zeroed e) final out = some (c, res)) :
    ∃ s', runSsss e final out = some (c, s', res) ∧ ScreenInv e s' :=
  runSsssBy_sim e (.lanes e.len) final hn htop hlen out c res
    ((congrFun (congrFun (runDirectBy_lanes (zeroed e)) final) out).trans hrun)

/-- Equal environments give equal runs. -/
theorem runDirectBy_congr {e e' : DEnv F} (h : e = e') (all : (len : ℕ) → AllSum len) (final : QAM)
    (out : ℕ → F) : runDirectBy e (all e.len) final out = runDirectBy e' (all e'.len) final out := by
  subst h
  rfl

end

/-! ## Delayed sums -/

section
variable {F : Type} [CommRing F]

/-- Contribution of one request to element `k`. -/
def AccOp.part (len : ℕ) (k : ℕ) : AccOp F → F
  | .all idx v => if k = idx then ((List.range len).map v).sum else 0
  | .some off ptr v => ((List.range len).map fun n => if ptr + off n = k then v n else 0).sum

theorem now_eq (len : ℕ) (b : ℕ → F) (op : AccOp F) (k : ℕ) :
    AccOp.now len b op k = b k + op.part len k := by cases op <;> rfl

theorem foldl_now (len : ℕ) (ops : List (AccOp F)) : ∀ (b : ℕ → F) (k : ℕ),
    ops.foldl (AccOp.now len) b k = b k + (ops.map (AccOp.part len k)).sum := by
  induction ops with
  | nil => intro b k; simp
  | cons o r ih => intro b k; rw [List.foldl_cons, ih, now_eq]; simp [add_assoc]

/-- What the buffer still owes element `k`. -/
def owed (len k : ℕ) (buf : List (ℕ × (ℕ → F))) : F :=
  (buf.map fun e => if k = e.1 then ((List.range len).map e.2).sum else 0).sum

theorem flush_eq (len : ℕ) (buf : List (ℕ × (ℕ → F))) : ∀ (b : ℕ → F) (k : ℕ),
    flush len buf b k = b k + owed len k buf := by
  unfold flush owed
  induction buf with
  | nil => intro b k; simp
  | cons e r ih =>
    intro b k
    rw [List.foldl_cons, ih]
    simp [add_assoc]

theorem owed_reverse (len k : ℕ) (buf : List (ℕ × (ℕ → F))) :
    owed len k buf.reverse = owed len k buf := by
  unfold owed; rw [List.map_reverse, List.sum_reverse]

theorem later_eq (len : ℕ) (st : List (ℕ × (ℕ → F)) × (ℕ → F)) (op : AccOp F) (k : ℕ) :
    (op.later len st).2 k + owed len k (op.later len st).1
      = st.2 k + owed len k st.1 + op.part len k := by
  obtain ⟨buf, b⟩ := st
  cases op with
  | some off ptr v => simp only [AccOp.later, now_eq, AccOp.part]; ring
  | all idx v =>
    unfold AccOp.later AccOp.part
    cases buf with
    | nil => simp [owed]
    | cons e r =>
      obtain ⟨i, w⟩ := e
      simp only
      split
      · rename_i h
        subst h
        simp only [owed, List.map_cons, List.sum_cons]
        split
        · rw [show (fun n => w n + v n) = fun n => w n + v n from rfl, List.sum_map_add]; ring
        · ring
      · split
        · simp only [flush_eq, owed_reverse]
          simp only [owed, List.map_cons, List.sum_cons, List.map_nil, List.sum_nil]
          ring
        · simp only [owed, List.map_cons, List.sum_cons]
          ring

theorem later_length (len : ℕ) (st : List (ℕ × (ℕ → F)) × (ℕ → F)) (op : AccOp F)
    (h : st.1.length < 8) : (op.later len st).1.length < 8 := by
  obtain ⟨buf, b⟩ := st
  cases op with
  | some off ptr v => exact h
  | all idx v =>
    unfold AccOp.later
    cases buf with
    | nil => simp
    | cons e r =>
      obtain ⟨i, w⟩ := e
      simp only [List.length_cons] at h ⊢
      split
      · simpa using h
      · split
        · simp
        · simp only [List.length_cons]; omega

end

end Simint
