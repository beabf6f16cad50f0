import Verif.SsssDelayed
import Verif.SsssLemmas
import Verif.HsumLemmas

/-! Lemmas for the (ss|ss) function of AVX512 builds: its loops follow the loops with traces. -/

set_option autoImplicit false

namespace Simint

open Finset
open FlBoys (Arith)

section
variable {F : Arith}

/-- Buffer and output on doubles amount to the output with traces. -/
def RelAcc (size : ℕ) (acc : List (ℕ × (ℕ → Fd F)) × (ℕ → Fd F)) (mem : ℕ → Tr F) : Prop :=
  ∃ m J, BufOK size acc m J ∧ ∀ k, (mem k).set = owedAt m J k

theorem tr_sum_set (s : Finset ℕ) (f : ℕ → Tr F) : (∑ n ∈ s, f n).set = ∑ n ∈ s, (f n).set :=
  map_sum (Tr.setHom (F := F)) f s

theorem accStep_rel (al : AllSum 8) (len : ℕ) (h8 : len = 8) (size last : ℕ) (off : ℕ → ℕ) (ptr : ℕ)
    (src' : ℕ → Fd F) (src : ℕ → ℕ → Tr F) (h : ∀ n < len, SumOf F (src' n).val (src 0 n).set)
    (acc : List (ℕ × (ℕ → Fd F)) × (ℕ → Fd F)) (mem mem2 : ℕ → Tr F) (hR : RelAcc size acc mem)
    (hrun : (if last = 0 then contractAllBy (.lanes len) size 1 src ptr mem
      else contract size len 1 off src ptr mem) = some mem2) :
    ∃ acc2, AccReq.step al size acc (if last = 0 then .all ptr src' else .some off ptr src') = some acc2 ∧
      RelAcc size acc2 mem2 := by
  subst h8
  obtain ⟨m, J, hB, hm⟩ := hR
  obtain ⟨w, hw⟩ : ∃ w : ℕ → Multiset ℝ, w = fun n => if n < 8 then (src 0 n).set else {(src' n).val} := ⟨_, rfl⟩
  have hv : ∀ n, SumOf F (src' n).val (w n) := by
    intro n
    rw [hw]
    simp only
    split_ifs with hn
    · exact h n hn
    · exact .one _
  have hws : ∀ n ∈ range 8, w n = (src 0 n).set := by
    intro n hn
    rw [hw]
    exact if_pos (mem_range.1 hn)
  by_cases hl : last = 0
  · rw [if_pos hl] at hrun ⊢
    have hp : ptr < size := by
      have := addList_some size _ _ _ hrun (ptr + 0, src 0 0) (by
        simp only [AllSum.adds, List.mem_map, List.mem_flatMap, List.mem_range]
        exact ⟨(0, src 0 0), ⟨0, by norm_num, 0, by norm_num, rfl⟩, rfl⟩)
      simpa using this
    rw [contractAllBy_eq _ _ _ _ _ _ (by omega), Option.some.injEq] at hrun
    obtain ⟨st', m', J', e1, e2, e3⟩ := step_sumsW al size acc m J hB (.all ptr src') hp w hv
    refine ⟨st', e1, m', J', e2, fun k => ?_⟩
    rw [e3, ← hrun, ← hm]
    simp only [Tr.add_set, AccReq.termsW]
    congr 1
    by_cases hk : ptr = k
    · subst hk
      rw [if_pos ⟨le_rfl, by omega⟩, if_pos rfl, tr_sum_set, Nat.sub_self]
      exact (sum_congr rfl hws).symm
    · rw [if_neg (by omega), if_neg hk]
      rfl
  · rw [if_neg hl] at hrun ⊢
    have hp : ∀ n < 8, ptr + off n < size := by
      intro n hn
      have := addList_some size _ _ _ hrun (ptr + off n * 1 + 0, src 0 n) (by
        simp only [List.mem_map, List.mem_flatMap, List.mem_range]
        exact ⟨n, hn, 0, by norm_num, rfl⟩)
      simpa using this
    rw [contract_eq _ _ _ _ _ _ _ (by intro n hn; have := hp n hn; omega), Option.some.injEq] at hrun
    obtain ⟨st', m', J', e1, e2, e3⟩ := step_sumsW al size acc m J hB (.some off ptr src') hp w hv
    refine ⟨st', e1, m', J', e2, fun k => ?_⟩
    rw [e3, ← hrun, ← hm]
    simp only [Tr.add_set, AccReq.termsW, tr_sum_set]
    congr 1
    refine sum_congr rfl fun n hn => ?_
    rw [range_one, sum_singleton, hws n hn, Nat.mul_one, Nat.add_zero]
    split_ifs <;> rfl

/-- States of the loop over ket vectors. -/
structure RelS (size : ℕ) (s' : SStD (Fd F)) (s : SSt (Tr F)) : Prop where
  screen : ∀ k, s.screen k = Tr.of (s'.screen k).val
  ptr : s'.ptr = s.ptr
  acc : RelAcc size s'.acc s.mem

theorem zeroTail_of (len j jend : ℕ) (s' : ℕ → Fd F) (s : ℕ → Tr F) (h : ∀ k, s k = Tr.of (s' k).val) (k : ℕ) :
    zeroTail len j jend s k = Tr.of (zeroTail len j jend s' k).val := by
  unfold zeroTail
  split_ifs
  · simp only
    split_ifs
    · rfl
    · exact h k
  · exact h k

variable {e : DEnv (Fd F)} {prim : ℕ → ℕ → Fd F → QAM → ℕ → Fd F} (h8 : e.len = 8) (al : AllSum 8)
include h8

theorem ssssVecD_rel (hprim : LaneWise e prim) {final : QAM} (hn : ncartQ final = 1) (htop : e.tops = [final])
    (cd nb jstart jend i v : ℕ) (hi : i < e.P.alloc) (hd : e.len ∣ jstart) :
    ∀ s' s t, RelS (e.size final) s' s →
      ssssVec (trEnv e) (.lanes e.len) final cd nb jstart jend i s v = some t →
      ∃ t', ssssVecD e al final cd nb jstart jend i s' v = some t' ∧ RelS (e.size final) t' t := by
  rintro ⟨c1, p1, a1⟩ ⟨c2, p2, m2⟩ t ⟨h1, h2, h3⟩ ht
  simp only at h1 h2 h3
  subst h2
  unfold ssssVec at ht
  unfold ssssVecD
  simp only at ht ⊢
  have hd' : e.len ∣ jstart + v * e.len := hd.add (Dvd.intro_left v rfl)
  by_cases hj : jstart + v * e.len + e.len ≤ e.Q.alloc
  · rw [if_pos hj]
    rw [if_pos (show jstart + v * (trEnv e).len + (trEnv e).len ≤ (trEnv e).Q.alloc from hj)] at ht
    obtain ⟨z', hz'⟩ : ∃ z', z' = if e.check then zeroTail e.len (jstart + v * e.len) jend c1 else c1 := ⟨_, rfl⟩
    obtain ⟨z, hz⟩ : ∃ z, z = if (trEnv e).check then
      zeroTail (trEnv e).len (jstart + v * (trEnv e).len) jend c2 else c2 := ⟨_, rfl⟩
    have hzz : ∀ k, z k = Tr.of (z' k).val := by
      intro k
      rw [hz, hz']
      by_cases hc : e.check
      · rw [if_pos hc, if_pos ((tr_check e).2 hc)]
        exact zeroTail_of _ _ _ _ _ h1 k
      · rw [if_neg hc, if_neg fun h => hc ((tr_check e).1 h)]
        exact h1 k
    rw [← hz] at ht
    rw [← hz']
    have hsk : ((trEnv e).check ∧ vectorMax (trEnv e).len (fun n => (trEnv e).P.screen i *
          z (jstart + v * (trEnv e).len + n)) < (trEnv e).tol) ↔
        (e.check ∧ vectorMax e.len (fun n => e.P.screen i * z' (jstart + v * e.len + n)) < e.tol) := by
      rw [tr_check]
      refine and_congr Iff.rfl ?_
      have h := vectorMax_of e.len (fun n => e.P.screen i * z' (jstart + v * e.len + n))
      simp only [hzz]
      show vectorMax e.len (fun n => (Tr.of (e.P.screen i * z' (jstart + v * e.len + n)).val : Tr F)) <
        Tr.of e.tol.val ↔ _
      rw [h]
      exact Tr.of_lt
    by_cases hs : e.check ∧ vectorMax e.len (fun n => e.P.screen i * z' (jstart + v * e.len + n)) < e.tol
    · rw [if_pos hs]
      rw [if_pos (hsk.2 hs)] at ht
      obtain rfl := Option.some.inj ht
      exact ⟨_, rfl, hzz, rfl, h3⟩
    · rw [if_neg hs]
      rw [if_neg fun h => hs (hsk.1 h)] at ht
      obtain ⟨src, e1, e2⟩ := Option.bind_eq_some_iff.1 ht
      obtain ⟨mem, e3, rfl⟩ := Option.map_eq_some_iff.1 e2
      obtain ⟨nl, hnl⟩ : ∃ nl, nl = if jstart + v * e.len + e.len < jend then e.len
        else jend - (jstart + v * e.len) := ⟨_, rfl⟩
      obtain ⟨src', e4, e5⟩ := hprim.lane i (jstart + v * e.len)
        (maskLoad nl e.Q.prefac (jstart + v * e.len)) hi hd' hj
      have hpf : (fun n => (⟨(maskLoad nl (trEnv e).Q.prefac (jstart + v * e.len) n).num⟩ : Fd F))
          = maskLoad nl e.Q.prefac (jstart + v * e.len) := by
        funext n
        unfold maskLoad
        split_ifs <;> rfl
      have e1 : (e.vec i (jstart + v * e.len) fun n => (⟨(maskLoad (if jstart + v * e.len + e.len < jend then e.len
        else jend - (jstart + v * e.len)) (trEnv e).Q.prefac (jstart + v * e.len) n).num⟩ : Fd F)).map _
          = some src := e1
      rw [← hnl, hpf, e4, Option.map_some] at e1
      obtain rfl := Option.some.inj e1
      rw [← hnl, e4, Option.bind_some]
      obtain ⟨acc2, g1, g2⟩ := accStep_rel al e.len h8 (e.size final)
        (offsetInfo e.len e.Q.nprim12 cd nb v).last
        (fun n => (offsetInfo e.len e.Q.nprim12 cd nb v).offs.getD n 0)
        (if (offsetInfo e.len e.Q.nprim12 cd nb v).adv then p1 + 1 else p1) (fun n => src' n final 0) _ (by
        intro n hn'
        by_cases hz : (maskLoad nl (trEnv e).Q.prefac (jstart + v * e.len) n).num = 0
        · have h0 : src' n final 0 = 0 := by
            rw [e5 n hn' final (by rw [htop]; simp) 0 (by omega)]
            have : maskLoad nl e.Q.prefac (jstart + v * e.len) n = 0 := by
              rw [← hpf]
              exact Fd.val_injective hz
            rw [this, hprim.zero]
          rw [h0]
          simp only
          rw [if_pos (by rw [hnl] at hz; exact hz)]
          exact .zero
        · simp only
          rw [if_neg (by rw [hnl] at hz; exact hz)]
          exact .one _) a1 m2 mem h3 e3
      exact ⟨_, Option.map_eq_some_iff.2 ⟨acc2, g1, rfl⟩, hzz, rfl, g2⟩
  · rw [if_neg (show ¬ jstart + v * (trEnv e).len + (trEnv e).len ≤ (trEnv e).Q.alloc from hj)] at ht
    exact absurd ht (by simp)

/-- States of the outer loops. -/
def RelP (size : ℕ) (s' : (ℕ → Fd F) × List (ℕ × (ℕ → Fd F)) × (ℕ → Fd F)) (s : (ℕ → Tr F) × (ℕ → Tr F)) : Prop :=
  (∀ k, s.1 k = Tr.of (s'.1 k).val) ∧ RelAcc size s'.2 s.2

theorem ssssPrimD_rel (hprim : LaneWise e prim) {final : QAM} (hn : ncartQ final = 1) (htop : e.tops = [final])
    (abcd cd nb jstart jend i : ℕ) (hd : e.len ∣ jstart) :
    ∀ s' s t, RelP (e.size final) s' s →
      ssssPrim (trEnv e) (.lanes e.len) final abcd cd nb jstart jend s i = some t →
      ∃ t', ssssPrimD e al final abcd cd nb jstart jend s' i = some t' ∧ RelP (e.size final) t' t := by
  intro s' s t hs ht
  unfold ssssPrim at ht
  unfold ssssPrimD
  by_cases hi : i < e.P.alloc
  · rw [if_pos hi]
    rw [if_pos (show i < (trEnv e).P.alloc from hi)] at ht
    by_cases hk : e.skipBra i
    · rw [if_pos hk]
      rw [if_pos ((tr_skipBra e i).2 hk)] at ht
      obtain rfl := Option.some.inj ht
      exact ⟨_, rfl, hs⟩
    · rw [if_neg hk]
      rw [if_neg fun h => hk ((tr_skipBra e i).1 h)] at ht
      obtain ⟨u, e1, rfl⟩ := Option.map_eq_some_iff.1 ht
      obtain ⟨u', e2, e3⟩ := foldlM_rel (RelS (e.size final)) (ssssVecD e al final cd nb jstart jend i) _ _
        (fun v _ => ssssVecD_rel h8 al hprim hn htop cd nb jstart jend i v hi hd) ⟨s'.1, abcd, s'.2⟩ _ _
        ⟨hs.1, rfl, hs.2⟩ e1
      exact ⟨_, Option.map_eq_some_iff.2 ⟨u', e2, rfl⟩, e3.screen, e3.acc⟩
  · rw [if_neg (show ¬ i < (trEnv e).P.alloc from hi)] at ht
    exact absurd ht (by simp)

theorem ssssBatchD_rel (hprim : LaneWise e prim) {final : QAM} (hn : ncartQ final = 1) (htop : e.tops = [final])
    (istart iend b : ℕ) :
    ∀ s' s t, (s'.1 = s.1 ∧ s'.2.1 = s.2.1 ∧ e.len ∣ s.2.1 ∧ RelP (e.size final) s'.2.2 s.2.2) →
      ssssBatch (trEnv e) (.lanes e.len) final istart iend s b = some t →
      ∃ t', ssssBatchD e al final istart iend s' b = some t' ∧
        (t'.1 = t.1 ∧ t'.2.1 = t.2.1 ∧ e.len ∣ t.2.1 ∧ RelP (e.size final) t'.2.2 t.2.2) := by
  rintro ⟨a, j, s'⟩ ⟨a2, j2, s⟩ t ⟨h1, h2, hd, hs⟩ ht
  simp only at h1 h2 hd hs
  subst h1 h2
  unfold ssssBatch at ht
  unfold ssssBatchD
  simp only at ht ⊢
  obtain ⟨u, e1, rfl⟩ := Option.map_eq_some_iff.1 ht
  obtain ⟨u', e2, e3⟩ := foldlM_rel (RelP (e.size final)) (ssssPrimD e al final a (b * nshellSimd e.len)
    (nshellBatch e.len e.Q.nclip (b * nshellSimd e.len)) j (batchEnd e.Q.nprim12 (b * nshellSimd e.len)
      (nshellBatch e.len e.Q.nclip (b * nshellSimd e.len)) j)) _ _
    (fun i _ => ssssPrimD_rel h8 al hprim hn htop _ _ _ _ _ i hd) s' _ _ hs e1
  exact ⟨_, Option.map_eq_some_iff.2 ⟨u', e2, rfl⟩, rfl, rfl, simdRound_dvd _ _, e3⟩

/-- The function of AVX512 builds follows the function with traces. -/
theorem runSsssDelayed_rel (hprim : LaneWise e prim) {final : QAM} (hn : ncartQ final = 1) (htop : e.tops = [final])
    (h : HSum 8) (out' : ℕ → Fd F) (out : ℕ → Tr F) (ho : ∀ k, SumOf F (out' k).val (out k).set) (n : ℕ)
    (scr res : ℕ → Tr F) (hrun : runSsss (trEnv e) final out = some (n, scr, res)) :
    ∃ scr' res', runSsssDelayed e al h final out' = some (n, scr', res') ∧ (∀ k, scr k = Tr.of (scr' k).val) ∧
      ∀ k, SumOf F (res' k).val (res k).set := by
  unfold runSsss runSsssBy at hrun
  unfold runSsssDelayed
  simp only at hrun ⊢
  by_cases hs : e.P.nclip * e.Q.nclip * 1 ≤ e.size final
  · rw [if_pos hs]
    rw [if_pos (show (trEnv e).P.nclip * (trEnv e).Q.nclip * 1 ≤ (trEnv e).size final from hs)] at hrun
    obtain ⟨st, e1, e2⟩ := Option.map_eq_some_iff.1 hrun
    obtain ⟨rfl, e2'⟩ := Prod.mk.inj e2
    obtain ⟨rfl, rfl⟩ := Prod.mk.inj e2'
    obtain ⟨st', e3, e4⟩ := foldlM_rel
      (fun (s' : ℕ × ℕ × (ℕ → Fd F) × List (ℕ × (ℕ → Fd F)) × (ℕ → Fd F))
        (s : ℕ × ℕ × (ℕ → Tr F) × (ℕ → Tr F)) =>
        s'.1 = s.1 ∧ s'.2.1 = s.2.1 ∧ RelP (e.size final) s'.2.2 s.2.2) (ssssBodyD e al final) _ _
      (by
        rintro ab _ ⟨i', a', m'⟩ ⟨i, a, m⟩ t ⟨h1, h2, hm⟩ ht
        simp only at h1 h2 hm
        subst h1 h2
        unfold ssssBody at ht
        unfold ssssBodyD
        simp only at ht ⊢
        obtain ⟨q, g1, rfl⟩ := Option.map_eq_some_iff.1 ht
        obtain ⟨q', g2, g3⟩ := foldlM_rel _ (ssssBatchD e al final i' (i' + e.P.nprim12 ab)) _ _
          (fun b _ => ssssBatchD_rel h8 al hprim hn htop _ _ b) (a', 0, m') _ _ ⟨rfl, rfl, dvd_zero _, hm⟩ g1
        exact ⟨_, Option.map_eq_some_iff.2 ⟨q', g2, rfl⟩, rfl, g3.1, g3.2.2.2⟩)
      (0, 0, e.Q.screen, [], fun k => if k < e.P.nclip * e.Q.nclip * 1 then 0 else out' k) _ _
      ⟨rfl, rfl, fun k => rfl, fun k => (if k < e.P.nclip * e.Q.nclip * 1 then (0 : Tr F) else out k).set, [],
        ⟨rfl, by simp, by simp, fun k => by
          simp only
          split_ifs
          · exact .zero
          · exact ho k⟩, fun k => by simp [owedAt]; rfl⟩ e1
    obtain ⟨-, -, hscr, m', J, hB, hm⟩ := e4
    obtain ⟨r, g1, g2⟩ := addList_sums (e.size final)
      (J.map fun x => (x.1, h.tree.eval x.2.1, ∑ n ∈ range 8, x.2.2 n)) st'.2.2.2.2 m' (by
        intro x hx
        obtain ⟨y, hy, rfl⟩ := List.mem_map.1 hx
        refine ⟨(hB.entry y hy).1, ?_⟩
        have h1 := h.eval_rel y.2.1 (fun n => (⟨0, y.2.2 n⟩ : Tr F)) fun n _ => (hB.entry y hy).2 n
        rw [HSum.eval_eq, tr_sum_set] at h1
        exact h1) hB.out
    refine ⟨st'.2.2.1, r, ?_, hscr, fun k => ?_⟩
    · rw [show (List.range e.P.nclip).foldlM (ssssBodyD e al final) _ = some st' from e3, Option.bind_some, hB.buf,
        List.map_map]
      rw [List.map_map] at g1
      exact Option.map_eq_some_iff.2 ⟨r, g1, rfl⟩
    · have h1 := g2 k
      rw [List.map_map] at h1
      rw [hm k]
      exact h1
  · rw [if_neg (show ¬ (trEnv e).P.nclip * (trEnv e).Q.nclip * 1 ≤ (trEnv e).size final from hs)] at hrun
    exact absurd hrun (by simp)

end

end Simint
