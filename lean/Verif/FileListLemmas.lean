import Verif.Spec.FileList
import Verif.ExactLemmas

/-! Lemmas about the names of generated files and about which functions call which helpers. -/

set_option autoImplicit false

namespace Simint

/-! ## Names -/

theorem amchar_inj {i j : ℤ} {c : Char} (hi : 0 ≤ i) (hj : 0 ≤ j) (h1 : amchar[i.toNat]? = some c)
    (h2 : amchar[j.toNat]? = some c) : i = j := by
  obtain ⟨k1, e1⟩ := List.getElem?_eq_some_iff.1 h1
  obtain ⟨k2, e2⟩ := List.getElem?_eq_some_iff.1 h2
  have := (List.Nodup.getElem_inj_iff amchar_nodup).1 (e1.trans e2.symm)
  omega

/-- The four letters of a class. -/
def Chars4 (q : QAM) (c1 c2 c3 c4 : Char) : Prop :=
  amchar[q.a.toNat]? = some c1 ∧ amchar[q.b.toNat]? = some c2 ∧ amchar[q.c.toNat]? = some c3 ∧
    amchar[q.d.toNat]? = some c4

theorem Chars4.inj {q q' : QAM} {c1 c2 c3 c4 : Char} (h : Chars4 q c1 c2 c3 c4) (h' : Chars4 q' c1 c2 c3 c4)
    (hv : q.Valid) (hv' : q'.Valid) (ht : q.tag = q'.tag) : q = q' := by
  obtain ⟨a1, a2, a3, a4⟩ := h
  obtain ⟨b1, b2, b3, b4⟩ := h'
  obtain ⟨v1, v2, v3, v4⟩ := hv
  obtain ⟨w1, w2, w3, w4⟩ := hv'
  refine QAM.ext_get (fun t => ?_) ht
  cases t
  · exact amchar_inj v1 w1 a1 b1
  · exact amchar_inj v2 w2 a2 b2
  · exact amchar_inj v3 w3 a3 b3
  · exact amchar_inj v4 w4 a4 b4

theorem amStr4_chars {q : QAM} (hv : q.Valid) (h : q.a < 60 ∧ q.b < 60 ∧ q.c < 60 ∧ q.d < 60) :
    ∃ c1 c2 c3 c4 s, Chars4 q c1 c2 c3 c4 ∧ amStr4 q = some s ∧ s.toList = [c1, '_', c2, '_', c3, '_', c4] := by
  obtain ⟨v1, v2, v3, v4⟩ := hv
  obtain ⟨h1, h2, h3, h4⟩ := h
  obtain ⟨c1, f1, e1⟩ := amcharAt_some v1 h1
  obtain ⟨c2, f2, e2⟩ := amcharAt_some v2 h2
  obtain ⟨c3, f3, e3⟩ := amcharAt_some v3 h3
  obtain ⟨c4, f4, e4⟩ := amcharAt_some v4 h4
  refine ⟨c1, c2, c3, c4, String.singleton c1 ++ "_" ++ String.singleton c2 ++ "_" ++ String.singleton c3 ++ "_" ++
    String.singleton c4, ⟨f1, f2, f3, f4⟩, by rw [amStr4, e1, e2, e3, e4]; rfl, ?_⟩
  simp

/-- Letters of the file of a function. -/
theorem fnName_chars {d : ℕ} {q : QAM} (hv : q.Valid) (h : q.a < 60 ∧ q.b < 60 ∧ q.c < 60 ∧ q.d < 60)
    {base : String} (e : fnBase d q = some base) : ∃ c1 c2 c3 c4, Chars4 q c1 c2 c3 c4 ∧
      (base ++ ".c").toList = (if d = 0 then "ostei_".toList else "ostei_deriv1_".toList) ++
        [c1, '_', c2, '_', c3, '_', c4] ++ ['.', 'c'] := by
  obtain ⟨c1, c2, c3, c4, s, hc, es, et⟩ := amStr4_chars hv h
  rw [fnBase, es, Option.map_some, Option.some.injEq] at e
  subst e
  refine ⟨c1, c2, c3, c4, hc, ?_⟩
  rw [String.toList_append, String.toList_append, et]
  split <;> rfl

/-- Letters of the file of a helper. -/
theorem vrrName_chars {t : RRType} {am : QAM} {N : ℤ} (h : (Routine.vrr t am).Good N) (hN : N < 60) :
    ∃ c1 c2 c3 c4, Chars4 am c1 c2 c3 c4 ∧ (Routine.vrr t am).file.toList = "vrr_".toList ++ t.letter.toList ++
        ['_', c1, '_', c2, '_', c3, '_', c4, '.', 'c'] := by
  obtain ⟨hv, -, -, -, h1, h2, h3, h4⟩ := h
  obtain ⟨c1, c2, c3, c4, s, hc, es, et⟩ := amStr4_chars hv (by omega)
  refine ⟨c1, c2, c3, c4, hc, ?_⟩
  simp [Routine.file, Routine.base, vrrBase, es, et]

theorem hrrName_chars {t : RRType} {p : ℤ × ℤ} {N : ℤ} (h : (Routine.hrr t p).Good N) (hN : N < 60) :
    ∃ c1 c2, amchar[p.1.toNat]? = some c1 ∧ amchar[p.2.toNat]? = some c2 ∧
      (Routine.hrr t p).file.toList = "hrr_".toList ++ t.letter.toList ++ ['_', c1, '_', c2, '.', 'c'] := by
  obtain ⟨v1, v2, -, h1, h2⟩ := h
  obtain ⟨c1, f1, e1⟩ := amcharAt_some v1 (by omega)
  obtain ⟨c2, f2, e2⟩ := amcharAt_some v2 (by omega)
  refine ⟨c1, c2, f1, f2, ?_⟩
  simp [Routine.file, Routine.base, hrrBase, e1, e2]

theorem letter_char (t : RRType) : ∃ c, t.letter.toList = [c] ∧ c = (match t with
    | .I => 'I' | .J => 'J' | .K => 'K' | .L => 'L') := by
  cases t <;> exact ⟨_, rfl, rfl⟩

theorem letter_inj {t u : RRType} (h : t.letter.toList = u.letter.toList) : t = u := by
  cases t <;> cases u <;> first | rfl | (exfalso; revert h; decide)

/-- Different helpers have different files. -/
theorem Routine.file_inj {r r' : Routine} {N : ℤ} (h : r.Good N) (h' : r'.Good N) (hN : N < 60)
    (e : r.file = r'.file) : r = r' := by
  have el := congrArg String.toList e
  cases r with
  | vrr t am =>
    obtain ⟨c1, c2, c3, c4, hc, e1⟩ := vrrName_chars h hN
    obtain ⟨x, ex, -⟩ := letter_char t
    cases r' with
    | vrr t' am' =>
      obtain ⟨d1, d2, d3, d4, hd, e2⟩ := vrrName_chars h' hN
      obtain ⟨y, ey, -⟩ := letter_char t'
      rw [e1, e2, ex, ey] at el
      simp at el
      obtain ⟨rfl, rfl, rfl, rfl, rfl⟩ := el
      rw [letter_inj (ex.trans ey.symm), hc.inj hd h.1 h'.1 (h.2.1.trans h'.2.1.symm)]
    | hrr t' p' =>
      obtain ⟨d1, d2, -, -, e2⟩ := hrrName_chars h' hN
      rw [e1, e2] at el
      exact absurd (congrArg List.head? el) (by simp)
  | hrr t p =>
    obtain ⟨c1, c2, hc1, hc2, e1⟩ := hrrName_chars h hN
    obtain ⟨x, ex, -⟩ := letter_char t
    cases r' with
    | vrr t' am' =>
      obtain ⟨d1, d2, d3, d4, hd, e2⟩ := vrrName_chars h' hN
      rw [e1, e2] at el
      exact absurd (congrArg List.head? el) (by simp)
    | hrr t' p' =>
      obtain ⟨d1, d2, hd1, hd2, e2⟩ := hrrName_chars h' hN
      obtain ⟨y, ey, -⟩ := letter_char t'
      rw [e1, e2, ex, ey] at el
      simp at el
      obtain ⟨rfl, rfl, rfl⟩ := el
      rw [letter_inj (ex.trans ey.symm), Prod.ext (amchar_inj h.1 h'.1 hc1 hd1) (amchar_inj h.2.1 h'.2.1 hc2 hd2)]

/-- A function and a helper have different files. -/
theorem fn_ne_file {d : ℕ} {q : QAM} (hv : q.Valid) (h : q.a < 60 ∧ q.b < 60 ∧ q.c < 60 ∧ q.d < 60)
    {base : String} (e : fnBase d q = some base) {r : Routine} {N : ℤ} (hr : r.Good N) (hN : N < 60) :
    base ++ ".c" ≠ r.file := by
  intro e2
  obtain ⟨c1, c2, c3, c4, -, e1⟩ := fnName_chars hv h e
  have el := congrArg String.toList e2
  rw [e1] at el
  cases r with
  | vrr t am =>
    obtain ⟨_, _, _, _, -, e3⟩ := vrrName_chars hr hN
    rw [e3] at el
    split at el <;> simp at el
  | hrr t p =>
    obtain ⟨_, _, -, -, e3⟩ := hrrName_chars hr hN
    rw [e3] at el
    split at el <;> simp at el

/-- Different functions have different files. -/
theorem fn_inj {d d' : ℕ} {q q' : QAM} (hd : d ≤ 1) (hd' : d' ≤ 1) (hv : q.Valid) (hv' : q'.Valid)
    (h : q.a < 60 ∧ q.b < 60 ∧ q.c < 60 ∧ q.d < 60) (h' : q'.a < 60 ∧ q'.b < 60 ∧ q'.c < 60 ∧ q'.d < 60)
    (ht : q.tag = q'.tag) {base : String} (e : fnBase d q = some base) {base' : String}
    (e' : fnBase d' q' = some base') (eb : base ++ ".c" = base' ++ ".c") : d = d' ∧ q = q' := by
  obtain ⟨c1, c2, c3, c4, hc, e1⟩ := fnName_chars hv h e
  obtain ⟨d1, d2, d3, d4, hdd, e2⟩ := fnName_chars hv' h' e'
  have el := congrArg String.toList eb
  rw [e1, e2] at el
  have c0 : d = 0 ∨ d = 1 := by omega
  have c0' : d' = 0 ∨ d' = 1 := by omega
  rcases c0 with rfl | rfl <;> rcases c0' with rfl | rfl <;> simp at el
  · obtain ⟨rfl, rfl, rfl, rfl⟩ := el
    exact ⟨rfl, hc.inj hdd hv hv' ht⟩
  · obtain ⟨rfl, rfl, rfl, rfl⟩ := el
    exact ⟨rfl, hc.inj hdd hv hv' ht⟩

/-! ## The sorted class calls the exchanged helper -/

/-- Both pairs sorted. -/
def sortedQ (q : QAM) : QAM := ⟨max q.a q.b, min q.a q.b, max q.c q.d, min q.c q.d, q.tag⟩

theorem VFormed.sorted {q : QAM} {x y : ℤ} : VFormed (sortedQ q) x y ↔ VFormed q x y := by
  have e1 : max q.a q.b + min q.a q.b = q.a + q.b := max_add_min _ _
  have e2 : max q.c q.d + min q.c q.d = q.c + q.d := max_add_min _ _
  have e3 : keptMax (max q.a q.b) (min q.a q.b) = keptMax q.a q.b := by unfold keptMax; omega
  have e4 : keptMax (max q.c q.d) (min q.c q.d) = keptMax q.c q.d := by unfold keptMax; omega
  simp only [VFormed, sortedQ, e1, e2, e3, e4]

theorem toCall_place {bl kl : Bool} {x y : ℤ} : toCall (placeQ bl kl x y) = placeQ false false x y := by
  cases bl <;> cases kl <;> by_cases hx : x = 0 <;> by_cases hy : y = 0 <;> simp [toCall, placeQ, hx, hy]

/-- The helper that the file of a called helper calls is itself called by the function of the sorted
class. -/
theorem sorted_calls {cfg : PyCfg} (h : cfg.OK) {q : QAM} (hq : cfg.Generated 0 q) {t : RRType} {am : QAM}
    (hr : Routine.vrr t am ∈ cfg.fnCalls 0 q) : cfg.Generated 0 (sortedQ q) ∧
      Routine.vrr (toCallStep t) (toCall am) ∈ cfg.fnCalls 0 (sortedQ q) := by
  obtain ⟨h0, htag, hv, hM, -⟩ := hq
  have ⟨v1, v2, v3, v4⟩ := hv
  have hv' : (sortedQ q).Valid := by unfold sortedQ QAM.Valid; simp only; omega
  have hM' : (sortedQ q).a ≤ cfg.maxam ∧ (sortedQ q).b ≤ cfg.maxam ∧ (sortedQ q).c ≤ cfg.maxam ∧
      (sortedQ q).d ≤ cfg.maxam := by unfold sortedQ; simp only; omega
  refine ⟨⟨.inl rfl, htag, hv', hM', .inl (by unfold sortedQ; simp only; omega)⟩, ?_⟩
  obtain ⟨base, H, A, -, hp, e⟩ := fnRun_ok h (d := 0) htag hv hM
  obtain ⟨base', H', A', -, hp', e'⟩ := fnRun_ok h (d := 0) (q := sortedQ q) htag hv' hM'
  rw [PyCfg.fnCalls, e, List.mem_append] at hr
  rw [PyCfg.fnCalls, e', List.mem_append]
  have hp : PreOK cfg.gen (hrrDirections q) [q] H A := hp
  have hp' : PreOK cfg.gen (hrrDirections (sortedQ q)) [sortedQ q] H' A' := hp'
  left
  rcases hr with hr | hr
  · obtain ⟨a, ha, ea⟩ := List.mem_filterMap.1 hr
    obtain ⟨x, y, rfl, hf⟩ := (hp.vorder_iff h.gen hv).1 ha
    have b1 : decide ((sortedQ q).a < (sortedQ q).b) = false := by unfold sortedQ; simp
    have b2 : decide ((sortedQ q).c < (sortedQ q).d) = false := by unfold sortedQ; simp
    have ha' := (hp'.vorder_iff h.gen hv').2 ⟨x, y, rfl, VFormed.sorted.2 hf⟩
    have ht' := hp'.vType_eq h.gen hv' (VFormed.sorted.2 hf)
    rw [b1, b2] at ha' ht'
    rw [List.mem_filterMap]
    refine ⟨_, ha', ?_⟩
    have s1 : ∀ bl kl, (placeQ bl kl x y).a + (placeQ bl kl x y).b + (placeQ bl kl x y).c + (placeQ bl kl x y).d =
        x + y := by
      intro bl kl; cases bl <;> cases kl <;> simp [placeQ]
    unfold vCallOf at ea
    rw [s1] at ea
    split at ea
    · cases ea
    split at ea
    · cases ea
    split at ea
    · rw [hp.vType_eq h.gen hv hf, Option.map_some, Option.some.injEq, Routine.vrr.injEq] at ea
      obtain ⟨rfl, rfl⟩ := ea
      rename_i n1 n2 n3
      rw [vCallOf, if_neg (hp'.vok.omem _ ha').2, s1, if_neg n2, if_pos n3, ht', Option.map_some, toCall_place]
      congr 2
      have e1 : (sortedQ q).a + (sortedQ q).b = q.a + q.b := max_add_min _ _
      have e2 : (sortedQ q).c + (sortedQ q).d = q.c + q.d := max_add_min _ _
      rw [e1, e2]
      split
      · cases decide (q.a < q.b) <;> rfl
      · cases decide (q.c < q.d) <;> rfl
    · cases ea
  · obtain ⟨a, -, ea⟩ := List.mem_filterMap.1 hr
    unfold hCallOf at ea
    obtain ⟨s, -, ea⟩ := Option.bind_eq_some_iff.1 ea
    exfalso
    cases s <;> simp only at ea <;> split at ea <;> try cases ea
    all_goals split at ea <;> simp at ea

/-! ## Derivatives -/

/-- The largest element of a set has a property if some element has it and elements with it are larger
than those without. -/
theorem setMax_prop {P : QAM → Prop} : ∀ (l : List QAM) (m : QAM),
    (∀ x ∈ m :: l, ∀ y ∈ m :: l, P x → ¬ P y → qamLt y x = true ∧ qamLt x y = false) →
    (∃ x ∈ m :: l, P x) → P (setMax l m)
  | [], m, _, hx => by
    obtain ⟨x, hx, hp⟩ := hx
    rw [List.mem_singleton] at hx
    subst hx; exact hp
  | q :: r, m, hc, hx => by
    unfold setMax
    have hsub : ∀ z, z ∈ (if qamLt m q then q else m) :: r → z ∈ m :: q :: r := by
      intro z hz
      rcases List.mem_cons.1 hz with rfl | hz
      · split <;> simp
      · simp [hz]
    refine setMax_prop r _ (fun x hx y hy => hc x (hsub x hx) y (hsub y hy)) ?_
    obtain ⟨x, hx, hp⟩ := hx
    rcases List.mem_cons.1 hx with rfl | hx
    · by_cases hq : P q
      · exact ⟨_, List.mem_cons_self, by split <;> assumption⟩
      · rw [(hc x (by simp) q (by simp) hp hq).2]
        exact ⟨x, by simp, hp⟩
    · rcases List.mem_cons.1 hx with rfl | hx
      · by_cases hm : P m
        · exact ⟨_, List.mem_cons_self, by split <;> assumption⟩
        · rw [(hc x (by simp) m (by simp) hp hm).1]
          exact ⟨x, by simp, hp⟩
      · exact ⟨x, by simp [hx], hp⟩

/-- If the first two centers have the largest AM, the first one is not differentiated, and the horizontal
stage lowers the first center. -/
theorem setDirections_equal {q : QAM} {l : ℤ} (ha : q.a = l) (hb : q.b = l) (hc : q.c ≤ l) (hd : q.d ≤ l) :
    missingCenter q = .I ∧ (setDirections (derivNeeded q)).1 = .I := by
  have hm : missingCenter q = .I := by
    unfold missingCenter
    rw [if_pos (by omega)]
  refine ⟨hm, ?_⟩
  have hne : ∀ p ∈ derivNeeded q, (p.a < p.b ∧ p.a = l) ∨ (¬ p.a < p.b ∧ p.a = l ∧ p.b ≤ l) := by
    intro p hp
    obtain ⟨t, ht, rfl | ⟨-, rfl⟩⟩ := mem_derivNeeded.1 hp <;> cases t <;>
      simp only [raisedQ, loweredQ, QAM.bump, hm, ne_eq, not_true_eq_false] at ht ⊢ <;> omega
  have hmem : raisedQ q .J ∈ derivNeeded q := mem_derivNeeded.2 ⟨.J, by simp [hm], .inl rfl⟩
  have hlist : ∀ L : List QAM, (∀ p ∈ L, (p.a < p.b ∧ p.a = l) ∨ (¬ p.a < p.b ∧ p.a = l ∧ p.b ≤ l)) →
      raisedQ q .J ∈ L → (setDirections L).1 = .I := by
    intro L hL hJ
    match L with
    | [] => cases hJ
    | p :: r =>
      have := setMax_prop (P := fun x => x.a < x.b) r p ?_ ⟨_, hJ, by simp only [raisedQ, QAM.bump]; omega⟩
      · simp only [setDirections, hrrDirections]
        rw [if_pos this]
      · intro x hx y hy px py
        have h1 := hL x hx
        have h2 := hL y hy
        constructor
        · unfold qamLt; rw [if_pos (by omega)]
        · unfold qamLt; rw [if_neg (by omega), if_neg (by omega)]
  exact hlist _ hne hmem

/-- No function with numbers at most `l` calls `VRR_I` for `(2l+1 0|0 0)`. -/
theorem not_called {cfg : PyCfg} (h : cfg.OK) {l d : ℕ} {q : QAM} (hq : cfg.Generated d q)
    (hl : q.a ≤ l ∧ q.b ≤ l ∧ q.c ≤ l ∧ q.d ≤ l) : Routine.vrr .I ⟨2 * l + 1, 0, 0, 0, ""⟩ ∉ cfg.fnCalls d q := by
  intro hr
  obtain ⟨hd, htag, hv, hM, -⟩ := hq
  have ⟨v1, v2, v3, v4⟩ := hv
  obtain ⟨base, H, A, -, hp, e⟩ := fnRun_ok h (d := d) htag hv hM
  rw [PyCfg.fnCalls, e, List.mem_append] at hr
  rcases hr with hr | hr
  · obtain ⟨a, ha, ea⟩ := List.mem_filterMap.1 hr
    unfold vCallOf at ea
    split at ea
    · cases ea
    split at ea
    · cases ea
    split at ea
    · obtain ⟨t, -, et⟩ := Option.map_eq_some_iff.1 ea
      rw [Routine.vrr.injEq] at et
      obtain ⟨-, -, -, p, hpt, hle⟩ := hp.under ha
      have h1 := hle .I
      rw [et.2] at h1
      simp only [QAM.get] at h1
      have hva := (jobAms_ok (d := d) hv hM).1
      obtain ⟨p', hp', ht⟩ := (hp.top_iff h.gen hva).1 hpt
      obtain ⟨-, h2, -⟩ := ht
      have hleft : (jobDir d q).1.isLeft = false := by
        by_contra hc
        rw [Bool.not_eq_false] at hc
        rw [hc] at h2
        simp only [PairDone, if_true] at h2
        omega
      rw [hleft] at h2
      simp only [PairDone, Bool.false_eq_true, if_false] at h2
      unfold jobAms at hp'
      split at hp'
      · rw [List.mem_singleton] at hp'
        subst hp'
        omega
      · rename_i hd0
        obtain ⟨u, hu, hcase⟩ := mem_derivNeeded.1 hp'
        have hab : q.a = l ∧ q.b = l := by
          rcases hcase with rfl | ⟨-, rfl⟩ <;> cases u <;>
            simp only [raisedQ, loweredQ, QAM.bump] at h2 <;> omega
        have := (setDirections_equal hab.1 hab.2 hl.2.2.1 hl.2.2.2).2
        rw [jobDir, if_neg hd0, this] at hleft
        cases hleft
    · cases ea
  · obtain ⟨a, -, ea⟩ := List.mem_filterMap.1 hr
    unfold hCallOf at ea
    obtain ⟨s, -, ea⟩ := Option.bind_eq_some_iff.1 ea
    cases s <;> simp only at ea <;> split at ea <;> try cases ea
    all_goals split at ea <;> simp at ea

/-- The derivative function of `(l l|0 0)` calls `VRR_J` for `(0 2l+1|0 0)`. -/
theorem called_deriv {cfg : PyCfg} (h : cfg.OK) {l : ℕ} (hl : l ≤ cfg.maxam) (h1 : cfg.T.ve ≤ 2 * l + 1)
    (h2 : 2 * l + 1 < cfg.T.vg) :
    Routine.vrr .J ⟨0, 2 * l + 1, 0, 0, ""⟩ ∈ cfg.fnCalls 1 ⟨l, l, 0, 0, ""⟩ := by
  have hv : QAM.Valid ⟨l, l, 0, 0, ""⟩ := ⟨by simp, by simp, le_rfl, le_rfl⟩
  have hM : (l : ℤ) ≤ cfg.maxam ∧ (l : ℤ) ≤ cfg.maxam ∧ (0 : ℤ) ≤ cfg.maxam ∧ (0 : ℤ) ≤ cfg.maxam := by omega
  obtain ⟨base, H, A, -, hp, e⟩ := fnRun_ok h (d := 1) (q := ⟨l, l, 0, 0, ""⟩) rfl hv hM
  rw [PyCfg.fnCalls, e, List.mem_append]
  left
  obtain ⟨hm, hdir⟩ := setDirections_equal (q := ⟨l, l, 0, 0, ""⟩) (l := l) rfl rfl (by simp) (by simp)
  have hva := (jobAms_ok (d := 1) hv (M := cfg.maxam) hM).1
  have htop : (⟨0, 2 * l + 1, 0, 0, "2b"⟩ : QAM) ∈ H.top := by
    rw [hp.top_iff h.gen hva]
    refine ⟨raisedQ ⟨l, l, 0, 0, ""⟩ .J, mem_derivNeeded.2 ⟨.J, by simp [hm], .inl rfl⟩, rfl, ?_, ?_⟩
    · rw [jobDir, if_neg (by omega), hdir]
      simp only [PairDone, RRType.isLeft, raisedQ, QAM.bump, if_true, true_and]
      omega
    · unfold PairDone
      split <;> simp [raisedQ, QAM.bump]
  have hvt : ∀ a ∈ H.top.map QAM.notag, a.valid = true ∧ a.tag = "" := by
    intro a ha
    obtain ⟨t, ht, rfl⟩ := List.mem_map.1 ha
    exact ⟨valid_of_Valid (q := t.notag) (hp.tval t ht), rfl⟩
  have hin : (⟨⟨Exp.px 0, Exp.px (2 * l + 1)⟩, ⟨Exp.px 0, Exp.px 0⟩, 0⟩ : Qrt) ∈
      classTargets psi4List (H.top.map QAM.notag) := by
    rw [mem_classTargets psi4_ordOK psi4_start hvt]
    refine ⟨⟨⟨⟨le_rfl, le_rfl, le_rfl⟩, ⟨by simp only [Exp.px]; omega, le_rfl, le_rfl⟩⟩,
      ⟨⟨le_rfl, le_rfl, le_rfl⟩, ⟨le_rfl, le_rfl, le_rfl⟩⟩, le_rfl⟩, rfl, List.mem_map.2 ⟨_, htop, ?_⟩⟩
    simp [Qrt.am4, Exp.px, Exp.am, QAM.notag]
  have e4 : (⟨⟨Exp.px 0, Exp.px (2 * l + 1)⟩, ⟨Exp.px 0, Exp.px 0⟩, 0⟩ : Qrt).am4 =
      ⟨0, 2 * l + 1, 0, 0, ""⟩ := by simp [Qrt.am4, Exp.px, Exp.am]
  have ho : (⟨0, 2 * l + 1, 0, 0, ""⟩ : QAM) ∈ A.order := by
    rw [← e4]
    refine hp.vok.oreq _ hin ((mem_classTargets psi4_ordOK psi4_start hvt).1 hin).1 ?_
    rw [← Qrt.am4_sum, e4]
    simp only [QAM.sum]
    omega
  obtain ⟨-, -, ⟨t, ht, hpos⟩, -⟩ := hp.under ho
  have htJ : t = .J := by
    cases t <;> simp [QAM.get] at hpos ⊢
  subst htJ
  refine List.mem_filterMap.2 ⟨_, ho, ?_⟩
  rw [vCallOf, if_neg (hp.vok.omem _ ho).2, if_neg (by simp only; omega), if_pos (by simp only; omega), ht]
  rfl

end Simint
