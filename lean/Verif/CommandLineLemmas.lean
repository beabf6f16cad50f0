import Verif.Spec.CommandLine

/-!
# Lemmas on command lines
-/

set_option autoImplicit false

namespace Simint

/-! ## Numbers -/

theorem isDigit_not_space {c : Char} (h : c.isDigit = true) : isSpaceC c = false := by
  simp only [Char.isDigit, ge_iff_le, Bool.and_eq_true, decide_eq_true_eq, UInt32.le_iff_toNat_le] at h
  have h1 : c.val.toNat = c.toNat := rfl
  rw [h1] at h
  have h2 : (48 : UInt32).toNat = 48 := rfl
  have h3 : (57 : UInt32).toNat = 57 := rfl
  obtain ⟨ha, hb⟩ := h
  have ha : 48 ≤ c.toNat := ha
  simp only [isSpaceC, Bool.or_eq_false_iff, beq_eq_false_iff_ne, Bool.and_eq_false_iff,
    decide_eq_false_iff_not]
  omega

theorem digits_takeWhile (n : ℕ) :
    (Nat.toDigits 10 n).takeWhile Char.isDigit = Nat.toDigits 10 n := by
  have h : ∀ c ∈ Nat.toDigits 10 n, c.isDigit = true := fun c hc =>
    Nat.isDigit_of_mem_toDigits (by norm_num) (by norm_num) hc
  generalize Nat.toDigits 10 n = l at h
  induction l with
  | nil => rfl
  | cons c l ih =>
    rw [List.takeWhile_cons_of_pos (h c (by simp)), ih fun d hd => h d (by simp [hd])]

theorem digits_val (n : ℕ) :
    (Nat.toDigits 10 n).foldl (fun v c => 10 * v + (c.toNat - 48)) 0 = n :=
  Nat.ofDigitChars_toDigits (b := 10) (n := n) (by norm_num) (by norm_num)

theorem digits_cons (n : ℕ) : ∃ c l, Nat.toDigits 10 n = c :: l ∧ c.isDigit = true := by
  rcases h : Nat.toDigits 10 n with _ | ⟨c, l⟩
  · exact absurd h Nat.toDigits_ne_nil
  · exact ⟨c, l, rfl, Nat.isDigit_of_mem_toDigits (b := 10) (n := n) (by norm_num) (by norm_num) (by simp [h])⟩

theorem stoi_nat {n : ℕ} (h : n ≤ 2147483647) : stoi (toString n) = some (n : ℤ) := by
  obtain ⟨c, l, e, hc⟩ := digits_cons n
  have h1 : (toString n).toList = Nat.toDigits 10 n := by
    rw [Nat.toString_eq_repr, Nat.toList_repr]
  have h2 : (Nat.toDigits 10 n).dropWhile isSpaceC = Nat.toDigits 10 n := by
    rw [e, List.dropWhile_cons_of_neg (by simp [isDigit_not_space hc])]
  have hm : c ≠ '-' := by rintro rfl; exact absurd hc (by decide)
  have hp : c ≠ '+' := by rintro rfl; exact absurd hc (by decide)
  have h3 : splitSign (Nat.toDigits 10 n) = (false, Nat.toDigits 10 n) := by
    rw [e, splitSign] <;> simp_all
  unfold stoi
  rw [h1, h2]
  simp only [h3, digits_takeWhile, digits_val, Nat.toDigits_ne_nil, if_false, Bool.false_eq_true]
  rw [if_pos (by omega)]

theorem stoi_int {z : ℤ} (h1 : -2147483648 ≤ z) (h2 : z ≤ 2147483647) : stoi (toString z) = some z := by
  rw [Int.toString_eq_repr, Int.repr_eq_if]
  split
  · rename_i hz
    have := stoi_nat (n := z.toNat) (by omega)
    rw [Nat.toString_eq_repr] at this
    rw [this, Int.toNat_of_nonneg hz]
  · rename_i hz
    have e : ("-" ++ (-z).toNat.repr).toList = '-' :: Nat.toDigits 10 (-z).toNat := by
      rw [String.toList_append, Nat.toList_repr]; rfl
    unfold stoi
    rw [e]
    have hd : ('-' :: Nat.toDigits 10 (-z).toNat).dropWhile isSpaceC = '-' :: Nat.toDigits 10 (-z).toNat :=
      List.dropWhile_cons_of_neg (by decide)
    rw [hd]
    simp only [splitSign, digits_takeWhile, digits_val, Nat.toDigits_ne_nil, if_false, if_true]
    rw [if_pos (by omega)]
    congr 1; omega

/-! ## Positions and lists -/

theorem getNextArg_drop {i : ℕ} {argv l : List String} {s : String} (h : argv.drop i = s :: l) :
    getNextArg i argv = some (s, i + 1) ∧ argv.drop (i + 1) = l ∧ i < argv.length := by
  have hi : i < argv.length := by
    by_contra hc
    rw [List.drop_eq_nil_of_le (by omega)] at h
    cases h
  rw [List.drop_eq_getElem_cons hi] at h
  injection h with h1 h2
  refine ⟨?_, h2, hi⟩
  rw [getNextArg, if_neg (by omega), List.getElem?_eq_getElem hi, h1]; rfl

theorem getNextArg_nil {i : ℕ} {argv : List String} (h : argv.drop i = []) :
    getNextArg i argv = none := by
  rw [List.drop_eq_nil_iff] at h
  rw [getNextArg, if_pos (by omega)]

theorem getIArg_drop {i : ℕ} {argv l : List String} {s : String} (h : argv.drop i = s :: l) :
    getIArg i argv = (stoi s).map fun n => (n, i + 1) := by
  rw [getIArg, (getNextArg_drop h).1, Option.bind_some]

theorem getIArg_nil {i : ℕ} {argv : List String} (h : argv.drop i = []) : getIArg i argv = none := by
  rw [getIArg, getNextArg_nil h]; rfl

/-- The loop of `ParseCommonOptions` from any position. -/
theorem common_iff (argv : List String) : ∀ (f i : ℕ) (m : OptMap) (r : List String) (st : CommonSt),
    argv.length ≤ i + f → i ≤ argv.length →
    (whileArgs CommonSt.i argv.length (commonBody argv) f ⟨i, m, r⟩ = some st ↔
      ∃ r', CommonMeans m (argv.drop i) st.options r' ∧ st.ret = r ++ r' ∧ st.i = argv.length) := by
  intro f
  induction f using Nat.strong_induction_on with
  | _ f ih =>
  intro i m r st hf hi
  rcases hd : argv.drop i with _ | ⟨s, l⟩
  · have hlen : i = argv.length := by rw [List.drop_eq_nil_iff] at hd; omega
    have hw : whileArgs CommonSt.i argv.length (commonBody argv) f ⟨i, m, r⟩ = some ⟨i, m, r⟩ := by
      cases f <;> simp [whileArgs, hlen]
    rw [hw]
    constructor
    · intro h
      injection h with h
      subst h
      exact ⟨[], .nil _, by simp, hlen⟩
    · rintro ⟨r', hm, hr, hst⟩
      cases hm
      obtain ⟨a, b, c⟩ := st
      simp only [List.append_nil] at hr hst
      subst hr hst
      rw [hlen]
  · obtain ⟨hn, hl, hlt⟩ := getNextArg_drop hd
    obtain ⟨f, rfl⟩ : ∃ g, f = g + 1 := ⟨f - 1, by omega⟩
    rw [whileArgs, if_pos hlt]
    -- one round that reads a number
    have hint : ∀ o, (s, o) ∈ intOpts → (s ≠ "-p") →
        (∀ o', (s, o') ∈ intOpts → o' = o) →
        commonBody argv ⟨i, m, r⟩ = (getIArg (i + 1) argv).map (fun n => ⟨n.2, m.set o n.1, r⟩) →
        (((commonBody argv ⟨i, m, r⟩).bind
            (whileArgs CommonSt.i argv.length (commonBody argv) f)) = some st ↔
          ∃ r', CommonMeans m (s :: l) st.options r' ∧ st.ret = r ++ r' ∧ st.i = argv.length) := by
      intro o ho hp huniq hb
      rw [hb]
      rcases l with _ | ⟨v, l⟩
      · rw [getIArg_nil hl]
        simp only [Option.map_none, Option.bind_none, reduceCtorEq, false_iff, not_exists]
        rintro r' ⟨hm, -⟩
        cases hm with
        | perm _ => exact hp rfl
        | other hs => exact hs o ho
      · obtain ⟨-, hl2, hlt2⟩ := getNextArg_drop hl
        rw [getIArg_drop hl]
        rcases hv : stoi v with _ | n
        · simp only [Option.map_none, Option.bind_none, reduceCtorEq, false_iff, not_exists]
          rintro r' ⟨hm, -⟩
          cases hm with
          | int _ hn' _ => rw [hv] at hn'; cases hn'
          | perm _ => exact hp rfl
          | other hs => exact hs o ho
        · simp only [Option.map_some, Option.bind_some]
          rw [ih f (by omega) (i + 1 + 1) (m.set o n) r st (by omega) (by omega), hl2]
          constructor
          · rintro ⟨r', hm, h⟩; exact ⟨r', .int ho hv hm, h⟩
          · rintro ⟨r', hm, h⟩
            cases hm with
            | int ho' hn' hm' =>
              rw [hv] at hn'; injection hn' with hn'; subst hn'
              rw [huniq _ ho'] at hm'
              exact ⟨r', hm', h⟩
            | perm _ => exact absurd rfl hp
            | other hs => exact absurd ho (hs o)
    have hb0 : commonBody argv ⟨i, m, r⟩ =
        if s = "-ve" then (getIArg (i + 1) argv).map fun n => ⟨n.2, m.set .extVRR n.1, r⟩
        else if s = "-vg" then (getIArg (i + 1) argv).map fun n => ⟨n.2, m.set .genVRR n.1, r⟩
        else if s = "-he" then (getIArg (i + 1) argv).map fun n => ⟨n.2, m.set .extHRR n.1, r⟩
        else if s = "-hg" then (getIArg (i + 1) argv).map fun n => ⟨n.2, m.set .genHRR n.1, r⟩
        else if s = "-p" then some ⟨i + 1, m.set .perm 1, r⟩
        else some ⟨i + 1, m, r ++ [s]⟩ := by
      rw [commonBody, hn, Option.bind_some]
    by_cases h1 : s = "-ve"
    · exact hint .extVRR (by simp [intOpts, h1]) (by simp [h1]) (by simp [intOpts, h1]) (by rw [hb0, if_pos h1])
    by_cases h2 : s = "-vg"
    · exact hint .genVRR (by simp [intOpts, h2]) (by simp [h2]) (by simp [intOpts, h2]) (by rw [hb0, if_neg h1, if_pos h2])
    by_cases h3 : s = "-he"
    · exact hint .extHRR (by simp [intOpts, h3]) (by simp [h3]) (by simp [intOpts, h3])
        (by rw [hb0, if_neg h1, if_neg h2, if_pos h3])
    by_cases h4 : s = "-hg"
    · exact hint .genHRR (by simp [intOpts, h4]) (by simp [h4]) (by simp [intOpts, h4])
        (by rw [hb0, if_neg h1, if_neg h2, if_neg h3, if_pos h4])
    have hno : ∀ o, (s, o) ∉ intOpts := by simp [intOpts, h1, h2, h3, h4]
    rw [hb0, if_neg h1, if_neg h2, if_neg h3, if_neg h4]
    by_cases h5 : s = "-p"
    · rw [if_pos h5, Option.bind_some, ih f (by omega) (i + 1) (m.set .perm 1) r st (by omega) (by omega), hl]
      subst h5
      constructor
      · rintro ⟨r', hm, h⟩; exact ⟨r', .perm hm, h⟩
      · rintro ⟨r', hm, h⟩
        cases hm with
        | int ho _ _ => exact absurd ho (hno _)
        | perm hm => exact ⟨r', hm, h⟩
        | other _ hp _ => exact absurd rfl hp
    · rw [if_neg h5, Option.bind_some, ih f (by omega) (i + 1) m (r ++ [s]) st (by omega) (by omega), hl]
      constructor
      · rintro ⟨r', hm, h, h'⟩
        exact ⟨s :: r', .other hno h5 hm, by simpa using h, h'⟩
      · rintro ⟨r', hm, h, h'⟩
        cases hm with
        | int ho _ _ => exact absurd ho (hno _)
        | perm _ => exact absurd rfl h5
        | other _ _ hm => exact ⟨_, hm, by simpa using h, h'⟩

/-- Reading the numbers after `-q`. -/
theorem readAM_iff (argv : List String) : ∀ (n k : ℕ) (st st' : ProgSt),
    readAM argv n k st = some st' ↔ ∃ (q : List String) (a : ℕ → ℤ) (l : List String),
      q.length = n ∧ argv.drop st.i = q ++ l ∧ (∀ x s, q[x]? = some s → stoi s = some (a (k + x))) ∧
      (∀ x, x < k ∨ k + n ≤ x → a x = st.am x) ∧ st' = { st with i := st.i + n, am := a } := by
  intro n
  induction n with
  | zero =>
    intro k st st'
    rw [readAM]
    constructor
    · intro h; injection h with h; subst h
      exact ⟨[], st.am, argv.drop st.i, rfl, rfl, by simp, fun _ _ => rfl, rfl⟩
    · rintro ⟨q, a, l, hq, -, -, ha, rfl⟩
      have : a = st.am := funext fun x => ha x (by omega)
      rw [this]; rfl
  | succ n ih =>
    intro k st st'
    rw [readAM]
    rcases hd : argv.drop st.i with _ | ⟨s, l0⟩
    · rw [getIArg_nil hd]
      simp only [Option.bind_none, reduceCtorEq, false_iff]
      rintro ⟨q, a, l, hq, h, -⟩
      have := congrArg List.length h
      simp only [List.length_nil, List.length_append] at this
      omega
    · obtain ⟨-, hl, -⟩ := getNextArg_drop hd
      rw [getIArg_drop hd]
      rcases hv : stoi s with _ | z
      · simp only [Option.map_none, Option.bind_none, reduceCtorEq, false_iff]
        rintro ⟨q, a, l, hq, h, hs, -⟩
        rcases q with _ | ⟨s', q⟩
        · simp at hq
        · rw [List.cons_append] at h
          injection h with h1 h2
          have := hs 0 s' rfl
          rw [← h1, hv] at this; cases this
      · simp only [Option.map_some, Option.bind_some]
        rw [ih]
        constructor
        · rintro ⟨q, a, l, hq, h, hs, ha, rfl⟩
          rw [hl] at h
          refine ⟨s :: q, a, l, by simp [hq], by rw [h]; rfl, ?_, ?_, ?_⟩
          · intro x s' hx
            rcases x with _ | x
            · simp only [List.getElem?_cons_zero, Option.some.injEq] at hx
              have := ha k (by omega)
              simp only [if_true] at this
              rw [← hx, hv, Nat.add_zero, this]
            · rw [List.getElem?_cons_succ] at hx
              rw [hs x s' hx]; congr 2; omega
          · intro x hx
            have := ha x (by omega)
            rw [this]; exact if_neg (by omega)
          · simp only [ProgSt.mk.injEq, and_true, true_and]; omega
        · rintro ⟨q, a, l, hq, h, hs, ha, rfl⟩
          rcases q with _ | ⟨s', q⟩
          · simp at hq
          · rw [List.cons_append] at h
            injection h with h1 h2
            have h0 := hs 0 s' rfl
            rw [← h1, hv] at h0
            injection h0 with h0
            refine ⟨q, a, l, by simpa using hq, by rw [hl, h2], ?_, ?_, ?_⟩
            · intro x t hx
              rw [hs (x + 1) t (by rw [List.getElem?_cons_succ]; exact hx)]; congr 2; omega
            · intro x hx
              by_cases e : x = k
              · subst e; simp only [if_true]; rw [h0]; rfl
              · simp only [if_neg e]; exact ha x (by omega)
            · simp only [ProgSt.mk.injEq, and_true, true_and]; omega

theorem progMeans_nil {p : Prog} {j j' : ArgJob} (h : ProgMeans p j [] j') : j' = j := by
  cases h; rfl

/-- Which constructor explains an argument. -/
theorem progMeans_cons {p : Prog} {j j' : ArgJob} {s : String} {l : List String}
    (h : ProgMeans p j (s :: l) j') :
    (s = "-o" ∧ ∃ t l', l = t :: l' ∧ ProgMeans p { j with fpath := t } l' j') ∨
    (s = "-oh" ∧ ∃ t l', l = t :: l' ∧ ProgMeans p { j with hpath := t } l' j') ∨
    (s = "-q" ∧ ∃ q l' a, l = q ++ l' ∧ q.length = p.nam ∧
      (∀ k t, q[k]? = some t → stoi t = some (a k)) ∧ (∀ k, p.nam ≤ k → a k = j.am k) ∧
      ProgMeans p { j with am := a, amset := true } l' j') ∨
    (∃ f, (s, f) ∈ flagOpts p ∧ ProgMeans p (f j) l j') := by
  cases h with
  | out h => exact .inl ⟨rfl, _, _, rfl, h⟩
  | hdr h => exact .inr (.inl ⟨rfl, _, _, rfl, h⟩)
  | am q hl hq ha h => exact .inr (.inr (.inl ⟨rfl, q, _, _, rfl, hl, hq, ha, h⟩))
  | flag hs h => exact .inr (.inr (.inr ⟨_, hs, h⟩))

theorem flag_ne {p : Prog} {s : String} {f : ArgJob → ArgJob} (h : (s, f) ∈ flagOpts p) :
    s ≠ "-o" ∧ s ≠ "-oh" ∧ s ≠ "-q" := by
  cases p <;> simp only [flagOpts, List.mem_cons, Prod.mk.injEq, List.not_mem_nil, or_false] at h
  all_goals rcases h with h | h | h <;> rw [h.1] <;> decide

/-- A round of the option loop that is not one of `-o`, `-oh`, `-q`. -/
theorem progBody_flag {p : Prog} {argv l : List String} {s : String} {st : ProgSt}
    (hd : argv.drop st.i = s :: l) (h1 : s ≠ "-o") (h2 : s ≠ "-oh") (h3 : s ≠ "-q") :
    (∃ f st', (s, f) ∈ flagOpts p ∧ (∀ g, (s, g) ∈ flagOpts p → g = f) ∧
        progBody p argv st = some st' ∧ st'.i = st.i + 1 ∧ st'.job = f st.job) ∨
      ((∀ f, (s, f) ∉ flagOpts p) ∧ progBody p argv st = none) := by
  obtain ⟨hn, -, -⟩ := getNextArg_drop hd
  rw [progBody, hn, Option.bind_some]
  simp only [if_neg h1, if_neg h2, if_neg h3]
  cases p
  · right; simp [flagOpts]
  · right; simp [flagOpts]
  · by_cases a : s = "-center_j"
    · left; subst a; exact ⟨_, _, .head _, by simp [flagOpts], by simp; rfl, rfl, rfl⟩
    by_cases b : s = "-center_k"
    · left; subst b; exact ⟨_, _, .tail _ (.head _), by simp [flagOpts], by simp; rfl, rfl, rfl⟩
    by_cases c : s = "-center_l"
    · left; subst c
      exact ⟨_, _, .tail _ (.tail _ (.head _)), by simp [flagOpts], by simp; rfl, rfl, rfl⟩
    right; simp [flagOpts, a, b, c]
  · by_cases a : s = "-bra_i"
    · left; subst a; exact ⟨_, _, .head _, by simp [flagOpts], by simp; rfl, rfl, rfl⟩
    by_cases b : s = "-ket_k"
    · left; subst b; exact ⟨_, _, .tail _ (.head _), by simp [flagOpts], by simp; rfl, rfl, rfl⟩
    by_cases c : s = "-bra"
    · left; subst c
      exact ⟨_, _, .tail _ (.tail _ (.head _)), by simp [flagOpts], by simp; rfl, rfl, rfl⟩
    right; simp [flagOpts, a, b, c]

theorem ProgSt.ext_job {a b : ProgSt} (h : a.job = b.job) (hi : a.i = b.i) : a = b := by
  obtain ⟨⟩ := a
  obtain ⟨⟩ := b
  simp only [ProgSt.job, ArgJob.mk.injEq] at h
  simp only [ProgSt.mk.injEq]
  exact ⟨hi, h⟩

/-- The option loop of a program from any position. -/
theorem prog_iff (p : Prog) (argv : List String) : ∀ (f : ℕ) (st st' : ProgSt),
    argv.length ≤ st.i + f → st.i ≤ argv.length →
    (whileArgs ProgSt.i argv.length (progBody p argv) f st = some st' ↔
      ProgMeans p st.job (argv.drop st.i) st'.job ∧ st'.i = argv.length) := by
  intro f
  induction f with
  | zero =>
    intro st st' hf hi
    have hlen : st.i = argv.length := by omega
    rw [whileArgs, if_neg (by omega), List.drop_eq_nil_of_le (by omega)]
    constructor
    · intro h; injection h with h; subst h; exact ⟨.nil _, hlen⟩
    · rintro ⟨h, h'⟩
      have e : st.job = st'.job := (progMeans_nil h).symm
      rw [ProgSt.ext_job e (by omega)]
  | succ f ih =>
    intro st st' hf hi
    rcases hd : argv.drop st.i with _ | ⟨s, l⟩
    · have hlen : st.i = argv.length := by rw [List.drop_eq_nil_iff] at hd; omega
      rw [whileArgs, if_neg (by omega)]
      constructor
      · intro h; injection h with h; subst h; exact ⟨.nil _, hlen⟩
      · rintro ⟨h, h'⟩
        have e : st.job = st'.job := (progMeans_nil h).symm
        rw [ProgSt.ext_job e (by omega)]
    obtain ⟨hn, hl, hlt⟩ := getNextArg_drop hd
    rw [whileArgs, if_pos hlt]
    by_cases h1 : s = "-o"
    · have hb : progBody p argv st =
          (getNextArg (st.i + 1) argv).map fun s => { st with i := s.2, fpath := s.1 } := by
        rw [progBody, hn, Option.bind_some, if_pos h1]
      subst h1
      rcases l with _ | ⟨t, l⟩
      · rw [hb, getNextArg_nil hl]
        simp only [Option.map_none, Option.bind_none, reduceCtorEq, false_iff, not_and]
        intro h
        rcases progMeans_cons h with ⟨-, t, l', e, -⟩ | ⟨e, -⟩ | ⟨e, -⟩ | ⟨g, hg, -⟩
        · cases e
        · exact absurd e (by decide)
        · exact absurd e (by decide)
        · exact absurd rfl (flag_ne hg).1
      · obtain ⟨hn2, hl2, hlt2⟩ := getNextArg_drop hl
        rw [hb, hn2, Option.map_some, Option.bind_some, ih _ _ (by simp only; omega) (by simp only; omega)]
        simp only [hl2]
        refine and_congr_left fun _ => ⟨fun h => .out h, fun h => ?_⟩
        rcases progMeans_cons h with ⟨-, t, l', e, h⟩ | ⟨e, -⟩ | ⟨e, -⟩ | ⟨g, hg, -⟩
        · injection e with e1 e2; subst e1 e2; exact h
        · exact absurd e (by decide)
        · exact absurd e (by decide)
        · exact absurd rfl (flag_ne hg).1
    by_cases h2 : s = "-oh"
    · have hb : progBody p argv st =
          (getNextArg (st.i + 1) argv).map fun s => { st with i := s.2, hpath := s.1 } := by
        rw [progBody, hn, Option.bind_some, if_neg h1, if_pos h2]
      subst h2
      rcases l with _ | ⟨t, l⟩
      · rw [hb, getNextArg_nil hl]
        simp only [Option.map_none, Option.bind_none, reduceCtorEq, false_iff, not_and]
        intro h
        rcases progMeans_cons h with ⟨e, -⟩ | ⟨-, t, l', e, -⟩ | ⟨e, -⟩ | ⟨g, hg, -⟩
        · exact absurd e (by decide)
        · cases e
        · exact absurd e (by decide)
        · exact absurd rfl (flag_ne hg).2.1
      · obtain ⟨hn2, hl2, hlt2⟩ := getNextArg_drop hl
        rw [hb, hn2, Option.map_some, Option.bind_some, ih _ _ (by simp only; omega) (by simp only; omega)]
        simp only [hl2]
        refine and_congr_left fun _ => ⟨fun h => .hdr h, fun h => ?_⟩
        rcases progMeans_cons h with ⟨e, -⟩ | ⟨-, t, l', e, h⟩ | ⟨e, -⟩ | ⟨g, hg, -⟩
        · exact absurd e (by decide)
        · injection e with e1 e2; subst e1 e2; exact h
        · exact absurd e (by decide)
        · exact absurd rfl (flag_ne hg).2.1
    by_cases h3 : s = "-q"
    · have hb : progBody p argv st = (readAM argv p.nam 0 { st with i := st.i + 1 }).map
          fun st => { st with amset := true } := by
        rw [progBody, hn, Option.bind_some, if_neg h1, if_neg h2, if_pos h3]
      subst h3
      have hpos : 0 < p.nam := by cases p <;> decide
      constructor
      · intro h
        rw [hb, Option.bind_eq_some_iff] at h
        obtain ⟨st2, h, hw⟩ := h
        rw [Option.map_eq_some_iff] at h
        obtain ⟨st1, hr, rfl⟩ := h
        rw [readAM_iff] at hr
        obtain ⟨q, a, l', hq, hdq, hs, ha, rfl⟩ := hr
        simp only [hl] at hdq
        have hll : argv.drop (st.i + 1 + p.nam) = l' := by
          rw [← List.drop_drop, hl, hdq, ← hq, List.drop_left]
        have hle : st.i + 1 + p.nam ≤ argv.length := by
          have := congrArg List.length hl
          rw [hdq, List.length_drop, List.length_append, hq] at this
          omega
        rw [ih _ _ (by simp only; omega) (by simp only; omega)] at hw
        obtain ⟨hw, hi'⟩ := hw
        simp only [hll] at hw
        refine ⟨?_, hi'⟩
        rw [hdq]
        exact .am q hq (fun k t hk => by simpa using hs k t hk) (fun k hk => ha k (by omega)) hw
      · rintro ⟨h, hi'⟩
        rcases progMeans_cons h with ⟨e, -⟩ | ⟨e, -⟩ | ⟨-, q, l', a, e, hq, hs, ha, h⟩ | ⟨g, hg, -⟩
        · exact absurd e (by decide)
        · exact absurd e (by decide)
        · have hr : readAM argv p.nam 0 { st with i := st.i + 1 } =
              some { st with i := st.i + 1 + p.nam, am := a } := by
            rw [readAM_iff]
            exact ⟨q, a, l', hq, by simp only [hl, e], fun k t hk => by simpa using hs k t hk,
              fun k hk => ha k (by omega), rfl⟩
          have hll : argv.drop (st.i + 1 + p.nam) = l' := by
            rw [← List.drop_drop, hl, e, ← hq, List.drop_left]
          have hle : st.i + 1 + p.nam ≤ argv.length := by
            have := congrArg List.length hl
            rw [e, List.length_drop, List.length_append, hq] at this
            omega
          rw [hb, hr, Option.map_some, Option.bind_some, ih _ _ (by simp only; omega) (by simp only; omega)]
          simp only [hll]
          exact ⟨h, hi'⟩
        · exact absurd rfl (flag_ne hg).2.2
    · rcases progBody_flag (p := p) hd h1 h2 h3 with ⟨g, st1, hg, hu, hb, hi1, hj⟩ | ⟨hno, hb⟩
      · rw [hb, Option.bind_some, ih _ _ (by omega) (by omega), hi1, hl, hj]
        refine and_congr_left fun _ => ⟨fun h => .flag hg h, fun h => ?_⟩
        rcases progMeans_cons h with ⟨e, -⟩ | ⟨e, -⟩ | ⟨e, -⟩ | ⟨g', hg', h⟩
        · exact absurd e h1
        · exact absurd e h2
        · exact absurd e h3
        · rw [hu _ hg'] at h; exact h
      · rw [hb]
        simp only [Option.bind_none, reduceCtorEq, false_iff, not_and]
        intro h
        rcases progMeans_cons h with ⟨e, -⟩ | ⟨e, -⟩ | ⟨e, -⟩ | ⟨g', hg', h⟩
        · exact absurd e h1
        · exact absurd e h2
        · exact absurd e h3
        · exact absurd hg' (hno _)

/-! ## Errors -/

/-- Either a list has a meaning, or there is a first place where a number is missing or unreadable. -/
theorem common_total : ∀ (n : ℕ) (l : List String), l.length ≤ n → ∀ m : OptMap,
    (∃ m' r, CommonMeans m l m' r) ∨
      ∃ pre post m' r, l = pre ++ post ∧ CommonMeans m pre m' r ∧ BadInt post := by
  intro n
  induction n with
  | zero =>
    intro l hl m
    rw [List.length_eq_zero_iff.mp (Nat.le_zero.mp hl)]
    exact .inl ⟨_, _, .nil m⟩
  | succ n ih =>
    intro l hl m
    rcases l with _ | ⟨s, l⟩
    · exact .inl ⟨_, _, .nil m⟩
    simp only [List.length_cons] at hl
    by_cases hs : ∃ o, (s, o) ∈ intOpts
    · obtain ⟨o, ho⟩ := hs
      rcases l with _ | ⟨v, l⟩
      · exact .inr ⟨[], _, _, _, rfl, .nil m, s, o, [], rfl, ho, by simp⟩
      rcases hv : stoi v with _ | k
      · exact .inr ⟨[], _, _, _, rfl, .nil m, s, o, _, rfl, ho, by simp [hv]⟩
      simp only [List.length_cons] at hl
      rcases ih l (by omega) (m.set o k) with ⟨m', r, h⟩ | ⟨pre, post, m', r, e, h, hb⟩
      · exact .inl ⟨_, _, .int ho hv h⟩
      · exact .inr ⟨s :: v :: pre, post, _, _, by rw [e]; rfl, .int ho hv h, hb⟩
    · push Not at hs
      by_cases hp : s = "-p"
      · subst hp
        rcases ih l (by omega) (m.set .perm 1) with ⟨m', r, h⟩ | ⟨pre, post, m', r, e, h, hb⟩
        · exact .inl ⟨_, _, .perm h⟩
        · exact .inr ⟨"-p" :: pre, post, _, _, by rw [e]; rfl, .perm h, hb⟩
      · rcases ih l (by omega) m with ⟨m', r, h⟩ | ⟨pre, post, m', r, e, h, hb⟩
        · exact .inl ⟨_, _, .other hs hp h⟩
        · exact .inr ⟨s :: pre, post, _, _, by rw [e]; rfl, .other hs hp h, hb⟩

theorem intOpts_ne_p {s : String} {o : Opt} (h : (s, o) ∈ intOpts) : s ≠ "-p" := by
  simp only [intOpts, List.mem_cons, Prod.mk.injEq, List.not_mem_nil, or_false] at h
  rcases h with h | h | h | h <;> rw [h.1] <;> decide

theorem intOpts_uniq {s : String} {o o' : Opt} (h : (s, o) ∈ intOpts) (h' : (s, o') ∈ intOpts) :
    o' = o := by
  simp only [intOpts, List.mem_cons, Prod.mk.injEq, List.not_mem_nil, or_false] at h h'
  rcases h with h | h | h | h <;> rcases h' with h' | h' | h' | h' <;>
    first
      | exact absurd (h.1.symm.trans h'.1) (by decide)
      | rw [h.2, h'.2]

/-- A list with such a place has no meaning. -/
theorem common_bad {m m1 : OptMap} {pre post r1 : List String} (hpre : CommonMeans m pre m1 r1)
    (hb : BadInt post) : ∀ m' r, ¬ CommonMeans m (pre ++ post) m' r := by
  induction hpre with
  | nil m =>
    obtain ⟨s, o, t, rfl, ho, ht⟩ := hb
    intro m' r h
    rw [List.nil_append] at h
    cases h with
    | int _ hn _ => simp [hn] at ht
    | perm _ => exact intOpts_ne_p ho rfl
    | other hs => exact hs o ho
  | int ho hn _ ih =>
    intro m' r h
    rw [List.cons_append, List.cons_append] at h
    cases h with
    | int ho' hn' h =>
      rw [hn] at hn'; injection hn' with hn'; subst hn'
      rw [intOpts_uniq ho ho'] at h
      exact ih _ _ h
    | perm _ => exact intOpts_ne_p ho rfl
    | other hs => exact hs _ ho
  | @perm m m2 l r2 _ ih =>
    intro m' r h
    rw [List.cons_append] at h
    generalize l ++ post = L at h ih
    cases h with
    | int ho' _ _ => exact intOpts_ne_p ho' rfl
    | perm h => exact ih _ _ h
    | other _ hp _ => exact hp rfl
  | @other m m2 s l r2 hs hp _ ih =>
    intro m' r h
    rw [List.cons_append] at h
    generalize l ++ post = L at h ih
    cases h with
    | int ho' _ _ => exact hs _ ho'
    | perm _ => exact hp rfl
    | other _ _ h => exact ih _ _ h

/-! ## Command lines of create.py -/

theorem other_of {s : String} (h : s ∉ optNames) : (∀ o, (s, o) ∉ intOpts) ∧ s ≠ "-p" := by
  simp only [optNames, List.mem_cons, List.not_mem_nil, or_false, not_or] at h
  refine ⟨?_, h.2.2.2.2⟩
  simp [intOpts, h]

theorem other_list {m m' : OptMap} : ∀ (a l r : List String), (∀ s ∈ a, s ∉ optNames) →
    CommonMeans m l m' r → CommonMeans m (a ++ l) m' (a ++ r)
  | [], _, _, _, h => h
  | s :: a, l, r, ha, h =>
    .other (other_of (ha s (by simp))).1 (other_of (ha s (by simp))).2
      (other_list a l r (fun t ht => ha t (by simp [ht])) h)

/-- A printed number is not an option name. -/
theorem int_not_opt (z : ℤ) : toString z ∉ optNames := by
  obtain ⟨c, l, e, hc⟩ : ∃ c l, ((toString z).toList = c :: l ∨ (toString z).toList = '-' :: c :: l) ∧
      c.isDigit = true := by
    rw [Int.toString_eq_repr, Int.repr_eq_if]
    split
    · obtain ⟨c, l, e, hc⟩ := digits_cons z.toNat
      exact ⟨c, l, .inl (by rw [Nat.toList_repr, e]), hc⟩
    · obtain ⟨c, l, e, hc⟩ := digits_cons (-z).toNat
      exact ⟨c, l, .inr (by rw [String.toList_append, Nat.toList_repr, e]; rfl), hc⟩
  intro h
  simp only [optNames, List.mem_cons, List.not_mem_nil, or_false] at h
  have hne : ∀ d : Char, d.isDigit = false → c ≠ d := by
    rintro d hd rfl; rw [hc] at hd; cases hd
  rcases h with h | h | h | h | h <;> rw [h] at e <;> rcases e with e | e
  all_goals first
    | (injection e with e1 e2; exact absurd e1.symm (hne _ (by decide)))
    | (injection e with e1 e2; injection e2 with e2 _; exact absurd e2.symm (hne _ (by decide)))

/-- Four numbers after `-q`. -/
theorem am4 {p : Prog} (hp : p.nam = 4) {j j' : ArgJob} {l : List String} {a b c d : ℤ}
    (ha : IntOK a) (hb : IntOK b) (hc : IntOK c) (hd : IntOK d)
    (h0 : ∀ k, j.am k = 0)
    (h : ProgMeans p { j with am := fun k => [a, b, c, d].getD k 0, amset := true } l j') :
    ProgMeans p j (["-q", toString a, toString b, toString c, toString d] ++ l) j' := by
  refine .am [toString a, toString b, toString c, toString d] (by rw [hp]; rfl) ?_ ?_ h
  · intro k s hk
    rcases k with _ | _ | _ | _ | k
    · injection hk with hk; rw [← hk, stoi_int ha.1 ha.2]; rfl
    · injection hk with hk; rw [← hk, stoi_int hb.1 hb.2]; rfl
    · injection hk with hk; rw [← hk, stoi_int hc.1 hc.2]; rfl
    · injection hk with hk; rw [← hk, stoi_int hd.1 hd.2]; rfl
    · simp at hk
  · intro k hk
    rw [hp] at hk
    rw [h0]
    rcases k with _ | _ | _ | _ | k
    iterate 4 omega
    rfl

end Simint
