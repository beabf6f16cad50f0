import Verif.MolFileLemmas

/-!
# The reader and the end of the file

Reading more text does not change what was read before.
-/

set_option autoImplicit false

namespace Simint.MolFile

/-- A reader that returns a part of its input, does not look at what it returns, and leaves something if
there was something. -/
def Good {α : Type} (rd : Str → Option (α × Str)) : Prop :=
  ∀ s v r, rd s = some (v, r) → r <:+ s ∧ (s ≠ [] → r ≠ []) ∧ ∀ u, rd (s ++ u) = some (v, r ++ u)

theorem Good.pure {α : Type} (v : α) : Good fun s => some (v, s) := by
  intro s w r h
  simp only [Option.some.injEq, Prod.mk.injEq] at h
  obtain ⟨rfl, rfl⟩ := h
  exact ⟨List.suffix_refl _, id, fun _ => rfl⟩

theorem Good.none {α : Type} : Good (fun _ => (Option.none : Option (α × Str))) := by
  intro s w r h
  exact absurd h (by simp)

theorem Good.bind {α β : Type} {f : Str → Option (α × Str)} {g : α → Str → Option (β × Str)} (hf : Good f)
    (hg : ∀ v, Good (g v)) : Good fun s => (f s).bind fun p => g p.1 p.2 := by
  intro s w r h
  rw [Option.bind_eq_some_iff] at h
  obtain ⟨⟨v, t⟩, h1, h2⟩ := h
  obtain ⟨a1, a2, a3⟩ := hf s v t h1
  obtain ⟨b1, b2, b3⟩ := hg v t w r h2
  refine ⟨b1.trans a1, fun h => b2 (a2 h), fun u => ?_⟩
  simp only [a3 u, Option.bind_some]
  exact b3 u

theorem dropWhile_append_ne (p : Char → Bool) (t u : Str) (h : t.dropWhile p ≠ []) :
    (t ++ u).takeWhile p = t.takeWhile p ∧ (t ++ u).dropWhile p = t.dropWhile p ++ u := by
  induction t with
  | nil => exact absurd rfl h
  | cons c t ih =>
    by_cases hc : p c = true
    · rw [List.dropWhile_cons_of_pos hc] at h
      obtain ⟨h1, h2⟩ := ih h
      simp only [List.cons_append, List.takeWhile_cons_of_pos hc, List.dropWhile_cons_of_pos hc, h1, h2,
        and_self]
    · simp only [List.cons_append, List.takeWhile_cons_of_neg hc, List.dropWhile_cons_of_neg hc, and_self]

theorem takeSign_append (t u : Str) (h : t ≠ []) :
    takeSign (t ++ u) = ((takeSign t).1, (takeSign t).2 ++ u) := by
  cases t with
  | nil => exact absurd rfl h
  | cons c t =>
    by_cases h1 : c = '-'
    · subst h1; rfl
    · by_cases h2 : c = '+'
      · subst h2; rfl
      · rw [List.cons_append, takeSign_other _ _ h1 h2, takeSign_other _ _ h1 h2]; rfl

theorem takeSign_suffix (t : Str) : (takeSign t).2 <:+ t := by
  unfold takeSign
  split
  · exact List.suffix_cons _ _
  · exact List.suffix_cons _ _
  · exact List.suffix_refl _

theorem suffix_nil {a b : Str} (h : a <:+ b) (ha : a ≠ []) : b ≠ [] := by
  rintro rfl
  exact ha (List.suffix_nil.1 h)

theorem rdStr_good : Good rdStr := by
  intro s v r h
  unfold rdStr at h
  simp only at h
  split at h
  · exact absurd h (by simp)
  · rename_i hn
    push Not at hn
    simp only [Option.some.injEq, Prod.mk.injEq] at h
    obtain ⟨rfl, rfl⟩ := h
    have hsuf : (s.dropWhile cWs).dropWhile (fun c => !cWs c) <:+ s.dropWhile cWs := List.dropWhile_suffix _
    refine ⟨hsuf.trans (List.dropWhile_suffix _), fun _ => hn.2, fun u => ?_⟩
    have e := (dropWhile_append_ne cWs s u (suffix_nil hsuf hn.2)).2
    have e' := dropWhile_append_ne (fun c => !cWs c) (s.dropWhile cWs) u hn.2
    unfold rdStr
    simp only [e, e'.1, e'.2]
    rw [if_neg (by simp [hn])]

theorem rdInt_good : Good rdInt := by
  intro s v r h
  unfold rdInt at h
  simp only at h
  by_cases hn : (takeSign (s.dropWhile cWs)).2.takeWhile isDig = [] ∨
      (takeSign (s.dropWhile cWs)).2.dropWhile isDig = []
  · rw [if_pos hn] at h; exact absurd h (by simp)
  · rw [if_neg hn] at h
    rw [ite_eq_iff] at h
    rcases h with ⟨hb, h⟩ | ⟨_, h⟩
    · push Not at hn
      simp only [Option.some.injEq, Prod.mk.injEq] at h
      obtain ⟨rfl, rfl⟩ := h
      have hs1 : (takeSign (s.dropWhile cWs)).2.dropWhile isDig <:+ (takeSign (s.dropWhile cWs)).2 :=
        List.dropWhile_suffix _
      have hs2 := hs1.trans (takeSign_suffix (s.dropWhile cWs))
      refine ⟨hs2.trans (List.dropWhile_suffix _), fun _ => hn.2, fun u => ?_⟩
      have e := (dropWhile_append_ne cWs s u (suffix_nil hs2 hn.2)).2
      have e1 := takeSign_append (s.dropWhile cWs) u (suffix_nil hs2 hn.2)
      have e' := dropWhile_append_ne isDig (takeSign (s.dropWhile cWs)).2 u hn.2
      unfold rdInt
      simp only [e, e1, e'.1, e'.2]
      rw [if_neg (by simp [hn]), if_pos hb]
    · exact absurd h (by simp)

theorem takeFrac_append (t u : Str) (h : (takeFrac t).2 ≠ []) :
    takeFrac (t ++ u) = ((takeFrac t).1, (takeFrac t).2 ++ u) := by
  cases t with
  | nil => exact absurd rfl h
  | cons c t =>
    by_cases hc : c = '.'
    · subst hc
      have h' : t.dropWhile isDig ≠ [] := h
      have e := dropWhile_append_ne isDig t u h'
      simp only [takeFrac, List.cons_append, e.1, e.2]
    · have g : ∀ r, takeFrac (c :: r) = ([], c :: r) := by
        intro r
        unfold takeFrac
        split
        · rename_i h; exact absurd (by injection h) hc
        · rfl
      rw [List.cons_append, g, g]; rfl

theorem takeFrac_suffix (t : Str) : (takeFrac t).2 <:+ t := by
  unfold takeFrac
  split
  · exact (List.dropWhile_suffix _).trans (List.suffix_cons _ _)
  · exact List.suffix_refl _

theorem takeExp_good (t : Str) (e : ℤ) (r : Str) (h : takeExp t = some (e, r)) (hr : r ≠ []) :
    r <:+ t ∧ ∀ u, takeExp (t ++ u) = some (e, r ++ u) := by
  cases t with
  | nil =>
    simp only [takeExp, Option.some.injEq, Prod.mk.injEq] at h
    exact absurd h.2.symm hr
  | cons c t =>
    simp only [takeExp] at h
    split at h
    · rename_i hc
      split at h
      · exact absurd h (by simp)
      · rename_i hn
        simp only [Option.some.injEq, Prod.mk.injEq] at h
        obtain ⟨rfl, rfl⟩ := h
        have hs1 : (takeSign t).2.dropWhile isDig <:+ (takeSign t).2 := List.dropWhile_suffix _
        have hs2 := hs1.trans (takeSign_suffix t)
        refine ⟨hs2.trans (List.suffix_cons _ _), fun u => ?_⟩
        have e1 := takeSign_append t u (suffix_nil hs2 hr)
        have e' := dropWhile_append_ne isDig (takeSign t).2 u hr
        simp only [List.cons_append, takeExp]
        rw [if_pos hc, e1]
        simp only [e'.1, e'.2]
        rw [if_neg hn]
    · rename_i hc
      simp only [Option.some.injEq, Prod.mk.injEq] at h
      obtain ⟨rfl, rfl⟩ := h
      refine ⟨List.suffix_refl _, fun u => ?_⟩
      simp only [List.cons_append, takeExp]
      rw [if_neg hc]

theorem rdDbl_good : Good rdDbl := by
  intro s v r h
  unfold rdDbl at h
  simp only at h
  split at h
  · exact absurd h (by simp)
  · rename_i hn
    split at h
    · exact absurd h (by simp)
    · rename_i e q hq
      split at h
      · exact absurd h (by simp)
      · rename_i hqn
        simp only [Option.some.injEq, Prod.mk.injEq] at h
        obtain ⟨rfl, rfl⟩ := h
        obtain ⟨a1, a2⟩ := takeExp_good _ _ _ hq hqn
        have b1 := a1.trans (takeFrac_suffix _)
        have b2 : q <:+ (takeSign (s.dropWhile cWs)).2 := b1.trans (List.dropWhile_suffix _)
        have b3 := b2.trans (takeSign_suffix _)
        refine ⟨b3.trans (List.dropWhile_suffix _), fun _ => hqn, fun u => ?_⟩
        have e0 := (dropWhile_append_ne cWs s u (suffix_nil b3 hqn)).2
        have e1 := takeSign_append (s.dropWhile cWs) u (suffix_nil b3 hqn)
        have e2 := dropWhile_append_ne isDig (takeSign (s.dropWhile cWs)).2 u (suffix_nil b1 hqn)
        have e3 := takeFrac_append _ u (suffix_nil a1 hqn)
        unfold rdDbl
        simp only [e0, e1, e2.1, e2.2, e3, a2 u]
        rw [if_neg hn, if_neg (by simp [hqn])]

theorem rdDbls_good : ∀ n, Good (rdDbls n)
  | 0 => Good.pure _
  | n + 1 => by
    have := rdDbl_good.bind fun v => (rdDbls_good n).bind fun vs => Good.pure (v :: vs)
    exact this

theorem rdRows_good (g : ℕ) : ∀ n, Good (rdRows g n)
  | 0 => Good.pure _
  | n + 1 => by
    have := rdDbl_good.bind fun v => (rdDbls_good g).bind fun vs => (rdRows_good g n).bind fun rows =>
      Good.pure ((v, vs) :: rows)
    exact this

theorem rdShell_good (x y z : ℚ) : Good (rdShell x y z) := by
  have := rdStr_good.bind fun type => rdInt_good.bind fun nprim => rdInt_good.bind fun ngen =>
    (show Good (fun s => if ngen < 0 ∨ nprim < 0 then none else
      (rdRows ngen.toNat nprim.toNat s).bind fun p =>
        (fun rows s => some ((((typeLetters type ngen.toNat type).map ammapAt).mapIdx fun l am =>
          { am := am, nprim := nprim.toNat, x := x, y := y, z := z,
            alpha := rows.map Prod.fst, coef := rows.map fun r => r.2.getD l 0 } : List RShell), s)) p.1 p.2) by
      by_cases h : ngen < 0 ∨ nprim < 0
      · simp only [h, if_true]; exact Good.none
      · simp only [h, if_false]; exact (rdRows_good ngen.toNat nprim.toNat).bind fun rows => Good.pure
          (((typeLetters type ngen.toNat type).map ammapAt).mapIdx fun l am =>
          ({ am := am, nprim := nprim.toNat, x := x, y := y, z := z,
             alpha := rows.map Prod.fst, coef := rows.map fun r => r.2.getD l 0 } : RShell)))
  exact this

theorem rdShells_good (x y z : ℚ) : ∀ n m, Good (rdShells x y z n m)
  | 0, _ => Good.pure _
  | n + 1, m => by
    have := (rdShell_good x y z).bind fun gv => rdShells_good x y z n (gv.foldl RMap.push m)
    exact this

theorem rdAtoms_good : ∀ n m mol, Good (rdAtoms n m mol)
  | 0, _, _ => Good.pure _
  | n + 1, m, mol => by
    have := rdStr_good.bind fun sym => rdInt_good.bind fun nshell => rdInt_good.bind fun _ =>
      rdInt_good.bind fun _ => rdDbl_good.bind fun x => rdDbl_good.bind fun y => rdDbl_good.bind fun z =>
        (show Good (fun s => (symbolAt sym).bind fun Z => (rdShells x y z nshell.toNat m s).bind fun p =>
          rdAtoms n p.1 (mol ++ [⟨Z, x, y, z⟩]) p.2) by
          rcases symbolAt sym with _ | Z
          · exact Good.none
          · exact (rdShells_good x y z _ m).bind fun m' => rdAtoms_good n m' _)
    exact this

theorem readRest_good : Good readRest :=
  rdInt_good.bind fun n => rdAtoms_good n.toNat (fun _ => []) []

theorem readRest_ne {s : Str} {v : RMap × List Centre} {r : Str} (h : readRest s = some (v, r)) : r ≠ [] := by
  refine (readRest_good s v r h).2.1 ?_
  rintro rfl
  exact absurd h (by simp [readRest, rdInt, takeSign])

end Simint.MolFile
