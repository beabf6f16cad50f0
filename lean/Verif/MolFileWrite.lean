import Verif.MolFileLemmas
import Mathlib.Tactic.IntervalCases

/-!
# Lemmas about the writer of molecule files
-/

set_option autoImplicit false

namespace Simint.MolFile

/-! ## Characters -/

theorem pWs_eq (c : Char) : pWs c = pblank c := by
  rw [Bool.eq_iff_iff]
  simp only [pWs, pblank, blank, List.mem_cons, List.not_mem_nil, or_false, Bool.or_eq_true, Bool.and_eq_true,
    decide_eq_true_eq, char_eq_iff]
  have h1 : ' '.toNat = 32 := rfl
  have h2 : '\t'.toNat = 9 := rfl
  have h3 : '\n'.toNat = 10 := rfl
  have h4 : '\x0b'.toNat = 11 := rfl
  have h5 : '\x0c'.toNat = 12 := rfl
  have h6 : '\r'.toNat = 13 := rfl
  have h7 : '\x1c'.toNat = 28 := rfl
  have h8 : '\x1d'.toNat = 29 := rfl
  have h9 : '\x1e'.toNat = 30 := rfl
  have h10 : '\x1f'.toNat = 31 := rfl
  rw [h1, h2, h3, h4, h5, h6, h7, h8, h9, h10]
  omega

theorem toNat_ofNat_small (n : ℕ) (h : n < 128) : (Char.ofNat n).toNat = n := by
  interval_cases n <;> rfl

theorem upChar_eq (c : Char) : upChar c = c.toUpper := by
  unfold upChar Char.toUpper
  by_cases h : 97 ≤ c.toNat ∧ c.toNat ≤ 122
  · have h' : c.val ≥ 'a'.val ∧ c.val ≤ 'z'.val := ⟨UInt32.le_iff_toNat_le.2 h.1, UInt32.le_iff_toNat_le.2 h.2⟩
    rw [if_pos h, dif_pos h', char_eq_iff]
    have e1 : (Char.ofNat (c.toNat - 32)).toNat = c.toNat - 32 :=
      toNat_ofNat_small _ (by omega)
    rw [e1]
    change _ = (c.val + ('A'.val - 'a'.val)).toNat
    rw [UInt32.toNat_add]
    have e2 : ('A'.val - 'a'.val).toNat = 2 ^ 32 - 32 := by decide
    have e3 : c.val.toNat = c.toNat := rfl
    rw [e2, e3]
    omega
  · rw [if_neg h, dif_neg]
    rintro ⟨h1, h2⟩
    exact h ⟨UInt32.le_iff_toNat_le.1 h1, UInt32.le_iff_toNat_le.1 h2⟩

/-! ## Words -/

theorem splitAux_cur (s cur : Str) (h : cur ≠ []) :
    ∃ w ws, splitAux s cur = w :: ws ∧ w.head? = cur.reverse.head? := by
  induction s generalizing cur with
  | nil => exact ⟨cur.reverse, [], by simp [splitAux, h], rfl⟩
  | cons c s ih =>
    by_cases hc : pWs c = true
    · exact ⟨cur.reverse, splitAux s [], by simp [splitAux, hc, h], rfl⟩
    · obtain ⟨w, ws, h1, h2⟩ := ih (c :: cur) (by simp)
      refine ⟨w, ws, by simp only [splitAux, hc]; exact h1, ?_⟩
      rw [h2, List.reverse_cons, head_append_of_ne (by simpa using h)]

theorem splitAux_blank (s : Str) (c : Char) (hc : pWs c = true) (cur : Str) :
    splitAux (s ++ [c]) cur = splitAux s cur := by
  induction s generalizing cur with
  | nil => by_cases h : cur = [] <;> simp [splitAux, hc, h]
  | cons d s ih => simp only [List.cons_append, splitAux, ih]

theorem split_dropWhile (s : Str) : split (s.dropWhile pWs) = split s := by
  induction s with
  | nil => rfl
  | cons c s ih =>
    by_cases hc : pWs c = true
    · rw [List.dropWhile_cons_of_pos hc, ih]; simp [split, splitAux, hc]
    · rw [List.dropWhile_cons_of_neg hc]

theorem split_strip (s : Str) : split (strip s) = split s := by
  unfold strip
  rw [← split_dropWhile s]
  generalize s.dropWhile pWs = t
  induction t using List.reverseRecOn with
  | nil => rfl
  | append_singleton t c ih =>
    by_cases hc : pWs c = true
    · rw [List.reverse_append, List.reverse_singleton, List.singleton_append, List.dropWhile_cons_of_pos hc, ih]
      exact (splitAux_blank t c hc []).symm
    · rw [List.reverse_append, List.reverse_singleton, List.singleton_append, List.dropWhile_cons_of_neg hc]
      simp

theorem strip_head (s : Str) : (strip s).head? = (split s).head?.bind List.head? := by
  have h0 : (strip s).head? = (s.dropWhile pWs).head? := by
    unfold strip
    have hd : ∀ c ∈ (s.dropWhile pWs).head?, pWs c = false := by
      intro c hc
      have := List.head?_dropWhile_not pWs s
      rw [Option.mem_def.1 hc] at this
      simpa using this
    revert hd
    generalize s.dropWhile pWs = t
    intro hd
    cases t with
    | nil => rfl
    | cons c t =>
      have hc := hd c rfl
      have : ∀ u : Str, (u ++ [c]).dropWhile pWs = u.dropWhile pWs ++ [c] := by
        intro u
        induction u with
        | nil => simp [hc]
        | cons d u ih =>
          by_cases h : pWs d = true
          · simp only [List.cons_append, List.dropWhile_cons_of_pos h, ih]
          · simp only [List.cons_append, List.dropWhile_cons_of_neg h]
      rw [List.reverse_cons, this, List.reverse_append]
      rfl
  rw [h0, ← split_dropWhile]
  have hd : ∀ c ∈ (s.dropWhile pWs).head?, pWs c = false := by
    intro c hc
    have := List.head?_dropWhile_not pWs s
    rw [Option.mem_def.1 hc] at this
    simpa using this
  revert hd
  generalize s.dropWhile pWs = t
  intro hd
  cases t with
  | nil => rfl
  | cons c t =>
    have hc := hd c rfl
    obtain ⟨w, ws, h1, h2⟩ := splitAux_cur t [c] (by simp)
    have : split (c :: t) = w :: ws := by
      rw [← h1]; simp [split, splitAux, hc]
    rw [this]
    simpa using h2.symm

theorem splitAux_word (w r cur : Str) (hw : ∀ c ∈ w, pblank c = false) :
    splitAux (w ++ r) cur = splitAux r (w.reverse ++ cur) := by
  induction w generalizing cur with
  | nil => rfl
  | cons c w ih =>
    have hc : pWs c = false := by rw [pWs_eq]; exact hw c (by simp)
    simp only [List.cons_append, splitAux, hc]
    rw [if_neg (by simp), ih _ fun d hd => hw d (by simp [hd])]
    simp

theorem splitAux_blanks (s r : Str) (hs : ∀ c ∈ s, pblank c = true) : splitAux (s ++ r) [] = splitAux r [] := by
  induction s with
  | nil => rfl
  | cons c s ih =>
    have hc : pWs c = true := by rw [pWs_eq]; exact hs c (by simp)
    simp only [List.cons_append, splitAux, hc, if_true]
    exact ih fun d hd => hs d (by simp [hd])

theorem split_laid {ws : List Str} {t : Str} (h : Laid pblank ws t) : split t = ws := by
  induction h with
  | nil s hs =>
    have := splitAux_blanks s [] hs
    rw [List.append_nil] at this
    exact this
  | cons s w ws c t hs h1 h2 h3 _ ih =>
    have hc : pWs c = true := by rw [pWs_eq]; exact h3
    unfold split
    rw [List.append_assoc, splitAux_blanks s _ hs, splitAux_word w _ _ h2]
    simp only [splitAux, hc, if_true, List.append_nil]
    rw [if_neg (by simpa using h1), List.reverse_reverse]
    congr 1

theorem split_line {ws : List Str} {l : Str} (h : Laid pblank ws (l ++ ['\n'])) : split l = ws := by
  rw [← split_laid h]
  exact (splitAux_blank l '\n' (by decide) []).symm

theorem Laid.words_ne {p : Char → Bool} {ws : List Str} {t : Str} (h : Laid p ws t) : ∀ w ∈ ws, w ≠ [] := by
  induction h with
  | nil => simp
  | cons s w ws c t _ h1 _ _ _ ih =>
    intro x hx
    rcases List.mem_cons.1 hx with rfl | hx
    · exact h1
    · exact ih x hx

/-! ## Lines -/

/-- A line with these words. -/
def LineOf (ws : List Str) (l : Str) : Prop :=
  split l = ws ∧ (∀ w ∈ ws, w ≠ []) ∧ ∀ w, ws = [w] → strip l = w

/-- A line without white space at its ends, with these words. -/
def SLine (ws : List Str) (l : Str) : Prop := split l = ws ∧ ∀ w, ws = [w] → l = w

theorem strip_one {w l : Str} (h : Laid pblank [w] (l ++ ['\n'])) : strip l = w := by
  obtain ⟨s, c, r, e, hs, h1, h2, h3, h4⟩ := h.inv
  have hb := Laid.nil_iff.1 h4
  obtain ⟨q, x, hq⟩ : ∃ q x, c :: r = q ++ [x] :=
    ⟨(c :: r).dropLast, (c :: r).getLast (by simp), (List.dropLast_append_getLast (by simp)).symm⟩
  rw [hq, ← List.append_assoc, ← List.append_assoc] at e
  have hl : l = s ++ (w ++ q) := by
    rw [(List.append_inj' e rfl).1, List.append_assoc]
  have hqb : ∀ c ∈ q, pblank c = true := fun c hc => hb c (by rw [hq]; simp [hc])
  have hpw : pWs = pblank := funext pWs_eq
  unfold strip
  rw [hl, hpw, (takeWhile_stop pblank s (w ++ q) hs (by
    rw [head_append_of_ne h1]
    intro x hx
    exact h2 x (List.mem_of_mem_head? hx))).2, List.reverse_append,
    (takeWhile_stop pblank q.reverse w.reverse (by simpa using hqb) (by
      intro x hx
      exact h2 x (List.mem_reverse.1 (List.mem_of_mem_head? hx)))).2, List.reverse_reverse]

theorem lineOf_laid {ws : List Str} {l : Str} (h : Laid pblank ws (l ++ ['\n'])) : LineOf ws l :=
  ⟨split_line h, h.words_ne, fun w e => by subst e; exact strip_one h⟩

theorem uniNl_app (l t : Str) (h : ∀ c ∈ l, c ≠ '\n' ∧ c ≠ '\r') : uniNl (l ++ t) = l ++ uniNl t := by
  induction l with
  | nil => rfl
  | cons c l ih =>
    have hc := (h c (by simp)).2
    have e : uniNl (c :: (l ++ t)) = c :: uniNl (l ++ t) := by
      rw [uniNl]
      · rintro r rfl; exact absurd rfl hc
      · rintro rfl; exact absurd rfl hc
    rw [List.cons_append, e, ih fun d hd => h d (by simp [hd])]; rfl

theorem linesAux_app (l t cur : Str) (h : ∀ c ∈ l, c ≠ '\n' ∧ c ≠ '\r') :
    linesAux (l ++ t) cur = linesAux t (l.reverse ++ cur) := by
  induction l generalizing cur with
  | nil => rfl
  | cons c l ih =>
    have hc := (h c (by simp)).1
    simp only [List.cons_append, linesAux, hc, if_false]
    rw [ih _ fun d hd => h d (by simp [hd])]; simp

theorem readLines_textOf {wl : List (List Str)} {t : Str} (h : TextOf wl t) :
    List.Forall₂ LineOf wl (readLines t) := by
  induction h with
  | nil => exact List.Forall₂.nil
  | last ws l h1 h2 h3 =>
    have e : readLines l = [l] := by
      unfold readLines
      have := uniNl_app l [] h2
      rw [List.append_nil] at this
      rw [this]
      have := linesAux_app l [] [] h2
      simp only [uniNl]
      rw [this]
      simp [linesAux, h1]
    rw [e]
    exact .cons (lineOf_laid h3) .nil
  | lf ws l wl t h1 h2 _ ih =>
    have e : readLines (l ++ '\n' :: t) = l :: readLines t := by
      unfold readLines
      rw [uniNl_app l _ h1]
      have : uniNl ('\n' :: t) = '\n' :: uniNl t := by simp [uniNl]
      rw [this, linesAux_app l _ _ h1]
      simp [linesAux]
    rw [e]
    exact .cons (lineOf_laid h2) ih
  | crlf ws l wl t h1 h2 _ ih =>
    have e : readLines (l ++ '\r' :: '\n' :: t) = l :: readLines t := by
      unfold readLines
      rw [uniNl_app l _ h1]
      have : uniNl ('\r' :: '\n' :: t) = '\n' :: uniNl t := by simp [uniNl]
      rw [this, linesAux_app l _ _ h1]
      simp [linesAux]
    rw [e]
    exact .cons (lineOf_laid h2) ih

theorem LineOf.strip {ws : List Str} {l : Str} (h : LineOf ws l) : SLine ws (strip l) :=
  ⟨by rw [split_strip]; exact h.1, h.2.2⟩

theorem strip_nil_iff {ws : List Str} {l : Str} (h : LineOf ws l) : MolFile.strip l = [] ↔ ws = [] := by
  constructor
  · intro e
    rw [← h.1, ← split_strip, e]; rfl
  · rintro rfl
    have := strip_head l
    rw [h.1] at this
    simpa using this

theorem strip_bang_iff {w : Str} {ws : List Str} {l : Str} (h : LineOf (w :: ws) l) :
    (MolFile.strip l).head? = some '!' ↔ w.head? = some '!' := by
  rw [strip_head, h.1]; rfl

theorem content_iff {ws : List Str} {l : Str} (h : LineOf ws l) :
    (!(decide (MolFile.strip l = [])) && !(decide ((MolFile.strip l).head? = some '!'))) = isContent ws := by
  cases ws with
  | nil =>
    rw [(strip_nil_iff h).2 rfl]; rfl
  | cons w ws =>
    have h1 : ¬ MolFile.strip l = [] := by rw [strip_nil_iff h]; simp
    have h2 := strip_bang_iff h
    by_cases hb : w.head? = some '!'
    · simp [isContent, h1, h2.2 hb, hb]
    · have : ¬ (MolFile.strip l).head? = some '!' := fun e => hb (h2.1 e)
      simp [isContent, h1, this, hb]

theorem forall2_filter {wl : List (List Str)} {ls : List Str} {p : List Str → Bool} {q : Str → Bool}
    (h : List.Forall₂ LineOf wl ls) (hpq : ∀ ws l, LineOf ws l → q (strip l) = p ws) :
    List.Forall₂ SLine (wl.filter p) ((ls.map strip).filter q) := by
  induction h with
  | nil => exact .nil
  | @cons ws l _ _ h1 _ ih =>
    have := hpq ws l h1
    by_cases hp : p ws = true
    · rw [List.filter_cons_of_pos hp, List.map_cons, List.filter_cons_of_pos (by rw [this]; exact hp)]
      exact .cons h1.strip ih
    · rw [List.filter_cons_of_neg hp, List.map_cons, List.filter_cons_of_neg (by rw [this]; exact hp)]
      exact ih

theorem flines_textOf {wl : List (List Str)} {t : Str} (h : TextOf wl t) :
    List.Forall₂ SLine (wl.filter isContent) (flines t) :=
  forall2_filter (readLines_textOf h) fun _ _ hl => content_iff hl

theorem geo_textOf {wl : List (List Str)} {t : Str} (h : TextOf wl t) :
    geo t = (wl.drop 2).filter fun ws => ws ≠ [] := by
  have h1 : List.Forall₂ LineOf (wl.drop 2) ((readLines t).drop 2) := List.forall₂_drop 2 (readLines_textOf h)
  have h2 := forall2_filter (p := fun ws => decide (ws ≠ [])) (q := fun l => !decide (l = [])) h1 (by
    intro ws l hl
    have := strip_nil_iff hl
    by_cases e : ws = []
    · simp [e, this.2 e]
    · have : ¬ strip l = [] := fun e' => e (this.1 e')
      simp [e, this])
  unfold geo
  revert h2
  generalize (((readLines t).drop 2).map strip).filter (fun l => !decide (l = [])) = ls
  generalize (wl.drop 2).filter (fun ws => decide (ws ≠ [])) = ws
  intro h2
  induction h2 with
  | nil => rfl
  | cons h _ ih => rw [List.map_cons, ih, h.1]

end Simint.MolFile
