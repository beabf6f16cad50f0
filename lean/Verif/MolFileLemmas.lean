import Verif.MolFileSpec
import Mathlib.Algebra.Field.Basic
import Mathlib.Algebra.GroupWithZero.Basic
import Mathlib.Data.List.Induction
import Mathlib.Tactic.Ring
import Mathlib.Tactic.FieldSimp

/-!
# Lemmas about the reader of molecule files
-/

set_option autoImplicit false

namespace Simint.MolFile

/-! ## Characters -/

theorem char_eq_iff (c d : Char) : c = d ↔ c.toNat = d.toNat := by
  constructor
  · rintro rfl; rfl
  · intro h; exact Char.toNat_inj.1 h

theorem cWs_eq (c : Char) : cWs c = blank c := by
  rw [Bool.eq_iff_iff]
  simp only [cWs, blank, List.mem_cons, List.not_mem_nil, or_false, Bool.or_eq_true, Bool.and_eq_true,
    decide_eq_true_eq, char_eq_iff]
  have h1 : ' '.toNat = 32 := rfl
  have h2 : '\t'.toNat = 9 := rfl
  have h3 : '\n'.toNat = 10 := rfl
  have h4 : '\x0b'.toNat = 11 := rfl
  have h5 : '\x0c'.toNat = 12 := rfl
  have h6 : '\r'.toNat = 13 := rfl
  rw [h1, h2, h3, h4, h5, h6]
  omega

theorem cWs_blank : cWs = blank := funext cWs_eq

theorem isDig_digC : ∀ d : Fin 10, isDig (digC d) = true := by decide

theorem toNat_digC : ∀ d : Fin 10, (digC d).toNat - 48 = d.val := by decide

theorem blank_digC : ∀ d : Fin 10, blank (digC d) = false := by decide

theorem blank_not_dig (c : Char) (h : blank c = true) : isDig c = false := by
  rw [← cWs_eq] at h
  have h32 : ' '.toNat = 32 := rfl
  simp only [cWs, Bool.or_eq_true, Bool.and_eq_true, decide_eq_true_eq, char_eq_iff, h32] at h
  simp only [isDig, Bool.and_eq_false_iff, decide_eq_false_iff_not]
  omega

theorem digVal_append (w : Str) (c : Char) : digVal (w ++ [c]) = 10 * digVal w + (c.toNat - 48) := by
  simp [digVal]

theorem digVal_digC (ds : List (Fin 10)) : digVal (ds.map digC) = decVal ds := by
  induction ds using List.reverseRecOn with
  | nil => rfl
  | append_singleton ds d ih =>
    rw [List.map_append, List.map_singleton, digVal_append, ih, toNat_digC]
    simp only [decVal, List.reverse_append, List.reverse_singleton, List.singleton_append, List.map_cons,
      Nat.ofDigits_cons]
    omega

/-! ## Runs of characters -/

theorem takeWhile_stop (p : Char → Bool) (w : Str) (r : Str) (hw : ∀ c ∈ w, p c = true)
    (hr : ∀ c ∈ r.head?, p c = false) : (w ++ r).takeWhile p = w ∧ (w ++ r).dropWhile p = r := by
  rw [List.takeWhile_append_of_pos hw, List.dropWhile_append_of_pos hw]
  cases r with
  | nil => simp
  | cons c r =>
    have := hr c rfl
    simp [List.takeWhile_cons, List.dropWhile_cons, this]

theorem digs_stop (ds : List (Fin 10)) (r : Str) (hr : ∀ c ∈ r.head?, isDig c = false) :
    (ds.map digC ++ r).takeWhile isDig = ds.map digC ∧ (ds.map digC ++ r).dropWhile isDig = r :=
  takeWhile_stop isDig _ r (by
    intro c hc
    obtain ⟨d, _, rfl⟩ := List.mem_map.1 hc
    exact isDig_digC d) hr

theorem skip_blank (s t : Str) (hs : ∀ c ∈ s, blank c = true) (ht : ∀ c ∈ t.head?, blank c = false) :
    (s ++ t).dropWhile cWs = t := by
  rw [cWs_blank]
  exact (takeWhile_stop blank s t hs ht).2

theorem Laid.cons_blank {p : Char → Bool} {ws : List Str} {t : Str} (c : Char) (hc : p c = true)
    (h : Laid p ws t) : Laid p ws (c :: t) := by
  cases h with
  | nil _ hs => exact Laid.nil _ (by simpa [hc] using hs)
  | cons s w ws d t hs h1 h2 h3 h4 =>
    exact Laid.cons (c :: s) w ws d t (by simpa [hc] using hs) h1 h2 h3 h4

/-- The shape of a text that starts with a word. -/
theorem Laid.inv {p : Char → Bool} {w : Str} {ws : List Str} {t : Str} (h : Laid p (w :: ws) t) :
    ∃ s c r, t = s ++ (w ++ c :: r) ∧ (∀ c ∈ s, p c = true) ∧ w ≠ [] ∧ (∀ c ∈ w, p c = false) ∧
      p c = true ∧ Laid p ws (c :: r) := by
  cases h with
  | cons s _ _ c r hs h1 h2 h3 h4 => exact ⟨s, c, r, by simp, hs, h1, h2, h3, h4.cons_blank c h3⟩

theorem Laid.nil_iff {p : Char → Bool} {t : Str} : Laid p [] t ↔ ∀ c ∈ t, p c = true :=
  ⟨fun h => by cases h with | nil _ h => exact h, fun h => Laid.nil _ h⟩

theorem head_append_of_ne {w r : Str} (hw : w ≠ []) : (w ++ r).head? = w.head? := by
  cases w with
  | nil => exact absurd rfl hw
  | cons c w => rfl

/-! ## Reading one word -/

theorem rdStr_laid {w : Str} {ws : List Str} {t : Str} (h : Laid blank (w :: ws) t) :
    ∃ r, rdStr t = some (w, r) ∧ Laid blank ws r := by
  obtain ⟨s, c, r, rfl, hs, h1, h2, h3, h4⟩ := h.inv
  refine ⟨c :: r, ?_, h4⟩
  have e : (s ++ (w ++ c :: r)).dropWhile cWs = w ++ c :: r := skip_blank _ _ hs (by
    rw [head_append_of_ne h1]
    intro x hx
    exact h2 x (List.mem_of_mem_head? hx))
  obtain ⟨e1, e2⟩ := takeWhile_stop (fun c => !cWs c) w (c :: r) (by
    intro x hx
    rw [cWs_eq, h2 x hx]; rfl) (by
    intro x hx
    obtain rfl : c = x := by simpa using hx
    rw [cWs_eq, h3]; rfl)
  unfold rdStr
  simp only [e, e1, e2]
  rw [if_neg (by simp [h1])]

theorem takeSign_other (c : Char) (r : Str) (h1 : c ≠ '-') (h2 : c ≠ '+') :
    takeSign (c :: r) = (false, c :: r) := by
  unfold takeSign
  split
  · rename_i h; exact absurd (by injection h) h1
  · rename_i h; exact absurd (by injection h) h2
  · rfl

theorem takeSign_signText (sg : Option Bool) (r : Str) (hr : r ≠ []) (h : ∀ c ∈ r.head?, c ≠ '-' ∧ c ≠ '+') :
    takeSign (signText sg ++ r) = (decide (sg = some true), r) := by
  cases r with
  | nil => exact absurd rfl hr
  | cons c r =>
    obtain ⟨h1, h2⟩ := h c rfl
    rcases sg with _ | ⟨_ | _⟩
    · exact takeSign_other c r h1 h2
    · rfl
    · rfl

theorem digC_ne : ∀ d : Fin 10, digC d ≠ '-' ∧ digC d ≠ '+' ∧ digC d ≠ '.' ∧ digC d ≠ 'e' ∧ digC d ≠ 'E' := by
  decide

theorem rdInt_laid {n : ℕ} {w : Str} {ws : List Str} {t : Str} (hn : IntWord n w) (hle : n ≤ intMax)
    (h : Laid blank (w :: ws) t) : ∃ r, rdInt t = some ((n : ℤ), r) ∧ Laid blank ws r := by
  obtain ⟨s, c, r, rfl, hs, h1, h2, h3, h4⟩ := h.inv
  obtain ⟨ds, hds, rfl, hv⟩ := hn
  refine ⟨c :: r, ?_, h4⟩
  have e : (s ++ (ds.map digC ++ c :: r)).dropWhile cWs = ds.map digC ++ c :: r := skip_blank _ _ hs (by
    rw [head_append_of_ne h1]
    intro x hx
    exact h2 x (List.mem_of_mem_head? hx))
  have e3 : takeSign (ds.map digC ++ c :: r) = (false, ds.map digC ++ c :: r) := by
    cases ds with
    | nil => exact absurd rfl hds
    | cons d ds => exact takeSign_other _ _ (digC_ne d).1 (digC_ne d).2.1
  obtain ⟨e1, e2⟩ := digs_stop ds (c :: r) (by
    intro x hx
    obtain rfl : c = x := by simpa using hx
    exact blank_not_dig c h3)
  have hle' : n ≤ 2147483647 := hle
  unfold rdInt
  simp only [e, e3, e1, e2, digVal_digC, hv]
  rw [if_neg (by simp [hds])]
  rw [if_pos (by simp; omega)]
  simp

theorem takeFrac_text (d : Dec) (r : Str)
    (hr : ∀ c ∈ r.head?, isDig c = false ∧ c ≠ '.') :
    takeFrac (d.fracText ++ r) = ((d.fp.getD []).map digC, r) := by
  unfold Dec.fracText
  cases d.fp with
  | none =>
    simp only [List.nil_append, Option.getD_none, List.map_nil]
    cases r with
    | nil => rfl
    | cons c r =>
      have := (hr c rfl).2
      unfold takeFrac
      split
      · rename_i h; exact absurd (by injection h) this
      · rfl
  | some f =>
    obtain ⟨e1, e2⟩ := digs_stop f r fun c hc => (hr c hc).1
    simp only [List.cons_append, takeFrac, Option.getD_some, e1, e2]

theorem takeExp_text (d : Dec) (hd : ∀ e ∈ d.ex, e.2.2 ≠ []) (c : Char) (r : Str) (hc : blank c = true) :
    takeExp (d.exText ++ c :: r)
      = some (d.expo, c :: r) := by
  unfold Dec.expo Dec.exText
  rcases hex : d.ex with _ | ⟨up, sg, e⟩
  · simp only [List.nil_append]
    have h1 : ¬ (c = 'e' ∨ c = 'E') := by
      rintro (rfl | rfl) <;> exact absurd hc (by decide)
    rw [takeExp, if_neg h1]
  · have he : e ≠ [] := hd (up, sg, e) hex
    have h1 : (if up then 'E' else 'e') = 'e' ∨ (if up then 'E' else 'e') = 'E' := by cases up <;> simp
    have h2 := takeSign_signText sg (e.map digC ++ c :: r) (by simp) (by
      cases e with
      | nil => exact absurd rfl he
      | cons d e =>
        intro x hx
        obtain rfl : digC d = x := by simpa using hx
        exact ⟨(digC_ne d).1, (digC_ne d).2.1⟩)
    obtain ⟨e1, e2⟩ := digs_stop e (c :: r) (by
      intro x hx
      obtain rfl : c = x := by simpa using hx
      exact blank_not_dig c hc)
    simp only [List.cons_append, List.append_assoc, takeExp]
    rw [if_pos h1, h2]
    simp only [e1, e2, digVal_digC]
    rw [if_neg (by simpa using he)]
    simp

theorem Dec.body_head (d : Dec) (hd : d.OK) (r : Str) :
    ∃ x y, d.ip.map digC ++ (d.fracText ++ r) = x :: y ∧ x ≠ '-' ∧ x ≠ '+' ∧ blank x = false := by
  unfold Dec.fracText
  rcases hip : d.ip with _ | ⟨a, l⟩
  · rcases hfp : d.fp with _ | f
    · exact absurd hd.1 (by simp [hip, hfp])
    · exact ⟨'.', f.map digC ++ r, by simp, by decide, by decide, by decide⟩
  · exact ⟨digC a, _, rfl, (digC_ne a).1, (digC_ne a).2.1, blank_digC a⟩

theorem rdDbl_laid {d : Dec} {ws : List Str} {t : Str} (hd : d.OK) (h : Laid blank (d.text :: ws) t) :
    ∃ r, rdDbl t = some (d.value, r) ∧ Laid blank ws r := by
  obtain ⟨s, c, r, rfl, hs, h1, h2, h3, h4⟩ := h.inv
  refine ⟨c :: r, ?_, h4⟩
  have e : (s ++ (d.text ++ c :: r)).dropWhile cWs = d.text ++ c :: r := skip_blank _ _ hs (by
    rw [head_append_of_ne h1]
    intro x hx
    exact h2 x (List.mem_of_mem_head? hx))
  have e0 : d.text ++ c :: r = signText d.sign ++ (d.ip.map digC ++ (d.fracText ++ (d.exText ++ c :: r))) := by
    simp only [Dec.text, List.append_assoc]
  have e1 : takeSign (d.text ++ c :: r) = (decide (d.sign = some true), d.ip.map digC ++ (d.fracText ++ (d.exText ++ c :: r))) := by
    rw [e0]
    obtain ⟨x, y, hxy, g1, g2, _⟩ := d.body_head hd (d.exText ++ c :: r)
    rw [hxy]
    exact takeSign_signText _ _ (by simp) (by
      intro z hz
      obtain rfl : x = z := by simpa using hz
      exact ⟨g1, g2⟩)
  have hx : ∀ z ∈ (d.exText ++ c :: r).head?,
      isDig z = false ∧ z ≠ '.' := by
    unfold Dec.exText
    rcases d.ex with _ | ⟨up, sg, e⟩
    · intro z hz
      obtain rfl : c = z := by simpa using hz
      exact ⟨blank_not_dig _ h3, by rintro rfl; exact absurd h3 (by decide)⟩
    · intro z hz
      cases up
      · obtain rfl : 'e' = z := by simpa using hz
        exact (by decide : isDig 'e' = false ∧ 'e' ≠ '.')
      · obtain rfl : 'E' = z := by simpa using hz
        exact (by decide : isDig 'E' = false ∧ 'E' ≠ '.')
  have e2 := digs_stop d.ip (d.fracText ++ (d.exText ++ c :: r)) (by
      unfold Dec.fracText
      rcases d.fp with _ | f
      · intro z hz; exact (hx z hz).1
      · intro z hz
        obtain rfl : '.' = z := by simpa using hz
        exact (by decide : isDig '.' = false))
  have e3 := takeFrac_text d _ hx
  have e4 := takeExp_text d hd.2 c r h3
  have hne : ¬ (d.ip.map digC ++ (d.fp.getD []).map digC = []) := by
    rw [List.append_eq_nil_iff, List.map_eq_nil_iff, List.map_eq_nil_iff]
    rintro ⟨g1, g2⟩
    rcases hd.1 with g | g
    · exact g g1
    · exact g g2
  unfold rdDbl
  simp only [e, e1, e2.1, e2.2, e3, e4]
  rw [if_neg hne, if_neg (by simp)]
  have hv : digVal (d.ip.map digC ++ (d.fp.getD []).map digC) = decVal (d.ip ++ d.fp.getD []) := by
    rw [← List.map_append, digVal_digC]
  rw [hv, List.length_map]
  have hp : (10 : ℚ) ^ (d.expo - ((d.fp.getD []).length : ℤ)) = 10 ^ d.expo / 10 ^ (d.fp.getD []).length := by
    rw [zpow_sub₀ (by norm_num), zpow_natCast]
  rw [hp]
  unfold Dec.value
  congr 2
  by_cases hsg : d.sign = some true
  · simp only [hsg, decide_true, if_true]; ring
  · simp only [hsg, decide_false]; simp; ring

/-! ## Reading a molecule -/

theorem rdDbls_laid (ds : List Dec) (hd : ∀ d ∈ ds, d.OK) : ∀ (ws : List Str) (t : Str),
    Laid blank (ds.map Dec.text ++ ws) t →
    ∃ r, rdDbls ds.length t = some (ds.map Dec.value, r) ∧ Laid blank ws r := by
  induction ds with
  | nil => intro ws t h; exact ⟨t, rfl, h⟩
  | cons d ds ih =>
    intro ws t h
    obtain ⟨r, h1, h2⟩ := rdDbl_laid (hd d (by simp)) (by simpa using h)
    obtain ⟨r', h3, h4⟩ := ih (fun x hx => hd x (by simp [hx])) ws r h2
    exact ⟨r', by simp [rdDbls, h1, h3], h4⟩

theorem rdRows_laid (ngen : ℕ) (rows : List (Dec × List Dec))
    (hr : ∀ r ∈ rows, r.1.OK ∧ r.2.length = ngen ∧ ∀ c ∈ r.2, c.OK) : ∀ (ws : List Str) (t : Str),
    Laid blank ((rows.flatMap fun r => r.1.text :: r.2.map Dec.text) ++ ws) t →
    ∃ r, rdRows ngen rows.length t = some (rows.map fun r => (r.1.value, r.2.map Dec.value), r) ∧
      Laid blank ws r := by
  induction rows with
  | nil => intro ws t h; exact ⟨t, rfl, h⟩
  | cons x rows ih =>
    intro ws t h
    obtain ⟨hx1, hx2, hx3⟩ := hr x (by simp)
    obtain ⟨r, h1, h2⟩ := rdDbl_laid hx1 (by simpa using h)
    obtain ⟨r', h3, h4⟩ := rdDbls_laid x.2 hx3 _ r h2
    rw [hx2] at h3
    obtain ⟨r'', h5, h6⟩ := ih (fun y hy => hr y (by simp [hy])) ws r' h4
    exact ⟨r'', by simp [rdRows, h1, h3, h5], h6⟩

theorem ammapAt_eq (c : Char) : ammapAt c = letterAm c := by
  by_cases h : c ∈ amLetters
  · exact (by decide : ∀ c ∈ amLetters, ammapAt c = letterAm c) c h
  · unfold ammapAt letterAm
    rw [if_neg h]
    have : ammap.lookup c = none := by
      rw [List.lookup_eq_none_iff]
      intro p hp
      have hp' : p.1 ∈ amLetters := (by decide : ∀ p ∈ ammap, p.1 ∈ amLetters) p hp
      simp only [beq_eq_false_iff_ne, ne_eq, bne_iff_ne]
      rintro rfl
      exact h hp'
    rw [this]; rfl

theorem symbolAt_eq (s : Str) : symbolAt s = elements.lookup s := rfl

theorem elements_lookup {s : Str} {Z : ℕ} (h : (s, Z) ∈ elements) : elements.lookup s = some Z := by
  have := (by decide : ∀ p ∈ elements, elements.lookup p.1 = some p.2) _ h
  exact this

/-- Letter `l` behind the place `i` of the type. -/
theorem typeLetters_getElem (type : Str) (ht : type ≠ []) : ∀ (n i : ℕ), i < type.length →
    typeLetters type n (type.drop i) = (List.range n).map fun l => type.getD ((i + l) % type.length) ' ' := by
  intro n
  induction n with
  | zero => intro i _; cases type.drop i <;> rfl
  | succ n ih =>
    intro i hi
    rw [List.drop_eq_getElem_cons hi]
    simp only [typeLetters]
    rw [List.range_succ_eq_map, List.map_cons, List.map_map]
    have h0 : type.getD ((i + 0) % type.length) ' ' = type[i] := by
      rw [Nat.add_zero, Nat.mod_eq_of_lt hi]
      simp [List.getD_eq_getElem?_getD, hi]
    rw [h0]
    congr 1
    by_cases h : i + 1 < type.length
    · rw [if_neg (by rw [List.drop_eq_nil_iff]; omega), ih (i + 1) h]
      refine List.map_congr_left fun l _ => ?_
      simp only [Function.comp_apply]
      congr 2; omega
    · have hl : i + 1 = type.length := by omega
      rw [if_pos (by rw [List.drop_eq_nil_iff]; omega)]
      have := ih 0 (by omega)
      rw [List.drop_zero] at this
      rw [this]
      refine List.map_congr_left fun l _ => ?_
      simp only [Function.comp_apply]
      congr 1
      rw [show i + l.succ = l + type.length by omega, Nat.add_mod_right, Nat.zero_add]

theorem rdShell_laid (s : ShellD) (hs : s.OK) (x y z : ℚ) (sw ws : List Str) (hw : ShellWords s sw) (t : Str)
    (h : Laid blank (sw ++ ws) t) :
    ∃ r, rdShell x y z t = some ((List.range s.ngen).map (s.shell x y z), r) ∧ Laid blank ws r := by
  obtain ⟨w1, w2, hw1, hw2, rfl⟩ := hw
  obtain ⟨r1, h1, h2⟩ := rdStr_laid (by simpa using h)
  obtain ⟨r2, h3, h4⟩ := rdInt_laid hw1 hs.nprim h2
  obtain ⟨r3, h5, h6⟩ := rdInt_laid hw2 hs.ngen h4
  obtain ⟨r4, h7, h8⟩ := rdRows_laid s.ngen s.rows hs.row ws r3 (by simpa using h6)
  refine ⟨r4, ?_, h8⟩
  have hlen : 0 < s.type.length := List.length_pos_of_ne_nil hs.type.1
  have htl := typeLetters_getElem s.type hs.type.1 s.ngen 0 hlen
  rw [List.drop_zero] at htl
  unfold rdShell
  simp only [h1, h3, h5, Option.bind_eq_bind, Option.bind_some, Int.toNat_natCast, h7]
  rw [if_neg (by omega)]
  congr 1
  congr 1
  rw [htl]
  apply List.ext_getElem
  · simp
  · intro l h1 h2
    simp only [List.getElem_mapIdx, List.getElem_map, List.getElem_range, ShellD.shell, Nat.zero_add,
      List.map_map, Function.comp_apply, ammapAt_eq]
    rfl

theorem push_foldl (l : List RShell) (m : RMap) (am : ℕ) :
    (l.foldl RMap.push m) am = m am ++ l.filter fun s => s.am = am := by
  induction l generalizing m with
  | nil => simp
  | cons s l ih =>
    rw [List.foldl_cons, ih]
    unfold RMap.push
    by_cases h : am = s.am
    · rw [if_pos h, List.filter_cons_of_pos (by simp [h])]; simp
    · rw [if_neg h, List.filter_cons_of_neg (by simpa using fun e => h e.symm)]

theorem rdShells_laid (x y z : ℚ) (ss : List ShellD) (hs : ∀ s ∈ ss, s.OK) : ∀ (wss : List (List Str)),
    List.Forall₂ ShellWords ss wss → ∀ (ws : List Str) (m : RMap) (t : Str),
    Laid blank (wss.flatten ++ ws) t →
    ∃ r, rdShells x y z ss.length m t
        = some ((ss.flatMap fun s => (List.range s.ngen).map (s.shell x y z)).foldl RMap.push m, r) ∧
      Laid blank ws r := by
  induction ss with
  | nil => intro wss hw ws m t h; cases hw; exact ⟨t, rfl, h⟩
  | cons s ss ih =>
    intro wss hw ws m t h
    cases hw with
    | cons hw1 hw2 =>
      rename_i sw wss
      obtain ⟨r, h1, h2⟩ := rdShell_laid s (hs s (by simp)) x y z sw (wss.flatten ++ ws) hw1 t (by simpa using h)
      obtain ⟨r', h3, h4⟩ := ih (fun s hs' => hs s (by simp [hs'])) wss hw2 ws (((List.range s.ngen).map (s.shell x y z)).foldl RMap.push m) r h2
      exact ⟨r', by simp only [rdShells, List.length_cons, h1, Option.bind_eq_bind, Option.bind_some, h3,
        List.flatMap_cons, List.foldl_append], h4⟩

theorem rdAtoms_laid (M : List AtomD) (hM : ∀ a ∈ M, a.OK) : ∀ (wss : List (List Str)),
    List.Forall₂ AtomWords M wss → ∀ (ws : List Str) (m : RMap) (mol : List Centre) (t : Str),
    Laid blank (wss.flatten ++ ws) t →
    ∃ r, rdAtoms M.length m mol t = some (((molShells M).foldl RMap.push m, mol ++ molCentres M), r) ∧
      Laid blank ws r := by
  induction M with
  | nil => intro wss hw ws m mol t h; cases hw; exact ⟨t, by simp [rdAtoms, molShells, molCentres], h⟩
  | cons a M ih =>
    intro wss hw ws m mol t h
    cases hw with
    | cons hw1 hw2 =>
      rename_i sw wss
      have ha := hM a (by simp)
      obtain ⟨Z, hZ⟩ := ha.sym
      obtain ⟨n1, n2, g1', g2', w, w1, w2, sss, g0, g1, g2, g3, rfl⟩ := hw1
      obtain ⟨r0, h0, h⟩ := rdStr_laid (by simpa using h)
      obtain ⟨r1, h1, h⟩ := rdInt_laid g0 ha.nshell h
      obtain ⟨r2, h2, h⟩ := rdInt_laid g1 g1' h
      obtain ⟨r3, h3, h⟩ := rdInt_laid g2 g2' h
      obtain ⟨r4, h4, h⟩ := rdDbl_laid ha.xyz.1 h
      obtain ⟨r5, h5, h⟩ := rdDbl_laid ha.xyz.2.1 h
      obtain ⟨r6, h6, h⟩ := rdDbl_laid ha.xyz.2.2 h
      obtain ⟨r7, h7, h⟩ := rdShells_laid a.xyz.1.value a.xyz.2.1.value a.xyz.2.2.value a.shells ha.shells sss g3
        (wss.flatten ++ ws) m r6 (by simpa using h)
      obtain ⟨r8, h8, h⟩ := ih (fun a ha' => hM a (by simp [ha'])) wss hw2 ws
        ((a.shells.flatMap fun s => (List.range s.ngen).map
          (s.shell a.xyz.1.value a.xyz.2.1.value a.xyz.2.2.value)).foldl RMap.push m)
        (mol ++ [⟨Z, a.xyz.1.value, a.xyz.2.1.value, a.xyz.2.2.value⟩]) r7 h
      refine ⟨r8, ?_, h⟩
      simp only [rdAtoms, List.length_cons, h0, h1, h2, h3, h4, h5, h6, Option.bind_eq_bind, Option.bind_some,
        symbolAt_eq, elements_lookup hZ, Int.toNat_natCast, h7, h8]
      simp [molShells, molCentres, elements_lookup hZ]

theorem readRest_laid (M : List AtomD) (hM : MolOK M) (ws : List Str) (hw : MolWords M ws) (t : Str)
    (h : Laid blank ws t) :
    ∃ r, readRest t = some (((molShells M).foldl RMap.push (fun _ => []), molCentres M), r) ∧
      ∀ c ∈ r, blank c = true := by
  obtain ⟨w, wss, hw0, hw1, rfl⟩ := hw
  obtain ⟨r0, h0, h⟩ := rdInt_laid hw0 hM.1 h
  obtain ⟨r, h1, h⟩ := rdAtoms_laid M hM.2 wss hw1 [] (fun _ => []) [] r0 (by simpa using h)
  refine ⟨r, ?_, Laid.nil_iff.1 h⟩
  simp only [readRest, h0, Option.bind_eq_bind, Option.bind_some, Int.toNat_natCast, h1, List.nil_append]

end Simint.MolFile
