import Verif.MolFileWrite

/-!
# Lemmas about the writer of molecule files, second part
-/

set_option autoImplicit false

namespace Simint.MolFile

/-! ## Numbers -/

theorem pInt_ok {n : ℕ} {w : Str} (h : IntWord n w) : pInt w = some (n : ℤ) := by
  obtain ⟨ds, hds, rfl, hv⟩ := h
  have e3 : takeSign (ds.map digC) = (false, ds.map digC) := by
    cases ds with
    | nil => exact absurd rfl hds
    | cons d ds => exact takeSign_other _ _ (digC_ne d).1 (digC_ne d).2.1
  unfold pInt
  rw [e3]
  have : (ds.map digC).all isDig = true := by
    rw [List.all_eq_true]
    intro c hc
    obtain ⟨d, _, rfl⟩ := List.mem_map.1 hc
    exact isDig_digC d
  simp [this, hds, digVal_digC, hv]

theorem pStr_ok (n : ℕ) : IntWord n (pStr n) := by
  by_cases h : n = 0
  · subst h
    exact ⟨[0], by simp, rfl, rfl⟩
  · refine ⟨(Nat.digits 10 n).reverse.map (Fin.ofNat 10), ?_, ?_, ?_⟩
    · simp only [ne_eq, List.map_eq_nil_iff, List.reverse_eq_nil_iff]
      exact Nat.digits_ne_nil_iff_ne_zero.2 h
    · unfold pStr
      rw [if_neg h, List.map_map]
      refine List.map_congr_left fun d hd => ?_
      have : d < 10 := Nat.digits_lt_base (by norm_num) (List.mem_reverse.1 hd)
      simp [digC, Nat.mod_eq_of_lt this]
    · unfold decVal
      rw [← List.map_reverse, List.map_map, List.reverse_reverse]
      have : (Nat.digits 10 n).map (Fin.val ∘ Fin.ofNat 10) = Nat.digits 10 n := by
        conv_rhs => rw [← List.map_id (Nat.digits 10 n)]
        refine List.map_congr_left fun d hd => ?_
        have : d < 10 := Nat.digits_lt_base (by norm_num) hd
        simp [Nat.mod_eq_of_lt this]
      rw [this, Nat.ofDigits_digits]

/-! ## Reading the basis set -/

/-- What the script keeps of a shell, up to the case of the letters. -/
def ShellD.toP (s : ShellD) : PShell :=
  ⟨s.type, s.rows.map fun r => r.1.text, s.rows.map fun r => r.2.map Dec.text⟩

/-- What the script keeps of an atom. -/
def toPAtom (ss : List ShellD) : PAtom :=
  ⟨ss.map fun s => s.upper.toP, (ss.map fun s => s.rows.length).sum, 3 * (ss.map fun s => s.ngen).sum⟩

theorem pRows_ok (rows : List (Dec × List Dec)) : ∀ (W : List (List Str)) (ls : List Str),
    List.Forall₂ SLine ((rows.map fun r => r.1.text :: r.2.map Dec.text) ++ W) ls →
    ∃ ls2, pRows rows.length ls = some (rows.map fun r => (r.1.text, r.2.map Dec.text), ls2) ∧
      List.Forall₂ SLine W ls2 := by
  induction rows with
  | nil => intro W ls h; exact ⟨ls, by cases ls <;> rfl, h⟩
  | cons r rows ih =>
    intro W ls h
    rw [List.map_cons, List.cons_append] at h
    cases h with
    | @cons _ l _ ls h1 h2 =>
      obtain ⟨ls2, h3, h4⟩ := ih W ls h2
      exact ⟨ls2, by simp [pRows, h1.1, h3], h4⟩

theorem pShells_ok (ss : List ShellD) (hs : ∀ s ∈ ss, s.rows ≠ [] ∧ ∀ r ∈ s.rows, r.2.length = s.ngen) :
    ∀ (wss : List (List (List Str))), List.Forall₂ BShellLines ss wss →
    ∀ (f : ℕ) (at0 : PAtom) (W : List (List Str)) (ls : List Str),
    List.Forall₂ SLine (wss.flatten ++ ["****".toList] :: W) ls → wss.flatten.length < f →
    ∃ ls2, pShells f at0 ls = some (⟨at0.shells ++ (toPAtom ss).shells, at0.nprim1 + (toPAtom ss).nprim1,
        at0.nprim2 + (toPAtom ss).nprim2⟩, ls2) ∧ List.Forall₂ SLine W ls2 := by
  induction ss with
  | nil =>
    intro wss hw f at0 W ls h hf
    cases hw
    cases h with
    | @cons _ l _ ls h1 h2 =>
      obtain ⟨f, rfl⟩ : ∃ g, f = g + 1 := ⟨f - 1, by simp at hf; omega⟩
      refine ⟨ls, ?_, h2⟩
      rw [pShells, if_pos (show l = stars from h1.2 _ rfl)]
      simp [toPAtom]
  | cons s ss ih =>
    intro wss hw f at0 W ls h hf
    cases hw with
    | @cons _ w _ wss hw1 hw2 =>
      obtain ⟨cw, ex, hcw, rfl⟩ := hw1
      obtain ⟨hs1, hs2⟩ := hs s (by simp)
      rw [List.flatten_cons, List.cons_append, List.cons_append] at h
      cases h with
      | @cons _ l _ ls h1 h2 =>
        obtain ⟨f, rfl⟩ : ∃ g, f = g + 1 := ⟨f - 1, by simp at hf; omega⟩
        rw [List.append_assoc] at h2
        obtain ⟨ls2, h3, h4⟩ := pRows_ok s.rows _ ls h2
        have hne : l ≠ stars := by
          rintro rfl
          have := h1.1
          exact absurd this (by rw [show split stars = [stars] by decide]; simp)
        obtain ⟨ls3, h5, h6⟩ := ih (fun s hs' => hs s (by simp [hs'])) wss hw2 f
          ⟨at0.shells ++ [s.upper.toP], at0.nprim1 + s.rows.length, at0.nprim2 + 3 * s.ngen⟩ W ls2 h4 (by
            simp at hf ⊢; omega)
        refine ⟨ls3, ?_, h6⟩
        rw [pShells, if_neg hne, h1.1]
        simp only [pInt_ok hcw, Option.bind_eq_bind, Option.bind_some, Int.toNat_natCast, h3]
        obtain ⟨r0, rs, hr⟩ : ∃ r0 rs, s.rows = r0 :: rs := List.exists_cons_of_ne_nil hs1
        have hup : (⟨s.type.map upChar, (s.rows.map fun r => (r.1.text, r.2.map Dec.text)).map Prod.fst,
            (s.rows.map fun r => (r.1.text, r.2.map Dec.text)).map Prod.snd⟩ : PShell) = s.upper.toP := by
          simp only [ShellD.toP, ShellD.upper, List.map_map]
          rw [funext upChar_eq]
          rfl
        have hlen : (s.rows.map fun r => (r.1.text, r.2.map Dec.text)).length = s.rows.length := List.length_map _
        have hc0 : (r0.2.map Dec.text).length = s.ngen := by
          rw [List.length_map, hs2 r0 (by rw [hr]; simp)]
        have hrows : (s.rows.map fun r => (r.1.text, r.2.map Dec.text))
            = (r0.1.text, r0.2.map Dec.text) :: rs.map fun r => (r.1.text, r.2.map Dec.text) := by rw [hr]; rfl
        split
        · rename_i he
          rw [hrows] at he
          exact absurd he (by simp)
        · rename_i a c0 rest he
          have hc : c0 = r0.2.map Dec.text := by
            rw [hrows] at he
            simp only [List.cons.injEq, Prod.mk.injEq] at he
            exact he.1.2.symm
          rw [hup, hlen, hc, hc0, h5]
          simp only [toPAtom, List.map_cons, List.sum_cons, List.append_assoc, List.singleton_append,
            Option.some.injEq, Prod.mk.injEq, PAtom.mk.injEq, true_and, and_true]
          omega

theorem pBasis_ok (B : List (Str × List ShellD)) (hB : BasOK B) : ∀ (wss : List (List (List Str))),
    List.Forall₂ BAtomLines B wss → ∀ (f : ℕ) (d : PBas) (ls : List Str), List.Forall₂ SLine wss.flatten ls →
    wss.flatten.length < f →
    pBasis f d ls = some fun k => (lastEntry B k).elim (d k) fun ss => some (toPAtom ss) := by
  induction B with
  | nil =>
    intro wss hw f d ls h hf
    cases hw
    cases h
    obtain ⟨f, rfl⟩ : ∃ g, f = g + 1 := ⟨f - 1, by simp at hf; omega⟩
    rfl
  | cons a B ih =>
    intro wss hw f d ls h hf
    cases hw with
    | @cons _ w _ wss hw1 hw2 =>
      obtain ⟨ex, sss, hsss, rfl⟩ := hw1
      obtain ⟨f, rfl⟩ : ∃ g, f = g + 1 := ⟨f - 1, by simp at hf; omega⟩
      rw [List.flatten_cons, List.append_assoc, List.cons_append] at h
      have hlen := h.length_eq
      cases h with
      | @cons _ l _ ls h1 h2 =>
        obtain ⟨ls2, h3, h4⟩ := pShells_ok a.2 (hB a (by simp)) sss hsss (ls.length + 1) ⟨[], 0, 0⟩ wss.flatten ls
          (by simpa using h2) (by simp at hlen ⊢; omega)
        have h5 := ih (fun b hb => hB b (by simp [hb])) wss hw2 f
          (fun k => if k = a.1 then some (toPAtom a.2) else d k) ls2 h4 (by simp at hf ⊢; omega)
        rw [pBasis, h1.1]
        simp only [h3, Option.bind_eq_bind, Option.bind_some, List.nil_append, Nat.zero_add]
        rw [show (⟨(toPAtom a.2).shells, (toPAtom a.2).nprim1, (toPAtom a.2).nprim2⟩ : PAtom) = toPAtom a.2 from rfl,
          h5]
        congr 1
        funext k
        unfold lastEntry
        rw [List.reverse_cons, List.lookup_append]
        rcases hl : B.reverse.lookup k with _ | ss
        · by_cases hk : k = a.1
          · subst hk; simp [List.lookup]
          · have : (k == a.1) = false := by simpa using hk
            simp [List.lookup, this, hk]
        · simp

theorem atombas_ok {B : List (Str × List ShellD)} (hB : BasOK B) {bas : Str} (h : BasFile B bas) :
    atombas bas = some fun k => (lastEntry B k).map toPAtom := by
  obtain ⟨wl, l0, wss, h1, h2, h3⟩ := h
  have h4 := flines_textOf h1
  rw [h3] at h4
  unfold atombas
  revert h4
  generalize flines bas = fl
  intro h4
  cases h4 with
  | @cons _ l _ ls g1 g2 =>
    have := pBasis_ok B hB wss h2 (l :: ls).length.succ (fun _ => none) ls g2 (by
      rw [g2.length_eq]; simp; omega)
    rw [List.drop_one, List.tail_cons, this]
    congr 1
    funext k
    cases lastEntry B k <;> rfl

/-! ## Writing -/

/-- Putting the text in front of a text with words puts the words in front of them. -/
def Pre (ws : List Str) (t : Str) : Prop :=
  ∀ (W : List Str) (r : Str), Laid blank W r → Laid blank (ws ++ W) (t ++ r)

theorem Pre.nil : Pre [] [] := fun _ _ h => h

theorem Pre.append {ws ws' : List Str} {t t' : Str} (h : Pre ws t) (h' : Pre ws' t') :
    Pre (ws ++ ws') (t ++ t') := fun W r hr => by
  rw [List.append_assoc, List.append_assoc]
  exact h _ _ (h' _ _ hr)

theorem Pre.blank {c : Char} (hc : MolFile.blank c = true) : Pre [] [c] := fun _ _ h => h.cons_blank c hc

theorem Pre.word {w : Str} {c : Char} (h1 : w ≠ []) (h2 : ∀ c ∈ w, MolFile.blank c = false)
    (hc : MolFile.blank c = true) : Pre [w] (w ++ [c]) := fun W r h => by
  have := Laid.cons [] w W c r (by simp) h1 h2 hc h
  simpa using this

theorem Pre.flatten {wss : List (List Str)} {ts : List Str} (h : List.Forall₂ Pre wss ts) :
    Pre wss.flatten ts.flatten := by
  induction h with
  | nil => exact Pre.nil
  | cons h1 _ ih => exact h1.append ih

theorem signText_blank (sg : Option Bool) : ∀ c ∈ signText sg, blank c = false := by
  rcases sg with _ | ⟨_ | _⟩ <;> decide

theorem digs_blank (ds : List (Fin 10)) : ∀ c ∈ ds.map digC, blank c = false := by
  intro c hc
  obtain ⟨d, _, rfl⟩ := List.mem_map.1 hc
  exact blank_digC d

theorem Dec.text_blank (d : Dec) : ∀ c ∈ d.text, blank c = false := by
  intro c hc
  unfold Dec.text at hc
  simp only [List.mem_append] at hc
  rcases hc with ((hc | hc) | hc) | hc
  · exact signText_blank _ c hc
  · exact digs_blank _ c hc
  · unfold Dec.fracText at hc
    rcases hf : d.fp with _ | f <;> rw [hf] at hc
    · exact absurd hc (by simp)
    · rcases List.mem_cons.1 hc with rfl | hc
      · decide
      · exact digs_blank _ c hc
  · unfold Dec.exText at hc
    rcases hf : d.ex with _ | ⟨up, sg, e⟩ <;> rw [hf] at hc
    · exact absurd hc (by simp)
    · rcases List.mem_cons.1 hc with rfl | hc
      · cases up <;> decide
      · rcases List.mem_append.1 hc with hc | hc
        · exact signText_blank _ c hc
        · exact digs_blank _ c hc

theorem Dec.text_ne (d : Dec) (hd : d.OK) : d.text ≠ [] := by
  intro h
  unfold Dec.text at h
  simp only [List.append_eq_nil_iff, List.map_eq_nil_iff] at h
  obtain ⟨⟨⟨_, h2⟩, h3⟩, _⟩ := h
  unfold Dec.fracText at h3
  rcases hd.1 with g | g
  · exact g h2
  · rcases hf : d.fp with _ | f
    · exact g (by rw [hf]; rfl)
    · rw [hf] at h3; exact absurd h3 (by simp)

theorem Dec.pre (d : Dec) (hd : d.OK) {c : Char} (hc : MolFile.blank c = true) : Pre [d.text] (d.text ++ [c]) :=
  Pre.word (d.text_ne hd) d.text_blank hc

theorem pStr_pre (n : ℕ) {c : Char} (hc : blank c = true) : Pre [pStr n] (pStr n ++ [c]) := by
  obtain ⟨ds, h1, h2, _⟩ := pStr_ok n
  refine Pre.word ?_ ?_ hc
  · rw [h2]; simpa using h1
  · rw [h2]; exact digs_blank ds

theorem row_pre (cs : List Dec) : ∀ (d : Dec), d.OK → (∀ c ∈ cs, c.OK) →
    Pre (d.text :: cs.map Dec.text)
      (d.text ++ ((cs.map Dec.text).flatMap fun c => "    ".toList ++ c) ++ ['\n']) := by
  induction cs with
  | nil =>
    intro d hd _
    have := d.pre hd (c := '\n') rfl
    simpa using this
  | cons c cs ih =>
    intro d hd hc
    have h1 := d.pre hd (c := ' ') rfl
    have h2 := ih c (hc c (by simp)) fun x hx => hc x (by simp [hx])
    have hb : Pre [] [' '] := Pre.blank rfl
    have := h1.append (hb.append (hb.append (hb.append h2)))
    simpa using this

theorem mapM_some {α β : Type} (f : α → Option β) (g : α → β) (l : List α) (h : ∀ x ∈ l, f x = some (g x)) :
    l.mapM f = some (l.map g) := by
  induction l with
  | nil => rfl
  | cons x l ih =>
    rw [List.mapM_cons, h x (by simp), ih fun y hy => h y (by simp [hy])]
    rfl

/-- The text of a shell. -/
def ShellD.txt (s : ShellD) : Str :=
  s.type ++ ' ' :: pStr s.rows.length ++ ' ' :: pStr s.ngen ++ '\n' ::
    (s.rows.map fun r => r.1.text ++ ((r.2.map Dec.text).flatMap fun c => "    ".toList ++ c) ++ ['\n']).flatten

theorem pShellText_ok (s : ShellD) (hs : s.OK) (hne : s.rows ≠ []) : pShellText s.toP = some s.txt := by
  obtain ⟨r0, rs, hr⟩ : ∃ r0 rs, s.rows = r0 :: rs := List.exists_cons_of_ne_nil hne
  have h0 : (s.toP).coef.head?.map List.length = some s.ngen := by
    unfold ShellD.toP
    simp only [hr, List.map_cons, List.head?_cons, Option.map_some, List.length_map]
    rw [(hs.row r0 (by rw [hr]; simp)).2.1]
  have hz : (s.toP).alpha.zip (s.toP).coef = s.rows.map fun r => (r.1.text, r.2.map Dec.text) := by
    unfold ShellD.toP
    exact List.zip_map'
  have h1 : (s.rows.map fun r => (r.1.text, r.2.map Dec.text)).mapM
        (fun p : Str × List Str => pRowText s.ngen p.1 p.2)
      = some (s.rows.map fun r =>
        r.1.text ++ ((r.2.map Dec.text).flatMap fun c => "    ".toList ++ c) ++ ['\n']) := by
    rw [List.mapM_map]
    refine mapM_some _ _ _ fun r hr => ?_
    have hl : (r.2.map Dec.text).length = s.ngen := by rw [List.length_map, (hs.row r hr).2.1]
    simp only [pRowText, Function.comp_apply]
    rw [if_neg (by omega), List.take_of_length_le (by omega)]
  have hal : (s.toP).alpha.length = s.rows.length := by unfold ShellD.toP; exact List.length_map _
  unfold pShellText
  rw [h0, hz]
  simp only [Option.bind_eq_bind, Option.bind_some]
  rw [h1, hal]
  rfl

theorem shell_pre (s : ShellD) (hs : s.OK) : ∃ ws, ShellWords s ws ∧ Pre ws s.txt := by
  refine ⟨_, ⟨pStr s.rows.length, pStr s.ngen, pStr_ok _, pStr_ok _, rfl⟩, ?_⟩
  have h1 : Pre [s.type] (s.type ++ [' ']) := Pre.word hs.type.1 hs.type.2 rfl
  have h2 : Pre [pStr s.rows.length] _ := pStr_pre s.rows.length (c := ' ') rfl
  have h3 : Pre [pStr s.ngen] _ := pStr_pre s.ngen (c := '\n') rfl
  have h4 : Pre (s.rows.map fun r => r.1.text :: r.2.map Dec.text).flatten
      (s.rows.map fun r => r.1.text ++ ((r.2.map Dec.text).flatMap fun c => "    ".toList ++ c) ++ ['\n']).flatten := by
    refine Pre.flatten ?_
    rw [List.forall₂_map_left_iff, List.forall₂_map_right_iff, List.forall₂_same]
    intro r hr
    obtain ⟨g1, _, g2⟩ := hs.row r hr
    exact row_pre r.2 r.1 g1 g2
  have := h1.append (h2.append (h3.append h4))
  simpa [ShellD.txt, List.flatMap_def] using this

/-- What the script keeps of an atom of the molecule. -/
def AtomD.toPMol (a : AtomD) : PMol :=
  ⟨a.sym, (a.xyz.1.text, a.xyz.2.1.text, a.xyz.2.2.text), ⟨a.shells.map ShellD.toP, a.nprim, 3 * a.ngen⟩⟩

/-- The text of an atom. -/
def AtomD.txt (a : AtomD) : Str :=
  a.sym ++ ' ' :: pStr a.shells.length ++ ' ' :: pStr a.nprim ++ ' ' :: pStr (3 * a.ngen) ++
    '\n' :: a.xyz.1.text ++ ' ' :: a.xyz.2.1.text ++ ' ' :: a.xyz.2.2.text ++ '\n' ::
    (a.shells.map ShellD.txt).flatten

theorem pAtomText_ok (a : AtomD) (ha : a.OK) (hne : ∀ s ∈ a.shells, s.rows ≠ []) :
    pAtomText a.toPMol = some a.txt := by
  have h : (a.shells.map ShellD.toP).mapM pShellText = some (a.shells.map ShellD.txt) := by
    rw [List.mapM_map]
    exact mapM_some _ _ _ fun s hs => pShellText_ok s (ha.shells s hs) (hne s hs)
  unfold pAtomText AtomD.toPMol
  simp only [h, Option.bind_eq_bind, Option.bind_some, List.length_map]
  rfl

theorem elements_word {s : Str} {Z : ℕ} (h : (s, Z) ∈ elements) : s ≠ [] ∧ ∀ c ∈ s, blank c = false :=
  (by decide : ∀ p ∈ elements, p.1 ≠ [] ∧ ∀ c ∈ p.1, blank c = false) _ h

theorem atom_pre (a : AtomD) (ha : a.OK) : ∃ ws, AtomWordsN a a.nprim (3 * a.ngen) ws ∧ Pre ws a.txt := by
  obtain ⟨wss, hw1, hw2⟩ : ∃ wss, List.Forall₂ ShellWords a.shells wss ∧
      List.Forall₂ Pre wss (a.shells.map ShellD.txt) := by
    have := ha.shells
    revert this
    generalize a.shells = ss
    intro hss
    induction ss with
    | nil => exact ⟨[], .nil, .nil⟩
    | cons s ss ih =>
      obtain ⟨wss, h1, h2⟩ := ih fun s hs => hss s (by simp [hs])
      obtain ⟨ws, h3, h4⟩ := shell_pre s (hss s (by simp))
      exact ⟨ws :: wss, .cons h3 h1, .cons h4 h2⟩
  refine ⟨_, ⟨pStr a.shells.length, pStr a.nprim, pStr (3 * a.ngen), wss, pStr_ok _, pStr_ok _, pStr_ok _, hw1,
    rfl⟩, ?_⟩
  obtain ⟨Z, hZ⟩ := ha.sym
  have h1 : Pre [a.sym] (a.sym ++ [' ']) := Pre.word (elements_word hZ).1 (elements_word hZ).2 rfl
  have h2 := pStr_pre a.shells.length (c := ' ') rfl
  have h3 := pStr_pre a.nprim (c := ' ') rfl
  have h4 := pStr_pre (3 * a.ngen) (c := '\n') rfl
  have h5 := a.xyz.1.pre ha.xyz.1 (c := ' ') rfl
  have h6 := a.xyz.2.1.pre ha.xyz.2.1 (c := ' ') rfl
  have h7 := a.xyz.2.2.pre ha.xyz.2.2 (c := '\n') rfl
  have := h1.append (h2.append (h3.append (h4.append (h5.append (h6.append (h7.append (Pre.flatten hw2)))))))
  simpa [AtomD.txt] using this

theorem pMol_ok {coord : Str → Option Str} {G : List (Str × Str × Str × Str)} {B : List (Str × List ShellD)}
    {M : List AtomD} (hM : MolOf coord G B M) {wl : List (List Str)}
    (hG : List.Forall₂ (fun (g : Str × Str × Str × Str) ws =>
      ∃ ex, ws = g.1 :: g.2.1 :: g.2.2.1 :: g.2.2.2 :: ex) G wl) :
    wl.mapM (pMol coord fun k => (lastEntry B k).map toPAtom) = some (M.map AtomD.toPMol) := by
  induction hM generalizing wl with
  | nil => cases hG; rfl
  | @cons g a G M h1 _ ih =>
    cases hG with
    | cons hg1 hg2 =>
      obtain ⟨ex, rfl⟩ := hg1
      obtain ⟨e1, e2, e3, e4, ss, e5, e6⟩ := h1
      rw [List.mapM_cons, ih hg2]
      have : pMol coord (fun k => (lastEntry B k).map toPAtom) (g.1 :: g.2.1 :: g.2.2.1 :: g.2.2.2 :: ex)
          = some a.toPMol := by
        simp only [pMol, e2, e3, e4, e5, Option.bind_eq_bind, Option.bind_some, Option.map_some]
        unfold AtomD.toPMol toPAtom AtomD.nprim AtomD.ngen
        rw [e6, e1]
        simp [Function.comp_def, ShellD.upper]
      rw [this]
      rfl

theorem genMol_ok {coord : Str → Option Str} {xyz bas : Str} {G : List (Str × Str × Str × Str)}
    {B : List (Str × List ShellD)} {M : List AtomD} (hx : XyzFile G xyz) (hb : BasFile B bas) (hB : BasOK B)
    (hM : MolOf coord G B M) (hOK : MolOK M) :
    ∃ t ws w wss, genMol coord xyz bas = some t ∧ Laid blank ws t ∧ IntWord M.length w ∧
      List.Forall₂ (fun a => AtomWordsN a a.nprim (3 * a.ngen)) M wss ∧ ws = w :: wss.flatten := by
  have hne : ∀ a ∈ M, ∀ s ∈ a.shells, s.rows ≠ [] := by
    intro a ha s hs
    obtain ⟨g, _, h⟩ : ∃ g ∈ G, ∃ ss, lastEntry B g.1 = some ss ∧ a.shells = ss.map ShellD.upper := by
      clear hOK hx hb
      induction hM with
      | nil => exact absurd ha (by simp)
      | @cons g b G M h1 _ ih =>
        rcases List.mem_cons.1 ha with rfl | ha
        · exact ⟨g, by simp, h1.2.2.2.2⟩
        · obtain ⟨g', hg', h⟩ := ih ha
          exact ⟨g', by simp [hg'], h⟩
    obtain ⟨ss, h1, h2⟩ := h
    rw [h2] at hs
    obtain ⟨s', hs', rfl⟩ := List.mem_map.1 hs
    have hmem : (g.1, ss) ∈ B := by
      unfold lastEntry at h1
      obtain ⟨l1, l2, he, _⟩ := List.lookup_eq_some_iff.1 h1
      rw [← List.mem_reverse, he]
      simp
    exact (hB _ hmem s' hs').1
  obtain ⟨wl, h1, h2⟩ := hx
  have e1 := geo_textOf h1
  have e2 := pMol_ok hM h2
  obtain ⟨wss, g1, g2⟩ : ∃ wss, List.Forall₂ (fun a => AtomWordsN a a.nprim (3 * a.ngen)) M wss ∧
      List.Forall₂ Pre wss (M.map AtomD.txt) := by
    have := hOK.2
    clear e2 hne hOK hM
    induction M with
    | nil => exact ⟨[], .nil, .nil⟩
    | cons a M ih =>
      obtain ⟨wss, q1, q2⟩ := ih fun a ha => this a (by simp [ha])
      obtain ⟨ws, q3, q4⟩ := atom_pre a (this a (by simp))
      exact ⟨ws :: wss, .cons q3 q1, .cons q4 q2⟩
  have e3 : (M.map AtomD.toPMol).mapM pAtomText = some (M.map AtomD.txt) := by
    rw [List.mapM_map]
    exact mapM_some _ _ _ fun a ha => pAtomText_ok a (hOK.2 a ha) (hne a ha)
  refine ⟨pStr M.length ++ '\n' :: (M.map AtomD.txt).flatten, pStr M.length :: wss.flatten, pStr M.length, wss,
    ?_, ?_, pStr_ok _, g1, rfl⟩
  · unfold genMol
    rw [atombas_ok hB hb, e1]
    simp only [Option.bind_eq_bind, Option.bind_some]
    rw [e2]
    simp only [Option.bind_some, List.length_map]
    rw [e3]
    rfl
  · have h3 := (pStr_pre M.length (c := '\n') rfl).append (Pre.flatten g2)
    have := h3 [] [] (Laid.nil _ (by simp))
    simpa using this

end Simint.MolFile
