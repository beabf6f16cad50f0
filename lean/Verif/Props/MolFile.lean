import Verif.MolFileGen
import Verif.MolFileEof

/-!
# C79: the molecule files of the test programs
-/

set_option autoImplicit false

namespace Simint.MolFile

/-- C79: however the words of a molecule are laid out with white space, `ReadBasis` returns its atoms and, for
every angular momentum, its shells with that angular momentum in the order of the file. -/
theorem C79_read (M : List AtomD) (hM : MolOK M) (ws : List Str) (hw : MolWords M ws) (t : Str)
    (h : Laid blank ws t) :
    ∃ m, readBasis t = some (m, molCentres M) ∧ ∀ am, m am = (molShells M).filter fun s => s.am = am := by
  obtain ⟨r, h1, _⟩ := readRest_laid M hM ws hw t h
  refine ⟨_, by unfold readBasis; rw [h1]; rfl, fun am => ?_⟩
  rw [push_foldl, List.nil_append]

/-- C79: what gen_mol.py writes consists of the words of the molecule; the two numbers of every atom that
`ReadBasis` does not use are the number of primitives and 3 times the number of general contractions. -/
theorem C79_write {coord : Str → Option Str} {xyz bas : Str} {G : List (Str × Str × Str × Str)}
    {B : List (Str × List ShellD)} {M : List AtomD} (hx : XyzFile G xyz) (hb : BasFile B bas) (hB : BasOK B)
    (hM : MolOf coord G B M) (hOK : MolOK M) :
    ∃ t ws w wss, genMol coord xyz bas = some t ∧ Laid blank ws t ∧ IntWord M.length w ∧
      List.Forall₂ (fun a => AtomWordsN a a.nprim (3 * a.ngen)) M wss ∧ ws = w :: wss.flatten :=
  genMol_ok hx hb hB hM hOK

/-- C79: from a geometry and a basis set to the shells of the test programs: what gen_mol.py writes is read
by `ReadBasis` as the molecule in the basis set. -/
theorem C79_roundtrip {coord : Str → Option Str} {xyz bas : Str} {G : List (Str × Str × Str × Str)}
    {B : List (Str × List ShellD)} {M : List AtomD} (hx : XyzFile G xyz) (hb : BasFile B bas) (hB : BasOK B)
    (hM : MolOf coord G B M) (hOK : MolOK M)
    (hn : ∀ a ∈ M, a.nprim ≤ intMax ∧ 3 * a.ngen ≤ intMax) :
    ∃ t m, genMol coord xyz bas = some t ∧ readBasis t = some (m, molCentres M) ∧
      ∀ am, m am = (molShells M).filter fun s => s.am = am := by
  obtain ⟨t, ws, w, wss, h1, h2, h3, h4, h5⟩ := genMol_ok hx hb hB hM hOK
  have hf : List.Forall₂ AtomWords M wss := by
    clear h5 h3 hOK hM
    induction h4 with
    | nil => exact .nil
    | @cons a _ M _ g _ ih =>
      exact .cons ⟨_, _, (hn a (by simp)).1, (hn a (by simp)).2, g⟩ (ih fun b hb => hn b (by simp [hb]))
  obtain ⟨m, g1, g2⟩ := C79_read M hOK ws ⟨w, wss, h3, hf, h5⟩ t h2
  exact ⟨t, m, h1, g1, g2⟩

/-- C79: a file that ends right behind its last word is rejected. -/
theorem C79_eof (M : List AtomD) (hM : MolOK M) (ws : List Str) (hw : MolWords M ws) (t : Str)
    (h : Laid blank ws (t ++ ['\n'])) (ht : ∀ c ∈ t.getLast?, blank c = false) : readBasis t = none := by
  obtain ⟨r', h1, h2⟩ := readRest_laid M hM ws hw _ h
  unfold readBasis
  rcases hr : readRest t with _ | ⟨v, r⟩
  · rfl
  · exfalso
    obtain ⟨g1, _, g3⟩ := readRest_good t v r hr
    have hne := readRest_ne hr
    have := g3 ['\n']
    rw [h1] at this
    simp only [Option.some.injEq, Prod.mk.injEq] at this
    have hlast : t.getLast? = some (r.getLast hne) := by
      obtain ⟨q, rfl⟩ := g1
      rw [List.getLast?_append_of_ne_nil _ hne, List.getLast?_eq_some_getLast hne]
    have e1 := ht _ hlast
    have e2 := h2 (r.getLast hne) (by rw [this.2]; exact List.mem_append_left _ (List.getLast_mem hne))
    rw [e1] at e2
    exact absurd e2 (by simp)

/-- One hydrogen atom with one primitive of type `c`. -/
def oneShell (c : Char) : List AtomD :=
  [⟨['H'], (⟨none, [0], none, none⟩, ⟨none, [0], none, none⟩, ⟨none, [0], none, none⟩),
    [⟨[c], 1, [(⟨none, [2], none, none⟩, [⟨none, [1], none, none⟩])]⟩]⟩]

/-- The file for it. -/
def oneText (c : Char) : Str := "1\nH 1 1 1\n0 0 0\n".toList ++ c :: " 1 1\n2 1\n".toList

/-- C79, the other way around: a type that is not one of the 26 capital letters of the table is not rejected.
Whatever the character is (a small letter, for example), the file is read as a molecule with an s shell. -/
theorem C79_unknown_letter (c : Char) (hc : blank c = false) (hn : c ∉ amLetters) :
    ∃ m, readBasis (oneText c) = some (m, [⟨1, 0, 0, 0⟩]) ∧
      m 0 = [⟨0, 1, 0, 0, 0, [2], [1]⟩] ∧ ∀ am, am ≠ 0 → m am = [] := by
  have hdec : ∀ d : Fin 10, Dec.OK ⟨none, [d], none, none⟩ := fun d => ⟨by simp, by simp⟩
  have hval : ∀ d : Fin 10, Dec.value ⟨none, [d], none, none⟩ = (d.val : ℚ) := by
    intro d
    simp [Dec.value, Dec.expo, decVal]
  have hOK : MolOK (oneShell c) := by
    refine ⟨by simp [oneShell, intMax], ?_⟩
    intro a ha
    obtain rfl : a = _ := by simpa [oneShell] using ha
    refine ⟨⟨1, (by decide : (['H'], 1) ∈ elements)⟩, ⟨hdec 0, hdec 0, hdec 0⟩, by simp [intMax], ?_⟩
    intro s hs
    obtain rfl : s = _ := by simpa using hs
    refine ⟨⟨by simp, by simpa using hc⟩, by simp [intMax], by simp [intMax], ?_⟩
    intro r hr
    obtain rfl : r = _ := by simpa using hr
    exact ⟨hdec 2, rfl, by intro x hx; obtain rfl : x = _ := (by simpa using hx); exact hdec 1⟩
  have one : IntWord 1 ['1'] := ⟨[1], by simp, rfl, rfl⟩
  have hW : MolWords (oneShell c) [['1'], ['H'], ['1'], ['1'], ['1'], ['0'], ['0'], ['0'], [c], ['1'], ['1'],
      ['2'], ['1']] := by
    refine ⟨['1'], [[['H'], ['1'], ['1'], ['1'], ['0'], ['0'], ['0'], [c], ['1'], ['1'], ['2'], ['1']]], one, ?_,
      rfl⟩
    refine .cons ⟨1, 1, by decide, by decide, ['1'], ['1'], ['1'], [[[c], ['1'], ['1'], ['2'], ['1']]], one, one,
      one, ?_, rfl⟩ .nil
    exact .cons ⟨['1'], ['1'], one, one, rfl⟩ .nil
  have hL : Laid blank [['1'], ['H'], ['1'], ['1'], ['1'], ['0'], ['0'], ['0'], [c], ['1'], ['1'], ['2'], ['1']]
      (oneText c) := by
    have step : ∀ (x y : Char) (ws : List Str) (t : Str), blank x = false → blank y = true → Laid blank ws t →
        Laid blank ([x] :: ws) (x :: y :: t) := fun x y ws t hx hy h =>
      Laid.cons [] [x] ws y t (by simp) (by simp) (by simpa using hx) hy h
    refine step '1' '\n' _ _ rfl rfl (step 'H' ' ' _ _ rfl rfl (step '1' ' ' _ _ rfl rfl
      (step '1' ' ' _ _ rfl rfl (step '1' '\n' _ _ rfl rfl (step '0' ' ' _ _ rfl rfl
      (step '0' ' ' _ _ rfl rfl (step '0' '\n' _ _ rfl rfl (step c ' ' _ _ hc rfl
      (step '1' ' ' _ _ rfl rfl (step '1' '\n' _ _ rfl rfl (step '2' ' ' _ _ rfl rfl
      (step '1' '\n' _ _ rfl rfl (Laid.nil [] (by simp))))))))))))))
  obtain ⟨m, h1, h2⟩ := C79_read _ hOK _ hW _ hL
  have hC : molCentres (oneShell c) = [⟨1, 0, 0, 0⟩] := by
    simp only [molCentres, oneShell, List.map_cons, List.map_nil, hval]
    rfl
  have hS : molShells (oneShell c) = [⟨0, 1, 0, 0, 0, [2], [1]⟩] := by
    simp [molShells, oneShell, ShellD.shell, hval, letterAm, hn]
  rw [hC] at h1
  refine ⟨m, h1, ?_, ?_⟩
  · rw [h2, hS]; rfl
  · intro am ham
    rw [h2, hS]
    simpa using fun e => ham e.symm

/-- C79: the fourth number of an atom is not the number of primitives with general contractions counted as
several primitives (the comment in gen_mol.py:45): 3 instead of 1 for a single primitive. -/
theorem C79_nprim2_false :
    genMol some "1\n\nH 0 0 1.5\n".toList "****\nH 0\ns 1 1.00\n  0.5 1.0\n****\n".toList
      = some "1\nH 1 1 3\n0 0 1.5\nS 1 1\n0.5    1.0\n".toList := by decide +kernel

/-! ## Examples -/

theorem laid_splitAux (s cur : Str) (hc : ∀ c ∈ cur, pblank c = false) :
    Laid pblank (splitAux (s ++ ['\n']) cur) (cur.reverse ++ (s ++ ['\n'])) := by
  induction s generalizing cur with
  | nil =>
    by_cases h : cur = []
    · subst h; exact Laid.nil _ (by decide)
    · have e : splitAux ([] ++ ['\n']) cur = [cur.reverse] := by simp [splitAux, pWs, h]
      rw [e]
      have := Laid.cons [] cur.reverse [] '\n' [] (by simp) (by simpa using h) (by simpa using hc)
        (by decide) (Laid.nil [] (by simp))
      simpa using this
  | cons c s ih =>
    by_cases hb : pblank c = true
    · have hb' : pWs c = true := by rw [pWs_eq]; exact hb
      by_cases h : cur = []
      · subst h
        have := (ih [] (by simp)).cons_blank c hb
        simpa [splitAux, hb'] using this
      · have := Laid.cons [] cur.reverse _ c _ (by simp) (by simpa using h) (by simpa using hc) hb (ih [] (by simp))
        simpa [splitAux, hb', h] using this
    · have hb' : pblank c = false := by simpa using hb
      have hb'' : pWs c = false := by rw [pWs_eq]; exact hb'
      have := ih (c :: cur) (by simpa [hb'] using hc)
      simpa [splitAux, hb''] using this

/-- A line that ends with `\n` has the words that `split` finds. -/
theorem textOf_cons (l : Str) (wl : List (List Str)) (t : Str) (hl : l.all fun c => c ≠ '\n' ∧ c ≠ '\r')
    (h : TextOf wl t) : TextOf (split (l ++ ['\n']) :: wl) (l ++ '\n' :: t) :=
  TextOf.lf _ l wl t (by simpa using hl) (laid_splitAux l [] (by simp)) h

-- the hypotheses of `C79_roundtrip` hold for a hydrogen atom in a basis set with a comment
example : ∃ t m, genMol some "1\n\nH 0 0 1.5\n".toList "!\n****\nH 0\nsp 1 1.00\n  0.5 1.0 2.0\n****\n".toList = some t ∧
    readBasis t = some (m, [⟨1, 0, 0, 3 / 2⟩]) ∧ m 0 = [⟨0, 1, 0, 0, 3 / 2, [1 / 2], [1]⟩] ∧
    m 1 = [⟨1, 1, 0, 0, 3 / 2, [1 / 2], [2]⟩] := by
  let s : ShellD := ⟨['s', 'p'], 2, [(⟨none, [0], some [5], none⟩,
    [⟨none, [1], some [0], none⟩, ⟨none, [2], some [0], none⟩])]⟩
  let a : AtomD := ⟨['H'], (⟨none, [0], none, none⟩, ⟨none, [0], none, none⟩, ⟨none, [1], some [5], none⟩), [s.upper]⟩
  have hx : XyzFile [(['H'], ['0'], ['0'], ['1', '.', '5'])] "1\n\nH 0 0 1.5\n".toList := by
    refine ⟨_, textOf_cons ['1'] _ _ rfl (textOf_cons [] _ _ rfl (textOf_cons "H 0 0 1.5".toList _ _ (by decide)
      TextOf.nil)), ?_⟩
    exact .cons ⟨[], by decide⟩ .nil
  have hb : BasFile [(['H'], [s])] "!\n****\nH 0\nsp 1 1.00\n  0.5 1.0 2.0\n****\n".toList := by
    refine ⟨_, [stars], [[[['H'], ['0']], ["sp".toList, ['1'], "1.00".toList], ["0.5".toList, "1.0".toList,
      "2.0".toList], [stars]]],
      textOf_cons ['!'] _ _ rfl (textOf_cons stars _ _ (by decide) (textOf_cons "H 0".toList _ _ (by decide)
      (textOf_cons "sp 1 1.00".toList _ _ (by decide) (textOf_cons "  0.5 1.0 2.0".toList _ _ (by decide)
      (textOf_cons stars _ _ (by decide) TextOf.nil))))), ?_, by decide⟩
    refine .cons ⟨[['0']], [[["sp".toList, ['1'], "1.00".toList], ["0.5".toList, "1.0".toList, "2.0".toList]]],
      .cons ⟨['1'], ["1.00".toList], ⟨[1], by simp, rfl, rfl⟩, by decide⟩ .nil, by decide⟩ .nil
  have hB : BasOK [(['H'], [s])] := by
    intro b hb' q hq
    obtain rfl : b = _ := by simpa using hb'
    obtain rfl : q = s := by simpa using hq
    exact ⟨by simp [s], by simp [s]⟩
  have hM : MolOf some [(['H'], ['0'], ['0'], ['1', '.', '5'])] [(['H'], [s])] [a] :=
    .cons ⟨rfl, by decide, by decide, by decide, [s], rfl, rfl⟩ .nil
  have hOK : MolOK [a] := by
    refine ⟨by simp [intMax], ?_⟩
    intro b hb'
    obtain rfl : b = a := by simpa using hb'
    refine ⟨⟨1, by decide⟩, ?_, by simp [a, intMax], ?_⟩
    · simp [a, Dec.OK]
    · intro q hq
      obtain rfl : q = s.upper := by simpa [a] using hq
      refine ⟨by decide, by simp [s, ShellD.upper, intMax], by simp [s, ShellD.upper, intMax], ?_⟩
      simp [s, ShellD.upper, Dec.OK]
  obtain ⟨t, m, h1, h2, h3⟩ := C79_roundtrip hx hb hB hM hOK (by
    intro b hb'
    obtain rfl : b = a := by simpa using hb'
    decide)
  refine ⟨t, m, h1, ?_, ?_, ?_⟩
  · rw [h2, show molCentres [a] = [⟨1, 0, 0, 3 / 2⟩] by decide +kernel]
  · rw [h3]; decide +kernel
  · rw [h3]; decide +kernel

-- a file without white space at its end
example : (readBasis "1\nH 0 0 0\n0 0 0".toList).isNone = true := by decide +kernel

-- exponents, signs and points of numbers
example : (rdDbl " -1.25e+01 ".toList).map Prod.fst = some (-12.5) := by decide +kernel

end Simint.MolFile
