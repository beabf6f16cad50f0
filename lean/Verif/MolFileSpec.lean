import Verif.MolFile

/-!
# What the molecule files mean

Descriptions of numbers, molecules and basis sets, and of the texts that denote them.  Nothing here refers
to the functions that read or write files.
-/

set_option autoImplicit false

namespace Simint.MolFile

/-- White space: space, tab, newline, vertical tab, form feed, carriage return. -/
def blank (c : Char) : Bool := c ∈ [' ', '\t', '\n', '\x0b', '\x0c', '\r']

/-- The character of a digit. -/
def digC (d : Fin 10) : Char := Char.ofNat (48 + d.val)

/-- The number that digits denote, the first one being the most significant. -/
def decVal (ds : List (Fin 10)) : ℕ := Nat.ofDigits 10 (ds.reverse.map Fin.val)

/-- A sign: none, `-` (`true`) or `+` (`false`). -/
def signText : Option Bool → Str
  | none => []
  | some true => ['-']
  | some false => ['+']

/-- A decimal number as written: sign, digits, an optional point with digits, an optional exponent (upper
or lower case `e`, sign, digits). -/
structure Dec where
  sign : Option Bool
  ip : List (Fin 10)
  fp : Option (List (Fin 10))
  ex : Option (Bool × Option Bool × List (Fin 10))
deriving DecidableEq

namespace Dec

/-- There are digits, also in the exponent if there is one. -/
def OK (d : Dec) : Prop := (d.ip ≠ [] ∨ d.fp.getD [] ≠ []) ∧ ∀ e ∈ d.ex, e.2.2 ≠ []

/-- The point and the digits behind it. -/
def fracText (d : Dec) : Str :=
  match d.fp with
  | none => []
  | some f => '.' :: f.map digC

/-- The exponent as written. -/
def exText (d : Dec) : Str :=
  match d.ex with
  | none => []
  | some (up, sg, e) => (if up then 'E' else 'e') :: (signText sg ++ e.map digC)

/-- The characters. -/
def text (d : Dec) : Str := signText d.sign ++ d.ip.map digC ++ d.fracText ++ d.exText

/-- The exponent. -/
def expo (d : Dec) : ℤ :=
  match d.ex with
  | none => 0
  | some (_, sg, e) => if sg = some true then -(decVal e : ℤ) else decVal e

/-- The number. -/
def value (d : Dec) : ℚ :=
  (if d.sign = some true then -1 else 1) *
    ((decVal (d.ip ++ d.fp.getD []) : ℚ) / 10 ^ (d.fp.getD []).length * 10 ^ d.expo)

end Dec

/-- The word `w` is the natural number `n` in decimal digits. -/
def IntWord (n : ℕ) (w : Str) : Prop := ∃ ds : List (Fin 10), ds ≠ [] ∧ w = ds.map digC ∧ decVal ds = n

/-- The text consists of the words, every one of them followed by white space `p`. -/
inductive Laid (p : Char → Bool) : List Str → Str → Prop
  | nil (s : Str) : (∀ c ∈ s, p c = true) → Laid p [] s
  | cons (s w : Str) (ws : List Str) (c : Char) (t : Str) : (∀ c ∈ s, p c = true) → w ≠ [] →
      (∀ c ∈ w, p c = false) → p c = true → Laid p ws t → Laid p (w :: ws) (s ++ w ++ c :: t)

/-! ## Molecules -/

/-- A shell of a basis set: type letters, number of general contractions, and for every primitive the
exponent and the coefficients. -/
structure ShellD where
  type : Str
  ngen : ℕ
  rows : List (Dec × List Dec)

/-- An atom. -/
structure AtomD where
  sym : Str
  xyz : Dec × Dec × Dec
  shells : List ShellD

/-- The elements that the reader knows. -/
def elements : List (Str × ℕ) :=
  [(['H'], 1), (['H', 'e'], 2), (['C'], 6), (['N'], 7), (['O'], 8), (['F'], 9), (['A', 'l'], 13),
   (['C', 'l'], 17)]

/-- The letters of angular momentum 0, 1, 2, ... -/
def amLetters : Str := "SPDFGHIJKLMNOQRTUVWXYZABCE".toList

/-- The angular momentum of a letter; 0 for everything that is not one of the letters. -/
def letterAm (c : Char) : ℕ := if c ∈ amLetters then amLetters.idxOf c else 0

/-- Largest `int`. -/
def intMax : ℕ := 2147483647

/-- A shell that can be written: every row has all the coefficients, counts fit an `int`. -/
structure ShellD.OK (s : ShellD) : Prop where
  type : s.type ≠ [] ∧ ∀ c ∈ s.type, blank c = false
  ngen : s.ngen ≤ intMax
  nprim : s.rows.length ≤ intMax
  row : ∀ r ∈ s.rows, r.1.OK ∧ r.2.length = s.ngen ∧ ∀ c ∈ r.2, c.OK

/-- An atom that can be written. -/
structure AtomD.OK (a : AtomD) : Prop where
  sym : ∃ Z, (a.sym, Z) ∈ elements
  xyz : a.xyz.1.OK ∧ a.xyz.2.1.OK ∧ a.xyz.2.2.OK
  nshell : a.shells.length ≤ intMax
  shells : ∀ s ∈ a.shells, s.OK

/-- A molecule that can be written. -/
def MolOK (M : List AtomD) : Prop := M.length ≤ intMax ∧ ∀ a ∈ M, a.OK

/-- The words of a shell. -/
def ShellWords (s : ShellD) (ws : List Str) : Prop :=
  ∃ w1 w2, IntWord s.rows.length w1 ∧ IntWord s.ngen w2 ∧
    ws = s.type :: w1 :: w2 :: s.rows.flatMap fun r => r.1.text :: r.2.map Dec.text

/-- The words of an atom with two further numbers. -/
def AtomWordsN (a : AtomD) (n1 n2 : ℕ) (ws : List Str) : Prop :=
  ∃ w w1 w2 wss, IntWord a.shells.length w ∧ IntWord n1 w1 ∧ IntWord n2 w2 ∧
    List.Forall₂ ShellWords a.shells wss ∧
    ws = a.sym :: w :: w1 :: w2 :: a.xyz.1.text :: a.xyz.2.1.text :: a.xyz.2.2.text :: wss.flatten

/-- The words of an atom; the reader does not use the two numbers. -/
def AtomWords (a : AtomD) (ws : List Str) : Prop :=
  ∃ n1 n2, n1 ≤ intMax ∧ n2 ≤ intMax ∧ AtomWordsN a n1 n2 ws

/-- The words of a molecule file. -/
def MolWords (M : List AtomD) (ws : List Str) : Prop :=
  ∃ w wss, IntWord M.length w ∧ List.Forall₂ AtomWords M wss ∧ ws = w :: wss.flatten

/-- Shell number `l` of an entry: the letters of the type are used in turn. -/
def ShellD.shell (s : ShellD) (x y z : ℚ) (l : ℕ) : RShell where
  am := letterAm (s.type.getD (l % s.type.length) ' ')
  nprim := s.rows.length
  x := x
  y := y
  z := z
  alpha := s.rows.map fun r => r.1.value
  coef := s.rows.map fun r => (r.2.map Dec.value).getD l 0

/-- All the shells of a molecule, in the order of the file. -/
def molShells (M : List AtomD) : List RShell :=
  M.flatMap fun a => a.shells.flatMap fun s =>
    (List.range s.ngen).map (s.shell a.xyz.1.value a.xyz.2.1.value a.xyz.2.2.value)

/-- The atoms of a molecule. -/
def molCentres (M : List AtomD) : List Centre :=
  M.map fun a => ⟨(elements.lookup a.sym).getD 0, a.xyz.1.value, a.xyz.2.1.value, a.xyz.2.2.value⟩

/-! ## Basis sets and geometries -/

/-- White space between words, for Python. -/
def pblank (c : Char) : Bool := blank c || c ∈ ['\x1c', '\x1d', '\x1e', '\x1f']

/-- The words of the lines of a text; lines end with `\n` or `\r\n`, the last one may end with the text. -/
inductive TextOf : List (List Str) → Str → Prop
  | nil : TextOf [] []
  | last (ws : List Str) (l : Str) : l ≠ [] → (∀ c ∈ l, c ≠ '\n' ∧ c ≠ '\r') → Laid pblank ws (l ++ ['\n']) →
      TextOf [ws] l
  | lf (ws : List Str) (l : Str) (wl : List (List Str)) (t : Str) : (∀ c ∈ l, c ≠ '\n' ∧ c ≠ '\r') →
      Laid pblank ws (l ++ ['\n']) → TextOf wl t → TextOf (ws :: wl) (l ++ '\n' :: t)
  | crlf (ws : List Str) (l : Str) (wl : List (List Str)) (t : Str) : (∀ c ∈ l, c ≠ '\n' ∧ c ≠ '\r') →
      Laid pblank ws (l ++ ['\n']) → TextOf wl t → TextOf (ws :: wl) (l ++ '\r' :: '\n' :: t)

/-- A line with words that is not a comment. -/
def isContent : List Str → Bool
  | [] => false
  | w :: _ => w.head? != some '!'

/-- The lines of a shell: type, number of primitives (and anything else), then the primitives. -/
def BShellLines (s : ShellD) (wl : List (List Str)) : Prop :=
  ∃ cw ex, IntWord s.rows.length cw ∧
    wl = (s.type :: cw :: ex) :: s.rows.map fun r => r.1.text :: r.2.map Dec.text

/-- The lines of an atom: symbol (and anything else), shells, `****`. -/
def BAtomLines (a : Str × List ShellD) (wl : List (List Str)) : Prop :=
  ∃ ex wss, List.Forall₂ BShellLines a.2 wss ∧ wl = (a.1 :: ex) :: wss.flatten ++ [["****".toList]]

/-- A file with a basis set: after a first line, the atoms.  Blank lines and comments are left out. -/
def BasFile (B : List (Str × List ShellD)) (t : Str) : Prop :=
  ∃ wl l0 wss, TextOf wl t ∧ List.Forall₂ BAtomLines B wss ∧ wl.filter isContent = l0 :: wss.flatten

/-- Every shell has a primitive, and all primitives have the same number of coefficients. -/
def BasOK (B : List (Str × List ShellD)) : Prop :=
  ∀ a ∈ B, ∀ s ∈ a.2, s.rows ≠ [] ∧ ∀ r ∈ s.rows, r.2.length = s.ngen

/-- A file with a geometry: two lines, then symbol and coordinates (and anything else) of every atom. -/
def XyzFile (G : List (Str × Str × Str × Str)) (t : Str) : Prop :=
  ∃ wl, TextOf wl t ∧ List.Forall₂ (fun g ws => ∃ ex, ws = g.1 :: g.2.1 :: g.2.2.1 :: g.2.2.2 :: ex) G
    ((wl.drop 2).filter fun ws => ws ≠ [])

/-- The last entry for an element. -/
def lastEntry (B : List (Str × List ShellD)) (sym : Str) : Option (List ShellD) := B.reverse.lookup sym

/-- A shell with its type in capital letters. -/
def ShellD.upper (s : ShellD) : ShellD := { s with type := s.type.map Char.toUpper }

/-- `M` is the molecule with the geometry `G`, coordinates converted by `coord`, in the basis set `B`. -/
def MolOf (coord : Str → Option Str) (G : List (Str × Str × Str × Str)) (B : List (Str × List ShellD))
    (M : List AtomD) : Prop :=
  List.Forall₂ (fun g a => a.sym = g.1 ∧ coord g.2.1 = some a.xyz.1.text ∧ coord g.2.2.1 = some a.xyz.2.1.text ∧
    coord g.2.2.2 = some a.xyz.2.2.text ∧
    ∃ ss, lastEntry B g.1 = some ss ∧ a.shells = ss.map ShellD.upper) G M

/-- The number of primitives of an atom. -/
def AtomD.nprim (a : AtomD) : ℕ := (a.shells.map fun s => s.rows.length).sum

/-- The number of general contractions of an atom. -/
def AtomD.ngen (a : AtomD) : ℕ := (a.shells.map fun s => s.ngen).sum

end Simint.MolFile
