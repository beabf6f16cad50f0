import Mathlib.Data.Rat.Defs
import Mathlib.Data.Nat.Digits.Defs
import Mathlib.Algebra.Order.Field.Rat
import Mathlib.Tactic.Common

/-!
# The molecule files of the test programs

Model of the script that writes the `.mol` files from an xyz file and a basis set file
(skel/test/dat/gen/gen_mol.py) and of the function that reads them (`ReadBasis`,
skel/test/Common.cpp:83-174), both at the level of single characters.  Files are `List Char`.
An exception (of Python or C++) is `none`.

Simplified:
* numbers are exact rationals; rounding and the range of `double` are not modelled;
* Python's conversion of a coordinate (`float`, times `ang_to_bohr`, written again by `format`) is a
  parameter `coord`, a partial function of the text of the number;
* Python's `int` is modelled without underscores inside of the digits; white space is ASCII;
* `upper` is modelled for ASCII letters;
* a negative number of primitives, which `simint_allocate_shell` is not made for, gives `none`.
-/

set_option autoImplicit false

namespace Simint.MolFile

/-- A text. -/
abbrev Str := List Char

/-! ## The reader -/

/-- White space of C++ streams in the "C" locale: space, `\t`, `\n`, `\v`, `\f`, `\r`. -/
def cWs (c : Char) : Bool := c = ' ' || (9 ≤ c.toNat && c.toNat ≤ 13)

/-- A decimal digit. -/
def isDig (c : Char) : Bool := 48 ≤ c.toNat && c.toNat ≤ 57

/-- The value of a run of decimal digits. -/
def digVal (w : Str) : ℕ := w.foldl (fun a c => 10 * a + (c.toNat - 48)) 0

/-- An optional sign: is it `-`, and what follows. -/
def takeSign : Str → Bool × Str
  | '-' :: r => (true, r)
  | '+' :: r => (false, r)
  | r => (false, r)

/-- `f >> s` for a `std::string`: skip white space, take everything up to the next white space.
Reaching the end of the file sets `eofbit`, which throws (Common.cpp:108). -/
def rdStr (s : Str) : Option (Str × Str) :=
  let t := s.dropWhile cWs
  let w := t.takeWhile (fun c => !cWs c)
  let r := t.dropWhile (fun c => !cWs c)
  if w = [] ∨ r = [] then none else some (w, r)

/-- `f >> i` for an `int`: a sign and digits; no digits, a value outside of `int` or the end of the file
throw. -/
def rdInt (s : Str) : Option (ℤ × Str) :=
  let (neg, t) := takeSign (s.dropWhile cWs)
  let w := t.takeWhile isDig
  let r := t.dropWhile isDig
  let v : ℤ := if neg then -(digVal w : ℤ) else digVal w
  if w = [] ∨ r = [] then none
  else if -2147483648 ≤ v ∧ v ≤ 2147483647 then some (v, r) else none

/-- A decimal point and the digits behind it, if there is one. -/
def takeFrac : Str → Str × Str
  | '.' :: r => (r.takeWhile isDig, r.dropWhile isDig)
  | r => ([], r)

/-- An exponent, if there is one: the outer option is missing digits behind the `e`. -/
def takeExp : Str → Option (ℤ × Str)
  | c :: r =>
    if c = 'e' ∨ c = 'E' then
      let (neg, t) := takeSign r
      let w := t.takeWhile isDig
      if w = [] then none
      else some (if neg then -(digVal w : ℤ) else digVal w, t.dropWhile isDig)
    else some (0, c :: r)
  | [] => some (0, [])

/-- `f >> d` for a `double`: sign, digits, point, digits, exponent; the end of the file throws. -/
def rdDbl (s : Str) : Option (ℚ × Str) :=
  let (neg, t) := takeSign (s.dropWhile cWs)
  let ip := t.takeWhile isDig
  let (fp, t2) := takeFrac (t.dropWhile isDig)
  if ip ++ fp = [] then none
  else
    match takeExp t2 with
    | none => none
    | some (e, r) =>
      if r = [] then none
      else
        let v : ℚ := (digVal (ip ++ fp) : ℚ) * 10 ^ (e - fp.length)
        some (if neg then -v else v, r)

/-- `n` doubles. -/
def rdDbls : ℕ → Str → Option (List ℚ × Str)
  | 0, s => some ([], s)
  | n + 1, s => do
    let (v, s) ← rdDbl s
    let (vs, s) ← rdDbls n s
    some (v :: vs, s)

/-- The loop over the primitives, Common.cpp:154-165: an exponent and `ngen` coefficients. -/
def rdRows (ngen : ℕ) : ℕ → Str → Option (List (ℚ × List ℚ) × Str)
  | 0, s => some ([], s)
  | n + 1, s => do
    let (a, s) ← rdDbl s
    let (cs, s) ← rdDbls ngen s
    let (rows, s) ← rdRows ngen n s
    some ((a, cs) :: rows, s)

/-- The initial contents of `ammap`, Common.cpp:85-95. -/
def ammap : List (Char × ℕ) :=
  [('S', 0), ('P', 1), ('D', 2), ('F', 3), ('G', 4), ('H', 5), ('I', 6), ('J', 7), ('K', 8), ('L', 9),
   ('M', 10), ('N', 11), ('O', 12), ('Q', 13), ('R', 14), ('T', 15), ('U', 16), ('V', 17), ('W', 18),
   ('X', 19), ('Y', 20), ('Z', 21), ('A', 22), ('B', 23), ('C', 24), ('E', 25)]

/-- `ammap[c]`: `operator[]` of a map inserts and returns 0 for a missing key (and gives 0 again later). -/
def ammapAt (c : Char) : ℕ := (ammap.lookup c).getD 0

/-- `symbol_map.at(sym)`, Common.cpp:98-102, 124: throws for a missing key. -/
def symbolAt (s : Str) : Option ℕ :=
  [("H".toList, 1), ("He".toList, 2), ("C".toList, 6), ("N".toList, 7), ("O".toList, 8), ("F".toList, 9),
   ("Al".toList, 13), ("Cl".toList, 17)].lookup s

/-- The iterator `itg` over the letters of the type, Common.cpp:136-151: it starts again at the beginning
when it reaches the end. -/
def typeLetters (type : Str) : ℕ → Str → Str
  | 0, _ => []
  | _ + 1, [] => []
  | n + 1, c :: r => c :: typeLetters type n (if r = [] then type else r)

/-- What `ReadBasis` puts in a `simint_shell`. -/
structure RShell where
  am : ℕ
  nprim : ℕ
  x : ℚ
  y : ℚ
  z : ℚ
  alpha : List ℚ
  coef : List ℚ
deriving DecidableEq, Repr

/-- `AtomicCenter`. -/
structure Centre where
  Z : ℕ
  x : ℚ
  y : ℚ
  z : ℚ
deriving DecidableEq, Repr

/-- One entry of the file, Common.cpp:128-165, up to the shells `gvec`.  A negative `ngen` makes the
constructor of the vector throw. -/
def rdShell (x y z : ℚ) (s : Str) : Option (List RShell × Str) := do
  let (type, s) ← rdStr s
  let (nprim, s) ← rdInt s
  let (ngen, s) ← rdInt s
  if ngen < 0 ∨ nprim < 0 then none
  else
    let (rows, s) ← rdRows ngen.toNat nprim.toNat s
    let ams := (typeLetters type ngen.toNat type).map ammapAt
    some (ams.mapIdx fun l am =>
      { am := am, nprim := nprim.toNat, x := x, y := y, z := z,
        alpha := rows.map Prod.fst, coef := rows.map fun r => r.2.getD l 0 }, s)

/-- `shellmap`: the vector of every angular momentum. -/
abbrev RMap := ℕ → List RShell

/-- `shellmap[it.am].push_back(it)`, Common.cpp:168-169. -/
def RMap.push (m : RMap) (sh : RShell) : RMap := fun am => if am = sh.am then m am ++ [sh] else m am

/-- The loop over the shells of an atom, Common.cpp:126-170. -/
def rdShells (x y z : ℚ) : ℕ → RMap → Str → Option (RMap × Str)
  | 0, m, s => some (m, s)
  | n + 1, m, s => do
    let (gv, s) ← rdShell x y z s
    rdShells x y z n (gv.foldl RMap.push m) s

/-- The loop over the atoms, Common.cpp:117-171. -/
def rdAtoms : ℕ → RMap → List Centre → Str → Option ((RMap × List Centre) × Str)
  | 0, m, mol, s => some ((m, mol), s)
  | n + 1, m, mol, s => do
    let (sym, s) ← rdStr s
    let (nshell, s) ← rdInt s
    let (_, s) ← rdInt s
    let (_, s) ← rdInt s
    let (x, s) ← rdDbl s
    let (y, s) ← rdDbl s
    let (z, s) ← rdDbl s
    let Z ← symbolAt sym
    let (m, s) ← rdShells x y z nshell.toNat m s
    rdAtoms n m (mol ++ [⟨Z, x, y, z⟩]) s

/-- `ReadBasis`, Common.cpp:83-174, on the contents of the file; with what is left of the file. -/
def readRest (s : Str) : Option ((RMap × List Centre) × Str) := do
  let (natom, s) ← rdInt s
  rdAtoms natom.toNat (fun _ => []) [] s

/-- `ReadBasis`. -/
def readBasis (s : Str) : Option (RMap × List Centre) := (readRest s).map Prod.fst

/-! ## The writer -/

/-- White space of Python's `strip` and `split` (ASCII). -/
def pWs (c : Char) : Bool := c = ' ' || (9 ≤ c.toNat && c.toNat ≤ 13) || (28 ≤ c.toNat && c.toNat ≤ 31)

/-- `open(..., 'r')`: universal newlines, `\r\n` and `\r` become `\n`. -/
def uniNl : Str → Str
  | [] => []
  | '\r' :: '\n' :: r => '\n' :: uniNl r
  | '\r' :: r => '\n' :: uniNl r
  | c :: r => c :: uniNl r

/-- `readlines()`, without the newlines (every line is stripped by the script). -/
def linesAux : Str → Str → List Str
  | [], cur => if cur = [] then [] else [cur.reverse]
  | c :: r, cur => if c = '\n' then cur.reverse :: linesAux r [] else linesAux r (c :: cur)

/-- `open(f, 'r').readlines()`. -/
def readLines (s : Str) : List Str := linesAux (uniNl s) []

/-- `strip()`. -/
def strip (s : Str) : Str := ((s.dropWhile pWs).reverse.dropWhile pWs).reverse

/-- `split()`: the words between runs of white space. -/
def splitAux : Str → Str → List Str
  | [], cur => if cur = [] then [] else [cur.reverse]
  | c :: r, cur =>
    if pWs c then (if cur = [] then splitAux r [] else cur.reverse :: splitAux r []) else splitAux r (c :: cur)

/-- `split()`. -/
def split (s : Str) : List Str := splitAux s []

/-- `int(s)` of a word. -/
def pInt (s : Str) : Option ℤ :=
  let (neg, w) := takeSign s
  if w = [] ∨ !w.all isDig then none else some (if neg then -(digVal w : ℤ) else digVal w)

/-- `str(n)`. -/
def pStr (n : ℕ) : Str :=
  if n = 0 then ['0'] else (Nat.digits 10 n).reverse.map fun d => Char.ofNat (48 + d)

/-- `upper()` on one ASCII character. -/
def upChar (c : Char) : Char := if 97 ≤ c.toNat ∧ c.toNat ≤ 122 then Char.ofNat (c.toNat - 32) else c

/-- The dictionary `shell` of the script. -/
structure PShell where
  type : Str
  alpha : List Str
  coef : List (List Str)
deriving DecidableEq, Repr

/-- The dictionary `atom` of the script. -/
structure PAtom where
  shells : List PShell
  nprim1 : ℕ
  nprim2 : ℕ
deriving DecidableEq, Repr

/-- The line `****`. -/
def stars : Str := "****".toList

/-- The loop over the primitives of a shell, gen_mol.py:62-66: the exponent and the coefficients of every
line; `flines[i]` beyond the end is an error. -/
def pRows : ℕ → List Str → Option (List (Str × List Str) × List Str)
  | 0, ls => some ([], ls)
  | _ + 1, [] => none
  | n + 1, l :: ls =>
    match split l with
    | [] => none
    | a :: cs => do
      let (rows, ls) ← pRows n ls
      some ((a, cs) :: rows, ls)

/-- The loop over the shells of an atom up to the line `****`, gen_mol.py:50-75.  The first argument bounds
the number of rounds (every round consumes a line).  `len(shell)` in gen_mol.py:75 is the number of keys of
the dictionary, 3.  `shell['Coef'][0]` of a shell without lines is an error. -/
def pShells : ℕ → PAtom → List Str → Option (PAtom × List Str)
  | 0, _, _ => none
  | _ + 1, _, [] => none
  | f + 1, at0, l :: ls =>
    if l = stars then some (at0, ls)
    else
      match split l with
      | ty :: n :: _ => do
        let k ← pInt n
        let (rows, ls) ← pRows k.toNat ls
        match rows with
        | [] => none
        | (_, c0) :: _ =>
          pShells f
            { shells := at0.shells ++ [⟨ty.map upChar, rows.map Prod.fst, rows.map Prod.snd⟩]
              nprim1 := at0.nprim1 + rows.length
              nprim2 := at0.nprim2 + 3 * c0.length } ls
      | _ => none

/-- The dictionary `atombas`. -/
abbrev PBas := Str → Option PAtom

/-- The loop over the atoms of the basis set, gen_mol.py:40-83.  The first argument bounds the number of
rounds. -/
def pBasis : ℕ → PBas → List Str → Option PBas
  | 0, _, _ => none
  | _ + 1, d, [] => some d
  | f + 1, d, l :: ls =>
    match split l with
    | [] => none
    | sym :: _ => do
      let (a, ls) ← pShells (ls.length + 1) ⟨[], 0, 0⟩ ls
      pBasis f (fun k => if k = sym then some a else d k) ls

/-- `flines`, gen_mol.py:34-35. -/
def flines (bas : Str) : List Str :=
  ((readLines bas).map strip).filter fun l => !(l = []) && !(l.head? = some '!')

/-- `atombas`, gen_mol.py:33-83 (the first line is skipped). -/
def atombas (bas : Str) : Option PBas :=
  pBasis (flines bas).length.succ (fun _ => none) ((flines bas).drop 1)

/-- `geo`, gen_mol.py:30-31. -/
def geo (xyz : Str) : List (List Str) :=
  ((((readLines xyz).drop 2).map strip).filter fun l => !(l = [])).map split

/-- An entry of `mol`, gen_mol.py:89-94. -/
structure PMol where
  sym : Str
  xyz : Str × Str × Str
  bas : PAtom

/-- gen_mol.py:89-94: `a[1]`, `float(...)` and `atombas[a[0]]` may fail. -/
def pMol (coord : Str → Option Str) (d : PBas) : List Str → Option PMol
  | s :: x :: y :: z :: _ => do
    let x ← coord x
    let y ← coord y
    let z ← coord z
    let b ← d s
    some ⟨s, (x, y, z), b⟩
  | _ => none

/-- One line of a primitive, gen_mol.py:112-117; `b['Coef'][i][j]` may be missing. -/
def pRowText (ngen : ℕ) (a : Str) (cs : List Str) : Option Str :=
  if cs.length < ngen then none
  else some (a ++ ((cs.take ngen).flatMap fun c => "    ".toList ++ c) ++ ['\n'])

/-- A shell, gen_mol.py:106-117. -/
def pShellText (b : PShell) : Option Str := do
  let ngen ← b.coef.head?.map List.length
  let rows ← (b.alpha.zip b.coef).mapM fun (a, cs) => pRowText ngen a cs
  some (b.type ++ ' ' :: pStr b.alpha.length ++ ' ' :: pStr ngen ++ '\n' :: rows.flatten)

/-- An atom, gen_mol.py:102-117. -/
def pAtomText (a : PMol) : Option Str := do
  let shells ← a.bas.shells.mapM pShellText
  some (a.sym ++ ' ' :: pStr a.bas.shells.length ++ ' ' :: pStr a.bas.nprim1 ++ ' ' :: pStr a.bas.nprim2 ++
    '\n' :: a.xyz.1 ++ ' ' :: a.xyz.2.1 ++ ' ' :: a.xyz.2.2 ++ '\n' :: shells.flatten)

/-- gen_mol.py: the contents of the file that it writes, from the contents of the files that it reads. -/
def genMol (coord : Str → Option Str) (xyz bas : Str) : Option Str := do
  let d ← atombas bas
  let mol ← (geo xyz).mapM (pMol coord d)
  let atoms ← mol.mapM pAtomText
  some (pStr mol.length ++ '\n' :: atoms.flatten)

end Simint.MolFile
