import Verif.CommandLine

/-!
# Specification: meaning of a command line
-/

set_option autoImplicit false

namespace Simint

/-- Common options that take a number. -/
def intOpts : List (String × Opt) :=
  [("-ve", .extVRR), ("-vg", .genVRR), ("-he", .extHRR), ("-hg", .genHRR)]

/-- `CommonMeans m l m' r`: the arguments `l` change the options from `m` to `m'` and leave `r`. -/
inductive CommonMeans : OptMap → List String → OptMap → List String → Prop
  | nil (m) : CommonMeans m [] m []
  | int {m m' s v l r n} {o : Opt} (hs : (s, o) ∈ intOpts) (hn : stoi v = some n)
      (h : CommonMeans (m.set o n) l m' r) : CommonMeans m (s :: v :: l) m' r
  | perm {m m' l r} (h : CommonMeans (m.set .perm 1) l m' r) : CommonMeans m ("-p" :: l) m' r
  | other {m m' s l r} (hs : ∀ o, (s, o) ∉ intOpts) (hp : s ≠ "-p") (h : CommonMeans m l m' r) :
      CommonMeans m (s :: l) m' (s :: r)

/-- Parameters of a job. -/
structure ArgJob where
  fpath : String
  hpath : String
  am : ℕ → ℤ
  amset : Bool
  center : ℕ
  braI : Bool
  ketK : Bool
  doBra : Bool

def ProgSt.job (st : ProgSt) : ArgJob :=
  ⟨st.fpath, st.hpath, st.am, st.amset, st.center, st.braI, st.ketK, st.doBra⟩

/-- Flags of a program and what they do. -/
def flagOpts : Prog → List (String × (ArgJob → ArgJob))
  | .vrr => [("-center_j", fun j => { j with center := 1 }), ("-center_k", fun j => { j with center := 2 }),
      ("-center_l", fun j => { j with center := 3 })]
  | .hrr => [("-bra_i", fun j => { j with braI := true }), ("-ket_k", fun j => { j with ketK := true }),
      ("-bra", fun j => { j with doBra := true })]
  | _ => []

/-- Meaning of the arguments left by the common options. -/
inductive ProgMeans (p : Prog) : ArgJob → List String → ArgJob → Prop
  | nil (j) : ProgMeans p j [] j
  | out {j j' s l} (h : ProgMeans p { j with fpath := s } l j') : ProgMeans p j ("-o" :: s :: l) j'
  | hdr {j j' s l} (h : ProgMeans p { j with hpath := s } l j') : ProgMeans p j ("-oh" :: s :: l) j'
  | am {j j' l} {a : ℕ → ℤ} (q : List String) (hl : q.length = p.nam)
      (hq : ∀ k s, q[k]? = some s → stoi s = some (a k)) (ha : ∀ k, p.nam ≤ k → a k = j.am k)
      (h : ProgMeans p { j with am := a, amset := true } l j') : ProgMeans p j ("-q" :: (q ++ l)) j'
  | flag {j j' s l f} (hs : (s, f) ∈ flagOpts p) (h : ProgMeans p (f j) l j') : ProgMeans p j (s :: l) j'

/-- Arguments that mean something else than a path. -/
def optNames : List String := ["-ve", "-vg", "-he", "-hg", "-p"]

/-- An option whose number is missing or unreadable. -/
def BadInt (l : List String) : Prop :=
  ∃ s o t, l = s :: t ∧ (s, o) ∈ intOpts ∧ ∀ v ∈ t.head?, stoi v = none

/-- The paths create.py passes: not empty and not one of the option names. -/
def PathOK (s : String) : Prop := s ≠ "" ∧ s ∉ optNames

/-- A number that an `int` holds. -/
def IntOK (z : ℤ) : Prop := -2147483648 ≤ z ∧ z ≤ 2147483647

end Simint
