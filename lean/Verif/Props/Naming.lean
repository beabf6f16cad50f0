import Verif.Naming
import Verif.FileListLemmas

/-!
# Property C71: names in the generated code are unambiguous
-/

set_option autoImplicit false

namespace Simint

/-- Every angular momentum has a letter. -/
def QAM.Lettered (q : QAM) : Prop := q.Valid ∧ q.a < 60 ∧ q.b < 60 ∧ q.c < 60 ∧ q.d < 60

/-- A letter, digit or underscore. -/
def IdentChar (c : Char) : Prop := c.isAlphanum = true ∨ c = '_'

/-- Is the text an identifier of C? -/
def IsIdent (s : String) : Prop :=
  ∃ c l, s.toList = c :: l ∧ (c.isAlpha = true ∨ c = '_') ∧ ∀ x ∈ c :: l, IdentChar x

theorem tagStr_toList (t : String) : (tagStr t).toList = if t = "" then [] else t.toList ++ ['_'] := by
  unfold tagStr; split <;> simp

theorem tagStr_inj {t u : String} (h : (tagStr t).toList = (tagStr u).toList) : t = u := by
  rw [tagStr_toList, tagStr_toList] at h
  split at h <;> split at h
  · rename_i a b; rw [a, b]
  · simp at h
  · simp at h
  · exact String.toList_inj.1 (List.append_cancel_right h)

/-- Text up to `INT__`. -/
def ArrKind.pre : ArrKind → List Char
  | .contr => ['I', 'N', 'T', '_', '_']
  | .hrr => ['H', 'R', 'R', '_', 'I', 'N', 'T', '_', '_']
  | .prim => ['P', 'R', 'I', 'M', '_', 'I', 'N', 'T', '_', '_']
  | .primPtr => ['P', 'R', 'I', 'M', '_', 'P', 'T', 'R', '_', 'I', 'N', 'T', '_', '_']

theorem arrKind_name {k : ArrKind} {q : QAM} {s : String} (h : amStr4 q = some s) :
    ∃ n, k.name q = some n ∧ n.toList = k.pre ++ (tagStr q.tag).toList ++ s.toList := by
  have e0 : ∀ u : String, withPrefix "" u = u := fun u => if_pos rfl
  have e1 : ∀ (v : String), v ≠ "" → ∀ u : String, withPrefix v u = v ++ "_" ++ u := fun v hv u => if_neg hv
  cases k
  · refine ⟨"INT__" ++ tagStr q.tag ++ s, ?_, ?_⟩
    · rw [ArrKind.name, arrVarName, h, Option.map_some, e0]
    · rw [String.toList_append, String.toList_append]; rfl
  · refine ⟨"HRR" ++ "_" ++ ("INT__" ++ tagStr q.tag ++ s), ?_, ?_⟩
    · rw [ArrKind.name, hrrVarName, arrVarName, h, Option.map_some, e1 _ (by decide)]
    · simp only [String.toList_append, ArrKind.pre, ← List.append_assoc]; rfl
  · refine ⟨"PRIM" ++ "_" ++ ("INT__" ++ tagStr q.tag ++ s), ?_, ?_⟩
    · rw [ArrKind.name, primVarName, arrVarName, h, Option.map_some, e1 _ (by decide)]
    · simp only [String.toList_append, ArrKind.pre, ← List.append_assoc]; rfl
  · refine ⟨"PRIM_PTR" ++ "_" ++ ("INT__" ++ tagStr q.tag ++ s), ?_, ?_⟩
    · rw [ArrKind.name, primPtrName, arrVarName, h, Option.map_some, e1 _ (by decide)]
    · simp only [String.toList_append, ArrKind.pre, ← List.append_assoc]; rfl

/-- **C71.**  Two arrays of a generated function have the same name only if they are of the same kind
(contracted, horizontal, primitive, pointer) and hold the same class with the same tag, whatever the
tags are. -/
theorem C71_arrays {k k' : ArrKind} {q q' : QAM} (hq : q.Lettered) (hq' : q'.Lettered)
    (h : k.name q = k'.name q') : k = k' ∧ q = q' := by
  obtain ⟨c1, c2, c3, c4, s, hc, es, et⟩ := amStr4_chars hq.1 hq.2
  obtain ⟨d1, d2, d3, d4, s', hd, es', et'⟩ := amStr4_chars hq'.1 hq'.2
  obtain ⟨n, en, ln⟩ := arrKind_name (k := k) es
  obtain ⟨n', en', ln'⟩ := arrKind_name (k := k') es'
  rw [en, en', Option.some.injEq] at h
  rw [h, ln', et, et'] at ln
  obtain ⟨e1, e2⟩ := List.append_inj' ln (by rfl)
  simp only [List.cons.injEq, and_true, true_and] at e2
  obtain ⟨rfl, rfl, rfl, rfl⟩ := e2
  have key : k = k' ∧ (tagStr q.tag).toList = (tagStr q'.tag).toList := by
    generalize (tagStr q.tag).toList = x at e1
    generalize (tagStr q'.tag).toList = y at e1
    cases k <;> cases k' <;>
      simp only [ArrKind.pre, List.cons_append, List.nil_append, List.cons.injEq, Char.reduceEq, false_and, and_false,
        true_and] at e1 <;> exact ⟨rfl, e1.symm⟩
  exact ⟨key.1, Chars4.inj hc hd hq.1 hq'.1 (tagStr_inj key.2)⟩

/-- **C71.**  A class outside the table of letters has no name. -/
theorem C71_letters (k : ArrKind) (q : QAM) (hq : q.Valid) : (k.name q).isSome ↔ q.Lettered := by
  constructor
  · intro h
    refine ⟨hq, ?_⟩
    have h4 : (amStr4 q).isSome := by
      cases k <;> simpa [ArrKind.name, arrVarName, hrrVarName, primVarName, primPtrName] using h
    have aux : ∀ i : ℤ, 0 ≤ i → (amcharAt i).isSome → i < 60 := by
      intro i hi h
      rw [amcharAt, if_pos hi, Option.isSome_map, Option.isSome_iff_exists] at h
      obtain ⟨c, hc⟩ := h
      obtain ⟨k, -⟩ := List.getElem?_eq_some_iff.1 hc
      have : amchar.length = 60 := by decide +kernel
      omega
    obtain ⟨s, hs⟩ := Option.isSome_iff_exists.1 h4
    rw [amStr4] at hs
    obtain ⟨v1, v2, v3, v4⟩ := hq
    obtain ⟨a, ha, hs⟩ := Option.bind_eq_some_iff.1 hs
    obtain ⟨b, hb, hs⟩ := Option.bind_eq_some_iff.1 hs
    obtain ⟨c, hc, hs⟩ := Option.bind_eq_some_iff.1 hs
    obtain ⟨d, hd, -⟩ := Option.map_eq_some_iff.1 hs
    exact ⟨aux _ v1 (by rw [ha]; rfl), aux _ v2 (by rw [hb]; rfl), aux _ v3 (by rw [hc]; rfl),
      aux _ v4 (by rw [hd]; rfl)⟩
  · intro h
    obtain ⟨_, _, _, _, s, -, es, -⟩ := amStr4_chars h.1 h.2
    obtain ⟨n, en, -⟩ := arrKind_name (k := k) es
    rw [en]; rfl

theorem amchar_alnum : ∀ c ∈ amchar, c.isAlphanum = true := by decide +kernel

/-- **C71.**  The names are identifiers of C when the tag consists of letters, digits and underscores. -/
theorem C71_ident {k : ArrKind} {q : QAM} (hq : q.Lettered) (ht : ∀ c ∈ q.tag.toList, IdentChar c) {n : String}
    (h : k.name q = some n) : IsIdent n := by
  obtain ⟨c1, c2, c3, c4, s, hc, es, et⟩ := amStr4_chars hq.1 hq.2
  obtain ⟨n', en, ln⟩ := arrKind_name (k := k) es
  rw [h, Option.some.injEq] at en
  subst en
  have hs : ∀ x ∈ s.toList, IdentChar x := by
    obtain ⟨a1, a2, a3, a4⟩ := hc
    have m : ∀ {i : ℕ} {c : Char}, amchar[i]? = some c → IdentChar c := fun h =>
      Or.inl (amchar_alnum _ (List.mem_of_getElem? h))
    rw [et]
    intro x hx
    simp only [List.mem_cons, List.not_mem_nil, or_false] at hx
    rcases hx with rfl | rfl | rfl | rfl | rfl | rfl | rfl
    · exact m a1
    · exact Or.inr rfl
    · exact m a2
    · exact Or.inr rfl
    · exact m a3
    · exact Or.inr rfl
    · exact m a4
  have ht' : ∀ x ∈ (tagStr q.tag).toList, IdentChar x := by
    rw [tagStr_toList]
    intro x hx
    split at hx
    · simp at hx
    · rcases List.mem_append.1 hx with hx | hx
      · exact ht x hx
      · exact Or.inr (List.mem_singleton.1 hx)
  have hp : ∀ x ∈ k.pre, IdentChar x := by
    unfold IdentChar
    cases k <;> decide +kernel
  have hall : ∀ x ∈ n.toList, IdentChar x := by
    rw [ln]
    intro x hx
    rcases List.mem_append.1 hx with hx | hx
    · rcases List.mem_append.1 hx with hx | hx
      · exact hp x hx
      · exact ht' x hx
    · exact hs x hx
  have hne : ∃ c l, k.pre = c :: l ∧ c.isAlpha = true := by
    cases k
    · exact ⟨'I', _, rfl, by decide⟩
    · exact ⟨'H', _, rfl, by decide⟩
    · exact ⟨'P', _, rfl, by decide⟩
    · exact ⟨'P', _, rfl, by decide⟩
  obtain ⟨c, l, e, ha⟩ := hne
  rw [e] at ln
  exact ⟨c, _, ln, Or.inl ha, fun x hx => hall x (by rw [ln]; exact hx)⟩

/-- **C71.**  The inline bra steps name the array that the class has everywhere else: for a doublet with
the angular momenta and the tag of the class and the ket part of the class as text. -/
theorem C71_bra_steps {q : QAM} {ket : String} (hk : amStr2 q.c q.d = some ket) :
    hrrBraStepArr q.a q.b q.tag ket = hrrVarName q := by
  unfold amStr2 at hk
  obtain ⟨c, hc, hk⟩ := Option.bind_eq_some_iff.1 hk
  obtain ⟨d, hd, rfl⟩ := Option.map_eq_some_iff.1 hk
  unfold hrrBraStepArr arrVarNameBra hrrVarName arrVarName amStr4 amStr2
  rw [hc, hd]
  cases amcharAt q.a <;> cases amcharAt q.b <;>
    simp [withPrefix, String.append_assoc]

/-- **C71.**  The inline ket steps do the same. -/
theorem C71_ket_steps {q : QAM} {bra : String} (hb : amStr2 q.a q.b = some bra) :
    hrrKetStepArr bra q.c q.d q.tag = hrrVarName q := by
  unfold amStr2 at hb
  obtain ⟨a, ha, hb⟩ := Option.bind_eq_some_iff.1 hb
  obtain ⟨b, hb', rfl⟩ := Option.map_eq_some_iff.1 hb
  unfold hrrKetStepArr arrVarNameKet hrrVarName arrVarName amStr4 amStr2
  rw [ha, hb']
  cases amcharAt q.c <;> cases amcharAt q.d <;>
    simp [withPrefix, String.append_assoc]

/-- **C71.**  Inside a horizontal routine the steps (which carry no tag) name the parameters of the
routine. -/
theorem C71_params (a b : ℤ) (x : String) :
    hrrBraStepArr a b "" x = hrrVarNameKetStr a b x ∧ hrrKetStepArr x a b "" = hrrVarNameBraStr x a b := by
  unfold hrrBraStepArr hrrVarNameKetStr hrrKetStepArr hrrVarNameBraStr arrVarNameBra arrVarNameKetStr arrVarNameKet
    arrVarNameBraStr
  cases amStr2 a b <;> simp [withPrefix, tagStr, String.append_assoc]

theorem amStr2_chars {a b : ℤ} (ha : 0 ≤ a ∧ a < 60) (hb : 0 ≤ b ∧ b < 60) : ∃ c1 c2 s,
    amchar[a.toNat]? = some c1 ∧ amchar[b.toNat]? = some c2 ∧ amStr2 a b = some s ∧ s.toList = [c1, '_', c2] := by
  obtain ⟨c1, f1, e1⟩ := amcharAt_some ha.1 ha.2
  obtain ⟨c2, f2, e2⟩ := amcharAt_some hb.1 hb.2
  exact ⟨c1, c2, _, f1, f2, by rw [amStr2, e1, e2]; rfl, by simp⟩

/-- **C71.**  Different pairs have different parameters. -/
theorem C71_params_inj {a b a' b' : ℤ} {x : String} (ha : 0 ≤ a ∧ a < 60) (hb : 0 ≤ b ∧ b < 60)
    (ha' : 0 ≤ a' ∧ a' < 60) (hb' : 0 ≤ b' ∧ b' < 60)
    (h : hrrVarNameKetStr a b x = hrrVarNameKetStr a' b' x ∨ hrrVarNameBraStr x a b = hrrVarNameBraStr x a' b') :
    a = a' ∧ b = b' := by
  obtain ⟨c1, c2, s, f1, f2, es, et⟩ := amStr2_chars ha hb
  obtain ⟨d1, d2, s', g1, g2, es', et'⟩ := amStr2_chars ha' hb'
  have key : s.toList = s'.toList := by
    rcases h with h | h
    · simp only [hrrVarNameKetStr, arrVarNameKetStr, es, es', Option.map_some, Option.some.injEq] at h
      have := congrArg String.toList h
      simp only [withPrefix, reduceCtorEq, if_false, String.toList_append] at this
      simpa using this
    · simp only [hrrVarNameBraStr, arrVarNameBraStr, es, es', Option.map_some, Option.some.injEq] at h
      have := congrArg String.toList h
      simpa [withPrefix] using this
  rw [et, et'] at key
  simp only [List.cons.injEq, and_true, true_and] at key
  obtain ⟨rfl, rfl⟩ := key
  exact ⟨amchar_inj ha.1 ha'.1 f1 g1, amchar_inj hb.1 hb'.1 f2 g2⟩

/-- Does every angular momentum of the function have a letter, and does it carry no tag? -/
def GenFn.Lettered : GenFn → Prop
  | .ostei _ am => am.Lettered ∧ am.tag = ""
  | .vrr _ am => am.Lettered ∧ am.tag = ""
  | .hrr _ a b => (0 ≤ a ∧ a < 60) ∧ 0 ≤ b ∧ b < 60

/-- **C71.**  No two functions written by the generator have the same name. -/
theorem C71_functions {f g : GenFn} (hf : f.Lettered) (hg : g.Lettered) (h : f.name = g.name) : f = g := by
  cases f with
  | ostei der am =>
    obtain ⟨c1, c2, c3, c4, s, hc, es, et⟩ := amStr4_chars hf.1.1 hf.1.2
    cases g with
    | ostei der' am' =>
      obtain ⟨d1, d2, d3, d4, s', hd, es', et'⟩ := amStr4_chars hg.1.1 hg.1.2
      simp only [GenFn.name, es, es', Option.map_some, Option.some.injEq] at h
      have := congrArg String.toList h
      rw [String.toList_append, String.toList_append, et, et'] at this
      obtain ⟨e1, e2⟩ := List.append_inj' this rfl
      simp only [List.cons.injEq, and_true, true_and] at e2
      obtain ⟨rfl, rfl, rfl, rfl⟩ := e2
      have e3 : der = der' := by cases der <;> cases der' <;> simp at e1 <;> rfl
      rw [e3, Chars4.inj hc hd hf.1.1 hg.1.1 (hf.2.trans hg.2.symm)]
    | vrr t am' =>
      obtain ⟨d1, d2, d3, d4, s', hd, es', et'⟩ := amStr4_chars hg.1.1 hg.1.2
      simp only [GenFn.name, es, es', Option.map_some, Option.some.injEq] at h
      have := congrArg String.toList h
      cases der <;> simp at this
    | hrr t a b =>
      obtain ⟨d1, d2, s', g1, g2, es', et'⟩ := amStr2_chars hg.1 hg.2
      simp only [GenFn.name, es, es', Option.map_some, Option.some.injEq] at h
      have := congrArg String.toList h
      cases der <;> simp at this
  | vrr t am =>
    obtain ⟨c1, c2, c3, c4, s, hc, es, et⟩ := amStr4_chars hf.1.1 hf.1.2
    cases g with
    | ostei der' am' =>
      obtain ⟨d1, d2, d3, d4, s', hd, es', et'⟩ := amStr4_chars hg.1.1 hg.1.2
      simp only [GenFn.name, es, es', Option.map_some, Option.some.injEq] at h
      have := congrArg String.toList h
      cases der' <;> simp at this
    | vrr t' am' =>
      obtain ⟨d1, d2, d3, d4, s', hd, es', et'⟩ := amStr4_chars hg.1.1 hg.1.2
      simp only [GenFn.name, es, es', Option.map_some, Option.some.injEq] at h
      have := congrArg String.toList h
      simp only [String.toList_append, et, et'] at this
      obtain ⟨e1, e2⟩ := List.append_inj' this rfl
      simp only [List.cons.injEq, and_true, true_and] at e2
      obtain ⟨rfl, rfl, rfl, rfl⟩ := e2
      have e3 : t = t' := by cases t <;> cases t' <;> simp [RRType.letter] at e1 <;> rfl
      rw [e3, Chars4.inj hc hd hf.1.1 hg.1.1 (hf.2.trans hg.2.symm)]
    | hrr t' a b =>
      obtain ⟨d1, d2, s', g1, g2, es', et'⟩ := amStr2_chars hg.1 hg.2
      simp only [GenFn.name, es, es', Option.map_some, Option.some.injEq] at h
      have := congrArg String.toList h
      simp at this
  | hrr t a b =>
    obtain ⟨c1, c2, s, f1, f2, es, et⟩ := amStr2_chars hf.1 hf.2
    cases g with
    | ostei der' am' =>
      obtain ⟨d1, d2, d3, d4, s', hd, es', et'⟩ := amStr4_chars hg.1.1 hg.1.2
      simp only [GenFn.name, es, es', Option.map_some, Option.some.injEq] at h
      have := congrArg String.toList h
      cases der' <;> simp at this
    | vrr t' am' =>
      obtain ⟨d1, d2, d3, d4, s', hd, es', et'⟩ := amStr4_chars hg.1.1 hg.1.2
      simp only [GenFn.name, es, es', Option.map_some, Option.some.injEq] at h
      have := congrArg String.toList h
      simp at this
    | hrr t' a' b' =>
      obtain ⟨d1, d2, s', g1, g2, es', et'⟩ := amStr2_chars hg.1 hg.2
      simp only [GenFn.name, es, es', Option.map_some, Option.some.injEq] at h
      have := congrArg String.toList h
      simp only [String.toList_append, et, et'] at this
      obtain ⟨e1, e2⟩ := List.append_inj' this rfl
      simp only [List.cons.injEq, and_true, true_and] at e2
      obtain ⟨rfl, rfl⟩ := e2
      have e3 : t = t' := by cases t <;> cases t' <;> simp [RRType.letter] at e1 <;> rfl
      rw [e3, amchar_inj hf.1.1 hg.1.1 f1 g1, amchar_inj hf.2.1 hg.2.1 f2 g2]

/-- **C71.**  The names at the calls are the names of the functions, and the variants with a fixed number of
components have names of their own. -/
theorem C71_calls (t : RRType) (am : QAM) (a b : ℤ) :
    vrrCallName t am = (GenFn.vrr t am).name ∧ hrrCallName t a b = (GenFn.hrr t a b).name ∧
    (∀ g : GenFn, g.Lettered → (0 ≤ a ∧ a < 60) → (0 ≤ b ∧ b < 60) → ∀ n, hrrFixedName t a b n ≠ g.name) := by
  refine ⟨rfl, ?_, ?_⟩
  · simp only [hrrCallName, GenFn.name, amStr2]
    rcases amcharAt a with _ | x
    · rfl
    · rcases amcharAt b with _ | y
      · rfl
      · simp only [Option.bind_some, Option.map_some, String.append_assoc]
  · intro g hg ha hb n h
    obtain ⟨c1, c2, s, f1, f2, es, et⟩ := amStr2_chars ha hb
    cases g with
    | ostei der' am' =>
      obtain ⟨d1, d2, d3, d4, s', hd, es', et'⟩ := amStr4_chars hg.1.1 hg.1.2
      simp only [hrrFixedName, GenFn.name, es, es', Option.map_some, Option.some.injEq] at h
      have := congrArg String.toList h
      cases der' <;> simp at this
    | vrr t' am' =>
      obtain ⟨d1, d2, d3, d4, s', hd, es', et'⟩ := amStr4_chars hg.1.1 hg.1.2
      simp only [hrrFixedName, GenFn.name, es, es', Option.map_some, Option.some.injEq] at h
      have := congrArg String.toList h
      simp at this
    | hrr t' a' b' =>
      obtain ⟨d1, d2, s', g1, g2, es', et'⟩ := amStr2_chars hg.1 hg.2
      simp only [hrrFixedName, GenFn.name, es, es', Option.map_some, Option.some.injEq] at h
      have := congrArg (fun s => s.toList.length) h
      have l1 : t.letter.toList.length = 1 := by cases t <;> rfl
      have l2 : t'.letter.toList.length = 1 := by cases t' <;> rfl
      simp only [String.toList_append, List.length_append, et, et', l1, l2, List.length_cons, List.length_nil] at this
      have l3 : "_".toList.length = 1 := rfl
      omega

theorem ncartKetVals_text : ∀ n ∈ ncartKetVals, ∀ m ∈ ncartKetVals, toString n = toString m → n = m := by
  decide +kernel

/-- **C71.**  The variants of one routine have different names. -/
theorem C71_variants {t : RRType} {a b : ℤ} (ha : 0 ≤ a ∧ a < 60) (hb : 0 ≤ b ∧ b < 60) {n n' : ℕ}
    (hn : n ∈ ncartKetVals) (hn' : n' ∈ ncartKetVals)
    (h : hrrFixedName t a b n = hrrFixedName t a b n') : n = n' := by
  obtain ⟨c1, c2, s, f1, f2, es, et⟩ := amStr2_chars ha hb
  simp only [hrrFixedName, es, Option.map_some, Option.some.injEq] at h
  have := congrArg String.toList h
  simp only [String.toList_append, List.append_cancel_left_eq] at this
  exact ncartKetVals_text n hn n' hn' (String.toList_inj.1 this)

/-- **C71.**  The routine of a bra pair runs its loop once, with the number of components given by the
caller, whether or not that number has a variant of its own. -/
theorem C71_once {σ : Type} (body : ℕ → σ → σ) (n : ℕ) (s : σ) : braRoutine body n s = body n s := by
  have aux : ∀ (l : List ℕ) (p : σ × Bool), l.Nodup →
      l.foldl (fun (p : σ × Bool) v => if n = v then (body v p.1, true) else p) p =
        if n ∈ l then (body n p.1, true) else p := by
    intro l
    induction l with
    | nil => intro p _; simp
    | cons v l ih =>
      intro p hl
      rw [List.nodup_cons] at hl
      rw [List.foldl_cons, ih _ hl.2]
      by_cases e : n = v
      · subst e; simp [hl.1]
      · simp [e]
  unfold braRoutine
  rw [aux _ _ (by decide)]
  by_cases h : n ∈ ncartKetVals <;> simp [h]

/-! Examples -/

example : (ArrKind.primPtr.name ⟨1, 0, 2, 15, "2d"⟩) = some "PRIM_PTR_INT__2d_p_s_d_u" := by decide +kernel

/-- With a tag the place of the text matters: the tag `"s"` does not make `(s p s s)` into something else. -/
example : (ArrKind.hrr.name ⟨0, 1, 0, 0, "s"⟩) = some "HRR_INT__s_s_p_s_s" := by decide +kernel

example : (GenFn.hrr .J 2 1).name = some "HRR_J_d_p" ∧ hrrFixedName .J 2 1 10 = some "HRR_J_d_p_10" := by
  decide +kernel

/-- Sixteen components have no variant: the general loop runs. -/
example : braRoutine (fun n (l : List ℕ) => n :: l) 16 [] = [16] ∧
    braRoutine (fun n (l : List ℕ) => n :: l) 15 [] = [15] := by decide +kernel

end Simint
