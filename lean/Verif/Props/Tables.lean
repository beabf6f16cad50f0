import Verif.Tables.Psi4
import Verif.Tables.Gamess
import Verif.Tables.Recur
import Verif.RecurLemmas

/-!
# Properties C02 and C07: the literal tables shipped in the repository

The tables are finite; they are checked as a whole by kernel evaluation of boolean checkers,
and the checkers are proved sound, so that the statements are in terms of components.
-/

namespace Simint

/-! ## Table access, as the generator does it -/

/-- An `ExpList` row. -/
def rowExp : List ℕ → Exp
  | [a, b, c] => ⟨a, b, c⟩
  | _ => ⟨-1, -1, -1⟩

/-- `gorder_map.at(am)`; beyond the table the C++ throws, and the model continues with the
python enumeration so that the order is total. -/
def tableOrd (T : List (List (List ℕ))) (am : ℕ) : List Exp :=
  match T[am]? with
  | some rows => rows.map rowExp
  | none => psi4List am

/-- The hash key of an exponent triple (non-negative entries). -/
def Exp.hash (e : Exp) : ℕ := hashExp e.x.toNat e.y.toNat e.z.toNat

/-- `GaussianOrder`, generator/Types.cpp:76-88: position of the hash in `gindex_map.at(am)`;
`none` is the C++ exception. -/
def gaussianOrder (I : List (List ℕ)) (e : Exp) : Option ℕ :=
  (I[e.am.toNat]?).bind fun v => v.findIdx? (· = e.hash)

/-! ## Checkers -/

def chkOrd (am : ℕ) : ℕ → List (List ℕ) → Bool
  | i, [] => Nat.beq i ((am + 2) * (am + 1) / 2)
  | i, [a, b, c] :: l =>
    Nat.beq (a + b + c) am && Nat.beq ((b + c) * (b + c + 1) / 2 + c) i && chkOrd am (i + 1) l
  | _, _ :: _ => false

def chkAll {α : Type} (f : ℕ → α → Bool) : ℕ → List α → Bool
  | _, [] => true
  | am, t :: ts => f am t && chkAll f (am + 1) ts

theorem chkAll_sound {α : Type} {f : ℕ → α → Bool} : ∀ (ts : List α) (s : ℕ),
    chkAll f s ts = true → ∀ i t, ts[i]? = some t → f (s + i) t = true := by
  intro ts
  induction ts with
  | nil => simp
  | cons t ts ih =>
    intro s h i u hu
    simp only [chkAll, Bool.and_eq_true] at h
    cases i with
    | zero => simp at hu; subst hu; exact h.1
    | succ i =>
      have := ih (s + 1) h.2 i u (by simpa using hu)
      rw [show s + (i + 1) = s + 1 + i by ring]; exact this

theorem chkOrd_sound (am : ℕ) : ∀ (l : List (List ℕ)) (i : ℕ), chkOrd am i l = true →
    l.length + i = ncart am ∧ ∀ j r, l[j]? = some r → IsComp am (rowExp r) ∧
      rank (rowExp r) = i + j := by
  intro l
  induction l with
  | nil =>
    intro i h
    simp only [chkOrd] at h
    have := Nat.eq_of_beq_eq_true h
    refine ⟨by simp [ncart, this], by simp⟩
  | cons r l ih =>
    intro i h
    match r with
    | [a, b, c] =>
      simp only [chkOrd, Bool.and_eq_true] at h
      obtain ⟨⟨h1, h2⟩, h3⟩ := h
      have h1 := Nat.eq_of_beq_eq_true h1
      have h2 := Nat.eq_of_beq_eq_true h2
      obtain ⟨i1, i2⟩ := ih (i + 1) h3
      refine ⟨by simp only [List.length_cons]; omega, ?_⟩
      intro j r hr
      cases j with
      | zero =>
        simp only [List.getElem?_cons_zero, Option.some.injEq] at hr
        subst hr
        refine ⟨by simp only [rowExp, IsComp]; omega, ?_⟩
        simp only [rowExp, rank, tri]
        have : ((b : ℤ) + c).toNat = b + c := by omega
        rw [this]; simp only [Int.toNat_natCast]; omega
      | succ j =>
        have := i2 j r (by simpa using hr)
        exact ⟨this.1, by omega⟩
    | [] => simp [chkOrd] at h
    | [a] => simp [chkOrd] at h
    | [a, b] => simp [chkOrd] at h
    | a :: b :: c :: d :: e => simp [chkOrd] at h

theorem chkOrd_eq {am : ℕ} {l : List (List ℕ)} (h : chkOrd am 0 l = true) :
    l.map rowExp = psi4List am := by
  obtain ⟨h1, h2⟩ := chkOrd_sound am l 0 h
  obtain ⟨g1, g2⟩ := psi4_get am
  refine List.ext_getElem (by simp; omega) ?_
  intro i hi hi'
  simp only [List.length_map] at hi
  have a := h2 i l[i] (by simp [hi])
  have b := g2 i hi'
  rw [List.getElem_map]
  exact rank_inj a.1 b.1 (by omega)

theorem psi4_chk : chkAll (fun am t => chkOrd am 0 t) 0 Tables.psi4Order = true := by
  decide +kernel

theorem gamess_chk : chkAll (fun am t => Nat.beq am 2 || Nat.beq am 3 || chkOrd am 0 t) 0
    Tables.gamessOrder = true := by
  decide +kernel

theorem gamess_chk2 : ∃ r2 r3, Tables.gamessOrder[2]? = some r2 ∧ Tables.gamessOrder[3]? = some r3 ∧
    (r2.map rowExp).Perm (psi4List 2) ∧ (r3.map rowExp).Perm (psi4List 3) ∧
    (r2.map rowExp)[0]? = some ⟨2, 0, 0⟩ ∧ (r3.map rowExp)[0]? = some ⟨3, 0, 0⟩ := by
  refine ⟨_, _, rfl, rfl, ?_⟩
  decide +kernel

def hashRow : List ℕ → ℕ
  | [a, b, c] => hashExp a b c
  | _ => 0

theorem psi4_hash_chk : Tables.psi4Index = Tables.psi4Order.map (fun t => t.map hashRow) := by
  decide +kernel

theorem gamess_hash_chk : Tables.gamessIndex = Tables.gamessOrder.map (fun t => t.map hashRow) := by
  decide +kernel

theorem psi4_len : Tables.psi4Order.length = 25 := by decide
theorem gamess_len : Tables.gamessOrder.length = 25 := by decide

theorem psi4_table_eq (am : ℕ) : tableOrd Tables.psi4Order am = psi4List am := by
  unfold tableOrd
  split
  · rename_i rows hr
    have := chkAll_sound _ 0 psi4_chk am rows hr
    simp only [Nat.zero_add] at this
    exact chkOrd_eq this
  · rfl

theorem gamess_table_perm (am : ℕ) : (tableOrd Tables.gamessOrder am).Perm (psi4List am) ∧
    (tableOrd Tables.gamessOrder am)[0]? = some ⟨am, 0, 0⟩ := by
  unfold tableOrd
  split
  · rename_i rows hr
    obtain ⟨r2, r3, e2, e3, p2, p3, s2, s3⟩ := gamess_chk2
    by_cases h2 : am = 2
    · subst h2
      rw [e2] at hr
      cases hr
      exact ⟨p2, s2⟩
    · by_cases h3 : am = 3
      · subst h3
        rw [e3] at hr
        cases hr
        exact ⟨p3, s3⟩
      · have := chkAll_sound _ 0 gamess_chk am rows hr
        simp only [Nat.zero_add, Bool.or_eq_true] at this
        rcases this with (h | h) | h
        · exact absurd (Nat.eq_of_beq_eq_true h) h2
        · exact absurd (Nat.eq_of_beq_eq_true h) h3
        · rw [chkOrd_eq h]; exact ⟨List.Perm.refl _, psi4_start am⟩
  · exact ⟨List.Perm.refl _, psi4_start am⟩

/-! ## C02 -/

/-- Both selectable orderings list every component of every angular momentum exactly once and
start with the pure-x component. -/
theorem C02_tables_complete :
    (OrdOK (tableOrd Tables.psi4Order) ∧ OrdStart (tableOrd Tables.psi4Order)) ∧
    (OrdOK (tableOrd Tables.gamessOrder) ∧ OrdStart (tableOrd Tables.gamessOrder)) := by
  refine ⟨⟨?_, ?_⟩, ?_, ?_⟩
  · have : tableOrd Tables.psi4Order = psi4List := funext psi4_table_eq
    rw [this]; exact psi4_ordOK
  · have : tableOrd Tables.psi4Order = psi4List := funext psi4_table_eq
    rw [this]; exact psi4_start
  · constructor
    · intro am
      exact ((gamess_table_perm am).1.nodup_iff).2 (psi4_ordOK.nodup am)
    · intro am e
      rw [(gamess_table_perm am).1.mem_iff]; exact psi4_ordOK.mem am e
  · intro am; exact (gamess_table_perm am).2

/-- the tables really cover 0..24, so the fallback in `tableOrd` is not used there -/
theorem C02_tables_cover (am : ℕ) (h : am ≤ 24) :
    (∃ t, Tables.psi4Order[am]? = some t) ∧ (∃ t, Tables.gamessOrder[am]? = some t) := by
  constructor
  · exact ⟨_, List.getElem?_eq_getElem (by rw [psi4_len]; omega)⟩
  · exact ⟨_, List.getElem?_eq_getElem (by rw [gamess_len]; omega)⟩

theorem rowExp_hash {r : List ℕ} (h : (rowExp r).Valid) : (rowExp r).hash = hashRow r := by
  match r with
  | [a, b, c] => simp [rowExp, Exp.hash, hashRow]
  | [] => simp [rowExp, Exp.Valid] at h
  | [a] => simp [rowExp, Exp.Valid] at h
  | [a, b] => simp [rowExp, Exp.Valid] at h
  | a :: b :: c :: d :: e => simp [rowExp, Exp.Valid] at h

theorem Exp.hash_inj {e f : Exp} (he : e.Valid) (hf : f.Valid) (h1 : e.am < 256) (h2 : f.am < 256)
    (h : e.hash = f.hash) : e = f := by
  have ex := he.get_le_am .x; have ey := he.get_le_am .y; have ez := he.get_le_am .z
  have fx := hf.get_le_am .x; have fy := hf.get_le_am .y; have fz := hf.get_le_am .z
  obtain ⟨a1, a2, a3⟩ := he
  obtain ⟨b1, b2, b3⟩ := hf
  simp only [Exp.get] at *
  unfold Exp.hash at h
  rw [hashExp_eq (by omega) (by omega), hashExp_eq (by omega) (by omega)] at h
  ext <;> omega

theorem gaussianOrder_gen {T : List (List (List ℕ))} {I : List (List ℕ)}
    (hI : I = T.map (fun t => t.map hashRow)) (hT : OrdOK (tableOrd T)) (hl : T.length = 25)
    {e : Exp} (he : e.Valid) (ham : e.am ≤ 24) :
    gaussianOrder I e = some (cidx (tableOrd T) e) := by
  have hn := he.am_nonneg
  have hlt : e.am.toNat < T.length := by omega
  have hto : tableOrd T e.am.toNat = (T[e.am.toNat]).map rowExp := by
    unfold tableOrd; simp [hlt]
  have hval : ∀ r ∈ T[e.am.toNat], (rowExp r).Valid ∧ (rowExp r).am = e.am := by
    intro r hr
    have : rowExp r ∈ tableOrd T e.am.toNat := by
      rw [hto]; exact List.mem_map_of_mem hr
    have hc := (hT.mem _ _).1 this
    exact ⟨hc.valid, by rw [hc.am_eq]; omega⟩
  have hmem := hT.mem_of_valid he
  have hidx : cidx (tableOrd T) e = ((T[e.am.toNat]).map rowExp).idxOf e := by
    unfold cidx; rw [hto]
  unfold gaussianOrder
  rw [hI]
  simp only [List.getElem?_map, List.getElem?_eq_getElem hlt, Option.map_some, Option.bind_some]
  rw [hidx, List.findIdx?_eq_some_iff_getElem]
  rw [hto] at hmem
  have hlt2 := List.idxOf_lt_length_of_mem hmem
  have hlt3 : List.idxOf e (List.map rowExp T[e.am.toNat]) < (T[e.am.toNat]).length := by
    simpa using hlt2
  have hge : ∀ j (hj : j < (T[e.am.toNat]).length),
      (List.map hashRow T[e.am.toNat])[j]'(by simpa using hj) =
        (rowExp (T[e.am.toNat])[j]).hash := by
    intro j hj
    rw [List.getElem_map, rowExp_hash (hval _ (List.getElem_mem hj)).1]
  refine ⟨by simpa using hlt3, ?_, ?_⟩
  · rw [hge _ hlt3]
    have := List.getElem_idxOf hlt2
    rw [List.getElem_map] at this
    simp [this]
  · intro j hj hh
    have hj' : j < (T[e.am.toNat]).length := by omega
    rw [hge j hj'] at hh
    simp only [decide_eq_true_eq] at hh
    have hv := hval _ (List.getElem_mem hj')
    have heq := Exp.hash_inj hv.1 he (by rw [hv.2]; omega) (by omega) hh
    have hnd := hT.nodup e.am.toNat
    rw [hto] at hnd
    have := hnd.idxOf_getElem j (by simpa using hj')
    rw [List.getElem_map, heq] at this
    omega

/-- Looking up the number of a component through the hash table never throws, and both lookup
directions are mutually inverse. -/
theorem C02_lookup_inverse {e : Exp} (he : e.Valid) (ham : e.am ≤ 24) :
    (∃ i, gaussianOrder Tables.psi4Index e = some i ∧
      (tableOrd Tables.psi4Order e.am.toNat)[i]? = some e) ∧
    (∃ i, gaussianOrder Tables.gamessIndex e = some i ∧
      (tableOrd Tables.gamessOrder e.am.toNat)[i]? = some e) := by
  obtain ⟨⟨hp, _⟩, hg, _⟩ := C02_tables_complete
  have key : ∀ T, OrdOK (tableOrd T) →
      (tableOrd T e.am.toNat)[cidx (tableOrd T) e]? = some e := by
    intro T hT
    have hm := hT.mem_of_valid he
    have hl := List.idxOf_lt_length_of_mem hm
    unfold cidx
    rw [List.getElem?_eq_getElem hl, List.getElem_idxOf hl]
  exact ⟨⟨_, gaussianOrder_gen psi4_hash_chk hp psi4_len he ham, key _ hp⟩,
    ⟨_, gaussianOrder_gen gamess_hash_chk hg gamess_len he ham, key _ hg⟩⟩

/-- non-trivial case: the d_xy component is number 1 in Psi4 order and 3 in GAMESS order -/
example : gaussianOrder Tables.psi4Index ⟨1, 1, 0⟩ = some 1 ∧
    gaussianOrder Tables.gamessIndex ⟨1, 1, 0⟩ = some 3 := by decide +kernel

/-! ## C07 -/

/-- smallest non-zero of three naturals, right-most direction -/
def dirN (a b c : ℕ) : ℤ :=
  if a + b + c = 0 then -1
  else if 0 < c ∧ (a = 0 ∨ c ≤ a) ∧ (b = 0 ∨ c ≤ b) then 2
  else if 0 < b ∧ (a = 0 ∨ b ≤ a) then 1
  else 0

def rankN (a b c : ℕ) : ℤ := ((((b + c) * (b + c + 1)) / 2 + c : ℕ) : ℤ)

/-- closed form of a printed row -/
def rowN (a b c : ℕ) : List ℤ :=
  [a, b, c, dirN a b c,
    if 0 < a then rankN (a - 1) b c else -1, if 1 < a then rankN (a - 2) b c else -1,
    rankN (a + 1) b c,
    if 0 < b then rankN a (b - 1) c else -1, if 1 < b then rankN a (b - 2) c else -1,
    rankN a (b + 1) c,
    if 0 < c then rankN a b (c - 1) else -1, if 1 < c then rankN a b (c - 2) else -1,
    rankN a b (c + 1)]

theorem rankN_eq (a b c : ℕ) : rankN a b c = rank ⟨a, b, c⟩ := by
  simp only [rankN, rank, tri]
  have : ((b : ℤ) + c).toNat = b + c := by omega
  rw [this, Int.toNat_natCast]

theorem rankN_of {e : Exp} {a b c : ℕ} (h : e = ⟨a, b, c⟩) : rankN a b c = rank e := by
  rw [rankN_eq, h]

theorem recurRow_dir {k : ℕ} {e : Exp} (h : IsComp k e) (hk : 0 < k) :
    ∃ d : Dir, (recurRow k e).dir = d.idx ∧ SmallestRight e d := by
  obtain ⟨d, h1, h2⟩ := pyDir_spec h.valid (by rw [h.am_eq]; omega)
  refine ⟨d, ?_, h2⟩
  have : k ≠ 0 := by omega
  simp [recurRow, this, h1]

theorem if0 {n : ℕ} {R R' : ℤ} (h : 0 < n → R = R') :
    (if 0 < (n : ℤ) then R else -1) = if 0 < n then R' else -1 := by
  by_cases q : 0 < n
  · rw [if_pos q, if_pos (by omega), h q]
  · rw [if_neg q, if_neg (by omega)]

theorem if1 {n : ℕ} {R R' : ℤ} (h : 1 < n → R = R') :
    (if 1 < (n : ℤ) then R else -1) = if 1 < n then R' else -1 := by
  by_cases q : 1 < n
  · rw [if_pos q, if_pos (by omega), h q]
  · rw [if_neg q, if_neg (by omega)]

theorem recurRow_print (a b c : ℕ) : (recurRow (a + b + c) ⟨a, b, c⟩).print = rowN a b c := by
  have hc : IsComp (a + b + c) ⟨a, b, c⟩ := by simp [IsComp]
  have hd : (recurRow (a + b + c) ⟨a, b, c⟩).dir = dirN a b c := by
    unfold dirN
    by_cases h0 : a + b + c = 0
    · simp [recurRow, h0]
    · obtain ⟨d, h1, h2, h3⟩ := recurRow_dir hc (by omega)
      rw [h1]
      have hx := h3 .x; have hy := h3 .y; have hz := h3 .z
      rw [if_neg h0]
      cases d <;> simp only [Exp.get, Dir.idx] at h2 hx hy hz ⊢ <;> split_ifs <;> first | omega | (simp; done) | (simp; omega)
  unfold RecurInfo.print rowN
  rw [hd]
  simp only [recurRow_m1 hc, recurRow_m2 hc, recurRow_p1 hc, Exp.get, Exp.step]
  have e0 : (recurRow (a + b + c) ⟨a, b, c⟩).ijk = ⟨a, b, c⟩ := rfl
  rw [e0]
  simp only [List.cons.injEq, true_and, and_true]
  refine ⟨if0 ?_, if1 ?_, ?_, if0 ?_, if1 ?_, ?_, if0 ?_, if1 ?_, ?_⟩
  all_goals first
    | (refine (rankN_of ?_).symm; ext <;> dsimp only <;> omega)
    | (intro _; refine (rankN_of ?_).symm; ext <;> dsimp only <;> omega)

def chkRow (am i : ℕ) : List ℤ → Bool
  | Int.ofNat a :: Int.ofNat b :: Int.ofNat c :: l =>
    Nat.beq (a + b + c) am && Nat.beq ((b + c) * (b + c + 1) / 2 + c) i &&
      decide ((a : ℤ) :: (b : ℤ) :: (c : ℤ) :: l = rowN a b c)
  | _ => false

def chkRows (am : ℕ) : ℕ → List (List ℤ) → Bool
  | i, [] => Nat.beq i ((am + 2) * (am + 1) / 2)
  | i, r :: l => chkRow am i r && chkRows am (i + 1) l

theorem recur_chk : chkAll (fun am t => chkRows am 0 t) 0 Tables.recurBlocks = true := by
  decide +kernel

theorem chkRow_sound {am i : ℕ} {r : List ℤ} (h : chkRow am i r = true) :
    ∃ e, IsComp am e ∧ rank e = i ∧ r = (recurRow am e).print := by
  unfold chkRow at h
  split at h
  · rename_i a b c l
    simp only [Bool.and_eq_true, decide_eq_true_eq] at h
    obtain ⟨⟨h1, h2⟩, h3⟩ := h
    have h1 := Nat.eq_of_beq_eq_true h1
    have h2 := Nat.eq_of_beq_eq_true h2
    refine ⟨⟨a, b, c⟩, by simp [IsComp]; omega, ?_, ?_⟩
    · have := rankN_eq a b c
      simp only [rankN, h2] at this
      omega
    · rw [← h1, recurRow_print]; exact h3
  · exact absurd h (by simp)

theorem chkRows_sound (am : ℕ) : ∀ (l : List (List ℤ)) (i : ℕ), chkRows am i l = true →
    l.length + i = ncart am ∧ ∀ j r, l[j]? = some r →
      ∃ e, IsComp am e ∧ rank e = i + j ∧ r = (recurRow am e).print := by
  intro l
  induction l with
  | nil =>
    intro i h
    simp only [chkRows] at h
    have := Nat.eq_of_beq_eq_true h
    exact ⟨by simp [ncart, this], by simp⟩
  | cons r l ih =>
    intro i h
    simp only [chkRows, Bool.and_eq_true] at h
    obtain ⟨i1, i2⟩ := ih (i + 1) h.2
    refine ⟨by simp only [List.length_cons]; omega, ?_⟩
    intro j r' hr
    cases j with
    | zero =>
      simp only [List.getElem?_cons_zero, Option.some.injEq] at hr
      subst hr
      exact chkRow_sound h.1
    | succ j =>
      obtain ⟨e, a, b, c⟩ := i2 j r' (by simpa using hr)
      exact ⟨e, a, by omega, c⟩

theorem chkRows_eq {am : ℕ} {l : List (List ℤ)} (h : chkRows am 0 l = true) :
    l = (recurRows am).map RecurInfo.print := by
  obtain ⟨h1, h2⟩ := chkRows_sound am l 0 h
  obtain ⟨g1, g2⟩ := psi4_get am
  unfold recurRows
  refine List.ext_getElem (by simp; omega) ?_
  intro i hi hi'
  obtain ⟨e, a, b, c⟩ := h2 i l[i] (by simp [hi])
  rw [c]
  simp only [List.length_map] at hi'
  have hg := g2 i hi'
  have : e = (psi4List am)[i] := rank_inj a hg.1 (by omega)
  simp [this]

/-- The shipped `recurinfo_array` is exactly what the generating script prints. -/
theorem C07_table_is_generated :
    Tables.recurArray = (recurArrayGen 18).map RecurInfo.print ∧
    Tables.amRecurMap = (List.range 19).map recurStart := by
  constructor
  · have hb : Tables.recurBlocks = (List.range 19).map (fun k => (recurRows k).map RecurInfo.print) := by
      refine List.ext_getElem (by decide) ?_
      intro i hi hi'
      have := chkAll_sound _ 0 recur_chk i _ (List.getElem?_eq_getElem hi)
      simp only [Nat.zero_add] at this
      rw [chkRows_eq this]; simp
    unfold Tables.recurArray recurArrayGen
    rw [hb, List.map_flatMap, List.flatMap_def]
  · have h : ∀ k, recurStart (k + 1) = recurStart k + ncart k := by
      intro k; simp [recurStart, (psi4_get k).1]
    have h0 : recurStart 0 = 0 := rfl
    simp only [List.range, List.range.loop, List.map, h, h0, ncart]
    decide

/-- What a run-time lookup `recurinfo_array[am_recur_map[am] + i]` returns: the record of the
`i`-th component, whose neighbour numbers are the component numbers of the lowered, twice
lowered and raised component, `-1` exactly when that component does not exist, and whose
direction is the smallest positive exponent (right-most among equals). -/
theorem C07_recur_record {maxam k : ℕ} (hk : k ≤ maxam) {e : Exp} (he : IsComp k e) :
    ∃ r, (recurArrayGen maxam)[recurStart k + cidx psi4List e]? = some r ∧ r.ijk = e ∧
      (∀ d, r.m1 d = if (e.step d (-1)).Valid then (cidx psi4List (e.step d (-1)) : ℤ) else -1) ∧
      (∀ d, r.m2 d = if (e.step d (-2)).Valid then (cidx psi4List (e.step d (-2)) : ℤ) else -1) ∧
      (∀ d, r.p1 d = cidx psi4List (e.step d 1)) ∧
      (k = 0 → r.dir = -1) ∧
      (0 < k → ∃ d : Dir, r.dir = d.idx ∧ SmallestRight e d) := by
  have hci := psi4_cidx he.valid
  have hlt := rank_lt he
  have hget := psi4_get k
  have hi : rank e < (psi4List k).length := by rw [hget.1]; exact hlt
  have hel : (psi4List k)[rank e] = e := rank_inj (hget.2 _ hi).1 he (hget.2 _ hi).2
  refine ⟨recurRow k e, ?_, rfl, ?_, ?_, ?_, ?_, fun h => recurRow_dir he h⟩
  · rw [hci, recurArrayGen_get hk hi, hel]
  · intro d
    rw [recurRow_m1 he]
    have hv := Exp.valid_step_iff e d (-1) he.valid
    by_cases h : 0 < e.get d
    · have : (e.step d (-1)).Valid := hv.2 (by omega)
      rw [if_pos h, if_pos this, psi4_cidx this]
    · have : ¬ (e.step d (-1)).Valid := fun hh => h (by have := hv.1 hh; omega)
      rw [if_neg h, if_neg this]
  · intro d
    rw [recurRow_m2 he]
    have hv := Exp.valid_step_iff e d (-2) he.valid
    by_cases h : 1 < e.get d
    · have : (e.step d (-2)).Valid := hv.2 (by omega)
      rw [if_pos h, if_pos this, psi4_cidx this]
    · have : ¬ (e.step d (-2)).Valid := fun hh => h (by have := hv.1 hh; omega)
      rw [if_neg h, if_neg this]
  · intro d
    rw [recurRow_p1 he]
    have hv : (e.step d 1).Valid := (Exp.valid_step_iff e d 1 he.valid).2 (by
      have := (Exp.valid_iff e).1 he.valid d; omega)
    rw [psi4_cidx hv]
  · rintro rfl; simp [recurRow]

/-- a concrete record: f_xxy (am 3, number 1): direction y, neighbours as in the C file -/
example : ((recurArrayGen 4)[recurStart 3 + 1]?).map RecurInfo.print =
    some [2, 1, 0, 1, 1, 1, 1, 0, -1, 3, -1, -1, 4] := by decide +kernel

end Simint
