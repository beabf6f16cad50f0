import Verif.VRRExtLemmas

/-!
# Generic vertical routines: lemmas
-/

set_option autoImplicit false

namespace Simint

theorem recAt_row {am i : ℕ} (ham : am ≤ 18) (hi : i < (psi4List am).length) :
    recAt am i = some (recurRow am (psi4List am)[i]) := by
  rw [recAt, if_pos ham, recurArrayGen_get ham hi]

/-- What a record says about its component. -/
theorem row_spec {n : ℕ} {e : Exp} (hn : n ≤ 18) (he : IsComp n e) :
    (recurRow n e).ijk = e ∧
    (∀ d, 0 < e.get d → (recurRow n e).m1 d = cidx psi4List (e.step d (-1))) ∧
    (∀ d, 1 < e.get d → (recurRow n e).m2 d = cidx psi4List (e.step d (-2))) ∧
    (0 < n → ∃ d : Dir, dirOf (recurRow n e).dir = some d ∧ makDir e = some d ∧ 0 < e.get d) := by
  obtain ⟨hi, hg⟩ := psi4_getElem_cidx he
  obtain ⟨r, h1, h2, -, h4, -, h6, h7⟩ := recAt_psi4 hn hi
  rw [recAt_row hn hi, Option.some.injEq] at h1
  rw [hg] at h1 h2 h4 h6 h7
  subst h1
  refine ⟨h7, h2, ?_, ?_⟩
  · intro d hd
    rw [h4, if_pos ((Exp.valid_step_iff _ _ _ he.valid).2 (by omega))]
  · intro hp
    obtain ⟨d, a, b, c⟩ := h6 hp
    exact ⟨d, a, c, b.1⟩

theorem nc1_eq (i : ℕ) : nc1 i = ncart ((i : ℤ) - 1) := by
  rcases Nat.eq_zero_or_pos i with rfl | h
  · rfl
  · have : ((i : ℤ) - 1) = ((i - 1 : ℕ) : ℤ) := by omega
    rw [this, ← nc_eq, nc, nc1]
    congr 1
    obtain ⟨k, rfl⟩ : ∃ k, i = k + 1 := ⟨i - 1, by omega⟩
    simp only [Nat.add_sub_cancel]

theorem nc2_eq (i : ℕ) : nc2 i = ncart ((i : ℤ) - 2) := by
  rcases Nat.lt_or_ge i 2 with h | h
  · obtain rfl | rfl : i = 0 ∨ i = 1 := by omega
    · rfl
    · rfl
  · have : ((i : ℤ) - 2) = ((i - 2 : ℕ) : ℤ) := by omega
    rw [this, ← nc_eq, nc, nc2]
    congr 1
    obtain ⟨k, rfl⟩ : ∃ k, i = k + 2 := ⟨i - 2, by omega⟩
    simp only [Nat.add_sub_cancel, show k + 2 - 1 = k + 1 by omega]

/-! ## Loops -/

section
variable {F : Type} [VOps F]

theorem gLoops_eq {i j k l : ℕ} (hi : i ≤ 18) (hj : j ≤ 18) (hk : k ≤ 18) (hl : l ≤ 18)
    (cell : RecurInfo → RecurInfo → RecurInfo → RecurInfo → ℕ → ℕ → ℕ → ℕ → GCell F) :
    gLoops i j k l cell = some ((psi4List i).flatMap fun a => (psi4List j).flatMap fun b =>
      (psi4List k).flatMap fun c => (psi4List l).flatMap fun d =>
        [cell (recurRow i a) (recurRow j b) (recurRow k c) (recurRow l d) (cidx psi4List a)
          (cidx psi4List b) (cidx psi4List c) (cidx psi4List d)]) := by
  rw [gLoops]
  refine forEach_eq (psi4_length i) fun xi hxi => ?_
  rw [recAt_row hi hxi, Option.bind_some, (cidx_psi4_getElem hxi).2]
  refine forEach_eq (psi4_length j) fun xj hxj => ?_
  rw [recAt_row hj hxj, Option.bind_some, (cidx_psi4_getElem hxj).2]
  refine forEach_eq (psi4_length k) fun xk hxk => ?_
  rw [recAt_row hk hxk, Option.bind_some, (cidx_psi4_getElem hxk).2]
  refine forEach_eq (psi4_length l) fun xl hxl => ?_
  rw [recAt_row hl hxl, Option.map_some, (cidx_psi4_getElem hxl).2]

theorem four_length {α : Type} {i j k l : ℕ} (f : Exp → Exp → Exp → Exp → α) :
    ((psi4List i).flatMap fun a => (psi4List j).flatMap fun b =>
      (psi4List k).flatMap fun c => (psi4List l).flatMap fun d => [f a b c d]).length =
    nc i * (nc j * (nc k * (nc l * 1))) := by
  rw [flatMap_length_const (n := nc j * (nc k * (nc l * 1))), psi4_length]
  intro a _
  rw [flatMap_length_const (n := nc k * (nc l * 1)), psi4_length]
  intro b _
  rw [flatMap_length_const (n := nc l * 1), psi4_length]
  intro c _
  rw [flatMap_length_const (n := 1), psi4_length]
  intro d _
  rfl

theorem four_get {α : Type} {i j k l : ℕ} (f : Exp → Exp → Exp → Exp → α) {a b c d : Exp}
    (ha : IsComp i a) (hb : IsComp j b) (hc : IsComp k c) (hd : IsComp l d) :
    ((psi4List i).flatMap fun a => (psi4List j).flatMap fun b =>
      (psi4List k).flatMap fun c => (psi4List l).flatMap fun d => [f a b c d])[
        cidx psi4List a * (nc j * (nc k * (nc l * 1))) + (cidx psi4List b * (nc k * (nc l * 1)) +
          (cidx psi4List c * (nc l * 1) + (cidx psi4List d * 1 + 0)))]? = some (f a b c d) := by
  obtain ⟨ga, ea⟩ := psi4_getElem_cidx ha
  obtain ⟨gb, eb⟩ := psi4_getElem_cidx hb
  obtain ⟨gc, ec⟩ := psi4_getElem_cidx hc
  obtain ⟨gd, ed⟩ := psi4_getElem_cidx hd
  have lb := cidx_psi4_lt hb; have lc := cidx_psi4_lt hc; have ld := cidx_psi4_lt hd
  have h3 : cidx psi4List d * 1 + 0 < nc l * 1 := by omega
  have h2 := mix_lt lc h3
  have h1 := mix_lt lb h2
  rw [flatMap_get (n := nc j * (nc k * (nc l * 1))) _ ga h1, ea,
    flatMap_get (n := nc k * (nc l * 1)) _ gb h2, eb,
    flatMap_get (n := nc l * 1) _ gc h3, ec, flatMap_get (n := 1) _ gd (by omega), ed]
  · rfl
  · intro d _; rfl
  · intro c _
    rw [flatMap_length_const (n := 1), psi4_length]; intro d _; rfl
  · intro b _
    rw [flatMap_length_const (n := nc l * 1), psi4_length]
    intro c _
    rw [flatMap_length_const (n := 1), psi4_length]; intro d _; rfl
  · intro a _
    rw [flatMap_length_const (n := nc k * (nc l * 1)), psi4_length]
    intro b _
    rw [flatMap_length_const (n := nc l * 1), psi4_length]
    intro c _
    rw [flatMap_length_const (n := 1), psi4_length]; intro d _; rfl

/-! ## Executing the cells -/

theorem gCol_jobs {mr : MReq} {am : QAM} {nn cur : ℕ} {fc : GCell F} {m : VMem F} {Pv : ℕ → F → Prop} :
    ∀ (ns : List ℕ), (∀ n ∈ ns, n * nn + cur < vSize mr am ∧
      ∃ v, (∀ m' : VMem F, (∀ q, q ≠ am → m' q = m q) → fc m' n = some v) ∧ Pv (n * nn + cur) v) →
    ∀ (m1 : VMem F) (dn : ℕ → Prop), (∀ q, q ≠ am → m1 q = m q) → (∀ a, dn a → Pv a (m1 am a)) →
    ∃ m2, gCol mr am nn cur fc ns m1 = some m2 ∧ (∀ q, q ≠ am → m2 q = m q) ∧
      ∀ a, (dn a ∨ ∃ n ∈ ns, a = n * nn + cur) → Pv a (m2 am a)
  | [], _, m1, dn, h1, h2 => ⟨m1, rfl, h1, by simpa using h2⟩
  | n :: ns, hs, m1, dn, h1, h2 => by
    obtain ⟨k2, v, k3, k4⟩ := hs n (by simp)
    obtain ⟨m2, e, g1, g2⟩ := gCol_jobs ns (fun s' hs' => hs s' (by simp [hs']))
      (fun q' i' => if q' = am ∧ i' = n * nn + cur then v else m1 q' i')
      (fun a => dn a ∨ a = n * nn + cur)
      (fun q hq => by funext i; simp [hq, h1 q hq])
      (fun a ha => by
        by_cases hc : a = n * nn + cur
        · simp only [hc, and_self, if_true]; exact k4
        · simp only [hc, and_false, if_false]
          exact h2 a (ha.resolve_right hc))
    refine ⟨m2, ?_, g1, fun a ha => g2 a ?_⟩
    · rw [gCol, k3 m1 h1, Option.bind_some, vwrite, if_pos k2, Option.bind_some, e]
    · rcases ha with ha | ⟨s', hs', ha⟩
      · exact Or.inl (Or.inl ha)
      · rcases List.mem_cons.1 hs' with rfl | hs'
        · exact Or.inl (Or.inr ha)
        · exact Or.inr ⟨s', hs', ha⟩

theorem gExec_jobs {mr : MReq} {am : QAM} {nn num : ℕ} {m : VMem F} {Pv : ℕ → F → Prop} :
    ∀ (fs : List (GCell F)) (cur : ℕ), (∀ x fc, fs[x]? = some fc → ∀ n, n < num →
      n * nn + (cur + x) < vSize mr am ∧
      ∃ v, (∀ m' : VMem F, (∀ q, q ≠ am → m' q = m q) → fc m' n = some v) ∧
        Pv (n * nn + (cur + x)) v) →
    ∀ (m1 : VMem F) (dn : ℕ → Prop), (∀ q, q ≠ am → m1 q = m q) → (∀ a, dn a → Pv a (m1 am a)) →
    ∃ m2, gExec mr am nn num cur fs m1 = some m2 ∧ (∀ q, q ≠ am → m2 q = m q) ∧
      ∀ a, (dn a ∨ ∃ x < fs.length, ∃ n < num, a = n * nn + (cur + x)) → Pv a (m2 am a)
  | [], _, _, m1, dn, h1, h2 => ⟨m1, rfl, h1, by simpa using h2⟩
  | fc :: fs, cur, hs, m1, dn, h1, h2 => by
    obtain ⟨m2, e2, g1, g2⟩ := gCol_jobs (mr := mr) (am := am) (nn := nn) (cur := cur) (fc := fc)
      (m := m) (Pv := Pv) (List.range num) (fun n hn => by
        have := hs 0 fc (by simp) n (List.mem_range.1 hn)
        simpa using this) m1 dn h1 h2
    obtain ⟨m3, e3, r1, r2⟩ := gExec_jobs fs (cur + 1) (fun x fc' hx n hn => by
        have := hs (x + 1) fc' (by simpa using hx) n hn
        rwa [show cur + (x + 1) = cur + 1 + x by omega] at this) m2 _ g1 g2
    refine ⟨m3, by rw [gExec, e2, Option.bind_some, e3], r1, fun a ha => r2 a ?_⟩
    rcases ha with ha | ⟨x, hx, n, hn, ha⟩
    · exact Or.inl (Or.inl ha)
    · rcases x with _ | x
      · exact Or.inl (Or.inr ⟨n, List.mem_range.2 hn, by simpa using ha⟩)
      · exact Or.inr ⟨x, by simpa using hx, n, hn, by rw [ha]; omega⟩

/-- Running a list of cells, one per component in the standard order. -/
theorem cells_contract {mr : MReq} {P : VPar F} {am : QAM} {t : RRType} {M : ℤ}
    (hr : ReqOK mr am t M) (hpos : 0 < am.get t) {fs : List (GCell F)} (hlen : fs.length = ncartQ am)
    (htag : am.tag = "") (hval : am.valid = true)
    (hcell : ∀ q : Qrt, q.Valid → q.m = 0 → q.am4 = am → ∃ fc, fs[q.index psi4List]? = some fc ∧
      ∀ d, makDir (q.cen t) = some d → 0 < (q.cen t).get d → ∀ (m m' : VMem F),
        (∀ a, a ≠ am → m' a = m a) → ∀ n : ℕ, (n : ℤ) ≤ M →
          fc m' n = some (vform .gen P t d q (m.at psi4List) n)) :
    VContract psi4List .gen P am t M (fun _ => True)
      (fun m => gExec mr am (ncartQ am) (M + 1).toNat 0 fs m) := by
  intro m
  have ho := psi4_ordOK
  have hsurj : ∀ x, x < ncartQ am → ∃ q : Qrt, q.Valid ∧ q.m = 0 ∧ q.am4 = am ∧ q.index psi4List = x := by
    intro x hx
    obtain ⟨aa, ab, ac, ad, tg⟩ := am
    rw [QAM.valid_iff] at hval
    have v1 := hval .I; have v2 := hval .J; have v3 := hval .K; have v4 := hval .L
    simp only [QAM.get] at v1 v2 v3 v4 htag
    lift aa to ℕ using v1
    lift ab to ℕ using v2
    lift ac to ℕ using v3
    lift ad to ℕ using v4
    obtain ⟨x1, x2, h1, h2, rfl⟩ := mix_surj (show x < (ncart aa * ncart ab) * (ncart ac * ncart ad) by
      rw [ncartQ] at hx; simpa [mul_assoc] using hx)
    obtain ⟨p, pa, pb, hp⟩ := Dbl.index_surj ho aa ab h1
    obtain ⟨r, ra, rb, hrr⟩ := Dbl.index_surj ho ac ad h2
    refine ⟨⟨p, r, 0⟩, ⟨⟨pa.valid, pb.valid⟩, ⟨ra.valid, rb.valid⟩, le_rfl⟩, rfl, ?_, ?_⟩
    · rw [Qrt.am4, pa.am_eq, pb.am_eq, ra.am_eq, rb.am_eq, htag]
    · rw [Qrt.index, hp, hrr, Dbl.ncart, ra.am_eq, rb.am_eq]
  obtain ⟨m', e, g1, g2⟩ := gExec_jobs (mr := mr) (am := am) (nn := ncartQ am) (num := (M + 1).toNat)
    (m := m)
    (Pv := fun a v => ∀ (q : Qrt) (n : ℕ), q.Valid → q.m = 0 → q.am4 = am → a = vaddr psi4List q n →
      ∀ d, makDir (q.cen t) = some d → v = vform .gen P t d q (m.at psi4List) n)
    fs 0 (by
      intro x fc hx n hn
      have hxl : x < ncartQ am := by rw [← hlen]; exact (List.getElem?_eq_some_iff.1 hx).1
      obtain ⟨q, hq, hm, ham, hqx⟩ := hsurj x hxl
      obtain ⟨fc', h1, h2⟩ := hcell q hq hm ham
      rw [hqx, hx, Option.some.injEq] at h1
      subst h1
      obtain ⟨d0, hd0, hdp, -⟩ := createSingle_spec (t := t) hq (by rw [ham]; exact hpos)
      have hadr : n * ncartQ am + (0 + x) = vaddr psi4List q n := by
        rw [vaddr, ncartQ_of ham, hqx]; omega
      refine ⟨?_, vform .gen P t d0 q (m.at psi4List) n, ?_, ?_⟩
      · rw [hadr, ← ham]
        exact vaddr_lt ho hq (by rw [ham]; exact hr.1) (by omega)
      · intro m2 hm2
        exact h2 d0 hd0 hdp m m2 hm2 n (by omega)
      · intro q2 n' hq2 hm2 ham2 hadr2 d hd
        rw [hadr] at hadr2
        obtain ⟨rfl, rfl⟩ := vaddr_inj ho hq hq2 (by rw [ham, ham2]) (by rw [hm, hm2]) hadr2
        rw [hd0, Option.some.injEq] at hd
        rw [hd])
    m (fun _ => False) (fun _ _ => rfl) (by simp)
  refine ⟨m', e, g1, ?_⟩
  rintro q hq hm ham - n hn d hd
  rw [VMem.at, ham]
  refine g2 _ (Or.inr ⟨q.index psi4List, ?_, n, by omega, ?_⟩) q n hq hm ham rfl d hd
  · rw [hlen, ncartQ_of ham]; exact Qrt.index_lt ho hq
  · rw [vaddr, ncartQ_of ham]; omega

/-! ## Value of one cell -/

/-- Reading a source array. -/
theorem pread_eq {mr : MReq} {am : QAM} {t : RRType} {M : ℤ} (hr : ReqOK mr am t M) {m m2 : VMem F}
    (hm2 : ∀ a, a ≠ am → m2 a = m a) {p : Qrt} (hp : p.Valid) (hb : p.am4 ∈ vAMReq am t) {n : ℕ}
    (hn : (n : ℤ) ≤ M + 1) {z : ℤ} (hz : z = vaddr psi4List p n) :
    pread mr m2 (some p.am4) z = some (m.at psi4List n p) := by
  obtain ⟨M', hM1, hM2⟩ := hr.2.2 _ hb
  have hlt := vaddr_lt psi4_ordOK hp hM1 (n := n) (by omega)
  have hne : p.am4 ≠ am := by
    intro hc
    have := vAMReq_sum hb
    rw [hc] at this; omega
  subst hz
  rw [pread, Option.bind_some, if_pos (by omega), Int.toNat_natCast, vread, if_pos hlt, hm2 _ hne]
  rfl

theorem gTwo_eq {c : Bool} {rd : Ptr → ℤ → Option F} {num : ℤ} {ao o2 : F} {θ : Ptr} {i3 i4 : ℤ}
    {t v w : F} (h : c = true → rd θ i3 = some v ∧ rd θ i4 = some w) (h0 : c = decide (0 < num)) :
    gTwo c rd num ao o2 θ i3 i4 t = some (vTwoG num (VOps.mul (VOps.int num) o2) ao v w t) := by
  unfold gTwo vTwoG
  cases c with
  | false => rw [if_neg (by simp), if_neg (of_decide_eq_false h0.symm)]
  | true =>
    rw [if_pos rfl, (h rfl).1, (h rfl).2, Option.bind_some, Option.map_some,
      if_pos (of_decide_eq_true h0.symm)]

theorem gOne_eq {c : Bool} {rd : Ptr → ℤ → Option F} {num : ℤ} {o2pq : F} {θ : Ptr} {i7 : ℤ}
    {t v : F} (h : c = true → rd θ i7 = some v) (h0 : c = decide (0 < num)) :
    gOne c rd num o2pq θ i7 t = some (vOne num (VOps.mul o2pq (VOps.int num)) v t) := by
  unfold gOne vOne
  cases c with
  | false => rw [if_neg (by simp), if_neg (of_decide_eq_false h0.symm)]
  | true => rw [if_pos rfl, h rfl, Option.map_some, if_pos (of_decide_eq_true h0.symm)]

/-- Index facts a routine has to supply for one component. -/
theorem g_cell {mr : MReq} {P : VPar F} {am : QAM} {t : RRType} {M : ℤ} (hr : ReqOK mr am t M)
    {q : Qrt} (hv : q.Valid) (hm0 : q.m = 0) (ham : q.am4 = am) {d : Dir} (hd : 0 < (q.cen t).get d)
    {m m2 : VMem F} (hm2 : ∀ a, a ≠ am → m2 a = m a) {n : ℕ} (hn : (n : ℤ) ≤ M)
    {θ : ℕ → Ptr} (hθ : ∀ j : Fin 5, (vslot t q d j).am4.valid = true →
      θ j.1 = some (vslot t q d j).am4)
    {c1 c2 c3 c4 : Bool} {k1 k2 k3 k4 : ℤ}
    (e1 : k1 = vnum t q d t.s1) (e2 : k2 = vnum t q d t.s2) (e3 : k3 = vnum t q d t.o1)
    (e4 : k4 = vnum t q d t.o2)
    (f1 : c1 = decide (0 < k1)) (f2 : c2 = decide (0 < k2)) (f3 : c3 = decide (0 < k3))
    (f4 : c4 = decide (0 < k4)) {i1 i2 i3 i4 i5 i6 i7 i8 : ℤ}
    (a1 : i1 = vaddr psi4List (q.low t d 1) n) (a2 : i2 = vaddr psi4List (q.low t d 1) (n + 1))
    (a3 : 0 < k1 → i3 = vaddr psi4List (vlo t q d t.s1) n ∧ i4 = vaddr psi4List (vlo t q d t.s1) (n + 1))
    (a5 : 0 < k2 → i5 = vaddr psi4List (vlo t q d t.s2) n ∧ i6 = vaddr psi4List (vlo t q d t.s2) (n + 1))
    (a7 : 0 < k3 → i7 = vaddr psi4List (vlo t q d t.o1) (n + 1))
    (a8 : 0 < k4 → i8 = vaddr psi4List (vlo t q d t.o2) (n + 1)) :
    ((gFirst (pread mr m2) (P.pa t d) (P.apq t d) (θ 0) i1 i2).bind fun x =>
      (gTwo c1 (pread mr m2) k1 (P.ao t) (P.o2 t) (θ 1) i3 i4 x).bind fun x =>
      (gTwo c2 (pread mr m2) k2 (P.ao t) (P.o2 t) (θ 2) i5 i6 x).bind fun x =>
      (gOne c3 (pread mr m2) k3 P.o2pq (θ 3) i7 x).bind fun x =>
      gOne c4 (pread mr m2) k4 P.o2pq (θ 4) i8 x) = some (vform .gen P t d q (m.at psi4List) n) := by
  obtain ⟨s1, s2, s3, s4⟩ := vslot_vlo t q d
  have hv' := ((Qrt.valid_iff q).1 hv).1
  have hslot : ∀ j : Fin 5, (∀ w, ((vslot t q d j).cen w).Valid) → (vslot t q d j).Valid ∧
      (vslot t q d j).am4 ∈ vAMReq am t ∧ θ j.1 = some (vslot t q d j).am4 := by
    intro j hj
    have h1 : (vslot t q d j).Valid := by
      rw [Qrt.valid_iff]; exact ⟨hj, by rw [vslot_m, hm0]⟩
    refine ⟨h1, ?_, hθ j h1.am4⟩
    rw [← ham, mem_vAMReq d]; exact ⟨j, rfl, h1.am4⟩
  have hnn := vnum_nonneg hv hd
  have h0 : ∀ w, ((vslot t q d 0).cen w).Valid := by
    intro w
    rw [vslot_zero, Qrt.cen_low]
    split
    · rw [Exp.valid_step_iff _ _ _ (hv' t)]; omega
    · exact hv' w
  obtain ⟨p1, p2, p3⟩ := hslot 0 h0
  rw [vslot_zero] at p1 p2 p3
  have r1 := pread_eq hr hm2 p1 p2 (n := n) (by omega) a1
  have r2 := pread_eq hr hm2 p1 p2 (n := n + 1) (by push_cast; omega) a2
  have kread : ∀ (j : Fin 5) (u : RRType), vslot t q d j = vlo t q d u → 0 < vnum t q d u →
      ∀ n' : ℕ, n' ≤ n + 1 → ∀ z : ℤ, z = vaddr psi4List (vlo t q d u) n' →
        pread mr m2 (θ j.1) z = some (m.at psi4List n' (vlo t q d u)) := by
    intro j u e hp n' hn' z hz
    have hval : ∀ w, ((vslot t q d j).cen w).Valid := by
      rw [e]; exact (vlo_valid hv hd u).2 hp
    obtain ⟨b1, b2, b3⟩ := hslot j hval
    rw [b3]
    rw [e] at b1 b2 ⊢
    exact pread_eq hr hm2 b1 b2 (by omega) hz
  subst e1 e2 e3 e4 f1 f2 f3 f4
  rw [gFirst, show θ 0 = _ from p3, r1, Option.bind_some, r2, Option.map_some, Option.bind_some]
  rw [gTwo_eq (v := m.at psi4List n (vlo t q d t.s1)) (w := m.at psi4List (n + 1) (vlo t q d t.s1))
    (fun h => by
      simp only [decide_eq_true_eq] at h
      exact ⟨kread 1 _ s1 h n (by omega) _ (a3 h).1, kread 1 _ s1 h (n + 1) le_rfl _ (a3 h).2⟩)
    rfl, Option.bind_some]
  rw [gTwo_eq (v := m.at psi4List n (vlo t q d t.s2)) (w := m.at psi4List (n + 1) (vlo t q d t.s2))
    (fun h => by
      simp only [decide_eq_true_eq] at h
      exact ⟨kread 2 _ s2 h n (by omega) _ (a5 h).1, kread 2 _ s2 h (n + 1) le_rfl _ (a5 h).2⟩)
    rfl, Option.bind_some]
  rw [gOne_eq (v := m.at psi4List (n + 1) (vlo t q d t.o1))
    (fun h => by
      simp only [decide_eq_true_eq] at h
      exact kread 3 _ s3 h (n + 1) le_rfl _ (a7 h))
    rfl, Option.bind_some]
  rw [gOne_eq (v := m.at psi4List (n + 1) (vlo t q d t.o2))
    (fun h => by
      simp only [decide_eq_true_eq] at h
      exact kread 4 _ s4 h (n + 1) le_rfl _ (a8 h))
    rfl]
  rfl

/-! ## The routines -/

theorem gIdx_vaddr {q : Qrt} {n ni nj nk nl : ℕ} {xi xj xk xl : ℤ}
    (h1 : ni = ncart q.bra.left.am) (h2 : nj = ncart q.bra.right.am) (h3 : nk = ncart q.ket.left.am)
    (h4 : nl = ncart q.ket.right.am) (g1 : xi = cidx psi4List q.bra.left)
    (g2 : xj = cidx psi4List q.bra.right) (g3 : xk = cidx psi4List q.ket.left)
    (g4 : xl = cidx psi4List q.ket.right) : gIdx n ni nj nk nl xi xj xk xl = vaddr psi4List q n := by
  subst h1 h2 h3 h4 g1 g2 g3 g4
  simp only [gIdx, vaddr, Qrt.ncart, Qrt.index, Dbl.ncart, Dbl.index]
  push_cast
  ring

theorem gIdx_succ {q : Qrt} {n ni nj nk nl : ℕ} {xi xj xk xl : ℤ}
    (h : ∀ n, gIdx n ni nj nk nl xi xj xk xl = vaddr psi4List q n) :
    gIdx n ni nj nk nl xi xj xk xl + ni * nj * nk * nl = vaddr psi4List q (n + 1) := by
  rw [← h]
  simp only [gIdx]
  push_cast
  ring

/-- The four-fold list of cells. -/
def fourList {α : Type} (i j k l : ℕ) (f : Exp → Exp → Exp → Exp → α) : List α :=
  (psi4List i).flatMap fun a => (psi4List j).flatMap fun b =>
    (psi4List k).flatMap fun c => (psi4List l).flatMap fun d => [f a b c d]

theorem fourList_index {α : Type} {i j k l : ℕ} (f : Exp → Exp → Exp → Exp → α) {a b c d : Exp}
    (ha : IsComp i a) (hb : IsComp j b) (hc : IsComp k c) (hd : IsComp l d) {m : ℤ} :
    (fourList i j k l f)[(⟨⟨a, b⟩, ⟨c, d⟩, m⟩ : Qrt).index psi4List]? = some (f a b c d) := by
  rw [← four_get f ha hb hc hd, fourList]
  congr 1
  simp only [Qrt.index, Dbl.index, Dbl.ncart, hb.am_eq, hc.am_eq, hd.am_eq, ← nc_eq]
  ring

theorem psi4_zero : psi4List 0 = [⟨0, 0, 0⟩] := by decide

/-- Per-component requirement on the cells of class `(i,j,k,l)`. -/
def CellOK (P : VPar F) (am : QAM) (t : RRType) (M : ℤ) (i j k l : ℕ)
    (f : Exp → Exp → Exp → Exp → GCell F) : Prop :=
  ∀ a b c d, IsComp i a → IsComp j b → IsComp k c → IsComp l d →
    ∀ dir, makDir ((⟨⟨a, b⟩, ⟨c, d⟩, 0⟩ : Qrt).cen t) = some dir →
      0 < ((⟨⟨a, b⟩, ⟨c, d⟩, 0⟩ : Qrt).cen t).get dir → ∀ (m m' : VMem F),
        (∀ x, x ≠ am → m' x = m x) → ∀ n : ℕ, (n : ℤ) ≤ M →
          f a b c d m' n = some (vform .gen P t dir ⟨⟨a, b⟩, ⟨c, d⟩, 0⟩ (m.at psi4List) n)

theorem comp_of' {n : ℕ} {e : Exp} (h : e.Valid) (h2 : e.am = n) : IsComp n e := by
  have := isComp_of_valid h
  rwa [h2, Int.toNat_natCast] at this

theorem fourList_contract {mr : MReq} {P : VPar F} {i j k l : ℕ} {t : RRType} {M : ℤ}
    (hr : ReqOK mr ⟨i, j, k, l, ""⟩ t M) (hpos : 0 < QAM.get ⟨i, j, k, l, ""⟩ t)
    {f : Exp → Exp → Exp → Exp → GCell F} (hf : CellOK P ⟨i, j, k, l, ""⟩ t M i j k l f) :
    VContract psi4List .gen P ⟨i, j, k, l, ""⟩ t M (fun _ => True)
      (fun m => gExec mr ⟨i, j, k, l, ""⟩ (nc i * nc j * nc k * nc l) (M + 1).toNat 0
        (fourList i j k l f) m) := by
  have hnn : nc i * nc j * nc k * nc l = ncartQ ⟨i, j, k, l, ""⟩ := by
    simp only [ncartQ, nc_eq]; ring
  rw [hnn]
  refine cells_contract hr hpos ?_ rfl ?_ ?_
  · rw [fourList, four_length, ← hnn]; ring
  · simp [QAM.valid]
  · rintro ⟨⟨a, b⟩, ⟨c, d⟩, m⟩ hq rfl ham
    simp only [Qrt.am4, TQAM.mk.injEq] at ham
    obtain ⟨h1, h2, h3, h4, -⟩ := ham
    have ha : IsComp i a := comp_of' hq.1.1 h1
    have hb : IsComp j b := comp_of' hq.1.2 h2
    have hc : IsComp k c := comp_of' hq.2.1.1 h3
    have hd : IsComp l d := comp_of' hq.2.1.2 h4
    exact ⟨_, fourList_index f ha hb hc hd, hf a b c d ha hb hc hd⟩

theorem vPtr_ok {am : QAM} {t : RRType} {q : Qrt} {d : Dir} (ham : q.am4 = am) (j : Fin 5)
    (hv : (vslot t q d j).am4.valid = true) :
    ((vAMReqAll am t)[j.1]?.bind fun q => if q.valid then some q else none) =
      some (vslot t q d j).am4 := by
  rw [← ham, vslot_am4 t q d j, Option.bind_some, if_pos hv]

theorem sz1 {n : ℕ} {e : Exp} (he : IsComp n e) (d : Dir) : nc1 n = ncart (e.step d (-1)).am := by
  rw [nc1_eq, Exp.am_step, he.am_eq]; rfl

theorem sz2 {n : ℕ} {e : Exp} (he : IsComp n e) (d : Dir) : nc2 n = ncart (e.step d (-2)).am := by
  rw [nc2_eq, Exp.am_step, he.am_eq]; rfl

theorem sz0 {n : ℕ} {e : Exp} (he : IsComp n e) : nc n = ncart e.am := by
  rw [nc_eq, he.am_eq]

/-- The pointer array of a call, as an index function. -/
def vPtr (am : QAM) (t : RRType) : ℕ → Ptr :=
  fun i => (vAMReqAll am t)[i]?.bind fun q => if q.valid then some q else none

theorem dec_pos {x : ℤ} (h : 0 ≤ x) : decide (x ≠ 0) = decide (0 < x) := by
  congr 1; apply propext; omega

theorem dec_gt (x : ℤ) : decide (x > 1) = decide (0 < x - 1) := by
  congr 1; apply propext; omega

theorem one_lt {x : ℤ} (h : 0 < x - 1) : 1 < x := by omega

theorem cellI_ok {mr : MReq} {P : VPar F} {i j k l : ℕ} {M : ℤ} (hi : i ≤ 18) (hj : j ≤ 18)
    (hk : k ≤ 18) (hl : l ≤ 18) (hr : ReqOK mr ⟨i, j, k, l, ""⟩ .I M) (hpos : 0 < i) :
    CellOK P ⟨i, j, k, l, ""⟩ .I M i j k l (fun a b c d =>
      gCellI mr i j k l (gArg P .I) (vPtr ⟨i, j, k, l, ""⟩ .I 0) (vPtr ⟨i, j, k, l, ""⟩ .I 1)
        (vPtr ⟨i, j, k, l, ""⟩ .I 2) (vPtr ⟨i, j, k, l, ""⟩ .I 3) (vPtr ⟨i, j, k, l, ""⟩ .I 4)
        (recurRow i a) (recurRow j b) (recurRow k c) (recurRow l d) (cidx psi4List a)
        (cidx psi4List b) (cidx psi4List c) (cidx psi4List d)) := by
  intro a b c d ha hb hc hd dir hdir hdp m m' hm n hn
  obtain ⟨ra, a1, a2, a3⟩ := row_spec hi ha
  obtain ⟨rb, b1, b2, b3⟩ := row_spec hj hb
  obtain ⟨rc, c1, c2, c3⟩ := row_spec hk hc
  obtain ⟨rd, d1, d2, d3⟩ := row_spec hl hd
  have pa := (Exp.valid_iff a).1 ha.valid
  have pb := (Exp.valid_iff b).1 hb.valid
  have pc := (Exp.valid_iff c).1 hc.valid
  have pd := (Exp.valid_iff d).1 hd.valid
  obtain ⟨d', e1, e2, -⟩ := a3 hpos
  have hdd : d' = dir := by
    have : some d' = some dir := e2.symm.trans hdir
    simpa using this
  subst d'
  replace hdp : 0 < a.get dir := hdp
  have hv : (⟨⟨a, b⟩, ⟨c, d⟩, 0⟩ : Qrt).Valid := ⟨⟨ha.valid, hb.valid⟩, ⟨hc.valid, hd.valid⟩, le_rfl⟩
  have ham : (⟨⟨a, b⟩, ⟨c, d⟩, 0⟩ : Qrt).am4 = ⟨i, j, k, l, ""⟩ := by
    rw [Qrt.am4, ha.am_eq, hb.am_eq, hc.am_eq, hd.am_eq]
  simp only [gCellI, e1, Option.bind_some, ra, rb, rc, rd]
  refine g_cell hr hv rfl ham hdp hm hn (fun j h => vPtr_ok ham j h) rfl rfl rfl rfl (dec_gt _)
    (dec_pos (pb _)) (dec_pos (pc _)) (dec_pos (pd _)) ?_ ?_ ?_ ?_ ?_ ?_
  · exact gIdx_vaddr (sz1 ha _) (sz0 hb) (sz0 hc) (sz0 hd) (a1 dir hdp) rfl rfl rfl
  · exact gIdx_succ fun n => gIdx_vaddr (sz1 ha _) (sz0 hb) (sz0 hc) (sz0 hd) (a1 dir hdp) rfl rfl rfl
  · intro h
    have := fun n : ℕ => gIdx_vaddr (q := vlo .I ⟨⟨a, b⟩, ⟨c, d⟩, 0⟩ dir .I) (n := n)
      (sz2 ha _) (sz0 hb) (sz0 hc) (sz0 hd) (a2 dir (one_lt h)) rfl rfl rfl
    exact ⟨this n, gIdx_succ this⟩
  · intro h
    have := fun n : ℕ => gIdx_vaddr (q := vlo .I ⟨⟨a, b⟩, ⟨c, d⟩, 0⟩ dir .J) (n := n)
      (sz1 ha _) (sz1 hb _) (sz0 hc) (sz0 hd) (a1 dir hdp) (b1 dir h) rfl rfl
    exact ⟨this n, gIdx_succ this⟩
  · intro h
    exact gIdx_vaddr (q := vlo .I ⟨⟨a, b⟩, ⟨c, d⟩, 0⟩ dir .K)
      (sz1 ha _) (sz0 hb) (sz1 hc _) (sz0 hd) (a1 dir hdp) rfl (c1 dir h) rfl
  · intro h
    exact gIdx_vaddr (q := vlo .I ⟨⟨a, b⟩, ⟨c, d⟩, 0⟩ dir .L)
      (sz1 ha _) (sz0 hb) (sz0 hc) (sz1 hd _) (a1 dir hdp) rfl rfl (d1 dir h)

theorem cellJ_ok {mr : MReq} {P : VPar F} {i j k l : ℕ} {M : ℤ} (hi : i ≤ 18) (hj : j ≤ 18)
    (hk : k ≤ 18) (hl : l ≤ 18) (hr : ReqOK mr ⟨i, j, k, l, ""⟩ .J M) (hpos : 0 < j) :
    CellOK P ⟨i, j, k, l, ""⟩ .J M i j k l (fun a b c d =>
      gCellJ mr i j k l (gArg P .J) (vPtr ⟨i, j, k, l, ""⟩ .J 0) (vPtr ⟨i, j, k, l, ""⟩ .J 1)
        (vPtr ⟨i, j, k, l, ""⟩ .J 2) (vPtr ⟨i, j, k, l, ""⟩ .J 3) (vPtr ⟨i, j, k, l, ""⟩ .J 4)
        (recurRow i a) (recurRow j b) (recurRow k c) (recurRow l d) (cidx psi4List a)
        (cidx psi4List b) (cidx psi4List c) (cidx psi4List d)) := by
  intro a b c d ha hb hc hd dir hdir hdp m m' hm n hn
  obtain ⟨ra, a1, a2, a3⟩ := row_spec hi ha
  obtain ⟨rb, b1, b2, b3⟩ := row_spec hj hb
  obtain ⟨rc, c1, c2, c3⟩ := row_spec hk hc
  obtain ⟨rd, d1, d2, d3⟩ := row_spec hl hd
  have pa := (Exp.valid_iff a).1 ha.valid
  have pb := (Exp.valid_iff b).1 hb.valid
  have pc := (Exp.valid_iff c).1 hc.valid
  have pd := (Exp.valid_iff d).1 hd.valid
  obtain ⟨d', e1, e2, -⟩ := b3 hpos
  have hdd : d' = dir := by
    have : some d' = some dir := e2.symm.trans hdir
    simpa using this
  subst d'
  replace hdp : 0 < b.get dir := hdp
  have hv : (⟨⟨a, b⟩, ⟨c, d⟩, 0⟩ : Qrt).Valid := ⟨⟨ha.valid, hb.valid⟩, ⟨hc.valid, hd.valid⟩, le_rfl⟩
  have ham : (⟨⟨a, b⟩, ⟨c, d⟩, 0⟩ : Qrt).am4 = ⟨i, j, k, l, ""⟩ := by
    rw [Qrt.am4, ha.am_eq, hb.am_eq, hc.am_eq, hd.am_eq]
  simp only [gCellJ, e1, Option.bind_some, ra, rb, rc, rd]
  refine g_cell hr hv rfl ham hdp hm hn (fun j h => vPtr_ok ham j h) rfl rfl rfl rfl (dec_pos (pa _))
    (dec_gt _) (dec_pos (pc _)) (dec_pos (pd _)) ?_ ?_ ?_ ?_ ?_ ?_
  · exact gIdx_vaddr (sz0 ha) (sz1 hb _) (sz0 hc) (sz0 hd) rfl (b1 dir hdp) rfl rfl
  · exact gIdx_succ fun n => gIdx_vaddr (sz0 ha) (sz1 hb _) (sz0 hc) (sz0 hd) rfl (b1 dir hdp) rfl rfl
  · intro h
    have := fun n : ℕ => gIdx_vaddr (q := vlo .J ⟨⟨a, b⟩, ⟨c, d⟩, 0⟩ dir .I) (n := n)
      (sz1 ha _) (sz1 hb _) (sz0 hc) (sz0 hd) (a1 dir h) (b1 dir hdp) rfl rfl
    exact ⟨this n, gIdx_succ this⟩
  · intro h
    have := fun n : ℕ => gIdx_vaddr (q := vlo .J ⟨⟨a, b⟩, ⟨c, d⟩, 0⟩ dir .J) (n := n)
      (sz0 ha) (sz2 hb _) (sz0 hc) (sz0 hd) rfl (b2 dir (one_lt h)) rfl rfl
    exact ⟨this n, gIdx_succ this⟩
  · intro h
    exact gIdx_vaddr (q := vlo .J ⟨⟨a, b⟩, ⟨c, d⟩, 0⟩ dir .K)
      (sz0 ha) (sz1 hb _) (sz1 hc _) (sz0 hd) rfl (b1 dir hdp) (c1 dir h) rfl
  · intro h
    exact gIdx_vaddr (q := vlo .J ⟨⟨a, b⟩, ⟨c, d⟩, 0⟩ dir .L)
      (sz0 ha) (sz1 hb _) (sz0 hc) (sz1 hd _) rfl (b1 dir hdp) rfl (d1 dir h)

theorem cellK_ok {mr : MReq} {P : VPar F} {i j k l : ℕ} {M : ℤ} (hi : i ≤ 18) (hj : j ≤ 18)
    (hk : k ≤ 18) (hl : l ≤ 18) (hr : ReqOK mr ⟨i, j, k, l, ""⟩ .K M) (hpos : 0 < k) :
    CellOK P ⟨i, j, k, l, ""⟩ .K M i j k l (fun a b c d =>
      gCellK mr i j k l (gArg P .K) (vPtr ⟨i, j, k, l, ""⟩ .K 0) (vPtr ⟨i, j, k, l, ""⟩ .K 1)
        (vPtr ⟨i, j, k, l, ""⟩ .K 2) (vPtr ⟨i, j, k, l, ""⟩ .K 3) (vPtr ⟨i, j, k, l, ""⟩ .K 4)
        (recurRow i a) (recurRow j b) (recurRow k c) (recurRow l d) (cidx psi4List a)
        (cidx psi4List b) (cidx psi4List c) (cidx psi4List d)) := by
  intro a b c d ha hb hc hd dir hdir hdp m m' hm n hn
  obtain ⟨ra, a1, a2, a3⟩ := row_spec hi ha
  obtain ⟨rb, b1, b2, b3⟩ := row_spec hj hb
  obtain ⟨rc, c1, c2, c3⟩ := row_spec hk hc
  obtain ⟨rd, d1, d2, d3⟩ := row_spec hl hd
  have pa := (Exp.valid_iff a).1 ha.valid
  have pb := (Exp.valid_iff b).1 hb.valid
  have pc := (Exp.valid_iff c).1 hc.valid
  have pd := (Exp.valid_iff d).1 hd.valid
  obtain ⟨d', e1, e2, -⟩ := c3 hpos
  have hdd : d' = dir := by
    have : some d' = some dir := e2.symm.trans hdir
    simpa using this
  subst d'
  replace hdp : 0 < c.get dir := hdp
  have hv : (⟨⟨a, b⟩, ⟨c, d⟩, 0⟩ : Qrt).Valid := ⟨⟨ha.valid, hb.valid⟩, ⟨hc.valid, hd.valid⟩, le_rfl⟩
  have ham : (⟨⟨a, b⟩, ⟨c, d⟩, 0⟩ : Qrt).am4 = ⟨i, j, k, l, ""⟩ := by
    rw [Qrt.am4, ha.am_eq, hb.am_eq, hc.am_eq, hd.am_eq]
  simp only [gCellK, e1, Option.bind_some, ra, rb, rc, rd]
  refine g_cell hr hv rfl ham hdp hm hn (fun j h => vPtr_ok ham j h) rfl rfl rfl rfl (dec_gt _)
    (dec_pos (pd _)) (dec_pos (pa _)) (dec_pos (pb _)) ?_ ?_ ?_ ?_ ?_ ?_
  · exact gIdx_vaddr (sz0 ha) (sz0 hb) (sz1 hc _) (sz0 hd) rfl rfl (c1 dir hdp) rfl
  · exact gIdx_succ fun n => gIdx_vaddr (sz0 ha) (sz0 hb) (sz1 hc _) (sz0 hd) rfl rfl (c1 dir hdp) rfl
  · intro h
    have := fun n : ℕ => gIdx_vaddr (q := vlo .K ⟨⟨a, b⟩, ⟨c, d⟩, 0⟩ dir .K) (n := n)
      (sz0 ha) (sz0 hb) (sz2 hc _) (sz0 hd) rfl rfl (c2 dir (one_lt h)) rfl
    exact ⟨this n, gIdx_succ this⟩
  · intro h
    have := fun n : ℕ => gIdx_vaddr (q := vlo .K ⟨⟨a, b⟩, ⟨c, d⟩, 0⟩ dir .L) (n := n)
      (sz0 ha) (sz0 hb) (sz1 hc _) (sz1 hd _) rfl rfl (c1 dir hdp) (d1 dir h)
    exact ⟨this n, gIdx_succ this⟩
  · intro h
    exact gIdx_vaddr (q := vlo .K ⟨⟨a, b⟩, ⟨c, d⟩, 0⟩ dir .I)
      (sz1 ha _) (sz0 hb) (sz1 hc _) (sz0 hd) (a1 dir h) rfl (c1 dir hdp) rfl
  · intro h
    exact gIdx_vaddr (q := vlo .K ⟨⟨a, b⟩, ⟨c, d⟩, 0⟩ dir .J)
      (sz0 ha) (sz1 hb _) (sz1 hc _) (sz0 hd) rfl (b1 dir h) (c1 dir hdp) rfl

theorem cellL_ok {mr : MReq} {P : VPar F} {i j k l : ℕ} {M : ℤ} (hi : i ≤ 18) (hj : j ≤ 18)
    (hk : k ≤ 18) (hl : l ≤ 18) (hr : ReqOK mr ⟨i, j, k, l, ""⟩ .L M) (hpos : 0 < l) :
    CellOK P ⟨i, j, k, l, ""⟩ .L M i j k l (fun a b c d =>
      gCellL mr i j k l (gArg P .L) (vPtr ⟨i, j, k, l, ""⟩ .L 0) (vPtr ⟨i, j, k, l, ""⟩ .L 1)
        (vPtr ⟨i, j, k, l, ""⟩ .L 2) (vPtr ⟨i, j, k, l, ""⟩ .L 3) (vPtr ⟨i, j, k, l, ""⟩ .L 4)
        (recurRow i a) (recurRow j b) (recurRow k c) (recurRow l d) (cidx psi4List a)
        (cidx psi4List b) (cidx psi4List c) (cidx psi4List d)) := by
  intro a b c d ha hb hc hd dir hdir hdp m m' hm n hn
  obtain ⟨ra, a1, a2, a3⟩ := row_spec hi ha
  obtain ⟨rb, b1, b2, b3⟩ := row_spec hj hb
  obtain ⟨rc, c1, c2, c3⟩ := row_spec hk hc
  obtain ⟨rd, d1, d2, d3⟩ := row_spec hl hd
  have pa := (Exp.valid_iff a).1 ha.valid
  have pb := (Exp.valid_iff b).1 hb.valid
  have pc := (Exp.valid_iff c).1 hc.valid
  have pd := (Exp.valid_iff d).1 hd.valid
  obtain ⟨d', e1, e2, -⟩ := d3 hpos
  have hdd : d' = dir := by
    have : some d' = some dir := e2.symm.trans hdir
    simpa using this
  subst d'
  replace hdp : 0 < d.get dir := hdp
  have hv : (⟨⟨a, b⟩, ⟨c, d⟩, 0⟩ : Qrt).Valid := ⟨⟨ha.valid, hb.valid⟩, ⟨hc.valid, hd.valid⟩, le_rfl⟩
  have ham : (⟨⟨a, b⟩, ⟨c, d⟩, 0⟩ : Qrt).am4 = ⟨i, j, k, l, ""⟩ := by
    rw [Qrt.am4, ha.am_eq, hb.am_eq, hc.am_eq, hd.am_eq]
  simp only [gCellL, e1, Option.bind_some, ra, rb, rc, rd]
  refine g_cell hr hv rfl ham hdp hm hn (fun j h => vPtr_ok ham j h) rfl rfl rfl rfl (dec_pos (pc _))
    (dec_gt _) (dec_pos (pa _)) (dec_pos (pb _)) ?_ ?_ ?_ ?_ ?_ ?_
  · exact gIdx_vaddr (sz0 ha) (sz0 hb) (sz0 hc) (sz1 hd _) rfl rfl rfl (d1 dir hdp)
  · exact gIdx_succ fun n => gIdx_vaddr (sz0 ha) (sz0 hb) (sz0 hc) (sz1 hd _) rfl rfl rfl (d1 dir hdp)
  · intro h
    have := fun n : ℕ => gIdx_vaddr (q := vlo .L ⟨⟨a, b⟩, ⟨c, d⟩, 0⟩ dir .K) (n := n)
      (sz0 ha) (sz0 hb) (sz1 hc _) (sz1 hd _) rfl rfl (c1 dir h) (d1 dir hdp)
    exact ⟨this n, gIdx_succ this⟩
  · intro h
    have := fun n : ℕ => gIdx_vaddr (q := vlo .L ⟨⟨a, b⟩, ⟨c, d⟩, 0⟩ dir .L) (n := n)
      (sz0 ha) (sz0 hb) (sz0 hc) (sz2 hd _) rfl rfl rfl (d2 dir (one_lt h))
    exact ⟨this n, gIdx_succ this⟩
  · intro h
    exact gIdx_vaddr (q := vlo .L ⟨⟨a, b⟩, ⟨c, d⟩, 0⟩ dir .I)
      (sz1 ha _) (sz0 hb) (sz0 hc) (sz1 hd _) (a1 dir h) rfl rfl (d1 dir hdp)
  · intro h
    exact gIdx_vaddr (q := vlo .L ⟨⟨a, b⟩, ⟨c, d⟩, 0⟩ dir .J)
      (sz0 ha) (sz1 hb _) (sz0 hc) (sz1 hd _) rfl (b1 dir h) rfl (d1 dir hdp)

theorem g_cell0 {mr : MReq} {P : VPar F} {am : QAM} {t : RRType} {M : ℤ} (hr : ReqOK mr am t M)
    {q : Qrt} (hv : q.Valid) (hm0 : q.m = 0) (ham : q.am4 = am) {d : Dir} (hd : 0 < (q.cen t).get d)
    {m m2 : VMem F} (hm2 : ∀ a, a ≠ am → m2 a = m a) {n : ℕ} (hn : (n : ℤ) ≤ M)
    {θ : ℕ → Ptr} (hθ : ∀ j : Fin 5, (vslot t q d j).am4.valid = true →
      θ j.1 = some (vslot t q d j).am4)
    {c1 c3 : Bool} {k1 k3 : ℤ}
    (e1 : k1 = vnum t q d t.s1) (e2 : vnum t q d t.s2 = 0) (e3 : k3 = vnum t q d t.o1)
    (e4 : vnum t q d t.o2 = 0)
    (f1 : c1 = decide (0 < k1)) (f3 : c3 = decide (0 < k3)) {i1 i2 i3 i4 i7 : ℤ}
    (a1 : i1 = vaddr psi4List (q.low t d 1) n) (a2 : i2 = vaddr psi4List (q.low t d 1) (n + 1))
    (a3 : 0 < k1 → i3 = vaddr psi4List (vlo t q d t.s1) n ∧ i4 = vaddr psi4List (vlo t q d t.s1) (n + 1))
    (a7 : 0 < k3 → i7 = vaddr psi4List (vlo t q d t.o1) (n + 1)) :
    ((gFirst (pread mr m2) (P.pa t d) (P.apq t d) (θ 0) i1 i2).bind fun x =>
      (gTwo c1 (pread mr m2) k1 (P.ao t) (P.o2 t) (θ 1) i3 i4 x).bind fun x =>
      gOne c3 (pread mr m2) k3 P.o2pq (θ 3) i7 x) = some (vform .gen P t d q (m.at psi4List) n) := by
  have key := g_cell (P := P) (i5 := 0) (i6 := 0) (i8 := 0) hr hv hm0 ham hd hm2 hn hθ e1 rfl e3 rfl f1
    (c2 := false) (by rw [e2]; rfl) f3 (c4 := false) (by rw [e4]; rfl) a1 a2 a3
    (by rw [e2]; exact fun h => absurd h (by omega)) a7 (by rw [e4]; exact fun h => absurd h (by omega))
  rw [← key]
  simp [gTwo, gOne]

theorem comp_zero {e : Exp} (h : IsComp 0 e) (d : Dir) : e.get d = 0 := by
  have h1 := h.valid.get_le_am d
  have h2 := (Exp.valid_iff e).1 h.valid d
  rw [h.am_eq] at h1
  push_cast at h1
  omega

theorem comp_zero_eq {e : Exp} (h : IsComp 0 e) : e = ⟨0, 0, 0⟩ := by
  have : e ∈ psi4List 0 := (psi4_ordOK.mem 0 e).2 h
  rw [psi4_zero] at this
  simpa using this

theorem cidx_comp_zero {e : Exp} (h : IsComp 0 e) : cidx psi4List e = 0 := by
  rw [comp_zero_eq h]; decide

theorem nc_zero : nc 0 = 1 := rfl

theorem gIdx_off0 (n ni nj nk nl : ℕ) (xi xj xk xl : ℤ) :
    gIdx 0 ni nj nk nl xi xj xk xl + n * ((ni * nj * nk * nl : ℕ) : ℤ) = gIdx n ni nj nk nl xi xj xk xl := by
  simp only [gIdx]; push_cast; ring

theorem gIdx_off1 (n ni nj nk nl : ℕ) (xi xj xk xl : ℤ) :
    gIdx 1 ni nj nk nl xi xj xk xl + n * ((ni * nj * nk * nl : ℕ) : ℤ) =
      gIdx (n + 1) ni nj nk nl xi xj xk xl := by
  simp only [gIdx]; push_cast; ring

theorem cellI0_ok {mr : MReq} {P : VPar F} {i k : ℕ} {M : ℤ} (hi : i ≤ 18)
    (hk : k ≤ 18) (hr : ReqOK mr ⟨i, (0 : ℕ), k, (0 : ℕ), ""⟩ .I M) (hpos : 0 < i) :
    CellOK P ⟨i, (0 : ℕ), k, (0 : ℕ), ""⟩ .I M i 0 k 0 (fun a _ c _ =>
      gCellI0 mr i k (gArg P .I) (vPtr ⟨i, (0 : ℕ), k, (0 : ℕ), ""⟩ .I 0)
        (vPtr ⟨i, (0 : ℕ), k, (0 : ℕ), ""⟩ .I 1) (vPtr ⟨i, (0 : ℕ), k, (0 : ℕ), ""⟩ .I 3)
        (recurRow i a) (recurRow k c) (cidx psi4List a) (cidx psi4List c)) := by
  have hj : 0 ≤ 18 := by omega
  have hl : 0 ≤ 18 := by omega
  intro a b c d ha hb hc hd dir hdir hdp m m' hm n hn
  obtain ⟨ra, a1, a2, a3⟩ := row_spec hi ha
  obtain ⟨rb, b1, b2, b3⟩ := row_spec hj hb
  obtain ⟨rc, c1, c2, c3⟩ := row_spec hk hc
  obtain ⟨rd, d1, d2, d3⟩ := row_spec hl hd
  have pa := (Exp.valid_iff a).1 ha.valid
  have pb := (Exp.valid_iff b).1 hb.valid
  have pc := (Exp.valid_iff c).1 hc.valid
  have pd := (Exp.valid_iff d).1 hd.valid
  obtain ⟨d', e1, e2, -⟩ := a3 hpos
  have hdd : d' = dir := by
    have : some d' = some dir := e2.symm.trans hdir
    simpa using this
  subst d'
  replace hdp : 0 < a.get dir := hdp
  have hv : (⟨⟨a, b⟩, ⟨c, d⟩, 0⟩ : Qrt).Valid := ⟨⟨ha.valid, hb.valid⟩, ⟨hc.valid, hd.valid⟩, le_rfl⟩
  have ham : (⟨⟨a, b⟩, ⟨c, d⟩, 0⟩ : Qrt).am4 = ⟨i, (0 : ℕ), k, (0 : ℕ), ""⟩ := by
    rw [Qrt.am4, ha.am_eq, hb.am_eq, hc.am_eq, hd.am_eq]
  have zb : (0 : ℤ) = cidx psi4List b := by rw [cidx_comp_zero hb]; rfl
  have zd : (0 : ℤ) = cidx psi4List d := by rw [cidx_comp_zero hd]; rfl
  have zb0 := comp_zero hb dir
  have zd0 := comp_zero hd dir
  have key : ((gFirst (pread mr m') (P.pa .I dir) (P.apq .I dir) (vPtr ⟨i, (0 : ℕ), k, (0 : ℕ), ""⟩ .I 0)
        (gIdx n (nc1 i) 1 (nc k) 1 ((recurRow i a).m1 dir) 0 (cidx psi4List c) 0) (gIdx n (nc1 i) 1 (nc k) 1 ((recurRow i a).m1 dir) 0 (cidx psi4List c) 0 + nc1 i * 1 * nc k * 1)).bind fun x =>
      (gTwo (decide (a.get dir > 1)) (pread mr m') (a.get dir - 1) (P.ao .I) (P.o2 .I)
        (vPtr ⟨i, (0 : ℕ), k, (0 : ℕ), ""⟩ .I 1) (gIdx n (nc2 i) 1 (nc k) 1 ((recurRow i a).m2 dir) 0 (cidx psi4List c) 0) (gIdx n (nc2 i) 1 (nc k) 1 ((recurRow i a).m2 dir) 0 (cidx psi4List c) 0 + nc2 i * 1 * nc k * 1) x).bind fun x =>
      gOne (decide (c.get dir ≠ 0)) (pread mr m') (c.get dir) P.o2pq
        (vPtr ⟨i, (0 : ℕ), k, (0 : ℕ), ""⟩ .I 3) (gIdx (n + 1) (nc1 i) 1 (nc1 k) 1 ((recurRow i a).m1 dir) 0 ((recurRow k c).m1 dir) 0) x) =
      some (vform .gen P .I dir ⟨⟨a, b⟩, ⟨c, d⟩, 0⟩ (m.at psi4List) n) := by
    refine g_cell0 (P := P) (t := .I) hr hv rfl ham hdp hm hn (fun j h => vPtr_ok ham j h) rfl zb0 rfl zd0
      (dec_gt _) (dec_pos (pc _)) ?_ ?_ ?_ ?_
    · exact gIdx_vaddr (sz1 ha _) (sz0 hb) (sz0 hc) (sz0 hd) (a1 dir hdp) zb rfl zd
    · exact gIdx_succ fun n => gIdx_vaddr (sz1 ha _) (sz0 hb) (sz0 hc) (sz0 hd) (a1 dir hdp) zb rfl zd
    · intro h
      have := fun n : ℕ => gIdx_vaddr (q := vlo .I ⟨⟨a, b⟩, ⟨c, d⟩, 0⟩ dir .I) (n := n)
        (sz2 ha _) (sz0 hb) (sz0 hc) (sz0 hd) (a2 dir (one_lt h)) zb rfl zd
      exact ⟨this n, gIdx_succ this⟩
    · intro h
      exact gIdx_vaddr (q := vlo .I ⟨⟨a, b⟩, ⟨c, d⟩, 0⟩ dir .K)
        (sz1 ha _) (sz0 hb) (sz1 hc _) (sz0 hd) (a1 dir hdp) zb (c1 dir h) zd
  rw [← key]
  simp only [gCellI0, e1, Option.bind_some, ra, rc, gArg]
  by_cases h1 : a.get dir ≤ 1
  · have z1 : ¬ a.get dir > 1 := by omega
    by_cases h2 : c.get dir = 0
    · simp [h1, h2, z1, gTwo, gOne]
    · simp [h1, h2, z1, gTwo, gOne]
  · have z1 : a.get dir > 1 := by omega
    by_cases h2 : c.get dir = 0
    · simp [h1, h2, z1, gOne]
    · simp [h1, h2, z1, Option.bind_assoc]

theorem cellK0_ok {mr : MReq} {P : VPar F} {i k : ℕ} {M : ℤ} (hi : i ≤ 18)
    (hk : k ≤ 18) (hr : ReqOK mr ⟨i, (0 : ℕ), k, (0 : ℕ), ""⟩ .K M) (hpos : 0 < k) :
    CellOK P ⟨i, (0 : ℕ), k, (0 : ℕ), ""⟩ .K M i 0 k 0 (fun a _ c _ =>
      gCellK0 mr i k (gArg P .K) (vPtr ⟨i, (0 : ℕ), k, (0 : ℕ), ""⟩ .K 0)
        (vPtr ⟨i, (0 : ℕ), k, (0 : ℕ), ""⟩ .K 1) (vPtr ⟨i, (0 : ℕ), k, (0 : ℕ), ""⟩ .K 3)
        (recurRow i a) (recurRow k c) (cidx psi4List a) (cidx psi4List c)) := by
  have hj : 0 ≤ 18 := by omega
  have hl : 0 ≤ 18 := by omega
  intro a b c d ha hb hc hd dir hdir hdp m m' hm n hn
  obtain ⟨ra, a1, a2, a3⟩ := row_spec hi ha
  obtain ⟨rb, b1, b2, b3⟩ := row_spec hj hb
  obtain ⟨rc, c1, c2, c3⟩ := row_spec hk hc
  obtain ⟨rd, d1, d2, d3⟩ := row_spec hl hd
  have pa := (Exp.valid_iff a).1 ha.valid
  have pb := (Exp.valid_iff b).1 hb.valid
  have pc := (Exp.valid_iff c).1 hc.valid
  have pd := (Exp.valid_iff d).1 hd.valid
  obtain ⟨d', e1, e2, -⟩ := c3 hpos
  have hdd : d' = dir := by
    have : some d' = some dir := e2.symm.trans hdir
    simpa using this
  subst d'
  replace hdp : 0 < c.get dir := hdp
  have hv : (⟨⟨a, b⟩, ⟨c, d⟩, 0⟩ : Qrt).Valid := ⟨⟨ha.valid, hb.valid⟩, ⟨hc.valid, hd.valid⟩, le_rfl⟩
  have ham : (⟨⟨a, b⟩, ⟨c, d⟩, 0⟩ : Qrt).am4 = ⟨i, (0 : ℕ), k, (0 : ℕ), ""⟩ := by
    rw [Qrt.am4, ha.am_eq, hb.am_eq, hc.am_eq, hd.am_eq]
  have zb : (0 : ℤ) = cidx psi4List b := by rw [cidx_comp_zero hb]; rfl
  have zd : (0 : ℤ) = cidx psi4List d := by rw [cidx_comp_zero hd]; rfl
  have zb0 := comp_zero hb dir
  have zd0 := comp_zero hd dir
  have key : ((gFirst (pread mr m') (P.pa .K dir) (P.apq .K dir) (vPtr ⟨i, (0 : ℕ), k, (0 : ℕ), ""⟩ .K 0)
        (gIdx n (nc i) 1 (nc1 k) 1 (cidx psi4List a) 0 ((recurRow k c).m1 dir) 0) (gIdx n (nc i) 1 (nc1 k) 1 (cidx psi4List a) 0 ((recurRow k c).m1 dir) 0 + ((nc i * 1 * nc1 k * 1 : ℕ) : ℤ))).bind fun x =>
      (gTwo (decide (c.get dir > 1)) (pread mr m') (c.get dir - 1) (P.ao .K) (P.o2 .K)
        (vPtr ⟨i, (0 : ℕ), k, (0 : ℕ), ""⟩ .K 1) (gIdx n (nc i) 1 (nc2 k) 1 (cidx psi4List a) 0 ((recurRow k c).m2 dir) 0) (gIdx n (nc i) 1 (nc2 k) 1 (cidx psi4List a) 0 ((recurRow k c).m2 dir) 0 + ((nc i * 1 * nc2 k * 1 : ℕ) : ℤ)) x).bind fun x =>
      gOne (decide (a.get dir ≠ 0)) (pread mr m') (a.get dir) P.o2pq
        (vPtr ⟨i, (0 : ℕ), k, (0 : ℕ), ""⟩ .K 3) (gIdx (n + 1) (nc1 i) 1 (nc1 k) 1 ((recurRow i a).m1 dir) 0 ((recurRow k c).m1 dir) 0) x) =
      some (vform .gen P .K dir ⟨⟨a, b⟩, ⟨c, d⟩, 0⟩ (m.at psi4List) n) := by
    refine g_cell0 (P := P) (t := .K) hr hv rfl ham hdp hm hn (fun j h => vPtr_ok ham j h) rfl zd0 rfl zb0
      (dec_gt _) (dec_pos (pa _)) ?_ ?_ ?_ ?_
    · exact gIdx_vaddr (sz0 ha) (sz0 hb) (sz1 hc _) (sz0 hd) rfl zb (c1 dir hdp) zd
    · exact gIdx_succ fun n => gIdx_vaddr (sz0 ha) (sz0 hb) (sz1 hc _) (sz0 hd) rfl zb (c1 dir hdp) zd
    · intro h
      have := fun n : ℕ => gIdx_vaddr (q := vlo .K ⟨⟨a, b⟩, ⟨c, d⟩, 0⟩ dir .K) (n := n)
        (sz0 ha) (sz0 hb) (sz2 hc _) (sz0 hd) rfl zb (c2 dir (one_lt h)) zd
      exact ⟨this n, gIdx_succ this⟩
    · intro h
      exact gIdx_vaddr (q := vlo .K ⟨⟨a, b⟩, ⟨c, d⟩, 0⟩ dir .I)
        (sz1 ha _) (sz0 hb) (sz1 hc _) (sz0 hd) (a1 dir h) zb (c1 dir hdp) zd
  rw [← key]
  simp only [gCellK0, e1, Option.bind_some, ra, rc, gArg, gIdx_off0, gIdx_off1]
  by_cases h1 : c.get dir ≤ 1
  · have z1 : ¬ c.get dir > 1 := by omega
    by_cases h2 : a.get dir = 0
    · simp [h1, h2, z1, gTwo, gOne]
    · simp [h1, h2, z1, gTwo, gOne]
  · have z1 : c.get dir > 1 := by omega
    by_cases h2 : a.get dir = 0
    · simp [h1, h2, z1, gOne]
    · simp [h1, h2, z1, Option.bind_assoc]

theorem vnum_other {t u : RRType} {q : Qrt} {d : Dir} (h : u ≠ t) (h0 : (q.cen u).get d = 0) :
    vnum t q d u = 0 := by
  rw [vnum, if_neg h, h0]

theorem cell1I_ok {mr : MReq} {P : VPar F} {i : ℕ} {M : ℤ} (hi : i ≤ 18)
    (hr : ReqOK mr ⟨i, (0 : ℕ), (0 : ℕ), (0 : ℕ), ""⟩ .I M) (hpos : 0 < i) :
    CellOK P ⟨i, (0 : ℕ), (0 : ℕ), (0 : ℕ), ""⟩ .I M i 0 0 0 (fun a _ _ _ =>
      gCell1 mr i (gArg P .I) (vPtr ⟨i, (0 : ℕ), (0 : ℕ), (0 : ℕ), ""⟩ .I 0) (vPtr ⟨i, (0 : ℕ), (0 : ℕ), (0 : ℕ), ""⟩ .I 1) (recurRow i a)) := by
  have hj : 0 ≤ 18 := by omega
  have hk : 0 ≤ 18 := by omega
  have hl : 0 ≤ 18 := by omega
  intro a b c d ha hb hc hd dir hdir hdp m m' hm n hn
  obtain ⟨ra, a1, a2, a3⟩ := row_spec hi ha
  obtain ⟨rb, b1, b2, b3⟩ := row_spec hj hb
  obtain ⟨rc, c1, c2, c3⟩ := row_spec hk hc
  obtain ⟨rd, d1, d2, d3⟩ := row_spec hl hd
  have pa := (Exp.valid_iff a).1 ha.valid
  have pb := (Exp.valid_iff b).1 hb.valid
  have pc := (Exp.valid_iff c).1 hc.valid
  have pd := (Exp.valid_iff d).1 hd.valid
  obtain ⟨d', e1, e2, -⟩ := a3 hpos
  have hdd : d' = dir := by
    have : some d' = some dir := e2.symm.trans hdir
    simpa using this
  subst d'
  replace hdp : 0 < a.get dir := hdp
  have hv : (⟨⟨a, b⟩, ⟨c, d⟩, 0⟩ : Qrt).Valid := ⟨⟨ha.valid, hb.valid⟩, ⟨hc.valid, hd.valid⟩, le_rfl⟩
  have ham : (⟨⟨a, b⟩, ⟨c, d⟩, 0⟩ : Qrt).am4 = ⟨i, (0 : ℕ), (0 : ℕ), (0 : ℕ), ""⟩ := by
    rw [Qrt.am4, ha.am_eq, hb.am_eq, hc.am_eq, hd.am_eq]
  have zb : (0 : ℤ) = cidx psi4List b := by rw [cidx_comp_zero hb]; rfl
  have yb := comp_zero hb dir
  have wb := vnum_other (t := .I) (u := .J) (q := ⟨⟨a, b⟩, ⟨c, d⟩, 0⟩) (d := dir) (by decide) yb
  have zc : (0 : ℤ) = cidx psi4List c := by rw [cidx_comp_zero hc]; rfl
  have yc := comp_zero hc dir
  have wc := vnum_other (t := .I) (u := .K) (q := ⟨⟨a, b⟩, ⟨c, d⟩, 0⟩) (d := dir) (by decide) yc
  have zd : (0 : ℤ) = cidx psi4List d := by rw [cidx_comp_zero hd]; rfl
  have yd := comp_zero hd dir
  have wd := vnum_other (t := .I) (u := .L) (q := ⟨⟨a, b⟩, ⟨c, d⟩, 0⟩) (d := dir) (by decide) yd
  have key := g_cell (P := P) (t := .I) hr hv rfl ham hdp hm hn (θ := vPtr ⟨i, (0 : ℕ), (0 : ℕ), (0 : ℕ), ""⟩ .I) (fun j h => vPtr_ok ham j h)
    (c1 := decide (a.get dir > 1)) (k1 := a.get dir - 1)
    (k2 := 0) (c2 := false) (k3 := 0) (c3 := false) (k4 := 0) (c4 := false)
    (i5 := 0) (i6 := 0) (i7 := 0) (i8 := 0)
    (i1 := gIdx n (nc1 i) 1 1 1 ((recurRow i a).m1 dir) 0 0 0) (i2 := gIdx n (nc1 i) 1 1 1 ((recurRow i a).m1 dir) 0 0 0 + ((nc1 i : ℕ) : ℤ))
    (i3 := gIdx n (nc2 i) 1 1 1 ((recurRow i a).m2 dir) 0 0 0) (i4 := gIdx n (nc2 i) 1 1 1 ((recurRow i a).m2 dir) 0 0 0 + ((nc2 i : ℕ) : ℤ))
    rfl wb.symm wc.symm wd.symm (dec_gt _) rfl rfl rfl
    (gIdx_vaddr (sz1 ha _) (sz0 hb) (sz0 hc) (sz0 hd) (a1 dir hdp) zb zc zd)
    (by
      have := gIdx_succ (n := n) fun n => gIdx_vaddr (q := Qrt.low ⟨⟨a, b⟩, ⟨c, d⟩, 0⟩ .I dir 1) (n := n)
        (sz1 ha _) (sz0 hb) (sz0 hc) (sz0 hd) (a1 dir hdp) zb zc zd
      rw [← this]; simp [nc_zero])
    (by
      intro h
      have := fun n : ℕ => gIdx_vaddr (q := vlo .I ⟨⟨a, b⟩, ⟨c, d⟩, 0⟩ dir .I) (n := n)
        (sz2 ha _) (sz0 hb) (sz0 hc) (sz0 hd) (a2 dir (one_lt h)) zb zc zd
      refine ⟨this n, ?_⟩
      have := gIdx_succ (n := n) this
      show _ = ((vaddr psi4List (vlo .I ⟨⟨a, b⟩, ⟨c, d⟩, 0⟩ dir .I) (n + 1) : ℕ) : ℤ)
      rw [← this]; simp [nc_zero])
    (fun h => absurd h (by omega))
    (fun h => absurd h (by omega)) (fun h => absurd h (by omega))
  rw [← key]
  simp only [gCell1, e1, Option.bind_some, ra, gArg]
  have x1 : (n : ℤ) * nc1 i + (recurRow i a).m1 dir = gIdx n (nc1 i) 1 1 1 ((recurRow i a).m1 dir) 0 0 0 := by simp [gIdx]
  have x2 : (n : ℤ) * nc2 i + (recurRow i a).m2 dir = gIdx n (nc2 i) 1 1 1 ((recurRow i a).m2 dir) 0 0 0 := by simp [gIdx]
  have x3 : ((n : ℤ) + 1) * nc2 i + (recurRow i a).m2 dir = gIdx n (nc2 i) 1 1 1 ((recurRow i a).m2 dir) 0 0 0 + ((nc2 i : ℕ) : ℤ) := by
    simp [gIdx]; ring
  rw [x1, x2, x3]
  simp [gTwo, gOne]

theorem cell1J_ok {mr : MReq} {P : VPar F} {j : ℕ} {M : ℤ} (hj : j ≤ 18)
    (hr : ReqOK mr ⟨(0 : ℕ), j, (0 : ℕ), (0 : ℕ), ""⟩ .J M) (hpos : 0 < j) :
    CellOK P ⟨(0 : ℕ), j, (0 : ℕ), (0 : ℕ), ""⟩ .J M 0 j 0 0 (fun _ b _ _ =>
      gCell1 mr j (gArg P .J) (vPtr ⟨(0 : ℕ), j, (0 : ℕ), (0 : ℕ), ""⟩ .J 0) (vPtr ⟨(0 : ℕ), j, (0 : ℕ), (0 : ℕ), ""⟩ .J 2) (recurRow j b)) := by
  have hi : 0 ≤ 18 := by omega
  have hk : 0 ≤ 18 := by omega
  have hl : 0 ≤ 18 := by omega
  intro a b c d ha hb hc hd dir hdir hdp m m' hm n hn
  obtain ⟨ra, a1, a2, a3⟩ := row_spec hi ha
  obtain ⟨rb, b1, b2, b3⟩ := row_spec hj hb
  obtain ⟨rc, c1, c2, c3⟩ := row_spec hk hc
  obtain ⟨rd, d1, d2, d3⟩ := row_spec hl hd
  have pa := (Exp.valid_iff a).1 ha.valid
  have pb := (Exp.valid_iff b).1 hb.valid
  have pc := (Exp.valid_iff c).1 hc.valid
  have pd := (Exp.valid_iff d).1 hd.valid
  obtain ⟨d', e1, e2, -⟩ := b3 hpos
  have hdd : d' = dir := by
    have : some d' = some dir := e2.symm.trans hdir
    simpa using this
  subst d'
  replace hdp : 0 < b.get dir := hdp
  have hv : (⟨⟨a, b⟩, ⟨c, d⟩, 0⟩ : Qrt).Valid := ⟨⟨ha.valid, hb.valid⟩, ⟨hc.valid, hd.valid⟩, le_rfl⟩
  have ham : (⟨⟨a, b⟩, ⟨c, d⟩, 0⟩ : Qrt).am4 = ⟨(0 : ℕ), j, (0 : ℕ), (0 : ℕ), ""⟩ := by
    rw [Qrt.am4, ha.am_eq, hb.am_eq, hc.am_eq, hd.am_eq]
  have za : (0 : ℤ) = cidx psi4List a := by rw [cidx_comp_zero ha]; rfl
  have ya := comp_zero ha dir
  have wa := vnum_other (t := .J) (u := .I) (q := ⟨⟨a, b⟩, ⟨c, d⟩, 0⟩) (d := dir) (by decide) ya
  have zc : (0 : ℤ) = cidx psi4List c := by rw [cidx_comp_zero hc]; rfl
  have yc := comp_zero hc dir
  have wc := vnum_other (t := .J) (u := .K) (q := ⟨⟨a, b⟩, ⟨c, d⟩, 0⟩) (d := dir) (by decide) yc
  have zd : (0 : ℤ) = cidx psi4List d := by rw [cidx_comp_zero hd]; rfl
  have yd := comp_zero hd dir
  have wd := vnum_other (t := .J) (u := .L) (q := ⟨⟨a, b⟩, ⟨c, d⟩, 0⟩) (d := dir) (by decide) yd
  have key := g_cell (P := P) (t := .J) hr hv rfl ham hdp hm hn (θ := vPtr ⟨(0 : ℕ), j, (0 : ℕ), (0 : ℕ), ""⟩ .J) (fun j h => vPtr_ok ham j h)
    (c2 := decide (b.get dir > 1)) (k2 := b.get dir - 1)
    (k1 := 0) (c1 := false) (k3 := 0) (c3 := false) (k4 := 0) (c4 := false)
    (i3 := 0) (i4 := 0) (i7 := 0) (i8 := 0)
    (i1 := gIdx n 1 (nc1 j) 1 1 0 ((recurRow j b).m1 dir) 0 0) (i2 := gIdx n 1 (nc1 j) 1 1 0 ((recurRow j b).m1 dir) 0 0 + ((nc1 j : ℕ) : ℤ))
    (i5 := gIdx n 1 (nc2 j) 1 1 0 ((recurRow j b).m2 dir) 0 0) (i6 := gIdx n 1 (nc2 j) 1 1 0 ((recurRow j b).m2 dir) 0 0 + ((nc2 j : ℕ) : ℤ))
    wa.symm rfl wc.symm wd.symm rfl (dec_gt _) rfl rfl
    (gIdx_vaddr (sz0 ha) (sz1 hb _) (sz0 hc) (sz0 hd) za (b1 dir hdp) zc zd)
    (by
      have := gIdx_succ (n := n) fun n => gIdx_vaddr (q := Qrt.low ⟨⟨a, b⟩, ⟨c, d⟩, 0⟩ .J dir 1) (n := n)
        (sz0 ha) (sz1 hb _) (sz0 hc) (sz0 hd) za (b1 dir hdp) zc zd
      rw [← this]; simp [nc_zero])
    (fun h => absurd h (by omega))
    (by
      intro h
      have := fun n : ℕ => gIdx_vaddr (q := vlo .J ⟨⟨a, b⟩, ⟨c, d⟩, 0⟩ dir .J) (n := n)
        (sz0 ha) (sz2 hb _) (sz0 hc) (sz0 hd) za (b2 dir (one_lt h)) zc zd
      refine ⟨this n, ?_⟩
      have := gIdx_succ (n := n) this
      show _ = ((vaddr psi4List (vlo .J ⟨⟨a, b⟩, ⟨c, d⟩, 0⟩ dir .J) (n + 1) : ℕ) : ℤ)
      rw [← this]; simp [nc_zero])
    (fun h => absurd h (by omega)) (fun h => absurd h (by omega))
  rw [← key]
  simp only [gCell1, e1, Option.bind_some, rb, gArg]
  have x1 : (n : ℤ) * nc1 j + (recurRow j b).m1 dir = gIdx n 1 (nc1 j) 1 1 0 ((recurRow j b).m1 dir) 0 0 := by simp [gIdx]
  have x2 : (n : ℤ) * nc2 j + (recurRow j b).m2 dir = gIdx n 1 (nc2 j) 1 1 0 ((recurRow j b).m2 dir) 0 0 := by simp [gIdx]
  have x3 : ((n : ℤ) + 1) * nc2 j + (recurRow j b).m2 dir = gIdx n 1 (nc2 j) 1 1 0 ((recurRow j b).m2 dir) 0 0 + ((nc2 j : ℕ) : ℤ) := by
    simp [gIdx]; ring
  rw [x1, x2, x3]
  simp [gTwo, gOne]

theorem cell1K_ok {mr : MReq} {P : VPar F} {k : ℕ} {M : ℤ} (hk : k ≤ 18)
    (hr : ReqOK mr ⟨(0 : ℕ), (0 : ℕ), k, (0 : ℕ), ""⟩ .K M) (hpos : 0 < k) :
    CellOK P ⟨(0 : ℕ), (0 : ℕ), k, (0 : ℕ), ""⟩ .K M 0 0 k 0 (fun _ _ c _ =>
      gCell1 mr k (gArg P .K) (vPtr ⟨(0 : ℕ), (0 : ℕ), k, (0 : ℕ), ""⟩ .K 0) (vPtr ⟨(0 : ℕ), (0 : ℕ), k, (0 : ℕ), ""⟩ .K 1) (recurRow k c)) := by
  have hi : 0 ≤ 18 := by omega
  have hj : 0 ≤ 18 := by omega
  have hl : 0 ≤ 18 := by omega
  intro a b c d ha hb hc hd dir hdir hdp m m' hm n hn
  obtain ⟨ra, a1, a2, a3⟩ := row_spec hi ha
  obtain ⟨rb, b1, b2, b3⟩ := row_spec hj hb
  obtain ⟨rc, c1, c2, c3⟩ := row_spec hk hc
  obtain ⟨rd, d1, d2, d3⟩ := row_spec hl hd
  have pa := (Exp.valid_iff a).1 ha.valid
  have pb := (Exp.valid_iff b).1 hb.valid
  have pc := (Exp.valid_iff c).1 hc.valid
  have pd := (Exp.valid_iff d).1 hd.valid
  obtain ⟨d', e1, e2, -⟩ := c3 hpos
  have hdd : d' = dir := by
    have : some d' = some dir := e2.symm.trans hdir
    simpa using this
  subst d'
  replace hdp : 0 < c.get dir := hdp
  have hv : (⟨⟨a, b⟩, ⟨c, d⟩, 0⟩ : Qrt).Valid := ⟨⟨ha.valid, hb.valid⟩, ⟨hc.valid, hd.valid⟩, le_rfl⟩
  have ham : (⟨⟨a, b⟩, ⟨c, d⟩, 0⟩ : Qrt).am4 = ⟨(0 : ℕ), (0 : ℕ), k, (0 : ℕ), ""⟩ := by
    rw [Qrt.am4, ha.am_eq, hb.am_eq, hc.am_eq, hd.am_eq]
  have za : (0 : ℤ) = cidx psi4List a := by rw [cidx_comp_zero ha]; rfl
  have ya := comp_zero ha dir
  have wa := vnum_other (t := .K) (u := .I) (q := ⟨⟨a, b⟩, ⟨c, d⟩, 0⟩) (d := dir) (by decide) ya
  have zb : (0 : ℤ) = cidx psi4List b := by rw [cidx_comp_zero hb]; rfl
  have yb := comp_zero hb dir
  have wb := vnum_other (t := .K) (u := .J) (q := ⟨⟨a, b⟩, ⟨c, d⟩, 0⟩) (d := dir) (by decide) yb
  have zd : (0 : ℤ) = cidx psi4List d := by rw [cidx_comp_zero hd]; rfl
  have yd := comp_zero hd dir
  have wd := vnum_other (t := .K) (u := .L) (q := ⟨⟨a, b⟩, ⟨c, d⟩, 0⟩) (d := dir) (by decide) yd
  have key := g_cell (P := P) (t := .K) hr hv rfl ham hdp hm hn (θ := vPtr ⟨(0 : ℕ), (0 : ℕ), k, (0 : ℕ), ""⟩ .K) (fun j h => vPtr_ok ham j h)
    (c1 := decide (c.get dir > 1)) (k1 := c.get dir - 1)
    (k2 := 0) (c2 := false) (k3 := 0) (c3 := false) (k4 := 0) (c4 := false)
    (i5 := 0) (i6 := 0) (i7 := 0) (i8 := 0)
    (i1 := gIdx n 1 1 (nc1 k) 1 0 0 ((recurRow k c).m1 dir) 0) (i2 := gIdx n 1 1 (nc1 k) 1 0 0 ((recurRow k c).m1 dir) 0 + ((nc1 k : ℕ) : ℤ))
    (i3 := gIdx n 1 1 (nc2 k) 1 0 0 ((recurRow k c).m2 dir) 0) (i4 := gIdx n 1 1 (nc2 k) 1 0 0 ((recurRow k c).m2 dir) 0 + ((nc2 k : ℕ) : ℤ))
    rfl wd.symm wa.symm wb.symm (dec_gt _) rfl rfl rfl
    (gIdx_vaddr (sz0 ha) (sz0 hb) (sz1 hc _) (sz0 hd) za zb (c1 dir hdp) zd)
    (by
      have := gIdx_succ (n := n) fun n => gIdx_vaddr (q := Qrt.low ⟨⟨a, b⟩, ⟨c, d⟩, 0⟩ .K dir 1) (n := n)
        (sz0 ha) (sz0 hb) (sz1 hc _) (sz0 hd) za zb (c1 dir hdp) zd
      rw [← this]; simp [nc_zero])
    (by
      intro h
      have := fun n : ℕ => gIdx_vaddr (q := vlo .K ⟨⟨a, b⟩, ⟨c, d⟩, 0⟩ dir .K) (n := n)
        (sz0 ha) (sz0 hb) (sz2 hc _) (sz0 hd) za zb (c2 dir (one_lt h)) zd
      refine ⟨this n, ?_⟩
      have := gIdx_succ (n := n) this
      show _ = ((vaddr psi4List (vlo .K ⟨⟨a, b⟩, ⟨c, d⟩, 0⟩ dir .K) (n + 1) : ℕ) : ℤ)
      rw [← this]; simp [nc_zero])
    (fun h => absurd h (by omega))
    (fun h => absurd h (by omega)) (fun h => absurd h (by omega))
  rw [← key]
  simp only [gCell1, e1, Option.bind_some, rc, gArg]
  have x1 : (n : ℤ) * nc1 k + (recurRow k c).m1 dir = gIdx n 1 1 (nc1 k) 1 0 0 ((recurRow k c).m1 dir) 0 := by simp [gIdx]
  have x2 : (n : ℤ) * nc2 k + (recurRow k c).m2 dir = gIdx n 1 1 (nc2 k) 1 0 0 ((recurRow k c).m2 dir) 0 := by simp [gIdx]
  have x3 : ((n : ℤ) + 1) * nc2 k + (recurRow k c).m2 dir = gIdx n 1 1 (nc2 k) 1 0 0 ((recurRow k c).m2 dir) 0 + ((nc2 k : ℕ) : ℤ) := by
    simp [gIdx]; ring
  rw [x1, x2, x3]
  simp [gTwo, gOne]

theorem cell1L_ok {mr : MReq} {P : VPar F} {l : ℕ} {M : ℤ} (hl : l ≤ 18)
    (hr : ReqOK mr ⟨(0 : ℕ), (0 : ℕ), (0 : ℕ), l, ""⟩ .L M) (hpos : 0 < l) :
    CellOK P ⟨(0 : ℕ), (0 : ℕ), (0 : ℕ), l, ""⟩ .L M 0 0 0 l (fun _ _ _ d =>
      gCell1 mr l (gArg P .L) (vPtr ⟨(0 : ℕ), (0 : ℕ), (0 : ℕ), l, ""⟩ .L 0) (vPtr ⟨(0 : ℕ), (0 : ℕ), (0 : ℕ), l, ""⟩ .L 2) (recurRow l d)) := by
  have hi : 0 ≤ 18 := by omega
  have hj : 0 ≤ 18 := by omega
  have hk : 0 ≤ 18 := by omega
  intro a b c d ha hb hc hd dir hdir hdp m m' hm n hn
  obtain ⟨ra, a1, a2, a3⟩ := row_spec hi ha
  obtain ⟨rb, b1, b2, b3⟩ := row_spec hj hb
  obtain ⟨rc, c1, c2, c3⟩ := row_spec hk hc
  obtain ⟨rd, d1, d2, d3⟩ := row_spec hl hd
  have pa := (Exp.valid_iff a).1 ha.valid
  have pb := (Exp.valid_iff b).1 hb.valid
  have pc := (Exp.valid_iff c).1 hc.valid
  have pd := (Exp.valid_iff d).1 hd.valid
  obtain ⟨d', e1, e2, -⟩ := d3 hpos
  have hdd : d' = dir := by
    have : some d' = some dir := e2.symm.trans hdir
    simpa using this
  subst d'
  replace hdp : 0 < d.get dir := hdp
  have hv : (⟨⟨a, b⟩, ⟨c, d⟩, 0⟩ : Qrt).Valid := ⟨⟨ha.valid, hb.valid⟩, ⟨hc.valid, hd.valid⟩, le_rfl⟩
  have ham : (⟨⟨a, b⟩, ⟨c, d⟩, 0⟩ : Qrt).am4 = ⟨(0 : ℕ), (0 : ℕ), (0 : ℕ), l, ""⟩ := by
    rw [Qrt.am4, ha.am_eq, hb.am_eq, hc.am_eq, hd.am_eq]
  have za : (0 : ℤ) = cidx psi4List a := by rw [cidx_comp_zero ha]; rfl
  have ya := comp_zero ha dir
  have wa := vnum_other (t := .L) (u := .I) (q := ⟨⟨a, b⟩, ⟨c, d⟩, 0⟩) (d := dir) (by decide) ya
  have zb : (0 : ℤ) = cidx psi4List b := by rw [cidx_comp_zero hb]; rfl
  have yb := comp_zero hb dir
  have wb := vnum_other (t := .L) (u := .J) (q := ⟨⟨a, b⟩, ⟨c, d⟩, 0⟩) (d := dir) (by decide) yb
  have zc : (0 : ℤ) = cidx psi4List c := by rw [cidx_comp_zero hc]; rfl
  have yc := comp_zero hc dir
  have wc := vnum_other (t := .L) (u := .K) (q := ⟨⟨a, b⟩, ⟨c, d⟩, 0⟩) (d := dir) (by decide) yc
  have key := g_cell (P := P) (t := .L) hr hv rfl ham hdp hm hn (θ := vPtr ⟨(0 : ℕ), (0 : ℕ), (0 : ℕ), l, ""⟩ .L) (fun j h => vPtr_ok ham j h)
    (c2 := decide (d.get dir > 1)) (k2 := d.get dir - 1)
    (k1 := 0) (c1 := false) (k3 := 0) (c3 := false) (k4 := 0) (c4 := false)
    (i3 := 0) (i4 := 0) (i7 := 0) (i8 := 0)
    (i1 := gIdx n 1 1 1 (nc1 l) 0 0 0 ((recurRow l d).m1 dir)) (i2 := gIdx n 1 1 1 (nc1 l) 0 0 0 ((recurRow l d).m1 dir) + ((nc1 l : ℕ) : ℤ))
    (i5 := gIdx n 1 1 1 (nc2 l) 0 0 0 ((recurRow l d).m2 dir)) (i6 := gIdx n 1 1 1 (nc2 l) 0 0 0 ((recurRow l d).m2 dir) + ((nc2 l : ℕ) : ℤ))
    wc.symm rfl wa.symm wb.symm rfl (dec_gt _) rfl rfl
    (gIdx_vaddr (sz0 ha) (sz0 hb) (sz0 hc) (sz1 hd _) za zb zc (d1 dir hdp))
    (by
      have := gIdx_succ (n := n) fun n => gIdx_vaddr (q := Qrt.low ⟨⟨a, b⟩, ⟨c, d⟩, 0⟩ .L dir 1) (n := n)
        (sz0 ha) (sz0 hb) (sz0 hc) (sz1 hd _) za zb zc (d1 dir hdp)
      rw [← this]; simp [nc_zero])
    (fun h => absurd h (by omega))
    (by
      intro h
      have := fun n : ℕ => gIdx_vaddr (q := vlo .L ⟨⟨a, b⟩, ⟨c, d⟩, 0⟩ dir .L) (n := n)
        (sz0 ha) (sz0 hb) (sz0 hc) (sz2 hd _) za zb zc (d2 dir (one_lt h))
      refine ⟨this n, ?_⟩
      have := gIdx_succ (n := n) this
      show _ = ((vaddr psi4List (vlo .L ⟨⟨a, b⟩, ⟨c, d⟩, 0⟩ dir .L) (n + 1) : ℕ) : ℤ)
      rw [← this]; simp [nc_zero])
    (fun h => absurd h (by omega)) (fun h => absurd h (by omega))
  rw [← key]
  simp only [gCell1, e1, Option.bind_some, rd, gArg]
  have x1 : (n : ℤ) * nc1 l + (recurRow l d).m1 dir = gIdx n 1 1 1 (nc1 l) 0 0 0 ((recurRow l d).m1 dir) := by simp [gIdx]
  have x2 : (n : ℤ) * nc2 l + (recurRow l d).m2 dir = gIdx n 1 1 1 (nc2 l) 0 0 0 ((recurRow l d).m2 dir) := by simp [gIdx]
  have x3 : ((n : ℤ) + 1) * nc2 l + (recurRow l d).m2 dir = gIdx n 1 1 1 (nc2 l) 0 0 0 ((recurRow l d).m2 dir) + ((nc2 l : ℕ) : ℤ) := by
    simp [gIdx]; ring
  rw [x1, x2, x3]
  simp [gTwo, gOne]

theorem fourList_one (f : Exp → GCell F) (n : ℕ) :
    (psi4List n).flatMap (fun a => [f a]) = fourList n 0 0 0 (fun a _ _ _ => f a) ∧
    (psi4List n).flatMap (fun a => [f a]) = fourList 0 n 0 0 (fun _ a _ _ => f a) ∧
    (psi4List n).flatMap (fun a => [f a]) = fourList 0 0 n 0 (fun _ _ a _ => f a) ∧
    (psi4List n).flatMap (fun a => [f a]) = fourList 0 0 0 n (fun _ _ _ a => f a) := by
  simp [fourList, psi4_zero]

theorem fourList_two (f : Exp → Exp → GCell F) (n k : ℕ) :
    (psi4List n).flatMap (fun a => (psi4List k).flatMap fun c => [f a c]) =
      fourList n 0 k 0 (fun a _ c _ => f a c) := by
  simp [fourList, psi4_zero]

theorem gVrr1_eq {mr : MReq} {i : ℕ} (hi : i ≤ 18) (g : GArg F) (θ1 θ2 : Ptr) :
    gVrr1 mr i g θ1 θ2 = some ((psi4List i).flatMap fun a => [gCell1 mr i g θ1 θ2 (recurRow i a)]) := by
  rw [gVrr1]
  refine forEach_eq (psi4_length i) fun xi hxi => ?_
  rw [recAt_row hi hxi, Option.map_some]

theorem gVrrI0_eq {mr : MReq} {i k : ℕ} (hi : i ≤ 18) (hk : k ≤ 18) (g : GArg F) (θ1 θ2 θ4 : Ptr) :
    gVrrI0 mr i k g θ1 θ2 θ4 = some (fourList i 0 k 0 fun a _ c _ =>
      gCellI0 mr i k g θ1 θ2 θ4 (recurRow i a) (recurRow k c) (cidx psi4List a) (cidx psi4List c)) := by
  rw [gVrrI0, ← fourList_two]
  refine forEach_eq (psi4_length i) fun xi hxi => ?_
  rw [recAt_row hi hxi, Option.bind_some, (cidx_psi4_getElem hxi).2]
  refine forEach_eq (psi4_length k) fun xk hxk => ?_
  rw [recAt_row hk hxk, Option.map_some, (cidx_psi4_getElem hxk).2]

theorem gVrrK0_eq {mr : MReq} {i k : ℕ} (hi : i ≤ 18) (hk : k ≤ 18) (g : GArg F) (θ1 θ2 θ4 : Ptr) :
    gVrrK0 mr i k g θ1 θ2 θ4 = some (fourList i 0 k 0 fun a _ c _ =>
      gCellK0 mr i k g θ1 θ2 θ4 (recurRow i a) (recurRow k c) (cidx psi4List a) (cidx psi4List c)) := by
  rw [gVrrK0, ← fourList_two]
  refine forEach_eq (psi4_length i) fun xi hxi => ?_
  rw [recAt_row hi hxi, Option.bind_some, (cidx_psi4_getElem hxi).2]
  refine forEach_eq (psi4_length k) fun xk hxk => ?_
  rw [recAt_row hk hxk, Option.map_some, (cidx_psi4_getElem hxk).2]

/-- **Generic vertical routines compute the recurrence.** -/
theorem general_contract {A : VRRAlgo} {P : VPar F} {am : QAM} {t : RRType} {M : ℤ}
    (htag : am.tag = "") (hval : am.valid = true) (h18 : ∀ u, am.get u ≤ 18)
    (hpos : 0 < am.get t) (ht : vType A.steps am = some t) (hr : ReqOK A.mreq am t M) :
    VContract psi4List .gen P am t M (fun _ => True) (vRunGeneral A P am) := by
  obtain ⟨i, j, k, l, tg⟩ := am
  rw [QAM.valid_iff] at hval
  have v1 := hval .I; have v2 := hval .J; have v3 := hval .K; have v4 := hval .L
  have u1 := h18 .I; have u2 := h18 .J; have u3 := h18 .K; have u4 := h18 .L
  simp only [QAM.get] at v1 v2 v3 v4 u1 u2 u3 u4 htag
  subst htag
  lift i to ℕ using v1
  lift j to ℕ using v2
  lift k to ℕ using v3
  lift l to ℕ using v4
  have hi : i ≤ 18 := by omega
  have hj : j ≤ 18 := by omega
  have hk : k ≤ 18 := by omega
  have hl : l ≤ 18 := by omega
  have hM := hr.1
  have hrun : vRunGeneral A P ⟨i, j, k, l, ""⟩ = fun m =>
      if ([(i : ℤ), j, k, l].count 0 = 3) then
        (gVrr1 A.mreq (QAM.get ⟨i, j, k, l, ""⟩ t).toNat (gArg P t) (vPtr ⟨i, j, k, l, ""⟩ t 0)
          (vPtr ⟨i, j, k, l, ""⟩ t (match t with | .I => 1 | .J => 2 | .K => 1 | .L => 2))).bind
          fun fs => gExec A.mreq ⟨i, j, k, l, ""⟩ (nc (QAM.get ⟨i, j, k, l, ""⟩ t).toNat)
            (M + 1).toNat 0 fs m
      else ((match t with
        | .I => gVrrI A.mreq i j k l (gArg P .I) (vPtr ⟨i, j, k, l, ""⟩ .I 0) (vPtr ⟨i, j, k, l, ""⟩ .I 1) (vPtr ⟨i, j, k, l, ""⟩ .I 2) (vPtr ⟨i, j, k, l, ""⟩ .I 3) (vPtr ⟨i, j, k, l, ""⟩ .I 4)
        | .J => gVrrJ A.mreq i j k l (gArg P .J) (vPtr ⟨i, j, k, l, ""⟩ .J 0) (vPtr ⟨i, j, k, l, ""⟩ .J 1) (vPtr ⟨i, j, k, l, ""⟩ .J 2) (vPtr ⟨i, j, k, l, ""⟩ .J 3) (vPtr ⟨i, j, k, l, ""⟩ .J 4)
        | .K => gVrrK A.mreq i j k l (gArg P .K) (vPtr ⟨i, j, k, l, ""⟩ .K 0) (vPtr ⟨i, j, k, l, ""⟩ .K 1) (vPtr ⟨i, j, k, l, ""⟩ .K 2) (vPtr ⟨i, j, k, l, ""⟩ .K 3) (vPtr ⟨i, j, k, l, ""⟩ .K 4)
        | .L => gVrrL A.mreq i j k l (gArg P .L) (vPtr ⟨i, j, k, l, ""⟩ .L 0) (vPtr ⟨i, j, k, l, ""⟩ .L 1) (vPtr ⟨i, j, k, l, ""⟩ .L 2) (vPtr ⟨i, j, k, l, ""⟩ .L 3) (vPtr ⟨i, j, k, l, ""⟩ .L 4))).bind
        fun fs => gExec A.mreq ⟨i, j, k, l, ""⟩ (nc i * nc j * nc k * nc l) (M + 1).toNat 0 fs m := by
    funext m
    rw [vRunGeneral, ht, Option.bind_some, hM, Option.bind_some]
    cases t <;> rfl
  rw [hrun]
  clear hrun
  by_cases hc : [(i : ℤ), j, k, l].count 0 = 3
  · simp only [hc, if_true]
    have hcc := hc
    simp only [List.count_cons, List.count_nil, beq_iff_eq] at hcc
    cases t with
    | I =>
      simp only [QAM.get] at hpos
      obtain ⟨rfl, rfl, rfl⟩ : j = 0 ∧ k = 0 ∧ l = 0 := by
        repeat' split at hcc
        all_goals omega
      have := fourList_contract hr (P := P) (f := _) hpos (cell1I_ok hi hr (by omega))
      rw [← (fourList_one _ _).1] at this
      simpa [gVrr1_eq hi, QAM.get, nc_zero] using this
    | J =>
      simp only [QAM.get] at hpos
      obtain ⟨rfl, rfl, rfl⟩ : i = 0 ∧ k = 0 ∧ l = 0 := by
        repeat' split at hcc
        all_goals omega
      have := fourList_contract hr (P := P) (f := _) hpos (cell1J_ok hj hr (by omega))
      rw [← (fourList_one _ _).2.1] at this
      simpa [gVrr1_eq hj, QAM.get, nc_zero] using this
    | K =>
      simp only [QAM.get] at hpos
      obtain ⟨rfl, rfl, rfl⟩ : i = 0 ∧ j = 0 ∧ l = 0 := by
        repeat' split at hcc
        all_goals omega
      have := fourList_contract hr (P := P) (f := _) hpos (cell1K_ok hk hr (by omega))
      rw [← (fourList_one _ _).2.2.1] at this
      simpa [gVrr1_eq hk, QAM.get, nc_zero] using this
    | L =>
      simp only [QAM.get] at hpos
      obtain ⟨rfl, rfl, rfl⟩ : i = 0 ∧ j = 0 ∧ k = 0 := by
        repeat' split at hcc
        all_goals omega
      have := fourList_contract hr (P := P) (f := _) hpos (cell1L_ok hl hr (by omega))
      rw [← (fourList_one _ _).2.2.2] at this
      simpa [gVrr1_eq hl, QAM.get, nc_zero] using this
  · simp only [hc, if_false]
    cases t with
    | I =>
      simp only [QAM.get] at hpos
      by_cases h0 : j = 0 ∧ l = 0 ∧ vPtr ⟨i, j, k, l, ""⟩ .I 2 = none ∧ vPtr ⟨i, j, k, l, ""⟩ .I 4 = none
      · have e1 := h0.1
        have e2 := h0.2.1
        simp only [gVrrI, if_pos h0]
        clear h0
        subst e1 e2
        simp only [gVrrI0_eq hi hk, Option.bind_some]
        exact fourList_contract hr hpos (cellI0_ok hi hk hr (by omega))
      · simp only [gVrrI, if_neg h0, gLoops_eq hi hj hk hl, Option.bind_some]
        exact fourList_contract hr hpos (cellI_ok hi hj hk hl hr (by omega))
    | J =>
      simp only [QAM.get] at hpos
      simp only [gVrrJ, gLoops_eq hi hj hk hl, Option.bind_some]
      exact fourList_contract hr hpos (cellJ_ok hi hj hk hl hr (by omega))
    | K =>
      simp only [QAM.get] at hpos
      by_cases h0 : j = 0 ∧ l = 0 ∧ vPtr ⟨i, j, k, l, ""⟩ .K 2 = none ∧ vPtr ⟨i, j, k, l, ""⟩ .K 4 = none
      · have e1 := h0.1
        have e2 := h0.2.1
        simp only [gVrrK, if_pos h0]
        clear h0
        subst e1 e2
        simp only [gVrrK0_eq hi hk, Option.bind_some]
        exact fourList_contract hr hpos (cellK0_ok hi hk hr (by omega))
      · simp only [gVrrK, if_neg h0, gLoops_eq hi hj hk hl, Option.bind_some]
        exact fourList_contract hr hpos (cellK_ok hi hj hk hl hr (by omega))
    | L =>
      simp only [QAM.get] at hpos
      simp only [gVrrL, gLoops_eq hi hj hk hl, Option.bind_some]
      exact fourList_contract hr hpos (cellL_ok hi hj hk hl hr (by omega))

end

end Simint
