import Verif.FlFunction
import Verif.Props.FlSum
import Verif.Props.FlPrim
import Verif.Props.HRRRound

/-! Lemmas about complete functions on doubles. -/

set_option autoImplicit false

namespace Simint

open FlBoys (Arith Rounds u)

/-! ## The horizontal stage depends on what is handed over only -/

section
variable {V W : Type} {ord : ℕ → List Exp} {A : HRRAlgo} {C : StepChoice}

theorem execOp_nat (f : V → W) {op : HStmt → V → V → V} {op' : HStmt → W → W → W}
    (h : ∀ s v0 v1, f (op s v0 v1) = op' s (f v0) (f v1)) (s : HStmt) (m : HMem V) :
    s.execOp op' (fun t k => f (m t k)) = (s.execOp op m).map fun m' t k => f (m' t k) := by
  unfold HStmt.execOp hread hwrite
  split_ifs <;> simp only [Option.bind_some, Option.bind_none, Option.map_none, Option.map_some,
    Option.some.injEq]
  funext t k
  split_ifs
  · exact (h _ _ _).symm
  · rfl

theorem execAllOp_nat (f : V → W) {op : HStmt → V → V → V} {op' : HStmt → W → W → W}
    (h : ∀ s v0 v1, f (op s v0 v1) = op' s (f v0) (f v1)) : ∀ (l : List HStmt) (m : HMem V),
    execAllOp op' l (fun t k => f (m t k)) = (execAllOp op l m).map fun m' t k => f (m' t k)
  | [], _ => rfl
  | s :: l, m => by
    rw [execAllOp, execAllOp, execOp_nat f h]
    cases s.execOp op m with
    | none => rfl
    | some m' => exact execAllOp_nat f h l m'

theorem runHRROp_nat (f : V → W) {opB opK : HStmt → V → V → V} {opB' opK' : HStmt → W → W → W}
    (hB : ∀ s v0 v1, f (opB s v0 v1) = opB' s (f v0) (f v1))
    (hK : ∀ s v0 v1, f (opK s v0 v1) = opK' s (f v0) (f v1)) : ∀ (l : List QAM) (m : HMem V),
    runHRROp ord A C opB' opK' l (fun t k => f (m t k)) =
      (runHRROp ord A C opB opK l m).map fun m' t k => f (m' t k)
  | [], _ => rfl
  | q :: l, m => by
    have h : runClassOp ord A C opB' opK' q (fun t k => f (m t k)) =
        (runClassOp ord A C opB opK q m).map fun m' t k => f (m' t k) := by
      unfold runClassOp
      cases A.getStep q with
      | none => rfl
      | some ty =>
        cases ty
        · exact execAllOp_nat f hB _ m
        · exact execAllOp_nat f hK _ m
    rw [runHRROp, runHRROp, h]
    cases runClassOp ord A C opB opK q m with
    | none => rfl
    | some m' => exact runHRROp_nat f hB hK l m'

theorem runHRROp_det (ho : OrdOK ord) {ams : List QAM} (ok : AlgoOK ams A)
    (hb : A.bra.type = .I ∨ A.bra.type = .J) (hk : A.ket.type = .K ∨ A.ket.type = .L)
    (cb : CoverOK A.bra C.bra) (ck : CoverOK A.ket C.ket) {opB opK : HStmt → V → V → V} {m1 m2 : HMem V}
    (h : ∀ q ∈ A.top, ∀ i < ncartQ q, m1 q i = m2 q i) :
    ∃ m1' m2', runHRROp ord A C opB opK A.order m1 = some m1' ∧
      runHRROp ord A C opB opK A.order m2 = some m2' ∧
      ∀ q ∈ ams, ∀ b k : Dbl, b.Valid → k.Valid → b.am2 = q.bra → k.am2 = q.ket →
        m1' q (pos ord b k) = m2' q (pos ord b k) := by
  let tw : (HStmt → V → V → V) → HStmt → V × V → V × V → V × V :=
    fun op s v0 v1 => (op s v0.1 v1.1, op s v0.2 v1.2)
  obtain ⟨m', e, g, -⟩ := run_orderP (R := V × V) (P := fun _ _ _ v => v.1 = v.2) (opB := tw opB)
    (opK := tw opK) (C := C) ho
    (by
      intro q _ s k _ _ _ _ _ _ st _ _ v0 v1 e0 e1
      show opB st v0.1 v1.1 = opB st v0.2 v1.2
      rw [e0, e1])
    (by
      intro q _ s k _ _ _ _ _ _ st _ _ v0 v1 e0 e1
      show opK st v0.1 v1.1 = opK st v0.2 v1.2
      rw [e0, e1]) ok hb hk cb ck A.order [] (fun t k => (m1 t k, m2 t k)) rfl (by
      intro q hq
      rcases hq with hq | hq
      · intro b k h1 h2 h3 h4 _
        exact h q hq _ (pos_lt ho h1 h2 h3 h4)
      · simp at hq)
  have n1 := runHRROp_nat (ord := ord) (A := A) (C := C) (f := Prod.fst) (opB := tw opB) (opK := tw opK)
    (opB' := opB) (opK' := opK) (fun _ _ _ => rfl) (fun _ _ _ => rfl) A.order fun t k => (m1 t k, m2 t k)
  have n2 := runHRROp_nat (ord := ord) (A := A) (C := C) (f := Prod.snd) (opB := tw opB) (opK := tw opK)
    (opB' := opB) (opK' := opK) (fun _ _ _ => rfl) (fun _ _ _ => rfl) A.order fun t k => (m1 t k, m2 t k)
  rw [e] at n1 n2
  exact ⟨_, _, n1, n2, fun q hq b k h1 h2 h3 h4 =>
    g q (ok.req q hq) b k h1 h2 h3 h4 (needed_req ok hq h1 h2 h3 h4)⟩

end

/-! ## One lane -/

theorem vclosed_of {F : Type} [VOps F] {P : VPar F} {Z : F → Prop}
    (hm : ∀ c v, Z v → Z (VOps.mul c v)) (h1 : ∀ c v t, Z v → Z t → Z (VOps.fma c v t))
    (h2 : ∀ c v t, Z v → Z t → Z (VOps.fma v c t)) : VClosed P fun _ _ => Z := by
  intro f t d q n rd hv hm' hd h
  have hv' := ((Qrt.valid_iff q).1 hv).1
  obtain ⟨e1, e2, e3, e4⟩ := vslot_vlo t q d
  have hval : ∀ j : Fin 5, (∀ w, ((vslot t q d j).cen w).Valid) → (vslot t q d j).Valid := fun j hj => by
    rw [Qrt.valid_iff]; exact ⟨hj, by rw [vslot_m, hm']⟩
  have get : ∀ j : Fin 5, (∀ w, ((vslot t q d j).cen w).Valid) → ∀ n', n ≤ n' → n' ≤ n + 1 →
      Z (rd n' (vslot t q d j)) := fun j hj n' a b => h j (hval j hj) n' a b
  have v0 : ∀ w, ((vslot t q d 0).cen w).Valid := by
    intro w
    rw [vslot_zero, Qrt.cen_low]
    split
    · rw [Exp.valid_step_iff _ _ _ (hv' t)]; omega
    · exact hv' w
  have hlo := fun w => vlo_valid hv hd w
  have g0 := get 0 v0 n le_rfl (by omega)
  have g0' := get 0 v0 (n + 1) (by omega) le_rfl
  rw [vslot_zero] at g0 g0'
  have g1 := fun hh => get 1 (by rw [e1]; exact (hlo _).2 hh) n le_rfl (by omega)
  have g1' := fun hh => get 1 (by rw [e1]; exact (hlo _).2 hh) (n + 1) (by omega) le_rfl
  have g2 := fun hh => get 2 (by rw [e2]; exact (hlo _).2 hh) n le_rfl (by omega)
  have g2' := fun hh => get 2 (by rw [e2]; exact (hlo _).2 hh) (n + 1) (by omega) le_rfl
  have g3 := fun hh => get 3 (by rw [e3]; exact (hlo _).2 hh) (n + 1) (by omega) le_rfl
  have g4 := fun hh => get 4 (by rw [e4]; exact (hlo _).2 hh) (n + 1) (by omega) le_rfl
  rw [e1] at g1 g1'
  rw [e2] at g2 g2'
  rw [e3] at g3
  rw [e4] at g4
  have one : ∀ {k : ℤ} {c v x : F}, (0 < k → Z v) → Z x → Z (vOne k c v x) := by
    intro k c v x hv hx
    unfold vOne
    split_ifs with hk
    · exact h1 _ _ _ (hv hk) hx
    · exact hx
  have two : ∀ {k : ℤ} {c ao v v' x : F}, (0 < k → Z v) → (0 < k → Z v') → Z x →
      Z (vTwo k c ao v v' x) ∧ Z (vTwoG k c ao v v' x) := by
    intro k c ao v v' x hv hv' hx
    unfold vTwo vTwoG
    split_ifs with hk
    · have := h1 ao _ _ (hv' hk) (hv hk)
      exact ⟨h1 _ _ _ this hx, h2 _ _ _ this hx⟩
    · exact ⟨hx, hx⟩
  cases f with
  | seq o =>
    exact one g4 (one g3 (two g2 g2' (two g1 g1' (h1 _ _ _ g0' (hm _ _ g0))).1).1)
  | gen =>
    exact one g4 (one g3 (two g2 g2' (two g1 g1' (h1 _ _ _ g0 (hm _ _ g0'))).2).2)

theorem mac_double {F : Arith} (hF : Rounds F) (hS : Stable F) (a b c : ℝ) : IsDouble F (F.mac a b c) := by
  unfold IsDouble
  rcases hF.mac a b c with h | h <;> rw [h, hS.idem]

theorem mac_zero {F : Arith} (hF : Rounds F) (hS : Stable F) {a b : ℝ} (h : a * b = 0) : F.mac a b 0 = 0 := by
  rcases hF.mac a b 0 with e | e <;> rw [e, h] <;> simp [hS.zero]

namespace FlPrim

theorem fx_nonneg {F : Arith} (hF : Sound F) {P Q : MSP ℝ} {i j : ℕ} (hp : 0 ≤ P.alpha i)
    (hq : 0 ≤ Q.alpha j) : 0 ≤ fx F P Q i j := by
  have hmac : ∀ a c, 0 ≤ c → 0 ≤ F.mac a a c := by
    intro a c hc
    have h1 := mul_self_nonneg a
    rcases hF.mac a a c with e | e <;> rw [e]
    · exact hF.nonneg _ (by linarith)
    · exact hF.nonneg _ (add_nonneg (hF.nonneg _ h1) hc)
  refine hF.nonneg _ (mul_nonneg (hmac _ _ (hmac _ _ (hF.nonneg _ (mul_self_nonneg _)))) ?_)
  refine hF.nonneg _ (mul_nonneg (hF.nonneg _ (mul_nonneg hp hq)) ?_)
  exact hF.nonneg _ (div_nonneg zero_le_one (hF.nonneg _ (by linarith)))

end FlPrim

theorem split_some {F : Arith} (hF : Rounds F) (vec : Bool) {len : ℕ} {x : ℕ → ℝ} {n m v : ℕ} (hv : v < len)
    (hx : 0 ≤ x v) (hn : n ≤ 24) (hm : m ≤ n) : (FlBoys.split F vec len x n m v).isSome := by
  by_cases h : x v < 36.5
  · obtain ⟨y, e, -⟩ := FlBoys.C83_near hF vec hv hx h hn hm
    rw [e]; rfl
  · have hp := FlBoys.path_far (vec := vec) hv (not_lt.1 h)
    have hl : ∀ k ≤ 24, ∃ f, FlBoys.longfac F k = some f := fun k hk => by
      obtain ⟨f, e, -⟩ := FlBoys.fac_rel hF hk
      exact ⟨f, e⟩
    obtain ⟨f, ef⟩ := hl n hn
    obtain ⟨f', ef'⟩ := hl m (by omega)
    have hl : ¬ realBoys.lt (x v) boysMaxX = true := by
      rw [lt_real, maxX_real]; exact h
    unfold FlBoys.split
    generalize FlBoys.path vec len x = p at hp
    unfold FlBoys.lane
    split_ifs with h4
    · cases p
      · simp only [FlBoys.long, ef', Option.map_some, Option.isSome_some]
      · exact absurd rfl hp
      · simp [hl, FlBoys.long, ef']
    · cases p
      · simp only [FlBoys.top, FlBoys.longSingleVec, ef, Option.map_some, Option.isSome_some]
      · exact absurd rfl hp
      · simp [FlBoys.top, hl, FlBoys.longSingle, ef]

section
variable {F : Arith} {g : GenCfg} {dir : RRType × RRType} {ams : List QAM} {L : ℕ} {H : HRRAlgo} {A : VRRAlgo}

theorem AlgosOK.top_ok (hA : AlgosOK g dir ams L H A) :
    ∀ a ∈ H.top.map QAM.notag, a.valid = true ∧ a.tag = "" := by
  intro a ha
  obtain ⟨t, ht, rfl⟩ := List.mem_map.1 ha
  exact ⟨valid_of_Valid (q := t.notag) (hA.tval t ht), rfl⟩

/-- The vertical stage succeeds; if the start values have a property that the operations keep, the
results have it. -/
theorem run_closed (hg : g.OK) (hA : AlgosOK g dir ams L H A) {P : VPar ℝ} {Z : ℝ → Prop}
    (hm : ∀ c v, Z v → Z (F.fl (c * v))) (h1 : ∀ c v t, Z v → Z t → Z (F.mac c v t))
    (h2 : ∀ c v t, Z v → Z t → Z (F.mac v c t)) (m : VMem ℝ) (h0 : ∀ n ≤ L, Z (m ssss n)) :
    ∃ m', VRRRound.run F psi4List g.enumV g.ve g.vg A P A.order m = some m' ∧
      ∀ t ∈ H.top.map QAM.notag, ∀ k < ncartQ t, Z (m' t k) := by
  obtain ⟨A', M, e', m1, hrun⟩ := @vertical_closed ℝ (VRRRound.flOps F) psi4List psi4_ordOK psi4_start g.enumV
    hg.V _ hA.top_ok g.ve g.vg hA.vmode P (fun _ _ => Z)
    (@vclosed_of ℝ (VRRRound.flOps F) P Z hm h1 h2)
  rw [hA.vcreate, Option.some.injEq] at e'
  subst e'
  rw [hA.mreq, Option.some.injEq] at m1
  subst m1
  obtain ⟨m', r, h⟩ := hrun m (fun n hn => h0 n (by exact_mod_cast hn))
  refine ⟨m', r, fun t ht k hk => ?_⟩
  obtain ⟨hv, htag⟩ := hA.top_ok t ht
  obtain ⟨q, q1, -, q2, q3⟩ := Qrt.index_surj psi4_ordOK (by simpa [QAM.valid, QAM.Valid, and_assoc] using hv) htag hk
  obtain ⟨Mq, -, h3, h4⟩ := h q q1 (q2 ▸ ht)
  have := h4 0 (by exact_mod_cast h3)
  rw [Nat.zero_mul, Nat.zero_add, q2, q3] at this
  exact this

theorem lane_good (hF : Sound F) (hS : Stable F) (hg : g.OK) (hA : AlgosOK g dir ams L H A) {vec : Bool}
    {len : ℕ} {junk : VPar ℝ} {P Q : MSP ℝ} {i j v : ℕ} {pf : ℝ} {scratch m : VMem ℝ}
    (h : FlPrim.lane F g vec len A L junk P Q i j v pf scratch = some m) :
    ∀ t ∈ H.top.map QAM.notag, ∀ k < ncartQ t, IsDouble F (m t k) ∧ (pf = 0 → m t k = 0) := by
  unfold FlPrim.lane at h
  simp only at h
  split_ifs at h
  have dm : ∀ a b c, IsDouble F (F.mac a b c) := mac_double hF.toRounds hS
  obtain ⟨m', r, h'⟩ := run_closed (F := F) (P := FlPrim.loopVars F A junk P Q i (j + v))
    (Z := fun x => IsDouble F x ∧ (pf = 0 → x = 0)) hg hA
    (fun c v hv => ⟨hS.idem _, fun h0 => by rw [hv.2 h0, mul_zero, hS.zero]⟩)
    (fun c v t hv ht => ⟨dm _ _ _, fun h0 => by
      rw [ht.2 h0]; exact mac_zero hF.toRounds hS (by rw [hv.2 h0, mul_zero])⟩)
    (fun c v t hv ht => ⟨dm _ _ _, fun h0 => by
      rw [ht.2 h0]; exact mac_zero hF.toRounds hS (by rw [hv.2 h0, zero_mul])⟩)
    (fun t n => if t = ssss ∧ n ≤ L then
      F.fl ((FlBoys.split F vec len (fun w => FlPrim.fx F P Q i (j + w)) L n v).getD 0 *
        FlPrim.prefac F P Q i (j + v) pf) else scratch t n) (fun n hn => by
      rw [if_pos ⟨rfl, hn⟩]
      refine ⟨hS.idem _, fun h0 => ?_⟩
      rw [FlPrim.prefac, h0, mul_zero, hS.zero, zero_mul, hS.zero, mul_zero, hS.zero])
  rw [h, Option.some.injEq] at r
  subst r
  exact h'

theorem lane_isSome (hF : Sound F) (hS : Stable F) (hg : g.OK) (hA : AlgosOK g dir ams L H A) (hL : L ≤ 24)
    {vec : Bool} {len : ℕ} {junk : VPar ℝ} {P Q : MSP ℝ} {i j v : ℕ} {pf : ℝ} {scratch : VMem ℝ} (hv : v < len)
    (hp : 0 ≤ P.alpha i) (hq : 0 ≤ Q.alpha (j + v)) :
    (FlPrim.lane F g vec len A L junk P Q i j v pf scratch).isSome := by
  have hsz : L + 1 ≤ vSize A.mreq ssss := by
    simp only [vSize, hA.mreq]
    have : ncartQ ssss = 1 := by decide
    rw [this]
    omega
  unfold FlPrim.lane
  simp only
  rw [if_pos ⟨hsz, fun n hn => split_some hF.toRounds vec hv (FlPrim.fx_nonneg hF hp hq) hL hn⟩]
  obtain ⟨m', r, -⟩ := run_closed (F := F) (P := FlPrim.loopVars F A junk P Q i (j + v)) (Z := fun _ => True) hg hA
    (fun _ _ _ => trivial) (fun _ _ _ _ _ => trivial) (fun _ _ _ _ _ => trivial) _ (fun _ _ => trivial)
  rw [r]
  rfl

end

/-! ## The primitive stage -/

open Classical in
/-- Value of a primitive quartet as the function computes it. -/
noncomputable def flPrim (F : Arith) (b : Build) (g : GenCfg) (A : VRRAlgo) (L : ℕ) (c : Call ℝ) (i j : ℕ)
    (pf : Fd F) (t : QAM) (k : ℕ) : Fd F :=
  if pf.val = 0 then 0 else
    match FlPrim.lane F g b.vec c.len A L c.junk c.P c.Q i (j / c.len * c.len) (j % c.len) pf.val
      (c.scratch i (j / c.len * c.len) (j % c.len)) with
    | some m => ⟨m t k⟩
    | none => 0

section
variable {F : Arith} {b : Build} {g : GenCfg} {final : QAM} {c : Call ℝ} {H : HRRAlgo} {A : VRRAlgo}

theorem flPrim_double (hF : Sound F) (hS : Stable F) (hg : g.OK) (hf : ClassOK final)
    (hA : AlgosOK g (hrrDirections final) [final] (totalL final) H A) (i j : ℕ) (pf : Fd F) {t : QAM}
    (ht : t ∈ H.top) {k : ℕ} (hk : k < ncartQ t) :
    IsDouble F (flPrim F b g A (totalL final) c i j pf t k).val := by
  unfold flPrim
  split_ifs
  · exact hS.zero
  · split
    · rename_i m e
      exact (lane_good hF hS hg hA e t
        (List.mem_map.2 ⟨t, ht, notag_eq (hA.tag1 hf t ht)⟩) k hk).1
    · exact hS.zero

theorem flEnv_laneWise (hF : Sound F) (hS : Stable F) (hg : g.OK) (hf : ClassOK final) (hL : totalL final ≤ 24)
    (hA : AlgosOK g (hrrDirections final) [final] (totalL final) H A)
    (hp : ∀ i < c.P.alloc, 0 < c.P.alpha i) (hq : ∀ j < c.Q.alloc, 0 < c.Q.alpha j) :
    LaneWise (flEnv F b g final c H A) (flPrim F b g A (totalL final) c) := by
  refine ⟨?_, fun i j t k => by unfold flPrim; exact if_pos rfl⟩
  intro i j pf hi hdvd hj
  change i < c.P.alloc at hi
  change c.len ∣ j at hdvd
  change j + c.len ≤ c.Q.alloc at hj
  have hs : ∀ n < c.len, (FlPrim.lane F g b.vec c.len A (totalL final) c.junk c.P c.Q i j n (pf n).val
      (c.scratch i j n)).isSome := fun n hn =>
    lane_isSome hF hS hg hA hL hn (hp i hi).le (hq _ (by omega)).le
  refine ⟨fun n t k => ⟨(FlPrim.lane F g b.vec c.len A (totalL final) c.junk c.P c.Q i j n (pf n).val
      (c.scratch i j n)).getD (c.scratch i j n) t k⟩, if_pos hs, ?_⟩
  intro n hn t ht k hk
  change n < c.len at hn
  have ht' : t ∈ H.top := by simpa [flEnv] using ht
  obtain ⟨m, e⟩ := Option.isSome_iff_exists.1 (hs n hn)
  have hgd := lane_good hF hS hg hA e t (List.mem_map.2 ⟨t, ht', notag_eq (hA.tag1 hf t ht')⟩) k hk
  obtain ⟨w, rfl⟩ := hdvd
  have d1 : (c.len * w + n) / c.len * c.len = c.len * w := by
    rw [Nat.mul_add_div (by omega), Nat.div_eq_of_lt hn, Nat.add_zero, Nat.mul_comm]
  have d2 : (c.len * w + n) % c.len = n := by rw [Nat.mul_add_mod, Nat.mod_eq_of_lt hn]
  unfold flPrim
  rw [d1, d2]
  simp only [e, Option.getD_some]
  split_ifs with h0
  · exact Fd.val_injective (hgd.2 h0)
  · rfl

end

end Simint
