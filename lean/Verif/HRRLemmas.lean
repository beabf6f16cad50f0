import Verif.HRR
import Verif.Spec.HRR
import Verif.TypesLemmas
import Mathlib.Tactic.LinearCombination

/-! Lemmas about the horizontal recurrence model. -/

set_option autoImplicit false

namespace Simint

theorem mem_sins {α : Type} [DecidableEq α] {x y : α} {l : List α} :
    y ∈ sins x l ↔ y = x ∨ y ∈ l := by
  unfold sins; split
  · constructor
    · exact Or.inr
    · rintro (rfl | h) <;> assumption
  · simp

theorem nodup_sins {α : Type} [DecidableEq α] {x : α} {l : List α} (h : l.Nodup) :
    (sins x l).Nodup := by
  unfold sins; split
  · exact h
  · simp_all

/-! ## One step -/

structure StepOK (ty : RRType) (d : Dbl) (s : HRRStep) : Prop where
  target : s.target = d
  type : s.type = ty
  v0 : s.src0.Valid
  v1 : s.src1.Valid
  a0 : steppedAM ty s.src0.am2 = steppedAM ty d.am2 - 1
  a1 : steppedAM ty s.src1.am2 = steppedAM ty d.am2 - 1

theorem stepped_am (ty : RRType) (d : Dbl) : (d.stepped ty).am = steppedAM ty d.am2 := by
  unfold Dbl.stepped steppedAM Dbl.am2; split <;> rfl

/-- Everything about one step, including the direction chosen. -/
theorem doubletStep_spec {ty : RRType} {d : Dbl} (hv : d.Valid) (hp : 0 < (d.stepped ty).am) :
    ∃ s, doubletStep ty d = some s ∧ StepOK ty d s ∧ SmallestRight (d.stepped ty) s.xyz ∧
      (ty.isLeft = true → s.src0 = ⟨d.left.step s.xyz (-1), d.right.step s.xyz 1⟩ ∧
        s.src1 = ⟨d.left.step s.xyz (-1), d.right⟩) ∧
      (ty.isLeft = false → s.src0 = ⟨d.left.step s.xyz 1, d.right.step s.xyz (-1)⟩ ∧
        s.src1 = ⟨d.left, d.right.step s.xyz (-1)⟩) := by
  obtain ⟨hl, hr⟩ := hv
  have hl0 := hl.am_nonneg
  have hr0 := hr.am_nonneg
  unfold Dbl.stepped at hp ⊢
  cases hty : ty.isLeft
  · simp only [hty] at hp ⊢
    obtain ⟨i, hi, hs⟩ := makDir_spec hr (by simpa using hp)
    have hpos := hs.1
    have hne : ¬ (d.left.am + d.right.am = 0) := by simp at hp; omega
    refine ⟨⟨ty, d, ⟨d.left.step i 1, d.right.step i (-1)⟩, ⟨d.left, d.right.step i (-1)⟩, i⟩,
      by simp [doubletStep, hne, hty, hi], ?_, by simpa using hs, by simp, by simp⟩
    constructor
    · rfl
    · rfl
    · exact ⟨(Exp.valid_step_iff _ _ _ hl).2 (by
        have := (Exp.valid_iff _).1 hl i; omega),
        (Exp.valid_step_iff _ _ _ hr).2 (by omega)⟩
    · exact ⟨hl, (Exp.valid_step_iff _ _ _ hr).2 (by omega)⟩
    · simp [steppedAM, hty, Dbl.am2]; ring
    · simp [steppedAM, hty, Dbl.am2]; ring
  · simp only [hty] at hp ⊢
    obtain ⟨i, hi, hs⟩ := makDir_spec hl (by simpa using hp)
    have hpos := hs.1
    have hne : ¬ (d.left.am + d.right.am = 0) := by simp at hp; omega
    refine ⟨⟨ty, d, ⟨d.left.step i (-1), d.right.step i 1⟩, ⟨d.left.step i (-1), d.right⟩, i⟩,
      by simp [doubletStep, hne, hty, hi], ?_, by simpa using hs, by simp, by simp⟩
    constructor
    · rfl
    · rfl
    · exact ⟨(Exp.valid_step_iff _ _ _ hl).2 (by omega),
        (Exp.valid_step_iff _ _ _ hr).2 (by
        have := (Exp.valid_iff _).1 hr i; omega)⟩
    · exact ⟨(Exp.valid_step_iff _ _ _ hl).2 (by omega), hr⟩
    · simp [steppedAM, hty, Dbl.am2]; ring
    · simp [steppedAM, hty, Dbl.am2]; ring

/-! ## The search loop -/

structure LInv (ty : RRType) (N : ℤ) (pend : Dbl → Prop) (st : LoopSt) : Prop where
  sv : ∀ d ∈ st.solved, d.Valid ∧ 0 < (d.stepped ty).am
  ste : ∀ s ∈ st.steps, s.target ∈ st.solved ∧ doubletStep ty s.target = some s
  hs : ∀ d ∈ st.solved, ∃ s ∈ st.steps, s.target = d
  nd : (st.steps.map HRRStep.target).Nodup
  cl : ∀ s ∈ st.steps, ∀ d, (d = s.src0 ∨ d = s.src1) →
    d ∈ st.solved ∨ d ∈ st.newt ∨ pend d ∨ (d.stepped ty).am = 0
  nw : ∀ d ∈ st.newt, d.Valid ∧ (d.stepped ty).am < N

theorem loopBody_inv {ty : RRType} {N : ℤ} {ts : List Dbl} {t : Dbl} {st : LoopSt}
    (h : LInv ty N (· ∈ t :: ts) st) (hv : t.Valid) (hp : 0 < (t.stepped ty).am)
    (hN : (t.stepped ty).am ≤ N) :
    ∃ st', loopBody ty st t = some st' ∧ LInv ty N (· ∈ ts) st' ∧ t ∈ st'.solved ∧
      (∀ d ∈ st.solved, d ∈ st'.solved) := by
  unfold loopBody
  by_cases hm : t ∈ st.solved
  · refine ⟨st, by simp [hm], ⟨h.sv, h.ste, h.hs, h.nd, ?_, h.nw⟩, hm, fun _ => id⟩
    intro s hs d hd
    rcases h.cl s hs d hd with h1 | h1 | h1 | h1
    · exact Or.inl h1
    · exact Or.inr (Or.inl h1)
    · rcases List.mem_cons.1 h1 with rfl | h1
      · exact Or.inl hm
      · exact Or.inr (Or.inr (Or.inl h1))
    · exact Or.inr (Or.inr (Or.inr h1))
  · obtain ⟨s, hs, hok, -, -⟩ := doubletStep_spec hv hp
    refine ⟨_, by simp only [hm, if_false, hs, Option.map_some]; rfl, ?_, ?_, ?_⟩
    · have hin : ∀ d, d ∈ (if s.src1 ∈ st.solved then
          (if s.src0 ∈ st.solved then st.newt else sins s.src0 st.newt)
          else sins s.src1 (if s.src0 ∈ st.solved then st.newt else sins s.src0 st.newt)) →
          d = s.src0 ∨ d = s.src1 ∨ d ∈ st.newt := by
        intro d hd
        split at hd
        · split at hd
          · exact Or.inr (Or.inr hd)
          · rcases mem_sins.1 hd with hd | hd
            · exact Or.inl hd
            · exact Or.inr (Or.inr hd)
        · rcases mem_sins.1 hd with hd | hd
          · exact Or.inr (Or.inl hd)
          · split at hd
            · exact Or.inr (Or.inr hd)
            · rcases mem_sins.1 hd with hd | hd
              · exact Or.inl hd
              · exact Or.inr (Or.inr hd)
      have hout : ∀ d, d ∈ st.newt → d ∈ (if s.src1 ∈ st.solved then
          (if s.src0 ∈ st.solved then st.newt else sins s.src0 st.newt)
          else sins s.src1 (if s.src0 ∈ st.solved then st.newt else sins s.src0 st.newt)) := by
        intro d hd
        split <;> split <;> simp [mem_sins, hd]
      have ho0 : s.src0 ∈ st.solved ∨ s.src0 ∈ (if s.src1 ∈ st.solved then
          (if s.src0 ∈ st.solved then st.newt else sins s.src0 st.newt)
          else sins s.src1 (if s.src0 ∈ st.solved then st.newt else sins s.src0 st.newt)) := by
        by_cases h0 : s.src0 ∈ st.solved
        · exact Or.inl h0
        · right; simp only [h0, if_false]; split <;> simp [mem_sins]
      have ho1 : s.src1 ∈ st.solved ∨ s.src1 ∈ (if s.src1 ∈ st.solved then
          (if s.src0 ∈ st.solved then st.newt else sins s.src0 st.newt)
          else sins s.src1 (if s.src0 ∈ st.solved then st.newt else sins s.src0 st.newt)) := by
        by_cases h0 : s.src1 ∈ st.solved
        · exact Or.inl h0
        · right; simp only [h0, if_false]; simp [mem_sins]
      constructor
      · intro d hd
        rcases mem_sins.1 hd with rfl | hd
        · exact ⟨hv, hp⟩
        · exact h.sv d hd
      · intro s' hs'
        rcases List.mem_append.1 hs' with hs' | hs'
        · exact ⟨mem_sins.2 (Or.inr (h.ste s' hs').1), (h.ste s' hs').2⟩
        · rw [List.mem_singleton] at hs'
          subst hs'
          rw [hok.target]
          exact ⟨mem_sins.2 (Or.inl rfl), hs⟩
      · intro d hd
        rcases mem_sins.1 hd with rfl | hd
        · exact ⟨s, by simp, hok.target⟩
        · obtain ⟨s', h1, h2⟩ := h.hs d hd
          exact ⟨s', List.mem_append_left _ h1, h2⟩
      · simp only [List.map_append, List.map_cons, List.map_nil]
        rw [List.nodup_append]
        refine ⟨h.nd, by simp, ?_⟩
        intro a ha b hb
        rw [List.mem_singleton] at hb
        obtain ⟨s', h1, rfl⟩ := List.mem_map.1 ha
        rw [hb, hok.target]
        intro he
        exact hm (he ▸ (h.ste s' h1).1)
      · intro s' hs' d hd
        rcases List.mem_append.1 hs' with hs' | hs'
        · rcases h.cl s' hs' d hd with h1 | h1 | h1 | h1
          · exact Or.inl (mem_sins.2 (Or.inr h1))
          · exact Or.inr (Or.inl (hout d h1))
          · rcases List.mem_cons.1 h1 with rfl | h1
            · exact Or.inl (mem_sins.2 (Or.inl rfl))
            · exact Or.inr (Or.inr (Or.inl h1))
          · exact Or.inr (Or.inr (Or.inr h1))
        · rw [List.mem_singleton] at hs'
          subst hs'
          rcases hd with rfl | rfl
          · rcases ho0 with h1 | h1
            · exact Or.inl (mem_sins.2 (Or.inr h1))
            · exact Or.inr (Or.inl h1)
          · rcases ho1 with h1 | h1
            · exact Or.inl (mem_sins.2 (Or.inr h1))
            · exact Or.inr (Or.inl h1)
      · intro d hd
        have e0 := hok.a0
        have e1 := hok.a1
        rw [stepped_am] at hN
        rcases hin d hd with rfl | rfl | hd
        · exact ⟨hok.v0, by rw [stepped_am, e0]; omega⟩
        · exact ⟨hok.v1, by rw [stepped_am, e1]; omega⟩
        · exact h.nw d hd
    · exact mem_sins.2 (Or.inl rfl)
    · intro d hd; exact mem_sins.2 (Or.inr hd)

theorem loopRound_inv {ty : RRType} {N : ℤ} : ∀ {ts : List Dbl} {st : LoopSt},
    LInv ty N (· ∈ ts) st →
    (∀ t ∈ ts, t.Valid ∧ 0 < (t.stepped ty).am ∧ (t.stepped ty).am ≤ N) →
    ∃ st', loopRound ty ts st = some st' ∧ LInv ty N (fun _ => False) st' ∧
      (∀ t ∈ ts, t ∈ st'.solved) ∧ (∀ d ∈ st.solved, d ∈ st'.solved)
  | [], st, h, _ => ⟨st, rfl, by simpa using h, by simp, fun _ => id⟩
  | t :: ts, st, h, hts => by
    obtain ⟨hv, hp, hN⟩ := hts t (by simp)
    obtain ⟨st1, e1, i1, m1, s1⟩ := loopBody_inv h hv hp hN
    obtain ⟨st2, e2, i2, m2, s2⟩ := loopRound_inv i1 (fun t' ht' => hts t' (by simp [ht']))
    refine ⟨st2, by simp [loopRound, e1, e2], i2, ?_, fun d hd => s2 d (s1 d hd)⟩
    intro t' ht'
    rcases List.mem_cons.1 ht' with rfl | ht'
    · exact s2 _ m1
    · exact m2 _ ht'

theorem mem_pruneKeep {ty : RRType} {l : List Dbl} {d : Dbl} :
    d ∈ pruneKeep ty l ↔ d ∈ l ∧ (d.stepped ty).Valid ∧ (d.stepped ty).am ≠ 0 := by
  simp [pruneKeep]

theorem Dbl.Valid.stepped {d : Dbl} (h : d.Valid) (ty : RRType) : (d.stepped ty).Valid := by
  unfold Dbl.stepped; split
  · exact h.1
  · exact h.2

theorem doubletLoop_inv {ty : RRType} {enum : List Dbl → List Dbl} (he : EnumOK enum) :
    ∀ (f : ℕ) (targets : List Dbl) (steps : List HRRStep) (solved pruned : List Dbl),
    LInv ty 0 (· ∈ targets) ⟨steps, [], solved⟩ →
    (∀ t ∈ targets, t.Valid ∧ 0 < (t.stepped ty).am ∧ (t.stepped ty).am ≤ f) →
    ∃ r, doubletLoop ty enum f targets steps solved pruned = some r ∧
      LInv ty 0 (fun _ => False) ⟨r.1, [], r.2.1⟩ ∧
      (∀ t ∈ targets, t ∈ r.2.1) ∧ (∀ d ∈ solved, d ∈ r.2.1) := by
  intro f
  induction f with
  | zero =>
    intro targets steps solved pruned h ht
    have : targets = [] := by
      rcases targets with _ | ⟨t, ts⟩
      · rfl
      · obtain ⟨-, h1, h2⟩ := ht t (by simp)
        simp at h2; omega
    subst this
    exact ⟨_, by unfold doubletLoop; simp; rfl, by simpa using h, by simp, fun _ => id⟩
  | succ f ih =>
    intro targets steps solved pruned h ht
    by_cases hn : targets = []
    · subst hn
      exact ⟨_, by unfold doubletLoop; simp; rfl, by simpa using h, by simp, fun _ => id⟩
    · have h' : LInv ty ((f : ℤ) + 1) (· ∈ enum targets) ⟨steps, [], solved⟩ := by
        refine ⟨h.sv, h.ste, h.hs, h.nd, ?_, by simp⟩
        intro s hs d hd
        have := h.cl s hs d hd
        simpa [he targets d] using this
      obtain ⟨st, e1, i1, m1, s1⟩ := loopRound_inv h' (fun t ht' => by
        have := ht t ((he _ _).1 ht')
        simpa using this)
      have i2 : LInv ty 0 (· ∈ pruneKeep ty st.newt) ⟨st.steps, [], st.solved⟩ := by
        refine ⟨i1.sv, i1.ste, i1.hs, i1.nd, ?_, by simp⟩
        intro s hs d hd
        rcases i1.cl s hs d hd with h1 | h1 | h1 | h1
        · exact Or.inl h1
        · by_cases h0 : (d.stepped ty).am = 0
          · exact Or.inr (Or.inr (Or.inr h0))
          · exact Or.inr (Or.inr (Or.inl
              (mem_pruneKeep.2 ⟨h1, (i1.nw d h1).1.stepped ty, h0⟩)))
        · exact h1.elim
        · exact Or.inr (Or.inr (Or.inr h1))
      obtain ⟨r, e2, i3, m3, s3⟩ := ih (pruneKeep ty st.newt) st.steps st.solved
        (pruneDrop ty st.newt ++ pruned) i2 (fun t ht' => by
          obtain ⟨h1, h2, h3⟩ := mem_pruneKeep.1 ht'
          obtain ⟨h4, h5⟩ := i1.nw t h1
          have := h2.am_nonneg
          exact ⟨h4, by omega, by omega⟩)
      refine ⟨r, ?_, i3, ?_, fun d hd => s3 d (s1 d hd)⟩
      · rw [doubletLoop]; simp only [hn, if_false, e1, Option.bind_some, e2]
      · intro t ht'
        exact s3 t (m1 t ((he _ _).2 ht'))

/-! ## One side of `Create` -/

/-- What `Create` guarantees about one side; `init` are the requested AM pairs. -/
structure SideOK (init : List (ℤ × ℤ)) (S : Side) : Prop where
  sv : ∀ d ∈ S.solved, d.Valid ∧ 0 < steppedAM S.type d.am2
  ste : ∀ s ∈ S.steps, s.target ∈ S.solved ∧ doubletStep S.type s.target = some s
  hs : ∀ d ∈ S.solved, ∃ s ∈ S.steps, s.target = d
  nd : (S.steps.map HRRStep.target).Nodup
  cl : ∀ s ∈ S.steps, ∀ d, (d = s.src0 ∨ d = s.src1) →
    d.Valid ∧ (d ∈ S.solved ∨ steppedAM S.type d.am2 = 0)
  init : ∀ d : Dbl, d.Valid → d.am2 ∈ init → 0 < steppedAM S.type d.am2 → d ∈ S.solved

theorem createSide_ok {ord : ℕ → List Exp} (ho : OrdOK ord) (hst : OrdStart ord)
    {enum : List Dbl → List Dbl} (he : EnumOK enum) {ty : RRType} {ams : List (ℤ × ℤ)} {f : ℕ}
    (hv : ∀ p ∈ ams, 0 ≤ p.1 ∧ 0 ≤ p.2) (hf : ∀ p ∈ ams, steppedAM ty p ≤ f) :
    ∃ S, createSide ord enum f ty ams = some S ∧ S.type = ty ∧ SideOK ams S := by
  set init := (ams.flatMap fun p => doubletTargets ord p.1.toNat p.2.toNat).dedup with hinit
  have hmem : ∀ d : Dbl, d ∈ init ↔ d.Valid ∧ d.am2 ∈ ams := by
    intro d
    rw [hinit, List.mem_dedup, List.mem_flatMap]
    constructor
    · rintro ⟨p, hp, hd⟩
      have hd := (mem_doubletTargets ho hst).1 hd
      obtain ⟨h1, h2⟩ := hv p hp
      refine ⟨⟨hd.1.valid, hd.2.valid⟩, ?_⟩
      have : d.am2 = p := by
        unfold Dbl.am2
        rw [hd.1.am_eq, hd.2.am_eq]
        ext <;> simp [h1, h2]
      exact this ▸ hp
    · rintro ⟨h1, h2⟩
      exact ⟨d.am2, h2, (mem_doubletTargets ho hst).2
        ⟨isComp_of_valid h1.1, isComp_of_valid h1.2⟩⟩
  have hk : ∀ t ∈ pruneKeep ty init,
      t.Valid ∧ 0 < (t.stepped ty).am ∧ (t.stepped ty).am ≤ f := by
    intro t ht
    obtain ⟨h1, h2, h3⟩ := mem_pruneKeep.1 ht
    obtain ⟨h4, h5⟩ := (hmem t).1 h1
    have := h2.am_nonneg
    refine ⟨h4, by omega, ?_⟩
    rw [stepped_am]; exact hf _ h5
  obtain ⟨r, e, i, m, -⟩ := doubletLoop_inv (ty := ty) he f (pruneKeep ty init) [] []
    (pruneDrop ty init) ⟨by simp, by simp, by simp, by simp, by simp, by simp⟩ hk
  refine ⟨⟨ty, r.1.reverse, r.2.1⟩, by simp only [createSide, ← hinit, e, Option.map_some], rfl, ?_⟩
  constructor
  · intro d hd
    have := i.sv d hd
    rwa [stepped_am] at this
  · intro s hs; exact i.ste s (List.mem_reverse.1 hs)
  · intro d hd
    obtain ⟨s, h1, h2⟩ := i.hs d hd
    exact ⟨s, List.mem_reverse.2 h1, h2⟩
  · simpa using i.nd
  · intro s hs d hd
    have hs := List.mem_reverse.1 hs
    obtain ⟨h1, h2⟩ := i.ste s hs
    obtain ⟨h3, h4⟩ := i.sv _ h1
    obtain ⟨s', h5, h6, -⟩ := doubletStep_spec h3 h4
    rw [h2, Option.some.injEq] at h5
    subst h5
    have hval : d.Valid := by rcases hd with rfl | rfl; exacts [h6.v0, h6.v1]
    refine ⟨hval, ?_⟩
    rcases i.cl s hs d hd with h | h | h | h
    · exact Or.inl h
    · simp at h
    · exact h.elim
    · right; rwa [stepped_am] at h
  · intro d hd hd2 hp
    refine m d (mem_pruneKeep.2 ⟨(hmem d).2 ⟨hd, hd2⟩, hd.stepped ty, ?_⟩)
    rw [stepped_am]; exact ne_of_gt hp

end Simint
