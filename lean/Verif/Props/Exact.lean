import Verif.ExactLemmas

/-! # C67: which classes the two stages form -/

set_option autoImplicit false

namespace Simint

theorem isLeft_bra (q : QAM) : (hrrDirections q).1.isLeft = decide (q.a < q.b) := by
  unfold hrrDirections; by_cases e : q.a < q.b <;> simp [e, RRType.isLeft]

theorem isLeft_ket (q : QAM) : (hrrDirections q).2.isLeft = decide (q.c < q.d) := by
  unfold hrrDirections; by_cases e : q.c < q.d <;> simp [e, RRType.isLeft]

/-- **C67.** The horizontal stage of the function for `(a b|c d)` asks the vertical stage for exactly the
classes `(e 0|f 0)` with `a ≤ e ≤ a + b`, `c ≤ f ≤ c + d` (the center with the smaller angular momentum is
emptied), and forms exactly the classes in between, each once. -/
theorem C67_horizontal {g : GenCfg} (hg : g.OK) {q : QAM} (hv : q.Valid) :
    ∃ H A, g.algos q = some (H, A) ∧
      (∀ t, t ∈ H.top ↔ HTop (decide (q.a < q.b)) (decide (q.c < q.d)) q t) ∧
      (∀ t, t ∈ H.order ↔ HFormed (decide (q.a < q.b)) (decide (q.c < q.d)) q t) ∧ H.order.Nodup := by
  have hv1 : ∀ p ∈ [q], p.Valid := by simp [hv]
  obtain ⟨H, A, e, h⟩ := algosFor_pre hg (hrrDirections_ok q).1 (hrrDirections_ok q).2 hv1
  refine ⟨H, A, e, fun t => ?_, fun t => ?_, h.hok.inv.nd⟩
  · rw [h.top_iff hg hv1, isLeft_bra, isLeft_ket]; simp
  · rw [h.order_iff hg hv1, isLeft_bra, isLeft_ket]; simp

/-- **C67.** The vertical stage of the function for `(a b|c d)` forms exactly the classes of `VFormed`, each
once, with angular momentum only on the centers that keep it; the step lowers the pair with the smaller sum
first. -/
theorem C67_vertical {g : GenCfg} (hg : g.OK) {q : QAM} (hv : q.Valid) :
    ∃ H A, g.algos q = some (H, A) ∧ A.order.Nodup ∧
      ∀ a, a ∈ A.order ↔ a.tag = "" ∧ (if q.a < q.b then a.a = 0 else a.b = 0) ∧
        (if q.c < q.d then a.c = 0 else a.d = 0) ∧ VFormed q (a.a + a.b) (a.c + a.d) := by
  have hv1 : ∀ p ∈ [q], p.Valid := by simp [hv]
  obtain ⟨H, A, e, h⟩ := algosFor_pre hg (hrrDirections_ok q).1 (hrrDirections_ok q).2 hv1
  refine ⟨H, A, e, h.vok.ond, fun a => ?_⟩
  rw [h.vorder_iff hg hv]
  constructor
  · rintro ⟨x, y, rfl, hf⟩
    by_cases e1 : q.a < q.b <;> by_cases e2 : q.c < q.d <;> simpa [placeQ, e1, e2] using hf
  · rintro ⟨h1, h2, h3, hf⟩
    refine ⟨_, _, ?_, hf⟩
    refine QAM.ext_get (fun t => ?_) h1
    by_cases e1 : q.a < q.b <;> by_cases e2 : q.c < q.d <;> simp [e1, e2] at h2 h3 <;>
      cases t <;> simp [placeQ, QAM.get, e1, e2, h2, h3]

/-- **C67.** Step type of each class of the vertical stage. -/
theorem C67_step {g : GenCfg} (hg : g.OK) {q : QAM} (hv : q.Valid) {H : HRRAlgo} {A : VRRAlgo}
    (e : g.algos q = some (H, A)) {a : QAM} (ha : a ∈ A.order) :
    vType A.steps a = some (
      if a.c + a.d = 0 ∨ a.a + a.b ≠ 0 ∧ q.a + q.b < q.c + q.d then (if q.a < q.b then .J else .I)
      else if q.c < q.d then .L else .K) := by
  have hv1 : ∀ p ∈ [q], p.Valid := by simp [hv]
  obtain ⟨H', A', e', h⟩ := algosFor_pre hg (hrrDirections_ok q).1 (hrrDirections_ok q).2 hv1
  rw [show g.algosFor (hrrDirections q) [q] = g.algos q from rfl, e, Option.some.injEq, Prod.mk.injEq] at e'
  obtain ⟨rfl, rfl⟩ := e'
  obtain ⟨x, y, rfl, hf⟩ := (h.vorder_iff hg hv).1 ha
  rw [h.vType_eq hg hv hf]
  by_cases e1 : q.a < q.b <;> by_cases e2 : q.c < q.d <;> simp [placeQ, bt, kt, e1, e2]

/-- **C67.** Functions for derivatives: the union of these sets over the classes needed, with the tags of
the classes. -/
theorem C67_derivative {g : GenCfg} (hg : g.OK) {q : QAM} (hv : q.Valid) :
    ∃ H A, g.derivAlgos q = some (H, A) ∧
      (∀ t, t ∈ H.top ↔ ∃ p ∈ derivNeeded q, HTop (setDirections (derivNeeded q)).1.isLeft
        (setDirections (derivNeeded q)).2.isLeft p t) ∧
      (∀ t, t ∈ H.order ↔ ∃ p ∈ derivNeeded q, HFormed (setDirections (derivNeeded q)).1.isLeft
        (setDirections (derivNeeded q)).2.isLeft p t) ∧ H.order.Nodup := by
  have hv1 := (jobAms_ok (d := 1) hv (M := max (max q.a q.b) (max q.c q.d)) (by omega)).1
  obtain ⟨H, A, e, h⟩ := algosFor_pre hg (setDirections_ok (derivNeeded q)).1 (setDirections_ok (derivNeeded q)).2 hv1
  exact ⟨H, A, e, fun t => h.top_iff hg hv1, fun t => h.order_iff hg hv1, h.hok.inv.nd⟩

/-! A concrete case: `(p d|p s)`. -/

/-- The classes of both stages. -/
def exampleSets : Option (List QAM × List QAM × List QAM) :=
  ((⟨0, 100, 0, 100, id, id, id⟩ : GenCfg).algos ⟨1, 2, 1, 0, ""⟩).map fun HA => (HA.1.top, HA.1.order, HA.2.order)

#guard (exampleSets.map fun s => s.1) = some [⟨0, 3, 1, 0, ""⟩, ⟨0, 2, 1, 0, ""⟩]
#guard (exampleSets.map fun s => s.2.1) = some [⟨1, 2, 1, 0, ""⟩]
#guard (exampleSets.map fun s => s.2.2.length) = some 5
-- `(0 1|1 0)` is not formed, `(0 1|0 0)` is
#guard (exampleSets.map fun s => decide ((⟨0, 1, 1, 0, ""⟩ : QAM) ∈ s.2.2)) = some false
#guard (exampleSets.map fun s => decide ((⟨0, 1, 0, 0, ""⟩ : QAM) ∈ s.2.2)) = some true

end Simint
