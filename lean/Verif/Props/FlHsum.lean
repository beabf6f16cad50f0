import Verif.HsumLanes
import Verif.Props.FlFunction

/-!
# Property C103: complete functions in builds with different orders of addition

The error bounds of the complete functions (C88 and those that build on it) hold for every variant of `contract_all`; here:
how much two builds can differ.
-/

set_option autoImplicit false

open Real Finset

namespace Simint

open FlBoys (Arith)

/-- C103: with the loop over the lanes, the function runs the loops of `Verif/Driver.lean`. -/
theorem C103_lanes (F : Arith) (b : Build) (hb : ∀ len, b.all len = .lanes len) (g : GenCfg) (final : QAM)
    (c : Call ℝ) (hmem : HMem (Fd F)) (out : ℕ → Fd F) :
    flFunction F b g final c hmem out = (g.algos final).bind fun HA =>
      if HA.1.hasHRR then runHrr (flEnv F b g final c HA.1 HA.2) (flHrr F b g final c HA.1) final hmem out
      else runDirect (flEnv F b g final c HA.1 HA.2) final out := by
  unfold flFunction
  congr 1
  funext HA
  rw [hb, show runHrrBy (flEnv F b g final c HA.1 HA.2) (.lanes c.len) = runHrr (flEnv F b g final c HA.1 HA.2) from
      runHrrBy_lanes _,
    show runDirectBy (flEnv F b g final c HA.1 HA.2) (.lanes c.len) = runDirect (flEnv F b g final c HA.1 HA.2) from
      runDirectBy_lanes _]

/-- **C103, two builds.** The same call in two builds of the same vector length with different variants of
`contract_all`: the integrals differ by at most twice the bound. -/
theorem C103_builds {F : Arith} (hF : Sound F) (hst : Stable F) (b : Build) {g : GenCfg} (hg : g.OK)
    {final : QAM} (hf : ClassOK final) (hL : totalL final ≤ 24) {c : Call ℝ} (hc : CallOK final c)
    (all : (len : ℕ) → AllSum len)
    {S T : ℕ → PairData} {R : ℝ} (hS : HoldsFl F c.P (tightStart c.P.nprim12) S R)
    (hT : HoldsFl F c.Q (paddedStart c.len c.Q.nprim12) T R) {kb : ℕ} (hkb : kb ≤ 2 ^ 19)
    (hboys : BoysOK F c b.vec (totalL final) kb)
    (hn : ∀ ab < c.P.nclip, ∀ cd < c.Q.nclip, c.P.nprim12 ab * c.Q.nprim12 cd ≤ 2 ^ 49)
    (hov : ∀ ab < c.P.nclip, ∀ cd < c.Q.nclip,
      4 * (sizeMax F c S T R ab cd (totalL final) * (2 + 2 * R) ^ totalL final) ≤ 2 ^ 1022)
    (hmem : HMem (Fd F)) (out : ℕ → Fd F) (hout : ∀ k, IsDouble F (out k).val) :
    ∃ o o', flFunction F b g final c hmem out = some (c.P.nclip * c.Q.nclip, o) ∧
      flFunction F { b with all := all } g final c hmem out = some (c.P.nclip * c.Q.nclip, o') ∧
      ∀ ab < c.P.nclip, ∀ cd < c.Q.nclip, ∀ x y z w : Exp, x.Valid → y.Valid → z.Valid → w.Valid →
        x.am = final.a → y.am = final.b → z.am = final.c → w.am = final.d →
        |(o ((ab * c.Q.nclip + cd) * ncartQ final + Qrt.index psi4List ⟨⟨x, y⟩, ⟨z, w⟩, 0⟩)).val -
            (o' ((ab * c.Q.nclip + cd) * ncartQ final + Qrt.index psi4List ⟨⟨x, y⟩, ⟨z, w⟩, 0⟩)).val| ≤
          2 * (errCount kb final (c.P.nprim12 ab * c.Q.nprim12 cd) * (1 / 2 ^ 52) *
            (sizeMax F c S T R ab cd (totalL final) *
              (2 + 2 * R) ^ (min final.a final.b + min final.c final.d).toNat)) := by
  obtain ⟨o, r, h1, _⟩ := C88_function hF hst b hg hf hL hc hS hT hkb hboys hn hov hmem out hout
  obtain ⟨o', r', h1', _⟩ := C88_function hF hst { b with all := all } hg hf hL hc hS hT hkb hboys hn hov hmem out hout
  refine ⟨o, o', r, r', fun ab hab cd hcd x y z w vx vy vz vw ex ey ez ew => ?_⟩
  have g1 := abs_le.1 (h1 ab hab cd hcd x y z w vx vy vz vw ex ey ez ew)
  have g2 := abs_le.1 (h1' ab hab cd hcd x y z w vx vy vz vw ex ey ez ew)
  exact abs_le.2 ⟨by linarith [g1.1, g2.2], by linarith [g1.2, g2.1]⟩

end Simint
