import Verif.Hsum

/-! With the loop over the lanes, the loops of `Verif/Hsum.lean` are those of `Verif/Driver.lean`. -/

set_option autoImplicit false

namespace Simint

section
variable {F : Type} [Add F] [Zero F] [Mul F] [LinearOrder F]

theorem contractAllBy_lanes (len size ncart : ℕ) (src : ℕ → ℕ → F) (ptr : ℕ) (b : ℕ → F) :
    contractAllBy (.lanes len) size ncart src ptr b = contractAll size len ncart src ptr b := by
  unfold contractAllBy contractAll contract AllSum.adds
  rw [List.map_flatMap]
  simp only [List.map_map, Function.comp_def, Nat.zero_mul, Nat.add_zero]

theorem braPrimsBy_lanes (e : DEnv F) : braPrimsBy e (.lanes e.len) = braPrims e := by
  have h1 : accumulateBy e (.lanes e.len) = accumulate e := by
    funext offs last ptr src mem
    unfold accumulateBy accumulate
    simp only [contractAllBy_lanes]
  have h2 : vecStepBy e (.lanes e.len) = vecStep e := by
    funext cd nb jend i st j
    unfold vecStepBy vecStep
    simp only [h1]
  have h3 : braPrimBy e (.lanes e.len) = braPrim e := by
    funext abcd cd nb js je mem i
    unfold braPrimBy braPrim
    simp only [h2]
  funext abcd cd nb js je is ie mem
  unfold braPrimsBy braPrims
  rw [h3]

theorem runDirectBy_lanes (e : DEnv F) : runDirectBy e (.lanes e.len) = runDirect e := by
  have h1 : batchDirectBy e (.lanes e.len) = batchDirect e := by
    funext is ie st b
    unfold batchDirectBy batchDirect
    simp only [braPrimsBy_lanes]
  have h2 : bodyDirectBy e (.lanes e.len) = bodyDirect e := by
    funext st ab
    unfold bodyDirectBy bodyDirect
    simp only [h1]
  funext final out
  unfold runDirectBy runDirect
  simp only [h2]

theorem runHrrBy_lanes (e : DEnv F) : runHrrBy e (.lanes e.len) = runHrr e := by
  have h1 : batchHrrBy e (.lanes e.len) = batchHrr e := by
    funext h final ab is ie st b
    unfold batchHrrBy batchHrr
    simp only [braPrimsBy_lanes]
  have h2 : bodyHrrBy e (.lanes e.len) = bodyHrr e := by
    funext h final st ab
    unfold bodyHrrBy bodyHrr
    simp only [h1]
  funext h final hmem out
  unfold runHrrBy runHrr
  simp only [h2]

end

end Simint
