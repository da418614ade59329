import Verif.Cpu50.Ros

/-!
# Model 2050: helpers for the effect of single microinstructions
-/

namespace Verif.Cpu50

/-- The whole of a byte through both halves of the mover. -/
theorem mov_whole (u : B) : u &&& 240#8 ||| u &&& 15#8 = u := by
  rw [← BitVec.and_or_distrib_left]
  show u &&& 255#8 = u
  exact BitVec.and_allOnes

end Verif.Cpu50
