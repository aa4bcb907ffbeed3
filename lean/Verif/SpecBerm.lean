import Mathlib.Analysis.SpecialFunctions.Trigonometric.Basic

/-! # The published reduction by a berm -/

noncomputable section
namespace Published

/-- TAW (2002), EurOtop (2018): reduction by a berm of width `B` at depth `d` below the water line, between slopes
with cotangents `cd` and `cu`; never below 0.6 or above 1 -/
def bermFactor (H cd cu B d : ℝ) : ℝ :=
  max (min (1 - B / (H * cd + B + H * cu) * (1 - (0.5 - 0.5 * Real.cos (Real.pi * d / (2 * H))))) 1) 0.6

end Published
end
