import Verif.Py.Monad

/-! # Vocabulary for scale models

A scale model in the sense of Froude: all lengths are multiplied by one factor `lam` and all times by its
square root; gravity and the densities are those of the prototype. The factor of every other quantity
follows. -/

open PF
noncomputable section

namespace Scale

/-- the number times a factor -/
def times (k : ℝ) (x : PF) : PF := fin k * x

/-- lengths: heights, depths, widths, levels, stone diameters; pressures (density, gravity, length) -/
def len (lam : ℝ) : PF → PF := times lam
/-- periods -/
def time (lam : ℝ) : PF → PF := times (√lam)
/-- velocities: length over time -/
def vel (lam : ℝ) : PF → PF := times (√lam)
/-- forces per metre: pressure times length -/
def area (lam : ℝ) : PF → PF := times (lam ^ 2)
/-- discharges per metre: length times velocity -/
def disch (lam : ℝ) : PF → PF := times (lam * √lam)
/-- volumes, masses, moments per metre -/
def vol (lam : ℝ) : PF → PF := times (lam ^ 3)

/-- a dispersion solver (wave number from angular frequency, depth and gravity) that follows the scale:
frequencies are inverse times, wave numbers inverse lengths -/
def Dispersion (disper : PF → PF → PF → PF) : Prop :=
  ∀ lam : ℝ, 0 < lam → ∀ w h g,
    disper (times (1 / √lam) w) (len lam h) g = times (1 / lam) (disper w h g)

/-- the same on deep water, which the code expresses by a depth of 1e100 m -/
def DeepDispersion (disper : PF → PF → PF → PF) : Prop :=
  ∀ lam : ℝ, 0 < lam → ∀ w, disper (times (1 / √lam) w) 1e100 9.81 = times (1 / lam) (disper w 1e100 9.81)

end Scale
end
