import Verif.Py.Monad

/-! # Rock given by its size or by its mass (C90) -/

open PF

/-- The rock of a calculation may be given by its nominal diameter (first argument of `f`, NaN if left out) or by its
mass (second argument); `rho` is the density of that rock. -/
structure SizeOrMass {α : Type} (rho : PF) (f : PF → PF → PyM α) : Prop where
  /-- the mass of a cube of rock gives the same result, warnings included, as the side of the cube -/
  mass : ∀ D r : ℝ, 0 < D → 0 < r → rho = fin r → f nan (fin (r * D ^ 3)) = f (fin D) nan
  /-- without density the rock is taken as 2650 kg/m³ -/
  no_density : ∀ D : ℝ, 0 < D → rho = nan → (f nan (fin (2650 * D ^ 3))).res = (f (fin D) nan).res
  /-- a mass next to a diameter is not looked at -/
  both : ∀ D M : PF, D ≠ nan → f D M = f D nan
  /-- one of the two is needed -/
  neither : (f nan nan).res = .error .valueError
