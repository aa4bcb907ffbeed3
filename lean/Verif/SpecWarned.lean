import Verif.Py.Monad

/-! # Impossible results -/

open PF

/-- a size, height, damage or run-up level that is zero or negative comes with at least one warning -/
def ImpossibleIsReported (m : PyM PF) : Prop := ∀ v : ℝ, m.res = .ok (fin v) → v ≤ 0 → m.warns ≠ []

/-- the same for results that come with a flag -/
def ImpossibleIsReportedWithFlag (m : PyM (PF × Bool)) : Prop :=
  ∀ (v : ℝ) (f : Bool), m.res = .ok (fin v, f) → v ≤ 0 → m.warns ≠ []

/-- a negative result without a warning -/
def SilentlyNegative (m : PyM PF) : Prop := ∃ v : ℝ, v < 0 ∧ m = ⟨[], .ok (fin v)⟩

/-- a result that is not a number or infinite comes with at least one warning -/
def NoNumberIsReported (m : PyM PF) : Prop := ∀ v, m.res = .ok v → (∀ r : ℝ, v ≠ fin r) → m.warns ≠ []

/-- the call returns no number and says nothing -/
def SilentlyNotANumber (m : PyM PF) : Prop := m = ⟨[], .ok nan⟩

/-- the call returns an infinite number and says nothing -/
def SilentlyInfinite (m : PyM PF) : Prop := m = ⟨[], .ok pinf⟩
