import Verif.Py.Monad

/-! # Vocabulary for validity ranges -/

open PF
noncomputable section

/-- a quantity and the range in which a formula was validated -/
structure Limit where
  name : String
  value : PF
  lo : PF
  hi : PF

/-- the quantity lies outside the range -/
def Limit.Violated (l : Limit) : Prop := l.value < l.lo ∨ l.hi < l.value

/-- the call returns, and its warnings are exactly those about the quantities outside their ranges, each
naming the quantity, the formula, the value and the range -/
def WarnsExactly {α : Type} (m : PyM α) (formula : String) (limits : List Limit) : Prop :=
  (∃ a, m.res = .ok a) ∧
  ∀ w, w ∈ m.warns ↔ ∃ l ∈ limits, l.Violated ∧ w = .range l.name formula l.value l.lo l.hi

/-- nothing outside its range: no warning -/
theorem WarnsExactly.silent {α : Type} {m : PyM α} {formula : String} {limits : List Limit}
    (h : WarnsExactly m formula limits) (hv : ∀ l ∈ limits, ¬ l.Violated) : m.warns = [] := by
  rw [List.eq_nil_iff_forall_not_mem]
  intro w hw
  obtain ⟨l, hl, hv', -⟩ := (h.2 w).mp hw
  exact hv l hl hv'

/-- the call never warns that this quantity is out of range -/
def NeverWarnsAbout {α : Type} (m : PyM α) (name : String) : Prop :=
  ∀ formula value lo hi, Warn.range name formula value lo hi ∉ m.warns

/-! ### The dimensionless numbers of coastal engineering -/

namespace Textbook

/-- wave steepness: height over deep-water wave length `g T² / 2π` -/
def steepness (H T : ℝ) : ℝ := H / (9.81 * T ^ 2 / (2 * Real.pi))
/-- Iribarren number (surf similarity): slope over the root of the steepness -/
def iribarren (H T cot : ℝ) : ℝ := 1 / (cot * √(steepness H T))
/-- relative buoyant density -/
def Delta (rho_rock rho_water : ℝ) : ℝ := (rho_rock - rho_water) / rho_water
/-- stability number -/
def Ns (H D rho_rock rho_water : ℝ) : ℝ := H / (Delta rho_rock rho_water * D)

end Textbook

end
