import Verif.Py.Monad
import Mathlib.Topology.Instances.Real.Lemmas

/-! # Small changes of the inputs (C95)

`X` is whatever the inputs depend on: one number, several numbers at a time, or a curve through all of them.  The
theorems take every input of a call as a continuous function of `x : X`; with `X` the set of all admissible inputs and
the inputs themselves as functions this is continuity in all inputs together. -/

open PF

/-- every call returns a number, and the number changes continuously -/
def VariesContinuously {X : Type} [TopologicalSpace X] (call : X → PyM PF) : Prop :=
  ∃ r : X → ℝ, Continuous r ∧ ∀ x, (call x).res = .ok (fin (r x))

/-- every call returns a number, but the number jumps somewhere -/
def Jumps {X : Type} [TopologicalSpace X] (call : X → PyM PF) : Prop :=
  ∃ r : X → ℝ, ¬ Continuous r ∧ ∀ x, (call x).res = .ok (fin (r x))

/-- an input that is a positive number and changes continuously -/
def PositiveInput {X : Type} [TopologicalSpace X] (f : X → ℝ) : Prop := Continuous f ∧ ∀ x, 0 < f x

/-- the number of waves does not pass 5000, where Van der Meer's (1988) correction for long storms begins -/
def SameDuration {X : Type} (N : X → ℝ) : Prop := (∀ x, N x ≤ 5000) ∨ ∀ x, 5000 < N x

/-- the slope does not pass 1:4, from where on Van der Meer's formula for plunging waves holds for all waves -/
def SameSlopes {X : Type} (cot : X → ℝ) : Prop := (∀ x, cot x < 4) ∨ ∀ x, 4 ≤ cot x

/-- the roughness factor follows the published line: a smooth slope, or breaking waves, or a slope without a berm and
Iribarren numbers up to 10 -/
def RoughnessOnLine {X : Type} (gf gb xi : X → ℝ) : Prop :=
  (∀ x, gf x = 1) ∨ (∀ x, gb x * xi x < 1.8) ∨ ∀ x, gb x = 1 ∧ xi x ≤ 10
