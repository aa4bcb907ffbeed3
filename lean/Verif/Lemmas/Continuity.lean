import Verif.SpecContinuous
import Mathlib.Analysis.SpecialFunctions.Pow.Continuity
import Mathlib.Analysis.SpecialFunctions.Sqrt
import Mathlib.Analysis.SpecialFunctions.Log.Basic
import Mathlib.Topology.Order.OrderClosed

/-! # Tools for C95 -/

open PF

namespace ContProof

attribute [fun_prop] ContinuousAt.rpow

/-- side conditions of quotients, powers and logarithms -/
macro "cdisch" : tactic => `(tactic| first | positivity | exact Or.inl (by positivity) | assumption)

/-- continuity of an explicit expression at every point where the stated numbers are positive -/
macro "cont" : tactic => `(tactic| fun_prop (disch := cdisch))

open Lean in
/-- what is known of the inputs at one point -/
macro "inputs" "[" ts:term,* "]" x:term : tactic => do
  let mut acc : TSyntaxArray `tactic := #[]
  for t in ts.getElems do
    acc := acc.push (← `(tactic| have := And.left $t))
    acc := acc.push (← `(tactic| have := And.right $t $x))
  `(tactic| ($[$acc]*))

variable {X : Type} [TopologicalSpace X]

theorem of {call : X → PyM PF} (r : X → ℝ) (e : ∀ x, (call x).res = .ok (fin (r x)))
    (h : ∀ x, ContinuousAt r x) : VariesContinuously call :=
  ⟨r, continuous_iff_continuousAt.mpr h, e⟩

/-- on one side of `a` the result follows a formula that does not give the result at `a` -/
theorem jump_on {s : Set ℝ} {r : s → ℝ} {g : ℝ → ℝ} {a : ℝ} (ha : a ∈ s) (hs : s ∈ nhds a) (hg : ContinuousAt g a)
    (t : Set ℝ) [(nhdsWithin a t).NeBot] (e : ∀ y (hy : y ∈ s), y ∈ t → r ⟨y, hy⟩ = g y) (ne : r ⟨a, ha⟩ ≠ g a) :
    ¬ Continuous r := by
  classical
  intro h
  apply ne
  let G : ℝ → ℝ := fun y => if hy : y ∈ s then r ⟨y, hy⟩ else 0
  have hG : ContinuousOn G s := by
    rw [continuousOn_iff_continuous_restrict]
    refine h.congr fun y => ?_
    simp [G, Set.restrict]
  have h1 : Filter.Tendsto G (nhdsWithin a t) (nhds (G a)) :=
    (hG.continuousAt hs).tendsto.mono_left nhdsWithin_le_nhds
  have h2 : Filter.Tendsto g (nhdsWithin a t) (nhds (g a)) := hg.tendsto.mono_left nhdsWithin_le_nhds
  have e1 : G a = r ⟨a, ha⟩ := dif_pos ha
  rw [← e1]
  refine tendsto_nhds_unique h1 (h2.congr' ?_)
  filter_upwards [self_mem_nhdsWithin, nhdsWithin_le_nhds hs] with y hy hy2
  rw [← e y hy2 hy]
  simp only [G, dif_pos hy2]

theorem jump_right {r : Set.Ioi (0 : ℝ) → ℝ} {g : ℝ → ℝ} {a : ℝ} (ha : 0 < a) (hg : ContinuousAt g a)
    (e : ∀ y (hy : 0 < y), a < y → r ⟨y, hy⟩ = g y) (ne : r ⟨a, ha⟩ ≠ g a) : ¬ Continuous r :=
  jump_on (Set.mem_Ioi.mpr ha) (Ioi_mem_nhds ha) hg (Set.Ioi a) e ne

theorem jump_left {r : Set.Ioi (0 : ℝ) → ℝ} {g : ℝ → ℝ} {a : ℝ} (ha : 0 < a) (hg : ContinuousAt g a)
    (e : ∀ y (hy : 0 < y), y < a → r ⟨y, hy⟩ = g y) (ne : r ⟨a, ha⟩ ≠ g a) : ¬ Continuous r :=
  jump_on (Set.mem_Ioi.mpr ha) (Ioi_mem_nhds ha) hg (Set.Iio a) e ne

theorem Delta_input {ra rw : X → ℝ} (ka : Continuous ra) (kw : PositiveInput rw) (hr : ∀ x, rw x < ra x) :
    PositiveInput fun x => (ra x - rw x) / rw x := by
  have h1 := kw.1
  refine ⟨by fun_prop (disch := exact fun x => (kw.2 x).ne'), fun x => div_pos (sub_pos.mpr (hr x)) (kw.2 x)⟩

theorem PositiveInput.div' {a b : X → ℝ} (ka : PositiveInput a) (kb : PositiveInput b) :
    PositiveInput fun x => a x / b x :=
  ⟨ka.1.div kb.1 fun x => (kb.2 x).ne', fun x => div_pos (ka.2 x) (kb.2 x)⟩

theorem PositiveInput.mul' {a b : X → ℝ} (ka : PositiveInput a) (kb : PositiveInput b) :
    PositiveInput fun x => a x * b x := ⟨ka.1.mul kb.1, fun x => mul_pos (ka.2 x) (kb.2 x)⟩

theorem PositiveInput.sqrt' {a : X → ℝ} (ka : PositiveInput a) : PositiveInput fun x => √(a x) :=
  ⟨ka.1.sqrt, fun x => Real.sqrt_pos.mpr (ka.2 x)⟩

theorem const_input {a : ℝ} (h : 0 < a) : PositiveInput fun _ : X => a := ⟨continuous_const, fun _ => h⟩

theorem id_input : PositiveInput fun x : Set.Ioi (0 : ℝ) => (x : ℝ) := ⟨continuous_subtype_val, fun x => x.2⟩

end ContProof
